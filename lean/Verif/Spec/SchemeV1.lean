import Verif.Model.Scheme
import Verif.Spec.Id3v1

/-! # What an `<id3v1-tag>` says about a tag (scheme/scribbu.scm L128-139, doc/scribbu.texi) -/

namespace Scribbu.Spec.Scheme
open Scribbu Scribbu.Scheme

/-- A field as text: what iconv makes of it in UTF-8, without null characters and blanks at the end. -/
def FieldSays (E : Scheme.Env) (e : Encoding) (rsp : OnNo) (b : Bytes) (v : Val) : Prop :=
  ∃ s, Charset.toText E.lib E.mem e .UTF_8 rsp b = .ok s ∧ E.lenient s = some s ∧ v = .str s

/-- The comment and the track number, which in ID3v1.1 is at the end of the comment. -/
inductive CommentSays (E : Scheme.Env) : Bytes → Val → Val → Prop
  | v10 {c v} : ¬ Is11 c → FieldSays E .ISO_8859_1 .transliterate c v → CommentSays E c v .nil
  | v11 {c n v} : n ≠ 0 → FieldSays E .ISO_8859_1 .transliterate c v → CommentSays E (c ++ [0, n]) v (.num n.toNat)

/-- What enhanced tags have more: the genre as text, the speed, the start and the end. -/
inductive ExtSays (E : Scheme.Env) : Option ExtFields → List Val → Prop
  | none : ExtSays E none [.str [], .nil, .str [], .str []]
  | some {e g st en} : FieldSays E .ASCII .fail e.genre g → FieldSays E .ASCII .fail e.start st → FieldSays E .ASCII .fail e.stop en →
      ExtSays E (some e) [g, .num e.speed.toNat, st, en]

/-- The bytes of the tag. -/
def image (f : StdFields) : Option ExtFields → Bytes
  | none => f.image
  | some e => e.image ++ f.image

/-- A text of which an enhanced tag has more. -/
def joined (b : Bytes) (e : Option ExtFields) (more : ExtFields → Bytes) : Bytes :=
  match e with
  | none => b
  | some e => b ++ more e

/-- The slots: title, artist, album, year, comment, genre, track-no, and enh-genre, speed, start-time, end-time. The parts before
and after the track number are apart. -/
inductive V1Says (E : Scheme.Env) (f : StdFields) (e : Option ExtFields) : List Val → Val → List Val → Prop
  | mk {ti ar al ye co tr xs} :
      FieldSays E .ISO_8859_1 .transliterate (joined f.title e (·.title)) ti →
      FieldSays E .ISO_8859_1 .transliterate (joined f.artist e (·.artist)) ar →
      FieldSays E .ISO_8859_1 .transliterate (joined f.album e (·.album)) al →
      FieldSays E .ASCII .fail f.year ye → CommentSays E f.comment co tr → ExtSays E e xs →
      V1Says E f e [ti, ar, al, ye, co, .num f.genre.toNat] tr xs

/-- An object, as a program in Scheme may make it; the year is not `'()`. -/
structure V1Obj where
  title : Bytes
  artist : Bytes
  album : Bytes
  year : Bytes
  comment : Bytes
  genre : Nat
  track : Option Nat
  ext : Option (Bytes × Nat × Bytes × Bytes)

/-- Its slots. -/
def V1Obj.slots (x : V1Obj) : List Val :=
  [.str x.title, .str x.artist, .str x.album, .str x.year, .str x.comment, .num x.genre,
   (match x.track with | none => .nil | some n => .num n)] ++
  match x.ext with
  | none => [.str [], .nil, .str [], .str []]
  | some (g, s, st, en) => [.str g, .num s, .str st, .str en]

/-- A text without null characters, and without blanks at the end, of at most so many bytes. -/
def FitText (n : Nat) (b : Bytes) : Prop := (0 : Byte) ∉ b ∧ b.getLast? ≠ some 32 ∧ b.length ≤ n

/-- ASCII. -/
def Ascii (b : Bytes) : Prop := ∀ c ∈ b, c < 128

/-- There is room in a tag for everything the object says. -/
def V1Obj.Fits (x : V1Obj) : Prop :=
  let n := if x.ext = none then 30 else 90
  FitText n x.title ∧ FitText n x.artist ∧ FitText n x.album ∧ FitText (if x.track = none then 30 else 28) x.comment ∧
  (FitText 4 x.year ∧ (x.year = [] ∨ x.year.length = 4) ∧ Ascii x.year) ∧ x.genre < 256 ∧ (∀ k, x.track = some k → 0 < k ∧ k < 256) ∧
  ∀ g s st en, x.ext = some (g, s, st, en) → FitText 30 g ∧ Ascii g ∧ 0 < s ∧ s < 256 ∧
    (FitText 6 st ∧ Ascii st ∧ st.length = 6) ∧ (FitText 6 en ∧ Ascii en ∧ en.length = 6)

/-- The texts. -/
def V1Obj.texts (x : V1Obj) : List Bytes := [x.title, x.artist, x.album, x.comment]

/-- ISO-8859-1 in UTF-8. -/
def latinUtf8 (b : Bytes) : Bytes := b.flatMap fun c => if c < 128 then [c] else [0xc0 + c / 64, 0x80 + c % 64]

end Scribbu.Spec.Scheme
