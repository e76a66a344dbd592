import Verif.Model.Scheme
import Verif.Spec.Std
import Verif.Spec.Tag23
import Verif.Spec.Tagset
import Verif.Spec.Bodies

/-! Independent specification of what the Scheme API is to show: which symbol stands for which frame, and how tags are described. -/

namespace Scribbu.Spec.Scheme
open Scribbu.Scheme (Klass Val Obj TagObj Triple)
open Scribbu.Spec.Dump (Utf8)
open Scribbu.Spec.Std (TextIn)

/-- The symbols of frames, with their identifiers in ID3v2.2, if there is one, and in ID3v2.3 and 2.4: the list in scheme/scribbu.scm
L146-192. -/
def documented : List (Bytes × Option Id3 × Id4) := [
  (/- album-frame -/ [97, 108, 98, 117, 109, 45, 102, 114, 97, 109, 101], some (mkId3 'T' 'A' 'L'), mkId4 'T' 'A' 'L' 'B'),
  (/- artist-frame -/ [97, 114, 116, 105, 115, 116, 45, 102, 114, 97, 109, 101], some (mkId3 'T' 'P' '1'), mkId4 'T' 'P' 'E' '1'),
  (/- band-frame -/ [98, 97, 110, 100, 45, 102, 114, 97, 109, 101], some (mkId3 'T' 'P' '2'), mkId4 'T' 'P' 'E' '2'),
  (/- bpm-frame -/ [98, 112, 109, 45, 102, 114, 97, 109, 101], some (mkId3 'T' 'B' 'P'), mkId4 'T' 'B' 'P' 'M'),
  (/- comment-frame -/ [99, 111, 109, 109, 101, 110, 116, 45, 102, 114, 97, 109, 101], some (mkId3 'C' 'O' 'M'), mkId4 'C' 'O' 'M' 'M'),
  (/- composer-frame -/ [99, 111, 109, 112, 111, 115, 101, 114, 45, 102, 114, 97, 109, 101], some (mkId3 'T' 'C' 'M'), mkId4 'T' 'C' 'O' 'M'),
  (/- conductor-frame -/ [99, 111, 110, 100, 117, 99, 116, 111, 114, 45, 102, 114, 97, 109, 101], some (mkId3 'T' 'P' '3'), mkId4 'T' 'P' 'E' '3'),
  (/- content-group-frame -/ [99, 111, 110, 116, 101, 110, 116, 45, 103, 114, 111, 117, 112, 45, 102, 114, 97, 109, 101], some (mkId3 'T' 'T' '1'), mkId4 'T' 'I' 'T' '1'),
  (/- copyright-frame -/ [99, 111, 112, 121, 114, 105, 103, 104, 116, 45, 102, 114, 97, 109, 101], some (mkId3 'T' 'C' 'R'), mkId4 'T' 'C' 'O' 'P'),
  (/- date-frame -/ [100, 97, 116, 101, 45, 102, 114, 97, 109, 101], some (mkId3 'T' 'D' 'A'), mkId4 'T' 'D' 'A' 'T'),
  (/- encoded-by-frame -/ [101, 110, 99, 111, 100, 101, 100, 45, 98, 121, 45, 102, 114, 97, 109, 101], some (mkId3 'T' 'E' 'N'), mkId4 'T' 'E' 'N' 'C'),
  (/- file-owner-frame -/ [102, 105, 108, 101, 45, 111, 119, 110, 101, 114, 45, 102, 114, 97, 109, 101], none, mkId4 'T' 'O' 'W' 'N'),
  (/- file-type-frame -/ [102, 105, 108, 101, 45, 116, 121, 112, 101, 45, 102, 114, 97, 109, 101], some (mkId3 'T' 'F' 'T'), mkId4 'T' 'F' 'L' 'T'),
  (/- genre-frame -/ [103, 101, 110, 114, 101, 45, 102, 114, 97, 109, 101], some (mkId3 'T' 'C' 'O'), mkId4 'T' 'C' 'O' 'N'),
  (/- initial-key-frame -/ [105, 110, 105, 116, 105, 97, 108, 45, 107, 101, 121, 45, 102, 114, 97, 109, 101], some (mkId3 'T' 'K' 'E'), mkId4 'T' 'K' 'E' 'Y'),
  (/- interpreted-by-frame -/ [105, 110, 116, 101, 114, 112, 114, 101, 116, 101, 100, 45, 98, 121, 45, 102, 114, 97, 109, 101], some (mkId3 'T' 'P' '4'), mkId4 'T' 'P' 'E' '4'),
  (/- isrc-frame -/ [105, 115, 114, 99, 45, 102, 114, 97, 109, 101], some (mkId3 'T' 'R' 'C'), mkId4 'T' 'S' 'R' 'C'),
  (/- langs-frame -/ [108, 97, 110, 103, 115, 45, 102, 114, 97, 109, 101], some (mkId3 'T' 'L' 'A'), mkId4 'T' 'L' 'A' 'N'),
  (/- length-frame -/ [108, 101, 110, 103, 116, 104, 45, 102, 114, 97, 109, 101], some (mkId3 'T' 'L' 'E'), mkId4 'T' 'L' 'E' 'N'),
  (/- lyricist-frame -/ [108, 121, 114, 105, 99, 105, 115, 116, 45, 102, 114, 97, 109, 101], some (mkId3 'T' 'X' 'T'), mkId4 'T' 'E' 'X' 'T'),
  (/- media-type-frame -/ [109, 101, 100, 105, 97, 45, 116, 121, 112, 101, 45, 102, 114, 97, 109, 101], some (mkId3 'T' 'M' 'T'), mkId4 'T' 'M' 'E' 'D'),
  (/- original-album-frame -/ [111, 114, 105, 103, 105, 110, 97, 108, 45, 97, 108, 98, 117, 109, 45, 102, 114, 97, 109, 101], some (mkId3 'T' 'O' 'T'), mkId4 'T' 'O' 'A' 'L'),
  (/- original-artist-frame -/ [111, 114, 105, 103, 105, 110, 97, 108, 45, 97, 114, 116, 105, 115, 116, 45, 102, 114, 97, 109, 101], some (mkId3 'T' 'O' 'A'), mkId4 'T' 'O' 'P' 'E'),
  (/- original-filename-frame -/ [111, 114, 105, 103, 105, 110, 97, 108, 45, 102, 105, 108, 101, 110, 97, 109, 101, 45, 102, 114, 97, 109, 101], some (mkId3 'T' 'O' 'F'), mkId4 'T' 'O' 'F' 'N'),
  (/- original-lyricist-frame -/ [111, 114, 105, 103, 105, 110, 97, 108, 45, 108, 121, 114, 105, 99, 105, 115, 116, 45, 102, 114, 97, 109, 101], some (mkId3 'T' 'O' 'L'), mkId4 'T' 'O' 'L' 'Y'),
  (/- original-release-year-frame -/ [111, 114, 105, 103, 105, 110, 97, 108, 45, 114, 101, 108, 101, 97, 115, 101, 45, 121, 101, 97, 114, 45, 102, 114, 97, 109, 101], some (mkId3 'T' 'O' 'R'), mkId4 'T' 'O' 'R' 'Y'),
  (/- part-of-a-set-frame -/ [112, 97, 114, 116, 45, 111, 102, 45, 97, 45, 115, 101, 116, 45, 102, 114, 97, 109, 101], some (mkId3 'T' 'P' 'A'), mkId4 'T' 'P' 'O' 'S'),
  (/- play-count-frame -/ [112, 108, 97, 121, 45, 99, 111, 117, 110, 116, 45, 102, 114, 97, 109, 101], some (mkId3 'C' 'N' 'T'), mkId4 'P' 'C' 'N' 'T'),
  (/- playlist-delay-frame -/ [112, 108, 97, 121, 108, 105, 115, 116, 45, 100, 101, 108, 97, 121, 45, 102, 114, 97, 109, 101], some (mkId3 'T' 'D' 'Y'), mkId4 'T' 'D' 'L' 'Y'),
  (/- popm-frame -/ [112, 111, 112, 109, 45, 102, 114, 97, 109, 101], some (mkId3 'P' 'O' 'P'), mkId4 'P' 'O' 'P' 'M'),
  (/- priv-frame -/ [112, 114, 105, 118, 45, 102, 114, 97, 109, 101], none, mkId4 'P' 'R' 'I' 'V'),
  (/- publisher-frame -/ [112, 117, 98, 108, 105, 115, 104, 101, 114, 45, 102, 114, 97, 109, 101], some (mkId3 'T' 'P' 'B'), mkId4 'T' 'P' 'U' 'B'),
  (/- recording-dates-frame -/ [114, 101, 99, 111, 114, 100, 105, 110, 103, 45, 100, 97, 116, 101, 115, 45, 102, 114, 97, 109, 101], some (mkId3 'T' 'R' 'D'), mkId4 'T' 'R' 'D' 'A'),
  (/- settings-frame -/ [115, 101, 116, 116, 105, 110, 103, 115, 45, 102, 114, 97, 109, 101], some (mkId3 'T' 'S' 'S'), mkId4 'T' 'S' 'S' 'E'),
  (/- size-frame -/ [115, 105, 122, 101, 45, 102, 114, 97, 109, 101], some (mkId3 'T' 'S' 'I'), mkId4 'T' 'S' 'I' 'Z'),
  (/- station-name-frame -/ [115, 116, 97, 116, 105, 111, 110, 45, 110, 97, 109, 101, 45, 102, 114, 97, 109, 101], none, mkId4 'T' 'R' 'S' 'N'),
  (/- station-owner-frame -/ [115, 116, 97, 116, 105, 111, 110, 45, 111, 119, 110, 101, 114, 45, 102, 114, 97, 109, 101], none, mkId4 'T' 'R' 'S' 'O'),
  (/- subtitle-frame -/ [115, 117, 98, 116, 105, 116, 108, 101, 45, 102, 114, 97, 109, 101], some (mkId3 'T' 'T' '3'), mkId4 'T' 'I' 'T' '3'),
  (/- tag-cloud-frame -/ [116, 97, 103, 45, 99, 108, 111, 117, 100, 45, 102, 114, 97, 109, 101], some (mkId3 'X' 'T' 'G'), mkId4 'X' 'T' 'A' 'G'),
  (/- time-frame -/ [116, 105, 109, 101, 45, 102, 114, 97, 109, 101], some (mkId3 'T' 'I' 'M'), mkId4 'T' 'I' 'M' 'E'),
  (/- title-frame -/ [116, 105, 116, 108, 101, 45, 102, 114, 97, 109, 101], some (mkId3 'T' 'T' '2'), mkId4 'T' 'I' 'T' '2'),
  (/- track-frame -/ [116, 114, 97, 99, 107, 45, 102, 114, 97, 109, 101], some (mkId3 'T' 'R' 'K'), mkId4 'T' 'R' 'C' 'K'),
  (/- udt-frame -/ [117, 100, 116, 45, 102, 114, 97, 109, 101], some (mkId3 'T' 'X' 'X'), mkId4 'T' 'X' 'X' 'X'),
  (/- year-frame -/ [121, 101, 97, 114, 45, 102, 114, 97, 109, 101], some (mkId3 'T' 'Y' 'E'), mkId4 'T' 'Y' 'E' 'R')]

/-- How many slots objects of a class have: scheme/scribbu.scm L194-275. -/
def arity : Klass → Nat
  | .unk => 7
  | .text => 6
  | .comment => 8
  | .udt => 7
  | .playCount => 6
  | .popm => 8
  | .tagCloud => 7
  | .priv => 7
  | .other => 5

/-- A list in Scheme. -/
def list : List Val → Val
  | [] => .nil
  | v :: vs => .cons v (list vs)

/-- A string in Scheme: text in UTF-8 without null characters, which Guile takes as it is. -/
def IsText (E : Scheme.Env) (s : Bytes) : Prop := E.valid s = true ∧ 0 ∉ s

/-- Text that Guile takes as it is. -/
def IsAnyText (E : Scheme.Env) (s : Bytes) : Prop := E.lenient s = some s

/-- A tag cloud: a list of pairs of a key and the list of its values. (The last key comes first.) -/
def cloudList (m : TagMap) : Val := list (m.reverse.map fun e => .cons (.str e.1) (list (e.2.map .str)))

/-- What an object says about the contents of a frame: the class, and the slots after the common ones. -/
inductive Says (E : Scheme.Env) (v : Ver) : Body → Klass → List Val → Prop
  | text (u b s) : TextIn E.toEnv v u b s → IsText E s → Says E v (.text u b) .text [.str s]
  | comment (c : Comm) (u l d t) : c.unicode = some u → c.lang = some l → l.1 < 128 ∧ l.2.1 < 128 ∧ l.2.2 < 128 →
      IsText E [l.1, l.2.1, l.2.2] → TextIn E.toEnv v u c.desc d → IsText E d → TextIn E.toEnv v u c.text t → IsText E t →
      Says E v (.comm c) .comment [.str [l.1, l.2.1, l.2.2], .str d, .str t]
  | udt (x : Txxx) (d t) : TextIn E.toEnv v x.unicode x.desc d → IsText E d → TextIn E.toEnv v x.unicode x.text t → IsText E t →
      Says E v (.txxx x) .udt [.str d, .str t]
  | playCount (c) : c ≠ [] → c.length ≤ 4 → Says E v (.pcnt c) .playCount [.num (beNat c)]
  | popm (p : Popm) (e) : Utf8 E.toEnv (match v with | .v2 => .UTF_8 | _ => .ISO_8859_1) p.email e → IsText E e → p.counter ≠ [] →
      p.counter.length ≤ 4 → Says E v (.popm p) .popm [.str e, .num p.rating.toNat, .num (beNat p.counter)]
  | tagCloud (t : TagCloud) : IsText E t.own → (∀ e ∈ t.tags, IsText E e.1 ∧ ∀ x ∈ e.2, IsAnyText E x) →
      Says E v (.xtag t) .tagCloud [.str t.own, cloudList t.tags]

/-- The class of the objects with a symbol: scheme/scribbu.scm L201-275. -/
def classOf (s : Bytes) : Klass :=
  if s = /- comment-frame -/ [99, 111, 109, 109, 101, 110, 116, 45, 102, 114, 97, 109, 101] then .comment
  else if s = /- udt-frame -/ [117, 100, 116, 45, 102, 114, 97, 109, 101] then .udt
  else if s = /- play-count-frame -/ [112, 108, 97, 121, 45, 99, 111, 117, 110, 116, 45, 102, 114, 97, 109, 101] then .playCount
  else if s = /- popm-frame -/ [112, 111, 112, 109, 45, 102, 114, 97, 109, 101] then .popm
  else if s = /- tag-cloud-frame -/ [116, 97, 103, 45, 99, 108, 111, 117, 100, 45, 102, 114, 97, 109, 101] then .tagCloud
  else if s = /- priv-frame -/ [112, 114, 105, 118, 45, 102, 114, 97, 109, 101] then .priv
  else .text

/-- The slots `tap`, `fap`, `ro` and `unsync`: whether the frame is to be kept when the tag or the file is changed, whether it is
read-only, and (in ID3v2.4) unsynchronised. -/
def attributes (v : Ver) (f : Frame4) : List Val :=
  [.bool !f.tap, .bool !f.fap, .bool f.ro, match v with | .v4 => .bool f.unsynch | _ => .nil]

/-- What is said about a frame of ID3v2.3 or 2.4: documented kinds by their symbols; others, and PRIV, by all their bytes, unless the tag is
unsynchronised. -/
inductive FrameSays (E : Scheme.Env) (v : Ver) (unsync : Bool) (f : Frame4) : Obj → Prop
  | known (s i l) : (s, i, f.id) ∈ documented → Says E v f.body (classOf s) l →
      FrameSays E v unsync f ⟨classOf s, .sym s :: attributes v f ++ l⟩
  | unknown (w) : unsync = false → (∀ s i, (s, i, f.id) ∈ documented → s = /- priv-frame -/ [112, 114, 105, 118, 45, 102, 114, 97, 109, 101]) → f.dirty = true → PlainFrame f →
      f.body.serialize = .ok w → f.body.size = w.length → w.length < maxSize4 v → IsAnyText E [f.id.a, f.id.b, f.id.c, f.id.d] →
      0 ∉ [f.id.a, f.id.b, f.id.c, f.id.d] →
      FrameSays E v unsync f ⟨.unk, .sym /- unknown-frame -/ [117, 110, 107, 110, 111, 119, 110, 45, 102, 114, 97, 109, 101] :: attributes v f ++ [.str [f.id.a, f.id.b, f.id.c, f.id.d], .bv (frameOf v f w)]⟩

/-- What is said about a frame of ID3v2.2 of a documented kind. -/
inductive Frame22Says (E : Scheme.Env) (f : Frame22) : Obj → Prop
  | known (s i l) : (s, some f.id, i) ∈ documented → Says E .v2 f.body (classOf s) l →
      Frame22Says E f ⟨classOf s, [.sym s, .nil, .nil, .nil, .nil] ++ l⟩

/-- What is said about a tag: its frames, in order, the experimental flag, the padding, the version, whether it is unsynchronised. -/
inductive TagSays (E : Scheme.Env) : AnyTag → Triple → Prop
  | v2 (t os p) : Pairs (Frame22Says E) t.frames os → t.padding = some p → p < 2 ^ 32 →
      TagSays E (.inl t) (⟨.nil, os, .num p⟩, 2, decide (t.unsync = some true))
  | v3 (t os) : Pairs (FrameSays E .v3 (decide (t.unsync = some true))) t.frames os → t.padding < 2 ^ 32 →
      TagSays E (.inr (.inl t)) (⟨.bool t.experimental, os, .num t.padding⟩, 3, decide (t.unsync = some true))
  | v4 (t os) : Pairs (FrameSays E .v4 (decide (t.unsync = some true))) t.frames os → t.padding < 2 ^ 32 →
      TagSays E (.inr (.inr t)) (⟨.bool t.experimental, os, .num t.padding⟩, 4, decide (t.unsync = some true))

end Scribbu.Spec.Scheme
