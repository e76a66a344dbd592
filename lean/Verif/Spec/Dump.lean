import Verif.Model.Json
import Verif.Spec.Json
import Verif.Spec.Report
import Verif.Spec.Bodies

/-! # What a dump in JSON says about a file -/

namespace Scribbu.Spec.Dump
open Scribbu Spec.Json

/-- A text that a JSON string can hold as it is. -/
def Plain (s : Bytes) : Prop := ∀ c ∈ s, 32 ≤ c ∧ c ≠ 34 ∧ c ≠ 92

/-- A text in which the only control characters are backspace, tab, line feed, form feed and carriage return. -/
def Clean (s : Bytes) : Prop := ∀ c ∈ s, 32 ≤ c ∨ c = 8 ∨ c = 9 ∨ c = 10 ∨ c = 12 ∨ c = 13

/-- A text as a JSON string. -/
def str (s : Bytes) : J := .str (text s)

/-- The encoding of text in an ID3v2.3 frame: by the byte that says so, and by the byte order mark. -/
inductive Encoded : Byte → Bytes → Encoding → Prop
  | latin (b) : Encoded 0 b .ISO_8859_1
  | big (b) : Encoded 1 (0xfe :: 0xff :: b) .UCS_2BE
  | little (b) : Encoded 1 (0xff :: 0xfe :: b) .UCS_2LE
  | bare (b) : b.take 2 ≠ [0xfe, 0xff] → b.take 2 ≠ [0xff, 0xfe] → Encoded 1 b .UCS_2

/-- `s` is what iconv makes of `b` in UTF-8, taken from an encoding, without byte order mark and without null characters and blanks at
the end (`convert_encoding`). -/
def Utf8 (E : Json.Env) (e : Encoding) (b s : Bytes) : Prop :=
  (b = [] ∧ s = []) ∨ (b ≠ [] ∧ Charset.toText E.lib E.mem e .UTF_8 .fail b = .ok s)

/-- The text of contents that say which encoding they are in. -/
def TextOf (E : Json.Env) (u : Byte) (b s : Bytes) : Prop := (b = [] ∧ s = []) ∨ ∃ e, Encoded u b e ∧ Utf8 E e b s

/-- What is said about a frame of an ID3v2.3 tag. Unique file identifiers, play counters and tag clouds are missing here. -/
inductive FrameSays (E : Json.Env) (id : Bytes) : Body → J → Prop
  | unknown (d) : FrameSays E id (.unknown d) (object [(/- id -/ [105, 100], str id), (/- size -/ [115, 105, 122, 101], nat d.length)])
  | text (u t s) : TextOf E u t s → Clean s →
      FrameSays E id (.text u t) (object [(/- id -/ [105, 100], str id), (/- size -/ [115, 105, 122, 101], nat (1 + t.length)), (/- text -/ [116, 101, 120, 116], str s)])
  | txxx (x d s) : TextOf E x.unicode x.desc d → TextOf E x.unicode x.text s → Clean d → Clean s →
      FrameSays E id (.txxx x) (object [(/- id -/ [105, 100], str id), (/- size -/ [115, 105, 122, 101], nat x.size), (/- description -/ [100, 101, 115, 99, 114, 105, 112, 116, 105, 111, 110], str d), (/- text -/ [116, 101, 120, 116], str s)])
  | comm (x u d s) : x.unicode = some u → TextOf E u x.desc d → TextOf E u x.text s → Clean d → Clean s →
      FrameSays E id (.comm x) (object [(/- id -/ [105, 100], str id), (/- size -/ [115, 105, 122, 101], nat x.size), (/- description -/ [100, 101, 115, 99, 114, 105, 112, 116, 105, 111, 110], str d), (/- text -/ [116, 101, 120, 116], str s)])
  | popm (p e) : Utf8 E .ISO_8859_1 p.email e → Clean e → p.counter ≠ [] → p.counter.length ≤ 4 →
      FrameSays E id (.popm p) (object [(/- id -/ [105, 100], str id), (/- size -/ [115, 105, 122, 101], nat p.size), (/- email -/ [101, 109, 97, 105, 108], str e),
        (/- rating -/ [114, 97, 116, 105, 110, 103], nat p.rating.toNat), (/- count -/ [99, 111, 117, 110, 116], nat (beNat p.counter))])
  | encr (x e) : Utf8 E .ISO_8859_1 x.email e → Clean e →
      FrameSays E id (.encr x) (object [(/- id -/ [105, 100], str id), (/- size -/ [115, 105, 122, 101], nat x.size), (/- email -/ [101, 109, 97, 105, 108], str e)])
  | priv (x e) : Utf8 E .ISO_8859_1 x.email e → Clean e →
      FrameSays E id (.priv x) (object [(/- id -/ [105, 100], str id), (/- size -/ [115, 105, 122, 101], nat x.size), (/- email -/ [101, 109, 97, 105, 108], str e)])

/-- What is said about the frames of a tag, in their order. -/
inductive FramesSay (E : Json.Env) : List Frame4 → List J → Prop
  | nil : FramesSay E [] []
  | cons {f fs j js} : Plain [f.id.a, f.id.b, f.id.c, f.id.d] → FrameSays E [f.id.a, f.id.b, f.id.c, f.id.d] f.body j →
      FramesSay E fs js → FramesSay E (f :: fs) (j :: js)

/-- What is said about an ID3v2.3 tag; `unsync` is what is said about unsynchronisation. -/
inductive TagSays (E : Json.Env) (unsync : Tag23 → Bool) : AnyTag → J → Prop
  | v3 (t t' : Tag23) (n : Nat) (js : List J) : t.size E.z false = .ok (n, t') → FramesSay E t.frames js →
      TagSays E unsync (.inr (.inl t)) (object [(/- version -/ [118, 101, 114, 115, 105, 111, 110], str (/- 2.3 -/ [50, 46, 51])), (/- unsynchronised -/ [117, 110, 115, 121, 110, 99, 104, 114, 111, 110, 105, 115, 101, 100], .bool (unsync t)),
        (/- flags -/ [102, 108, 97, 103, 115], nat t.flags.toNat), (/- size -/ [115, 105, 122, 101], nat n), (/- padding -/ [112, 97, 100, 100, 105, 110, 103], nat t.padding), (/- frames -/ [102, 114, 97, 109, 101, 115], array js)])

/-- What is said about several tags. -/
inductive TagsSay (E : Json.Env) (unsync : Tag23 → Bool) : List AnyTag → List J → Prop
  | nil : TagsSay E unsync [] []
  | cons {t ts j js} : TagSays E unsync t j → TagsSay E unsync ts js → TagsSay E unsync (t :: ts) (j :: js)

/-- The name of the version of an ID3v1 tag. -/
def version1 (t : V1Tag) : Bytes :=
  match t.v11, t.extended with
  | false, false => /- 1 -/ [49]
  | true, false => /- 1.1 -/ [49, 46, 49]
  | false, true => /- 1-enh -/ [49, 45, 101, 110, 104]
  | true, true => /- 1.1-enh -/ [49, 46, 49, 45, 101, 110, 104]

/-- What is said about an ID3v1 tag. -/
inductive V1Says (E : Json.Env) (t : V1Tag) : J → Prop
  | mk (al ar co ti ye : Bytes) (tr ge : List (Bytes × J)) :
      Utf8 E E.v1 t.album al → Utf8 E E.v1 t.artist ar → Utf8 E E.v1 t.comment co → Utf8 E E.v1 t.title ti → Utf8 E E.v1 t.year ye →
      Plain al → Clean ar → Clean co → Clean ti → Clean ye →
      (t.v11 = false ∧ tr = [] ∨ t.v11 = true ∧ ∃ n, t.track = some n ∧ tr = [(/- track -/ [116, 114, 97, 99, 107], nat n.toNat)]) →
      (t.extended = false ∧ ge = [] ∨
        t.extended = true ∧ ∃ g, Utf8 E E.v1 t.extGenre g ∧ Clean g ∧ ge = [(/- enhanced-genre -/ [101, 110, 104, 97, 110, 99, 101, 100, 45, 103, 101, 110, 114, 101], str g)]) →
      V1Says E t (object ([(/- version -/ [118, 101, 114, 115, 105, 111, 110], str (version1 t)), (/- album -/ [97, 108, 98, 117, 109], str al), (/- artist -/ [97, 114, 116, 105, 115, 116], str ar), (/- comment -/ [99, 111, 109, 109, 101, 110, 116], str co),
        (/- genre -/ [103, 101, 110, 114, 101], nat t.genre.toNat), (/- title -/ [116, 105, 116, 108, 101], str ti), (/- year -/ [121, 101, 97, 114], str ye)] ++ tr ++ ge))

/-- What is said about the track. -/
def TrackSays (md5 : Bytes) (j : J) : Prop := ∃ h, HexPairs h md5 ∧ j = object [(/- md5 -/ [109, 100, 53], str h)]

/-- Whether something is shown: when it is asked for, or nothing is. -/
def Shown (o : Dump.Opts) (b : Bool) : Prop := b = true ∨ (o.v1 = false ∧ o.track = false ∧ o.v2 = false)

/-- What is said about a file: the ID3v2 tags, then the track, then the ID3v1 tag, as far as they are to be shown. -/
def FileSays (E : Json.Env) (unsync : Tag23 → Bool) (o : Dump.Opts) (f : Dump.Facts) (js : List J) : Prop :=
  ∃ a b c, js = a ++ b ++ c ∧
    (Shown o o.v2 ∧ TagsSay E unsync f.v2 a ∨ ¬ Shown o o.v2 ∧ a = []) ∧
    (Shown o o.track ∧ (∃ j, TrackSays f.md5 j ∧ b = [j]) ∨ ¬ Shown o o.track ∧ b = []) ∧
    (Shown o o.v1 ∧ (f.v1 = none ∧ c = [] ∨ ∃ t j, f.v1 = some t ∧ V1Says E t j ∧ c = [j]) ∨ ¬ Shown o o.v1 ∧ c = [])

/-- The files that are dumped: those on the command line and those that are come across in directories, in that order; of the latter
only the regular ones; of all only those that the expression matches. -/
inductive Dumped (w : Dump.World) (o : Dump.Opts) : List Path → List Path → Prop
  | nil : Dumped w o [] []
  | file {p ps qs} : w.item p = .file → (w.file p).regular = true → Dumped w o ps qs →
      Dumped w o (p :: ps) ([p].filter (fun p => match o.filter with | some f => f p | none => true) ++ qs)
  | dir {p ps qs es} : w.item p = .dir es false → Dumped w o ps qs →
      Dumped w o (p :: ps)
        (((es.filter (·.regular)).map (·.path)).filter (fun p => match o.filter with | some f => f p | none => true) ++ qs)

/-- What is said about several files. -/
inductive FilesSay (E : Json.Env) (unsync : Tag23 → Bool) (w : Dump.World) (o : Dump.Opts) : List Path → List (List J) → Prop
  | nil : FilesSay E unsync w o [] []
  | cons {p ps f js jss} : Dump.readFile E.z E.md5 (w.file p).data = .ok f → FileSays E unsync o f js → FilesSay E unsync w o ps jss →
      FilesSay E unsync w o (p :: ps) (js :: jss)

end Scribbu.Spec.Dump
