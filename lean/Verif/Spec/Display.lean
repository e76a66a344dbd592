import Verif.Spec.SchemeWrite

/-! # What is documented about `make` and `display` (C187, C188) -/

namespace Scribbu.Spec.Scheme
open Scribbu Scribbu.Scheme

/-- What an object says of a frame: its class, its symbol, and its contents. -/
def told (o : Obj) : Klass × Option Val × List Val := (o.cls, o.slots[0]?, o.slots.drop 5)

/-- Characters that can be seen, and spaces. -/
def visible (s : Bytes) : Prop := ∀ b ∈ s, 32 ≤ b ∧ b ≠ 127

/-- The slots of a class of frames, in order, and their values if none are given: doc/scribbu.texi, "<id3v2-frame>" to
"<unk-frame>". -/
def docSlots (c : Klass) : List (Bytes × Val) :=
  [(/- id -/ [105, 100], .sym /- unknown-frame -/ [117, 110, 107, 110, 111, 119, 110, 45, 102, 114, 97, 109, 101]), (/- tap -/ [116, 97, 112], .nil), (/- fap -/ [102, 97, 112], .nil), (/- ro -/ [114, 111], .nil), (/- unsync -/ [117, 110, 115, 121, 110, 99], .nil)] ++
  match c with
  | .text => [(/- text -/ [116, 101, 120, 116], .str [])]
  | .comment => [(/- lang -/ [108, 97, 110, 103], .str /- eng -/ [101, 110, 103]), (/- dsc -/ [100, 115, 99], .str []), (/- text -/ [116, 101, 120, 116], .str [])]
  | .udt => [(/- dsc -/ [100, 115, 99], .str []), (/- text -/ [116, 101, 120, 116], .str [])]
  | .playCount => [(/- count -/ [99, 111, 117, 110, 116], .num 0)]
  | .popm => [(/- e-mail -/ [101, 45, 109, 97, 105, 108], .str []), (/- rating -/ [114, 97, 116, 105, 110, 103], .num 0), (/- count -/ [99, 111, 117, 110, 116], .num 0)]
  | .tagCloud => [(/- owner -/ [111, 119, 110, 101, 114], .str []), (/- tags -/ [116, 97, 103, 115], .nil)]
  | .unk => [(/- frameid -/ [102, 114, 97, 109, 101, 105, 100], .str []), (/- data -/ [100, 97, 116, 97], .bv [])]
  | .priv => [(/- owner -/ [111, 119, 110, 101, 114], .str []), (/- data -/ [100, 97, 116, 97], .bv [])]
  | .other => []

/-- The slots of `<id3v1-tag>`, likewise. -/
def docV1 : List (Bytes × Val) :=
  [(/- title -/ [116, 105, 116, 108, 101], .str []), (/- artist -/ [97, 114, 116, 105, 115, 116], .str []), (/- album -/ [97, 108, 98, 117, 109], .str []), (/- year -/ [121, 101, 97, 114], .nil), (/- comment -/ [99, 111, 109, 109, 101, 110, 116], .str []), (/- genre -/ [103, 101, 110, 114, 101], .num 255),
   (/- track-no -/ [116, 114, 97, 99, 107, 45, 110, 111], .nil), (/- enh-genre -/ [101, 110, 104, 45, 103, 101, 110, 114, 101], .str []), (/- speed -/ [115, 112, 101, 101, 100], .nil), (/- start-time -/ [115, 116, 97, 114, 116, 45, 116, 105, 109, 101], .str []), (/- end-time -/ [101, 110, 100, 45, 116, 105, 109, 101], .str [])]

/-- The slots of `<id3v2-tag>` but `frames`, likewise. -/
def docTag : List (Bytes × Val) := [(/- experimental -/ [101, 120, 112, 101, 114, 105, 109, 101, 110, 116, 97, 108], .nil), (/- padding -/ [112, 97, 100, 100, 105, 110, 103], .num 0)]

/-- The value given for a keyword: the first one. -/
def givenFor : List (Bytes × Val) → Bytes → Option Val
  | [], _ => none
  | (k, v) :: args, n => if k = n then some v else givenFor args n

/-- The slots have what is given for them, and else what they have if nothing is given. -/
def Initialised (doc : List (Bytes × Val)) (args : List (Bytes × Val)) (slots : List Val) : Prop :=
  slots.length = doc.length ∧
  ∀ (i : Nat) (n : Bytes) (d : Val), doc[i]? = some (n, d) →
    (∀ v, givenFor args n = some v → slots[i]? = some v) ∧ (givenFor args n = none → slots[i]? = some d)

end Scribbu.Spec.Scheme
