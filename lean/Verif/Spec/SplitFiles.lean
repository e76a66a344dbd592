import Verif.Proofs.Split

/-! The files made by `scribbu split`: their names and contents, as the documentation has them. -/

namespace Scribbu.Spec.SplitFiles

/-- A number in decimal digits. -/
def numeral (n : Nat) : Bytes := (Nat.toDigits 10 n).map fun c => UInt8.ofNat c.toNat

/-- "id3v2NS". -/
def tagAt (S : Bytes) (n : Nat) : Bytes := /- id3v2 -/ [105, 100, 51, 118, 50] ++ numeral n ++ S
/-- "trackS". -/
def trackAt (S : Bytes) : Bytes := /- track -/ [116, 114, 97, 99, 107] ++ S
/-- "id3v1S". -/
def v1At (S : Bytes) : Bytes := /- id3v1 -/ [105, 100, 51, 118, 49] ++ S

/-- The names that files made with the suffix `S` may have. -/
inductive OutName (S : Bytes) : Bytes → Prop
  | tag (n : Nat) : OutName S (tagAt S n)
  | track : OutName S (trackAt S)
  | v1 : OutName S (v1At S)

/-- The file `f` is made of complete ID3v2 tags, a track, and an ID3v1 tag, unless it has none (`v1 = []`). -/
structure Partition (f : Bytes) (ts : List Bytes) (track v1 : Bytes) : Prop where
  all : f = ts.flatten ++ (track ++ v1)
  tags : ∀ t ∈ ts, CompleteTag t
  rest : NoHeader (track ++ v1)
  tail : (v1 = [] ∧ (¬ ∃ k, ExtAt f k) ∧ ¬ ∃ k, StdAt f k) ∨ (v1.length = 355 ∧ v1.take 4 = /- TAG+ -/ [84, 65, 71, 43]) ∨ (v1.length = 128 ∧ v1.take 3 = /- TAG -/ [84, 65, 71])

/-- The file with this name is to have these contents. -/
inductive Holds (S : Bytes) (ts : List Bytes) (track v1 : Bytes) : Bytes → Bytes → Prop
  | tag {n : Nat} {t : Bytes} : ts[n]? = some t → Holds S ts track v1 (tagAt S n) t
  | track : Holds S ts track v1 (trackAt S) track
  | v1 : v1 ≠ [] → Holds S ts track v1 (v1At S) v1

end Scribbu.Spec.SplitFiles
