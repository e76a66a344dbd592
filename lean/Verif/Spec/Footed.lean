import Verif.Spec.Sections

/-! # Tags the last of which has a footer -/

namespace Scribbu.Spec
open Scribbu

/-- A footer: what a header is, with the three letters the other way round. -/
def IsFooter (bs : Bytes) : Prop :=
  ∃ v r f s0 s1 s2 s3 rest, bs = [0x33, 0x44, 0x49, v, r, f, s0, s1, s2, s3] ++ rest ∧ v ≠ 0xff ∧ r ≠ 0xff ∧ ∀ b ∈ [s0, s1, s2, s3], b.toNat < 0x80

/-- Of the tags at the beginning of a file the last one, and no other, has a footer, and this is where it begins. -/
inductive FootedAt : Bytes → Nat → Prop
  | last {d r f n} : IsHeader d 4 r f n → f &&& 0x10 ≠ 0 → IsFooter (d.drop (10 + n)) → FootedAt d (10 + n)
  | tag {d v r f n k} : IsHeader d v r f n → (v = 4 → f &&& 0x10 = 0) → FootedAt (d.drop (10 + n)) k → FootedAt d (10 + n + k)

end Scribbu.Spec
