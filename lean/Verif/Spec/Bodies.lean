import Verif.Model.Basic

/-! What counters and terminated strings are. -/

namespace Scribbu.Spec

/-- The number that bytes spell, most significant first. -/
def beNat : Bytes → Nat
  | [] => 0
  | b :: bs => b.toNat * 256 ^ bs.length + beNat bs

/-- No string terminator of `w` bytes in a string of `w`-byte characters. -/
def NoNul (w : Nat) (d : Bytes) : Prop :=
  (w = 1 ∧ (0 : Byte) ∉ d) ∨
  (w = 2 ∧ d.length % 2 = 0 ∧ ∀ k, ¬ (d[2 * k]? = some 0 ∧ d[2 * k + 1]? = some 0))

end Scribbu.Spec
