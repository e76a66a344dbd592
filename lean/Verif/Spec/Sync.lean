import Verif.Model.Basic

/-! # Where MP3 frames may start -/

namespace Scribbu.Spec

/-- A frame may start at `q`: FF, then a byte whose three highest bits are set. -/
def SyncAt (d : Bytes) (q : Nat) : Prop := d[q]? = some 0xff ∧ ∃ b : Byte, d[q + 1]? = some b ∧ 0xe0 ≤ b.toNat

/-- `q` is the first such place from `p` on. -/
def FirstSync (d : Bytes) (p q : Nat) : Prop := p ≤ q ∧ SyncAt d q ∧ ∀ r, p ≤ r → r < q → ¬ SyncAt d r

end Scribbu.Spec
