import Verif.Model.Basic

/-! Independent arithmetic meaning of byte sequences. -/

namespace Scribbu.Spec

/-- Value of a list of digits in base `base`, most significant first. -/
def ofDigits (base : Nat) (ds : List Nat) : Nat := ds.foldl (fun acc d => acc * base + d) 0

/-- Big-endian value of a byte string. -/
def be (bs : Bytes) : Nat := ofDigits 256 (bs.map UInt8.toNat)

/-- Sync-safe value of a byte string: base 128 digits, top bits ignored. -/
def syncSafe (bs : Bytes) : Nat := ofDigits 128 (bs.map fun b => b.toNat % 128)

end Scribbu.Spec
