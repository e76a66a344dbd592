import Verif.Model.Basic
import Verif.Spec.Numbers

/-! Independent specification of ID3v2 header detection. -/

namespace Scribbu.Spec

/-- `bs` begins with an ID3v2 header: "ID3", version and revision other than FF,
flags, and four bytes below 80 giving the size. -/
def IsHeader (bs : Bytes) (version revision flags : Byte) (size : Nat) : Prop :=
  ∃ s0 s1 s2 s3 rest,
    bs = [0x49, 0x44, 0x33, version, revision, flags, s0, s1, s2, s3] ++ rest ∧
    version ≠ 0xff ∧ revision ≠ 0xff ∧
    (∀ b ∈ [s0, s1, s2, s3], b.toNat < 0x80) ∧
    size = syncSafe [s0, s1, s2, s3]

end Scribbu.Spec
