import Verif.Model.FileSys

/-! What may be left after a power failure (C190). -/

namespace Scribbu.Spec
open Scribbu

/-- What may be on the disk after a power failure, if a program that never waits for its writes to reach the disk (nothing in /repo calls `fsync` or the like) began
with the files `s0` and has come as far as `s`: names are as in `s`, and so are files that are as they were at first; of a file that has been written to since,
there may be but a beginning. As every state a program goes through is reckoned with, changes of names reach the disk in order, as they do with a journal. -/
def AfterPowerLoss (s0 s c : FS) : Prop :=
  ∀ q, c.get q = s.get q ∨ ∃ d k, s.get q = some d ∧ s0.get q ≠ some d ∧ c.get q = some (d.take k)

end Scribbu.Spec
