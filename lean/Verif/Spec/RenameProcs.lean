import Verif.Model.RenameProcs

/-! What is expected of processes that rename files at the same time (C189). -/

namespace Scribbu.Spec.Procs
open Scribbu Path Scribbu.Procs

/-- A file that one of the processes is to rename. -/
def Source (file : Path → Path) (rs : Nat → Renamer) (q : Path) : Prop := ∃ i, ∃ v ∈ (rs i).visits, q = file v.pth

/-- A file that one of the processes may make, whatever is in its files. -/
def Target (file : Path → Path) (rs : Nat → Renamer) (q : Path) : Prop :=
  ∃ i, ∃ v ∈ (rs i).visits, ∃ d name, (rs i).tpl v.pth d = .ok name ∧ q = file (Rename.destination (rs i).opts v.pth name)

/-- Nothing is lost: what was in a file is in some file, from the first byte to the last. -/
def NothingLost (before now : FS) : Prop := ∀ q d, before.get q = some d → ∃ b, now.get b = some d

end Scribbu.Spec.Procs
