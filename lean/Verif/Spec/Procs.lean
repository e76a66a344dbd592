import Verif.Model.Procs

/-! What is expected of processes that change files at the same time. -/

namespace Scribbu.Spec.Procs
open Scribbu Path Backup Scribbu.Procs

/-- The files that replacing tags is about: the file itself, the temporary one, and the name of the file followed by a dot and digits. -/
def Own (j : Job) (q : Path) : Prop := q = j.file ∨ q = j.env.tmp ∨ ∃ ds, ds ≠ [] ∧ (∀ c ∈ ds, 48 ≤ c ∧ c ≤ 57) ∧ q = j.file ++ dot :: ds

/-- No file belongs to two of the processes. -/
def Apart (jobs : Nat → Job) : Prop := ∀ i k q, Own (jobs i) q → Own (jobs k) q → i = k

/-- Contents that the file may have had: those at first, and what one of the processes makes of contents it may have had. -/
inductive Version (jobs : Nat → Job) (old : Option Bytes) : Option Bytes → Prop
  | first : Version jobs old old
  | next (i : Nat) (b : Option Bytes) (new : Bytes) : Version jobs old b → (jobs i).contents b = .ok new → Version jobs old (some new)

/-- Contents that a file may have had that processes read, decide about, and read again to change it: those at first, and what one of the processes, having decided
about contents it may have had, makes of contents it may have had. -/
inductive Edited (decide : Nat → Bytes → Res (Option Bytes → Res Bytes)) (old : Option Bytes) : Option Bytes → Prop
  | first : Edited decide old old
  | next (i : Nat) (d : Bytes) (c : Option Bytes → Res Bytes) (b : Option Bytes) (new : Bytes) : Edited decide old (some d) → decide i d = .ok c →
      Edited decide old b → c b = .ok new → Edited decide old (some new)

/-- What comes of programs that are run one after the other. -/
def oneByOne : List (Proc Unit) → FS → FS
  | [], s => s
  | p :: ps, s => oneByOne ps (exec p s).2

end Scribbu.Spec.Procs
