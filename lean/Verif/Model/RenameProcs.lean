import Verif.Model.Procs
import Verif.Model.Rename

/-! # `scribbu rename` in several processes at the same time

`renamer::process_file` (src/rename.cc L113-137) as a sequence of steps, between which other processes may take steps of their own. `Rename.run` is what comes of
it if no other process takes any (`Procs.exec_rename`, in Proofs/RenameProcs.lean). Simplified as in Model/Procs.lean. -/

namespace Scribbu.Procs
open Path Backup

/-- What follows when the name is known: src/rename.cc L126-131. -/
def place (file : Path → Path) (o : Rename.Options) (v : Rename.Visit) (out : Path) : Proc Unit :=
  (Proc.copy (file v.pth) (file out) v.copy).bind fun _ =>
    if o.rename then Proc.remove (file v.pth) v.rm else .ret (.ok ())

/-- `catch (const scribbu::tbt_support::error &ex)`: src/rename.cc L133-135. -/
def caught (e : Exc) : Proc Unit := if e = .missing then .ret (.ok ()) else .ret (.throw e)

/-- `renamer::process_file(pth)`: src/rename.cc L113-137. The parameters are those of `Rename.processFile`. -/
def renameFile (file : Path → Path) (P : Path → Bytes → Res Bytes) (o : Rename.Options) (v : Rename.Visit) : Proc Unit :=
  ((Proc.look (file v.pth)).bind fun
    | none => .ret (.throw .streamFailure)
    | some d => (Proc.ret (P v.pth d)).bind fun name =>
      if !o.dryRun ∧ elems v.pth ≠ elems (Rename.destination o v.pth name) then place file o v (Rename.destination o v.pth name)
      else .ret (.ok ())).tryCatch caught

/-- All files that a process is to rename, in turn: src/rename.cc L99-111, L139-154 and L289. -/
def renameAll (file : Path → Path) (P : Path → Bytes → Res Bytes) (o : Rename.Options) : List Rename.Visit → Proc Unit
  | [] => .ret (.ok ())
  | v :: vs => (renameFile file P o v).bind fun _ => renameAll file P o vs

/-- A process that runs `scribbu rename`: its template, its options, and its files. -/
structure Renamer where
  tpl : Path → Bytes → Res Bytes
  opts : Rename.Options
  visits : List Rename.Visit

/-- The process. -/
def Renamer.proc (file : Path → Path) (r : Renamer) : Proc Unit := renameAll file r.tpl r.opts r.visits

end Scribbu.Procs
