import Verif.Model.Backup

/-! # `scribbu rename` (src/rename.cc) -/

namespace Scribbu
namespace Path

/-- The parts of a path between separators. -/
def parts : Bytes → List Bytes
  | [] => [[]]
  | c :: rest =>
    if c = slash then [] :: parts rest
    else
      match parts rest with
      | [] => [[c]]
      | w :: ws => (c :: w) :: ws

/-- The elements of a path that `==` of `std::filesystem::path` compares (POSIX): is there a root directory, the names, and is
there a separator at the end? -/
def elems (p : Path) : Bool × List Bytes × Bool :=
  (isAbs p, (parts p).filter (· ≠ []), p.getLast? = some slash)

end Path

namespace Rename
open Path FM

/-- Data members of `renamer`, without the template and `verbose_`: src/rename.cc L78-85. -/
structure Options where
  output : Path
  dryRun : Bool
  rename : Bool

/-- One call of `process_file`: the path, and what the environment decides. -/
structure Visit where
  pth : Path
  /-- how `copy_file` ends -/
  copy : Fault
  /-- does `remove` fail? -/
  rm : Bool

/-- `catch (const scribbu::tbt_support::error &ex)`: src/rename.cc L133-135. -/
def catchError (m : FM Unit) : FM Unit :=
  FM.tryCatch m fun e => if e = .missing then FM.lift (.ok ()) else FM.lift (.throw e)

/-- Where a file is to go: src/rename.cc L118-121. -/
def destination (o : Options) (pth : Path) (name : Bytes) : Path :=
  join (if o.output = [] then parent pth else o.output) name

/-- `renamer::process_file(pth)`: src/rename.cc L113-137. `P pth d` is what the template comes to for a file with contents `d`
at `pth` (see `Tbt.Tpl.eval`); `file` says which file a path names, so that nothing need be assumed on links, case or the
working directory. The names printed are not modelled. -/
def processFile (file : Path → Path) (P : Path → Bytes → Res Bytes) (o : Options) (v : Visit) : FM Unit :=
  catchError do
    let d ← FM.look (file v.pth)
    match d with
    | none => FM.lift (.throw .streamFailure)
    | some d =>
      let name ← FM.lift (P v.pth d)
      let out := destination o v.pth name
      if !o.dryRun ∧ elems v.pth ≠ elems out then
        FM.bind (FM.copy (file v.pth) (file out) v.copy) fun _ =>
          if o.rename then FM.remove (file v.pth) v.rm else FM.lift (.ok ())
      else FM.lift (.ok ())

/-- All files that are processed, in turn: src/rename.cc L99-111, L139-154 and L289. An exception ends it. A directory stands
for the files ending in `.mp3` that the iterator comes upon; as it may or may not come upon those created meanwhile, any list
of paths has to be reckoned with. -/
def run (file : Path → Path) (P : Path → Bytes → Res Bytes) (o : Options) : List Visit → FM Unit
  | [] => FM.lift (.ok ())
  | v :: vs => FM.bind (processFile file P o v) fun _ => run file P o vs

end Rename
end Scribbu
