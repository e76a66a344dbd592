import Verif.Model.Tagset
import Verif.Model.Backup

/-! # `replace_tagset_copy` and the files it goes through -/

namespace Scribbu
namespace Replace
open Path Backup FM

/-- What the environment decides. -/
structure Env where
  /-- the working directory -/
  cwd : Path
  /-- the name `tmpnam` comes up with -/
  tmp : Path
  /-- what is in the temporary file if the new contents cannot be put together -/
  junk : Bytes
  /-- writing the temporary file -/
  write : Fault
  /-- making the backup asked for -/
  backup : Fault
  rmBackup : Bool
  rename : FM.Rename
  /-- making the backup that moving between file systems requires -/
  backup2 : Fault
  rmBackup2 : Bool
  rmOld : Bool
  copyNew : Fault
  rmTmp : Bool
  restore : Fault

/-- Put a copy of `p` at the backup name, removing what is there: scribbu/tagset.hh L412-434, L446-450. -/
def makeBackup (cwd pth : Path) (rm : Bool) (f : Fault) : FM Path := do
  let s ← FM.state
  let cp ← FM.lift (backupName s cwd pth)
  let there ← FM.look (absolute cwd cp)
  let _ ← (if there.isSome then FM.remove (absolute cwd cp) rm else pure ())
  FM.copy (absolute cwd pth) (absolute cwd cp) f
  pure cp

/-- What follows if the rename has failed for want of a common file system: scribbu/tagset.hh L444-464. -/
def crossDevice (e : Env) (pth : Path) (keep : Bool) (cp : Option Path) : FM Unit := do
  let cp ← (match cp with
    | some cp => pure cp
    | none => makeBackup e.cwd pth e.rmBackup2 e.backup2)
  FM.remove (absolute e.cwd pth) e.rmOld
  FM.tryCatch
    (do
      FM.copy e.tmp (absolute e.cwd pth) e.copyNew
      if keep then pure () else FM.remove e.tmp e.rmTmp)
    (fun x => do
      FM.tryCatch (FM.copy (absolute e.cwd cp) (absolute e.cwd pth) e.restore) (fun _ => pure ())
      FM.lift (.throw x))

/-- The shuffling of files: scribbu/tagset.hh L410-468. -/
def shuffle (e : Env) (pth : Path) (keep : Bool) : FM Unit := do
  let cp ← (if keep then (do let cp ← makeBackup e.cwd pth e.rmBackup e.backup; pure (some cp)) else pure none)
  let r ← FM.rename e.tmp (absolute e.cwd pth) e.rename
  match r with
  | .done => pure ()
  | .crossDevice => crossDevice e pth keep cp
  | .failed => FM.lift (.throw .fsError)

/-- `replace_tagset_copy(pth, p0, p1, unsync, keep_backup)`: scribbu/tagset.hh L343-469. The new contents are those of
`Tagset.copyContents`; if they cannot be had, the temporary file holds whatever had been written by then. -/
def replaceTagsetCopy (I : TagI τ) (e : Env) (pth : Path) (ts : List τ) (au : ApplyUnsync) (keep : Bool) : FM Unit := do
  let old ← FM.look (absolute e.cwd pth)
  match Tagset.copyContents I old au ts with
  | .ok (new, _) => do
    FM.create .streamFailure e.tmp new e.write
    shuffle e pth keep
  | .throw x => do
    FM.create .streamFailure e.tmp e.junk .none
    FM.lift (.throw x)
  | .ub u => FM.lift (.ub u)

end Replace
end Scribbu
