import Verif.Model.Replace

/-! # Processes that change files at the same time

`replace_tagset_copy` (scribbu/tagset.hh L343-469) as a sequence of steps, between which other processes may take steps of their own: its comments on race
conditions (L358-368, L414-416) are about that. `Replace.replaceTagsetCopy` is what comes of it if no other process takes any
(`Procs.exec_replace`, in Proofs/Procs.lean).

Simplified: a file is read, and a directory listed, in one step; the file is read before the temporary one is opened, not after the tags have been written
to that; what is written to a file that another process has removed is lost, and if another has put a new one in its place, goes there. -/

namespace Scribbu.Procs
open Path Backup

/-- A process: it has ended, or its next step changes files and what follows depends on what was there before the step. -/
inductive Proc (α : Type) where
  | ret (r : Res α)
  | act (eff : FS → FS) (next : FS → Proc α)

namespace Proc

/-- Sequencing. -/
def bind {α β : Type} : Proc α → (α → Proc β) → Proc β
  | .ret (.ok a), f => f a
  | .ret (.throw e), _ => .ret (.throw e)
  | .ret (.ub u), _ => .ret (.ub u)
  | .act eff next, f => .act eff fun s => (next s).bind f

/-- `try { m } catch (...) { h }`. -/
def tryCatch {α : Type} : Proc α → (Exc → Proc α) → Proc α
  | .ret (.throw e), h => h e
  | .ret r, _ => .ret r
  | .act eff next, h => .act eff fun s => (next s).tryCatch h

/-- What is at `p`. -/
def look (p : Path) : Proc (Option Bytes) := .act (fun s => s) fun s => .ret (.ok (s.get p))

/-- `get_backup_name(pth)`: scribbu/tagset.hh L214-280. -/
def name (cwd pth : Path) : Proc Path := .act (fun s => s) fun s => .ret (backupName s cwd pth)

/-- Put a byte at the end of a file, if it is there. -/
def grow (p : Path) (x : Byte) (s : FS) : FS :=
  match s.get p with
  | some d => s.put p (d ++ [x])
  | none => s

/-- Write to a file that has been opened, byte by byte, and then end. -/
def append (p : Path) (r : Res Unit) : Bytes → Proc Unit
  | [] => .ret r
  | x :: xs => .act (grow p x) fun _ => append p r xs

/-- Open `p` for writing, truncating it, and write `b`; errors throw `e`. -/
def create (e : Exc) (p : Path) (b : Bytes) : Fault → Proc Unit
  | .none => .act (fun s => s.put p []) fun _ => append p (.ok ()) b
  | .atOnce => .ret (.throw e)
  | .after k => .act (fun s => s.put p []) fun _ => append p (.throw e) (b.take k)

/-- `fs::remove(p)`. -/
def remove (p : Path) (fails : Bool) : Proc Unit :=
  if fails then .ret (.throw .fsError) else .act (fun s => s.del p) fun _ => .ret (.ok ())

/-- `fs::copy(a, b)`: the file at `b` is made in one step (`O_EXCL`), if there is none. -/
def copy (a b : Path) (f : Fault) : Proc Unit :=
  .act (fun s => match s.get a, s.get b, f with
      | some _, .none, .none => s.put b []
      | some _, .none, .after _ => s.put b []
      | _, _, _ => s)
    fun s => match s.get a, s.get b, f with
      | some d, .none, .none => append b (.ok ()) d
      | some d, .none, .after k => append b (.throw .fsError) (d.take k)
      | _, _, _ => .ret (.throw .fsError)

/-- `fs::rename(a, b, ec)`. -/
def rename (a b : Path) (r : FM.Rename) : Proc FM.Rename :=
  .act (fun s => match r, s.get a with
      | .done, some d => (s.del a).put b d
      | _, _ => s)
    fun s => match r, s.get a with
      | .done, some _ => .ret (.ok .done)
      | .done, none => .ret (.ok .failed)
      | r, _ => .ret (.ok r)

end Proc

/-- A call of `replace_tagset_copy`: what the environment decides, the file, what the new contents are, given the old, and whether a backup is asked for. -/
structure Job where
  env : Replace.Env
  pth : Path
  contents : Option Bytes → Res Bytes
  keep : Bool

/-- The absolute path of the file. -/
def Job.file (j : Job) : Path := absolute j.env.cwd j.pth

/-- Putting a copy at the backup name, removing what is there: scribbu/tagset.hh L412-434, L446-450. -/
def makeBackup (j : Job) (rm : Bool) (f : Fault) : Proc Path :=
  (Proc.name j.env.cwd j.pth).bind fun cp =>
  (Proc.look (absolute j.env.cwd cp)).bind fun there =>
  (if there.isSome then Proc.remove (absolute j.env.cwd cp) rm else .ret (.ok ())).bind fun _ =>
  (Proc.copy j.file (absolute j.env.cwd cp) f).bind fun _ => .ret (.ok cp)

/-- What follows if the rename has failed for want of a common file system: scribbu/tagset.hh L444-464. -/
def crossDevice (j : Job) (cp : Option Path) : Proc Unit :=
  (match cp with
    | some cp => Proc.ret (.ok cp)
    | none => makeBackup j j.env.rmBackup2 j.env.backup2).bind fun cp =>
  (Proc.remove j.file j.env.rmOld).bind fun _ =>
  ((Proc.copy j.env.tmp j.file j.env.copyNew).bind fun _ =>
    if j.keep then .ret (.ok ()) else Proc.remove j.env.tmp j.env.rmTmp).tryCatch fun x =>
  ((Proc.copy (absolute j.env.cwd cp) j.file j.env.restore).tryCatch fun _ => .ret (.ok ())).bind fun _ => .ret (.throw x)

/-- The shuffling of files: scribbu/tagset.hh L410-468. -/
def shuffle (j : Job) : Proc Unit :=
  (if j.keep then (makeBackup j j.env.rmBackup j.env.backup).bind fun cp => .ret (.ok (some cp)) else .ret (.ok none)).bind fun cp =>
  (Proc.rename j.env.tmp j.file j.env.rename).bind fun
    | .done => .ret (.ok ())
    | .crossDevice => crossDevice j cp
    | .failed => .ret (.throw .fsError)

/-- `replace_tagset_copy(pth, p0, p1, unsync, keep_backup)`: scribbu/tagset.hh L343-469. -/
def replace (j : Job) : Proc Unit :=
  (Proc.look j.file).bind fun old =>
  match j.contents old with
  | .ok new => (Proc.create .streamFailure j.env.tmp new j.env.write).bind fun _ => shuffle j
  | .throw x => (Proc.create .streamFailure j.env.tmp j.env.junk .none).bind fun _ => .ret (.throw x)
  | .ub u => .ret (.ub u)

/-- The call with tags. -/
def Job.tags (I : TagI τ) (e : Replace.Env) (pth : Path) (ts : List τ) (au : ApplyUnsync) (keep : Bool) : Job :=
  ⟨e, pth, fun old => (Tagset.copyContents I old au ts).bind fun r => .ok r.1, keep⟩

/-- A sub-command with `--create-backups` and without an ID3v1 tag to write: it reads the file, decides about the tags, and replaces them
(src/command-utilities.hh L361-391). -/
def edit (e : Replace.Env) (pth : Path) (keep : Bool) (decide : Bytes → Res (Option Bytes → Res Bytes)) : Proc Unit :=
  (Proc.look (absolute e.cwd pth)).bind fun
    | some d => (Proc.ret (decide d)).bind fun c => replace ⟨e, pth, c, keep⟩
    | none => .ret (.throw .fsError)

/-- The processes and the files. -/
structure Sys where
  procs : Nat → Proc Unit
  fs : FS

/-- A step of process `i`. -/
def step (i : Nat) (s : Sys) : Sys :=
  match s.procs i with
  | .ret _ => s
  | .act eff next => ⟨fun k => if k = i then next s.fs else s.procs k, eff s.fs⟩

/-- What comes of it if they take steps as the schedule says. -/
def run (sched : List Nat) (s : Sys) : Sys := sched.foldl (fun s i => step i s) s

/-- What comes of a process if no other takes a step. -/
def exec {α : Type} : Proc α → FS → Res α × FS
  | .ret r, s => (r, s)
  | .act eff next, s => exec (next s) (eff s)

end Scribbu.Procs
