import Verif.Model.Split
import Verif.Model.FileSys
import Verif.Model.Backup

/-! # What `scribbu split` does to files (src/split.cc)

`Model/Split` has the bytes that are read. Here are the files they are written to, with the errors there may be. -/

namespace Scribbu
namespace SplitFiles

/-- How writing to one of the files goes. `ofs` is buffered: what cannot be written is told by `write`, or found by the destructor, which
does not tell: src/split.cc L58-64. -/
inductive Wr where
  | done
  | notOpened
  | failed (k : Nat)   -- `write` throws, with `k` bytes in the file
  | lost (k : Nat)     -- the destructor finds that only `k` bytes can be written
  deriving DecidableEq, Repr

/-- What the run depends on. `plan`: how writing goes, by the number of the file; `left`: what is to be read from the input once it has been
truncated, which depends on what is in the buffer. -/
structure Env where
  suffix : Bytes
  plan : Nat → Wr
  left : Bytes

/-- Files, states of the files passed through (the last first), and the input stream. -/
structure St where
  fs : FS
  seen : List FS
  s : IStream

/-- Code that reads a stream and writes files. -/
abbrev SX (α : Type) := St → Res α × St

/-- Sequencing. -/
def SX.bind {α β : Type} (m : SX α) (f : α → SX β) : SX β := fun t =>
  match m t with
  | (.ok a, t') => f a t'
  | (.throw e, t') => (.throw e, t')
  | (.ub u, t') => (.ub u, t')

/-- Code that only reads. -/
def SX.stream {α : Type} (m : SM α) : SX α := fun t => ((m t.s).1, { t with s := (m t.s).2 })

/-- The files are changed. -/
def St.to (t : St) (fs : FS) : St := { t with fs := fs, seen := fs :: t.seen }

/-- `ofstream ofs(pth)` and `ofs.exceptions(...)`: src/split.cc L58-59. The file is created or truncated; it may be the one that is being read. -/
def opened (E : Env) (inp name : Path) (i : Nat) : SX Unit := fun t =>
  if E.plan i = .notOpened then (.throw .streamFailure, t)
  else
    let t := t.to (t.fs.put name [])
    (.ok (), if name = inp then { t with s := { t.s with data := E.left } } else t)

/-- `ofs.write(p, cb)` and the destructor of `ofs`: src/split.cc L63-64. Simplified: the bytes arrive all at once. -/
def written (E : Env) (name : Path) (i : Nat) (p : Bytes) : SX Unit := fun t =>
  match E.plan i with
  | .failed k => (.throw .streamFailure, t.to (t.fs.put name (p.take k)))
  | .lost k => (.ok (), t.to (t.fs.put name (p.take k)))
  | _ => (.ok (), t.to (t.fs.put name p))

/-- `xfer_bytes(in, pth, cb)`: src/split.cc L51-65; the `i`th call. -/
def xfer (E : Env) (inp name : Path) (i : Nat) (cb : Int) : SX Unit :=
  (opened E inp name i).bind fun _ => (SX.stream (xferBytes cb)).bind fun p => written E name i p

/-- `"id3v2" << count << suffix`: src/split.cc L101-104. -/
def tagName (E : Env) (n : Nat) : Path := /- id3v2 -/ [105, 100, 51, 118, 50] ++ Backup.dec n ++ E.suffix
/-- `"track" + suffix`: src/split.cc L113. -/
def trackName (E : Env) : Path := /- track -/ [116, 114, 97, 99, 107] ++ E.suffix
/-- `"id3v1" + suffix`: src/split.cc L117. -/
def v1Name (E : Env) : Path := /- id3v1 -/ [105, 100, 51, 118, 49] ++ E.suffix

/-- The `while (id3v2.present_)` loop: src/split.cc L98-108; the count afterwards. `none`: more iterations than `fuel`. -/
def tags (E : Env) (inp : Path) : Nat → Nat → SX (Option Nat)
  | 0, n => (SX.stream (lookingAtId3v2 true)).bind fun o =>
    match o with
    | none => fun t => (.ok (some n), t)
    | some _ => fun t => (.ok none, t)
  | fuel + 1, n => (SX.stream (lookingAtId3v2 true)).bind fun o =>
    match o with
    | none => fun t => (.ok (some n), t)
    | some i => (xfer E inp (tagName E n) n (10 + i.size)).bind fun _ => tags E inp fuel (n + 1)

/-- `split_file` with the input open: src/split.cc L94-121. -/
def split (E : Env) (inp : Path) (fuel : Nat) : SX (Option Unit) :=
  (SX.stream (SM.setExceptions IoBits.all)).bind fun _ =>
  (tags E inp fuel 0).bind fun o =>
  match o with
  | none => fun t => (.ok none, t)
  | some n =>
    (SX.stream endsInId3v1).bind fun i =>
    (SX.stream SM.tellg).bind fun here =>
    (xfer E inp (trackName E) n (i.start - here)).bind fun _ =>
    if i.start ≠ i.stop then (xfer E inp (v1Name E) (n + 1) (i.stop - i.start)).bind fun _ => fun t => (.ok (some ()), t)
    else fun t => (.ok (some ()), t)

/-- `handle_split` for the words that are not options: the status, and the files: src/split.cc L179-227. There must be one word, the
input; anything else is an error of `boost::program_options`. -/
def run (E : Env) (words : List Path) (fs : FS) : Res Nat × St :=
  match words with
  | [inp] =>
    match fs.get inp with
    | none => (.ok 1, ⟨fs, [], ⟨[], 0, IoBits.none, IoBits.none⟩⟩)
    | some d =>
      match split E inp (d.length + E.left.length) ⟨fs, [], ⟨d, 0, IoBits.none, IoBits.none⟩⟩ with
      | (.ok (some ()), t) => (.ok 0, t)
      | (.ok none, t) => (.ub .noProgress, t)
      | (.throw _, t) => (.ok 1, t)
      | (.ub u, t) => (.ub u, t)
  | _ => (.ok 2, ⟨fs, [], ⟨[], 0, IoBits.none, IoBits.none⟩⟩)

end SplitFiles
end Scribbu
