import Verif.Model.Basic

/-! # Files and the steps that change them

A file system is what the modelled code can see of it: plain files by absolute path. Every function that changes files also
yields the states passed through, so that "the process dies at any point" is "any state passed through". Nothing
here models a particular function of `/repo`, only the calls of `std::filesystem` and `std::ofstream` it makes. -/

namespace Scribbu

/-- A path, as a string. -/
abbrev Path := Bytes

/-- Plain files by absolute path. Simplified: different strings name different files (no symbolic links, no `.`, `..`
or doubled separators); no permissions; no other processes. -/
abbrev FS := List (Path × Bytes)

namespace FS

/-- The contents of the file at `p`, if there is one. -/
def get (s : FS) (p : Path) : Option Bytes := (s.find? fun e => e.1 = p).map (·.2)

/-- Without the file at `p`. -/
def del (s : FS) (p : Path) : FS := s.filter fun e => e.1 ≠ p

/-- With a file at `p`. -/
def put (s : FS) (p : Path) (b : Bytes) : FS := (p, b) :: s.del p

end FS

/-- Where an operation that moves bytes goes wrong, if it does: before it has any effect, or after `k` bytes. -/
inductive Fault where
  | none
  | atOnce
  | after (k : Nat)
  deriving DecidableEq, Repr

/-- What a call does: the states passed through, the outcome, and the last state. -/
structure Out (α : Type) where
  seen : List FS
  res : Res α
  fs : FS

/-- Code that changes files. -/
abbrev FM (α : Type) := FS → Out α

namespace FM

/-- Return a result that depends on nothing. -/
def lift (r : Res α) : FM α := fun s => ⟨[], r, s⟩

/-- Sequencing. -/
def bind (m : FM α) (f : α → FM β) : FM β := fun s =>
  match (m s).res with
  | .ok a => ⟨(m s).seen ++ (f a (m s).fs).seen, (f a (m s).fs).res, (f a (m s).fs).fs⟩
  | .throw e => ⟨(m s).seen, .throw e, (m s).fs⟩
  | .ub u => ⟨(m s).seen, .ub u, (m s).fs⟩

instance : Monad FM where
  pure a := lift (.ok a)
  bind := bind

/-- `try { m } catch (...) { h }`. -/
def tryCatch (m : FM α) (h : Exc → FM α) : FM α := fun s =>
  match (m s).res with
  | .throw e => ⟨(m s).seen ++ (h e (m s).fs).seen, (h e (m s).fs).res, (h e (m s).fs).fs⟩
  | _ => m s

/-- What is at `p`. -/
def look (p : Path) : FM (Option Bytes) := fun s => ⟨[], .ok (s.get p), s⟩

/-- The file system as it is. -/
def state : FM FS := fun s => ⟨[], .ok s, s⟩

/-- The states passed through while `b` is written to `p`. -/
def growing (s : FS) (p : Path) (b : Bytes) (k : Nat) : List FS := (List.range (k + 1)).map fun i => s.put p (b.take i)

/-- Open `p` for writing, truncating it, and write `b`, byte by byte; errors throw `e`. -/
def create (e : Exc) (p : Path) (b : Bytes) (f : Fault) : FM Unit := fun s =>
  match f with
  | .none => ⟨growing s p b b.length, .ok (), s.put p b⟩
  | .atOnce => ⟨[], .throw e, s⟩
  | .after k => ⟨growing s p b k, .throw e, s.put p (b.take k)⟩

/-- `fs::remove(p)`: not an error if there is no such file. -/
def remove (p : Path) (fails : Bool) : FM Unit := fun s =>
  if fails then ⟨[], .throw .fsError, s⟩ else ⟨[s.del p], .ok (), s.del p⟩

/-- `fs::copy(a, b)`, `fs::copy_file(a, b)`, without options: an error if there is no `a`, or if there is a `b`. -/
def copy (a b : Path) (f : Fault) : FM Unit := fun s =>
  match s.get a, s.get b with
  | some d, .none => create .fsError b d f s
  | _, _ => ⟨[], .throw .fsError, s⟩

/-- How a `rename` may end. -/
inductive Rename where
  | done
  | crossDevice
  | failed
  deriving DecidableEq, Repr

/-- `fs::rename(a, b, ec)` for plain files: replaces `b` in one step, or not at all. -/
def rename (a b : Path) (r : Rename) : FM Rename := fun s =>
  match r, s.get a with
  | .done, some d => ⟨[(s.del a).put b d], .ok .done, (s.del a).put b d⟩
  | .done, .none => ⟨[], .ok .failed, s⟩
  | r, _ => ⟨[], .ok r, s⟩

end FM

end Scribbu
