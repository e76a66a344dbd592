import Verif.Model.Basic

/-! # Walking directories from Scheme: scheme/scribbu.scm L57-126

`file-system-tree`, `opendir`, `readdir`, `stat` and so on are Guile's; they are modelled as its manual describes them. -/

namespace Scribbu
namespace FsTree

mutual
/-- What there is at a path. Simplified: there are no cycles of symbolic links. -/
inductive Node where
  | file                  -- a regular file
  | other                 -- a device, a socket, a pipe
  | dangling              -- a symbolic link to nothing
  | link (t : Node)       -- a symbolic link to something
  | dir (f : Forest)

/-- The entries of a directory other than "." and "..", in the order in which they are read. -/
inductive Forest where
  | nil
  | cons (name : Bytes) (t : Node) (rest : Forest)
end

/-- `(string-append parent "/" name)`. -/
def join (parent name : Bytes) : Bytes := parent ++ 0x2f :: name

/-! ## `flat-file-system-tree` -/

mutual
/-- What `file-system-tree` returns: `(name stat children ...)`. The `stat` is not looked at and left out. -/
inductive Entry where
  | mk (name : Bytes) (children : Entries)

/-- The children. -/
inductive Entries where
  | nil
  | cons (e : Entry) (rest : Entries)
end

mutual
/-- `(file-system-tree path)` of module `(ice-9 ftw)`: it uses `lstat`, that is, symbolic links are not followed; the first element of
the result is the last component of the path; what is not a directory, or cannot be read, has no children. Simplified: all directories can be read. -/
def tree (name : Bytes) : Node → Entry
  | .dir f => .mk name (trees f)
  | .file => .mk name .nil
  | .other => .mk name .nil
  | .dangling => .mk name .nil
  | .link _ => .mk name .nil

/-- The same, for the entries of a directory. -/
def trees : Forest → Entries
  | .nil => .nil
  | .cons name t rest => .cons (tree name t) (trees rest)
end

/-- The Scheme values that `strip-stat-from-file-system-tree` makes. -/
inductive Nest where
  | null
  | str (b : Bytes)
  | pair (a b : Nest)
  deriving DecidableEq, Repr

mutual
/-- `strip-stat-from-file-system-tree`: scheme/scribbu.scm L61-70. The first pattern is `(name stat)`, the second
`(name stat children ...)`. -/
def strip (parent : Bytes) : Entry → Nest
  | .mk name .nil => .str (join parent name)
  | .mk name (.cons e rest) => .pair (strip (join parent name) e) (stripAll (join parent name) rest)

/-- The `map` of L66-70. -/
def stripAll (parent : Bytes) : Entries → Nest
  | .nil => .null
  | .cons e rest => .pair (strip parent e) (stripAll parent rest)
end

/-- `flatten`: scheme/scribbu.scm L56-59. -/
def flatten : Nest → List Bytes
  | .null => []
  | .pair a b => flatten a ++ flatten b
  | .str b => [b]

/-- `dirname`, `basename` of a path that does not end in a slash: what is before the last slash, and what is after it. -/
def splitPath (p : Bytes) : Bytes × Bytes :=
  let r := p.reverse
  ((r.dropWhile (· ≠ 0x2f)).tail.reverse, (r.takeWhile (· ≠ 0x2f)).reverse)

/-- `flat-file-system-tree`: scheme/scribbu.scm L76-89. `cwd`: what `getcwd` gives; `t`: what is at the path. If the directory is "/", `dirname` gives
"/" and the code makes "" of it, which is what `splitPath` gives at once. Simplified: `root` does not end in a slash. -/
def flat (cwd root : Bytes) (t : Node) : List Bytes :=
  let full := if root.head? = some 0x2f then root else join cwd root
  let (parent, name) := splitPath full
  flatten (strip parent (tree name t))

/-! ## `fs-tree-generator` -/

/-- The result of a call of the generator. -/
inductive Out where
  | path (p : Bytes)
  | error               -- an error raised by `stat` or `opendir`
  | eof
  deriving DecidableEq, Repr

/-- The directories that are open, each with its path and the entries that are still to be read. -/
abbrev Stack := List (Bytes × Forest)

/-- `(stat full)`, which follows symbolic links. -/
def stat : Node → Option Node
  | .dangling => none
  | .link t => stat t
  | t => some t

/-- The inner loop, over the entries of the directory at `pth` that are left: scheme/scribbu.scm L101-117. `lim`: how many directories can be open at
once. Result: a path, an error or nothing; the entries still left; the other directories on the stack. "." and ".." are skipped. -/
def scan (lim : Nat) (pth : Bytes) : Forest → Stack → Option Out × Forest × Stack
  | .nil, st => (none, .nil, st)
  | .cons name t rest, st =>
    match stat t with
    | none => (some .error, rest, st)
    | some (.dir f) => if st.length + 1 < lim then scan lim pth rest (st ++ [(join pth name, f)]) else (some .error, rest, st)
    | some .file => (some (.path (join pth name)), rest, st)
    | some _ => scan lim pth rest st

/-- A call of the generator: the outer loop, L96-124. `fuel` bounds the number of directories gone through. -/
def next (lim : Nat) : Nat → Stack → Option (Out × Stack)
  | 0, _ => none
  | _ + 1, [] => some (.eof, [])
  | fuel + 1, (pth, f) :: st =>
    match scan lim pth f st with
    | (some o, f', st') => some (o, (pth, f') :: st')
    | (none, _, st') => next lim fuel st'

mutual
/-- Number of entries, for `fuel`. -/
def Node.size : Node → Nat
  | .dir f => f.size + 1
  | .link t => t.size + 1
  | _ => 1

/-- The same. -/
def Forest.size : Forest → Nat
  | .nil => 0
  | .cons _ t rest => t.size + rest.size + 1
end

/-- Enough for `next`. -/
def fuelFor (st : Stack) : Nat := (st.map fun e => e.2.size + 1).sum + 1

/-- The results of the first `n` calls. -/
def calls (lim : Nat) : Nat → Stack → List (Option Out)
  | 0, _ => []
  | n + 1, st =>
    match next lim (fuelFor st) st with
    | none => [none]
    | some (o, st') => some o :: calls lim n st'

/-- The first `n` calls of `(fs-tree-generator root)`; `f`: the entries of the directory `root`. -/
def generator (lim : Nat) (root : Bytes) (f : Forest) (n : Nat) : List (Option Out) := calls lim n [(root, f)]

end FsTree
end Scribbu
