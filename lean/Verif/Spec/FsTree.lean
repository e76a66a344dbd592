import Verif.Model.FsTree

/-! # What is in a directory -/

namespace Scribbu.Spec.FsTree
open Scribbu Scribbu.FsTree

/-- A directory has an entry. -/
inductive In : Forest → Bytes → Node → Prop
  | here (name t rest) : In (.cons name t rest) name t
  | there (name t rest n u) : In rest n u → In (.cons name t rest) n u

/-- There is a regular file at `rel`, a path relative to a node: empty, or a slash, the name of an entry, and so on. `follow`: whether
symbolic links are followed. -/
inductive FileAt (follow : Bool) : Node → Bytes → Prop
  | file : FileAt follow .file []
  | link (t rel) : follow = true → FileAt follow t rel → FileAt follow (.link t) rel
  | dir (f name t rel) : In f name t → FileAt follow t rel → FileAt follow (.dir f) (0x2f :: name ++ rel)

/-- There is something that is not a directory with entries. -/
inductive LeafAt : Node → Bytes → Prop
  | file : LeafAt .file []
  | other : LeafAt .other []
  | dangling : LeafAt .dangling []
  | link (t) : LeafAt (.link t) []
  | empty : LeafAt (.dir .nil) []
  | dir (f name t rel) : In f name t → LeafAt t rel → LeafAt (.dir f) (0x2f :: name ++ rel)

mutual
/-- The names in a directory are different from each other and have no slashes. -/
def Named : Node → Prop
  | .dir f => NamedAll f
  | .link t => Named t
  | _ => True

/-- The same. -/
def NamedAll : Forest → Prop
  | .nil => True
  | .cons name t rest => 0x2f ∉ name ∧ (∀ u, ¬ In rest name u) ∧ Named t ∧ NamedAll rest
end

mutual
/-- Number of directories, symbolic links followed. -/
def dirs : Node → Nat
  | .dir f => dirsIn f + 1
  | .link t => dirs t
  | _ => 0

/-- The same. -/
def dirsIn : Forest → Nat
  | .nil => 0
  | .cons _ t rest => dirs t + dirsIn rest
end

mutual
/-- Number of symbolic links that lead nowhere. -/
def broken : Node → Nat
  | .dir f => brokenIn f
  | .link t => broken t
  | .dangling => 1
  | _ => 0

/-- The same. -/
def brokenIn : Forest → Nat
  | .nil => 0
  | .cons _ t rest => broken t + brokenIn rest
end

/-- An absolute path for a path. -/
def absolute (cwd root : Bytes) : Bytes := if root.head? = some 0x2f then root else cwd ++ 0x2f :: root

end Scribbu.Spec.FsTree
