import Verif.Spec.Options

/-!
# How users read a command line

The words of a command line, what each option is given, and the files. Only the tables of the sub-commands are used.
-/

namespace Scribbu.Spec.Options

open Scribbu.Options

/-- The name of an option, or a beginning of it that is not the beginning of another one. -/
def Name (c : Cmd) (o : Opt) (n : Bytes) : Prop := n = o.long ∨ (n ≠ [] ∧ n <+: o.long ∧ ∀ p ∈ c.all, n <+: p.long → p = o)

/-- The options in a command line with their values, in order, and the words that are none. -/
inductive Reads (c : Cmd) : List Bytes → List (Opt × Bytes) → List Bytes → Prop where
  | done : Reads c [] [] []
  /-- What follows `--` are files. -/
  | rest (ws : List Bytes) : Reads c ([45, 45] :: ws) [] ws
  | file {ws : List Bytes} {gs : List (Opt × Bytes)} {fs : List Bytes} (w : Bytes) : Plain w ∨ w = [45] → Reads c ws gs fs → Reads c (w :: ws) gs (w :: fs)
  | opt {ws : List Bytes} {gs : List (Opt × Bytes)} {fs : List Bytes} {o : Opt} {n v : Bytes} {f : List Bytes} : o ∈ c.opts → Name c o n →
      Written { o with long := n } v f → Reads c ws gs fs → Reads c (f ++ ws) ((o, v) :: gs) fs
  /-- Letters of switches may be written together, as in `-ab`. -/
  | also {ws : List Bytes} {gs : List (Opt × Bytes)} {fs : List Bytes} {o : Opt} {b a : Byte} {r : Bytes} : o ∈ c.opts → o.kind = .switch → o.short = some b →
      a ≠ 45 → Reads c ((45 :: a :: r) :: ws) gs fs → Reads c ((45 :: b :: a :: r) :: ws) ((o, []) :: gs) fs

/-- What is given for an option. -/
def given (gs : List (Opt × Bytes)) (o : Opt) : List Bytes := (gs.filter (·.1 = o)).map (·.2)

/-- What the option is then: only lists may be given more than once. -/
inductive Means (o : Opt) : List Bytes → Val → Prop where
  | switch (v : Bytes) : o.kind = .switch → Means o [v] (.flag true)
  | value (t : Ty) (v : Bytes) : o.kind = .value t → Means o [v] (.one v)
  | values (t : Ty) (vs : List Bytes) : o.kind = .values t → vs ≠ [] → Means o vs (.many vs)

end Scribbu.Spec.Options
