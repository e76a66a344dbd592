import Verif.Model.Options

/-!
# What users expect of options

Independent of how options are parsed: only the tables of the sub-commands and the outcome `Options.options` are used.
-/

namespace Scribbu.Spec.Options

open Scribbu.Options

/-- A word that does not look like an option. -/
def Plain (w : Bytes) : Prop := w.head? ≠ some 45

/-- The ways to write an option, with a value `v` if it takes one. -/
inductive Written (o : Opt) (v : Bytes) : List Bytes → Prop where
  /-- `--long` -/
  | long : o.kind = .switch → Written o v [[45, 45] ++ o.long]
  /-- `-l` -/
  | short (b : Byte) : o.kind = .switch → o.short = some b → Written o v [[45, b]]
  /-- `--long=v` -/
  | longIs : o.kind ≠ .switch → v ≠ [] → Written o v [[45, 45] ++ o.long ++ [61] ++ v]
  /-- `--long v` -/
  | longNext : o.kind ≠ .switch → Plain v → Written o v [[45, 45] ++ o.long, v]
  /-- `-lv` -/
  | shortIs (b : Byte) : o.kind ≠ .switch → o.short = some b → v ≠ [] → Written o v [[45, b] ++ v]
  /-- `-l v` -/
  | shortNext (b : Byte) : o.kind ≠ .switch → o.short = some b → Plain v → Written o v [[45, b], v]

/-- Whether the text is one the option takes. -/
def Takes (B : Boost) (o : Opt) (v : Bytes) : Prop :=
  match o.kind with
  | .switch => True
  | .value t => B.ok t v = true
  | .values t => B.ok t v = true

/-- What the option is then. -/
def meant (o : Opt) (v : Bytes) : Val :=
  match o.kind with
  | .switch => .flag true
  | .value _ => .one v
  | .values _ => .many [v]

/-- The option is as it is if nobody gives it. -/
def Untouched (m : Vars) (o : Opt) : Prop := m o.long = o.preset.map fun v => (v, true)

/-- Words that mean yes. -/
def yes : List Bytes := [[], /- on -/ [111, 110], /- yes -/ [121, 101, 115], /- 1 -/ [49], /- true -/ [116, 114, 117, 101]]

/-- Words that mean no. -/
def no : List Bytes := [/- off -/ [111, 102, 102], /- no -/ [110, 111], /- 0 -/ [48], /- false -/ [102, 97, 108, 115, 101]]

/-- A text in small letters. -/
def small (v : Bytes) : Bytes := v.map fun b => if 65 ≤ b ∧ b ≤ 90 then b + 32 else b

/-- What the value `v` of a variable makes of the option. -/
inductive Stands (B : Boost) (o : Opt) (v : Bytes) : Val → Prop where
  | yes : o.kind = .switch → small v ∈ yes → Stands B o v (.flag true)
  | no : o.kind = .switch → small v ∈ no → Stands B o v (.flag false)
  | value (t : Ty) : o.kind = .value t → B.ok t v = true → Stands B o v (.one v)
  | values (t : Ty) : o.kind = .values t → B.ok t v = true → Stands B o v (.many [v])

/-- The variable for an option, as all are named: `SCRIBBU_`, then the name in capitals with underscores. -/
def variableFor (long : Bytes) : Bytes :=
  /- SCRIBBU_ -/ [83, 67, 82, 73, 66, 66, 85, 95] ++ long.map fun b => if b = 45 then 95 else if 97 ≤ b ∧ b ≤ 122 then b - 32 else b

end Scribbu.Spec.Options
