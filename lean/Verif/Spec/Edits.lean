import Verif.Model.Basic

/-! # Turning one text into another

The Damerau-Levenshtein distance (the "optimal string alignment" kind), from its definition: the least number of changes that turn
one text into the other, where a change is to replace, insert or delete a character or to exchange two neighbouring ones,
and no part is changed twice. -/

namespace Scribbu.Spec

/-- What is done, from left to right. -/
inductive Change where
  | keep (a : Nat)
  | replace (a b : Nat)
  | insert (b : Nat)
  | delete (a : Nat)
  | exchange (a b : Nat)
  deriving DecidableEq, Repr

namespace Change

/-- What it is done to. -/
def before : Change → List Nat
  | keep a => [a]
  | replace a _ => [a]
  | insert _ => []
  | delete a => [a]
  | exchange a b => [a, b]

/-- What becomes of it. -/
def after : Change → List Nat
  | keep a => [a]
  | replace _ b => [b]
  | insert b => [b]
  | delete _ => []
  | exchange a b => [b, a]

/-- What it counts. -/
def cost : Change → Nat
  | keep _ => 0
  | _ => 1

end Change

/-- `A` can be turned into `B` at the cost of `d`. -/
def Turns (A B : List Nat) (d : Nat) : Prop :=
  ∃ s : List Change, s.flatMap Change.before = A ∧ s.flatMap Change.after = B ∧ (s.map Change.cost).sum = d

/-- `d` is the distance of `A` and `B`. -/
def Distance (A B : List Nat) (d : Nat) : Prop := Turns A B d ∧ ∀ e, Turns A B e → d ≤ e

end Scribbu.Spec
