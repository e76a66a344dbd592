import Verif.Model.Registry

/-! What it means for calls to be made one after another, although several threads make them. -/

namespace Scribbu.Spec
open Registry

variable {P : Type}

/-- What a call does if it is made alone. Reserved identifiers are refused (for generic parsers); the first parser registered for an identifier stays. -/
inductive Does : Maps P → Call P → Ans P → Maps P → Prop
  | refused (m id p) : id = /- COM -/ [67, 79, 77] ∨ id = /- PCT -/ [80, 67, 84] ∨ id = /- POP -/ [80, 79, 80] → Does m (.reg .gen id p) .refused m
  | gen (m id p) : id ∉ [/- COM -/ [67, 79, 77], /- PCT -/ [80, 67, 84], /- POP -/ [80, 79, 80]] → (∀ q, (id, q) ∉ m.gen) →
      Does m (.reg .gen id p) (.flag true) ⟨(id, p) :: m.gen, m.text⟩
  | genOld (m id p q) : id ∉ [/- COM -/ [67, 79, 77], /- PCT -/ [80, 67, 84], /- POP -/ [80, 79, 80]] → (id, q) ∈ m.gen → Does m (.reg .gen id p) (.flag false) m
  | text (m id p) : (∀ q, (id, q) ∉ m.text) → Does m (.reg .text id p) (.flag true) ⟨m.gen, (id, p) :: m.text⟩
  | textOld (m id p q) : (id, q) ∈ m.text → Does m (.reg .text id p) (.flag false) m
  | getGen (m) : Does m (.get .gen) (.table m.gen) m
  | getText (m) : Does m (.get .text) (.table m.text) m

/-- Calls made one after another, with what comes back. -/
inductive InTurn (m : Maps P) : List (Call P × Ans P) → Maps P → Prop
  | nil : InTurn m [] m
  | snoc (l m1 c a m2) : InTurn m l m1 → Does m1 c a m2 → InTurn m (l ++ [(c, a)]) m2

/-- What a thread does: it makes a call, the call takes effect all at once, and it returns. -/
inductive Act (P : Type) where
  | call (c : Call P)
  | effect (c : Call P) (a : Ans P)
  | ret (a : Ans P)

inductive Phase (P : Type) where
  | out
  | called (c : Call P)
  | answered (a : Ans P)

/-- Each call takes effect once, between its beginning and its return, and returns what came of that. -/
inductive Proper : List (Act P) → Phase P → Prop
  | nil : Proper [] .out
  | call (l c) : Proper l .out → Proper (l ++ [.call c]) (.called c)
  | effect (l c a) : Proper l (.called c) → Proper (l ++ [.effect c a]) (.answered a)
  | ret (l a) : Proper l (.answered a) → Proper (l ++ [.ret a]) .out

/-- What can be seen of it. -/
def visible : List (Nat × Act P) → List (Event P)
  | [] => []
  | (t, .call c) :: l => .call t c :: visible l
  | (t, .ret a) :: l => .ret t a :: visible l
  | (_, .effect _ _) :: l => visible l

/-- What one thread does. -/
def own (t : Nat) : List (Nat × Act P) → List (Act P)
  | [] => []
  | (u, x) :: l => if u = t then x :: own t l else own t l

/-- The effects. -/
def effects : List (Nat × Act P) → List (Call P × Ans P)
  | [] => []
  | (_, .effect c a) :: l => (c, a) :: effects l
  | _ :: l => effects l

/-- What can be seen of a run (calls and what comes back, in the order in which that happened) is as if each call had taken effect at one moment
between its beginning and its return. -/
def AsIfInTurn (m : Maps P) (h : List (Event P)) (m' : Maps P) : Prop :=
  ∃ l : List (Nat × Act P), visible l = h ∧ (∀ t, ∃ ph, Proper (own t l) ph) ∧ InTurn m (effects l) m'

/-- The thread reads or writes the shared tables. -/
def Inside : Loc P → Prop
  | .locked _ => True
  | .looked _ _ _ _ => True
  | .copying _ _ _ => True
  | _ => False

/-- A data race: two threads are at the shared tables. -/
def Race (s : St P) : Prop := ∃ t u, t ≠ u ∧ Inside (s.thr t).loc ∧ Inside (s.thr u).loc

/-- The calls of one thread. -/
def callsOf (t : Nat) : List (Event P) → List (Call P)
  | [] => []
  | .call u c :: l => if u = t then c :: callsOf t l else callsOf t l
  | _ :: l => callsOf t l

/-- What came back to one thread. -/
def answersOf (t : Nat) : List (Event P) → List (Ans P)
  | [] => []
  | .ret u a :: l => if u = t then a :: answersOf t l else answersOf t l
  | _ :: l => answersOf t l

/-- The thread has made all its calls. -/
def Finished (s : St P) (t : Nat) : Prop := (s.thr t).loc = .out ∧ (s.thr t).todo = []

end Scribbu.Spec
