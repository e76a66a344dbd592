import Verif.Model.Tagset

/-! Independent specification of what replacing the tags of a file is to achieve. -/

namespace Scribbu.Spec

/-- Two lists of the same length whose elements are related one by one. -/
inductive Pairs {α β : Type} (R : α → β → Prop) : List α → List β → Prop
  | nil : Pairs R [] []
  | cons {a b as bs} : R a b → Pairs R as bs → Pairs R (a :: as) (b :: bs)

/-- `t'` is `t` with at most its padding changed, to `q`. -/
def Repadded (I : TagI τ) (t t' : τ) (q : Nat) : Prop := t' = I.setPadding t q

/-- `new` is how the tag `t` is serialised, once its size has been asked for, with the padding `p`. -/
def Serialised (I : TagI τ) (au : ApplyUnsync) (t : τ) (p : Nat) (new : Bytes) : Prop :=
  ∃ u t1 n t2 t3, (match au with
      | .never => u = false ∧ t1 = t
      | .always => u = true ∧ t1 = t
      | .asNeeded => I.needs t = .ok (u, t1)) ∧
    I.size t1 u = .ok (n, t2) ∧ I.write (I.setPadding t2 p) u = .ok (new, t3)

end Scribbu.Spec
