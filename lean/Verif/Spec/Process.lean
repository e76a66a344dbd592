import Verif.Model.Process

/-! Independent specification of which tags a sub-command may touch. -/

namespace Scribbu.Spec
open Scribbu Process

/-- The `i`-th ID3v2 tag is one of those the sub-command was told to process. -/
def InScope (P : Processor τ) (i : Nat) : Prop :=
  match P.v2Scope with
  | .all => True
  | .none => False
  | .some tags => i ∈ tags

/-- A missing tag is to be created, given whether there are tags of the other kind. -/
def MayCreate (c : Creation) (other : Prop) : Prop := c = .always ∨ (c = .whenOther ∧ other)

/-- There is something to write: a tag in scope reports a change, or a tag is to be created. -/
def Reason (P : Processor τ) (v2 : List τ) (v1 : Option V1Tag) : Prop :=
  (∃ i t t', v2[i]? = some t ∧ InScope P i ∧ P.processV2 t = .ok (true, t')) ∨
  (v2 = [] ∧ MayCreate P.v2Create (v1 ≠ none)) ∨
  (∃ t t', v1 = some t ∧ P.v1Scope = true ∧ P.processV1 t = .ok (true, t')) ∨
  (v1 = none ∧ MayCreate P.v1Create (v2 ≠ []))

/-- The ID3v2 tags afterwards are those before, each of those in scope processed, and one more if there were none and one is to be
created. -/
def TagsAfter (P : Processor τ) (v2 : List τ) (v1 : Option V1Tag) (after : List τ) : Prop :=
  (∀ i t, v2[i]? = some t → InScope P i → ∃ b t', P.processV2 t = .ok (b, t') ∧ after[i]? = some t') ∧
  (∀ i t, v2[i]? = some t → ¬ InScope P i → after[i]? = some t) ∧
  (¬ (v2 = [] ∧ MayCreate P.v2Create (v1 ≠ none)) → after.length = v2.length) ∧
  (v2 = [] ∧ MayCreate P.v2Create (v1 ≠ none) →
    ∃ t, after = [t] ∧ ((v1 = none ∧ P.createV2 = .ok t) ∨ ∃ o, v1 = some o ∧ P.createV2From o = .ok t))

/-- The ID3v1 tag afterwards: the one before, processed if in scope, or a new one if there was none and one is to be created. -/
def V1After (P : Processor τ) (v2 after2 : List τ) (v1 after : Option V1Tag) : Prop :=
  (∀ t, v1 = some t → P.v1Scope = true → ∃ b t', P.processV1 t = .ok (b, t') ∧ after = some t') ∧
  (∀ t, v1 = some t → P.v1Scope = false → after = some t) ∧
  (v1 = none → ¬ MayCreate P.v1Create (v2 ≠ []) → after = none) ∧
  (v1 = none → MayCreate P.v1Create (v2 ≠ []) →
    ∃ t, after = some t ∧ ((v2 = [] ∧ P.createV1 = .ok t) ∨ (v2 ≠ [] ∧ P.createV1From after2 = .ok t)))

end Scribbu.Spec
