import Verif.Spec.Edits

/-! # Turning prefixes into prefixes -/

namespace Scribbu.Edits

open Spec

/-- The first `i` of `A` can be turned into the first `j` of `B` at the cost of `d`. -/
inductive E (A B : List Nat) : Nat → Nat → Nat → Prop
  | nil : E A B 0 0 0
  | keep {i j d} : E A B i j d → (hi : i < A.length) → (hj : j < B.length) → A[i] = B[j] → E A B (i + 1) (j + 1) d
  | replace {i j d} : E A B i j d → i < A.length → j < B.length → E A B (i + 1) (j + 1) (d + 1)
  | insert {i j d} : E A B i j d → j < B.length → E A B i (j + 1) (d + 1)
  | delete {i j d} : E A B i j d → i < A.length → E A B (i + 1) j (d + 1)
  | exchange {i j d} : E A B i j d → (hi : i + 1 < A.length) → (hj : j + 1 < B.length) → A[i] = B[j + 1] → A[i + 1] = B[j] →
      E A B (i + 2) (j + 2) (d + 1)

theorem E.le_left {A B : List Nat} {i j d : Nat} (h : E A B i j d) : i ≤ A.length := by
  induction h <;> omega

theorem E.le_right {A B : List Nat} {i j d : Nat} (h : E A B i j d) : j ≤ B.length := by
  induction h <;> omega

/-- A change of length costs. -/
theorem E.length {A B : List Nat} {i j d : Nat} (h : E A B i j d) : i ≤ j + d ∧ j ≤ i + d := by
  induction h <;> omega

theorem E.inserts {A B : List Nat} {i j d : Nat} (h : E A B i j d) : ∀ k, j + k ≤ B.length → E A B i (j + k) (d + k) := by
  intro k
  induction k with
  | zero => intro _; exact h
  | succ k ih => intro hk; exact E.insert (ih (by omega)) (show j + k < B.length by omega)

theorem E.deletes {A B : List Nat} {i j d : Nat} (h : E A B i j d) : ∀ k, i + k ≤ A.length → E A B (i + k) j (d + k) := by
  intro k
  induction k with
  | zero => intro _; exact h
  | succ k ih => intro hk; exact E.delete (ih (by omega)) (show i + k < A.length by omega)

theorem E.replaces {A B : List Nat} {i j d : Nat} (h : E A B i j d) : ∀ k, i + k ≤ A.length → j + k ≤ B.length →
    E A B (i + k) (j + k) (d + k) := by
  intro k
  induction k with
  | zero => intro _ _; exact h
  | succ k ih => intro h1 h2; exact E.replace (ih (by omega) (by omega)) (show i + k < A.length by omega) (show j + k < B.length by omega)

/-- There is always a way: replace what there is, then insert or delete. -/
theorem E.all (A B : List Nat) : E A B A.length B.length (max A.length B.length) := by
  by_cases h : A.length ≤ B.length
  · have h1 := E.replaces (E.nil (A := A) (B := B)) A.length (by omega) (by omega)
    have h2 := h1.inserts (B.length - A.length) (by omega)
    have e1 : 0 + A.length + (B.length - A.length) = B.length := by omega
    have e2 : max A.length B.length = B.length := by omega
    rw [e2]
    rw [e1] at h2
    simpa using h2
  · have h1 := E.replaces (E.nil (A := A) (B := B)) B.length (by omega) (by omega)
    have h2 := h1.deletes (A.length - B.length) (by omega)
    have e1 : 0 + B.length + (A.length - B.length) = A.length := by omega
    have e2 : max A.length B.length = A.length := by omega
    rw [e2]
    rw [e1] at h2
    simpa using h2

theorem take_succ' {A : List Nat} {i : Nat} (h : i < A.length) : A.take (i + 1) = A.take i ++ [A[i]] := by
  rw [List.take_succ_eq_append_getElem h]

/-- From prefixes to changes. -/
theorem E.turns {A B : List Nat} {i j d : Nat} (h : E A B i j d) : Turns (A.take i) (B.take j) d := by
  induction h with
  | nil => exact ⟨[], by simp, by simp, by simp⟩
  | @keep i j d _ hi hj heq ih =>
    obtain ⟨s, h1, h2, h3⟩ := ih
    refine ⟨s ++ [.keep A[i]], ?_, ?_, ?_⟩
    · rw [List.flatMap_append, h1, take_succ' hi]; simp [Change.before]
    · rw [List.flatMap_append, h2, take_succ' hj]; simp [Change.after, heq]
    · simp [h3, Change.cost]
  | @replace i j d _ hi hj ih =>
    obtain ⟨s, h1, h2, h3⟩ := ih
    refine ⟨s ++ [.replace A[i] B[j]], ?_, ?_, ?_⟩
    · rw [List.flatMap_append, h1, take_succ' hi]; simp [Change.before]
    · rw [List.flatMap_append, h2, take_succ' hj]; simp [Change.after]
    · simp [h3, Change.cost]
  | @insert i j d _ hj ih =>
    obtain ⟨s, h1, h2, h3⟩ := ih
    refine ⟨s ++ [.insert B[j]], ?_, ?_, ?_⟩
    · simp [h1, Change.before]
    · rw [List.flatMap_append, h2, take_succ' hj]; simp [Change.after]
    · simp [h3, Change.cost]
  | @delete i j d _ hi ih =>
    obtain ⟨s, h1, h2, h3⟩ := ih
    refine ⟨s ++ [.delete A[i]], ?_, ?_, ?_⟩
    · rw [List.flatMap_append, h1, take_succ' hi]; simp [Change.before]
    · simp [h2, Change.after]
    · simp [h3, Change.cost]
  | @exchange i j d _ hi hj e1 e2 ih =>
    obtain ⟨s, h1, h2, h3⟩ := ih
    refine ⟨s ++ [.exchange A[i] A[i + 1]], ?_, ?_, ?_⟩
    · rw [List.flatMap_append, h1, show i + 2 = (i + 1) + 1 from rfl, take_succ' hi, take_succ' (show i < A.length by omega)]
      simp only [List.append_assoc]; rfl
    · rw [List.flatMap_append, h2, show j + 2 = (j + 1) + 1 from rfl, take_succ' hj, take_succ' (show j < B.length by omega)]
      simp only [List.append_assoc, ← e1, ← e2]; rfl
    · simp [h3, Change.cost]

theorem snoc_prefix {A l : List Nat} {a : Nat} (h : l ++ [a] <+: A) : ∃ hi : l.length < A.length, A[l.length] = a ∧ l <+: A := by
  obtain ⟨r, rfl⟩ := h
  refine ⟨by simp, ?_, ⟨a :: r, by simp⟩⟩
  simp

/-- From changes to prefixes. -/
theorem E.of_changes (A B : List Nat) (s : List Change) : s.flatMap Change.before <+: A → s.flatMap Change.after <+: B →
    E A B (s.flatMap Change.before).length (s.flatMap Change.after).length (s.map Change.cost).sum := by
  obtain ⟨r, rfl⟩ : ∃ r, s = List.reverse r := ⟨s.reverse, by simp⟩
  induction r with
  | nil => intro _ _; exact E.nil
  | cons x r ih =>
    intro hA hB
    rw [List.reverse_cons, List.flatMap_append] at hA hB ⊢
    simp only [List.flatMap_cons, List.flatMap_nil, List.append_nil] at hA hB ⊢
    rw [List.flatMap_append, List.map_append, List.sum_append]
    simp only [List.flatMap_cons, List.flatMap_nil, List.append_nil, List.map_cons, List.map_nil]
    generalize (List.flatMap Change.before r.reverse) = a at *
    generalize (List.flatMap Change.after r.reverse) = b at *
    generalize (List.map Change.cost r.reverse).sum = d at *
    cases x with
    | keep c =>
      simp only [Change.before, Change.after, Change.cost, List.length_append, List.sum_cons, List.sum_nil] at hA hB ⊢
      obtain ⟨hi, h1, h2⟩ := snoc_prefix hA
      obtain ⟨hj, h3, h4⟩ := snoc_prefix hB
      exact E.keep (ih h2 h4) hi hj (by rw [h1, h3])
    | replace c e =>
      simp only [Change.before, Change.after, Change.cost, List.length_append, List.sum_cons, List.sum_nil] at hA hB ⊢
      obtain ⟨hi, h1, h2⟩ := snoc_prefix hA
      obtain ⟨hj, h3, h4⟩ := snoc_prefix hB
      exact E.replace (ih h2 h4) hi hj
    | insert c =>
      simp only [Change.before, Change.after, Change.cost, List.length_append, List.sum_cons, List.sum_nil, List.append_nil] at hA hB ⊢
      obtain ⟨hj, h3, h4⟩ := snoc_prefix hB
      exact E.insert (ih hA h4) hj
    | delete c =>
      simp only [Change.before, Change.after, Change.cost, List.length_append, List.sum_cons, List.sum_nil, List.append_nil] at hA hB ⊢
      obtain ⟨hi, h1, h2⟩ := snoc_prefix hA
      exact E.delete (ih h2 hB) hi
    | exchange c e =>
      simp only [Change.before, Change.after, Change.cost, List.length_append, List.sum_cons, List.sum_nil] at hA hB ⊢
      have hA' : (a ++ [c]) ++ [e] <+: A := by simpa using hA
      have hB' : (b ++ [e]) ++ [c] <+: B := by simpa using hB
      obtain ⟨hi, h1, h2⟩ := snoc_prefix hA'
      obtain ⟨hj, h3, h4⟩ := snoc_prefix hB'
      obtain ⟨hi', h1', h2'⟩ := snoc_prefix h2
      obtain ⟨hj', h3', h4'⟩ := snoc_prefix h4
      simp only [List.length_append, List.length_cons, List.length_nil, Nat.zero_add] at hi hj h1 h3
      exact E.exchange (ih h2' h4') hi hj (by rw [h1', h3]) (by rw [h1, h3'])

/-- Turning one text into another, by prefixes. -/
theorem turns_iff (A B : List Nat) (d : Nat) : Turns A B d ↔ E A B A.length B.length d := by
  constructor
  · rintro ⟨s, h1, h2, h3⟩
    have := E.of_changes A B s (by rw [h1]; exact List.prefix_rfl) (by rw [h2]; exact List.prefix_rfl)
    rw [h1, h2, h3] at this
    exact this
  · intro h
    have := h.turns
    simpa using this

end Scribbu.Edits
