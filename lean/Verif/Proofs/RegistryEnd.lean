import Verif.Proofs.Registry

/-! Every run in which all threads get their turn comes to an end. -/

namespace Scribbu.Registry
open Spec

variable {P : Type}

def sumTo : Nat → (Nat → Nat) → Nat
  | 0, _ => 0
  | n + 1, f => sumTo n f + f n

theorem sumTo_congr (n : Nat) (f g : Nat → Nat) (h : ∀ u, u < n → g u = f u) : sumTo n g = sumTo n f := by
  induction n with
  | zero => rfl
  | succ n ih => simp [sumTo, ih fun u hu => h u (by omega), h n (by omega)]

theorem sumTo_upd (n t : Nat) (f g : Nat → Nat) (ht : t < n) (h : ∀ u, u ≠ t → g u = f u) : sumTo n g + f t = sumTo n f + g t := by
  induction n with
  | zero => omega
  | succ n ih =>
    by_cases e : t = n
    · subst e
      simp only [sumTo]
      rw [sumTo_congr t f g fun u hu => h u (by omega)]
      omega
    · have := ih (by omega)
      simp only [sumTo]
      rw [h n (by omega)]
      omega

/-- Entries that may still come. -/
def pend : Loc P → Nat
  | .called (.reg _ _ _) => 1
  | .locked (.reg _ _ _) => 1
  | .looked _ _ _ _ => 1
  | _ => 0

def size (n : Nat) (s : St P) : Nat := s.maps.gen.length + s.maps.text.length + sumTo n fun t => (s.thr t).todo.length + pend (s.thr t).loc

/-- Steps left, at most. -/
def steps (k : Nat) : Loc P → Nat
  | .out => 0
  | .called _ => k + 7
  | .locked _ => k + 6
  | .looked _ _ _ _ => 3
  | .copying _ _ i => k + 5 - min i k
  | .unlocking _ => 2
  | .returning _ => 1

def weight (k n : Nat) (s : St P) : Nat := sumTo n fun t => (k + 10) * (s.thr t).todo.length + steps k (s.thr t).loc

theorem get_length (m : Maps P) (w : Which) : (m.get w).length ≤ m.gen.length + m.text.length := by
  cases w <;> simp [Maps.get]

theorem step_thr (s : St P) (t u : Nat) (h : u ≠ t) : (step s t).thr u = s.thr u := by
  unfold step
  split
  · split <;> simp [h]
  · unfold step.lock
    split
    · split
      · exact to_ne s _ h
      · split
        · exact to_ne s _ h
        · rfl
    · split
      · exact to_ne s _ h
      · rfl
  · exact to_ne s _ h
  · exact to_ne s _ h
  · split
    · exact to_ne s _ h
    · exact to_ne s _ h
  · split
    · exact to_ne s _ h
    · exact to_ne s _ h
  · exact to_ne s _ h
  · exact to_ne s _ h

/-- What a step changes: nothing, or the thread comes nearer to its end, and the number of entries that there may ever be does not grow. -/
theorem step_progress (k : Nat) (s : St P) (t : Nat) (hk : s.maps.gen.length + s.maps.text.length ≤ k) :
    step s t = s ∧ (Finished s t ∨ ∃ u, s.owner = some u ∧ ¬ Holds (s.thr t).loc) ∨
    ((k + 10) * ((step s t).thr t).todo.length + steps k ((step s t).thr t).loc < (k + 10) * (s.thr t).todo.length + steps k (s.thr t).loc ∧
     (step s t).maps.gen.length + (step s t).maps.text.length + (((step s t).thr t).todo.length + pend ((step s t).thr t).loc) ≤
       s.maps.gen.length + s.maps.text.length + ((s.thr t).todo.length + pend (s.thr t).loc)) := by
  have hlock : ∀ c, (s.thr t).loc = .called c → (∀ id p, c = .reg .gen id p → reserved id = false) →
      step.lock s t c = s ∧ (Finished s t ∨ ∃ u, s.owner = some u ∧ ¬ Holds (s.thr t).loc) ∨
      ((k + 10) * ((step.lock s t c).thr t).todo.length + steps k ((step.lock s t c).thr t).loc < (k + 10) * (s.thr t).todo.length + steps k (s.thr t).loc ∧
       (step.lock s t c).maps.gen.length + (step.lock s t c).maps.text.length + (((step.lock s t c).thr t).todo.length + pend ((step.lock s t c).thr t).loc) ≤
         s.maps.gen.length + s.maps.text.length + ((s.thr t).todo.length + pend (s.thr t).loc)) := by
    intro c hl _
    unfold step.lock
    cases ho : s.owner with
    | some u => exact .inl ⟨rfl, .inr ⟨u, rfl, by rw [hl]; exact id⟩⟩
    | none =>
      right
      simp only [to_same, hl]
      refine ⟨by simp [steps], ?_⟩
      cases c <;> simp [pend, St.to]
  unfold step
  cases hl : (s.thr t).loc with
  | out =>
    cases ht : (s.thr t).todo with
    | nil => exact .inl ⟨rfl, .inl ⟨hl, ht⟩⟩
    | cons c cs =>
      right
      simp only [if_true, List.length_cons, steps]
      refine ⟨by rw [Nat.mul_add]; omega, ?_⟩
      cases c <;> simp [pend] <;> omega
  | called c =>
    simp only
    split
    · rename_i id p
      by_cases hr : reserved id = true
      · rw [if_pos hr]
        right
        simp only [to_same, steps, pend]
        refine ⟨by omega, ?_⟩
        show s.maps.gen.length + s.maps.text.length + _ ≤ _
        omega
      · rw [if_neg hr]
        have := hlock _ hl (by rintro _ _ ⟨⟩; simpa using hr)
        rw [hl] at this
        exact this
    · rename_i h
      have := hlock _ hl (fun id p e => absurd e (h id p))
      rw [hl] at this
      exact this
  | locked c =>
    right
    cases c with
    | reg w id p =>
      simp only [to_same, steps, pend]
      exact ⟨by omega, Nat.le_refl _⟩
    | get w =>
      simp only [to_same, steps, pend]
      exact ⟨by omega, Nat.le_refl _⟩
  | looked w id p found =>
    right
    simp only
    split
    · simp only [to_same, steps, pend]
      refine ⟨by omega, ?_⟩
      show s.maps.gen.length + s.maps.text.length + _ ≤ _
      omega
    · simp only [to_same, steps, pend]
      refine ⟨by omega, ?_⟩
      cases w <;> simp [Maps.add] <;> omega
  | copying w got i =>
    right
    simp only
    have hg := get_length s.maps w
    split
    · rename_i e he
      have hi : i < (s.maps.get w).length := by
        rcases Nat.lt_or_ge i (s.maps.get w).length with h | h
        · exact h
        · rw [List.getElem?_eq_none h] at he; cases he
      simp only [to_same, steps, pend]
      exact ⟨by omega, Nat.le_refl _⟩
    · simp only [to_same, steps, pend]
      exact ⟨by omega, Nat.le_refl _⟩
  | unlocking a =>
    right
    simp only [to_same, steps, pend]
    exact ⟨by omega, Nat.le_refl _⟩
  | returning a =>
    right
    simp only [to_same, steps, pend]
    exact ⟨by omega, Nat.le_refl _⟩

/-- Threads that are not among the first `n` have nothing to do. -/
def Few (n : Nat) (s : St P) : Prop := ∀ t, n ≤ t → Finished s t

theorem finished_step {s : St P} {t : Nat} (h : Finished s t) : step s t = s := by
  obtain ⟨h1, h2⟩ := h
  unfold step
  rw [h1]
  simp only
  rw [h2]

theorem few_step {n : Nat} {s : St P} (h : Few n s) (t : Nat) : Few n (step s t) := by
  intro u hu
  by_cases e : u = t
  · subst e
    rw [finished_step (h u hu)]
    exact h u hu
  · show _ ∧ _
    rw [step_thr s t u e]
    exact h u hu

theorem size_step {n : Nat} {s : St P} (h : Few n s) (t : Nat) : size n (step s t) ≤ size n s := by
  rcases Nat.lt_or_ge t n with ht | ht
  · rcases step_progress (s.maps.gen.length + s.maps.text.length) s t (Nat.le_refl _) with ⟨e, -⟩ | ⟨-, h2⟩
    · rw [e]; exact Nat.le_refl _
    · have := sumTo_upd n t (fun u => (s.thr u).todo.length + pend (s.thr u).loc) (fun u => ((step s t).thr u).todo.length + pend ((step s t).thr u).loc) ht
        fun u hu => by rw [step_thr s t u hu]
      simp only [size]
      omega
  · rw [finished_step (h t ht)]
    exact Nat.le_refl _

theorem weight_step {n k : Nat} {s : St P} (h : Few n s) (hk : size n s ≤ k) (t : Nat) : step s t = s ∨ weight k n (step s t) < weight k n s := by
  rcases Nat.lt_or_ge t n with ht | ht
  · rcases step_progress k s t (by simp only [size] at hk; omega) with ⟨e, -⟩ | ⟨h1, -⟩
    · exact .inl e
    · right
      have := sumTo_upd n t (fun u => (k + 10) * (s.thr u).todo.length + steps k (s.thr u).loc)
        (fun u => (k + 10) * ((step s t).thr u).todo.length + steps k ((step s t).thr u).loc) ht fun u hu => by rw [step_thr s t u hu]
      simp only [weight]
      omega
  · exact .inl (finished_step (h t ht))

theorem run_facts {n k : Nat} (r : List Nat) : ∀ {s : St P}, Few n s → size n s ≤ k →
    Few n (run s r) ∧ size n (run s r) ≤ k ∧ weight k n (run s r) ≤ weight k n s ∧ ((∃ t ∈ r, step s t ≠ s) → weight k n (run s r) < weight k n s) := by
  induction r with
  | nil => exact fun h hk => ⟨h, hk, Nat.le_refl _, by rintro ⟨t, h, -⟩; cases h⟩
  | cons t r ih =>
    intro s h hk
    obtain ⟨i1, i2, i3, i4⟩ := ih (few_step h t) (Nat.le_trans (size_step h t) hk)
    refine ⟨i1, i2, ?_, ?_⟩
    · rcases weight_step h hk t with e | e
      · show weight k n (run (step s t) r) ≤ _
        rw [e] at i3 ⊢
        exact i3
      · exact Nat.le_trans i3 (Nat.le_of_lt e)
    · rintro ⟨u, hu, hne⟩
      show weight k n (run (step s t) r) < _
      rcases weight_step h hk t with e | e
      · rw [e] at i4 ⊢
        rcases List.mem_cons.1 hu with rfl | hu
        · exact absurd e hne
        · exact i4 ⟨u, hu, hne⟩
      · exact Nat.lt_of_le_of_lt i3 e

/-- As long as not all is done, someone can move. -/
theorem movable {m : Maps P} {prog : Nat → List (Call P)} {n : Nat} {s : St P} (hI : Inv m prog s) (hF : Few n s) (h : ¬ ∀ t, Finished s t) :
    ∃ t, t < n ∧ step s t ≠ s := by
  obtain ⟨t, ht⟩ := Classical.not_forall.1 h
  have hlt : ∀ u, ¬ Finished s u → u < n := by
    intro u hu
    rcases Nat.lt_or_ge u n with h | h
    · exact h
    · exact absurd (hF u h) hu
  have same : ∀ u, step s u = s → Finished s u ∨ ∃ v, s.owner = some v ∧ ¬ Holds (s.thr u).loc := by
    intro u e
    rcases step_progress (s.maps.gen.length + s.maps.text.length) s u (Nat.le_refl _) with ⟨-, h⟩ | ⟨h, -⟩
    · exact h
    · rw [e] at h
      omega
  cases ho : s.owner with
  | none =>
    refine ⟨t, hlt t ht, fun e => ?_⟩
    rcases same t e with h | ⟨v, h, -⟩
    · exact ht h
    · rw [ho] at h; cases h
  | some u =>
    have hu : Holds (s.thr u).loc := (hI.holds u).2 ho
    have hnf : ¬ Finished s u := by
      rintro ⟨e, -⟩
      rw [e] at hu
      exact hu
    refine ⟨u, hlt u hnf, fun e => ?_⟩
    rcases same u e with h | ⟨v, -, h⟩
    · exact hnf h
    · exact h hu

theorem run_append (s : St P) (a b : List Nat) : run s (a ++ b) = run (run s a) b := by
  induction a generalizing s with
  | nil => rfl
  | cons t a ih => exact ih (step s t)

theorem run_finished {s : St P} (h : ∀ t, Finished s t) (r : List Nat) : run s r = s := by
  induction r with
  | nil => rfl
  | cons t r ih =>
    show run (step s t) r = s
    rw [finished_step (h t)]
    exact ih

theorem rounds_end {m : Maps P} {prog : Nat → List (Call P)} {n k : Nat} : ∀ (rounds : List (List Nat)) {s : St P}, Inv m prog s → Few n s → size n s ≤ k →
    weight k n s ≤ rounds.length → (∀ r ∈ rounds, ∀ t, t < n → t ∈ r) → ∀ t, Finished (run s rounds.flatten) t
  | [], s, hI, hF, hk, hw, _ => by
    by_cases h : ∀ t, Finished s t
    · exact h
    · obtain ⟨t, ht, hne⟩ := movable hI hF h
      rcases weight_step hF hk t with e | e
      · exact absurd e hne
      · simp at hw
        omega
  | r :: rounds, s, hI, hF, hk, hw, hr => by
    rw [List.flatten_cons, run_append]
    by_cases h : ∀ t, Finished s t
    · rw [run_finished h, run_finished h]
      exact h
    · obtain ⟨t, ht, hne⟩ := movable hI hF h
      obtain ⟨i1, i2, -, i4⟩ := run_facts r hF hk
      have := i4 ⟨t, hr r (by simp) t ht, hne⟩
      refine rounds_end rounds (inv_run r hI) i1 i2 ?_ fun q hq => hr q (by simp [hq])
      simp at hw
      omega

end Scribbu.Registry
