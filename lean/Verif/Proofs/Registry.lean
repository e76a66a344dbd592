import Verif.Spec.Registry

namespace Scribbu.Registry
open Spec

variable {P : Type}

theorem visible_append (l l' : List (Nat × Act P)) : visible (l ++ l') = visible l ++ visible l' := by
  induction l with
  | nil => rfl
  | cons x l ih => obtain ⟨t, x⟩ := x; cases x <;> simp [visible, ih]

theorem own_append (t : Nat) (l l' : List (Nat × Act P)) : own t (l ++ l') = own t l ++ own t l' := by
  induction l with
  | nil => rfl
  | cons x l ih =>
    obtain ⟨u, x⟩ := x
    by_cases h : u = t <;> simp [own, h, ih]

theorem effects_append (l l' : List (Nat × Act P)) : effects (l ++ l') = effects l ++ effects l' := by
  induction l with
  | nil => rfl
  | cons x l ih => obtain ⟨t, x⟩ := x; cases x <;> simp [effects, ih]

theorem callsOf_append (t : Nat) (l l' : List (Event P)) : callsOf t (l ++ l') = callsOf t l ++ callsOf t l' := by
  induction l with
  | nil => rfl
  | cons x l ih =>
    cases x with
    | call u c => by_cases h : u = t <;> simp [callsOf, h, ih]
    | ret u c => simp [callsOf, ih]

theorem answersOf_append (t : Nat) (l l' : List (Event P)) : answersOf t (l ++ l') = answersOf t l ++ answersOf t l' := by
  induction l with
  | nil => rfl
  | cons x l ih =>
    cases x with
    | ret u c => by_cases h : u = t <;> simp [answersOf, h, ih]
    | call u c => simp [answersOf, ih]

/-- The thread has the mutex. -/
def Holds : Loc P → Prop
  | .locked _ => True
  | .looked _ _ _ _ => True
  | .copying _ _ _ => True
  | .unlocking _ => True
  | _ => False

/-- Which calls get to the mutex. -/
def Open : Call P → Prop
  | .reg .gen id _ => reserved id = false
  | _ => True

/-- What a thread knows where it is. -/
def Knows (m : Maps P) : Loc P → Prop
  | .locked c => Open c
  | .looked w id p f => Open (.reg w id p) ∧ f = (find (m.get w) id).isSome
  | .copying w got i => got = (m.get w).take i
  | _ => True

def phase : Loc P → Phase P
  | .out => .out
  | .called c => .called c
  | .locked c => .called c
  | .looked w id p _ => .called (.reg w id p)
  | .copying w _ _ => .called (.get w)
  | .unlocking a => .answered a
  | .returning a => .answered a

structure Inv (m : Maps P) (prog : Nat → List (Call P)) (s : St P) : Prop where
  holds : ∀ t, Holds (s.thr t).loc ↔ s.owner = some t
  knows : ∀ t, Knows s.maps (s.thr t).loc
  trace : ∃ l, visible l = s.hist ∧ (∀ t, Proper (own t l) (phase (s.thr t).loc)) ∧ InTurn m (effects l) s.maps
  order : ∀ t, callsOf t s.hist ++ (s.thr t).todo = prog t

theorem to_same (s : St P) (t : Nat) (l : Loc P) : (s.to t l).thr t = { s.thr t with loc := l } := by simp [St.to]

theorem to_ne (s : St P) {t u : Nat} (l : Loc P) (h : u ≠ t) : (s.to t l).thr u = s.thr u := by simp [St.to, h]

theorem inv_init (m : Maps P) (prog : Nat → List (Call P)) : Inv m prog (init m prog) where
  holds t := by simp [init, Holds]
  knows t := by simp [init, Knows]
  trace := ⟨[], rfl, fun _ => .nil, .nil⟩
  order t := rfl

theorem find_isSome (t : Table P) (id : Bytes) : (find t id).isSome = true ↔ ∃ q, (id, q) ∈ t := by
  simp only [find, Option.isSome_map, List.find?_isSome, decide_eq_true_eq]
  constructor
  · rintro ⟨⟨a, q⟩, h, e⟩
    exact ⟨q, by simpa [← show a = id from e] using h⟩
  · rintro ⟨q, h⟩
    exact ⟨_, h, rfl⟩

theorem does_reg {m : Maps P} {w : Which} {id : Bytes} {p : P} (ho : Open (.reg w id p)) :
    (find (m.get w) id).isSome = true ∧ Does m (.reg w id p) (.flag false) m ∨
    (find (m.get w) id).isSome = false ∧ Does m (.reg w id p) (.flag true) (m.add w id p) := by
  cases hf : (find (m.get w) id).isSome with
  | true =>
    left
    refine ⟨rfl, ?_⟩
    obtain ⟨q, hq⟩ := (find_isSome _ _).1 hf
    cases w with
    | gen => exact .genOld m id p q (by simpa [Open, reserved] using ho) hq
    | text => exact .textOld m id p q hq
  | false =>
    right
    refine ⟨rfl, ?_⟩
    have hn : ∀ q, (id, q) ∉ m.get w := by
      intro q hq
      have := (find_isSome _ _).2 ⟨q, hq⟩
      rw [hf] at this
      cases this
    cases w with
    | gen => exact .gen m id p (by simpa [Open, reserved] using ho) hn
    | text => exact .text m id p hn

theorem does_get (m : Maps P) (w : Which) : Does m (.get w) (.table (m.get w)) m := by
  cases w with
  | gen => exact .getGen m
  | text => exact .getText m

theorem knows_idle (m : Maps P) {l : Loc P} (h : ¬ Holds l) : Knows m l := by
  cases l <;> simp_all [Holds, Knows]

theorem own_map_same (t : Nat) (acts : List (Act P)) : own t (acts.map fun x => (t, x)) = acts := by
  induction acts with
  | nil => rfl
  | cons x l ih => simp [own, ih]

theorem own_map_ne {t u : Nat} (h : t ≠ u) (acts : List (Act P)) : own u (acts.map fun x => (t, x)) = [] := by
  induction acts with
  | nil => rfl
  | cons x l ih => simp [own, h, ih]

theorem callsOf_ne {t u : Nat} (h : t ≠ u) (acts : List (Act P)) : callsOf u (visible (acts.map fun x => (t, x))) = [] := by
  induction acts with
  | nil => rfl
  | cons x l ih => cases x <;> simp [visible, callsOf, h, ih]

/-- A step of one thread. -/
theorem inv_step_of {m : Maps P} {prog : Nat → List (Call P)} {s s' : St P} (hI : Inv m prog s) (t : Nat) (acts : List (Act P))
    (hthr : ∀ u, u ≠ t → s'.thr u = s.thr u)
    (hphase : ∀ l, Proper l (phase (s.thr t).loc) → Proper (l ++ acts) (phase (s'.thr t).loc))
    (hhist : s'.hist = s.hist ++ visible (acts.map fun x => (t, x)))
    (hturn : ∀ l, InTurn m l s.maps → InTurn m (l ++ effects (acts.map fun x => (t, x))) s'.maps)
    (hholds : Holds (s'.thr t).loc ↔ s'.owner = some t)
    (howner : ∀ u, u ≠ t → (s'.owner = some u ↔ s.owner = some u))
    (hknows : Knows s'.maps (s'.thr t).loc)
    (hothers : s'.maps = s.maps ∨ s.owner = some t)
    (horder : callsOf t (visible (acts.map fun x => (t, x))) ++ (s'.thr t).todo = (s.thr t).todo) : Inv m prog s' where
  holds u := by
    by_cases h : u = t
    · subst h; exact hholds
    · rw [hthr u h, howner u h]; exact hI.holds u
  knows u := by
    by_cases h : u = t
    · subst h; exact hknows
    · rw [hthr u h]
      rcases hothers with e | e
      · rw [e]; exact hI.knows u
      · refine knows_idle _ fun hh => ?_
        have := (hI.holds u).1 hh
        rw [e] at this
        cases this
        exact h rfl
  trace := by
    obtain ⟨l, h1, h2, h3⟩ := hI.trace
    refine ⟨l ++ acts.map fun x => (t, x), ?_, fun u => ?_, ?_⟩
    · rw [visible_append, h1, hhist]
    · rw [own_append]
      by_cases h : u = t
      · subst h
        rw [own_map_same]
        exact hphase _ (h2 u)
      · rw [own_map_ne (fun e => h e.symm), List.append_nil, hthr u h]
        exact h2 u
    · rw [effects_append]
      exact hturn _ h3
  order u := by
    rw [hhist, callsOf_append]
    by_cases h : u = t
    · subst h
      rw [List.append_assoc, horder]
      exact hI.order u
    · rw [callsOf_ne (fun e => h e.symm), List.append_nil, hthr u h]
      exact hI.order u

/-- Nothing visible happens, and the thread stays where it is in its call. -/
theorem inv_move {m : Maps P} {prog : Nat → List (Call P)} {s : St P} (hI : Inv m prog s) (t : Nat) (l : Loc P)
    (hp : phase l = phase (s.thr t).loc) (hh : Holds l ↔ Holds (s.thr t).loc) (hk : Knows s.maps l) : Inv m prog (s.to t l) := by
  refine inv_step_of hI t [] (fun u h => to_ne s l h) ?_ (by simp [visible, St.to]) ?_ ?_ (fun _ _ => Iff.rfl) ?_ (.inl rfl) ?_
  · intro k hk
    rw [to_same, List.append_nil]
    show Proper k (phase l)
    rw [hp]; exact hk
  · intro k hk
    rw [show effects _ = [] from rfl, List.append_nil]; exact hk
  · rw [to_same]
    show Holds l ↔ s.owner = some t
    rw [hh]; exact hI.holds t
  · rw [to_same]; exact hk
  · rw [to_same]; rfl

theorem inv_lock {m : Maps P} {prog : Nat → List (Call P)} {s : St P} (hI : Inv m prog s) (t : Nat) (c : Call P)
    (hl : (s.thr t).loc = .called c) (ho : Open c) : Inv m prog (step.lock s t c) := by
  unfold step.lock
  cases h : s.owner with
  | some u => exact hI
  | none =>
    refine inv_step_of hI t [] (fun u h => to_ne s _ h) ?_ (by simp [visible, St.to]) ?_ ?_ ?_ ?_ (.inl rfl) ?_
    · intro k hk
      rw [to_same, List.append_nil]
      rw [hl] at hk
      exact hk
    · intro k hk
      rw [show effects _ = [] from rfl, List.append_nil]; exact hk
    · rw [to_same]; simp [Holds]
    · intro u hu
      simp [h]
      exact fun e => hu e.symm
    · rw [to_same]; exact ho
    · rw [to_same]; rfl

theorem inv_step {m : Maps P} {prog : Nat → List (Call P)} {s : St P} (hI : Inv m prog s) (t : Nat) : Inv m prog (step s t) := by
  unfold step
  cases hl : (s.thr t).loc with
  | out =>
    cases ht : (s.thr t).todo with
    | nil => simpa only using hI
    | cons c cs =>
      simp only
      refine inv_step_of hI t [.call c] (fun u h => by simp [h]) ?_ rfl ?_ ?_ (fun _ _ => Iff.rfl) ?_ (.inl rfl) ?_
      · intro k hk
        rw [hl] at hk
        have := Proper.call k c hk
        simp only [if_true]
        exact this
      · intro k hk
        rw [show effects _ = [] from rfl, List.append_nil]; exact hk
      · have := hI.holds t
        rw [hl] at this
        simpa [Holds] using this
      · simp [Knows]
      · simp [visible, callsOf, ht]
  | called c =>
    simp only
    have hno : s.owner ≠ some t := by
      intro e
      have := (hI.holds t).2 e
      rw [hl] at this
      exact this
    split
    · rename_i id p
      by_cases hr : reserved id = true
      · rw [if_pos hr]
        refine inv_step_of hI t [.effect (.reg .gen id p) .refused] (fun u h => to_ne s _ h) ?_ (by simp [visible, St.to]) ?_ ?_ (fun _ _ => Iff.rfl) ?_ (.inl rfl) ?_
        · intro k hk
          rw [to_same]
          rw [hl] at hk
          exact .effect k _ _ hk
        · intro k hk
          exact .snoc k _ _ _ _ hk (.refused _ _ _ (by simpa [reserved, or_assoc] using hr))
        · rw [to_same]
          simpa [Holds, St.to] using hno
        · rw [to_same]; trivial
        · rw [to_same]; rfl
      · rw [if_neg hr]
        exact inv_lock hI t _ hl (by simpa [Open] using hr)
    · rename_i h
      refine inv_lock hI t c hl ?_
      unfold Open
      split
      · exact absurd rfl (h _ _)
      · trivial
  | locked c =>
    have hk := hI.knows t
    rw [hl] at hk
    cases c with
    | reg w id p => exact inv_move hI t _ (by rw [hl]; rfl) (by rw [hl]; simp [Holds]) ⟨hk, rfl⟩
    | get w => exact inv_move hI t _ (by rw [hl]; rfl) (by rw [hl]; simp [Holds]) (by simp [Knows])
  | looked w id p found =>
    have hk := hI.knows t
    rw [hl] at hk
    obtain ⟨ho, hf⟩ := hk
    have hown : s.owner = some t := (hI.holds t).1 (by rw [hl]; trivial)
    simp only
    rcases does_reg (m := s.maps) ho with ⟨e, hd⟩ | ⟨e, hd⟩
    · rw [hf, e, if_pos rfl]
      refine inv_step_of hI t [.effect (.reg w id p) (.flag false)] (fun u h => to_ne s _ h) ?_ (by simp [visible, St.to]) ?_ ?_ (fun _ _ => Iff.rfl) ?_ (.inl rfl) ?_
      · intro k hk
        rw [to_same]
        rw [hl] at hk
        exact .effect k _ _ hk
      · intro k hk
        exact .snoc k _ _ _ _ hk hd
      · rw [to_same]
        simpa [Holds, St.to] using hown
      · rw [to_same]; trivial
      · rw [to_same]; rfl
    · rw [hf, e, if_neg (by decide)]
      refine inv_step_of hI t [.effect (.reg w id p) (.flag true)] (fun u h => to_ne s _ h) ?_ (by simp [visible, St.to]) ?_ ?_ (fun _ _ => Iff.rfl) ?_ (.inr hown) ?_
      · intro k hk
        rw [to_same]
        rw [hl] at hk
        exact .effect k _ _ hk
      · intro k hk
        exact .snoc k _ _ _ _ hk hd
      · rw [to_same]
        simpa [Holds, St.to] using hown
      · rw [to_same]; trivial
      · rw [to_same]; rfl
  | copying w got i =>
    have hk := hI.knows t
    rw [hl] at hk
    have hown : s.owner = some t := (hI.holds t).1 (by rw [hl]; trivial)
    simp only
    cases he : (s.maps.get w)[i]? with
    | some e =>
      refine inv_move hI t _ (by rw [hl]; rfl) (by rw [hl]; simp [Holds]) ?_
      show got ++ [e] = (s.maps.get w).take (i + 1)
      rw [List.take_add_one, he, ← show got = (s.maps.get w).take i from hk]
      rfl
    | none =>
      have hg : got = s.maps.get w := by
        rw [show got = (s.maps.get w).take i from hk]
        exact List.take_of_length_le (List.getElem?_eq_none_iff.1 he)
      simp only
      refine inv_step_of hI t [.effect (.get w) (.table got)] (fun u h => to_ne s _ h) ?_ (by simp [visible, St.to]) ?_ ?_ (fun _ _ => Iff.rfl) ?_ (.inl rfl) ?_
      · intro k hk
        rw [to_same]
        rw [hl] at hk
        exact .effect k _ _ hk
      · intro k hk
        exact .snoc k _ _ _ _ hk (hg ▸ does_get s.maps w)
      · rw [to_same]
        simpa [Holds, St.to] using hown
      · rw [to_same]; trivial
      · rw [to_same]; rfl
  | unlocking a =>
    have hown : s.owner = some t := (hI.holds t).1 (by rw [hl]; trivial)
    simp only
    refine inv_step_of hI t [] (fun u h => to_ne s _ h) ?_ (by simp [visible, St.to]) ?_ ?_ ?_ ?_ (.inl rfl) ?_
    · intro k hk
      rw [to_same, List.append_nil]
      rw [hl] at hk
      exact hk
    · intro k hk
      rw [show effects _ = [] from rfl, List.append_nil]; exact hk
    · rw [to_same]; simp [Holds]
    · intro u hu
      simp [hown]
      exact fun e => hu e.symm
    · rw [to_same]; trivial
    · rw [to_same]; rfl
  | returning a =>
    simp only
    refine inv_step_of hI t [.ret a] (fun u h => to_ne s _ h) ?_ rfl ?_ ?_ (fun _ _ => Iff.rfl) ?_ (.inl rfl) ?_
    · intro k hk
      rw [to_same]
      rw [hl] at hk
      exact .ret k a hk
    · intro k hk
      rw [show effects _ = [] from rfl, List.append_nil]; exact hk
    · rw [to_same]
      have := hI.holds t
      rw [hl] at this
      simpa [Holds, St.to] using this
    · rw [to_same]; trivial
    · rw [to_same]; rfl

theorem inv_run {m : Maps P} {prog : Nat → List (Call P)} (ts : List Nat) : ∀ {s : St P}, Inv m prog s → Inv m prog (run s ts) := by
  induction ts with
  | nil => exact fun h => h
  | cons t ts ih => exact fun h => ih (inv_step h t)

end Scribbu.Registry
