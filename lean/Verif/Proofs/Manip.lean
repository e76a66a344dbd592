import Verif.Spec.Manip

/-! Lemmas about `Model/Manip`. -/

namespace Scribbu.Manip
open Spec.Manip

variable {α : Type}

/-- What the manipulators are for. -/
def Impl.told (I : Impl α) : Told α := ⟨I.val, I.ok, I.dflt⟩

/-- What is on the heap for what a stream uses. -/
def CellFor (I : Impl α) (c : Cell α) (v : α × Bool) : Prop :=
  c = .good v.1 ∨ (v.2 = true ∧ I.bytes.isSome ∧ ∃ b, c = .raw b)

/-- A stream as it is, and as it is to be. -/
def Rel (I : Impl α) (h : List (Cell α)) : Option (Option Strm) → Option (Option (Option (α × Bool))) → Prop
  | none, none => True
  | some none, some none => True
  | some (some s), some (some none) => s = ⟨none, 0⟩
  | some (some s), some (some (some v)) => ∃ k c, s = ⟨some k, 1⟩ ∧ h[k]? = some c ∧ CellFor I c v
  | _, _ => False

/-- The slot of a stream. -/
def slotAt (st : St α) (i : Nat) : Option Nat :=
  match st.streams[i]? with
  | some (some s) => s.slot
  | _ => none

/-- The invariant: every stream is as it is to be, no two share an object, and every object that has not been deleted is that of a stream. -/
structure Inv (I : Impl α) (st : St α) (w : World α) : Prop where
  rel : ∀ i : Nat, Rel I st.heap st.streams[i]? w[i]?
  inj : ∀ i j k, slotAt st i = some k → slotAt st j = some k → i = j
  own : ∀ k c, st.heap[k]? = some c → c ≠ .freed → ∃ i, slotAt st i = some k

/-- The heap without the object in a slot. -/
def freeOf (slot : Option Nat) (h : List (Cell α)) : List (Cell α) :=
  match slot with
  | none => h
  | some k => h.set k .freed

/-- Deleting as `char` is harmless, or does not happen. -/
def Lenient (I : Impl α) : Prop := I.strict = false ∨ I.bytes = none

theorem freeOf_length (slot : Option Nat) (h : List (Cell α)) : (freeOf slot h).length = h.length := by
  cases slot <;> simp [freeOf]

theorem slot_of_alive {st : St α} {i : Nat} {s : Strm} (hi : st.streams[i]? = some (some s)) : slotAt st i = s.slot := by
  simp [slotAt, hi]

theorem CellFor.ne_freed {I : Impl α} {c : Cell α} {v : α × Bool} (h : CellFor I c v) : c ≠ .freed := by
  rcases h with rfl | ⟨_, _, b, rfl⟩ <;> simp

theorem del_ok {I : Impl α} (hI : Lenient I) {h : List (Cell α)} {k : Nat} {c : Cell α} {v : α × Bool} (hk : h[k]? = some c)
    (hc : CellFor I c v) {asChar : Bool} (ha : asChar = true → I.bytes.isSome) : del I asChar h (some k) = .ok (h.set k .freed) := by
  rcases hc with rfl | ⟨_, hb, b, rfl⟩
  · simp only [del, hk]
    rcases hI with hI | hI
    · simp [hI]
    · rw [hI] at ha
      cases asChar
      · simp
      · simp at ha
  · simp only [del, hk]
    rcases hI with hI | hI
    · simp [hI]
    · rw [hI] at hb
      cases hb

/-- What `Rel` says of the stream. -/
theorem rel_cases {I : Impl α} {h : List (Cell α)} {s : Strm} {x : Option (Option (Option (α × Bool)))} (hr : Rel I h (some (some s)) x) :
    (x = some (some none) ∧ s = ⟨none, 0⟩) ∨ ∃ v k c, x = some (some (some v)) ∧ s = ⟨some k, 1⟩ ∧ h[k]? = some c ∧ CellFor I c v := by
  rcases x with _ | _ | _ | v
  · cases hr
  · cases hr
  · exact .inl ⟨rfl, hr⟩
  · obtain ⟨k, c, h1, h2, h3⟩ := hr
    exact .inr ⟨v, k, c, rfl, h1, h2, h3⟩

theorem erase_ok {I : Impl α} (hI : Lenient I) {h : List (Cell α)} {s : Strm} {x : Option (Option (Option (α × Bool)))}
    (hr : Rel I h (some (some s)) x) : erase I s.slot s.cbs h = .ok (freeOf s.slot h) := by
  rcases rel_cases hr with ⟨_, rfl⟩ | ⟨v, k, c, _, rfl, hk, hc⟩
  · rfl
  · simp only [erase, del_ok hI hk hc (asChar := I.bytes.isSome) id, Out.bind, freeOf]

/-- Another stream is not affected if the object of this one is deleted. -/
theorem rel_free {I : Impl α} {st : St α} {w : World α} (hv : Inv I st w) {i j : Nat} (hij : i ≠ j) {s : Strm}
    (hi : st.streams[i]? = some (some s)) (l : List (Cell α)) : Rel I (freeOf s.slot st.heap ++ l) st.streams[j]? w[j]? := by
  have hr := hv.rel j
  cases hs : st.streams[j]? with
  | none => rw [hs] at hr; revert hr; rcases w[j]? with _ | _ | _ | _ <;> exact id
  | some o =>
    cases o with
    | none => rw [hs] at hr; revert hr; rcases w[j]? with _ | _ | _ | _ <;> exact id
    | some s' =>
      rw [hs] at hr
      rcases rel_cases hr with ⟨e, rfl⟩ | ⟨v, k, c, e, rfl, hk, hc⟩
      · rw [e]; exact rfl
      · rw [e]
        refine ⟨k, c, rfl, ?_, hc⟩
        have hlt : k < st.heap.length := (List.getElem?_eq_some_iff.1 hk).1
        rw [List.getElem?_append_left (by rw [freeOf_length]; exact hlt)]
        cases hsl : s.slot with
        | none => exact hk
        | some m =>
          have : m ≠ k := by
            rintro rfl
            exact hij (hv.inj i j m (by rw [slot_of_alive hi, hsl]) (by rw [slot_of_alive hs]))
          simp only [freeOf]
          rw [List.getElem?_set_ne this]
          exact hk

theorem slotAt_set {st : St α} {i : Nat} {o : Option Strm} {h : List (Cell α)} {sp : List Nat} (hi : i < st.streams.length) (j : Nat) :
    slotAt ⟨h, st.streams.set i o, sp⟩ j = if i = j then o.bind (·.slot) else slotAt st j := by
  by_cases hij : i = j
  · subst hij
    simp only [slotAt, List.getElem?_set_self hi, if_true]
    cases o <;> rfl
  · simp only [slotAt, List.getElem?_set_ne hij, if_neg hij]

/-- A stream is destroyed or uses nothing any more. -/
theorem inv_clear {I : Impl α} {st : St α} {w : World α} (hv : Inv I st w) {i : Nat} {s : Strm} (hi : st.streams[i]? = some (some s))
    {o : Option Strm} {x : Option (Option (α × Bool))} (ho : (o = none ∧ x = none) ∨ (o = some ⟨none, 0⟩ ∧ x = some none)) (sp : List Nat) :
    Inv I ⟨freeOf s.slot st.heap, st.streams.set i o, sp⟩ (w.set i x) := by
  have hl : i < st.streams.length := (List.getElem?_eq_some_iff.1 hi).1
  have hw : i < w.length := by
    have := hv.rel i
    rw [hi] at this
    rcases rel_cases this with ⟨h, _⟩ | ⟨_, _, _, h, _⟩ <;> exact (List.getElem?_eq_some_iff.1 h).1
  have hos : o.bind (·.slot) = none := by rcases ho with ⟨rfl, _⟩ | ⟨rfl, _⟩ <;> rfl
  refine ⟨fun j => ?_, fun a b k ha hb => ?_, fun k c hk hc => ?_⟩
  · by_cases hij : i = j
    · subst hij
      simp only [List.getElem?_set_self hl, List.getElem?_set_self hw]
      rcases ho with ⟨rfl, rfl⟩ | ⟨rfl, rfl⟩
      · trivial
      · exact rfl
    · simp only [List.getElem?_set_ne hij]
      simpa using rel_free hv hij hi []
  · rw [slotAt_set hl] at ha hb
    split at ha
    · rw [hos] at ha; cases ha
    · split at hb
      · rw [hos] at hb; cases hb
      · exact hv.inj a b k ha hb
  · simp only at hk
    have hk' : s.slot ≠ some k ∧ st.heap[k]? = some c := by
      cases hsl : s.slot with
      | none => rw [hsl] at hk; exact ⟨by simp, hk⟩
      | some m =>
        rw [hsl] at hk
        simp only [freeOf] at hk
        by_cases hm : m = k
        · subst hm
          have hlt : m < st.heap.length := by
            have := (List.getElem?_eq_some_iff.1 hk).1
            simpa using this
          rw [List.getElem?_set_self hlt] at hk
          exact absurd (Option.some.inj hk).symm hc
        · rw [List.getElem?_set_ne hm] at hk
          exact ⟨fun h => hm (Option.some.inj h), hk⟩
    obtain ⟨j, hj⟩ := hv.own k c hk'.2 hc
    refine ⟨j, ?_⟩
    rw [slotAt_set hl, if_neg]
    · exact hj
    · rintro rfl
      rw [slot_of_alive hi] at hj
      exact hk'.1 hj

/-- A stream uses a new object. -/
theorem inv_new {I : Impl α} {st : St α} {w : World α} (hv : Inv I st w) {i : Nat} {s : Strm} (hi : st.streams[i]? = some (some s))
    {c : Cell α} {v : α × Bool} (hc : CellFor I c v) (sp : List Nat) :
    Inv I ⟨freeOf s.slot st.heap ++ [c], st.streams.set i (some ⟨some st.heap.length, 1⟩), sp⟩ (w.set i (some (some v))) := by
  have hl : i < st.streams.length := (List.getElem?_eq_some_iff.1 hi).1
  have hw : i < w.length := by
    have := hv.rel i
    rw [hi] at this
    rcases rel_cases this with ⟨h, _⟩ | ⟨_, _, _, h, _⟩ <;> exact (List.getElem?_eq_some_iff.1 h).1
  have hcl := inv_clear hv hi (.inl ⟨rfl, rfl⟩ : (none = none ∧ none = none) ∨ _) sp
  have hbound : ∀ j k, slotAt st j = some k → k < st.heap.length := by
    intro j k h
    have hr := hv.rel j
    unfold slotAt at h
    split at h
    · rename_i s' hs'
      rw [hs'] at hr
      rcases rel_cases hr with ⟨_, rfl⟩ | ⟨_, k', _, _, rfl, hk, _⟩
      · cases h
      · cases h
        exact (List.getElem?_eq_some_iff.1 hk).1
    · cases h
  refine ⟨fun j => ?_, fun a b k ha hb => ?_, fun k c' hk hc' => ?_⟩
  · by_cases hij : i = j
    · subst hij
      simp only [List.getElem?_set_self hl, List.getElem?_set_self hw]
      refine ⟨_, c, rfl, ?_, hc⟩
      rw [List.getElem?_append_right (by rw [freeOf_length]; exact Nat.le_refl _), freeOf_length]
      simp
    · simp only [List.getElem?_set_ne hij]
      exact rel_free hv hij hi [c]
  · rw [slotAt_set hl] at ha hb
    split at ha <;> split at hb
    · rename_i h1 h2; exact h1.symm.trans h2
    · cases ha
      exact absurd (hbound _ _ hb) (Nat.lt_irrefl _)
    · cases hb
      exact absurd (hbound _ _ ha) (Nat.lt_irrefl _)
    · exact hv.inj a b k ha hb
  · simp only at hk
    by_cases hlt : k < st.heap.length
    · rw [List.getElem?_append_left (by rw [freeOf_length]; exact hlt)] at hk
      obtain ⟨j, hj⟩ := hcl.own k c' hk hc'
      refine ⟨j, ?_⟩
      rw [slotAt_set hl] at hj ⊢
      split at hj
      · cases hj
      · rename_i hne
        rw [if_neg hne]; exact hj
    · rw [List.getElem?_append_right (by rw [freeOf_length]; omega), freeOf_length] at hk
      have : k = st.heap.length := by
        have := (List.getElem?_eq_some_iff.1 hk).1
        simp at this
        omega
      subst this
      exact ⟨i, by rw [slotAt_set hl, if_pos rfl]; rfl⟩

theorem set_append_freed {h : List (Cell α)} {k : Nat} (hk : k < h.length) (c : Cell α) :
    (h ++ [c]).set k .freed = h.set k .freed ++ [c] := by
  rw [List.set_append_left _ _ hk]

/-- The operation does not ask for what cannot be read, and uses no manipulator again. -/
structure Fit (I : Impl α) (st : St α) (w : World α) (o : Op) : Prop where
  asks : I.bytes = none ∨ ∀ i a, o = .get i → w[i]? ≠ some (some (some (a, true)))
  fresh : I.once = false ∨ ∀ i m, o = .put i m → m ∉ st.spent

/-- The manipulators that are empty afterwards. -/
def spentBy : Op → List Nat
  | .put _ m => [m]
  | _ => []

/-- A stream is there, or it is not, in both. -/
theorem alive_or {I : Impl α} {st : St α} {w : World α} (hv : Inv I st w) (i : Nat) :
    (∃ s v, st.streams[i]? = some (some s) ∧ w[i]? = some (some v) ∧ Rel I st.heap (some (some s)) w[i]?) ∨
    ((st.streams[i]? = none ∨ st.streams[i]? = some none) ∧ (w[i]? = none ∨ w[i]? = some none)) := by
  have hr := hv.rel i
  rcases hs : st.streams[i]? with _ | _ | s
  · rw [hs] at hr
    rcases hw : w[i]? with _ | _ | _ | _
    · exact .inr ⟨.inl rfl, .inl rfl⟩
    all_goals rw [hw] at hr; exact hr.elim
  · rw [hs] at hr
    rcases hw : w[i]? with _ | _ | _ | _
    · rw [hw] at hr; exact hr.elim
    · exact .inr ⟨.inr rfl, .inr rfl⟩
    all_goals rw [hw] at hr; exact hr.elim
  · rw [hs] at hr
    rcases rel_cases hr with ⟨h, _⟩ | ⟨v, _, _, h, _⟩
    · exact .inl ⟨s, _, rfl, h, hr⟩
    · exact .inl ⟨s, _, rfl, h, hr⟩

theorem insert_ok {I : Impl α} (hI : Lenient I) {st : St α} {w : World α} (hv : Inv I st w) {i m : Nat} {s : Strm}
    (hi : st.streams[i]? = some (some s)) (hm : I.once = false ∨ m ∉ st.spent) :
    insert I st i m s = .ok ⟨freeOf s.slot st.heap ++ [.good (I.val m)], st.streams.set i (some ⟨some st.heap.length, 1⟩),
      if I.once then m :: st.spent else st.spent⟩ := by
  have he : (I.once && st.spent.contains m) = false := by
    rcases hm with h | h
    · rw [h]; rfl
    · simp [h]
  have hr := hv.rel i
  rw [hi] at hr
  unfold insert
  simp only [he]
  rcases rel_cases hr with ⟨_, rfl⟩ | ⟨v, k, c, _, rfl, hk, hc⟩
  · rfl
  · have hlt := (List.getElem?_eq_some_iff.1 hk).1
    have hk' : (st.heap ++ [Cell.good (I.val m)])[k]? = some c := by rw [List.getElem?_append_left hlt]; exact hk
    simp only [Bool.false_eq_true, if_false, del_ok hI hk' hc (asChar := false) (by simp), Out.bind, freeOf, set_append_freed hlt, Option.isNone_some]

theorem step_ok {I : Impl α} (hI : Lenient I) {st : St α} {w : World α} (hv : Inv I st w) {o : Op} (hf : Fit I st w o) :
    ∃ st', step I st o = .ok (st', (next I.told w o).2) ∧ Inv I st' (next I.told w o).1 ∧
      (st'.spent = st.spent ∨ st'.spent = spentBy o ++ st.spent) := by
  cases o with
  | new =>
    refine ⟨_, rfl, ⟨fun i => ?_, fun i j k hi hj => ?_, fun k c hk hc => ?_⟩, .inl rfl⟩
    all_goals
      have hlen : st.streams.length = w.length := by
        have h1 := hv.rel w.length
        have h2 := hv.rel st.streams.length
        rw [List.getElem?_eq_none (Nat.le_refl _)] at h1
        rw [List.getElem?_eq_none (Nat.le_refl st.streams.length)] at h2
        have l1 : st.streams.length ≤ w.length := by
          rcases h : st.streams[w.length]? with _ | _ | _
          · exact List.getElem?_eq_none_iff.1 h
          · rw [h] at h1; exact h1.elim
          · rw [h] at h1; exact h1.elim
        have l2 : w.length ≤ st.streams.length := by
          rcases h : w[st.streams.length]? with _ | _ | _ | _
          · exact List.getElem?_eq_none_iff.1 h
          · rw [h] at h2; exact h2.elim
          · rw [h] at h2; exact h2.elim
          · rw [h] at h2; exact h2.elim
        omega
      have hsl : ∀ i, slotAt { st with streams := st.streams ++ [some ⟨none, 0⟩] } i = slotAt st i := by
        intro i
        simp only [slotAt]
        by_cases hlt : i < st.streams.length
        · rw [List.getElem?_append_left hlt]
        · rw [List.getElem?_append_right (by omega), List.getElem?_eq_none (l := st.streams) (by omega)]
          by_cases h0 : i - st.streams.length = 0
          · rw [h0]; rfl
          · rw [List.getElem?_eq_none (by simp; omega)]
    · simp only [next]
      by_cases hlt : i < st.streams.length
      · rw [List.getElem?_append_left hlt, List.getElem?_append_left (by omega)]
        exact hv.rel i
      · rw [List.getElem?_append_right (by omega), List.getElem?_append_right (by omega), hlen]
        by_cases h0 : i - w.length = 0
        · rw [h0]; exact rfl
        · rw [List.getElem?_eq_none (by simp; omega), List.getElem?_eq_none (by simp; omega)]
          trivial
    · rw [hsl] at hi hj
      exact hv.inj i j k hi hj
    · obtain ⟨i, hi⟩ := hv.own k c hk hc
      exact ⟨i, by rw [hsl]; exact hi⟩
  | put i m =>
    rcases alive_or hv i with ⟨s, v, hi, hw, hr⟩ | ⟨h1, h2⟩
    · by_cases hok : I.ok (I.val m) = true
      · have hins := insert_ok hI hv hi (m := m) (hf.fresh.imp id fun h => h i m rfl)
        have hn : next I.told w (.put i m) = (w.set i (some (some (I.val m, false))), []) := by
          simp only [next, hw, Impl.told]
          exact if_pos hok
        rw [hn]
        have hs : step I st (.put i m) = .ok (⟨freeOf s.slot st.heap ++ [.good (I.val m)],
            st.streams.set i (some ⟨some st.heap.length, 1⟩), if I.once then m :: st.spent else st.spent⟩, []) := by
          simp only [step, hi]
          rw [if_pos hok, hins]
          rfl
        refine ⟨_, hs, inv_new hv hi (c := .good (I.val m)) (v := (I.val m, false)) (.inl rfl) _, ?_⟩
        simp only [spentBy]
        cases I.once
        · exact .inl rfl
        · exact .inr rfl
      · have hn : next I.told w (.put i m) = (w, [.refused]) := by
          simp only [next, hw, Impl.told]
          exact if_neg hok
        rw [hn]
        refine ⟨st, ?_, hv, .inl rfl⟩
        simp only [step, hi]
        exact if_neg hok
    · have hn : next I.told w (.put i m) = (w, []) := by
        rcases h2 with h2 | h2 <;> simp only [next, h2]
      rw [hn]
      refine ⟨st, ?_, hv, .inl rfl⟩
      rcases h1 with h1 | h1 <;> simp only [step, h1]
  | get i =>
    rcases alive_or hv i with ⟨s, v, hi, hw, hr⟩ | ⟨h1, h2⟩
    · rcases rel_cases hr with ⟨e, rfl⟩ | ⟨v, k, c, e, rfl, hk, hc⟩
      · have hn : next I.told w (.get i) = (w, [.uses I.dflt]) := by simp only [next, e, Impl.told]
        rw [hn]
        exact ⟨st, by simp only [step, hi, retrieve, Out.bind], hv, .inl rfl⟩
      · have hn : next I.told w (.get i) = (w, [.uses v.1]) := by simp only [next, e]
        rw [hn]
        refine ⟨st, ?_, hv, .inl rfl⟩
        rcases hc with rfl | ⟨h1, h2, b, rfl⟩
        · simp only [step, hi, retrieve, hk, Out.bind]
        · rcases hf.asks with h | h
          · rw [h] at h2; cases h2
          · refine absurd ?_ (h i v.1 rfl)
            rw [e, ← h1]
    · have hn : next I.told w (.get i) = (w, []) := by
        rcases h2 with h2 | h2 <;> simp only [next, h2]
      rw [hn]
      refine ⟨st, ?_, hv, .inl rfl⟩
      rcases h1 with h1 | h1 <;> simp only [step, h1]
  | copyfmt i j =>
    by_cases hij : i = j
    · have hn : next I.told w (.copyfmt i j) = (w, []) := by simp only [next, if_pos hij]
      rw [hn]
      exact ⟨st, by simp only [step, if_pos hij], hv, .inl rfl⟩
    · rcases alive_or hv i with ⟨s, v, hi, hw, hr⟩ | ⟨h1, h2⟩
      · rcases alive_or hv j with ⟨s', v', hj, hwj, hrj⟩ | ⟨h1, h2⟩
        · have hn : next I.told w (.copyfmt i j) = (w.set i (some (v'.map fun x => (x.1, true))), []) := by
            simp only [next, if_neg hij, hw, hwj]
          rw [hn]
          have hrj' := rel_free hv hij hi []
          rw [hj, List.append_nil] at hrj'
          rcases rel_cases hrj' with ⟨e, rfl⟩ | ⟨v'', k, c, e, rfl, hk, hc⟩
          · rw [hwj] at e
            cases e
            have hs : step I st (.copyfmt i j) = .ok (⟨freeOf s.slot st.heap, st.streams.set i (some ⟨none, 0⟩), st.spent⟩, []) := by
              simp only [step, if_neg hij, hi, hj, erase_ok hI hr, copies, Out.bind]
            exact ⟨_, hs, inv_clear hv hi (.inr ⟨rfl, rfl⟩) _, .inl rfl⟩
          · rw [hwj] at e
            cases e
            obtain ⟨c', hc1, hc2⟩ : ∃ c', copyOf I c = .ok c' ∧ CellFor I c' (v''.1, true) := by
              rcases hc with rfl | ⟨_, h2, b, rfl⟩
              · cases hb : I.bytes with
                | none => exact ⟨_, by simp only [copyOf, hb], .inl rfl⟩
                | some f => exact ⟨.raw (strdup (f v''.1)), by simp only [copyOf, hb], .inr ⟨rfl, by rw [hb]; rfl, _, rfl⟩⟩
              · exact ⟨_, rfl, .inr ⟨rfl, h2, _, rfl⟩⟩
            have hs : step I st (.copyfmt i j) =
                .ok (⟨freeOf s.slot st.heap ++ [c'], st.streams.set i (some ⟨some st.heap.length, 1⟩), st.spent⟩, []) := by
              simp only [step, if_neg hij, hi, hj, erase_ok hI hr, copies, hk, hc1, Out.bind, freeOf_length]
            exact ⟨_, hs, inv_new hv hi hc2 st.spent, .inl rfl⟩
        · have hn : next I.told w (.copyfmt i j) = (w, []) := by
            rcases h2 with h2 | h2 <;> simp only [next, if_neg hij, hw, h2]
          rw [hn]
          refine ⟨st, ?_, hv, .inl rfl⟩
          rcases h1 with h1 | h1 <;> simp only [step, if_neg hij, hi, h1]
      · have hn : next I.told w (.copyfmt i j) = (w, []) := by
          rcases h2 with h2 | h2 <;> simp only [next, if_neg hij, h2]
        rw [hn]
        refine ⟨st, ?_, hv, .inl rfl⟩
        rcases h1 with h1 | h1 <;> simp only [step, if_neg hij, h1]
  | close i =>
    rcases alive_or hv i with ⟨s, v, hi, hw, hr⟩ | ⟨h1, h2⟩
    · have hn : next I.told w (.close i) = (w.set i none, []) := by simp only [next, hw]
      rw [hn]
      have hs : step I st (.close i) = .ok (⟨freeOf s.slot st.heap, st.streams.set i none, st.spent⟩, []) := by
        simp only [step, hi, erase_ok hI hr, Out.bind]
      exact ⟨_, hs, inv_clear hv hi (.inl ⟨rfl, rfl⟩) _, .inl rfl⟩
    · have hn : next I.told w (.close i) = (w, []) := by
        rcases h2 with h2 | h2 <;> simp only [next, h2]
      rw [hn]
      refine ⟨st, ?_, hv, .inl rfl⟩
      rcases h1 with h1 | h1 <;> simp only [step, h1]

theorem run_ok {I : Impl α} (hI : Lenient I) (ops : List Op) : ∀ {st : St α} {w : World α}, Inv I st w →
    (I.bytes = none ∨ AsksNoCopy I.told ops w) → (I.once = false ∨ ((used ops).Nodup ∧ ∀ m ∈ used ops, m ∉ st.spent)) →
    ∃ st', run I ops st = .ok (st', (play I.told ops w).2) ∧ Inv I st' (play I.told ops w).1 := by
  induction ops with
  | nil => intro st w hv _ _; exact ⟨st, rfl, hv⟩
  | cons o os ih =>
    intro st w hv ha hu
    have hf : Fit I st w o := by
      refine ⟨ha.imp id fun h => h.1, hu.imp id ?_⟩
      rintro ⟨_, h⟩ i m rfl
      exact h m (by simp [used])
    obtain ⟨st1, h1, h2, h3⟩ := step_ok hI hv hf
    obtain ⟨st2, h4, h5⟩ := ih h2 (ha.imp id fun h => h.2) (hu.imp id (by
      rintro ⟨n, h⟩
      cases o with
      | put i m =>
        simp only [used, List.nodup_cons] at n
        refine ⟨n.2, fun x hx => ?_⟩
        have := h x (by simp [used, hx])
        rcases h3 with h3 | h3
        · rw [h3]; exact this
        · rw [h3]
          simp only [spentBy, List.singleton_append, List.mem_cons, not_or]
          exact ⟨by rintro rfl; exact n.1 hx, this⟩
      | _ =>
        refine ⟨n, fun x hx => ?_⟩
        have := h x hx
        rcases h3 with h3 | h3 <;> rw [h3] <;> exact this))
    exact ⟨st2, by simp only [run, h1, h4, Out.bind, play], h5⟩

theorem inv_start (I : Impl α) : Inv I start [] := by
  refine ⟨fun i => ?_, fun i j k h => ?_, fun k c h => ?_⟩
  · simp only [start, List.getElem?_nil]; trivial
  · simp [slotAt, start] at h
  · simp [start] at h

theorem inv_over {I : Impl α} {st : St α} {w : World α} (hv : Inv I st w) (h : Over w) : ∀ c ∈ st.heap, c = .freed := by
  intro c hc
  obtain ⟨k, hk⟩ := List.getElem?_of_mem hc
  by_cases hf : c = .freed
  · exact hf
  · obtain ⟨i, hi⟩ := hv.own k c hk hf
    exfalso
    rcases alive_or hv i with ⟨s, v, _, hw, _⟩ | ⟨h1, _⟩
    · have := h _ (List.mem_of_getElem? hw)
      cases this
    · unfold slotAt at hi
      rcases h1 with h1 | h1 <;> rw [h1] at hi <;> cases hi

end Scribbu.Manip
