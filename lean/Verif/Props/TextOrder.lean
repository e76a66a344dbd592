import Verif.Props.Lookup

/-! Property C203: the texts of an ID3v2 tag may be set in any order. -/

namespace Scribbu.TextOrder
open Scribbu Scribbu.Spec LTag Lookup

/-- Every address belongs to an object with one identifier, under which the table of texts has it, and no address is in use that is still to be given out. -/
def Lab (t : LTag) : Prop := ∃ lab : Nat → Bytes, (∀ f ∈ t.frames, lab f.ptr = f.id ∧ f.ptr < t.next) ∧ ∀ e ∈ t.textMap, lab e.2 = e.1 ∧ e.2 < t.next

theorem Lab.sub {t u : LTag} (h : Lab t) (hf : ∀ f ∈ u.frames, f ∈ t.frames) (hm : ∀ e ∈ u.textMap, e ∈ t.textMap) (hn : u.next = t.next) : Lab u := by
  obtain ⟨lab, h1, h2⟩ := h
  refine ⟨lab, fun f h => ?_, fun e h => ?_⟩
  · rw [hn]; exact h1 f (hf f h)
  · rw [hn]; exact h2 e (hm e h)

/-- A frame is entered that was in the tag, or is new. -/
theorem Lab.grow {t u : LTag} (h : Lab t) (a : Arg) (hf : ∀ f ∈ u.frames, f ∈ t.frames ∨ f = (t.alloc a).1)
    (hm : ∀ e ∈ u.textMap, e ∈ t.textMap ∨ e = (a.id, t.next)) (hn : u.next = t.next + 1) : Lab u := by
  obtain ⟨lab, h1, h2⟩ := h
  refine ⟨fun p => if p = t.next then a.id else lab p, fun f h => ?_, fun e h => ?_⟩
  · rw [hn]
    rcases hf f h with h | rfl
    · have := h1 f h
      simp only
      rw [if_neg (by omega)]
      exact ⟨this.1, by omega⟩
    · simp [alloc]
  · rw [hn]
    rcases hm e h with h | rfl
    · have := h2 e h
      simp only
      rw [if_neg (by omega)]
      exact ⟨this.1, by omega⟩
    · simp

theorem Lab.enter {t u : LTag} (h : Lab t) {f : Fr} (hf : f ∈ t.frames) (hfr : u.frames = t.frames) (hm : ∀ e ∈ u.textMap, e ∈ t.textMap ∨ e = (f.id, f.ptr))
    (hn : u.next = t.next) : Lab u := by
  obtain ⟨lab, h1, h2⟩ := h
  refine ⟨lab, fun g h => ?_, fun e h => ?_⟩
  · rw [hn]; exact h1 g (hfr ▸ h)
  · rw [hn]
    rcases hm e h with h | rfl
    · exact h2 e h
    · exact h1 f hf

theorem addLookups_text (t : LTag) (ov : Cls) (f : Fr) (i : Nat) : ∀ e ∈ (t.addLookups ov f i).textMap, e ∈ t.textMap ∨ e = (f.id, f.ptr) := by
  intro e he
  cases ov <;> simp only [addLookups] at he
  case text => simpa using he
  all_goals exact .inl he

theorem removeTyped_sub {c : Cfg} {t u : LTag} {id : Bytes} {i : Nat} (h : removeTyped c t id i = .ok u) :
    u.frames = t.frames ∧ u.next = t.next ∧ ∀ e ∈ u.textMap, e ∈ t.textMap := by
  unfold removeTyped at h
  repeat' split at h
  all_goals first
    | (rw [Res.bind_eq_ok] at h; obtain ⟨l, -, h⟩ := h; cases h; exact ⟨rfl, rfl, fun _ h => h⟩)
    | (cases h; exact ⟨rfl, rfl, fun _ h => h⟩)
    | (cases h; exact ⟨rfl, rfl, fun _ h => List.mem_of_mem_erase h⟩)
    | cases h

theorem removeLookups_sub {c : Cfg} {t u : LTag} {id : Bytes} {i : Nat} (h : removeLookups c t id i = .ok u) :
    u.frames = t.frames ∧ u.next = t.next ∧ ∀ e ∈ u.textMap, e ∈ t.textMap := by
  unfold removeLookups at h
  rw [Res.bind_eq_ok] at h
  obtain ⟨v, h1, h2⟩ := h
  split at h2
  · cases h2
    have := removeTyped_sub h1
    exact ⟨this.1, this.2.1, this.2.2⟩
  · cases h2

theorem removeRange_sub {c : Cfg} (n : Nat) {t u : LTag} {i : Nat} (h : removeRange c t i n = .ok u) :
    u.frames = t.frames ∧ u.next = t.next ∧ ∀ e ∈ u.textMap, e ∈ t.textMap := by
  induction n generalizing t i with
  | zero => cases h; exact ⟨rfl, rfl, fun _ h => h⟩
  | succ n ih =>
    simp only [removeRange] at h
    split at h
    · cases h
    · rw [Res.bind_eq_ok] at h
      obtain ⟨v, h1, h2⟩ := h
      have a := removeLookups_sub h1
      have b := ih h2
      exact ⟨b.1.trans a.1, b.2.1.trans a.2.1, fun e h => a.2.2 e (b.2.2 e h)⟩

theorem lab_push {t : LTag} (h : Lab t) (a : Arg) : Lab (t.pushBack a) := by
  refine h.grow a (fun f hf => ?_) (fun e he => ?_) ?_
  · simpa [pushBack, alloc] using hf
  · have := addLookups_text _ _ _ _ e he
    simpa [alloc] using this
  · simp [pushBack, alloc]

theorem lab_step {c : Cfg} {t u : LTag} (h : Lab t) (o : Op) (ho : t.step c o = .ok u) : Lab u := by
  cases o with
  | pushBack a => cases ho; exact lab_push h a
  | insert i a =>
    simp only [step, LTag.insert] at ho
    split at ho
    · cases ho
    · cases ho
      refine h.grow a (fun f hf => ?_) (fun e he => ?_) ?_
      · simp only [addLookups_frames, List.mem_append, List.mem_cons, alloc] at hf ⊢
        rcases hf with hf | hf | hf
        · exact .inl (List.mem_of_mem_take hf)
        · exact .inr hf
        · exact .inl (List.mem_of_mem_drop hf)
      · have := addLookups_text _ _ _ _ e he
        simpa [alloc] using this
      · simp [alloc]
  | assign i a =>
    simp only [step, assign] at ho
    split at ho
    · cases ho
    · rw [Res.bind_eq_ok] at ho
      obtain ⟨v, h1, h2⟩ := ho
      have hs := removeLookups_sub h1
      cases h2
      refine h.grow a (fun f hf => ?_) (fun e he => ?_) ?_
      · simp only [addLookups_frames, hs.1] at hf
        rcases List.mem_or_eq_of_mem_set hf with hf | hf
        · exact .inl hf
        · exact .inr hf
      · rcases addLookups_text _ _ _ _ e he with he | he
        · exact .inl (hs.2.2 e he)
        · exact .inr he
      · simp only [addLookups_next, hs.2.1, alloc]
  | moveAssign i j =>
    simp only [step, moveAssign] at ho
    split at ho
    · next fi fj hi hj =>
      rw [Res.bind_eq_ok] at ho
      obtain ⟨v, h1, h2⟩ := ho
      have hs := removeLookups_sub h1
      rw [Res.bind_eq_ok] at h2
      obtain ⟨ov, -, h2⟩ := h2
      cases h2
      have hi := List.mem_of_getElem? hi
      have hj := List.mem_of_getElem? hj
      obtain ⟨lab, a1, a2⟩ := h
      refine ⟨lab, fun f hf => ?_, fun e he => ?_⟩
      · rw [addLookups_next]
        simp only [addLookups_frames, hs.1] at hf
        simp only [hs.2.1]
        rcases List.mem_or_eq_of_mem_set hf with hf | rfl
        · rcases List.mem_or_eq_of_mem_set hf with hf | rfl
          · exact a1 f hf
          · exact a1 _ hj
        · exact a1 _ hi
      · rw [addLookups_next]
        simp only [hs.2.1]
        rcases addLookups_text _ _ _ _ e he with he | rfl
        · exact a2 e (hs.2.2 e he)
        · exact a1 fi hi
    · cases ho
  | erase i =>
    simp only [step, erase] at ho
    split at ho
    · cases ho
    · rw [Res.bind_eq_ok] at ho
      obtain ⟨v, h1, h2⟩ := ho
      have hs := removeLookups_sub h1
      cases h2
      exact h.sub (fun f hf => hs.1 ▸ List.mem_of_mem_eraseIdx hf) hs.2.2 hs.2.1
  | eraseRange i j =>
    simp only [step, eraseRange] at ho
    rw [Res.bind_eq_ok] at ho
    obtain ⟨v, h1, h2⟩ := ho
    have hs := removeRange_sub _ h1
    cases h2
    refine h.sub (fun f hf => ?_) hs.2.2 hs.2.1
    simp only [List.mem_append, hs.1] at hf
    exact hf.elim List.mem_of_mem_take List.mem_of_mem_drop
  | deleteFrame id =>
    simp only [step, deleteFrame] at ho
    split at ho
    · cases ho; exact h
    · rw [Res.bind_eq_ok] at ho
      obtain ⟨v, h1, h2⟩ := ho
      have hs := removeLookups_sub h1
      split at h2
      · cases h2
        exact h.sub (fun f hf => hs.1 ▸ List.mem_of_mem_eraseIdx hf) hs.2.2 hs.2.1
      · cases h2
  | setText id d =>
    simp only [step, setText] at ho
    split at ho
    · rw [Res.bind_eq_ok] at ho
      obtain ⟨v, -, h2⟩ := ho
      cases h2
      obtain ⟨lab, a1, a2⟩ := h
      refine ⟨lab, fun f hf => ?_, a2⟩
      simp only [List.mem_map] at hf
      obtain ⟨g, hg, rfl⟩ := hf
      have := a1 g hg
      split <;> exact this
    · cases ho; exact lab_push h _
  | addComment d =>
    simp only [step, addComment] at ho
    split at ho
    · cases ho; exact lab_push h _
    · cases ho
  | addUserText d =>
    simp only [step, addUserText] at ho
    split at ho
    · cases ho; exact lab_push h _
    · cases ho
  | parseFrame id d => cases ho; exact lab_push h _

theorem lab_run {c : Cfg} (os : List Op) {t u : LTag} (h : Lab t) (hr : run c t os = .ok u) : Lab u := by
  induction os generalizing t with
  | nil => cases hr; exact h
  | cons o os ih =>
    rw [run, Res.bind_eq_ok] at hr
    obtain ⟨v, h1, h2⟩ := hr
    exact ih (lab_step h o h1) h2

theorem lab_empty : Lab empty := ⟨fun _ => [], by simp [empty], by simp [empty]⟩

/-- The frames with one identifier. -/
def part (id : Bytes) (t : LTag) : List Item := (contents t).filter fun x => x.id = id

/-- What these become when the text is set. -/
def view (c : Cfg) (t : LTag) (id d : Bytes) : List Item :=
  match mfind c t.textMap id with
  | none => part id t ++ [⟨id, .text, d⟩]
  | some p => ((t.frames.filter fun f => f.id = id).map fun f => if f.ptr = p then { f with data := d } else f).map fun f => ⟨f.id, f.cls, f.data⟩

theorem part_eq (id : Bytes) (t : LTag) : part id t = (t.frames.filter fun f => f.id = id).map fun f => ⟨f.id, f.cls, f.data⟩ := by
  rw [part, contents, List.filter_map]
  rfl

theorem mfind_append_self (c : Cfg) (m : List (Bytes × Nat)) (id : Bytes) (p : Nat) (h : mfind c m id = none) : mfind c (m ++ [(id, p)]) id = some p := by
  rw [mfind_none] at h
  unfold mfind
  cases c.newest
  · simp only [Bool.false_eq_true, if_false, List.find?_append]
    have : m.find? (fun e => decide (e.1 = id)) = none := by
      rw [List.find?_eq_none]; simpa using h
    rw [this]; simp
  · simp

theorem mfind_append_other (c : Cfg) (m : List (Bytes × Nat)) {id id' : Bytes} (p : Nat) (h : id' ≠ id) : mfind c (m ++ [(id, p)]) id' = mfind c m id' := by
  unfold mfind
  have : ¬ id = id' := fun e => h e.symm
  cases c.newest <;> simp [List.find?_append, this]

theorem find_updated (l : List Fr) (p q : Nat) (d : Bytes) :
    (l.map fun f => if f.ptr = p then { f with data := d } else f).find? (fun f => f.ptr = q) =
      (l.find? fun f => f.ptr = q).map fun f => if f.ptr = p then { f with data := d } else f := by
  induction l with
  | nil => rfl
  | cons f l ih =>
    have : (if f.ptr = p then { f with data := d } else f).ptr = f.ptr := by split <;> rfl
    simp only [List.map_cons, List.find?_cons, this]
    cases decide (f.ptr = q) <;> simp [ih]

theorem filter_updated (l : List Fr) (p : Nat) (id d : Bytes) :
    (l.map fun f => if f.ptr = p then { f with data := d } else f).filter (fun f => f.id = id) =
      (l.filter fun f => f.id = id).map fun f => if f.ptr = p then { f with data := d } else f := by
  rw [List.filter_map]
  congr 1
  apply List.filter_congr
  intro f _
  simp only [Function.comp]
  split <;> rfl

theorem twice (l : List Fr) (p : Nat) (d e : Bytes) :
    (l.map fun f => if f.ptr = p then { f with data := d } else f).map (fun f => if f.ptr = p then { f with data := e } else f) =
      l.map fun f => if f.ptr = p then { f with data := e } else f := by
  rw [List.map_map]
  apply List.map_congr_left
  intro f _
  simp only [Function.comp]
  by_cases h : f.ptr = p <;> simp [h]

/-- One setting: it is undefined exactly if asking for the text is; else the text is as set, and all about other identifiers is as it was. -/
theorem set_one {c : Cfg} {t : LTag} (h : Lab t) (id d : Bytes) :
    (t.textOf c id = .ub .dangling ∧ t.setText c id d = .ub .dangling) ∨
    (t.textOf c id ≠ .ub .dangling ∧ ∃ u, t.setText c id d = .ok u ∧ Lab u ∧ u.textOf c id = .ok d ∧ part id u = view c t id d ∧
      (∀ e, view c u id e = view c t id e) ∧
      ∀ id', id' ≠ id → u.textOf c id' = t.textOf c id' ∧ part id' u = part id' t ∧ ∀ e, view c u id' e = view c t id' e) := by
  cases hm : mfind c t.textMap id with
  | none =>
    refine .inr ⟨by simp [textOf, hm], t.pushBack ⟨.text, .text, id, d⟩, by simp only [setText, hm], lab_push h _, ?_⟩
    obtain ⟨lab, a1, a2⟩ := h
    have hfr : (t.pushBack ⟨.text, .text, id, d⟩).frames = t.frames ++ [⟨t.next, id, .text, d⟩] := by simp [pushBack, alloc]
    have htm : (t.pushBack ⟨.text, .text, id, d⟩).textMap = t.textMap ++ [(id, t.next)] := by simp [pushBack, alloc, addLookups]
    generalize t.pushBack ⟨.text, .text, id, d⟩ = u at *
    have hself : mfind c u.textMap id = some t.next := by rw [htm]; exact mfind_append_self c _ _ _ hm
    have hold : ∀ q, q < t.next → u.deref q = t.deref q := by
      intro q hq
      have : ¬ t.next = q := by omega
      simp [deref, hfr, List.find?_append, this]
    have hnew : t.frames.find? (fun f => f.ptr = t.next) = none := by
      rw [List.find?_eq_none]
      intro f hf
      have := (a1 f hf).2
      simp only [decide_eq_true_eq]
      omega
    have hkeep : ∀ (l : List Fr), (∀ f ∈ l, f ∈ t.frames) → ∀ e, l.map (fun f => if f.ptr = t.next then { f with data := e } else f) = l := by
      intro l hl e
      conv => rhs; rw [← List.map_id l]
      apply List.map_congr_left
      intro f hf
      have := (a1 f (hl f hf)).2
      rw [if_neg (by omega)]
      rfl
    refine ⟨?_, ?_, ?_, ?_⟩
    · simp [textOf, hself, deref, hfr, List.find?_append, hnew]
    · simp [view, hm, part_eq, hfr, List.filter_append]
    · intro e
      simp only [view, hm, hself, hfr, List.filter_append, List.map_append, part_eq]
      rw [hkeep _ (fun f hf => (List.mem_filter.1 hf).1)]
      simp
    · intro id' hne
      have hx : ¬ id = id' := fun e => hne e.symm
      have ho : mfind c u.textMap id' = mfind c t.textMap id' := by rw [htm]; exact mfind_append_other c _ _ hne
      have hp : part id' u = part id' t := by simp [part_eq, hfr, List.filter_append, hx]
      refine ⟨?_, hp, ?_⟩
      · simp only [textOf, ho]
        cases hq : mfind c t.textMap id' with
        | none => rfl
        | some q =>
          obtain hq := mfind_some hq
          simp only [hold q (a2 _ hq).2]
      · intro e
        simp only [view, ho, hp]
        cases mfind c t.textMap id' with
        | none => rfl
        | some q => simp [hfr, List.filter_append, hx]
  | some p =>
    have hlab := h
    cases hd : t.frames.find? fun f => f.ptr = p with
    | none =>
      refine .inl ⟨?_, ?_⟩
      · simp [textOf, hm, deref, hd]
      · simp [setText, hm, deref, hd]
    | some f =>
      refine .inr ⟨by simp [textOf, hm, deref, hd], { t with frames := t.frames.map fun f => if f.ptr = p then { f with data := d } else f }, ?_, ?_, ?_⟩
      · simp [setText, hm, deref, hd]
      · exact lab_step (c := c) (o := .setText id d) h (by simp [step, setText, hm, deref, hd])
      obtain ⟨lab, a1, a2⟩ := h
      have hp := List.find?_some hd
      simp only [decide_eq_true_eq] at hp
      have hlp := (a2 _ (mfind_some hm)).1
      simp only at hlp
      have hkeep : ∀ id', id' ≠ id → (t.frames.filter fun f => f.id = id').map (fun f => if f.ptr = p then { f with data := d } else f) =
          t.frames.filter fun f => f.id = id' := by
        intro id' hne
        conv => rhs; rw [← List.map_id (t.frames.filter fun f => f.id = id')]
        apply List.map_congr_left
        intro g hg
        obtain ⟨hg, hgi⟩ := List.mem_filter.1 hg
        simp only [decide_eq_true_eq] at hgi
        rw [if_neg]
        · rfl
        · intro e
          apply hne
          rw [← hgi, ← (a1 g hg).1, e, hlp]
      refine ⟨?_, ?_, ?_, ?_⟩
      · simp only [textOf, hm, deref, find_updated, hd, Option.map_some, hp, if_true, Res.ok_bind]
      · simp only [view, hm, part_eq, filter_updated]
      · intro e
        simp only [view, hm, filter_updated, twice]
      · intro id' hne
        refine ⟨?_, ?_, ?_⟩
        · simp only [textOf]
          cases hq : mfind c t.textMap id' with
          | none => rfl
          | some q =>
            simp only [deref, find_updated]
            have hqp : q ≠ p := by
              rintro rfl
              apply hne
              have := (a2 _ (mfind_some hq)).1
              simp only at this
              rw [← this, hlp]
            cases hf : t.frames.find? fun f => f.ptr = q with
            | none => rfl
            | some g =>
              have hgq := List.find?_some hf
              simp only [decide_eq_true_eq] at hgq
              simp only [Option.map_some]
              rw [if_neg (by rw [hgq]; exact hqp)]
        · simp only [part_eq, filter_updated, hkeep id' hne]
        · intro e
          simp only [view, part_eq, filter_updated, hkeep id' hne]

end Scribbu.TextOrder

namespace Scribbu.Props
open Scribbu Scribbu.Spec LTag Lookup

/-- A program that sets texts: the identifier and the text of each call. -/
abbrev Settings := List (Bytes × Bytes)

/-- The text that is given last for an identifier. -/
def lastGiven (id : Bytes) : Settings → Option Bytes
  | [] => none
  | s :: ss => (lastGiven id ss).or (if s.1 = id then some s.2 else none)

/-- The calls. -/
def calls (ss : Settings) : List Op := ss.map fun s => .setText s.1 s.2

end Scribbu.Props

namespace Scribbu.TextOrder
open Scribbu Scribbu.Spec Scribbu.Props LTag Lookup

theorem set_all {c : Cfg} (ss : Settings) {t : LTag} (h : Lab t) :
    ((∃ s ∈ ss, t.textOf c s.1 = .ub .dangling) ∧ run c t (calls ss) = .ub .dangling) ∨
    ((∀ s ∈ ss, t.textOf c s.1 ≠ .ub .dangling) ∧ ∃ u, run c t (calls ss) = .ok u ∧
      (∀ id, u.textOf c id = match lastGiven id ss with | some d => .ok d | none => t.textOf c id) ∧
      (∀ id, part id u = match lastGiven id ss with | some d => view c t id d | none => part id t)) := by
  induction ss generalizing t with
  | nil => exact .inr ⟨by simp, t, rfl, fun _ => rfl, fun _ => rfl⟩
  | cons s ss ih =>
    obtain ⟨id, d⟩ := s
    rcases set_one (c := c) h id d with ⟨h1, h2⟩ | ⟨h1, u, h2, hu, h3, h4, h5, h6⟩
    · refine .inl ⟨⟨(id, d), by simp, h1⟩, ?_⟩
      simp only [calls, List.map_cons, run, step, h2]
      rfl
    · have hr : run c t (calls ((id, d) :: ss)) = run c u (calls ss) := by
        simp only [calls, List.map_cons, run, step, h2, Res.ok_bind]
      have hub : ∀ id', u.textOf c id' = .ub .dangling ↔ (id' ≠ id ∧ t.textOf c id' = .ub .dangling) := by
        intro id'
        by_cases e : id' = id
        · subst e; simp [h3]
        · rw [(h6 id' e).1]; simp [e]
      rw [hr]
      rcases ih hu with ⟨⟨s, hs, hx⟩, h7⟩ | ⟨h7, v, h8, h9, h10⟩
      · exact .inl ⟨⟨s, by simp [hs], ((hub _).1 hx).2⟩, h7⟩
      · refine .inr ⟨?_, v, h8, ?_, ?_⟩
        · intro s hs
          rcases List.mem_cons.1 hs with rfl | hs
          · exact h1
          · intro e
            by_cases hi : s.1 = id
            · rw [hi] at e; exact h1 e
            · exact h7 s hs ((hub _).2 ⟨hi, e⟩)
        · intro id'
          rw [h9 id', lastGiven]
          cases lastGiven id' ss with
          | some e => rfl
          | none =>
            simp only [Option.none_or]
            by_cases hi : id = id'
            · subst hi; simp [h3]
            · simp only [if_neg hi]
              exact (h6 id' (fun e => hi e.symm)).1
        · intro id'
          rw [h10 id', lastGiven]
          cases lastGiven id' ss with
          | some e =>
            simp only [Option.some_or]
            by_cases hi : id' = id
            · subst hi; exact h5 e
            · exact (h6 id' hi).2.2 e
          | none =>
            simp only [Option.none_or]
            by_cases hi : id = id'
            · subst hi; simp [h4]
            · simp only [if_neg hi]
              exact (h6 id' (fun e => hi e.symm)).2.1

theorem lastGiven_filter (id : Bytes) (ss : Settings) : lastGiven id ss = lastGiven id (ss.filter fun s => s.1 = id) := by
  induction ss with
  | nil => rfl
  | cons s ss ih =>
    by_cases h : s.1 = id
    · rw [List.filter_cons_of_pos (by simpa using h), lastGiven, lastGiven, ih]
    · rw [List.filter_cons_of_neg (by simpa using h), lastGiven, if_neg h, ih, Option.or_none]

theorem perm_of_parts {l l' : List Item} (h : ∀ id : Bytes, l.filter (fun x => x.id = id) = l'.filter fun x => x.id = id) : l.Perm l' := by
  rw [List.perm_iff_count]
  intro x
  have := congrArg (List.count x) (h x.id)
  rwa [List.count_filter (by simp), List.count_filter (by simp)] at this

end Scribbu.TextOrder

namespace Scribbu.Props
open Scribbu Scribbu.Spec LTag Lookup

/-- **C203** Whatever was done to a tag before: setting texts is undefined exactly if asking for one of them is. Else each text is what was given for it last, and those
for which none was given are what they were. -/
theorem C203_texts (c : Cfg) (os : List Op) (t : LTag) (ht : run c empty os = .ok t) (ss : Settings) :
    ((∃ s ∈ ss, t.textOf c s.1 = .ub .dangling) ∧ run c t (calls ss) = .ub .dangling) ∨
    ((∀ s ∈ ss, t.textOf c s.1 ≠ .ub .dangling) ∧ ∃ u, run c t (calls ss) = .ok u ∧
      ∀ id, u.textOf c id = match lastGiven id ss with | some d => .ok d | none => t.textOf c id) := by
  rcases TextOrder.set_all (c := c) ss (TextOrder.lab_run os TextOrder.lab_empty ht) with h | ⟨h, u, h1, h2, -⟩
  · exact .inl h
  · exact .inr ⟨h, u, h1, h2⟩

/-- **C203** Two programs that give the same texts for each identifier in the same order, however the calls for different identifiers are interleaved, end in the same way; all
texts are the same afterwards, and so are the frames, for each identifier in the same order. -/
theorem C203_order (c : Cfg) (os : List Op) (t : LTag) (ht : run c empty os = .ok t) (ss ss' : Settings)
    (hs : ∀ id, ss.filter (fun s => s.1 = id) = ss'.filter fun s => s.1 = id) :
    (run c t (calls ss) = .ub .dangling ∧ run c t (calls ss') = .ub .dangling) ∨
    ∃ u u', run c t (calls ss) = .ok u ∧ run c t (calls ss') = .ok u' ∧ (∀ id, u.textOf c id = u'.textOf c id) ∧
      (∀ id, (contents u).filter (fun x => x.id = id) = (contents u').filter fun x => x.id = id) ∧ (contents u).Perm (contents u') := by
  have hl : ∀ id, lastGiven id ss = lastGiven id ss' := by
    intro id
    rw [TextOrder.lastGiven_filter, hs, ← TextOrder.lastGiven_filter]
  have hmem : ∀ s, s ∈ ss ↔ s ∈ ss' := by
    intro s
    have : s ∈ ss.filter (fun x => x.1 = s.1) ↔ s ∈ ss'.filter (fun x => x.1 = s.1) := by rw [hs]
    simpa using this
  have hlab := TextOrder.lab_run os TextOrder.lab_empty ht
  rcases TextOrder.set_all (c := c) ss hlab with ⟨⟨s, h1, h2⟩, h3⟩ | ⟨h, u, h1, h2, h3⟩
  · rcases TextOrder.set_all (c := c) ss' hlab with ⟨-, h4⟩ | ⟨h, -⟩
    · exact .inl ⟨h3, h4⟩
    · exact absurd h2 (h s ((hmem s).1 h1))
  · rcases TextOrder.set_all (c := c) ss' hlab with ⟨⟨s, h4, h5⟩, -⟩ | ⟨-, u', h4, h5, h6⟩
    · exact absurd h5 (h s ((hmem s).2 h4))
    · have hp : ∀ id, (contents u).filter (fun x => x.id = id) = (contents u').filter fun x => x.id = id := by
        intro id
        have := (h3 id).trans (hl id ▸ (h6 id).symm)
        exact this
      exact .inr ⟨u, u', h1, h4, fun id => by rw [h2, h5, hl], hp, TextOrder.perm_of_parts hp⟩

/-- **C203** Only the order of new frames in the tag is that of the calls. -/
theorem C203_frames_in_order_of_calls : ∃ u u', run (cfg .v3) empty (calls [(tit .v3, [65]), (tpe .v3, [66])]) = .ok u ∧
    run (cfg .v3) empty (calls [(tpe .v3, [66]), (tit .v3, [65])]) = .ok u' ∧ contents u ≠ contents u' :=
  ⟨_, _, rfl, rfl, by decide⟩

/-- A tag that has one of two texts already, and three calls in two orders. -/
example : ∃ t u u', run (cfg .v3) empty [.setText (tit .v3) [65]] = .ok t ∧
    run (cfg .v3) t (calls [(tit .v3, [66]), (tpe .v3, [67]), (tit .v3, [68])]) = .ok u ∧
    run (cfg .v3) t (calls [(tit .v3, [66]), (tit .v3, [68]), (tpe .v3, [67])]) = .ok u' ∧
    u.textOf (cfg .v3) (tit .v3) = .ok [68] ∧ u'.textOf (cfg .v3) (tit .v3) = .ok [68] ∧ u.textOf (cfg .v3) (tpe .v3) = .ok [67] :=
  ⟨_, _, _, rfl, rfl, rfl, by decide, by decide, by decide⟩

end Scribbu.Props
