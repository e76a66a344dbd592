import Verif.Proofs.Lookup
import Verif.Props.Lookup
import Verif.Model.Commands

/-! Text frames of a tag and the table of text frames: what setting a text does to what the accessors answer. -/

namespace Scribbu.Commands
open Scribbu LTag Spec Lookup

/-- The table of text frames agrees with the frames. (The other tables need not.) -/
structure TInv (t : LTag) : Prop where
  nodup : (t.frames.map Fr.ptr).Nodup
  below : ∀ f ∈ t.frames, f.ptr < t.next
  texts : ∀ e ∈ t.textMap, ∃ f ∈ t.frames, f.ptr = e.2 ∧ f.id = e.1 ∧ f.cls = .text
  all : ∀ f ∈ t.frames, f.cls = .text → (f.id, f.ptr) ∈ t.textMap

theorem tinv_empty : TInv empty := ⟨by simp [empty], by simp [empty], by simp [empty], by simp [empty]⟩

theorem tinv_of_inv {c : Cfg} {t : LTag} (h : Inv c t) : TInv t := by
  refine ⟨h.nodup, h.next, ?_, ?_⟩
  · intro e he
    have := h.tables.text.mem_iff.1 he
    simp only [tm, List.mem_map, List.mem_filter, decide_eq_true_eq] at this
    obtain ⟨⟨f, j⟩, ⟨hx, hc⟩, rfl⟩ := this
    exact ⟨f, List.mem_of_getElem? (mem_zip.1 hx), rfl, rfl, hc⟩
  · intro f hf hc
    obtain ⟨i, hi⟩ := List.getElem?_of_mem hf
    exact h.tables.text.mem_iff.2 (List.mem_map.2 ⟨(f, i), List.mem_filter.2 ⟨mem_zip.2 hi, by simpa using hc⟩, rfl⟩)

theorem find_ptr {f : Fr} : ∀ {l : List Fr}, (l.map Fr.ptr).Nodup → f ∈ l → l.find? (fun g => g.ptr = f.ptr) = some f := by
  intro l
  induction l with
  | nil => simp
  | cons g l ih =>
    intro hn hm
    rw [List.map_cons, List.nodup_cons] at hn
    rcases List.mem_cons.1 hm with rfl | hm
    · simp
    · have : g.ptr ≠ f.ptr := fun e => hn.1 (e ▸ List.mem_map_of_mem hm)
      simp [this, ih hn.2 hm]

theorem tinv_deref {t : LTag} (h : TInv t) {f : Fr} (hf : f ∈ t.frames) : t.deref f.ptr = .ok f := by
  unfold deref
  rw [find_ptr h.nodup hf]

/-- The accessor answers from a text frame with the identifier, or there is none. -/
theorem text_answers {c : Cfg} {t : LTag} (h : TInv t) (id : Bytes) :
    (∃ f ∈ t.frames, f.id = id ∧ f.cls = .text ∧ mfind c t.textMap id = some f.ptr ∧ t.textOf c id = .ok f.data) ∨
    ((∀ f ∈ t.frames, f.id = id → f.cls ≠ .text) ∧ mfind c t.textMap id = none ∧ t.textOf c id = .throw .unknownFrame) := by
  cases hm : mfind c t.textMap id with
  | none =>
    refine .inr ⟨?_, rfl, by simp [textOf, hm]⟩
    intro f hf e hc
    exact mfind_none.1 hm _ (h.all f hf hc) e
  | some p =>
    obtain ⟨f, hf, rfl, e, hc⟩ := h.texts _ (mfind_some hm)
    exact .inl ⟨f, hf, e, hc, rfl, by simp [textOf, hm, tinv_deref h hf]⟩

theorem mfind_snoc {c : Cfg} {m : List (Bytes × Nat)} {k k' : Bytes} {v : Nat} (hk : k' ≠ k) :
    mfind c (m ++ [(k, v)]) k' = mfind c m k' := by
  unfold mfind
  cases c.newest
  · simp [List.find?_append, Ne.symm hk]
  · simp [Ne.symm hk]

theorem mfind_snoc_new {c : Cfg} {m : List (Bytes × Nat)} {k : Bytes} {v : Nat} (hn : mfind c m k = none) :
    mfind c (m ++ [(k, v)]) k = some v := by
  have := mfind_none.1 hn
  unfold mfind
  cases c.newest
  · have h2 : m.find? (fun e => decide (e.1 = k)) = none := by
      rw [List.find?_eq_none]; intro x hx; simpa using this x hx
    simp [List.find?_append, h2]
  · simp

/-- Appending a frame that is not a text frame, as whatever class. -/
theorem push_other {c : Cfg} {t : LTag} (h : TInv t) {a : Arg} (ho : a.ov ≠ .text) (hc : a.cls ≠ .text) :
    TInv (t.pushBack a) ∧ ∀ id, (t.pushBack a).textOf c id = t.textOf c id := by
  have hf : (t.pushBack a).frames = t.frames ++ [⟨t.next, a.id, a.cls, a.data⟩] := by
    simp [pushBack, alloc, addLookups]; cases a.ov <;> rfl
  have ht : (t.pushBack a).textMap = t.textMap := by
    simp only [pushBack, alloc, addLookups]
    cases hov : a.ov with
    | text => exact absurd hov ho
    | gen => rfl
    | cnt => rfl
    | com => rfl
    | pop => rfl
  have hn : (t.pushBack a).next = t.next + 1 := by simp [pushBack, alloc, addLookups]; cases a.ov <;> rfl
  have hI : TInv (t.pushBack a) := by
    refine ⟨?_, ?_, ?_, ?_⟩
    · rw [hf, List.map_append, List.map_singleton, List.nodup_append]
      refine ⟨h.nodup, by simp, ?_⟩
      rintro x hx y hy rfl
      obtain ⟨f, hf1, rfl⟩ := List.mem_map.1 hx
      have := h.below f hf1
      simp only [List.mem_singleton] at hy
      omega
    · rw [hf, hn]
      intro f hf1
      rcases List.mem_append.1 hf1 with h1 | h1
      · have := h.below f h1; omega
      · simp only [List.mem_singleton] at h1; subst h1; simp
    · rw [hf, ht]
      intro e he
      obtain ⟨f, h1, h2⟩ := h.texts e he
      exact ⟨f, List.mem_append_left _ h1, h2⟩
    · rw [hf, ht]
      intro f hf1 hcl
      rcases List.mem_append.1 hf1 with h1 | h1
      · exact h.all f h1 hcl
      · simp only [List.mem_singleton] at h1; subst h1; exact absurd hcl hc
  refine ⟨hI, ?_⟩
  intro id
  unfold textOf
  rw [ht]
  cases hm : mfind c t.textMap id with
  | none => rfl
  | some p =>
    obtain ⟨f, h1, rfl, -⟩ := h.texts _ (mfind_some hm)
    have h2 : f ∈ (t.pushBack a).frames := by rw [hf]; exact List.mem_append_left _ h1
    simp only [tinv_deref h h1, tinv_deref hI h2]

/-- Setting a text: the accessor answers it, the others answer what they did, and of the contents only the frame in question is new
or changed. -/
theorem setText_spec {c : Cfg} {t : LTag} (h : TInv t) (id d : Bytes) :
    ∃ t', t.setText c id d = .ok t' ∧ TInv t' ∧ t'.textOf c id = .ok d ∧ (∀ id', id' ≠ id → t'.textOf c id' = t.textOf c id') ∧
      ((t.textOf c id = .throw .unknownFrame ∧ contents t' = contents t ++ [⟨id, .text, d⟩]) ∨
       ∃ a x b, contents t = a ++ x :: b ∧ x.id = id ∧ x.cls = .text ∧ t.textOf c id = .ok x.data ∧
         contents t' = a ++ ⟨id, .text, d⟩ :: b) := by
  rcases text_answers (c := c) h id with ⟨f, hf, e1, e2, hm, hto⟩ | ⟨hno, hm, hto⟩
  · obtain ⟨a, b, e⟩ := List.append_of_mem hf
    have hn := h.nodup
    rw [e, List.map_append, List.map_cons, List.perm_middle.nodup_iff, List.nodup_cons] at hn
    have hne : ∀ g, g ∈ a ∨ g ∈ b → g.ptr ≠ f.ptr := by
      intro g hg eq
      refine hn.1 ?_
      rw [← eq, ← List.map_append]
      exact List.mem_map_of_mem (List.mem_append.2 hg)
    have ha : ∀ l : List Fr, (∀ g ∈ l, g.ptr ≠ f.ptr) →
        l.map (fun g => if g.ptr = f.ptr then { g with data := d } else g) = l := by
      intro l hl
      conv => rhs; rw [← List.map_id l]
      apply List.map_congr_left
      intro g hg
      simp [hl g hg]
    have hmap : t.frames.map (fun g => if g.ptr = f.ptr then { g with data := d } else g) =
        a ++ { f with data := d } :: b := by
      rw [e, List.map_append, List.map_cons, ha a (fun g hg => hne g (.inl hg)), ha b (fun g hg => hne g (.inr hg))]
      simp
    have hI : TInv { t with frames := a ++ { f with data := d } :: b } := by
      refine ⟨?_, ?_, ?_, ?_⟩
      · simp only [List.map_append, List.map_cons]
        rw [List.perm_middle.nodup_iff, List.nodup_cons]
        exact hn
      · intro g hg
        simp only [List.mem_append, List.mem_cons] at hg
        rcases hg with hg | rfl | hg
        · exact h.below g (by simp [e, hg])
        · exact h.below f hf
        · exact h.below g (by simp [e, hg])
      · intro x hx
        obtain ⟨g, hg, g1, g2, g3⟩ := h.texts x hx
        rw [e] at hg
        simp only [List.mem_append, List.mem_cons] at hg ⊢
        rcases hg with hg | rfl | hg
        · exact ⟨g, .inl hg, g1, g2, g3⟩
        · exact ⟨{ g with data := d }, .inr (.inl rfl), g1, g2, g3⟩
        · exact ⟨g, .inr (.inr hg), g1, g2, g3⟩
      · intro g hg hc
        simp only [List.mem_append, List.mem_cons] at hg
        rcases hg with hg | rfl | hg
        · exact h.all g (by simp [e, hg]) hc
        · exact h.all f hf e2
        · exact h.all g (by simp [e, hg]) hc
    refine ⟨{ t with frames := a ++ { f with data := d } :: b }, ?_, hI, ?_, ?_, .inr ⟨a.map fun f => ⟨f.id, f.cls, f.data⟩,
      ⟨f.id, f.cls, f.data⟩, b.map fun f => ⟨f.id, f.cls, f.data⟩, ?_, e1, e2, hto, ?_⟩⟩
    · simp only [LTag.setText, hm, tinv_deref h hf, Res.ok_bind, hmap]
    · have h1 := tinv_deref hI (f := { f with data := d }) (by simp)
      unfold textOf
      simp only [hm]
      show Res.bind _ _ = _
      rw [h1]; rfl
    · intro id' hid
      unfold textOf
      show (match mfind c t.textMap id' with | none => _ | some p => _) = _
      cases hm' : mfind c t.textMap id' with
      | none => rfl
      | some p =>
        obtain ⟨g, g1, rfl, g2, g3⟩ := h.texts _ (mfind_some hm')
        simp only [tinv_deref h g1]
        have hg : g ∈ a ∨ g ∈ b := by
          rw [e] at g1
          simp only [List.mem_append, List.mem_cons] at g1
          rcases g1 with g1 | rfl | g1
          · exact .inl g1
          · exact absurd (g2.symm.trans e1) hid
          · exact .inr g1
        have h2 := tinv_deref hI (f := g) (by simp only [List.mem_append, List.mem_cons]; rcases hg with hg | hg <;> simp [hg])
        rw [h2]
    · rw [contents, e]; simp
    · simp [contents, e1, e2]
  · have hf : (t.pushBack ⟨.text, .text, id, d⟩).frames = t.frames ++ [⟨t.next, id, .text, d⟩] := rfl
    have ht : (t.pushBack ⟨.text, .text, id, d⟩).textMap = t.textMap ++ [(id, t.next)] := rfl
    have hn : (t.pushBack ⟨.text, .text, id, d⟩).next = t.next + 1 := rfl
    have hI : TInv (t.pushBack ⟨.text, .text, id, d⟩) := by
      refine ⟨?_, ?_, ?_, ?_⟩
      · rw [hf, List.map_append, List.map_singleton, List.nodup_append]
        refine ⟨h.nodup, by simp, ?_⟩
        rintro x hx y hy rfl
        obtain ⟨f, hf1, rfl⟩ := List.mem_map.1 hx
        have := h.below f hf1
        simp only [List.mem_singleton] at hy
        omega
      · rw [hf, hn]
        intro f hf1
        rcases List.mem_append.1 hf1 with h1 | h1
        · have := h.below f h1; omega
        · simp only [List.mem_singleton] at h1; subst h1; simp
      · rw [hf, ht]
        intro e he
        rcases List.mem_append.1 he with he | he
        · obtain ⟨f, h1, h2⟩ := h.texts e he
          exact ⟨f, List.mem_append_left _ h1, h2⟩
        · simp only [List.mem_singleton] at he; subst he
          exact ⟨_, List.mem_append_right _ (List.mem_singleton.2 rfl), rfl, rfl, rfl⟩
      · rw [hf, ht]
        intro f hf1 hcl
        rcases List.mem_append.1 hf1 with h1 | h1
        · exact List.mem_append_left _ (h.all f h1 hcl)
        · simp only [List.mem_singleton] at h1; subst h1; exact List.mem_append_right _ (by simp)
    refine ⟨_, by simp only [LTag.setText, hm], hI, ?_, ?_, .inl ⟨hto, by simp [contents, hf]⟩⟩
    · have h1 := tinv_deref hI (f := ⟨t.next, id, .text, d⟩) (by rw [hf]; simp)
      unfold textOf
      rw [ht, mfind_snoc_new hm]
      simp only
      simp only at h1
      rw [h1]; rfl
    · intro id' hid
      unfold textOf
      rw [ht, mfind_snoc hid]
      cases hm' : mfind c t.textMap id' with
      | none => rfl
      | some p =>
        obtain ⟨g, g1, rfl, g2, g3⟩ := h.texts _ (mfind_some hm')
        have h2 : g ∈ (t.pushBack ⟨.text, .text, id, d⟩).frames := by rw [hf]; exact List.mem_append_left _ g1
        simp only [tinv_deref h g1, tinv_deref hI h2]

end Scribbu.Commands
