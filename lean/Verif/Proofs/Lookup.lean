import Verif.Spec.Lookup

/-! Lemmas about the look-up tables of a tag. -/

namespace Scribbu
open LTag Spec

namespace Lookup

/-- The entries that the tables should have for frames at given places. -/
def fm (L : List (Fr × Nat)) : List (Bytes × Nat) := L.map fun x => (x.1.id, x.2)
def tm (L : List (Fr × Nat)) : List (Bytes × Nat) := (L.filter fun x => x.1.cls = .text).map fun x => (x.1.id, x.1.ptr)
def cm (k : Cls) (L : List (Fr × Nat)) : List (Nat × Nat) := (L.filter fun x => x.1.cls = k).map fun x => (x.1.ptr, x.2)

theorem tm_cons (x : Fr × Nat) (L : List (Fr × Nat)) :
    tm (x :: L) = if x.1.cls = .text then (x.1.id, x.1.ptr) :: tm L else tm L := by
  by_cases h : x.1.cls = .text <;> simp [tm, h]
theorem cm_cons (k : Cls) (x : Fr × Nat) (L : List (Fr × Nat)) :
    cm k (x :: L) = if x.1.cls = k then (x.1.ptr, x.2) :: cm k L else cm k L := by
  by_cases h : x.1.cls = k <;> simp [cm, h]

structure Tables (t : LTag) (L : List (Fr × Nat)) : Prop where
  frame : t.frameMap.Perm (fm L)
  text : t.textMap.Perm (tm L)
  com : t.coms.Perm (cm .com L)
  cnt : t.cnts.Perm (cm .cnt L)
  pop : t.pops.Perm (cm .pop L)

theorem Tables.perm {t : LTag} {L L' : List (Fr × Nat)} (h : Tables t L) (p : L.Perm L') : Tables t L' :=
  ⟨h.frame.trans (p.map _), h.text.trans ((p.filter _).map _), h.com.trans ((p.filter _).map _),
   h.cnt.trans ((p.filter _).map _), h.pop.trans ((p.filter _).map _)⟩

theorem Tables.congr {t t' : LTag} {L : List (Fr × Nat)} (h : Tables t L) (h1 : t'.frameMap = t.frameMap)
    (h2 : t'.textMap = t.textMap) (h3 : t'.coms = t.coms) (h4 : t'.cnts = t.cnts) (h5 : t'.pops = t.pops) :
    Tables t' L := ⟨h1 ▸ h.frame, h2 ▸ h.text, h3 ▸ h.com, h4 ▸ h.cnt, h5 ▸ h.pop⟩

theorem add {t : LTag} {L : List (Fr × Nat)} (h : Tables t L) (f : Fr) (idx : Nat) :
    Tables (t.addLookups f.cls f idx) (L ++ [(f, idx)]) := by
  obtain ⟨h1, h2, h3, h4, h5⟩ := h
  obtain ⟨p, id, cls, d⟩ := f
  cases cls <;> constructor <;>
    simp [addLookups, fm, tm, cm, List.filter_append] <;>
    first
      | exact h1.append_right _
      | exact h2
      | exact h3
      | exact h4
      | exact h5
      | exact h2.append_right _
      | exact h3.append_right _
      | exact h4.append_right _
      | exact h5.append_right _

@[simp] theorem addLookups_frames (t : LTag) (ov f i) : (t.addLookups ov f i).frames = t.frames := by
  cases ov <;> rfl
@[simp] theorem addLookups_next (t : LTag) (ov f i) : (t.addLookups ov f i).next = t.next := by
  cases ov <;> rfl

theorem eraseP_perm {α : Type} {p : α → Bool} {x : α} {l l' : List α} (h : l.Perm (x :: l')) (hx : p x)
    (hl : ∀ y ∈ l', ¬ p y) : (l.eraseP p).Perm l' := by
  obtain ⟨a, l1, l2, _, ha, e, e'⟩ := List.exists_of_eraseP (h.mem_iff.2 (List.mem_cons_self ..)) hx
  rw [e']
  have : a ∈ x :: l' := h.mem_iff.1 (e ▸ by simp)
  have hax : a = x := by
    rcases List.mem_cons.1 this with h | h
    · exact h
    · exact absurd ha (hl a h)
  subst hax
  rw [e] at h
  exact ((List.perm_middle.symm.trans h)).cons_inv

theorem eraseIx_perm {l l' : List (Nat × Nat)} {p idx : Nat} (h : l.Perm ((p, idx) :: l'))
    (hl : ∀ y ∈ l', y.2 ≠ idx) : ∃ r, eraseIx l idx = .ok r ∧ r.Perm l' := by
  have hm : (p, idx) ∈ l := h.mem_iff.2 (List.mem_cons_self ..)
  have : (l.any fun x => decide (x.2 = idx)) = true := List.any_eq_true.2 ⟨_, hm, by simp⟩
  refine ⟨_, by simp only [eraseIx]; rw [if_pos this], eraseP_perm h (by simp) ?_⟩
  intro y hy
  simpa using hl y hy

theorem erase_perm {α : Type} [BEq α] [LawfulBEq α] {x : α} {l l' : List α} (h : l.Perm (x :: l')) :
    x ∈ l ∧ (l.erase x).Perm l' := by
  refine ⟨h.mem_iff.2 (List.mem_cons_self ..), ?_⟩
  have := h.erase x
  simpa using this

theorem cm_ne {k : Cls} {L : List (Fr × Nat)} {idx : Nat} (h : ∀ x ∈ L, x.2 ≠ idx) :
    ∀ y ∈ cm k L, y.2 ≠ idx := by
  intro y hy
  simp only [cm, List.mem_map, List.mem_filter] at hy
  obtain ⟨x, ⟨hx, _⟩, rfl⟩ := hy
  exact h x hx

theorem removeTyped_spec {c : Cfg} {t : LTag} {L : List (Fr × Nat)} {f : Fr} {idx : Nat}
    (h : Tables t ((f, idx) :: L)) (hf : t.frames[idx]? = some f) (hc : f.cls = stdCls c f.id)
    (hL : ∀ x ∈ L, x.2 ≠ idx) :
    ∃ t', removeTyped c t f.id idx = .ok t' ∧ t'.frameMap.Perm (fm ((f, idx) :: L)) ∧ t'.textMap.Perm (tm L) ∧
      t'.coms.Perm (cm .com L) ∧ t'.cnts.Perm (cm .cnt L) ∧ t'.pops.Perm (cm .pop L) ∧
      t'.frames = t.frames ∧ t'.next = t.next := by
  obtain ⟨h1, h2, h3, h4, h5⟩ := h
  unfold stdCls at hc
  unfold removeTyped isTextId
  by_cases e1 : f.id = c.comId
  · rw [if_pos e1] at hc
    rw [if_pos e1]
    simp only [tm_cons, cm_cons, hc] at h2 h3 h4 h5
    obtain ⟨r, er, pr⟩ := eraseIx_perm (by simpa using h3) (cm_ne hL)
    exact ⟨{ t with coms := r }, by rw [er]; rfl, h1, by simpa using h2, pr, by simpa using h4, by simpa using h5, rfl, rfl⟩
  rw [if_neg e1] at hc ⊢
  by_cases e2 : f.id = c.cntId
  · rw [if_pos e2] at hc
    rw [if_pos e2]
    simp only [tm_cons, cm_cons, hc] at h2 h3 h4 h5
    obtain ⟨r, er, pr⟩ := eraseIx_perm (by simpa using h4) (cm_ne hL)
    exact ⟨{ t with cnts := r }, by rw [er]; rfl, h1, by simpa using h2, by simpa using h3, pr, by simpa using h5, rfl, rfl⟩
  rw [if_neg e2] at hc ⊢
  by_cases e3 : f.id = c.popId
  · rw [if_pos e3] at hc
    rw [if_pos e3]
    simp only [tm_cons, cm_cons, hc] at h2 h3 h4 h5
    obtain ⟨r, er, pr⟩ := eraseIx_perm (by simpa using h5) (cm_ne hL)
    exact ⟨{ t with pops := r }, by rw [er]; rfl, h1, by simpa using h2, by simpa using h3, by simpa using h4, pr, rfl, rfl⟩
  rw [if_neg e3] at hc ⊢
  by_cases e4 : f.id.head? = some 84
  · rw [if_pos e4] at hc
    simp only [tm_cons, cm_cons, hc] at h2 h3 h4 h5
    obtain ⟨m, pm⟩ := erase_perm (x := (f.id, f.ptr)) (l' := tm L) (by simpa using h2)
    refine ⟨{ t with textMap := t.textMap.erase (f.id, f.ptr) }, ?_, h1, pm, by simpa using h3,
      by simpa using h4, by simpa using h5, rfl, rfl⟩
    simp [e4, hf, m]
  · rw [if_neg e4] at hc
    simp only [tm_cons, cm_cons, hc] at h2 h3 h4 h5
    refine ⟨t, ?_, h1, by simpa using h2, by simpa using h3,
      by simpa using h4, by simpa using h5, rfl, rfl⟩
    simp [e4]

theorem remove {c : Cfg} {t : LTag} {L : List (Fr × Nat)} {f : Fr} {idx : Nat}
    (h : Tables t ((f, idx) :: L)) (hf : t.frames[idx]? = some f) (hc : f.cls = stdCls c f.id)
    (hL : ∀ x ∈ L, x.2 ≠ idx) :
    ∃ t', removeLookups c t f.id idx = .ok t' ∧ Tables t' L ∧ t'.frames = t.frames ∧ t'.next = t.next := by
  obtain ⟨t', e, p1, p2, p3, p4, p5, ef, en⟩ := removeTyped_spec h hf hc hL
  obtain ⟨m, pm⟩ := erase_perm (x := (f.id, idx)) (l' := fm L) (by simpa [fm] using p1)
  refine ⟨{ t' with frameMap := t'.frameMap.erase (f.id, idx) }, ?_, ⟨pm, p2, p3, p4, p5⟩, ef, en⟩
  simp only [removeLookups, e, Res.ok_bind]
  rw [if_pos m]

/-- The frames are of the class that their identifiers stand for, except for frames with identifiers
of text frames that are of no particular class. -/
def ClsOk (c : Cfg) (id : Bytes) (k : Cls) : Prop := k = stdCls c id ∨ (k = .gen ∧ stdCls c id = .text)

/-- The tables agree with the frames. -/
structure Inv (c : Cfg) (t : LTag) : Prop where
  tables : Tables t t.frames.zipIdx
  cls : ∀ f ∈ t.frames, ClsOk c f.id f.cls
  nodup : (t.frames.map Fr.ptr).Nodup
  next : ∀ f ∈ t.frames, f.ptr < t.next

theorem inv_empty (c : Cfg) : Inv c empty := by
  refine ⟨⟨?_, ?_, ?_, ?_, ?_⟩, by simp [empty], by simp [empty], by simp [empty]⟩ <;> simp [empty, fm, tm, cm]

theorem inv_push {c : Cfg} {t : LTag} (h : Inv c t) {a : Arg} (ho : a.ov = a.cls) (hc : ClsOk c a.id a.cls) :
    Inv c (t.pushBack a) := by
  obtain ⟨ov, cls, id, d⟩ := a
  simp only at ho
  subst ho
  have hT : Tables { t with next := t.next + 1, frames := t.frames ++ [⟨t.next, id, ov, d⟩] } t.frames.zipIdx :=
    h.tables.congr rfl rfl rfl rfl rfl
  have := add hT ⟨t.next, id, ov, d⟩ t.frames.length
  refine ⟨?_, ?_, ?_, ?_⟩
  · simpa [pushBack, alloc, List.zipIdx_append] using this
  · intro f hf
    simp only [pushBack, alloc, addLookups_frames, List.mem_append, List.mem_singleton] at hf
    rcases hf with hf | rfl
    · exact h.cls f hf
    · exact hc
  · simp only [pushBack, alloc, addLookups_frames, List.map_append, List.map_cons, List.map_nil,
      List.nodup_append, List.mem_map, List.mem_singleton]
    refine ⟨h.nodup, by simp, ?_⟩
    rintro _ ⟨f, hf, rfl⟩ _ rfl
    exact Nat.ne_of_lt (h.next f hf)
  · intro f hf
    simp only [pushBack, alloc, addLookups_frames, addLookups_next, List.mem_append, List.mem_singleton] at hf ⊢
    rcases hf with hf | rfl
    · exact Nat.lt_succ_of_lt (h.next f hf)
    · exact Nat.lt_succ_self _

theorem split_at {α : Type} {l : List α} {i : Nat} {f : α} (h : l[i]? = some f) :
    ∃ a b, l = a ++ f :: b ∧ a.length = i := by
  obtain ⟨hi, rfl⟩ := List.getElem?_eq_some_iff.1 h
  refine ⟨l.take i, l.drop (i + 1), ?_, by simp [Nat.le_of_lt hi]⟩
  rw [← List.drop_eq_getElem_cons hi, List.take_append_drop]

theorem zipIdx_mid {α : Type} (a b : List α) (f : α) :
    (a ++ f :: b).zipIdx = a.zipIdx ++ (f, a.length) :: b.zipIdx (a.length + 1) := by
  simp [List.zipIdx_append, List.zipIdx_cons]

theorem zipIdx_lt {α : Type} {a : List α} {x : α × Nat} (h : x ∈ a.zipIdx) : x.2 < a.length := by
  obtain ⟨x, i⟩ := x
  have := List.mem_zipIdx h
  omega

theorem zipIdx_ge {α : Type} {a : List α} {k : Nat} {x : α × Nat} (h : x ∈ a.zipIdx k) : k ≤ x.2 := by
  obtain ⟨x, i⟩ := x
  have := List.mem_zipIdx h
  omega

/-- Taking the frame between `a` and `b` out of the tables. -/
theorem remove_mid {c : Cfg} {t : LTag} {a b : List Fr} {f : Fr} (h : Tables t (a ++ f :: b).zipIdx)
    (hf : t.frames = a ++ f :: b) (hc : f.cls = stdCls c f.id) :
    ∃ t', removeLookups c t f.id a.length = .ok t' ∧ Tables t' (a.zipIdx ++ b.zipIdx (a.length + 1)) ∧
      t'.frames = t.frames ∧ t'.next = t.next := by
  rw [zipIdx_mid] at h
  refine remove (h.perm List.perm_middle) (by simp [hf]) hc ?_
  intro x hx
  rcases List.mem_append.1 hx with hx | hx
  · have := zipIdx_lt hx; omega
  · have := zipIdx_ge hx; omega

theorem inv_assign {c : Cfg} {t : LTag} (h : Inv c t) {x : Arg} (ho : x.ov = x.cls) (hx : ClsOk c x.id x.cls)
    {a b : List Fr} {f : Fr} (hf : t.frames = a ++ f :: b) (hc : f.cls = stdCls c f.id) :
    ∃ t', t.assign c a.length x = .ok t' ∧ Inv c t' ∧ t'.frames = a ++ ⟨t.next, x.id, x.cls, x.data⟩ :: b := by
  obtain ⟨ov, cls, id, d⟩ := x
  simp only at ho
  subst ho
  have h1 : Tables (t.alloc ⟨ov, ov, id, d⟩).2 (a ++ f :: b).zipIdx :=
    (hf ▸ h.tables : Tables t _).congr rfl rfl rfl rfl rfl
  obtain ⟨t1, e1, T1, f1, n1⟩ := remove_mid h1 (by simpa [alloc] using hf) hc
  have T2 : Tables { t1 with frames := t1.frames.set a.length ⟨t.next, id, ov, d⟩ }
      (a.zipIdx ++ b.zipIdx (a.length + 1)) := T1.congr rfl rfl rfl rfl rfl
  have hset : t1.frames.set a.length ⟨t.next, id, ov, d⟩ = a ++ ⟨t.next, id, ov, d⟩ :: b := by
    rw [f1]; simp [alloc, hf]
  have T3 := add T2 ⟨t.next, id, ov, d⟩ a.length
  refine ⟨({ t1 with frames := t1.frames.set a.length ⟨t.next, id, ov, d⟩ }).addLookups ov ⟨t.next, id, ov, d⟩ a.length,
    ?_, ⟨?_, ?_, ?_, ?_⟩, ?_⟩
  · simp only [assign, hf, List.getElem?_append_right (Nat.le_refl _), Nat.sub_self, List.getElem?_cons_zero]
    rw [e1]; rfl
  · rw [hset] at T3 ⊢
    simp only [addLookups_frames]
    rw [zipIdx_mid]
    exact T3.perm ((List.perm_append_comm).trans (by simpa using List.perm_middle.symm))
  · intro g hg
    simp only [addLookups_frames, hset, List.mem_append, List.mem_cons] at hg
    have : ∀ g, g ∈ a ∨ g ∈ b → ClsOk c g.id g.cls := fun g hg => h.cls g (by
      rw [hf]; rcases hg with hg | hg <;> simp [hg])
    rcases hg with hg | rfl | hg
    · exact this g (.inl hg)
    · exact hx
    · exact this g (.inr hg)
  · have hn := h.nodup
    have hl := h.next
    simp only [addLookups_frames, hset]
    rw [hf] at hn hl
    simp only [List.map_append, List.map_cons] at hn ⊢
    have hn' := hn
    rw [List.perm_middle.nodup_iff, List.nodup_cons] at hn' ⊢
    refine ⟨?_, hn'.2⟩
    rw [← List.map_append]
    intro hm
    obtain ⟨g, hg, e⟩ := List.mem_map.1 hm
    have := hl g (by rcases List.mem_append.1 hg with hg | hg <;> simp [hg])
    exact absurd e (Nat.ne_of_lt this)
  · intro g hg
    simp only [addLookups_frames, addLookups_next, hset, n1, alloc] at hg ⊢
    simp only [List.mem_append, List.mem_cons] at hg
    have hl := h.next
    rw [hf] at hl
    rcases hg with hg | rfl | hg
    · exact Nat.lt_succ_of_lt (hl g (by simp [hg]))
    · exact Nat.lt_succ_self _
    · exact Nat.lt_succ_of_lt (hl g (by simp [hg]))
  · simp [hset]

theorem inv_prefix {c : Cfg} {t t' : LTag} (h : Inv c t) {a b : List Fr} (hf : t.frames = a ++ b)
    (T : Tables t' a.zipIdx) (f' : t'.frames = a) (n' : t'.next = t.next) : Inv c t' := by
  refine ⟨f' ▸ T, ?_, ?_, ?_⟩
  · intro g hg; exact h.cls g (by rw [hf]; rw [f'] at hg; simp [hg])
  · have := h.nodup; rw [hf, List.map_append, List.nodup_append] at this
    rw [f']; exact this.1
  · intro g hg; rw [n']; exact h.next g (by rw [hf]; rw [f'] at hg; simp [hg])

theorem removeRange_spec {c : Cfg} : ∀ (b : List Fr) (t : LTag) (a : List Fr) (L : List (Fr × Nat)),
    Tables t (L ++ b.zipIdx a.length) → t.frames = a ++ b → (∀ f ∈ b, f.cls = stdCls c f.id) →
    (∀ x ∈ L, x.2 < a.length) →
    ∃ t', removeRange c t a.length b.length = .ok t' ∧ Tables t' L ∧ t'.frames = t.frames ∧ t'.next = t.next
  | [], t, a, L, hT, _, _, _ => ⟨t, rfl, by simpa using hT, rfl, rfl⟩
  | f :: b, t, a, L, hT, hf, hc, hL => by
    rw [List.zipIdx_cons] at hT
    obtain ⟨t1, e1, T1, f1, n1⟩ := remove (c := c) (hT.perm List.perm_middle) (by simp [hf])
      (hc f (by simp)) (by
        intro x hx
        rcases List.mem_append.1 hx with hx | hx
        · have := hL x hx; omega
        · have := zipIdx_ge hx; omega)
    obtain ⟨t2, e2, T2, f2, n2⟩ := removeRange_spec (c := c) b t1 (a ++ [f]) L (by simpa using T1)
      (by rw [f1, hf]; simp) (fun g hg => hc g (by simp [hg])) (fun x hx => by
        have := hL x hx; simp; omega)
    refine ⟨t2, ?_, T2, f2.trans f1, n2.trans n1⟩
    simp only [List.length_cons, removeRange, hf, List.getElem?_append_right (Nat.le_refl _), Nat.sub_self,
      List.getElem?_cons_zero]
    rw [e1]
    simpa using e2

/-! What the accessors answer. -/

theorem mfind_none {c : Cfg} {m : List (Bytes × Nat)} {k : Bytes} :
    mfind c m k = none ↔ ∀ e ∈ m, e.1 ≠ k := by
  unfold mfind
  cases c.newest <;> simp

theorem mfind_some {c : Cfg} {m : List (Bytes × Nat)} {k : Bytes} {v : Nat} (h : mfind c m k = some v) :
    (k, v) ∈ m := by
  unfold mfind at h
  simp only [Option.map_eq_some_iff] at h
  obtain ⟨e, he, rfl⟩ := h
  have h1 := List.find?_some he
  have h2 := List.mem_of_find?_eq_some he
  have : e ∈ m := by cases hb : c.newest <;> simpa [hb] using h2
  simp only [decide_eq_true_eq] at h1
  rw [← h1]; exact this

theorem mem_zip {l : List Fr} {f : Fr} {i : Nat} : (f, i) ∈ l.zipIdx ↔ l[i]? = some f := by
  simp [List.mem_zipIdx_iff_getElem?]

theorem deref_spec {c : Cfg} {t : LTag} (h : Inv c t) {f : Fr} (hf : f ∈ t.frames) : t.deref f.ptr = .ok f := by
  have key : ∀ l : List Fr, (l.map Fr.ptr).Nodup → f ∈ l → l.find? (fun g => g.ptr = f.ptr) = some f := by
    intro l
    induction l with
    | nil => simp
    | cons g l ih =>
      intro hn hm
      rw [List.map_cons, List.nodup_cons] at hn
      rcases List.mem_cons.1 hm with rfl | hm
      · simp
      · have : g.ptr ≠ f.ptr := fun e => hn.1 (e ▸ List.mem_map_of_mem hm)
        simp [this, ih hn.2 hm]
  unfold deref
  rw [key _ h.nodup hf]

theorem fst_zipIdx {α : Type} (l : List α) (k : Nat) : (l.zipIdx k).map Prod.fst = l := by
  induction l generalizing k with
  | nil => rfl
  | cons a l ih => simp [List.zipIdx_cons, ih]

theorem has_spec {c : Cfg} {t : LTag} (h : Inv c t) (id : Bytes) :
    t.hasFrame id = (contents t).countP fun x => x.id = id := by
  unfold hasFrame contents
  rw [h.tables.frame.countP_eq, fm, List.countP_map, List.countP_map]
  conv => rhs; rw [← fst_zipIdx t.frames 0, List.countP_map]
  rfl

theorem mfind_frame {c : Cfg} {t : LTag} (h : Inv c t) {id : Bytes} {i : Nat} (hm : mfind c t.frameMap id = some i) :
    ∃ f, t.frames[i]? = some f ∧ f.id = id := by
  have := h.tables.frame.mem_iff.1 (mfind_some hm)
  simp only [fm, List.mem_map, Prod.mk.injEq] at this
  obtain ⟨⟨f, j⟩, hx, e1, e2⟩ := this
  simp only at e1 e2
  subst e2
  exact ⟨f, mem_zip.1 hx, e1⟩

theorem mfind_frame_none {c : Cfg} {t : LTag} (h : Inv c t) {id : Bytes} (hm : mfind c t.frameMap id = none) :
    ∀ f ∈ t.frames, f.id ≠ id := by
  intro f hf e
  obtain ⟨i, hi⟩ := List.getElem?_of_mem hf
  exact mfind_none.1 hm (f.id, i) (h.tables.frame.mem_iff.2 (List.mem_map.2 ⟨(f, i), mem_zip.2 hi, rfl⟩)) e

theorem mfind_text {c : Cfg} {t : LTag} (h : Inv c t) {id : Bytes} {p : Nat} (hm : mfind c t.textMap id = some p) :
    ∃ f ∈ t.frames, f.id = id ∧ f.cls = .text ∧ f.ptr = p := by
  have := h.tables.text.mem_iff.1 (mfind_some hm)
  simp only [tm, List.mem_map, List.mem_filter, Prod.mk.injEq, decide_eq_true_eq] at this
  obtain ⟨⟨f, j⟩, ⟨hx, hc⟩, e1, e2⟩ := this
  exact ⟨f, List.mem_of_getElem? (mem_zip.1 hx), e1, hc, e2⟩

theorem mfind_text_none {c : Cfg} {t : LTag} (h : Inv c t) {id : Bytes} (hm : mfind c t.textMap id = none) :
    ∀ f ∈ t.frames, f.id = id → f.cls ≠ .text := by
  intro f hf e hc
  obtain ⟨i, hi⟩ := List.getElem?_of_mem hf
  refine mfind_none.1 hm (f.id, f.ptr) (h.tables.text.mem_iff.2 ?_) e
  exact List.mem_map.2 ⟨(f, i), List.mem_filter.2 ⟨mem_zip.2 hi, by simpa using hc⟩, rfl⟩

/-- The data of the frame at an address. -/
def dataAt (t : LTag) (p : Nat) : Bytes := match t.deref p with | .ok f => f.data | _ => []

theorem derefAll_spec {c : Cfg} {t : LTag} (h : Inv c t) : ∀ l : List (Nat × Nat),
    (∀ x ∈ l, ∃ f ∈ t.frames, f.ptr = x.1) → derefAll t l = .ok (l.map fun x => dataAt t x.1)
  | [], _ => rfl
  | x :: l, hl => by
    obtain ⟨f, hf, e⟩ := hl x (by simp)
    simp only [derefAll, ← e, deref_spec h hf, Res.ok_bind, derefAll_spec h l (fun y hy => hl y (by simp [hy])),
      List.map_cons, dataAt]

theorem table_spec {c : Cfg} {t : LTag} (h : Inv c t) {k : Cls} {l : List (Nat × Nat)}
    (hl : l.Perm (cm k t.frames.zipIdx)) :
    ∃ r, derefAll t l = .ok r ∧ r.Perm (dataOf k (contents t)) := by
  refine ⟨_, derefAll_spec h l ?_, ?_⟩
  · intro x hx
    have := hl.mem_iff.1 hx
    simp only [cm, List.mem_map, List.mem_filter] at this
    obtain ⟨⟨f, i⟩, ⟨hm, _⟩, rfl⟩ := this
    exact ⟨f, List.mem_of_getElem? (mem_zip.1 hm), rfl⟩
  · refine (hl.map _).trans (List.Perm.of_eq ?_)
    have key : ∀ (L : List Fr) (j : Nat), (∀ f ∈ L, f ∈ t.frames) →
        (cm k (L.zipIdx j)).map (fun x => dataAt t x.1) =
        dataOf k (L.map fun f => (⟨f.id, f.cls, f.data⟩ : Item)) := by
      intro L
      induction L with
      | nil => intros; rfl
      | cons f L ih =>
        intro j hm
        have := ih (j + 1) (fun g hg => hm g (by simp [hg]))
        simp only [cm, dataOf, List.zipIdx_cons, List.map_cons, List.filter_cons] at this ⊢
        by_cases e : f.cls = k
        · simp only [e, decide_true, if_true, List.map_cons, this]
          simp [dataAt, deref_spec h (hm f (by simp))]
        · simp [e, this]
    exact key t.frames 0 (fun f hf => hf)

theorem answers {c : Cfg} {t : LTag} (h : Inv c t) : Answers c t := by
  refine ⟨has_spec h, ?_, ?_, table_spec h h.tables.com, table_spec h h.tables.cnt, table_spec h h.tables.pop⟩
  · rintro id ⟨x, hx, e⟩
    obtain ⟨f, hf, rfl⟩ := List.mem_map.1 hx
    cases hm : mfind c t.frameMap id with
    | none => exact absurd e (mfind_frame_none h hm f hf)
    | some i =>
      obtain ⟨g, hg, eg⟩ := mfind_frame h hm
      exact ⟨g, List.mem_of_getElem? hg, eg, by simp [getFrame, hm, hg]⟩
  · intro id
    cases hm : mfind c t.textMap id with
    | none =>
      refine .inr ⟨?_, by simp [textOf, hm]⟩
      intro x hx e
      obtain ⟨f, hf, rfl⟩ := List.mem_map.1 hx
      exact mfind_text_none h hm f hf e
    | some p =>
      obtain ⟨f, hf, e1, e2, rfl⟩ := mfind_text h hm
      exact .inl ⟨_, List.mem_map.2 ⟨f, hf, rfl⟩, e1, e2, by simp [textOf, hm, deref_spec h hf]⟩

theorem stdCls_cnt {c : Cfg} {id : Bytes} : stdCls c id = .cnt ↔ id = c.cntId := by
  have : c.cntId ≠ c.comId := by cases h : c.ver <;> simp [Cfg.cntId, Cfg.comId, h]
  unfold stdCls
  constructor
  · intro h
    by_cases e1 : id = c.comId
    · simp [e1] at h
    · by_cases e2 : id = c.cntId
      · exact e2
      · by_cases e3 : id = c.popId
        · rw [if_neg e1, if_neg e2, if_pos e3] at h; cases h
        · rw [if_neg e1, if_neg e2, if_neg e3] at h
          by_cases e4 : id.head? = some 84 <;> simp [e4] at h
  · rintro rfl
    simp [this]

theorem play {c : Cfg} {t : LTag} (h : Inv c t) (hv : c.ver ≠ .v4) : PlayAnswers c t := by
  intro d hd
  obtain ⟨r, hr, pr⟩ := table_spec h h.tables.cnt
  rw [hd] at pr
  have hr1 : r = [d] := List.perm_singleton.1 pr
  have hid : c.hasCntId = c.cntId := by
    cases e : c.ver <;> simp_all [Cfg.hasCntId]
  have hcnt : t.hasFrame c.hasCntId = 1 := by
    rw [has_spec h, hid]
    have : (contents t).countP (fun x => decide (x.id = c.cntId)) =
        (contents t).countP (fun x => decide (x.cls = .cnt)) := by
      apply List.countP_congr
      intro x hx
      obtain ⟨f, hf, rfl⟩ := List.mem_map.1 hx
      have hc := h.cls f hf
      simp only [decide_eq_true_eq]
      constructor
      · intro e
        have := stdCls_cnt.2 e
        rcases hc with hc | ⟨_, hc⟩
        · rw [hc, this]
        · rw [this] at hc; cases hc
      · intro e
        rcases hc with hc | ⟨hc, _⟩
        · exact stdCls_cnt.1 (hc ▸ e)
        · rw [hc] at e; cases e
    rw [this, List.countP_eq_length_filter]
    have := congrArg List.length hd
    simpa [dataOf] using this
  simp only [playCount, hcnt]
  cases hc : t.cnts with
  | nil => rw [hc, derefAll] at hr; rw [hr1] at hr; cases hr
  | cons x l =>
    rw [hc, derefAll] at hr
    obtain ⟨f, e1, hr⟩ := Res.bind_eq_ok.1 hr
    obtain ⟨r', e2, hr⟩ := Res.bind_eq_ok.1 hr
    simp only [Res.ok.injEq] at hr
    rw [hr1] at hr
    simp only [List.cons.injEq] at hr
    simp [e1, hr.1]

end Lookup

end Scribbu
