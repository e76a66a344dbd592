import Verif.Spec.Exchange
import Verif.Proofs.AgainCmds

/-! Lemmas for C186. -/

namespace Scribbu.Exchange
open Scribbu Commands Process Spec LTag Lookup Again

/-- The first or the last frame of a name gets new contents; if there is none, there is one now. -/
def put1 (newest : Bool) (id d : Bytes) (l : List Item) : List Item :=
  if l = [] then [⟨id, .text, d⟩]
  else if newest then l.dropLast ++ [⟨id, .text, d⟩] else ⟨id, .text, d⟩ :: l.tail

/-- Frames of a name. -/
def sel (id : Bytes) (l : List Item) : List Item := l.filter fun x => decide (x.id = id)

theorem mfind_first {c : Cfg} {t : LTag} (h : Neat c t) (id : Bytes) : mfind c t.textMap id = ((if c.newest then t.frames.reverse else t.frames).find?
    fun f => decide (f.cls = .text) && decide (f.id = id)).map Fr.ptr := by
  have key : ∀ l : List Fr, ((l.filter fun f => decide (f.cls = .text)).map fun f => (f.id, f.ptr)).find? (fun e => decide (e.1 = id)) =
      (l.find? fun f => decide (f.cls = .text) && decide (f.id = id)).map fun f => (f.id, f.ptr) := by
    intro l
    rw [List.find?_map, List.find?_filter]
    congr 2
    funext a
    simp
  unfold mfind
  rw [h.texts]
  cases c.newest with
  | true =>
    simp only [if_true]
    rw [← List.map_reverse, ← List.filter_reverse, key, Option.map_map]
    rfl
  | false =>
    simp only [Bool.false_eq_true, if_false]
    rw [key, Option.map_map]
    rfl

theorem sel_append (id : Bytes) (a b : List Item) : sel id (a ++ b) = sel id a ++ sel id b := List.filter_append ..

theorem sel_cons_pos {id : Bytes} {x : Item} (h : x.id = id) (b : List Item) : sel id (x :: b) = x :: sel id b := by
  unfold sel
  rw [List.filter_cons_of_pos]
  simpa using h

theorem sel_cons_neg {id : Bytes} {x : Item} (h : x.id ≠ id) (b : List Item) : sel id (x :: b) = sel id b := by
  unfold sel
  rw [List.filter_cons_of_neg]
  simpa using h

theorem setText_named {c : Cfg} {t t' : LTag} (h : Neat c t) {id d : Bytes} (hc : readCls c id = .text) (hs : t.setText c id d = .ok t') :
    sel id (contents t') = put1 c.newest id d (sel id (contents t)) ∧ ∀ id', id' ≠ id → sel id' (contents t') = sel id' (contents t) := by
  have txt : ∀ f ∈ t.frames, f.id = id → f.cls = .text := fun f hf e => by rw [h.cls f hf, e, hc]
  have repl : ∀ a f b, t.frames = a ++ f :: b → (t.frames.map fun g => if g.ptr = f.ptr then { g with data := d } else g) = a ++ { f with data := d } :: b := by
    intro a f b e
    have hn := h.nodup
    rw [e, List.map_append, List.map_cons, List.perm_middle.nodup_iff, List.nodup_cons] at hn
    have hne : ∀ g, g ∈ a ∨ g ∈ b → g.ptr ≠ f.ptr := by
      intro g hg eq
      refine hn.1 ?_
      rw [← eq, ← List.map_append]
      exact List.mem_map_of_mem (List.mem_append.2 hg)
    rw [e, List.map_append, List.map_cons, if_pos rfl]
    congr 1
    · conv => rhs; rw [← List.map_id a]
      exact List.map_congr_left fun g hg => if_neg (hne g (.inl hg))
    · congr 1
      conv => rhs; rw [← List.map_id b]
      exact List.map_congr_left fun g hg => if_neg (hne g (.inr hg))
  have none : ∀ a : List Fr, (∀ x ∈ a, x ∈ t.frames) → (∀ x ∈ a, (!(decide (x.cls = .text) && decide (x.id = id))) = true) → sel id (a.map itemOf) = [] := by
    intro a ha hx
    unfold sel
    rw [List.filter_eq_nil_iff]
    intro y hy
    obtain ⟨g, hg, rfl⟩ := List.mem_map.1 hy
    intro e
    have e : g.id = id := of_decide_eq_true e
    have := hx g hg
    rw [txt g (ha g hg) e, e] at this
    simp at this
  unfold LTag.setText at hs
  rw [mfind_first h] at hs
  cases hf : (if c.newest then t.frames.reverse else t.frames).find? fun f => decide (f.cls = .text) && decide (f.id = id) with
  | none =>
    rw [hf] at hs
    cases hs
    have he : sel id (contents t) = [] := by
      apply none t.frames (fun _ h => h)
      rw [List.find?_eq_none] at hf
      intro x hx
      have := hf x (by cases c.newest <;> simpa using hx)
      rw [Bool.not_eq_true] at this
      rw [this]
      rfl
    rw [contents_push]
    refine ⟨?_, ?_⟩
    · rw [sel_append, he, sel_cons_pos (id := id) rfl]
      simp [put1, sel]
    · intro id' hne
      rw [sel_append, sel_cons_neg (fun e => hne e.symm)]
      simp [sel]
  | some f =>
    rw [hf] at hs
    simp only [Option.map_some] at hs
    obtain ⟨g, -, hs⟩ := Props.res_bind_ok hs
    cases hs
    obtain ⟨hp, as, bs, hl, hno⟩ := List.find?_eq_some_iff_append.1 hf
    simp only [Bool.and_eq_true, decide_eq_true_eq] at hp
    have done : ∀ a b : List Fr, t.frames = a ++ f :: b → contents t = a.map itemOf ++ ⟨id, .text, f.data⟩ :: b.map itemOf ∧
        contents ({ t with frames := t.frames.map fun g => if g.ptr = f.ptr then { g with data := d } else g } : LTag) =
          a.map itemOf ++ ⟨id, .text, d⟩ :: b.map itemOf := by
      intro a b e
      constructor
      · show t.frames.map itemOf = _
        rw [e, List.map_append, List.map_cons, itemOf, hp.1, hp.2]
      · show (t.frames.map fun g => if g.ptr = f.ptr then { g with data := d } else g).map itemOf = _
        rw [repl a f b e, List.map_append, List.map_cons, itemOf]
        dsimp only
        rw [hp.1, hp.2]
    have other : ∀ (a b : List Item) (id' : Bytes) (x y : Item), x.id = id → y.id = id → id' ≠ id → sel id' (a ++ x :: b) = sel id' (a ++ y :: b) := by
      intro a b id' x y hx hy hne
      rw [sel_append, sel_append, sel_cons_neg (by rw [hx]; exact fun e => hne e.symm), sel_cons_neg (by rw [hy]; exact fun e => hne e.symm)]
    cases hn : c.newest with
    | false =>
      rw [hn] at hl
      have hl : t.frames = as ++ f :: bs := hl
      obtain ⟨e1, e2⟩ := done as bs hl
      have e0 := none as (fun x hx => by rw [hl]; simp [hx]) hno
      refine ⟨?_, ?_⟩
      · rw [e1, e2, sel_append, sel_append, e0, sel_cons_pos (id := id) (x := ⟨id, .text, d⟩) rfl, sel_cons_pos (id := id) (x := ⟨id, .text, f.data⟩) rfl]
        simp [put1]
      · intro id' hne
        rw [e1, e2]
        exact other _ _ _ _ _ rfl rfl hne
    | true =>
      rw [hn] at hl
      have hl : t.frames.reverse = as ++ f :: bs := hl
      have hl' : t.frames = bs.reverse ++ f :: as.reverse := by
        rw [← List.reverse_reverse t.frames, hl]
        simp
      obtain ⟨e1, e2⟩ := done _ _ hl'
      have e0 := none as.reverse (fun x hx => by rw [hl']; simp at hx; simp [hx]) (fun x hx => hno x (by simpa using hx))
      refine ⟨?_, ?_⟩
      · rw [e1, e2, sel_append, sel_append, sel_cons_pos (id := id) (x := ⟨id, .text, d⟩) rfl, sel_cons_pos (id := id) (x := ⟨id, .text, f.data⟩) rfl, e0]
        simp [put1]
      · intro id' hne
        rw [e1, e2]
        exact other _ _ _ _ _ rfl rfl hne

/-- Every text asked for is put into the frame of its name; the frames of other names are as they were. -/
structure NamedAs (C : Conv) (c : Cfg) (adds : List (TextFrame × Bytes)) (l l' : List Item) : Prop where
  put : ∀ x ∈ adds, ∃ id d, frameId c.ver x.1 = .ok id ∧ C.frameData c.ver x.2 = .ok d ∧ sel id l' = put1 c.newest id d (sel id l)
  rest : ∀ id, (∀ x ∈ adds, frameId c.ver x.1 ≠ .ok id) → sel id l' = sel id l

theorem setAll_named {C : Conv} : ∀ (adds : List (TextFrame × Bytes)) {t t' : Tg}, Neat t.cfg t.tag → KnowsTexts t.cfg → (∀ x ∈ adds, x.1 ∈ settable) →
    (adds.map Prod.fst).Nodup → setAll C adds t = .ok t' → NamedAs C t.cfg adds (contents t.tag) (contents t'.tag)
  | [], t, t', _, _, _, _, e => by
    unfold setAll at e
    cases e
    exact ⟨by simp, fun _ _ => rfl⟩
  | x :: xs, t, t', h, hk, hs, hn, e => by
    unfold setAll at e
    obtain ⟨t1, e1, e⟩ := Props.res_bind_ok e
    obtain ⟨c1, n1, -⟩ := neat_set h hk (hs x (by simp)) e1
    rw [← c1] at n1
    rw [List.map_cons, List.nodup_cons] at hn
    have ih := setAll_named xs (t := t1) n1 (c1.symm ▸ hk) (fun y hy => hs y (List.mem_cons_of_mem _ hy)) hn.2 e
    rw [c1] at ih
    unfold Tg.setText at e1
    obtain ⟨id, i1, e1⟩ := Props.res_bind_ok e1
    obtain ⟨d, d1, e1⟩ := Props.res_bind_ok e1
    obtain ⟨l, l1, e1⟩ := Props.res_bind_ok e1
    cases e1
    obtain ⟨s1, s2⟩ := setText_named h (known_text hk (hs x (by simp)) i1) l1
    refine ⟨?_, ?_⟩
    · intro y hy
      rcases List.mem_cons.1 hy with rfl | hy
      · refine ⟨id, d, i1, d1, ?_⟩
        rw [ih.rest id, s1]
        intro z hz e
        exact hn.1 (frameId_inj e i1 ▸ List.mem_map_of_mem hz)
      · obtain ⟨id', d', a1, a2, a3⟩ := ih.put y hy
        refine ⟨id', d', a1, a2, ?_⟩
        rw [a3, s2 id']
        rintro rfl
        exact hn.1 (frameId_inj a1 i1 ▸ List.mem_map_of_mem hy)
    · intro id' hid
      rw [ih.rest id' fun y hy => hid y (List.mem_cons_of_mem _ hy), s2 id']
      rintro rfl
      exact hid x (by simp) i1

/-- Whether it can be done does not depend on the order. -/
theorem setAll_can {C : Conv} : ∀ (adds : List (TextFrame × Bytes)) {t : Tg}, Neat t.cfg t.tag → KnowsTexts t.cfg → (∀ x ∈ adds, x.1 ∈ settable) →
    (∀ x ∈ adds, ∃ id d, frameId t.cfg.ver x.1 = .ok id ∧ C.frameData t.cfg.ver x.2 = .ok d) → ∃ t', setAll C adds t = .ok t'
  | [], t, _, _, _, _ => ⟨t, rfl⟩
  | x :: xs, t, h, hk, hs, hx => by
    obtain ⟨id, d, e1, e2⟩ := hx x (by simp)
    obtain ⟨l, e3, -⟩ := setText_spec (c := t.cfg) (tinv_of_neat h) id d
    have e : t.setText C x.1 x.2 = .ok ⟨t.cfg, l⟩ := by
      unfold Tg.setText
      rw [e1, Res.ok_bind, e2, Res.ok_bind, e3]
      rfl
    obtain ⟨t', e4⟩ := setAll_can xs (t := ⟨t.cfg, l⟩) (neat_setText h (known_text hk (hs x (by simp)) e1) e3) hk (fun y hy => hs y (List.mem_cons_of_mem _ hy))
      (fun y hy => hx y (List.mem_cons_of_mem _ hy))
    exact ⟨t', by unfold setAll; rw [e, Res.ok_bind, e4]⟩

theorem named_same {C : Conv} {c : Cfg} {a b : List (TextFrame × Bytes)} {l l1 l2 : List Item} (hab : ∀ x, x ∈ a ↔ x ∈ b)
    (h1 : NamedAs C c a l l1) (h2 : NamedAs C c b l l2) (id : Bytes) : sel id l1 = sel id l2 := by
  by_cases h : ∃ x ∈ a, frameId c.ver x.1 = .ok id
  · obtain ⟨x, hx, e⟩ := h
    obtain ⟨i1, d1, a1, a2, a3⟩ := h1.put x hx
    obtain ⟨i2, d2, b1, b2, b3⟩ := h2.put x ((hab x).1 hx)
    rw [e] at a1 b1
    cases a1
    cases b1
    rw [a2] at b2
    cases b2
    rw [a3, b3]
  · rw [h1.rest id fun x hx e => h ⟨x, hx, e⟩, h2.rest id fun x hx e => h ⟨x, (hab x).2 hx, e⟩]

theorem named_trans {C : Conv} {c : Cfg} {a b : List (TextFrame × Bytes)} {l l1 l2 : List Item} (hd : ∀ x ∈ a, ∀ y ∈ b, x.1 ≠ y.1)
    (h1 : NamedAs C c a l l1) (h2 : NamedAs C c b l1 l2) : NamedAs C c (a ++ b) l l2 := by
  refine ⟨?_, ?_⟩
  · intro x hx
    rcases List.mem_append.1 hx with hx | hx
    · obtain ⟨i, d, a1, a2, a3⟩ := h1.put x hx
      exact ⟨i, d, a1, a2, by rw [h2.rest i fun y hy e => hd x hx y hy (frameId_inj a1 e), a3]⟩
    · obtain ⟨i, d, a1, a2, a3⟩ := h2.put x hx
      exact ⟨i, d, a1, a2, by rw [a3, h1.rest i fun y hy e => hd y hy x hx (frameId_inj e a1)]⟩
  · intro id hid
    rw [h2.rest id fun x hx => hid x (List.mem_append.2 (.inr hx)), h1.rest id fun x hx => hid x (List.mem_append.2 (.inl hx))]

theorem ofName_sel (t : Tg) (id : Bytes) : ofName t id = (sel id (contents t.tag)).map fun x => (x.id, x.data) := by
  unfold ofName stored sel
  rw [List.filter_map]
  rfl

theorem sameByName_of {t u : Tg} (h : ∀ id, sel id (contents t.tag) = sel id (contents u.tag)) : SameByName t u := by
  intro id
  rw [ofName_sel, ofName_sel, h]

theorem textTag_sets {C : Conv} {adds : List (TextFrame × Bytes)} {t : Tg} {r : Bool × Tg} : textTag C [] adds t = .ok r ↔ r.1 = true ∧ setAll C adds t = .ok r.2 := by
  unfold textTag deleteAll
  rw [Res.ok_bind]
  constructor
  · intro h
    obtain ⟨t', e, h⟩ := Props.res_bind_ok h
    cases h
    exact ⟨rfl, e⟩
  · rintro ⟨h1, h2⟩
    obtain ⟨b, t'⟩ := r
    cases h1
    rw [h2]
    rfl

/-- Two runs with different frames. -/
theorem two_runs {C : Conv} {a b : List (TextFrame × Bytes)} {t u : Tg} (h : Neat t.cfg t.tag) (hk : KnowsTexts t.cfg) (ha : ∀ x ∈ a, x.1 ∈ settable)
    (hb : ∀ x ∈ b, x.1 ∈ settable) (na : (a.map Prod.fst).Nodup) (nb : (b.map Prod.fst).Nodup) (hd : ∀ x ∈ a, ∀ y ∈ b, x.1 ≠ y.1)
    (e : oneThenOther (textTag C [] a) (textTag C [] b) t = .ok u) : NamedAs C t.cfg (a ++ b) (contents t.tag) (contents u.tag) := by
  unfold oneThenOther at e
  obtain ⟨r, e1, e⟩ := Props.res_bind_ok e
  obtain ⟨q, e2, e⟩ := Props.res_bind_ok e
  cases e
  obtain ⟨-, e1⟩ := textTag_sets.1 e1
  obtain ⟨-, e2⟩ := textTag_sets.1 e2
  obtain ⟨c1, n1, -⟩ := setAll_neat a h hk ha na e1
  rw [← c1] at n1
  have h1 := setAll_named a h hk ha na e1
  have h2 := setAll_named b (t := reread r.2) (neat_reread r.2) (show KnowsTexts r.2.cfg from c1.symm ▸ hk) hb nb e2
  rw [reread_contents (neat_items n1)] at h2
  have h2 : NamedAs C r.2.cfg b (contents r.2.tag) (contents q.2.tag) := h2
  rw [c1] at h2
  exact named_trans hd h1 h2

theorem two_can {C : Conv} {a b : List (TextFrame × Bytes)} {t : Tg} (h : Neat t.cfg t.tag) (hk : KnowsTexts t.cfg) (ha : ∀ x ∈ a, x.1 ∈ settable)
    (hb : ∀ x ∈ b, x.1 ∈ settable) (na : (a.map Prod.fst).Nodup) (hx : ∀ x ∈ a ++ b, ∃ id d, frameId t.cfg.ver x.1 = .ok id ∧ C.frameData t.cfg.ver x.2 = .ok d) :
    ∃ u, oneThenOther (textTag C [] a) (textTag C [] b) t = .ok u := by
  obtain ⟨t1, e1⟩ := setAll_can a h hk ha fun x hx' => hx x (List.mem_append.2 (.inl hx'))
  obtain ⟨c1, n1, -⟩ := setAll_neat a h hk ha na e1
  obtain ⟨t2, e2⟩ := setAll_can b (t := reread t1) (neat_reread t1) (show KnowsTexts t1.cfg from c1.symm ▸ hk) hb
    (by show ∀ x ∈ b, ∃ id d, frameId t1.cfg.ver x.1 = .ok id ∧ C.frameData t1.cfg.ver x.2 = .ok d; rw [c1]; exact fun x hx' => hx x (List.mem_append.2 (.inr hx')))
  refine ⟨t2, ?_⟩
  unfold oneThenOther
  rw [(textTag_sets (r := (true, t1))).2 ⟨rfl, e1⟩, Res.ok_bind, (textTag_sets (r := (true, t2))).2 ⟨rfl, e2⟩]
  rfl

end Scribbu.Exchange
