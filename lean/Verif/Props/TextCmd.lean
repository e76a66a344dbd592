import Verif.Proofs.TextCmd
import Verif.Props.Copies

/-! C85: setting and deleting text frames. C86: ID3v1 tags with them. C87: the options of `text`. -/

namespace Scribbu.Props
open Scribbu Commands Process Spec LTag Lookup

/-! ## C85: the ID3v2 tags -/

/-- Only identifiers that begin with T are taken for text frames. -/
def SaneParser (c : Cfg) : Prop := ∀ id, c.textParser id = true → id.head? = some 84

theorem read_inv {t : Tg} (h : ReadTag t) (hp : SaneParser t.cfg) : Inv t.cfg t.tag := by
  obtain ⟨l, e⟩ := h
  rw [e]
  unfold tagOf
  simp only
  generalize hc : t.cfg = c at hp
  have key : ∀ (l : List (Bytes × Bytes)) (t : LTag), Inv c t → Inv c (l.foldl (fun t x => t.parseFrame c x.1 x.2) t) := by
    intro l
    induction l with
    | nil => intro t h; exact h
    | cons x l ih =>
      intro t h
      refine ih _ ?_
      refine inv_push (a := ⟨readCls c x.1, readCls c x.1, x.1, x.2⟩) h rfl (readCls_ok ?_)
      intro hr
      unfold readCls at hr
      unfold stdCls
      split at hr
      · cases hr
      · split at hr
        · cases hr
        · split at hr
          · cases hr
          · split at hr
            · rename_i h1 h2 h3 h4
              rw [if_neg h1, if_neg h2, if_neg h3, if_pos (hp _ h4)]
            · cases hr
  exact key l _ (inv_empty c)

/-- C85, in full: whatever the frames of a tag read from a file, `text` deletes the frames named and sets the texts given, and nothing
else. -/
def C85_claim : Prop :=
  ∀ (C : Conv) (dels : List TextFrame) (adds : List (TextFrame × Bytes)) (t : Tg), ReadTag t → SaneParser t.cfg →
    Askable C t.cfg.ver dels adds → ∃ t', textTag C dels adds t = .ok (true, t') ∧ TextsDone C dels adds t t'

theorem cfg_sane (v : Ver) : SaneParser (cfg v) := by
  intro id h
  simp only [cfg, List.contains_iff_mem] at h
  have key : ∀ id ∈ textTable v, id.head? = some 84 := by cases v <;> decide +kernel
  exact key id h

/-- A tag with a title and an artist. -/
def twoTexts (v : Ver) : Tg := tagOf (cfg v) [(tit v, [65]), (tpe v, [66])]

/-- Asked to delete the title and the artist of a tag that has just these, in this order: undefined. -/
theorem C85_refuted_both (v : Ver) (C : Conv) (adds : List (TextFrame × Bytes)) :
    textTag C [.tit2, .tpe1] adds (twoTexts v) = .ub .oobRead := by
  have : deleteAll [.tit2, .tpe1] (twoTexts v) = .ub .oobRead := by cases v <;> rfl
  unfold textTag
  rw [this]
  rfl

theorem v3_known (f : TextFrame) : ∃ id, frameId .v3 f = .ok id := by cases f <;> exact ⟨_, rfl⟩

theorem C85_refuted : ¬ C85_claim := by
  intro h
  obtain ⟨t', e, -⟩ := h plainConv [.tit2, .tpe1] [] (twoTexts .v3) ⟨_, rfl⟩ (cfg_sane .v3)
    ⟨fun f _ => v3_known f, by simp, by simp⟩
  rw [C85_refuted_both] at e
  cases e

theorem same_ptr {x y : Fr} {l : List Fr} (h : (l.map Fr.ptr).Nodup) (hx : x ∈ l) (hy : y ∈ l) (e : x.ptr = y.ptr) : x = y := by
  have h1 := find_ptr h hx
  have h2 := find_ptr h hy
  rw [e, h2] at h1
  injection h1 with h1
  exact h1.symm

/-- In general: two frames, each the only one of its name, cannot be deleted one after the other in the order in which they are in the
tag, whatever else is in the tag and is asked for. -/
theorem C85_refuted_order (C : Conv) (f g : TextFrame) (dels : List TextFrame) (adds : List (TextFrame × Bytes)) (t : Tg) (hr : ReadTag t)
    (hp : SaneParser t.cfg) (a b d : List Item) (x y : Item) (hc : contents t.tag = a ++ x :: (b ++ y :: d))
    (hf : frameId t.cfg.ver f = .ok x.id) (hg : frameId t.cfg.ver g = .ok y.id) (hx : x.cls = .text) (hy : y.cls = .text)
    (hxy : x.id ≠ y.id) (hu : ∀ z, z ∈ a ∨ z ∈ b ∨ z ∈ d → z.id ≠ x.id ∧ z.id ≠ y.id) (r : Bool × Tg) :
    textTag C (f :: g :: dels) adds t ≠ .ok r := by
  have hI := read_inv hr hp
  obtain ⟨c, t⟩ := t
  simp only at hI hc hf hg hp
  unfold contents at hc
  obtain ⟨A, l1, e1, ea, e2⟩ := List.map_eq_append_iff.1 hc
  obtain ⟨X, l2, e3, ex, e4⟩ := List.map_eq_cons_iff.1 e2
  obtain ⟨B, l3, e5, eb, e6⟩ := List.map_eq_append_iff.1 e4
  obtain ⟨Y, D, e7, ey, ed⟩ := List.map_eq_cons_iff.1 e6
  subst e3 e5 e7 ea ex eb ey ed
  have hall : ∀ z : Fr, z ∈ A ∨ z ∈ B ∨ z ∈ D → z.id ≠ X.id ∧ z.id ≠ Y.id := by
    intro z hz
    have := hu ⟨z.id, z.cls, z.data⟩ (by
      rcases hz with hz | hz | hz
      · exact .inl (List.mem_map.2 ⟨z, hz, rfl⟩)
      · exact .inr (.inl (List.mem_map.2 ⟨z, hz, rfl⟩))
      · exact .inr (.inr (List.mem_map.2 ⟨z, hz, rfl⟩)))
    exact this
  simp only at hf hg hx hy hxy
  have S0 := stale_of_inv hI
  rw [e1] at S0
  obtain ⟨t1, d1, S1⟩ := stale_delete (c := c) S0 (by rw [hx, frameId_text hf]) (by
    intro z hz
    simp only [List.mem_append, List.mem_cons, List.not_mem_nil, or_false] at hz
    rcases hz with hz | hz | rfl | hz
    · exact (hall z (.inl hz)).1
    · exact (hall z (.inr (.inl hz))).1
    · exact Ne.symm hxy
    · exact (hall z (.inr (.inr hz))).1)
  simp only [List.append_nil] at S1
  have T1 := stale_tinv S1
  have hm : mfind c t1.frameMap Y.id = some (A.length + 1 + B.length) := by
    cases hm : mfind c t1.frameMap Y.id with
    | none =>
      refine absurd rfl (mfind_none.1 hm (Y.id, A.length + 1 + B.length) (S1.tables.frame.mem_iff.2 ?_))
      simp [fm, List.zipIdx_append, List.zipIdx_cons]
    | some j =>
      have := S1.tables.frame.mem_iff.1 (mfind_some hm)
      simp only [fm, List.mem_map] at this
      obtain ⟨⟨z, k⟩, hz, e⟩ := this
      simp only [Prod.mk.injEq] at e
      obtain ⟨e, rfl⟩ := e
      simp only [List.zipIdx_append, List.zipIdx_cons, List.mem_append, List.mem_cons] at hz
      rcases hz with hz | hz | hz | hz
      · exact absurd e (hall z (.inl (mem_zipIdx_fst hz))).2
      · exact absurd e (hall z (.inr (.inl (mem_zipIdx_fst hz)))).2
      · simp only [Prod.mk.injEq] at hz; rw [hz.2]
      · exact absurd e (hall z (.inr (.inr (mem_zipIdx_fst hz)))).2
  have hst := frameId_text hg
  have hne : Y.id ≠ c.comId ∧ Y.id ≠ c.cntId ∧ Y.id ≠ c.popId ∧ isTextId Y.id = true := by
    unfold stdCls at hst
    split at hst
    · cases hst
    · split at hst
      · cases hst
      · split at hst
        · cases hst
        · split at hst
          · rename_i h1 h2 h3 h4; exact ⟨h1, h2, h3, by simpa [isTextId] using h4⟩
          · cases hst
  have hdel : ∀ t2, t1.deleteFrame c Y.id ≠ .ok t2 := by
    intro t2 h2
    simp only [deleteFrame, hm] at h2
    obtain ⟨t3, h3, -⟩ := res_bind_ok h2
    obtain ⟨t4, h4, -⟩ := res_bind_ok h3
    unfold removeTyped at h4
    rw [if_neg hne.1, if_neg hne.2.1, if_neg hne.2.2.1, if_pos hne.2.2.2] at h4
    have hget : t1.frames[A.length + 1 + B.length]? = D.head? := by
      rw [S1.frames, List.getElem?_append_right (by omega), List.getElem?_append_right (by omega),
        show A.length + 1 + B.length - A.length - B.length = 1 by omega]
      cases D <;> rfl
    rw [hget] at h4
    cases D with
    | nil => cases h4
    | cons z D =>
      simp only [List.head?_cons] at h4
      by_cases hz : (Y.id, z.ptr) ∈ t1.textMap
      · obtain ⟨w, hw, ew1, ew2, -⟩ := T1.texts _ hz
        have hzm : z ∈ t1.frames := by rw [S1.frames]; simp
        have := same_ptr T1.nodup hw hzm ew1
        subst this
        exact (hall w (.inr (.inr (by simp)))).2 ew2
      · rw [if_neg hz] at h4
        cases hv : c.ver <;> rw [hv] at h4 <;> cases h4
  intro h
  unfold textTag at h
  obtain ⟨t2, h2, -⟩ := res_bind_ok h
  have hd1 : (⟨c, t⟩ : Tg).delete f = .ok ⟨c, t1⟩ := by simp only [Tg.delete, hf, Res.ok_bind, d1]
  simp only [deleteAll, hd1, Res.ok_bind] at h2
  obtain ⟨t3, h3, -⟩ := res_bind_ok h2
  simp only [Tg.delete, hg, Res.ok_bind] at h3
  obtain ⟨l, h4, -⟩ := res_bind_ok h3
  exact hdel l h4

/-- The hypotheses are met by a tag of a title, a comment, an artist and an album. -/
example : ∃ x y : Item, contents (tagOf (cfg .v3) [(tit .v3, [65]), ([67, 79, 77, 77], [1]), (tpe .v3, [66]), ([84, 65, 76, 66], [67])]).tag =
    [] ++ x :: ([⟨[67, 79, 77, 77], .com, [1]⟩] ++ y :: [⟨[84, 65, 76, 66], .text, [67]⟩]) ∧ frameId .v3 .tit2 = .ok x.id ∧
    frameId .v3 .tpe1 = .ok y.id ∧ x.cls = .text ∧ y.cls = .text := ⟨⟨_, .text, _⟩, ⟨_, .text, _⟩, rfl, rfl, rfl, rfl, rfl⟩

/-- Of several frames of one name, one goes and the others stay. -/
theorem C85_refuted_several : ∃ t', textTag plainConv [.tenc] [] (tagOf (cfg .v3) [([84, 69, 78, 67], [65]), (tit .v3, [66]),
    ([84, 69, 78, 67], [67])]) = .ok (true, t') ∧ contents t'.tag = [⟨tit .v3, .text, [66]⟩, ⟨[84, 69, 78, 67], .text, [67]⟩] ∧
    ¬ TextsDone plainConv [.tenc] [] (tagOf (cfg .v3) [([84, 69, 78, 67], [65]), (tit .v3, [66]), ([84, 69, 78, 67], [67])]) t' := by
  refine ⟨_, rfl, by decide, ?_⟩
  intro h
  exact h.gone .tenc (by simp) (by simp) [84, 69, 78, 67] rfl ⟨[84, 69, 78, 67], .text, [67]⟩ (by decide) rfl

/-- A frame that ID3v2.2 tags cannot have (according to the tables; the standard has it) cannot be asked for, though it be only to
delete it if present: the file as a whole fails. -/
theorem C85_refuted_v22 (C : Conv) (dels : List TextFrame) (adds : List (TextFrame × Bytes)) (t : Tg) (hv : t.cfg.ver = .v2) :
    textTag C (.tory :: dels) adds t = .throw .unknownFrame := by
  unfold textTag
  simp only [deleteAll, Tg.delete, hv, frameId, TextFrame.id3]
  rfl

example : (.tory, [84, 79, 82]) ∈ Spec.stdId3 := by decide

/-- The part of C85 that holds: the frames named and given are of the class of text frames; of each that is to be deleted there is at most
one; and those there are, are named in the opposite order to that in which they are in the tag. -/
theorem C85_partial (C : Conv) (dels : List TextFrame) (adds : List (TextFrame × Bytes)) (t : Tg) (hr : ReadTag t)
    (hp : SaneParser t.cfg) (ha : Askable C t.cfg.ver dels adds) (ho : BackToFront t.cfg.ver dels (contents t.tag))
    (hc : ∀ x ∈ contents t.tag, Named t.cfg.ver (dels ++ adds.map Prod.fst) x.id → x.cls = .text) :
    ∃ t', textTag C dels adds t = .ok (true, t') ∧ TextsDone C dels adds t t' := by
  have hI := read_inv hr hp
  obtain ⟨c, t⟩ := t
  simp only at hI hp ha ho hc
  have hN : ∀ id, Named c.ver (dels ++ adds.map Prod.fst) id ↔ Named c.ver dels id ∨ Named c.ver (adds.map Prod.fst) id := by
    intro id
    constructor
    · rintro ⟨f, hf, e⟩
      rcases List.mem_append.1 hf with hf | hf
      · exact .inl ⟨f, hf, e⟩
      · exact .inr ⟨f, hf, e⟩
    · rintro (⟨f, hf, e⟩ | ⟨f, hf, e⟩)
      · exact ⟨f, List.mem_append_left _ hf, e⟩
      · exact ⟨f, List.mem_append_right _ hf, e⟩
  have toItems : ∀ f g, NoneAfter c.ver (contents t) f g →
      ∀ a1 x a2, t.frames = a1 ++ x :: a2 → frameId c.ver f = .ok x.id → ∀ y ∈ a2, frameId c.ver g ≠ .ok y.id := by
    intro f g h a1 x a2 e hx y hy
    exact h _ ⟨x.id, x.cls, x.data⟩ (a2.map fun f => ⟨f.id, f.cls, f.data⟩) (by rw [contents, e]; simp; rfl) hx ⟨y.id, y.cls, y.data⟩
      (List.mem_map.2 ⟨y, hy, rfl⟩)
  obtain ⟨t1, e1, T1, f1⟩ := deleteAll_stale (c := c) dels t t.frames [] [] (stale_of_inv hI)
    (fun f hf => ha.known f (List.mem_append_left _ hf))
    (fun g hg hn => hc ⟨g.id, g.cls, g.data⟩ (List.mem_map.2 ⟨g, hg, rfl⟩) ((hN _).2 (.inl hn)))
    (by simp) (fun f hf => toItems f f (ho.1 f hf)) (ho.2.imp (fun {f g} h => toItems f g h))
  have hct : contents t1 = (contents t).filter fun x => ¬ Named c.ver dels x.id := by
    unfold contents
    rw [f1, List.filter_map]
    rfl
  obtain ⟨t2, e2, -, c2, x2, -, r2, n2⟩ := setAll_spec (C := C) adds ⟨c, t1⟩ T1
    (fun f hf => ha.known f (List.mem_append_right _ hf)) ha.once ha.trips (by
      intro y hy hn
      rw [hct] at hy
      exact hc y (List.mem_filter.1 hy).1 ((hN _).2 (.inr hn)))
  simp only at c2 r2 n2
  refine ⟨t2, by simp only [textTag, e1, Res.ok_bind, e2], c2, x2, ?_, ?_, ?_⟩
  · intro f hf hfa id hid y hy e
    have h1 : y ∈ (contents t2.tag).filter fun x => decide (x.id = id) := List.mem_filter.2 ⟨hy, by simpa using e⟩
    rw [r2 _ (by
      intro z hz
      simp only [decide_eq_true_eq] at hz
      rw [hz]
      rintro ⟨g, hg, e⟩
      exact hfa (frameId_inj hid e ▸ hg)), hct] at h1
    have h2 := (List.mem_filter.1 (List.mem_filter.1 h1).1).2
    simp only [decide_eq_true_eq] at h2
    exact h2 ⟨f, hf, by rw [e]; exact hid⟩
  · rw [r2 _ (by
      intro z hz hn
      simp only [decide_eq_true_eq] at hz
      exact hz ((hN _).2 (.inr hn))), hct, List.filter_filter]
    apply List.filter_congr
    intro y _
    simp only [hN, not_or, Bool.decide_and, Bool.and_comm]
    cases decide (¬ Named c.ver dels y.id) <;> cases decide (¬ Named c.ver (adds.map Prod.fst) y.id) <;> rfl
  · intro f hf hfd id hid
    rw [n2 f hf id hid, hct, List.filter_filter]
    congr 2
    apply List.filter_congr
    intro y _
    by_cases e : y.id = id
    · have : ¬ Named c.ver dels y.id := by
        rintro ⟨g, hg, e2⟩
        rw [e] at e2
        exact hfd (frameId_inj hid e2 ▸ hg)
      simp [e, e ▸ this]
    · simp [e]

/-- The hypotheses are met by a tag of a title, a comment, an artist and an album, from which the album and the title are to be deleted
and in which the artist and the year are to be set. -/
example : BackToFront .v3 [.talb, .tit2] (contents (tagOf (cfg .v3) [(tit .v3, [65]), ([67, 79, 77, 77], [1]), (tpe .v3, [66]),
    ([84, 65, 76, 66], [67])]).tag) := by
  have key : ∀ (l : List Item) (f g : TextFrame),
      ((List.range l.length).all fun i => match l[i]? with
        | none => true
        | some x => decide (frameId .v3 f = .ok x.id) → (l.drop (i + 1)).all fun y => decide (frameId .v3 g ≠ .ok y.id)) = true →
      NoneAfter .v3 l f g := by
    intro l f g h a x b e hx y hy
    rw [List.all_eq_true] at h
    have := h a.length (by rw [e]; simp)
    rw [e] at this
    simp only [List.getElem?_append_right (Nat.le_refl _), Nat.sub_self, List.getElem?_cons_zero] at this
    simp only [hx, decide_true, forall_const, decide_eq_true_eq, List.all_eq_true] at this
    have h2 := this y (by simpa using hy)
    exact h2
  refine ⟨?_, ?_⟩
  · intro f hf
    simp only [List.mem_cons, List.not_mem_nil, or_false] at hf
    rcases hf with rfl | rfl <;> exact key _ _ _ (by decide +kernel)
  · simp only [List.pairwise_cons, List.mem_singleton, forall_eq, List.not_mem_nil, false_imp_iff, implies_true, List.Pairwise.nil, and_true]
    exact key _ _ _ (by decide +kernel)
example : Askable plainConv .v3 [.talb, .tit2] [(.tpe1, [68]), (.tyer, [50, 48, 50, 48])] :=
  ⟨fun f _ => v3_known f, by decide, fun x _ => ⟨x.2, rfl, rfl⟩⟩
example : ∃ t', textTag plainConv [.talb, .tit2] [(.tpe1, [68]), (.tyer, [50, 48, 50, 48])] (tagOf (cfg .v3) [(tit .v3, [65]),
    ([67, 79, 77, 77], [1]), (tpe .v3, [66]), ([84, 65, 76, 66], [67])]) = .ok (true, t') ∧
    contents t'.tag = [⟨[67, 79, 77, 77], .com, [1]⟩, ⟨tpe .v3, .text, [68]⟩, ⟨[84, 89, 69, 82], .text, [50, 48, 50, 48]⟩] :=
  ⟨_, rfl, by decide⟩

end Scribbu.Props
