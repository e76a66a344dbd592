import Verif.Proofs.Commands
import Verif.Props.Commands
import Verif.Props.Tables
import Verif.Spec.TextCmd

/-! Deleting several frames of a tag one after the other, and setting several texts. -/

namespace Scribbu.Commands
open Scribbu LTag Spec Lookup

theorem frameId_inj {v : Ver} {f g : TextFrame} {id : Bytes} (h1 : frameId v f = .ok id) (h2 : frameId v g = .ok id) : f = g := by
  cases v with
  | v2 => exact Props.C45_distinct_partial f g id (.inr (.inr h1)) (.inr (.inr h2))
  | v3 => exact Props.C45_distinct_partial f g id (.inr (.inl h1)) (.inr (.inl h2))
  | v4 => exact Props.C45_distinct_partial f g id (.inr (.inl h1)) (.inr (.inl h2))

theorem frameId_text {c : Cfg} {f : TextFrame} {id : Bytes} (h : frameId c.ver f = .ok id) : stdCls c id = .text := by
  obtain ⟨v, n, p⟩ := c
  have key : ∀ v : Ver, ∀ f ∈ TextFrame.all, ∀ id, frameId v f = .ok id → stdCls ⟨v, n, p⟩ id = .text := by
    intro v f hf id h
    cases v <;> cases f <;> simp only [frameId, TextFrame.id3, TextFrame.id4, Res.ok.injEq, reduceCtorEq] at h <;> subst h <;> rfl
  exact key v f (Props.TextFrame.mem_all f) id h

/-- The tables agree with the frames `a` at the start of the tag; the other frames, `b`, are known under places further on than they are. -/
structure Stale (t : LTag) (a b : List Fr) (L : List (Fr × Nat)) : Prop where
  frames : t.frames = a ++ b
  tables : Tables t (a.zipIdx ++ L)
  fst : L.map Prod.fst = b
  far : ∀ x ∈ L, a.length < x.2
  nodup : (t.frames.map Fr.ptr).Nodup
  below : ∀ f ∈ t.frames, f.ptr < t.next

theorem stale_of_inv {c : Cfg} {t : LTag} (h : Inv c t) : Stale t t.frames [] [] :=
  ⟨by simp, by simpa using h.tables, rfl, by simp, h.nodup, h.next⟩

theorem stale_tinv {t : LTag} {a b : List Fr} {L : List (Fr × Nat)} (h : Stale t a b L) : TInv t := by
  have hmem : ∀ f, f ∈ t.frames ↔ ∃ i, (f, i) ∈ a.zipIdx ++ L := by
    intro f
    rw [h.frames, List.mem_append, ← h.fst]
    constructor
    · rintro (h1 | h1)
      · obtain ⟨i, hi⟩ := List.getElem?_of_mem h1
        exact ⟨i, List.mem_append_left _ (mem_zip.2 hi)⟩
      · obtain ⟨⟨g, i⟩, h2, rfl⟩ := List.mem_map.1 h1
        exact ⟨i, List.mem_append_right _ h2⟩
    · rintro ⟨i, h1⟩
      rcases List.mem_append.1 h1 with h1 | h1
      · exact .inl (List.mem_of_getElem? (mem_zip.1 h1))
      · exact .inr (List.mem_map.2 ⟨_, h1, rfl⟩)
  refine ⟨h.nodup, h.below, ?_, ?_⟩
  · intro e he
    have := h.tables.text.mem_iff.1 he
    simp only [tm, List.mem_map, List.mem_filter, decide_eq_true_eq] at this
    obtain ⟨⟨f, j⟩, ⟨hx, hc⟩, rfl⟩ := this
    exact ⟨f, (hmem f).2 ⟨j, hx⟩, rfl, rfl, hc⟩
  · intro f hf hc
    obtain ⟨i, hi⟩ := (hmem f).1 hf
    exact h.tables.text.mem_iff.2 (List.mem_map.2 ⟨(f, i), List.mem_filter.2 ⟨hi, by simpa using hc⟩, rfl⟩)

/-- No entry for an identifier that no frame has. -/
theorem stale_absent {c : Cfg} {t : LTag} {a b : List Fr} {L : List (Fr × Nat)} (h : Stale t a b L) {id : Bytes}
    (hn : ∀ f ∈ a ++ b, f.id ≠ id) : t.deleteFrame c id = .ok t := by
  have hm : mfind c t.frameMap id = none := by
    rw [mfind_none]
    intro e he heq
    have := h.tables.frame.mem_iff.1 he
    simp only [fm, List.mem_map] at this
    obtain ⟨x, hx, rfl⟩ := this
    refine hn x.1 ?_ heq
    rw [List.mem_append]
    rcases List.mem_append.1 hx with hx | hx
    · obtain ⟨f, i⟩ := x
      exact .inl (List.mem_of_getElem? (mem_zip.1 hx))
    · rw [← h.fst]; exact .inr (List.mem_map.2 ⟨_, hx, rfl⟩)
  simp [deleteFrame, hm]

theorem mem_zipIdx_fst {l : List Fr} {k : Nat} {x : Fr × Nat} (h : x ∈ l.zipIdx k) : x.1 ∈ l := by
  obtain ⟨f, i⟩ := x
  obtain ⟨_, _, e⟩ := List.mem_zipIdx h
  rw [e]; exact List.getElem_mem _

/-- Deleting a frame among those that the tables agree with. -/
theorem stale_delete {c : Cfg} {t : LTag} {a1 a2 b : List Fr} {f : Fr} {L : List (Fr × Nat)} (h : Stale t (a1 ++ f :: a2) b L)
    (hc : f.cls = stdCls c f.id) (hu : ∀ g, g ∈ a1 ∨ g ∈ a2 ∨ g ∈ b → g.id ≠ f.id) :
    ∃ t', t.deleteFrame c f.id = .ok t' ∧ Stale t' a1 (a2 ++ b) (a2.zipIdx (a1.length + 1) ++ L) := by
  obtain ⟨hf, hT, hfst, hfar, hnd, hbl⟩ := h
  have hm : mfind c t.frameMap f.id = some a1.length := by
    cases hm : mfind c t.frameMap f.id with
    | none =>
      refine absurd rfl (mfind_none.1 hm (f.id, a1.length) (hT.frame.mem_iff.2 ?_))
      rw [zipIdx_mid]; simp [fm]
    | some i =>
      have := hT.frame.mem_iff.1 (mfind_some hm)
      simp only [fm, List.mem_map] at this
      obtain ⟨x, hx, e⟩ := this
      simp only [Prod.mk.injEq] at e
      obtain ⟨e1, rfl⟩ := e
      rw [zipIdx_mid] at hx
      simp only [List.append_assoc, List.mem_append, List.cons_append, List.mem_cons] at hx
      rcases hx with hx | rfl | hx | hx
      · exact absurd e1 (hu _ (.inl (mem_zipIdx_fst hx)))
      · rfl
      · exact absurd e1 (hu _ (.inr (.inl (mem_zipIdx_fst hx))))
      · exact absurd e1 (hu _ (.inr (.inr (hfst ▸ List.mem_map_of_mem hx))))
  have hT' : Tables t ((f, a1.length) :: (a1.zipIdx ++ (a2.zipIdx (a1.length + 1) ++ L))) := by
    rw [zipIdx_mid] at hT
    refine hT.perm ?_
    rw [List.append_assoc, List.cons_append]
    exact List.perm_middle
  obtain ⟨t1, e1, T1, f1, n1⟩ := remove (c := c) hT' (by rw [hf]; simp) hc (by
    intro x hx
    simp only [List.mem_append] at hx
    rcases hx with hx | hx | hx
    · have := zipIdx_lt hx; omega
    · have := zipIdx_ge hx; omega
    · have := hfar x hx; simp only [List.length_append, List.length_cons] at this; omega)
  have hfr : t.frames.eraseIdx a1.length = a1 ++ (a2 ++ b) := by
    rw [hf, List.append_assoc, List.eraseIdx_append_of_length_le (Nat.le_refl _)]
    simp
  have hsub : (a1 ++ (a2 ++ b)).Sublist t.frames := by
    rw [← hfr]; exact List.eraseIdx_sublist ..
  refine ⟨{ t1 with frames := a1 ++ (a2 ++ b) }, ?_, rfl, T1.congr rfl rfl rfl rfl rfl, ?_, ?_, ?_, ?_⟩
  · simp only [deleteFrame, hm, e1, Res.ok_bind, f1, hfr]
    rw [if_pos (by rw [hf]; simp)]
  · rw [List.map_append, hfst, fst_zipIdx]
  · intro x hx
    rcases List.mem_append.1 hx with hx | hx
    · have := zipIdx_ge hx; omega
    · have := hfar x hx; simp only [List.length_append, List.length_cons] at this; omega
  · exact (hsub.map Fr.ptr).nodup hnd
  · intro g hg
    have := hbl g (hsub.subset hg)
    show g.ptr < t1.next
    rw [n1]; exact this

/-- Deleting frames from the back to the front of the tag. -/
theorem deleteAll_stale {c : Cfg} : ∀ (dels : List TextFrame) (t : LTag) (a b : List Fr) (L : List (Fr × Nat)), Stale t a b L →
    (∀ f ∈ dels, ∃ id, frameId c.ver f = .ok id) →
    (∀ g ∈ a, Named c.ver dels g.id → g.cls = .text) →
    (∀ g ∈ b, ¬ Named c.ver dels g.id) →
    (∀ f ∈ dels, ∀ a1 x a2, a = a1 ++ x :: a2 → frameId c.ver f = .ok x.id → ∀ y ∈ a2, frameId c.ver f ≠ .ok y.id) →
    dels.Pairwise (fun f g => ∀ a1 x a2, a = a1 ++ x :: a2 → frameId c.ver f = .ok x.id → ∀ y ∈ a2, frameId c.ver g ≠ .ok y.id) →
    ∃ t', deleteAll dels ⟨c, t⟩ = .ok ⟨c, t'⟩ ∧ TInv t' ∧ t'.frames = t.frames.filter fun g => ¬ Named c.ver dels g.id := by
  intro dels
  induction dels with
  | nil =>
    intro t a b L h _ _ _ _ _
    refine ⟨t, rfl, stale_tinv h, ?_⟩
    exact (List.filter_eq_self.2 (by simp [Named])).symm
  | cons f dels ih =>
    intro t a b L h hk hc hb hu hp
    obtain ⟨id, hid⟩ := hk f (by simp)
    have hNamed : ∀ x : Bytes, Named c.ver (f :: dels) x ↔ x = id ∨ Named c.ver dels x := by
      intro x
      constructor
      · rintro ⟨g, hg, e⟩
        rcases List.mem_cons.1 hg with rfl | hg
        · rw [hid] at e; injection e with e; exact .inl e.symm
        · exact .inr ⟨g, hg, e⟩
      · rintro (rfl | ⟨g, hg, e⟩)
        · exact ⟨f, by simp, hid⟩
        · exact ⟨g, by simp [hg], e⟩
    obtain ⟨hp1, hp2⟩ := List.pairwise_cons.1 hp
    by_cases hex : ∃ g ∈ a, g.id = id
    · obtain ⟨g, hg, rfl⟩ := hex
      obtain ⟨a1, a2, rfl⟩ := List.append_of_mem hg
      have hna2 : ∀ y ∈ a2, y.id ≠ g.id := by
        intro y hy e
        exact hu f (by simp) a1 g a2 rfl hid y hy (by rw [hid, e])
      have hna1 : ∀ y ∈ a1, y.id ≠ g.id := by
        intro y hy e
        obtain ⟨p, q, rfl⟩ := List.append_of_mem hy
        exact hu f (by simp) p y (q ++ g :: a2) (by simp) (by rw [hid, e]) g (by simp) hid
      have hnb : ∀ y ∈ b, y.id ≠ g.id := fun y hy e => hb y hy ((hNamed _).2 (.inl e))
      have hcls : g.cls = stdCls c g.id := by
        rw [frameId_text hid]
        exact hc g hg ((hNamed _).2 (.inl rfl))
      obtain ⟨t1, e1, S1⟩ := stale_delete (c := c) h hcls (by
        rintro y (hy | hy | hy)
        · exact hna1 y hy
        · exact hna2 y hy
        · exact hnb y hy)
      obtain ⟨t2, e2, T2, f2⟩ := ih t1 a1 (a2 ++ b) _ S1 (fun x hx => hk x (by simp [hx]))
        (fun y hy hn => hc y (by simp [hy]) ((hNamed _).2 (.inr hn)))
        (by
          intro y hy
          rcases List.mem_append.1 hy with hy | hy
          · rintro ⟨x, hx, e⟩
            exact hp1 x hx a1 g a2 rfl hid y hy e
          · exact fun hn => hb y hy ((hNamed _).2 (.inr hn)))
        (by
          intro x hx p y q e hxy z hz
          subst e
          exact hu x (by simp [hx]) p y (q ++ g :: a2) (by simp) hxy z (by simp [hz]))
        (by
          refine hp2.imp ?_
          intro x x' hxx p y q e hxy z hz
          subst e
          exact hxx p y (q ++ g :: a2) (by simp) hxy z (by simp [hz]))
      refine ⟨t2, ?_, T2, ?_⟩
      · have : (⟨c, t⟩ : Tg).delete f = .ok ⟨c, t1⟩ := by simp only [Tg.delete, hid, Res.ok_bind, e1]
        simp only [deleteAll, this, Res.ok_bind, e2]
      · rw [f2, S1.frames, h.frames]
        simp only [List.filter_append, List.append_assoc, List.cons_append, List.filter_cons]
        have : ∀ l : List Fr, (∀ y ∈ l, y.id ≠ g.id) →
            (l.filter fun y => decide ¬ Named c.ver dels y.id) = l.filter fun y => decide ¬ Named c.ver (f :: dels) y.id := by
          intro l hl
          apply List.filter_congr
          intro y hy
          simp only [hNamed, hl y hy, false_or]
        rw [this a1 hna1, this a2 hna2, this b hnb]
        rw [if_neg (by simp [hNamed])]
    · have hna : ∀ y ∈ a ++ b, y.id ≠ id := by
        intro y hy e
        rcases List.mem_append.1 hy with hy | hy
        · exact hex ⟨y, hy, e⟩
        · exact hb y hy ((hNamed _).2 (.inl e))
      have e1 := stale_absent (c := c) h hna
      obtain ⟨t2, e2, T2, f2⟩ := ih t a b L h (fun x hx => hk x (by simp [hx]))
        (fun y hy hn => hc y hy ((hNamed _).2 (.inr hn))) (fun y hy hn => hb y hy ((hNamed _).2 (.inr hn)))
        (fun x hx => hu x (by simp [hx])) hp2
      refine ⟨t2, ?_, T2, ?_⟩
      · have : (⟨c, t⟩ : Tg).delete f = .ok ⟨c, t⟩ := by simp only [Tg.delete, hid, Res.ok_bind, e1]
        simp only [deleteAll, this, Res.ok_bind, e2]
      · rw [f2, h.frames]
        apply List.filter_congr
        intro y hy
        simp only [hNamed, hna y hy, false_or]

/-- Setting texts: each is answered, and of the frames only those set are new or changed. -/
theorem setAll_spec {C : Conv} : ∀ (adds : List (TextFrame × Bytes)) (t : Tg), TInv t.tag →
    (∀ f ∈ adds.map Prod.fst, ∃ id, frameId t.cfg.ver f = .ok id) → (adds.map Prod.fst).Nodup →
    (∀ x ∈ adds, ∃ d, C.frameData t.cfg.ver x.2 = .ok d ∧ C.frameText t.cfg.ver d = .ok x.2) →
    (∀ y ∈ contents t.tag, Named t.cfg.ver (adds.map Prod.fst) y.id → y.cls = .text) →
    ∃ t', setAll C adds t = .ok t' ∧ TInv t'.tag ∧ t'.cfg = t.cfg ∧ (∀ x ∈ adds, t'.text C x.1 = .ok x.2) ∧
      (∀ f id, frameId t.cfg.ver f = .ok id → f ∉ adds.map Prod.fst → t'.text C f = t.text C f) ∧
      (∀ p : Item → Bool, (∀ y, p y = true → ¬ Named t.cfg.ver (adds.map Prod.fst) y.id) →
        (contents t'.tag).filter p = (contents t.tag).filter p) ∧
      (∀ f ∈ adds.map Prod.fst, ∀ id, frameId t.cfg.ver f = .ok id →
        ((contents t'.tag).filter fun y => y.id = id).length = max 1 ((contents t.tag).filter fun y => y.id = id).length) := by
  intro adds
  induction adds with
  | nil => intro t h _ _ _ _; exact ⟨t, rfl, h, rfl, by simp, by simp, by simp, by simp⟩
  | cons x xs ih =>
    intro t h hk hn ht hcl
    obtain ⟨f, s⟩ := x
    simp only [List.map_cons, List.nodup_cons] at hn
    obtain ⟨id, hid⟩ := hk f (by simp)
    obtain ⟨d, hd1, hd2⟩ := ht (f, s) (by simp)
    obtain ⟨t1, e1, h1, c1, x1, o1, k1⟩ := Props.tg_setText (C := C) h hid hd1
    have hNamed : ∀ x : Bytes, Named t.cfg.ver (((f, s) :: xs).map Prod.fst) x ↔ x = id ∨ Named t.cfg.ver (xs.map Prod.fst) x := by
      intro x
      constructor
      · rintro ⟨g, hg, e⟩
        rw [List.map_cons] at hg
        rcases List.mem_cons.1 hg with rfl | hg
        · rw [hid] at e; injection e with e; exact .inl e.symm
        · exact .inr ⟨g, hg, e⟩
      · rintro (rfl | ⟨g, hg, e⟩)
        · exact ⟨f, by simp, hid⟩
        · exact ⟨g, by rw [List.map_cons]; exact List.mem_cons_of_mem _ hg, e⟩
    have hidx : ¬ Named t.cfg.ver (xs.map Prod.fst) id := by
      rintro ⟨g, hg, e⟩
      exact hn.1 (frameId_inj hid e ▸ hg)
    obtain ⟨t2, e2, h2, c2, x2, k2, r2, n2⟩ := ih t1 h1 (by rw [c1]; exact fun g hg => hk g (by simp only [List.map_cons, List.mem_cons]; exact .inr hg)) hn.2
      (by rw [c1]; exact fun g hg => ht g (by simp [hg])) (by
        rw [c1]
        intro y hy hyn
        rcases o1 with ⟨-, o2⟩ | ⟨a, z, b, o2, -, -, o3⟩
        · rw [o2] at hy
          rcases List.mem_append.1 hy with hy | hy
          · exact hcl y hy ((hNamed _).2 (.inr hyn))
          · simp only [List.mem_singleton] at hy; subst hy; rfl
        · rw [o3] at hy
          simp only [List.mem_append, List.mem_cons] at hy
          rcases hy with hy | rfl | hy
          · exact hcl y (by rw [o2]; simp [hy]) ((hNamed _).2 (.inr hyn))
          · rfl
          · exact hcl y (by rw [o2]; simp [hy]) ((hNamed _).2 (.inr hyn)))
    rw [c1] at c2 k2 r2 n2
    refine ⟨t2, by simp only [setAll, e1, Res.ok_bind, e2], h2, c2, ?_, ?_, ?_, ?_⟩
    · intro y hy
      rcases List.mem_cons.1 hy with rfl | hy
      · rw [k2 f id hid hn.1, x1, hd2]
      · exact x2 y hy
    · intro g id' hg hgn
      simp only [List.map_cons, List.mem_cons, not_or] at hgn
      rw [k2 g id' hg hgn.2]
      exact k1 g id' hg (fun e => hgn.1 (frameId_inj hg (e ▸ hid)))
    · intro p hp
      rw [r2 p (fun y hy hyn => hp y hy ((hNamed _).2 (.inr hyn)))]
      have hpn : p ⟨id, .text, d⟩ = false := by
        cases hpp : p ⟨id, .text, d⟩ with
        | false => rfl
        | true => exact absurd ((hNamed id).2 (.inl rfl)) (hp _ hpp)
      rcases o1 with ⟨-, o2⟩ | ⟨a, z, b, o2, o4, -, o3⟩
      · rw [o2, List.filter_append]; simp [hpn]
      · have hpz : p z = false := by
          cases hpp : p z with
          | false => rfl
          | true => exact absurd ((hNamed z.id).2 (.inl o4)) (hp _ hpp)
        rw [o3, o2]; simp [List.filter_append, hpn, hpz]
    · intro g hg id' hgid
      rw [List.map_cons, List.mem_cons] at hg
      have hcount : ∀ id'', id'' ≠ id → (contents t1.tag).filter (fun y => decide (y.id = id'')) = (contents t.tag).filter (fun y => decide (y.id = id'')) := by
        intro id'' hne
        rcases o1 with ⟨-, o2⟩ | ⟨a, z, b, o2, o4, -, o3⟩
        · rw [o2]; simp [List.filter_append, Ne.symm hne]
        · rw [o3, o2]; simp [List.filter_append, Ne.symm hne, o4]
      by_cases hgf : g = f
      · subst hgf
        rw [hid] at hgid; injection hgid with hgid; subst hgid
        rw [r2 _ (by
          intro y hy
          simp only [decide_eq_true_eq] at hy
          rw [hy]; exact hidx)]
        rcases o1 with ⟨o5, o2⟩ | ⟨a, z, b, o2, o4, -, o3⟩
        · have : (contents t.tag).filter (fun y => decide (y.id = id)) = [] := by
            rw [List.filter_eq_nil_iff]
            intro y hy
            simp only [decide_eq_true_eq]
            exact fun e => o5 y hy e (hcl y hy ((hNamed _).2 (.inl e)))
          rw [o2]; simp [List.filter_append, this]
        · rw [o3, o2]; simp [List.filter_append, o4]; omega
      · rw [n2 g (hg.resolve_left hgf) id' hgid, hcount id' (fun e => hgf (frameId_inj hgid (e ▸ hid)))]

end Scribbu.Commands
