import Verif.Proofs.Again

/-! Lemmas for C185: the sub-commands, tag by tag. -/

namespace Scribbu.Again
open Scribbu Commands Process Spec LTag Lookup

theorem reread_read (t : Tg) : ReadTag (reread t) := ⟨stored t, rfl⟩

theorem text_reread {t : Tg} (h : Neat t.cfg t.tag) (id : Bytes) : (reread t).tag.textOf t.cfg id = t.tag.textOf t.cfg id := by
  rw [textOf_pick h, textOf_pick (c := t.cfg) (t := (reread t).tag) (neat_reread t), reread_contents (neat_items h)]

theorem text_reread' {C : Conv} {t : Tg} (h : Neat t.cfg t.tag) (f : TextFrame) : (reread t).text C f = t.text C f := by
  unfold Tg.text
  show (frameId t.cfg.ver f).bind _ = _
  congr 1
  funext id
  show ((reread t).tag.textOf t.cfg id).bind _ = _
  rw [text_reread h]
  rfl

/-- The frames that sub-commands set. -/
abbrev settable : List TextFrame := [.talb, .tcon, .tenc, .tit2, .tpe1, .trck, .tyer]

theorem known_text {c : Cfg} (hk : KnowsTexts c) {f : TextFrame} (hf : f ∈ settable) {id : Bytes} (hid : frameId c.ver f = .ok id) : readCls c id = .text := by
  have h1 := hk.known f hf id hid
  have h2 := frameId_text (c := c) hid
  unfold stdCls at h2
  unfold readCls
  split at h2
  · cases h2
  · rename_i n1
    rw [if_neg n1]
    split at h2
    · cases h2
    · rename_i n2
      rw [if_neg n2]
      split at h2
      · cases h2
      · rename_i n3
        rw [if_neg n3, if_pos h1]

theorem neat_set {C : Conv} {t t' : Tg} (h : Neat t.cfg t.tag) (hk : KnowsTexts t.cfg) {f : TextFrame} (hf : f ∈ settable) {s : Bytes}
    (e : t.setText C f s = .ok t') : t'.cfg = t.cfg ∧ Neat t.cfg t'.tag ∧ ∃ id d, frameId t.cfg.ver f = .ok id ∧ C.frameData t.cfg.ver s = .ok d ∧
      t'.tag.textOf t.cfg id = .ok d ∧ ∀ id', id' ≠ id → t'.tag.textOf t.cfg id' = t.tag.textOf t.cfg id' := by
  unfold Tg.setText at e
  obtain ⟨id, h1, e⟩ := Props.res_bind_ok e
  obtain ⟨d, h2, e⟩ := Props.res_bind_ok e
  obtain ⟨l, h3, e⟩ := Props.res_bind_ok e
  cases e
  obtain ⟨l', h4, -, h5, h6, -⟩ := setText_spec (c := t.cfg) (tinv_of_neat h) id d
  rw [h3] at h4
  cases h4
  exact ⟨rfl, neat_setText h (known_text hk hf h1) h3, id, d, h1, h2, h5, h6⟩

theorem setAll_neat {C : Conv} : ∀ (adds : List (TextFrame × Bytes)) {t t' : Tg}, Neat t.cfg t.tag → KnowsTexts t.cfg →
    (∀ x ∈ adds, x.1 ∈ settable) → (adds.map Prod.fst).Nodup → setAll C adds t = .ok t' → t'.cfg = t.cfg ∧ Neat t.cfg t'.tag ∧
      (∀ x ∈ adds, ∃ id d, frameId t.cfg.ver x.1 = .ok id ∧ C.frameData t.cfg.ver x.2 = .ok d ∧ t'.tag.textOf t.cfg id = .ok d) ∧
      ∀ id, (∀ x ∈ adds, frameId t.cfg.ver x.1 ≠ .ok id) → t'.tag.textOf t.cfg id = t.tag.textOf t.cfg id
  | [], t, t', h, _, _, _, e => by
    unfold setAll at e
    cases e
    exact ⟨rfl, h, by simp, fun _ _ => rfl⟩
  | x :: xs, t, t', h, hk, hs, hn, e => by
    unfold setAll at e
    obtain ⟨t1, e1, e⟩ := Props.res_bind_ok e
    obtain ⟨c1, n1, id, d, i1, d1, x1, o1⟩ := neat_set h hk (hs x (by simp)) e1
    rw [List.map_cons, List.nodup_cons] at hn
    rw [← c1] at n1
    obtain ⟨c2, n2, x2, o2⟩ := setAll_neat xs (t := t1) n1 (c1.symm ▸ hk) (fun y hy => hs y (List.mem_cons_of_mem _ hy)) hn.2 e
    rw [c1] at c2 n2 x2 o2
    refine ⟨c2, n2, ?_, ?_⟩
    · intro y hy
      rcases List.mem_cons.1 hy with rfl | hy
      · refine ⟨id, d, i1, d1, ?_⟩
        rw [o2 id, x1]
        intro z hz e
        exact hn.1 (frameId_inj e i1 ▸ List.mem_map_of_mem hz)
      · exact x2 y hy
    · intro id' hi
      rw [o2 id' (fun y hy => hi y (List.mem_cons_of_mem _ hy)), o1 id']
      intro e
      exact hi x (by simp) (e ▸ i1)

theorem setAll_same {C : Conv} : ∀ (adds : List (TextFrame × Bytes)) {t : Tg}, TInv t.tag →
    (∀ x ∈ adds, ∃ id d, frameId t.cfg.ver x.1 = .ok id ∧ C.frameData t.cfg.ver x.2 = .ok d ∧ t.tag.textOf t.cfg id = .ok d) → setAll C adds t = .ok t
  | [], _, _, _ => rfl
  | x :: xs, t, h, hx => by
    obtain ⟨id, d, e1, e2, e3⟩ := hx x (by simp)
    unfold setAll Tg.setText
    rw [e1, Res.ok_bind, e2, Res.ok_bind, setText_same h e3, Res.ok_bind, Res.ok_bind]
    exact setAll_same xs h fun y hy => hx y (List.mem_cons_of_mem _ hy)

theorem deleteAll_neat : ∀ (dels : List TextFrame) {t t' : Tg}, Neat t.cfg t.tag → deleteAll dels t = .ok t' →
    t'.cfg = t.cfg ∧ Neat t.cfg t'.tag ∧ ∀ f ∈ dels, ∃ id, frameId t.cfg.ver f = .ok id
  | [], t, t', h, e => by
    unfold deleteAll at e
    cases e
    exact ⟨rfl, h, by simp⟩
  | f :: fs, t, t', h, e => by
    unfold deleteAll at e
    obtain ⟨t1, e1, e⟩ := Props.res_bind_ok e
    unfold Tg.delete at e1
    obtain ⟨id, i1, e1⟩ := Props.res_bind_ok e1
    obtain ⟨l, l1, e1⟩ := Props.res_bind_ok e1
    cases e1
    obtain ⟨c2, n2, k2⟩ := deleteAll_neat fs (t := ⟨t.cfg, l⟩) (neat_delete h (frameId_text i1) l1) e
    refine ⟨c2, n2, ?_⟩
    intro g hg
    rcases List.mem_cons.1 hg with rfl | hg
    · exact ⟨id, i1⟩
    · exact k2 g hg

theorem deleteAll_none : ∀ (dels : List TextFrame) {t : Tg}, Inv t.cfg t.tag → (∀ f ∈ dels, ∃ id, frameId t.cfg.ver f = .ok id ∧
    ∀ x ∈ contents t.tag, x.id ≠ id) → deleteAll dels t = .ok t
  | [], _, _, _ => rfl
  | f :: fs, t, h, hx => by
    obtain ⟨id, i1, hn⟩ := hx f (by simp)
    have : t.tag.deleteFrame t.cfg id = .ok t.tag := by
      unfold LTag.deleteFrame
      cases hm : mfind t.cfg t.tag.frameMap id with
      | none => rfl
      | some i =>
        obtain ⟨f, h1, h2⟩ := mfind_frame h hm
        exact absurd h2 (hn ⟨f.id, f.cls, f.data⟩ (List.mem_map.2 ⟨f, List.mem_of_getElem? h1, rfl⟩))
    unfold deleteAll Tg.delete
    rw [i1, Res.ok_bind, this, Res.ok_bind, Res.ok_bind]
    exact deleteAll_none fs h fun y hy => hx y (List.mem_cons_of_mem _ hy)

/-- `text`. -/
theorem text_stays {C : Conv} {dels : List TextFrame} {adds : List (TextFrame × Bytes)} {t t' : Tg} {b : Bool} (h : Neat t.cfg t.tag)
    (hk : KnowsTexts t.cfg) (hs : ∀ x ∈ adds, x.1 ∈ settable) (hn : (adds.map Prod.fst).Nodup) (e : textTag C dels adds t = .ok (b, t'))
    (hg : ∀ f ∈ dels, ∀ id, frameId t'.cfg.ver f = .ok id → ∀ x ∈ contents t'.tag, x.id ≠ id) : Stays (textTag C dels adds) t' := by
  unfold textTag at e
  obtain ⟨t1, e1, e⟩ := Props.res_bind_ok e
  obtain ⟨t2, e2, e⟩ := Props.res_bind_ok e
  cases e
  obtain ⟨c1, n1, k1⟩ := deleteAll_neat dels h e1
  rw [← c1] at n1
  obtain ⟨c2, n2, x2, -⟩ := setAll_neat adds n1 (c1.symm ▸ hk) hs hn e2
  have hc : t'.cfg = t.cfg := c2.trans c1
  rw [← c2] at n2 x2
  refine ⟨true, reread t', ?_, stored_reread t'⟩
  unfold textTag
  rw [deleteAll_none dels (Props.read_inv (reread_read t') (by show Props.SaneParser t'.cfg; rw [hc]; exact hk.sane)), Res.ok_bind,
    setAll_same adds (tinv_of_neat (neat_reread t')), Res.ok_bind]
  · intro x hx
    obtain ⟨id, d, i1, i2, i3⟩ := x2 x hx
    exact ⟨id, d, i1, i2, by show (reread t').tag.textOf t'.cfg id = _; rw [text_reread n2, i3]⟩
  · intro f hf
    obtain ⟨id, hid⟩ := k1 f hf
    rw [← hc] at hid
    refine ⟨id, hid, ?_⟩
    rw [reread_contents (neat_items n2)]
    exact hg f hf id hid

/-- A tag with the genre set. -/
theorem genre_stays' {C : Conv} {text : Bytes} {t t' : Tg} (h : Neat t.cfg t.tag) (hk : KnowsTexts t.cfg) (hT : AllTrip C)
    (e : t.setText C .tcon text = .ok t') : Stays (genreV2 C text) t' := by
  obtain ⟨c1, n1, id, d, i1, d1, x1, -⟩ := neat_set h hk (by decide) e
  rw [← c1] at n1
  refine ⟨false, reread t', ?_, stored_reread t'⟩
  unfold genreV2
  have : t'.text C .tcon = .ok text := by
    unfold Tg.text
    rw [c1, i1, Res.ok_bind, x1, Res.ok_bind]
    exact hT _ _ _ d1
  rw [text_reread' n1, this, Res.ok_bind, if_pos rfl]

/-- `genre`. -/
theorem genre_stays {C : Conv} {text : Bytes} {t t' : Tg} {b : Bool} (h : Neat t.cfg t.tag) (hk : KnowsTexts t.cfg) (hT : AllTrip C)
    (e : genreV2 C text t = .ok (b, t')) : Stays (genreV2 C text) t' := by
  unfold genreV2 at e
  obtain ⟨s, e1, e⟩ := Props.res_bind_ok e
  split at e
  · rename_i hs
    cases e
    refine ⟨false, reread t, ?_, stored_reread t⟩
    unfold genreV2
    rw [text_reread' h, e1, Res.ok_bind, if_pos hs]
  · obtain ⟨t1, e2, e⟩ := Props.res_bind_ok e
    cases e
    exact genre_stays' h hk hT e2

/-! ## Tags made from ID3v1 tags -/

theorem textIf_neat {C : Conv} {t t' : Tg} (h : Neat t.cfg t.tag) (hk : KnowsTexts t.cfg) {f : TextFrame} (hf : f ∈ settable) {s : Bytes}
    (e : textIf C t f s = .ok t') : t'.cfg = t.cfg ∧ Neat t'.cfg t'.tag := by
  unfold textIf at e
  split at e
  · obtain ⟨c1, n1, -⟩ := neat_set h hk hf e
    exact ⟨c1, c1.symm ▸ n1⟩
  · cases e; exact ⟨rfl, h⟩

theorem copyV1_neat {C : Conv} {c : Cfg} {v1 : V1Tag} {t : Tg} (hk : KnowsTexts { c with ver := .v3 }) (e : copyV1 C c v1 = .ok t) :
    t.cfg = { c with ver := .v3 } ∧ Neat t.cfg t.tag := by
  unfold copyV1 at e
  obtain ⟨s1, -, e⟩ := Props.res_bind_ok e
  obtain ⟨t1, e1, e⟩ := Props.res_bind_ok e
  obtain ⟨s2, -, e⟩ := Props.res_bind_ok e
  obtain ⟨t2, e2, e⟩ := Props.res_bind_ok e
  obtain ⟨s3, -, e⟩ := Props.res_bind_ok e
  obtain ⟨t3, e3, e⟩ := Props.res_bind_ok e
  obtain ⟨s4, -, e⟩ := Props.res_bind_ok e
  obtain ⟨t4, e4, e⟩ := Props.res_bind_ok e
  obtain ⟨t5, e5, e⟩ := Props.res_bind_ok e
  obtain ⟨s6, -, e⟩ := Props.res_bind_ok e
  obtain ⟨c1, n1⟩ := textIf_neat (t := ⟨{ c with ver := .v3 }, .empty⟩) (neat_empty _) hk (by decide) e1
  have c1 : t1.cfg = { c with ver := .v3 } := c1
  obtain ⟨c2, n2⟩ := textIf_neat n1 (c1 ▸ hk) (by decide) e2
  rw [c1] at c2
  obtain ⟨c3, n3⟩ := textIf_neat n2 (c2 ▸ hk) (by decide) e3
  rw [c2] at c3
  have h4 : t4.cfg = { c with ver := .v3 } ∧ Neat t4.cfg t4.tag := by
    unfold copyComment at e4
    split at e4
    · obtain ⟨d, -, e4⟩ := Props.res_bind_ok e4
      obtain ⟨l, l4, e4⟩ := Props.res_bind_ok e4
      cases e4
      refine ⟨c3, ?_⟩
      unfold addComment at l4
      rw [c3] at l4
      cases l4
      show Neat t3.cfg _
      rw [c3] at n3 ⊢
      refine neat_push n3 (a := ⟨.gen, .com, _, _⟩) ⟨fun h => Cls.noConfusion h, fun h => Cls.noConfusion h⟩ ?_
      unfold readCls
      rw [if_pos rfl]
    · cases e4; exact ⟨c3, n3⟩
  have h5 : t5.cfg = { c with ver := .v3 } ∧ Neat t5.cfg t5.tag := by
    unfold copyGenre at e5
    split at e5
    · split at e5
      · cases e5
      · obtain ⟨c5, n5, -⟩ := neat_set h4.2 (h4.1 ▸ hk) (by decide) e5
        exact ⟨c5.trans h4.1, c5.symm ▸ n5⟩
    · cases e5; exact h4
  split at e
  · obtain ⟨c6, n6, -⟩ := neat_set h5.2 (h5.1 ▸ hk) (by decide) e
    exact ⟨c6.trans h5.1, c6.symm ▸ n6⟩
  · cases e; exact h5

/-! ## `xtag` -/

theorem seeXtag_ptr {c : Cfg} {o : XtagCfg} {f g f' : Fr} {b : Bool} (h : itemOf g = itemOf f) (e : seeXtag c o f = .ok (b, f')) :
    ∃ g', seeXtag c o g = .ok (b, g') ∧ itemOf g' = itemOf f' := by
  obtain ⟨p, i, k, d⟩ := f
  obtain ⟨q, i', k', d'⟩ := g
  simp only [itemOf, Item.mk.injEq] at h
  obtain ⟨rfl, rfl, rfl⟩ := h
  unfold seeXtag at e ⊢
  dsimp only at e ⊢
  split at e
  · rename_i hi
    cases e
    rw [if_pos hi]
    exact ⟨_, rfl, rfl⟩
  · rename_i hi
    rw [if_neg hi]
    obtain ⟨t, ht, e⟩ := Props.res_bind_ok e
    rw [ht, Res.ok_bind]
    split at e
    · rename_i ho
      cases e
      rw [if_pos ho]
      exact ⟨_, rfl, rfl⟩
    · rename_i ho
      rw [if_neg ho]
      obtain ⟨u, hu, e⟩ := Props.res_bind_ok e
      cases e
      rw [hu, Res.ok_bind]
      exact ⟨_, rfl, by split <;> rfl⟩

theorem seeXtags_ptr {c : Cfg} {o : XtagCfg} : ∀ {l m l' : List Fr} {n : Nat}, m.map itemOf = l.map itemOf → seeXtags c o l = .ok (n, l') →
    ∃ m', seeXtags c o m = .ok (n, m') ∧ m'.map itemOf = l'.map itemOf
  | [], m, l', n, h, e => by
    cases m with
    | nil => cases e; exact ⟨[], rfl, rfl⟩
    | cons _ _ => cases h
  | f :: l, m, l', n, h, e => by
    cases m with
    | nil => cases h
    | cons g m =>
      rw [List.map_cons, List.map_cons, List.cons.injEq] at h
      unfold seeXtags at e
      obtain ⟨⟨b, f'⟩, e1, e⟩ := Props.res_bind_ok e
      obtain ⟨⟨n2, l2⟩, e2, e⟩ := Props.res_bind_ok e
      cases e
      obtain ⟨g', h1, h2⟩ := seeXtag_ptr h.1 e1
      obtain ⟨m', h3, h4⟩ := seeXtags_ptr h.2 e2
      refine ⟨g' :: m', ?_, by simp [h2, h4]⟩
      unfold seeXtags
      rw [h1, Res.ok_bind, h3, Res.ok_bind]

theorem contents_push (t : LTag) (a : Arg) : contents (t.pushBack a) = contents t ++ [⟨a.id, a.cls, a.data⟩] := by
  unfold contents pushBack alloc addLookups
  cases a.ov <;> simp

/-- What `xtag` does depends on the contents only. -/
theorem xtag_ptr {o : XtagCfg} {t u t' : Tg} {b : Bool} (hc : u.cfg = t.cfg) (h : contents u.tag = contents t.tag) (e : xtagTag o t = .ok (b, t')) :
    ∃ u', xtagTag o u = .ok (b, u') ∧ contents u'.tag = contents t'.tag := by
  unfold xtagTag at e ⊢
  obtain ⟨⟨n, l⟩, e1, e⟩ := Props.res_bind_ok e
  obtain ⟨m, h1, h2⟩ := seeXtags_ptr (m := u.tag.frames) h e1
  rw [hc, h1, Res.ok_bind]
  dsimp only at e ⊢
  split at e
  · rename_i hm
    rw [if_pos hm]
    split at e
    · rename_i hd
      cases e
      rw [if_pos hd]
      exact ⟨_, rfl, h2⟩
    · rename_i hd
      obtain ⟨x, ex, e⟩ := Props.res_bind_ok e
      cases e
      rw [if_neg hd, ex, Res.ok_bind]
      refine ⟨_, rfl, ?_⟩
      rw [contents_push, contents_push]
      exact congrArg (· ++ _) h2
  · rename_i hm
    cases e
    rw [if_neg hm]
    exact ⟨_, rfl, h2⟩

theorem seeXtags_items {c : Cfg} {o : XtagCfg} : ∀ {l l' : List Fr} {n : Nat}, seeXtags c o l = .ok (n, l') →
    (∀ f ∈ l, f.cls = readCls c f.id) → ∀ f ∈ l', f.cls = readCls c f.id
  | [], l', n, e, h => by cases e; simp
  | f :: l, l', n, e, h => by
    unfold seeXtags at e
    obtain ⟨⟨b, f'⟩, e1, e⟩ := Props.res_bind_ok e
    obtain ⟨⟨n2, l2⟩, e2, e⟩ := Props.res_bind_ok e
    cases e
    intro g hg
    rcases List.mem_cons.1 hg with rfl | hg
    · have := h f (by simp)
      unfold seeXtag at e1
      split at e1
      · cases e1; exact this
      · obtain ⟨t, ht, e1⟩ := Props.res_bind_ok e1
        split at e1
        · cases e1; exact this
        · obtain ⟨u, hu, e1⟩ := Props.res_bind_ok e1
          cases e1
          split <;> exact this
    · exact seeXtags_items e2 (fun f hf => h f (List.mem_cons_of_mem _ hf)) g hg

theorem xtg_gen {c : Cfg} (hs : ∀ id, c.textParser id = true → id.head? = some 84) : readCls c (xtgId c) = .gen := by
  have h1 : xtgId c ≠ c.comId := by unfold xtgId Cfg.comId; cases c.ver <;> decide
  have h2 : xtgId c ≠ c.cntId := by unfold xtgId Cfg.cntId; cases c.ver <;> decide
  have h3 : xtgId c ≠ c.popId := by unfold xtgId Cfg.popId; cases c.ver <;> decide
  have h4 : ¬ c.textParser (xtgId c) = true := by
    intro h
    have := hs _ h
    revert this
    unfold xtgId
    cases c.ver <;> decide
  unfold readCls
  rw [if_neg h1, if_neg h2, if_neg h3, if_neg h4]

theorem xtag_items {o : XtagCfg} {t t' : Tg} {b : Bool} (h : Neat t.cfg t.tag) (hs : ∀ id, t.cfg.textParser id = true → id.head? = some 84)
    (e : xtagTag o t = .ok (b, t')) : t'.cfg = t.cfg ∧ ∀ x ∈ contents t'.tag, x.cls = readCls t'.cfg x.id := by
  unfold xtagTag at e
  obtain ⟨⟨n, l⟩, e1, e⟩ := Props.res_bind_ok e
  have hl := seeXtags_items e1 h.cls
  have hl' : ∀ x ∈ contents ({ t.tag with frames := l } : LTag), x.cls = readCls t.cfg x.id := by
    intro x hx
    obtain ⟨f, hf, rfl⟩ := List.mem_map.1 hx
    exact hl f hf
  dsimp only at e
  split at e
  · split at e
    · cases e; exact ⟨rfl, hl'⟩
    · obtain ⟨x, ex, e⟩ := Props.res_bind_ok e
      cases e
      refine ⟨rfl, ?_⟩
      intro y hy
      rw [contents_push] at hy
      rcases List.mem_append.1 hy with hy | hy
      · exact hl' y hy
      · rw [List.mem_singleton] at hy
        subst hy
        exact (xtg_gen hs).symm
  · cases e; exact ⟨rfl, hl'⟩

/-- `xtag`. -/
theorem xtag_stays {o : XtagCfg} {t t' : Tg} {b : Bool} (h : Neat t.cfg t.tag) (hs : ∀ id, t.cfg.textParser id = true → id.head? = some 84)
    (hg : o.get = false) (hd : o.dryRun = false) (h0 : 0 ∉ o.owner) (hok : ∃ t0, TagCloud.ofText o.owner o.cloud = .ok t0)
    (hn : CleanText o.cloud) (e : xtagTag o t = .ok (b, t')) (hl : ∀ x ∈ contents t'.tag, x.data.length < 2 ^ 32) : Stays (xtagTag o) t' := by
  obtain ⟨hc, hi⟩ := xtag_items h hs e
  obtain ⟨u, h1, h2⟩ := xtag_ptr (t := t') (u := reread t') rfl (reread_contents hi) (Props.C93_again_partial hg hd h0 hok hn e hl)
  exact ⟨b, u, h1, by unfold stored; rw [h2]⟩

/-! ## `popm` -/

/-- A frame that, if it is a counter at all, is one that is asked for. -/
def Ours (c : Cfg) (o : PopmCfg) (x : Item) : Prop :=
  (x.id = c.cntId → o.policy ≠ .popmOnly) ∧ (x.id = c.popId → ∀ own, o.owner = some own → ∃ r k, x.data = own ++ 0 :: r :: k)

/-- The owner's address: no NUL in it, and its conversion changes nothing. -/
def OwnerOk (o : PopmCfg) : Prop := ∀ own, o.owner = some own → 0 ∉ own ∧ (own ≠ [] → o.email own = .ok own)

theorem seePcnt_again {o : PopmCfg} (ha : o.absolute = true) (hd : o.dryRun = false) {s s' : Seen} {d d' : Bytes}
    (e : seePcnt o s d = .ok (s', d')) : ∃ i m, s' = ⟨s.pcnt + i, s.popm, max s.pc m⟩ ∧ (o.policy ≠ .popmOnly → i = 1 ∧ m = o.count ∧ d' = resetCounter o.count) ∧
      (o.policy = .popmOnly → i = 0) ∧ ∀ s2 : Seen, ∃ m2, seePcnt o s2 d' = .ok (⟨s2.pcnt + i, s2.popm, max s2.pc m2⟩, d') := by
  unfold seePcnt at e
  split at e
  · rename_i hp
    obtain ⟨n, hn, e⟩ := Props.res_bind_ok e
    cases e
    refine ⟨0, n, rfl, fun h => absurd hp h, fun _ => rfl, fun s2 => ⟨n, ?_⟩⟩
    unfold seePcnt
    rw [if_pos hp, hn]
    rfl
  · rename_i hp
    unfold processPcnt PopmCfg.new at e
    rw [if_pos ha, Res.ok_bind, hd] at e
    cases e
    refine ⟨1, o.count, rfl, fun _ => ⟨rfl, rfl, rfl⟩, fun h => absurd h hp, fun s2 => ⟨o.count, ?_⟩⟩
    unfold seePcnt
    rw [if_neg hp]
    unfold processPcnt PopmCfg.new
    rw [if_pos ha, Res.ok_bind, hd]
    rfl

theorem seePopm_again {o : PopmCfg} (ha : o.absolute = true) (hd : o.dryRun = false) (hb : o.count < 2 ^ 32) (ho : OwnerOk o) {s s' : Seen} {d d' : Bytes}
    (e : seePopm o s d = .ok (s', d')) : ∃ j m, s' = ⟨s.pcnt, s.popm + j, max s.pc m⟩ ∧
      ((∀ own, o.owner = some own → ∃ r k, d = own ++ 0 :: r :: k) → j = 1 ∧ m = o.count) ∧
      ∀ s2 : Seen, ∃ m2, seePopm o s2 d' = .ok (⟨s2.pcnt, s2.popm + j, max s2.pc m2⟩, d') := by
  have e0 := e
  unfold seePopm at e
  obtain ⟨p, hp, e⟩ := Props.res_bind_ok e
  obtain ⟨a, hm, e⟩ := Props.res_bind_ok e
  obtain ⟨n, hn, e⟩ := Props.res_bind_ok e
  obtain ⟨hw, h0⟩ := Props.C21_popm_lossless d p hp
  split at e
  · rename_i hown
    unfold processPopm PopmCfg.new at e
    rw [if_pos ha, Res.ok_bind, Res.ok_bind, hd] at e
    simp only [Bool.false_eq_true, if_false] at e
    cases e
    refine ⟨1, o.count, rfl, fun _ => ⟨rfl, rfl⟩, fun s2 => ⟨o.count, ?_⟩⟩
    unfold seePopm
    have hpp : Popm.parse (Popm.write ⟨p.email, o.rating.getD p.rating, resetCounter o.count⟩) = .ok ⟨p.email, o.rating.getD p.rating, resetCounter o.count⟩ := by
      have := popm_parse (e := p.email) (r := o.rating.getD p.rating) (k := resetCounter o.count) h0
      simpa [Popm.write] using this
    rw [hpp, Res.ok_bind]
    dsimp only
    rw [hm, Res.ok_bind]
    unfold Popm.count
    dsimp only
    rw [Props.C20_set_partial _ hb, Res.ok_bind, if_pos hown]
    unfold processPopm PopmCfg.new
    rw [if_pos ha, Res.ok_bind, Res.ok_bind, hd]
    simp only [Bool.false_eq_true, if_false]
    cases o.rating <;> rfl
  · rename_i hown
    cases e
    refine ⟨0, n, rfl, ?_, fun s2 => ⟨n, ?_⟩⟩
    · intro hall
      exfalso
      apply hown
      cases hx : o.owner with
      | none => exact .inl rfl
      | some own =>
        obtain ⟨r, k, rfl⟩ := hall own hx
        obtain ⟨h1, h2⟩ := ho own hx
        rw [popm_parse h1] at hp
        cases hp
        right
        dsimp only at hm
        cases own with
        | nil => cases hm; rfl
        | cons x xs =>
          rw [h2 (by simp)] at hm
          cases hm
          rfl
    · unfold seePopm
      rw [hp, Res.ok_bind, hm, Res.ok_bind, hn, Res.ok_bind, if_neg hown]
      rfl

theorem see_again {c : Cfg} {o : PopmCfg} (ha : o.absolute = true) (hd : o.dryRun = false) (hb : o.count < 2 ^ 32) (ho : OwnerOk o) {create : Bool}
    {s s' : Seen} {f f' : Fr} (e : seeFrame c o create s f = .ok (s', f')) : f'.id = f.id ∧ f'.cls = f.cls ∧ ∃ i j m,
      s' = ⟨s.pcnt + i, s.popm + j, max s.pc m⟩ ∧ (Ours c o (itemOf f) → m = 0 ∨ m = o.count) ∧
      ∀ s2 g, itemOf g = itemOf f' → ∃ m2 g', seeFrame c o create s2 g = .ok (⟨s2.pcnt + i, s2.popm + j, max s2.pc m2⟩, g') ∧ itemOf g' = itemOf f' := by
  unfold seeFrame at e
  split at e
  · rename_i hi
    split at e
    · rename_i hk
      obtain ⟨⟨s1, d⟩, h1, e⟩ := Props.res_bind_ok e
      cases e
      obtain ⟨i, m, e1, e2, e3, e4⟩ := seePcnt_again ha hd h1
      refine ⟨rfl, rfl, i, 0, m, e1, ?_, ?_⟩
      · intro ho
        exact .inr (e2 (ho.1 hi.1)).2.1
      · intro s2 g hg
        simp only [itemOf, Item.mk.injEq] at hg
        obtain ⟨g1, g2, g3⟩ := hg
        obtain ⟨m2, e5⟩ := e4 s2
        refine ⟨m2, { g with data := d }, ?_, by simp [itemOf, g1, g2]⟩
        unfold seeFrame
        rw [g1, if_pos hi, g2, if_pos hk, g3, e5]
        rfl
    · cases e
  · rename_i hi
    split at e
    · rename_i hj
      split at e
      · rename_i hk
        obtain ⟨⟨s1, d⟩, h1, e⟩ := Props.res_bind_ok e
        cases e
        obtain ⟨j, m, e1, e2, e4⟩ := seePopm_again ha hd hb ho h1
        refine ⟨rfl, rfl, 0, j, m, e1, ?_, ?_⟩
        · intro ho
          exact .inr (e2 (ho.2 hj.1)).2
        · intro s2 g hg
          simp only [itemOf, Item.mk.injEq] at hg
          obtain ⟨g1, g2, g3⟩ := hg
          obtain ⟨m2, e5⟩ := e4 s2
          refine ⟨m2, { g with data := d }, ?_, by simp [itemOf, g1, g2]⟩
          unfold seeFrame
          rw [g1, if_neg hi, if_pos hj, g2, if_pos hk, g3, e5]
          rfl
      · cases e
    · rename_i hj
      cases e
      refine ⟨rfl, rfl, 0, 0, 0, by simp, fun _ => .inl rfl, ?_⟩
      intro s2 g hg
      have hg' := hg
      simp only [itemOf, Item.mk.injEq] at hg
      refine ⟨0, g, ?_, hg'⟩
      unfold seeFrame
      rw [hg.1, if_neg hi, if_neg hj]
      simp

theorem sees_again {c : Cfg} {o : PopmCfg} (ha : o.absolute = true) (hd : o.dryRun = false) (hb : o.count < 2 ^ 32) (ho : OwnerOk o) {create : Bool} :
    ∀ {l l' : List Fr} {s s' : Seen}, seeFrames c o create s l = .ok (s', l') → (∀ f ∈ l, f.cls = readCls c f.id) →
      (∀ f ∈ l', f.cls = readCls c f.id) ∧ ∃ i j m, s' = ⟨s.pcnt + i, s.popm + j, max s.pc m⟩ ∧ ((∀ f ∈ l, Ours c o (itemOf f)) → m = 0 ∨ m = o.count) ∧
      ∀ s2 g, g.map itemOf = l'.map itemOf → ∃ m2 g', seeFrames c o create s2 g = .ok (⟨s2.pcnt + i, s2.popm + j, max s2.pc m2⟩, g') ∧
        g'.map itemOf = l'.map itemOf
  | [], l', s, s', e, _ => by
    cases e
    refine ⟨by simp, 0, 0, 0, by simp, fun _ => .inl rfl, ?_⟩
    intro s2 g hg
    cases g with
    | nil => exact ⟨0, [], by simp [seeFrames], rfl⟩
    | cons _ _ => cases hg
  | f :: l, l', s, s', e, hc => by
    unfold seeFrames at e
    obtain ⟨⟨s1, f'⟩, e1, e⟩ := Props.res_bind_ok e
    obtain ⟨⟨s3, l3⟩, e2, e⟩ := Props.res_bind_ok e
    cases e
    obtain ⟨a1, a2, i1, j1, m1, rfl, a4, a5⟩ := see_again ha hd hb ho e1
    obtain ⟨b0, i2, j2, m2, rfl, b4, b5⟩ := sees_again ha hd hb ho e2 fun f hf => hc f (List.mem_cons_of_mem _ hf)
    refine ⟨?_, i1 + i2, j1 + j2, max m1 m2, by simp [Nat.add_assoc, Nat.max_assoc], ?_, ?_⟩
    · intro g hg
      rcases List.mem_cons.1 hg with rfl | hg
      · rw [a1, a2]; exact hc f (by simp)
      · exact b0 g hg
    · intro ho
      have h1 := a4 (ho f (by simp))
      have h2 := b4 fun f hf => ho f (List.mem_cons_of_mem _ hf)
      omega
    · intro s2 g hg
      cases g with
      | nil => cases hg
      | cons x g =>
        rw [List.map_cons, List.map_cons, List.cons.injEq] at hg
        obtain ⟨n1, x', c1, c2⟩ := a5 s2 x hg.1
        obtain ⟨n2, g', c3, c4⟩ := b5 ⟨s2.pcnt + i1, s2.popm + j1, max s2.pc n1⟩ g hg.2
        refine ⟨max n1 n2, x' :: g', ?_, by simp [c2, c4]⟩
        unfold seeFrames
        rw [c1, Res.ok_bind]
        dsimp only
        rw [c3, Res.ok_bind]
        simp [Nat.add_assoc, Nat.max_assoc]

theorem sees_append {c : Cfg} {o : PopmCfg} {create : Bool} : ∀ {l l' : List Fr} {s s' s'' : Seen} {m m' : List Fr}, seeFrames c o create s l = .ok (s', l') →
    seeFrames c o create s' m = .ok (s'', m') → seeFrames c o create s (l ++ m) = .ok (s'', l' ++ m')
  | [], l', s, s', s'', m, m', e, e' => by cases e; exact e'
  | f :: l, l', s, s', s'', m, m', e, e' => by
    unfold seeFrames at e
    obtain ⟨⟨s1, f'⟩, e1, e⟩ := Props.res_bind_ok e
    obtain ⟨⟨s3, l3⟩, e2, e⟩ := Props.res_bind_ok e
    cases e
    show seeFrames c o create s (f :: (l ++ m)) = _
    unfold seeFrames
    rw [e1, Res.ok_bind, sees_append e2 e']
    rfl

theorem cnt_cls (c : Cfg) : readCls c c.cntId = .cnt := by
  have h1 : c.cntId ≠ c.comId := by unfold Cfg.cntId Cfg.comId; cases c.ver <;> decide
  unfold readCls
  rw [if_neg h1, if_pos rfl]

theorem pop_ne (c : Cfg) : c.popId ≠ c.cntId := by unfold Cfg.cntId Cfg.popId; cases c.ver <;> decide

theorem pop_cls (c : Cfg) : readCls c c.popId = .pop := by
  have h1 : c.popId ≠ c.comId := by unfold Cfg.popId Cfg.comId; cases c.ver <;> decide
  unfold readCls
  rw [if_neg h1, if_neg (pop_ne c), if_pos rfl]

/-- The counter that is made. -/
def newPcnt (c : Cfg) (o : PopmCfg) (i : Nat) : List Item :=
  if o.policy ≠ .popmOnly ∧ i = 0 then [⟨c.cntId, .cnt, resetCounter o.count⟩] else []

/-- The popularimeter that is made. -/
def newPopm (c : Cfg) (o : PopmCfg) (j : Nat) : List Item :=
  match o.owner, o.rating with
  | some own, some r => if o.policy ≠ .pcntOnly ∧ j = 0 then [⟨c.popId, .pop, (Popm.make own r o.count).write⟩] else []
  | _, _ => []

theorem made_items {o : PopmCfg} (hd : o.dryRun = false) {s : Seen} {t : Tg} (hv : s.pc = 0 ∨ s.pc = o.count) :
    (makePopm o s (makePcnt o s t).2).2.cfg = t.cfg ∧
    contents (makePopm o s (makePcnt o s t).2).2.tag = contents t.tag ++ newPcnt t.cfg o s.pcnt ++ newPopm t.cfg o s.popm := by
  have hn : (if s.pc = 0 then o.count else s.pc) = o.count := by split <;> omega
  have h1 : (makePcnt o s t).2.cfg = t.cfg ∧ contents (makePcnt o s t).2.tag = contents t.tag ++ newPcnt t.cfg o s.pcnt := by
    unfold makePcnt newPcnt
    split
    · rw [hd, hn]
      exact ⟨rfl, contents_push _ _⟩
    · exact ⟨rfl, by simp⟩
  unfold makePopm newPopm
  cases o.owner with
  | none => exact ⟨h1.1, by simpa using h1.2⟩
  | some own =>
    cases o.rating with
    | none => exact ⟨h1.1, by simpa using h1.2⟩
    | some r =>
      dsimp only
      split
      · rw [hd, hn]
        refine ⟨h1.1, ?_⟩
        show contents (pushBack _ _) = _
        rw [contents_push, h1.2, h1.1]
      · exact ⟨h1.1, by simpa using h1.2⟩

/-- Counters that were made are taken for what they are. -/
theorem see_newPcnt {c : Cfg} {o : PopmCfg} (ha : o.absolute = true) (hd : o.dryRun = false) {b : Bool} {s : Seen} {i : Nat} {g : List Fr}
    (hg : g.map itemOf = newPcnt c o i) : ∃ m g', seeFrames c o b s g = .ok (⟨s.pcnt + g.length, s.popm, max s.pc m⟩, g') ∧ g'.map itemOf = newPcnt c o i := by
  have hg' := hg
  unfold newPcnt at hg
  split at hg
  · rename_i hi
    cases g with
    | nil => cases hg
    | cons x g =>
      cases g with
      | cons _ _ => simp at hg
      | nil =>
        simp only [List.map_cons, List.map_nil, List.cons.injEq, itemOf, Item.mk.injEq, and_true] at hg
        obtain ⟨g1, g2, g3⟩ := hg
        refine ⟨o.count, [{ x with data := resetCounter o.count }], ?_, ?_⟩
        · unfold seeFrames seeFrame
          rw [g1, if_pos ⟨rfl, .inr hi.1⟩, g2, if_pos rfl]
          unfold seePcnt processPcnt PopmCfg.new
          rw [if_neg hi.1, if_pos ha, Res.ok_bind, hd]
          rfl
        · rw [← hg']
          simp [itemOf, g1, g2, g3]
  · have : g = [] := List.map_eq_nil_iff.1 hg
    subst this
    exact ⟨0, [], by simp [seeFrames], hg'⟩

theorem see_newPopm {c : Cfg} {o : PopmCfg} (ha : o.absolute = true) (hd : o.dryRun = false) (hb : o.count < 2 ^ 32) (ho : OwnerOk o) {b : Bool} {s : Seen} {j : Nat}
    {g : List Fr} (hg : g.map itemOf = newPopm c o j) : ∃ m g', seeFrames c o b s g = .ok (⟨s.pcnt, s.popm + g.length, max s.pc m⟩, g') ∧
      g'.map itemOf = newPopm c o j := by
  have hg' := hg
  have none : g = [] → ∃ m g', seeFrames c o b s g = .ok (⟨s.pcnt, s.popm + g.length, max s.pc m⟩, g') ∧ g'.map itemOf = newPopm c o j := by
    rintro rfl
    exact ⟨0, [], by simp [seeFrames], hg'⟩
  unfold newPopm at hg
  split at hg
  · rename_i own r eo er
    split at hg
    · rename_i hi
      cases g with
      | nil => cases hg
      | cons x g =>
        cases g with
        | cons _ _ => simp at hg
        | nil =>
          simp only [List.map_cons, List.map_nil, List.cons.injEq, itemOf, Item.mk.injEq, and_true] at hg
          obtain ⟨g1, g2, g3⟩ := hg
          obtain ⟨h0, he⟩ := ho own eo
          have hw : (Popm.make own r o.count).write = own ++ 0 :: r :: resetCounter o.count := by simp [Popm.make, Popm.write]
          have hem : (if own.isEmpty then .ok [] else o.email own) = (.ok own : Res Bytes) := by
            cases own with
            | nil => rfl
            | cons x xs => exact he (by simp)
          refine ⟨o.count, [x], ?_, ?_⟩
          · unfold seeFrames seeFrame
            rw [if_neg (by rw [g1]; intro h; exact pop_ne c h.1), if_pos ⟨g1, .inr hi.1⟩, if_pos g2]
            unfold seePopm
            rw [g3, hw, popm_parse h0, Res.ok_bind]
            dsimp only
            rw [hem, Res.ok_bind]
            unfold Popm.count
            dsimp only
            rw [Props.C20_set_partial _ hb, Res.ok_bind, if_pos (.inr eo)]
            unfold processPopm PopmCfg.new
            rw [if_pos ha, Res.ok_bind, hd, er]
            simp only [Res.ok_bind, seeFrames, Popm.write, Bool.false_eq_true, if_false, Option.getD_some, List.length_cons, List.length_nil]
            have : x.data = own ++ 0 :: (r :: resetCounter o.count) := by rw [g3, hw]
            obtain ⟨xp, xi, xc, xd⟩ := x
            simp_all
          · rw [← hg']
    · exact none (List.map_eq_nil_iff.1 hg)
  · exact none (List.map_eq_nil_iff.1 hg)

/-- Frames that stay as they are, and those made. -/
theorem popm_settles {o : PopmCfg} (ha : o.absolute = true) (hd : o.dryRun = false) (hb : o.count < 2 ^ 32) (ho : OwnerOk o) {b : Bool} {t' : Tg} {l : List Item}
    {i j : Nat} (hcls : ∀ x ∈ l, x.cls = readCls t'.cfg x.id) (hc : contents t'.tag = l ++ newPcnt t'.cfg o i ++ newPopm t'.cfg o j)
    (hs : ∀ s2 g, g.map itemOf = l → ∃ m2 g', seeFrames t'.cfg o b s2 g = .ok (⟨s2.pcnt + i, s2.popm + j, max s2.pc m2⟩, g') ∧ g'.map itemOf = l) :
    Stays (popmTag o b) t' := by
  have hi : ∀ x ∈ contents t'.tag, x.cls = readCls t'.cfg x.id := by
    intro x hx
    rw [hc] at hx
    rcases List.mem_append.1 hx with hx | hx
    · rcases List.mem_append.1 hx with hx | hx
      · exact hcls x hx
      · unfold newPcnt at hx
        split at hx
        · rw [List.mem_singleton] at hx; subst hx; exact (cnt_cls _).symm
        · cases hx
    · unfold newPopm at hx
      split at hx
      · split at hx
        · rw [List.mem_singleton] at hx; subst hx; exact (pop_cls _).symm
        · cases hx
      · cases hx
  have hr : (reread t').tag.frames.map itemOf = l ++ newPcnt t'.cfg o i ++ newPopm t'.cfg o j := by rw [← hc]; exact reread_contents hi
  obtain ⟨g12, g3, hg, h12, h3⟩ := List.map_eq_append_iff.1 hr
  obtain ⟨g1, g2, rfl, h1, h2⟩ := List.map_eq_append_iff.1 h12
  obtain ⟨m1, k1, e1, i1⟩ := hs ⟨0, 0, 0⟩ g1 h1
  obtain ⟨m2, k2, e2, i2⟩ := see_newPcnt (c := t'.cfg) ha hd (b := b) (s := ⟨0 + i, 0 + j, max 0 m1⟩) h2
  obtain ⟨m3, k3, e3, i3⟩ := see_newPopm (c := t'.cfg) ha hd hb ho (b := b) (s := ⟨0 + i + g2.length, 0 + j, max (max 0 m1) m2⟩) h3
  have es := sees_append (sees_append e1 e2) e3
  rw [← hg] at es
  have hk : (k1 ++ k2 ++ k3).map itemOf = contents t'.tag := by rw [List.map_append, List.map_append, i1, i2, i3, hc]
  have hst : ∀ u : Tg, contents u.tag = contents t'.tag → stored u = stored t' := fun u h => by unfold stored; rw [h]
  have n1 : ¬ (o.policy ≠ .popmOnly ∧ 0 + i + g2.length = 0) := by
    rintro ⟨p1, p2⟩
    have hi0 : i = 0 := by omega
    have hg0 : g2 = [] := by cases g2 with
      | nil => rfl
      | cons _ _ => simp at p2
    rw [hg0] at h2
    unfold newPcnt at h2
    rw [if_pos ⟨p1, hi0⟩] at h2
    cases h2
  unfold Stays popmTag
  show ∃ b' t'', (seeFrames t'.cfg o b ⟨0, 0, 0⟩ (reread t').tag.frames).bind _ = _ ∧ _
  rw [es, Res.ok_bind]
  dsimp only
  cases b with
  | false => exact ⟨_, _, rfl, hst _ hk⟩
  | true =>
    rw [if_pos rfl]
    refine ⟨_, _, rfl, hst _ ?_⟩
    have e4 : ∀ (x : Nat) (t : Tg), makePcnt o ⟨0 + i + g2.length, 0 + j + g3.length, x⟩ t = (false, t) := by
      intro x t
      unfold makePcnt
      exact if_neg n1
    have e5 : ∀ (x : Nat) (t : Tg), makePopm o ⟨0 + i + g2.length, 0 + j + g3.length, x⟩ t = (false, t) := by
      intro x t
      unfold makePopm
      split
      · rename_i own r eo er
        apply if_neg
        rintro ⟨p1, p2⟩
        dsimp only at p2
        have hj0 : j = 0 := by omega
        have hg0 : g3 = [] := by cases g3 with
          | nil => rfl
          | cons _ _ => simp at p2
        rw [hg0] at h3
        unfold newPopm at h3
        rw [eo, er] at h3
        dsimp only at h3
        rw [if_pos ⟨p1, hj0⟩] at h3
        cases h3
      · rfl
    rw [e4, e5]
    exact hk

/-- `popm` with `--count`. -/
theorem popm_stays {o : PopmCfg} (ha : o.absolute = true) (hd : o.dryRun = false) (hb : o.count < 2 ^ 32) (ho : OwnerOk o) {create : Bool} {t t' : Tg} {u : Bool}
    (h : Neat t.cfg t.tag) (hA : create = true → ∀ x ∈ contents t.tag, Ours t.cfg o x) (e : popmTag o create t = .ok (u, t')) : Stays (popmTag o create) t' := by
  unfold popmTag at e
  obtain ⟨⟨s, l⟩, e1, e⟩ := Props.res_bind_ok e
  obtain ⟨hcl, i, j, m, hs, hm, hag⟩ := sees_again ha hd hb ho e1 h.cls
  have hcl' : ∀ x ∈ l.map itemOf, x.cls = readCls t.cfg x.id := by
    intro x hx
    obtain ⟨f, hf, rfl⟩ := List.mem_map.1 hx
    exact hcl f hf
  dsimp only at e
  cases create with
  | false =>
    cases e
    have hr : contents (reread { t with tag := { t.tag with frames := l } }).tag = l.map itemOf := reread_contents hcl'
    obtain ⟨m2, g', h1, h2⟩ := hag ⟨0, 0, 0⟩ _ hr
    unfold Stays popmTag
    show ∃ b' t'', (seeFrames t.cfg o false ⟨0, 0, 0⟩ (reread { t with tag := { t.tag with frames := l } }).tag.frames).bind _ = _ ∧ _
    rw [h1, Res.ok_bind]
    refine ⟨_, _, rfl, ?_⟩
    unfold stored contents
    show List.map _ (g'.map itemOf) = _
    rw [h2]
    rfl
  | true =>
    rw [if_pos rfl] at e
    have hm' := hm fun f hf => hA rfl _ (List.mem_map.2 ⟨f, hf, rfl⟩)
    injection e with e
    rw [Prod.mk.injEq] at e
    obtain ⟨-, rfl⟩ := e
    obtain ⟨c1, c2⟩ := made_items (o := o) hd (s := s) (t := { t with tag := { t.tag with frames := l } }) (by rw [hs]; simpa using hm')
    refine popm_settles (l := l.map itemOf) (i := i) (j := j) ha hd hb ho ?_ ?_ ?_
    · rw [c1]; exact hcl'
    · rw [c2, c1, hs]
      simp [contents, itemOf]
    · rw [c1]; exact hag

/-- A tag made for it. -/
theorem popm_made {o : PopmCfg} (ha : o.absolute = true) (hd : o.dryRun = false) (hb : o.count < 2 ^ 32) (ho : OwnerOk o) {b : Bool} {t t' : Tg} {u : Bool}
    (h : Neat t.cfg t.tag) (hA : ∀ x ∈ contents t.tag, x.id ≠ t.cfg.cntId ∧ x.id ≠ t.cfg.popId) (e : popmTag o true t = .ok (u, t')) : Stays (popmTag o b) t' := by
  have key : ∀ (b : Bool) (g : List Fr) (s : Seen), (∀ f ∈ g, f.id ≠ t.cfg.cntId ∧ f.id ≠ t.cfg.popId) → seeFrames t.cfg o b s g = .ok (s, g) := by
    intro b g
    induction g with
    | nil => intro s _; rfl
    | cons f g ih =>
      intro s hf
      unfold seeFrames seeFrame
      rw [if_neg (fun h => (hf f (by simp)).1 h.1), if_neg (fun h => (hf f (by simp)).2 h.1), Res.ok_bind]
      dsimp only
      rw [ih s fun x hx => hf x (List.mem_cons_of_mem _ hx)]
      rfl
  unfold popmTag at e
  rw [key true _ _ fun f hf => hA _ (List.mem_map.2 ⟨f, hf, rfl⟩), Res.ok_bind] at e
  dsimp only at e
  rw [if_pos rfl] at e
  injection e with e
  rw [Prod.mk.injEq] at e
  obtain ⟨-, rfl⟩ := e
  obtain ⟨c1, c2⟩ := made_items (o := o) hd (s := ⟨0, 0, 0⟩) (t := t) (.inl rfl)
  refine popm_settles (l := contents t.tag) (i := 0) (j := 0) ha hd hb ho ?_ ?_ ?_
  · rw [c1]; exact neat_items h
  · rw [c2, c1]
  · rw [c1]
    intro s2 g hg
    refine ⟨0, g, ?_, hg⟩
    rw [key b g s2]
    · simp
    · intro f hf
      have : itemOf f ∈ contents t.tag := hg ▸ List.mem_map_of_mem hf
      exact hA _ this

/-! ## Tags made from ID3v1 tags have neither -/

theorem setText_cls {c : Cfg} {t t' : LTag} {id d : Bytes} (e : t.setText c id d = .ok t') (h : ∀ x ∈ contents t, x.cls = .text ∨ x.cls = .com) :
    ∀ x ∈ contents t', x.cls = .text ∨ x.cls = .com := by
  unfold LTag.setText at e
  split at e
  · obtain ⟨f, -, e⟩ := Props.res_bind_ok e
    cases e
    intro x hx
    obtain ⟨f, hf, rfl⟩ := List.mem_map.1 hx
    obtain ⟨g, hg, rfl⟩ := List.mem_map.1 hf
    have := h _ (List.mem_map.2 ⟨g, hg, rfl⟩)
    split <;> exact this
  · cases e
    intro x hx
    rw [contents_push] at hx
    rcases List.mem_append.1 hx with hx | hx
    · exact h x hx
    · rw [List.mem_singleton] at hx; subst hx; exact .inl rfl

theorem set_cls {C : Conv} {t t' : Tg} {f : TextFrame} {s : Bytes} (e : t.setText C f s = .ok t') (h : ∀ x ∈ contents t.tag, x.cls = .text ∨ x.cls = .com) :
    ∀ x ∈ contents t'.tag, x.cls = .text ∨ x.cls = .com := by
  unfold Tg.setText at e
  obtain ⟨id, -, e⟩ := Props.res_bind_ok e
  obtain ⟨d, -, e⟩ := Props.res_bind_ok e
  obtain ⟨l, h3, e⟩ := Props.res_bind_ok e
  cases e
  exact setText_cls h3 h

theorem textIf_cls {C : Conv} {t t' : Tg} {f : TextFrame} {s : Bytes} (e : textIf C t f s = .ok t') (h : ∀ x ∈ contents t.tag, x.cls = .text ∨ x.cls = .com) :
    ∀ x ∈ contents t'.tag, x.cls = .text ∨ x.cls = .com := by
  unfold textIf at e
  split at e
  · exact set_cls e h
  · cases e; exact h

theorem copyV1_cls {C : Conv} {c : Cfg} {v1 : V1Tag} {t : Tg} (e : copyV1 C c v1 = .ok t) : ∀ x ∈ contents t.tag, x.cls = .text ∨ x.cls = .com := by
  unfold copyV1 at e
  obtain ⟨s1, -, e⟩ := Props.res_bind_ok e
  obtain ⟨t1, e1, e⟩ := Props.res_bind_ok e
  obtain ⟨s2, -, e⟩ := Props.res_bind_ok e
  obtain ⟨t2, e2, e⟩ := Props.res_bind_ok e
  obtain ⟨s3, -, e⟩ := Props.res_bind_ok e
  obtain ⟨t3, e3, e⟩ := Props.res_bind_ok e
  obtain ⟨s4, -, e⟩ := Props.res_bind_ok e
  obtain ⟨t4, e4, e⟩ := Props.res_bind_ok e
  obtain ⟨t5, e5, e⟩ := Props.res_bind_ok e
  obtain ⟨s6, -, e⟩ := Props.res_bind_ok e
  have n3 := textIf_cls e3 (textIf_cls e2 (textIf_cls e1 (by simp [contents, LTag.empty])))
  have n4 : ∀ x ∈ contents t4.tag, x.cls = .text ∨ x.cls = .com := by
    unfold copyComment at e4
    split at e4
    · obtain ⟨d, -, e4⟩ := Props.res_bind_ok e4
      obtain ⟨l, l4, e4⟩ := Props.res_bind_ok e4
      cases e4
      unfold addComment at l4
      split at l4
      · cases l4
        intro x hx
        rw [contents_push] at hx
        rcases List.mem_append.1 hx with hx | hx
        · exact n3 x hx
        · rw [List.mem_singleton] at hx; subst hx; exact .inr rfl
      · cases l4
    · cases e4; exact n3
  have n5 : ∀ x ∈ contents t5.tag, x.cls = .text ∨ x.cls = .com := by
    unfold copyGenre at e5
    split at e5
    · split at e5
      · cases e5
      · exact set_cls e5 n4
    · cases e5; exact n4
  split at e
  · exact set_cls e n5
  · cases e; exact n5

theorem no_counts {t : Tg} (h : Neat t.cfg t.tag) (hc : ∀ x ∈ contents t.tag, x.cls = .text ∨ x.cls = .com) :
    ∀ x ∈ contents t.tag, x.id ≠ t.cfg.cntId ∧ x.id ≠ t.cfg.popId := by
  intro x hx
  have h1 := neat_items h x hx
  have h2 := hc x hx
  constructor
  · intro e
    rw [e, cnt_cls] at h1
    rw [h1] at h2
    rcases h2 with h2 | h2 <;> cases h2
  · intro e
    rw [e, pop_cls] at h1
    rw [h1] at h2
    rcases h2 with h2 | h2 <;> cases h2

/-! ## ID3v1 tags -/

theorem genreV1_again {C : Conv} {g : Byte} {t t' : V1Tag} {b : Bool} (e : genreV1 C g t = .ok (b, t')) : ∃ b', genreV1 C g t' = .ok (b', t') := by
  unfold genreV1 at e
  dsimp only at e
  split at e
  · rename_i hx
    split at e
    · rename_i hg
      cases e
      refine ⟨true, ?_⟩
      unfold genreV1
      dsimp only
      rw [if_pos (by exact hx), hg]
      rfl
    · rename_i s hg
      obtain ⟨d, hd, e⟩ := Props.res_bind_ok e
      cases e
      refine ⟨true, ?_⟩
      unfold genreV1
      dsimp only
      rw [if_pos (by rfl), hg]
      dsimp only
      rw [hd]
      rfl
  · rename_i hx
    cases e
    refine ⟨true, ?_⟩
    unfold genreV1
    dsimp only
    rw [if_neg (by exact hx)]
    rfl

theorem genreV1_plain {C : Conv} {g : Byte} {t : V1Tag} (h : t.extended = false) : ∃ b', genreV1 C g (t.apply (.setGenre g)) = .ok (b', t.apply (.setGenre g)) := by
  refine ⟨true, ?_⟩
  unfold genreV1
  dsimp only
  rw [if_neg (by show ¬ t.extended = true; rw [h]; decide)]
  rfl

theorem setIf_plain {t t' : V1Tag} {o : Option Bytes} {conv : Bytes → Res Bytes} {op : Bytes → V1Tag.Op} (hop : ∀ b t, (V1Tag.apply t (op b)).extended = t.extended)
    (h : t.extended = false) (e : setIf t o conv op = .ok t') : t'.extended = false := by
  unfold setIf at e
  split at e
  · cases e; exact h
  · obtain ⟨b, -, e⟩ := Props.res_bind_ok e
    cases e
    rw [hop, h]

theorem copyV2_plain {C : Conv} {l : List Tg} {t : V1Tag} (e : copyV2 C l = .ok t) : t.extended = false := by
  unfold copyV2 at e
  obtain ⟨s1, -, e⟩ := Props.res_bind_ok e
  obtain ⟨t1, e1, e⟩ := Props.res_bind_ok e
  obtain ⟨s2, -, e⟩ := Props.res_bind_ok e
  obtain ⟨t2, e2, e⟩ := Props.res_bind_ok e
  obtain ⟨s3, -, e⟩ := Props.res_bind_ok e
  obtain ⟨t3, e3, e⟩ := Props.res_bind_ok e
  obtain ⟨s4, -, e⟩ := Props.res_bind_ok e
  obtain ⟨t4, e4, e⟩ := Props.res_bind_ok e
  obtain ⟨s5, -, e⟩ := Props.res_bind_ok e
  have h4 := setIf_plain (fun _ _ => rfl) (setIf_plain (fun _ _ => rfl) (setIf_plain (fun _ _ => rfl) (setIf_plain (fun _ _ => rfl) rfl e1) e2) e3) e4
  split at e
  · cases e; exact h4
  · cases e; exact h4

/-- The three fields that `text` sets. -/
def with3 (t : V1Tag) (x : Option Bytes × Option Bytes × Option Bytes) : V1Tag :=
  { t with title := x.1.getD t.title, artist := x.2.1.getD t.artist, album := x.2.2.getD t.album }

/-- One after the other. -/
def over3 (x y : Option Bytes × Option Bytes × Option Bytes) : Option Bytes × Option Bytes × Option Bytes :=
  (y.1 <|> x.1, y.2.1 <|> x.2.1, y.2.2 <|> x.2.2)

theorem with3_with3 (t : V1Tag) (x y : Option Bytes × Option Bytes × Option Bytes) : with3 (with3 t x) y = with3 t (over3 x y) := by
  obtain ⟨a, b, c⟩ := x
  obtain ⟨a', b', c'⟩ := y
  cases a' <;> cases b' <;> cases c' <;> rfl

theorem over3_self (x : Option Bytes × Option Bytes × Option Bytes) : over3 x x = x := by
  obtain ⟨a, b, c⟩ := x
  cases a <;> cases b <;> cases c <;> rfl

/-- What is put into a field of a tag that is extended or is not. -/
def field (e : Bool) (b : Bytes) : Bytes := resize b (if e then 90 else 30)

theorem clearV1_with : ∀ (dels : List TextFrame) (e : Bool), ∃ x, ∀ t : V1Tag, t.extended = e → clearV1 dels t = with3 t x
  | [], e => ⟨(none, none, none), fun t _ => rfl⟩
  | f :: fs, e => by
    obtain ⟨x, hx⟩ := clearV1_with fs e
    cases f
    case tit2 =>
      exact ⟨over3 (some (field e []), none, none) x, fun t ht => by subst ht; rw [← with3_with3]; exact hx _ rfl⟩
    case tpe1 =>
      exact ⟨over3 (none, some (field e []), none) x, fun t ht => by subst ht; rw [← with3_with3]; exact hx _ rfl⟩
    case talb =>
      exact ⟨over3 (none, none, some (field e [])) x, fun t ht => by subst ht; rw [← with3_with3]; exact hx _ rfl⟩
    all_goals exact ⟨x, fun t ht => hx t ht⟩

theorem setV1_with {C : Conv} : ∀ (adds : List (TextFrame × Bytes)) {t t' : V1Tag}, setV1 C adds t = .ok t' → ∃ x, t' = with3 t x ∧
    ∀ u : V1Tag, u.extended = t.extended → setV1 C adds u = .ok (with3 u x)
  | [], t, t', e => by cases e; exact ⟨(none, none, none), rfl, fun u _ => rfl⟩
  | (f, s) :: fs, t, t', e => by
    cases f
    case tit2 =>
      unfold setV1 at e
      obtain ⟨b, hb, e⟩ := Props.res_bind_ok e
      obtain ⟨x, h1, h2⟩ := setV1_with fs e
      refine ⟨over3 (some (field t.extended b), none, none) x, by rw [← with3_with3]; exact h1, ?_⟩
      intro u hu
      unfold setV1
      rw [hb, Res.ok_bind, ← with3_with3, ← hu]
      exact h2 _ hu
    case tpe1 =>
      unfold setV1 at e
      obtain ⟨b, hb, e⟩ := Props.res_bind_ok e
      obtain ⟨x, h1, h2⟩ := setV1_with fs e
      refine ⟨over3 (none, some (field t.extended b), none) x, by rw [← with3_with3]; exact h1, ?_⟩
      intro u hu
      unfold setV1
      rw [hb, Res.ok_bind, ← with3_with3, ← hu]
      exact h2 _ hu
    case talb =>
      unfold setV1 at e
      obtain ⟨b, hb, e⟩ := Props.res_bind_ok e
      obtain ⟨x, h1, h2⟩ := setV1_with fs e
      refine ⟨over3 (none, none, some (field t.extended b)) x, by rw [← with3_with3]; exact h1, ?_⟩
      intro u hu
      unfold setV1
      rw [hb, Res.ok_bind, ← with3_with3, ← hu]
      exact h2 _ hu
    all_goals
      obtain ⟨x, h1, h2⟩ := setV1_with fs (t := t) (t' := t') e
      exact ⟨x, h1, fun u hu => h2 u hu⟩

theorem textV1_again {C : Conv} {dels : List TextFrame} {adds : List (TextFrame × Bytes)} {t t' : V1Tag} {b : Bool} (e : textV1 C dels adds t = .ok (b, t')) :
    ∃ b', textV1 C dels adds t' = .ok (b', t') := by
  unfold textV1 at e
  obtain ⟨x, hx⟩ := clearV1_with dels t.extended
  rw [hx t rfl] at e
  obtain ⟨t1, e1, e⟩ := Props.res_bind_ok e
  cases e
  obtain ⟨y, h1, h2⟩ := setV1_with adds e1
  subst h1
  refine ⟨false, ?_⟩
  unfold textV1
  rw [hx (with3 (with3 t x) y) rfl, h2 (with3 (with3 (with3 t x) y) x) rfl, Res.ok_bind]
  have : with3 (with3 (with3 (with3 t x) y) x) y = with3 (with3 t x) y := by
    rw [with3_with3 t, with3_with3 (with3 t _), with3_with3 t, over3_self]
  rw [this]

end Scribbu.Again
