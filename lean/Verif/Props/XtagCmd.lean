import Verif.Proofs.XtagCmd
import Verif.Props.TagCloud
import Verif.Props.PopmCmd

/-! C92: `xtag --get` only reads. C93: tag clouds are changed as asked. -/

namespace Scribbu.Props
open Scribbu Path Commands Process Spec LTag Lookup TagCloud

/-- What the text makes of a tag cloud that was read. -/
def newCloud (o : XtagCfg) (t : TagCloud) : TagCloud := if o.merge then (t.merge o.cloud).2 else (t.update o.cloud).2

theorem text_ok {own text : Bytes} {t0 : TagCloud} (h : ofText own text = .ok t0) (t : TagCloud) :
    (t.merge text).1 = .ok () ∧ (t.update text).1 = .ok () := by
  unfold ofText at h
  unfold merge update
  rcases parse_spec text with ⟨M, e, -⟩ | ⟨M, e⟩ <;> rw [e] at h ⊢
  · exact ⟨rfl, rfl⟩
  · cases h

/-- A cloud of strings without NULs can be read back, if its frame has less than 4 GB. -/
theorem cloud_back {t : TagCloud} (h : MapOk t.tags) (ho : (0 : Byte) ∉ t.own) (hc : Clean t.tags) (hl : t.write.length < 2 ^ 32) :
    cloudOf t.write = .ok t := by
  unfold cloudOf
  rw [C18_binary_partial t h ho]
  intro e he
  refine ⟨(hc e he).1, (hc e he).2, ?_⟩
  rw [C18_size, size] at hl
  have : (e.2.map fun v => v.length + 1).sum ≤
      (t.tags.map fun e => e.1.length + 1 + 4 + (e.2.map fun v => v.length + 1).sum).sum := by
    clear hl hc h ho
    generalize t.tags = M at he
    induction M with
    | nil => cases he
    | cons x M ih =>
      simp only [List.map_cons, List.sum_cons]
      rcases List.mem_cons.1 he with rfl | he
      · omega
      · have := ih he; omega
  omega

theorem clean_of_represents {m : TagMap} {a : AbsCloud} (h : Represents m a) (hk : ∀ k, a.key k → (0 : Byte) ∉ k)
    (hv : ∀ k v, a.val k v → (0 : Byte) ∉ v) : Clean m := by
  rintro ⟨k, s⟩ he
  exact ⟨hk k ((h.1 k).1 ⟨s, he⟩), fun v hvs => hv k v ((h.2 k v).1 ⟨s, he, hvs⟩)⟩

theorem represents_clean {m : TagMap} {a : AbsCloud} (h : Represents m a) (hc : Clean m) :
    (∀ k, a.key k → (0 : Byte) ∉ k) ∧ ∀ k v, a.val k v → (0 : Byte) ∉ v := by
  refine ⟨fun k hk => ?_, fun k v hv => ?_⟩
  · obtain ⟨s, hs⟩ := (h.1 k).2 hk
    exact (hc _ hs).1
  · obtain ⟨s, hs, hvs⟩ := (h.2 k v).2 hv
    exact (hc _ hs).2 v hvs

/-- A cloud that was read, changed as asked, is read back. -/
theorem new_cloud {o : XtagCfg} {own : Bytes} {t0 : TagCloud} (hg : o.get = false) (hd : o.dryRun = false)
    (hok : ofText own o.cloud = .ok t0) (hn : CleanText o.cloud) {d : Bytes} {t : TagCloud} (h : cloudOf d = .ok t) :
    changeCloud o t = .ok (newCloud o t) ∧ (newCloud o t).own = t.own ∧ MapOk (newCloud o t).tags ∧
      (∀ a, Represents t.tags a → Represents (newCloud o t).tags (cloudAfter o a)) ∧
      ((newCloud o t).write.length < 2 ^ 32 → cloudOf (newCloud o t).write = .ok (newCloud o t)) := by
  obtain ⟨h1, h2, h3⟩ := cloudOf_inv h
  obtain ⟨k1, k2⟩ := text_ok hok t
  have hr : Represents t.tags ⟨KeyIn t.tags, ValIn t.tags⟩ := ⟨fun _ => Iff.rfl, fun _ _ => Iff.rfl⟩
  obtain ⟨c1, c2⟩ := represents_clean hr h2
  cases hm : o.merge with
  | true =>
    have hnc : newCloud o t = (t.merge o.cloud).2 := by simp [newCloud, hm]
    have hs := fun a ha => C19_step (.merge o.cloud) t a h1 ha k1
    simp only [CloudOp.run, CloudOp.meaning] at hs
    rw [hnc]
    refine ⟨by simp [changeCloud, hg, hd, hm, k1], (hs _ hr).2.2, (hs _ hr).1, fun a ha => by simpa [cloudAfter, hm] using (hs a ha).2.1, ?_⟩
    refine cloud_back (hs _ hr).1 ((hs _ hr).2.2 ▸ h3) (clean_of_represents (hs _ hr).2.1 ?_ ?_)
    · rintro k (hk | hk)
      · exact hn.1 k hk
      · exact c1 k hk
    · rintro k v (hv | hv)
      · exact hn.2 k v hv
      · exact c2 k v hv
  | false =>
    have hnc : newCloud o t = (t.update o.cloud).2 := by simp [newCloud, hm]
    have hs := fun a ha => C19_step (.update o.cloud) t a h1 ha k2
    simp only [CloudOp.run, CloudOp.meaning] at hs
    rw [hnc]
    refine ⟨by simp [changeCloud, hg, hd, hm, k2], (hs _ hr).2.2, (hs _ hr).1, fun a ha => by simpa [cloudAfter, hm] using (hs a ha).2.1, ?_⟩
    exact cloud_back (hs _ hr).1 ((hs _ hr).2.2 ▸ h3) (clean_of_represents (hs _ hr).2.1 hn.1 hn.2)

/-- One frame. -/
theorem seeXtag_spec {c : Cfg} {o : XtagCfg} {own : Bytes} {t0 : TagCloud} (hg : o.get = false) (hd : o.dryRun = false)
    (hok : ofText own o.cloud = .ok t0) (hn : CleanText o.cloud) (f : Fr) (hf : f.id = xtgId c → ∃ y, cloudOf f.data = .ok y) :
    ∃ b f', seeXtag c o f = .ok (b, f') ∧ f'.ptr = f.ptr ∧ CloudDone c o (itemOf f) (itemOf f') ∧
      (b = true ↔ CloudAsked c o.owner (itemOf f)) := by
  unfold seeXtag
  by_cases hi : f.id = xtgId c
  · rw [if_neg (by simp [hi])]
    obtain ⟨t, ht⟩ := hf hi
    rw [ht, Res.ok_bind]
    have hr : Represents t.tags ⟨KeyIn t.tags, ValIn t.tags⟩ := ⟨fun _ => Iff.rfl, fun _ _ => Iff.rfl⟩
    by_cases ho : o.owner ≠ [] ∧ o.owner ≠ t.own
    · rw [if_pos ho]
      have hna : ¬ CloudAsked c o.owner (itemOf f) := by
        rintro ⟨own', a, ⟨-, t', ht', rfl, -⟩, h⟩
        have : cloudOf f.data = .ok t' := ht'
        rw [ht] at this
        cases this
        rcases h with h | h
        · exact ho.1 h
        · exact ho.2 h
      refine ⟨_, _, rfl, rfl, ⟨rfl, rfl, fun own' a hca ho' => absurd ⟨own', a, hca, ho'⟩ hna, fun _ => rfl⟩, by simp [hna]⟩
    · rw [if_neg ho]
      obtain ⟨e1, e2, e3, e4, e5⟩ := new_cloud hg hd hok hn ht
      rw [e1, Res.ok_bind]
      have ho' : o.owner = [] ∨ o.owner = t.own := by
        by_cases h1 : o.owner = []
        · exact .inl h1
        · by_cases h2 : o.owner = t.own
          · exact .inr h2
          · exact absurd ⟨h1, h2⟩ ho
      have ha : CloudAsked c o.owner (itemOf f) := ⟨t.own, _, ⟨hi, t, ht, rfl, hr⟩, ho'⟩
      have hif : (if o.get = true ∨ o.dryRun = true then f else { f with data := (newCloud o t).write }) =
          { f with data := (newCloud o t).write } := if_neg (by simp [hg, hd])
      rw [hif]
      refine ⟨_, _, rfl, rfl, ⟨rfl, rfl, ?_, fun h => absurd ha h⟩, by simp [ha]⟩
      rintro own' a ⟨-, t', ht', rfl, hra⟩ - hl
      have : cloudOf f.data = .ok t' := ht'
      rw [ht] at this
      cases this
      exact ⟨hi, _, e5 hl, e2, e4 a hra⟩
  · rw [if_pos hi]
    have hna : ¬ CloudAsked c o.owner (itemOf f) := fun ⟨_, _, ⟨h, _⟩, _⟩ => hi h
    exact ⟨_, _, rfl, rfl, ⟨rfl, rfl, fun own' a hca ho' => absurd ⟨own', a, hca, ho'⟩ hna, fun _ => rfl⟩, by simp [hna]⟩

/-- All frames. -/
theorem seeXtags_spec {c : Cfg} {o : XtagCfg} {own : Bytes} {t0 : TagCloud} (hg : o.get = false) (hd : o.dryRun = false)
    (hok : ofText own o.cloud = .ok t0) (hn : CleanText o.cloud) : ∀ (l : List Fr),
    (∀ f ∈ l, f.id = xtgId c → ∃ y, cloudOf f.data = .ok y) →
    ∃ n l', seeXtags c o l = .ok (n, l') ∧ Pointwise (CloudDone c o) (l.map itemOf) (l'.map itemOf) ∧
      (n ≠ 0 ↔ ∃ f ∈ l, CloudAsked c o.owner (itemOf f)) := by
  intro l
  induction l with
  | nil => exact fun _ => ⟨0, [], rfl, ⟨rfl, fun i x y h => by simp at h⟩, by simp⟩
  | cons f l ih =>
    intro hr
    obtain ⟨b, f', e1, -, d1, a1⟩ := seeXtag_spec hg hd hok hn f (hr f (List.mem_cons_self ..))
    obtain ⟨n, l', e2, d2, a2⟩ := ih fun g hg => hr g (List.mem_cons_of_mem _ hg)
    refine ⟨n + if b then 1 else 0, f' :: l', by simp only [seeXtags, e1, Res.ok_bind, e2], pointwise_cons d1 d2, ?_⟩
    simp only [List.mem_cons, exists_eq_or_imp, ← a1, ← a2]
    cases b <;> simp

/-- C93, in full: whatever text is accepted, the tag clouds asked for are changed as asked, one is made if none was there and that was
asked for, and nothing else happens. -/
def C93_claim : Prop :=
  ∀ (o : XtagCfg) (t : Tg), o.get = false → o.dryRun = false → 0 ∉ o.owner → (∃ t0, ofText o.owner o.cloud = .ok t0) → CloudsReadable t →
    ∃ upd t', xtagTag o t = .ok (upd, t') ∧ CloudsDone o t upd t'

/-- C93, as far as it holds: if no string in the text has a NUL. -/
theorem C93_partial {o : XtagCfg} {t : Tg} (hg : o.get = false) (hd : o.dryRun = false) (h0 : 0 ∉ o.owner)
    (hok : ∃ t0, ofText o.owner o.cloud = .ok t0) (hn : CleanText o.cloud) (hc : CloudsReadable t) :
    ∃ upd t', xtagTag o t = .ok (upd, t') ∧ CloudsDone o t upd t' := by
  obtain ⟨t0, hok⟩ := hok
  obtain ⟨n, l, e, hpw, hn0⟩ := seeXtags_spec (c := t.cfg) hg hd hok hn t.tag.frames
    (fun f hf hi => hc (itemOf f) (List.mem_map.2 ⟨f, hf, rfl⟩) hi)
  have hn' : n ≠ 0 ↔ ∃ x ∈ contents t.tag, CloudAsked t.cfg o.owner x := by
    rw [hn0]
    constructor
    · rintro ⟨f, hf, h⟩; exact ⟨_, List.mem_map.2 ⟨f, hf, rfl⟩, h⟩
    · rintro ⟨x, hx, h⟩
      obtain ⟨f, hf, rfl⟩ := List.mem_map.1 hx
      exact ⟨f, hf, h⟩
  unfold xtagTag
  rw [e, Res.ok_bind]
  by_cases hmk : n = 0 ∧ o.create = true ∧ (!o.get) = true
  · rw [if_pos hmk, hd]
    simp only [Bool.false_eq_true, if_false, hok, Res.ok_bind]
    have hna : ¬ ∃ x ∈ contents t.tag, CloudAsked t.cfg o.owner x := fun h => hn'.2 h hmk.1
    refine ⟨_, _, rfl, rfl, l.map itemOf, [⟨xtgId t.cfg, .gen, t0.write⟩], contents_push _ _, hpw, ?_, ?_, by simp⟩
    · intro _
      refine ⟨_, rfl, fun hl => ?_⟩
      have hm : MapOk t0.tags ∧ t0.own = o.owner ∧ Represents t0.tags ⟨MentionsKey o.cloud, MentionsVal o.cloud⟩ := by
        unfold ofText at hok
        rcases parse_spec o.cloud with ⟨M, e, hM, hk, hv⟩ | ⟨M, e⟩ <;> rw [e] at hok
        · cases hok
          exact ⟨hM, rfl, hk, hv⟩
        · cases hok
      exact ⟨rfl, t0, cloud_back hm.1 (hm.2.1 ▸ h0) (clean_of_represents hm.2.2 hn.1 hn.2) hl, hm.2.1, hm.2.2⟩
    · exact fun h => absurd ⟨hmk.2.1, hna⟩ h
  · rw [if_neg hmk]
    refine ⟨_, _, rfl, rfl, l.map itemOf, [], by simp [contents_with], hpw, ?_, fun _ => rfl, by rw [← hn']; simp⟩
    rintro ⟨h1, h2⟩
    exact absurd ⟨Classical.byContradiction fun h => h2 (hn'.1 h), h1, by simp [hg]⟩ hmk

/-- A text that mentions a NUL: "a%00b". -/
def nulText : Bytes := [0x61, 0x25, 0x30, 0x30, 0x62]

def emptyV3 : Tg := ⟨cfg .v3, .empty⟩

/-- C93 is refuted: the frame made for a key with a NUL in it cannot be read. -/
theorem C93_refuted : ¬ C93_claim := by
  intro h
  obtain ⟨upd, t', e, -, l, made, h1, -, h2, -⟩ := h ⟨nulText, [], false, true, false, false⟩ emptyV3 rfl rfl (by simp)
    ⟨⟨[], [([0x61, 0, 0x62], [])]⟩, by decide⟩ (by intro x hx; cases hx)
  have e' : xtagTag ⟨nulText, [], false, true, false, false⟩ emptyV3 =
      .ok (true, ⟨cfg .v3, LTag.empty.pushBack ⟨.gen, .gen, xtgId (cfg .v3), [1, 0, 0x61, 0, 0x62, 0, 0, 0, 0, 0]⟩⟩) := by rfl
  rw [e'] at e
  cases e
  obtain ⟨x, rfl, h3⟩ := h2 ⟨rfl, by rintro ⟨x, hx, -⟩; cases hx⟩
  have h4 : l ++ [x] = [] ++ [⟨xtgId (cfg .v3), .gen, [1, 0, 0x61, 0, 0x62, 0, 0, 0, 0, 0]⟩] := h1.symm.trans rfl
  obtain ⟨rfl, h5⟩ := List.append_inj' h4 rfl
  cases h5
  obtain ⟨-, t, ht, -⟩ := h3 (by decide)
  have : cloudOf [1, 0, 0x61, 0, 0x62, 0, 0, 0, 0, 0] = .ub .oobRead := by decide +kernel
  have ht' : cloudOf [1, 0, 0x61, 0, 0x62, 0, 0, 0, 0, 0] = .ok t := ht
  rw [this] at ht'
  cases ht'

/-- Doing it again changes nothing. -/
theorem newCloud_again {o : XtagCfg} {own : Bytes} {t0 : TagCloud} (hok : ofText own o.cloud = .ok t0) {t : TagCloud} (h : MapOk t.tags) :
    newCloud o (newCloud o t) = newCloud o t := by
  unfold newCloud
  cases o.merge with
  | true => exact C19_merge_idempotent _ _ h
  | false =>
    unfold ofText at hok
    unfold update
    rcases parse_spec o.cloud with ⟨M, e, -⟩ | ⟨M, e⟩ <;> rw [e] at hok ⊢
    · rfl
    · cases hok

theorem seeXtag_again {c : Cfg} {o : XtagCfg} {own : Bytes} {t0 : TagCloud} (hg : o.get = false) (hd : o.dryRun = false)
    (hok : ofText own o.cloud = .ok t0) (hn : CleanText o.cloud) {f f' : Fr} {b : Bool} (h : seeXtag c o f = .ok (b, f'))
    (hl : f'.data.length < 2 ^ 32) : seeXtag c o f' = .ok (b, f') := by
  unfold seeXtag at h
  by_cases hi : f.id = xtgId c
  · rw [if_neg (by simp [hi])] at h
    obtain ⟨t, ht, h⟩ := res_bind_ok h
    by_cases ho : o.owner ≠ [] ∧ o.owner ≠ t.own
    · rw [if_pos ho] at h
      cases h
      unfold seeXtag
      rw [if_neg (by simp [hi]), ht, Res.ok_bind, if_pos ho]
    · rw [if_neg ho] at h
      obtain ⟨e1, e2, e3, e4, e5⟩ := new_cloud hg hd hok hn ht
      rw [e1, Res.ok_bind, if_neg (by simp [hg, hd])] at h
      cases h
      have e6 := e5 hl
      obtain ⟨k1, -⟩ := new_cloud hg hd hok hn e6
      unfold seeXtag
      rw [if_neg (by simp [hi])]
      show (cloudOf (newCloud o t).write).bind _ = _
      rw [e6, Res.ok_bind, e2, if_neg ho, k1, Res.ok_bind, newCloud_again hok (cloudOf_inv ht).1, if_neg (by simp [hg, hd])]
  · rw [if_pos hi] at h
    cases h
    unfold seeXtag
    rw [if_pos hi]

theorem seeXtags_again {c : Cfg} {o : XtagCfg} {own : Bytes} {t0 : TagCloud} (hg : o.get = false) (hd : o.dryRun = false)
    (hok : ofText own o.cloud = .ok t0) (hn : CleanText o.cloud) {l : List Fr} : ∀ {l' : List Fr} {n : Nat}, seeXtags c o l = .ok (n, l') →
    (∀ f ∈ l', f.data.length < 2 ^ 32) → seeXtags c o l' = .ok (n, l') := by
  induction l with
  | nil => intro l' n h _; cases h; rfl
  | cons f l ih =>
    intro l' n h hl
    obtain ⟨⟨b, f'⟩, h1, h2⟩ := res_bind_ok h
    obtain ⟨⟨m, l''⟩, h3, h4⟩ := res_bind_ok h2
    cases h4
    rw [seeXtags, seeXtag_again hg hd hok hn h1 (hl f' (List.mem_cons_self ..)), Res.ok_bind,
      ih h3 fun g hg => hl g (List.mem_cons_of_mem _ hg), Res.ok_bind]

theorem seeXtags_snoc {c : Cfg} {o : XtagCfg} {f f' : Fr} {b : Bool} (h : seeXtag c o f = .ok (b, f')) : ∀ {l l' : List Fr} {n : Nat},
    seeXtags c o l = .ok (n, l') → seeXtags c o (l ++ [f]) = .ok (n + (if b then 1 else 0), l' ++ [f']) := by
  intro l
  induction l with
  | nil => intro l' n hl; cases hl; simp [seeXtags, h]
  | cons g l ih =>
    intro l' n hl
    obtain ⟨⟨b2, g'⟩, h1, h2⟩ := res_bind_ok hl
    obtain ⟨⟨m, l''⟩, h3, h4⟩ := res_bind_ok h2
    cases h4
    simp only [List.cons_append, seeXtags, h1, Res.ok_bind, ih h3, Res.ok.injEq, Prod.mk.injEq, and_true]
    omega

/-- C93: running the sub-command again changes nothing, be it with or without `--merge`. -/
theorem C93_again_partial {o : XtagCfg} {t t' : Tg} {upd : Bool} (hg : o.get = false) (hd : o.dryRun = false) (h0 : 0 ∉ o.owner)
    (hok : ∃ t0, ofText o.owner o.cloud = .ok t0) (hn : CleanText o.cloud) (h : xtagTag o t = .ok (upd, t'))
    (hl : ∀ x ∈ contents t'.tag, x.data.length < 2 ^ 32) : xtagTag o t' = .ok (upd, t') := by
  obtain ⟨t0, hok⟩ := hok
  unfold xtagTag at h
  obtain ⟨⟨n, l⟩, h1, h2⟩ := res_bind_ok h
  by_cases hmk : n = 0 ∧ o.create = true ∧ (!o.get) = true
  · rw [if_pos hmk, hd] at h2
    simp only [Bool.false_eq_true, if_false, hok, Res.ok_bind] at h2
    cases h2
    have hl' : ∀ f ∈ l ++ [(⟨t.tag.next, xtgId t.cfg, .gen, t0.write⟩ : Fr)], f.data.length < 2 ^ 32 := fun f hf =>
      hl (itemOf f) (List.mem_map.2 ⟨f, hf, rfl⟩)
    have hm : MapOk t0.tags ∧ t0.own = o.owner ∧ Represents t0.tags ⟨MentionsKey o.cloud, MentionsVal o.cloud⟩ := by
      have hok := hok
      unfold ofText at hok
      rcases parse_spec o.cloud with ⟨M, e, hM, hk, hv⟩ | ⟨M, e⟩ <;> rw [e] at hok
      · cases hok
        exact ⟨hM, rfl, hk, hv⟩
      · cases hok
    have hb := cloud_back hm.1 (hm.2.1 ▸ h0) (clean_of_represents hm.2.2 hn.1 hn.2)
      (hl' ⟨t.tag.next, xtgId t.cfg, .gen, t0.write⟩ (by simp))
    obtain ⟨k1, k2, k3, k4, -⟩ := new_cloud hg hd hok hn hb
    have hsame : newCloud o t0 = t0 := by
      have e1 : (newCloud o t0).tags = t0.tags := by
        have r := k4 _ hm.2.2
        refine mapOk_ext k3 hm.1 (fun k => ?_) (fun k v => ?_)
        · rw [r.1, hm.2.2.1]; simp only [cloudAfter, AbsCloud.merge, AbsCloud.update]; split <;> simp
        · rw [r.2, hm.2.2.2]; simp only [cloudAfter, AbsCloud.merge, AbsCloud.update]; split <;> simp
      generalize newCloud o t0 = u at k2 e1
      obtain ⟨u1, u2⟩ := u
      simp only at k2 e1
      subst k2 e1
      rfl
    have hnew : seeXtag t.cfg o ⟨t.tag.next, xtgId t.cfg, .gen, t0.write⟩ = .ok (true, ⟨t.tag.next, xtgId t.cfg, .gen, t0.write⟩) := by
      unfold seeXtag
      rw [if_neg (by simp)]
      show (cloudOf t0.write).bind _ = _
      rw [hb, Res.ok_bind, if_neg (by simp [hm.2.1]), k1, Res.ok_bind, hsame, if_neg (by simp [hg, hd])]
    have hall := seeXtags_snoc hnew (seeXtags_again hg hd hok hn h1 fun f hf => hl' f (by simp [hf]))
    unfold xtagTag
    show (seeXtags t.cfg o (l ++ [(⟨t.tag.next, xtgId t.cfg, .gen, t0.write⟩ : Fr)])).bind _ = _
    rw [hall, Res.ok_bind, if_neg (by simp)]
    simp [LTag.pushBack, LTag.alloc]
    rfl
  · rw [if_neg hmk] at h2
    cases h2
    unfold xtagTag
    rw [show seeXtags _ o _ = _ from seeXtags_again hg hd hok hn h1 fun f hf => hl (itemOf f) (List.mem_map.2 ⟨f, hf, rfl⟩), Res.ok_bind,
      if_neg hmk]

/-- C93: a text that is not accepted is refused for any tag that has a cloud asked for. -/
theorem C93_refuses {o : XtagCfg} {t : Tg} (hg : o.get = false) (hd : o.dryRun = false) (hok : ¬ ∃ t0, ofText o.owner o.cloud = .ok t0)
    (hc : CloudsReadable t) (ha : (∃ x ∈ contents t.tag, CloudAsked t.cfg o.owner x) ∨ o.create = true) :
    xtagTag o t = .throw .invalidArgument := by
  have hp : ∃ M, parseToMap o.cloud [] = (.throw .invalidArgument, M) := by
    rcases parse_spec o.cloud with ⟨M, e, -⟩ | h
    · exact absurd ⟨⟨o.owner, M⟩, by unfold ofText; rw [e]⟩ hok
    · exact h
  obtain ⟨M, hp⟩ := hp
  have hch : ∀ x, changeCloud o x = .throw .invalidArgument := by
    intro x
    unfold changeCloud
    cases o.merge <;> simp [hg, hd, merge, update, hp, Res.bind]
  have key : ∀ l : List Fr, (∀ f ∈ l, f.id = xtgId t.cfg → ∃ y, cloudOf f.data = .ok y) →
      (∃ f ∈ l, CloudAsked t.cfg o.owner (itemOf f)) ∧ seeXtags t.cfg o l = .throw .invalidArgument ∨
      (¬ ∃ f ∈ l, CloudAsked t.cfg o.owner (itemOf f)) ∧ seeXtags t.cfg o l = .ok (0, l) := by
    intro l
    induction l with
    | nil => exact fun _ => .inr ⟨by simp, rfl⟩
    | cons f l ih =>
      intro hr
      have hf := hr f (List.mem_cons_self ..)
      have ih := ih fun g hg => hr g (List.mem_cons_of_mem _ hg)
      have h1 : CloudAsked t.cfg o.owner (itemOf f) ∧ seeXtag t.cfg o f = .throw .invalidArgument ∨
          ¬ CloudAsked t.cfg o.owner (itemOf f) ∧ seeXtag t.cfg o f = .ok (false, f) := by
        unfold seeXtag
        by_cases hi : f.id = xtgId t.cfg
        · obtain ⟨y, hy⟩ := hf hi
          rw [if_neg (by simp [hi]), hy, Res.ok_bind]
          by_cases ho : o.owner ≠ [] ∧ o.owner ≠ y.own
          · rw [if_pos ho]
            refine .inr ⟨?_, rfl⟩
            rintro ⟨own', a, ⟨-, y', hy', rfl, -⟩, h⟩
            have : cloudOf f.data = .ok y' := hy'
            rw [hy] at this
            cases this
            rcases h with h | h
            · exact ho.1 h
            · exact ho.2 h
          · rw [if_neg ho, hch]
            refine .inl ⟨⟨y.own, ⟨KeyIn y.tags, ValIn y.tags⟩, ⟨hi, y, hy, rfl, fun _ => Iff.rfl, fun _ _ => Iff.rfl⟩, ?_⟩, rfl⟩
            by_cases h1 : o.owner = []
            · exact .inl h1
            · exact .inr (Classical.byContradiction fun h2 => ho ⟨h1, h2⟩)
        · rw [if_pos hi]
          exact .inr ⟨fun ⟨_, _, ⟨h, _⟩, _⟩ => hi h, rfl⟩
      simp only [List.mem_cons, exists_eq_or_imp, seeXtags]
      rcases h1 with ⟨a, e⟩ | ⟨a, e⟩ <;> rw [e]
      · exact .inl ⟨.inl a, rfl⟩
      · rw [Res.ok_bind]
        rcases ih with ⟨a', e'⟩ | ⟨a', e'⟩ <;> rw [e']
        · exact .inl ⟨.inr a', rfl⟩
        · exact .inr ⟨by simp only [a, a', or_self, not_false_iff], rfl⟩
  unfold xtagTag
  rcases key t.tag.frames (fun f hf hi => hc (itemOf f) (List.mem_map.2 ⟨f, hf, rfl⟩) hi) with ⟨a, e⟩ | ⟨a, e⟩ <;> rw [e]
  · rfl
  · have hcr : o.create = true := by
      rcases ha with ⟨x, hx, ha⟩ | ha
      · obtain ⟨f, hf, rfl⟩ := List.mem_map.1 hx
        exact absurd ⟨f, hf, ha⟩ a
      · exact ha
    rw [Res.ok_bind]
    simp [hcr, hg, hd, ofText, hp, Res.bind]

/-! ## `--get` -/

theorem get_frame {c : Cfg} {o : XtagCfg} (hg : o.get = true) (f : Fr) (hf : f.id = xtgId c → ∃ y, cloudOf f.data = .ok y) :
    ∃ b s, seeXtag c o f = .ok (b, f) ∧ shownCloud c o f = .ok s ∧ Shows c o.owner (itemOf f) s ∧
      (b = true ↔ CloudAsked c o.owner (itemOf f)) := by
  unfold seeXtag shownCloud
  by_cases hi : f.id = xtgId c
  · rw [if_neg (by simp [hi]), if_neg (by simp [hi])]
    obtain ⟨t, ht⟩ := hf hi
    rw [ht, Res.ok_bind, Res.ok_bind]
    have hr : Represents t.tags ⟨KeyIn t.tags, ValIn t.tags⟩ := ⟨fun _ => Iff.rfl, fun _ _ => Iff.rfl⟩
    by_cases ho : o.owner ≠ [] ∧ o.owner ≠ t.own
    · rw [if_pos ho, if_pos ho]
      have hna : ¬ CloudAsked c o.owner (itemOf f) := by
        rintro ⟨own', a, ⟨-, t', ht', rfl, -⟩, h⟩
        have : cloudOf f.data = .ok t' := ht'
        rw [ht] at this
        cases this
        rcases h with h | h
        · exact ho.1 h
        · exact ho.2 h
      exact ⟨_, _, rfl, rfl, ⟨fun _ => rfl, fun own a h1 h2 => absurd ⟨own, a, h1, h2⟩ hna⟩, by simp [hna]⟩
    · rw [if_neg ho, if_neg ho]
      have ho' : o.owner = [] ∨ o.owner = t.own := by
        by_cases h1 : o.owner = []
        · exact .inl h1
        · exact .inr (Classical.byContradiction fun h2 => ho ⟨h1, h2⟩)
      have ha : CloudAsked c o.owner (itemOf f) := ⟨t.own, _, ⟨hi, t, ht, rfl, hr⟩, ho'⟩
      have hch : changeCloud o t = .ok t := by unfold changeCloud; rw [if_pos hg]
      rw [hch, Res.ok_bind, if_pos (.inl hg)]
      refine ⟨_, _, rfl, rfl, ⟨fun h => absurd ha h, ?_⟩, by simp [ha]⟩
      rintro own' a ⟨-, t', ht', rfl, hra⟩ -
      have : cloudOf f.data = .ok t' := ht'
      rw [ht] at this
      cases this
      by_cases hu : t.urlencoded = []
      · rw [if_pos hu]
        refine .inl ⟨rfl, ?_⟩
        by_cases hne : t.tags = []
        · rw [hne] at hra
          exact ⟨fun k hk => absurd ((hra.1 k).2 hk) (by simp), fun k v hv => absurd ((hra.2 k v).2 hv) (by simp)⟩
        · have e := C18_text_partial t (cloudOf_inv ht).1 hne
          rw [hu] at e
          have e' : ofText t.own [] = .ok ⟨t.own, [([], [])]⟩ := by rfl
          rw [e'] at e
          have e2 : t.tags = [([], [])] := by
            simp only [Res.ok.injEq] at e
            rw [← e]
          rw [e2] at hra
          refine ⟨fun k hk => ?_, fun k v hv => ?_⟩
          · obtain ⟨s, hs⟩ := (hra.1 k).2 hk
            simp at hs
            exact hs.1
          · obtain ⟨s, hs, hv⟩ := (hra.2 k v).2 hv
            simp at hs
            rw [hs.2] at hv
            cases hv
      · rw [if_neg hu]
        refine .inr ⟨_, rfl, hu, ?_⟩
        have hne : t.tags ≠ [] := by
          intro h
          apply hu
          unfold urlencoded
          rw [h]
          rfl
        have e := C18_text_partial t (cloudOf_inv ht).1 hne
        unfold ofText at e
        rcases parse_spec t.urlencoded with ⟨M, e', hM, hk, hv⟩ | ⟨M, e'⟩ <;> rw [e'] at e
        · have : M = t.tags := by
            simp only [Res.ok.injEq] at e
            rw [← e]
          subst this
          exact ⟨fun k => (hk k).symm.trans (hra.1 k), fun k v => (hv k v).symm.trans (hra.2 k v)⟩
        · cases e
  · rw [if_pos hi, if_pos hi]
    have hna : ¬ CloudAsked c o.owner (itemOf f) := fun ⟨_, _, ⟨h, _⟩, _⟩ => hi h
    exact ⟨_, _, rfl, rfl, ⟨fun _ => rfl, fun own a h1 h2 => absurd ⟨own, a, h1, h2⟩ hna⟩, by simp [hna]⟩

theorem get_frames {c : Cfg} {o : XtagCfg} (hg : o.get = true) : ∀ (l : List Fr),
    (∀ f ∈ l, f.id = xtgId c → ∃ y, cloudOf f.data = .ok y) →
    ∃ n ss, seeXtags c o l = .ok (n, l) ∧ shownClouds c o l = .ok ss.flatten ∧ Pointwise (Shows c o.owner) (l.map itemOf) ss ∧
      (n ≠ 0 ↔ ∃ f ∈ l, CloudAsked c o.owner (itemOf f)) := by
  intro l
  induction l with
  | nil => exact fun _ => ⟨0, [], rfl, rfl, ⟨rfl, fun i x y h => by simp at h⟩, by simp⟩
  | cons f l ih =>
    intro hr
    obtain ⟨b, s, e1, s1, d1, a1⟩ := get_frame hg f (hr f (List.mem_cons_self ..))
    obtain ⟨n, ss, e2, s2, d2, a2⟩ := ih fun g hg => hr g (List.mem_cons_of_mem _ hg)
    refine ⟨n + if b then 1 else 0, s :: ss, by simp only [seeXtags, e1, Res.ok_bind, e2],
      by simp only [shownClouds, s1, Res.ok_bind, s2, List.flatten_cons], pointwise_cons d1 d2, ?_⟩
    simp only [List.mem_cons, exists_eq_or_imp, ← a1, ← a2]
    cases b <;> simp

/-- C92, in full: with `--get`, files are only read, and the clouds asked for are shown. -/
def C92_claim : Prop :=
  ∀ (C : Conv) (c : Cfg) (o : XtagOpts) (P : Processor Tg), xtagCmd C c o = .ok P → o.get = true →
    ∀ (I : TagI Tg) (mk2 mk3 mk4 : Id3v2Info → SM Tg) (e : Replace.Env) (pth : Path) (s : FS),
      (processFile I mk2 mk3 mk4 P e pth s).seen = [] ∧ (processFile I mk2 mk3 mk4 P e pth s).fs = s

/-- C92, as far as it holds: the tags stay as they are in memory, and the clouds asked for are shown, each as a line of text that means
the cloud. -/
theorem C92_partial {o : XtagCfg} {t : Tg} (hg : o.get = true) (hc : CloudsReadable t) :
    ∃ upd lines, xtagTag o t = .ok (upd, t) ∧ shownClouds t.cfg o t.tag.frames = .ok lines.flatten ∧
      Pointwise (Shows t.cfg o.owner) (contents t.tag) lines ∧ (upd = true ↔ ∃ x ∈ contents t.tag, CloudAsked t.cfg o.owner x) := by
  obtain ⟨n, ss, e1, e2, hp, ha⟩ := get_frames (c := t.cfg) hg t.tag.frames
    (fun f hf hi => hc (itemOf f) (List.mem_map.2 ⟨f, hf, rfl⟩) hi)
  have hn' : n ≠ 0 ↔ ∃ x ∈ contents t.tag, CloudAsked t.cfg o.owner x := by
    rw [ha]
    constructor
    · rintro ⟨f, hf, h⟩; exact ⟨_, List.mem_map.2 ⟨f, hf, rfl⟩, h⟩
    · rintro ⟨x, hx, h⟩
      obtain ⟨f, hf, rfl⟩ := List.mem_map.1 hx
      exact ⟨f, hf, h⟩
  refine ⟨decide (n ≠ 0), ss, ?_, e2, hp, by rw [← hn']; simp⟩
  unfold xtagTag
  rw [e1, Res.ok_bind, if_neg (by simp [hg])]

/-- What `xtag --get` hands to the code that processes files. -/
theorem get_cmd {C : Conv} {c : Cfg} {o : XtagOpts} {P : Processor Tg} (h : xtagCmd C c o = .ok P) (hg : o.get = true) :
    P = setXtag C c o.tags .never false false ⟨[], o.owner, true, false, true, false⟩ := by
  unfold xtagCmd at h
  obtain ⟨cr, -, h⟩ := res_bind_ok h
  rw [if_pos hg] at h
  cases h
  rfl

/-- **Finding** With `--get`, and even with `--get --dry-run`, every file in which a cloud is shown is written: with the tags as they were
read, in any format in which they are written without unsynchronisation. -/
theorem C92_rewritten {C : Conv} {c : Cfg} {o : XtagOpts} {P : Processor Tg} (h : xtagCmd C c o = .ok P) (hg : o.get = true)
    (ht : o.tags = []) (I : TagI Tg) (mk2 mk3 mk4 : Id3v2Info → SM Tg) (e : Replace.Env) (pth : Path) (s : FS) (v2 : List Tg)
    (v1 : Option V1Tag) (hr : readTagset mk2 mk3 mk4 (s.get (absolute e.cwd pth)) = .ok (v2, v1)) (hc : ∀ t ∈ v2, CloudsReadable t)
    (ha : ∃ t ∈ v2, ∃ x ∈ contents t.tag, CloudAsked t.cfg o.owner x) :
    P.dryRun = false ∧ P.createBackups = false ∧ (processFile I mk2 mk3 mk4 P e pth s).seen = (writeTagset I P e pth true v2 v1 s).seen ∧
      (processFile I mk2 mk3 mk4 P e pth s).fs = (writeTagset I P e pth true v2 v1 s).fs := by
  obtain rfl := get_cmd h hg
  obtain ⟨t1, ht1, x1, hx1, ha1⟩ := ha
  have hv : v2 ≠ [] := fun h => by rw [h] at ht1; cases ht1
  have hF : ∀ t ∈ v2, ∃ b, (setXtag C c o.tags .never false false ⟨[], o.owner, true, false, true, false⟩).processV2 t = .ok (b, t) ∧
      (b = true ↔ ∃ x ∈ contents t.tag, CloudAsked t.cfg o.owner x) := by
    intro t ht
    obtain ⟨b, -, e1, -, -, e2⟩ := C92_partial (o := ⟨[], o.owner, true, false, true, false⟩) rfl (hc t ht)
    exact ⟨b, e1, e2⟩
  have hed : edit (setXtag C c o.tags .never false false ⟨[], o.owner, true, false, true, false⟩) v2 v1 = .ok (true, v2, v1) := by
    generalize hP : setXtag C c o.tags .never false false ⟨[], o.owner, true, false, true, false⟩ = P at hF
    have hsc : P.v2Scope = .all := by rw [← hP]; simp [setXtag, ht]
    have h1s : P.v1Scope = false := by rw [← hP]; rfl
    have h1c : P.v1Create = .never := by rw [← hP]; rfl
    have hloop : ∀ (l : List Tg), (∀ t ∈ l, t ∈ v2) → ∀ i, ∃ d, scopeLoop P.processV2 i (List.range' i l.length) l = .ok (d, l) ∧
        (t1 ∈ l → d = true) := by
      intro l
      induction l with
      | nil => exact fun _ i => ⟨false, rfl, fun h => by cases h⟩
      | cons t l ih =>
        intro hm i
        obtain ⟨b, hb, hb2⟩ := hF t (hm t (List.mem_cons_self ..))
        obtain ⟨d, hd, hd2⟩ := ih (fun x hx => hm x (List.mem_cons_of_mem _ hx)) (i + 1)
        refine ⟨b || d, by simp only [List.length_cons, List.range'_succ, scopeLoop, if_true, hb, Res.ok_bind, hd], ?_⟩
        intro hmem
        rcases List.mem_cons.1 hmem with rfl | hmem
        · have : b = true := hb2.2 ⟨x1, hx1, ha1⟩
          simp [this]
        · simp [hd2 hmem]
    obtain ⟨d, hd, hd2⟩ := hloop v2 (fun _ h => h) 0
    have hd3 := hd2 ht1
    subst hd3
    unfold edit editV2
    cases v2 with
    | nil => exact absurd rfl hv
    | cons t l =>
      simp only
      rw [if_neg (by simp [hsc]), hsc]
      have : indices (t :: l).length .all = List.range' 0 (t :: l).length := by simp [indices, List.range_eq_range']
      rw [this, hd]
      simp only [Res.ok_bind]
      unfold editV1
      cases v1 with
      | none => simp [h1c]
      | some t => simp [h1s]
  refine ⟨rfl, rfl, ?_⟩
  have hu : ∀ P : Processor Tg, processFile I mk2 mk3 mk4 P e pth s =
      FM.bind (FM.lift (readTagset mk2 mk3 mk4 (s.get (absolute e.cwd pth)))) (fun r => FM.bind (FM.lift (edit P r.1 r.2))
        fun w => writeTagset I P e pth w.1 w.2.1 w.2.2) s := fun _ => rfl
  rw [hu, hr]
  simp [FM.bind, FM.lift, hed]


/-- A tag with the cloud "k=v" of the owner "o". -/
def cloudTag : Tg := ⟨cfg .v3, LTag.empty.pushBack ⟨.gen, .gen, xtgId (cfg .v3), [1, 0x6f, 0, 0x6b, 0, 0, 0, 0, 2, 0x76, 0]⟩⟩

def okv : TagCloud := ⟨[0x6f], [([0x6b], [[0x76]])]⟩

theorem okv_read : cloudOf [1, 0x6f, 0, 0x6b, 0, 0, 0, 0, 2, 0x76, 0] = .ok okv := by decide +kernel

theorem cloudTag_contents : contents cloudTag.tag = [⟨xtgId (cfg .v3), .gen, [1, 0x6f, 0, 0x6b, 0, 0, 0, 0, 2, 0x76, 0]⟩] := rfl

theorem cloudTag_readable : CloudsReadable cloudTag := by
  intro x hx _
  rw [cloudTag_contents, List.mem_singleton] at hx
  subst hx
  exact ⟨_, okv_read⟩

theorem cloudTag_asked : ∃ x ∈ contents cloudTag.tag, CloudAsked cloudTag.cfg [0x6f] x := by
  refine ⟨_, by rw [cloudTag_contents]; exact List.mem_singleton.2 rfl, [0x6f], ⟨KeyIn okv.tags, ValIn okv.tags⟩, ?_, .inr rfl⟩
  exact ⟨rfl, okv, okv_read, rfl, fun _ => Iff.rfl, fun _ _ => Iff.rfl⟩

/-- "k=w" names no NULs. -/
theorem kw_clean : CleanText [0x6b, 0x3d, 0x77] := by
  have h : ofText [] [0x6b, 0x3d, 0x77] = .ok ⟨[], [([0x6b], [[0x77]])]⟩ := by decide
  unfold ofText at h
  rcases parse_spec [0x6b, 0x3d, 0x77] with ⟨M, e, -, hk, hv⟩ | ⟨M, e⟩ <;> rw [e] at h
  · have h2 : M = [([0x6b], [[0x77]])] := by simpa using h
    subst h2
    refine ⟨fun k hk' => ?_, fun k v hv' => ?_⟩
    · obtain ⟨s, hs⟩ := (hk k).2 hk'
      simp at hs
      rw [hs.1]; decide
    · obtain ⟨s, hs, hvs⟩ := (hv k v).2 hv'
      simp at hs
      rw [hs.2] at hvs
      simp at hvs
      rw [hvs]; decide
  · cases h

/-- Merging "k=w" into the cloud. -/
example : ∃ upd t', xtagTag ⟨[0x6b, 0x3d, 0x77], [0x6f], false, false, true, false⟩ cloudTag = .ok (upd, t') ∧
    CloudsDone ⟨[0x6b, 0x3d, 0x77], [0x6f], false, false, true, false⟩ cloudTag upd t' ∧
    (upd, contents t'.tag) = (true, [⟨xtgId (cfg .v3), .gen, [1, 0x6f, 0, 0x6b, 0, 0, 0, 0, 4, 0x76, 0, 0x77, 0]⟩]) := by
  obtain ⟨upd, t', h1, h2⟩ := C93_partial (o := ⟨[0x6b, 0x3d, 0x77], [0x6f], false, false, true, false⟩) (t := cloudTag) rfl rfl (by decide)
    ⟨⟨[0x6f], [([0x6b], [[0x77]])]⟩, by decide⟩ kw_clean cloudTag_readable
  refine ⟨upd, t', h1, h2, ?_⟩
  have e : (match xtagTag ⟨[0x6b, 0x3d, 0x77], [0x6f], false, false, true, false⟩ cloudTag with
      | .ok (u, t) => some (u, contents t.tag) | _ => none) =
      some (true, [⟨xtgId (cfg .v3), .gen, [1, 0x6f, 0, 0x6b, 0, 0, 0, 0, 4, 0x76, 0, 0x77, 0]⟩]) := by decide +kernel
  rw [h1] at e
  exact Option.some.inj e

/-- A text that is refused: "%zz". -/
example : xtagTag ⟨[0x25, 0x7a, 0x7a], [0x6f], false, false, true, false⟩ cloudTag = .throw .invalidArgument :=
  C93_refuses rfl rfl (by
    rintro ⟨t0, h⟩
    have e : ofText [0x6f] [0x25, 0x7a, 0x7a] = .throw .invalidArgument := by decide
    exact absurd (e.symm.trans h) (by simp)) cloudTag_readable (.inl cloudTag_asked)

example : ∃ lines, shownClouds cloudTag.cfg ⟨[], [0x6f], true, false, true, false⟩ cloudTag.tag.frames = .ok lines ∧
    lines = [[0x6b, 0x3d, 0x76]] := by
  have : shownClouds cloudTag.cfg ⟨[], [0x6f], true, false, true, false⟩ cloudTag.tag.frames = .ok [[0x6b, 0x3d, 0x76]] := by decide +kernel
  exact ⟨_, this, rfl⟩

/-- An empty ID3v2.3 tag. -/
def hdr10 : Bytes := [0x49, 0x44, 0x33, 3, 0, 0, 0, 0, 0, 0]

/-- A format in which all tags are written alike. -/
def toyI : TagI Tg := ⟨fun t => .ok (false, t), fun t _ => .ok (0, t), fun _ => .ok 0, fun t _ => t, fun t _ => .ok (hdr10, t)⟩

/-- C92 is refuted: the file is written byte by byte, in a dry run as well. -/
theorem C92_refuted : ¬ C92_claim := by
  intro h
  have := (h plainConv (cfg .v3) { get := true, dryRun := true } _ rfl rfl toyI (fun _ => pure cloudTag) (fun _ => pure cloudTag)
    (fun _ => pure cloudTag) (calm .done) fileF [(fileF, hdr10)]).1
  revert this
  decide +kernel

end Scribbu.Props
