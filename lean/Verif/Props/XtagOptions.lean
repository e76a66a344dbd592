import Verif.Props.XtagCmd
import Verif.Props.PopmOptions

/-! C94: the options of `xtag`. -/

namespace Scribbu.Props
open Scribbu Path Commands Process Spec LTag Lookup TagCloud

/-- C94, in full: options that contradict one another, or say nothing, are refused; otherwise the tags asked for are processed as asked;
in a dry run nothing is written; and tags that are made have a tag cloud with what was given, and what the ID3v1 tag said if there is one. -/
def C94_claim : Prop :=
  ∀ (C : Conv) (c : Cfg) (o : XtagOpts),
    ((∃ P, xtagCmd C c o = .ok P) ↔ XtagOptsOk o) ∧
    ∀ P, xtagCmd C c o = .ok P → XtagAsked o P ∧
      ∀ x, o.get = false → o.dryRun = false → o.xtags = some x → CleanText x → (∃ t0, ofText o.owner x = .ok t0) → 0 ∉ o.owner →
        (∀ t, P.createV2 = .ok t → HasCloud t o.owner x) ∧ ∀ v1 t, P.createV2From v1 = .ok t → HasCloud t o.owner x

/-- What holds of C94: which options are refused, and what those accepted ask for, but for `--get`. -/
theorem C94_partial (C : Conv) (c : Cfg) (o : XtagOpts) :
    ((∃ P, xtagCmd C c o = .ok P) ↔ XtagOptsOk o) ∧
    ∀ P, xtagCmd C c o = .ok P → P.v2Scope = (if o.tags = [] then .all else .some o.tags) ∧ P.v1Scope = false ∧ P.v1Create = .never ∧
      (o.get = false → XtagAsked o P) ∧
      (o.get = true → P.v2Create = .never ∧ P.processV2 = xtagTag ⟨[], o.owner, true, false, true, false⟩) := by
  have hcr : (∃ r, o.creation = .ok r) ↔ ¬ (o.alwaysV2 = true ∧ o.createV2 = true) := by
    unfold XtagOpts.creation
    split <;> simp_all
  have hsc : (if o.tags.isEmpty then V2Scope.all else .some o.tags) = if o.tags = [] then .all else .some o.tags := by
    cases o.tags <;> rfl
  constructor
  · constructor
    · rintro ⟨P, h⟩
      obtain ⟨a, h1, h⟩ := res_bind_ok h
      refine ⟨hcr.1 ⟨_, h1⟩, ?_⟩
      by_cases hg : o.get = true
      · exact .inl hg
      · rw [if_neg hg] at h
        refine .inr ?_
        intro hx
        rw [hx] at h
        cases h
    · rintro ⟨h1, h2⟩
      obtain ⟨a, e1⟩ := hcr.2 h1
      unfold xtagCmd
      rw [e1, Res.ok_bind]
      by_cases hg : o.get = true
      · rw [if_pos hg]; exact ⟨_, rfl⟩
      · rw [if_neg hg]
        rcases h2 with h2 | h2
        · exact absurd h2 hg
        · cases hx : o.xtags with
          | none => exact absurd hx h2
          | some x => exact ⟨_, rfl⟩
  · intro P h
    obtain ⟨a, h1, h⟩ := res_bind_ok h
    by_cases hg : o.get = true
    · rw [if_pos hg] at h
      cases h
      exact ⟨hsc, rfl, rfl, fun h => absurd hg (by simp [h]), fun _ => ⟨rfl, rfl⟩⟩
    · rw [if_neg hg] at h
      cases hx : o.xtags with
      | none => rw [hx] at h; cases h
      | some x =>
        rw [hx] at h
        cases h
        have hcre : (a = .always ↔ o.alwaysV2 = true) ∧ (a = .whenOther ↔ o.createV2 = true) := by
          unfold XtagOpts.creation at h1
          by_cases hb : o.alwaysV2 = true ∧ o.createV2 = true
          · rw [if_pos hb] at h1; cases h1
          · rw [if_neg hb] at h1
            cases h1
            cases h2 : o.createV2 <;> cases h3 : o.alwaysV2 <;> simp_all
        refine ⟨hsc, rfl, rfl, fun _ => ?_, fun h => absurd h hg⟩
        exact ⟨hsc, rfl, rfl, rfl, hcre.1, hcre.2, rfl, rfl, fun y hy => by rw [hx] at hy; cases hy; rfl⟩

/-- **Finding** `-A` (or `-c`) without `-f` makes tags without a tag cloud. -/
theorem C94_refuted_created (c : Cfg) (C : Conv) (o : XtagCfg) (hf : o.create = false) (tags : List Nat) (create : Creation) (au bu : Bool) :
    (setXtag C c tags create au bu o).createV2 = .ok ⟨{ c with ver := .v3 }, .empty⟩ := by
  show (xtagTag o ⟨{ c with ver := .v3 }, .empty⟩).bind _ = _
  unfold xtagTag
  simp [seeXtags, LTag.empty, hf]

theorem C94_refuted : ¬ C94_claim := by
  intro h
  obtain ⟨-, h2⟩ := h plainConv (cfg .v3) { alwaysV2 := true, xtags := some [0x6b, 0x3d, 0x77] }
  obtain ⟨-, h3⟩ := h2 _ rfl
  obtain ⟨h4, -⟩ := h3 _ rfl rfl rfl kw_clean ⟨⟨[], [([0x6b], [[0x77]])]⟩, by decide⟩ (by decide)
  obtain ⟨x, hx, -⟩ := h4 _ (C94_refuted_created (cfg .v3) plainConv ⟨[0x6b, 0x3d, 0x77], [], false, false, false, false⟩ rfl [] .always false false)
  cases hx

/-- **Finding** `--dry-run` and `--create-backups` are without effect if `--get` is given (which writes, see `C92_refuted`). -/
theorem C94_refuted_get (C : Conv) (c : Cfg) (o : XtagOpts) (hg : o.get = true) (P : Processor Tg) (h : xtagCmd C c o = .ok P) :
    P.dryRun = false ∧ P.createBackups = false := by
  obtain rfl := get_cmd h hg
  exact ⟨rfl, rfl⟩

theorem set_cmd {C : Conv} {c : Cfg} {o : XtagOpts} {P : Processor Tg} {x : Bytes} (h : xtagCmd C c o = .ok P) (hg : o.get = false)
    (hx : o.xtags = some x) : P.createV2 = ((xtagTag ⟨x, o.owner, false, o.createFrame, o.merge, o.dryRun⟩ ⟨{ c with ver := .v3 }, .empty⟩).bind
      fun r => .ok r.2) ∧ P.createV2From = fun v1 => (copyV1 C c v1).bind fun t =>
        (xtagTag ⟨x, o.owner, false, o.createFrame, o.merge, o.dryRun⟩ t).bind fun r => .ok r.2 := by
  obtain ⟨a, -, h⟩ := res_bind_ok h
  rw [if_neg (by simp [hg]), hx] at h
  cases h
  exact ⟨rfl, rfl⟩

/-- With `-f`, a tag that is made from nothing has one frame, the tag cloud. -/
theorem C94_always {C : Conv} {c : Cfg} {o : XtagOpts} {P : Processor Tg} {x : Bytes} (h : xtagCmd C c o = .ok P) (hg : o.get = false)
    (hx : o.xtags = some x) (hd : o.dryRun = false) (hf : o.createFrame = true) (h0 : 0 ∉ o.owner)
    (hok : ∃ t0, ofText o.owner x = .ok t0) (hn : CleanText x) :
    ∃ t' y, P.createV2 = .ok t' ∧ contents t'.tag = [y] ∧
      (y.data.length < 2 ^ 32 → Cloud t'.cfg y o.owner ⟨MentionsKey x, MentionsVal x⟩) := by
  obtain ⟨upd, t', h1, h2, l, made, h3, h4, h5, -⟩ := C93_partial (o := ⟨x, o.owner, false, o.createFrame, o.merge, o.dryRun⟩)
    (t := ⟨{ c with ver := .v3 }, .empty⟩) rfl hd h0 hok hn (by intro x hx; cases hx)
  obtain ⟨y, rfl, hy⟩ := h5 ⟨hf, by rintro ⟨x, hx, -⟩; cases hx⟩
  have hl : l = [] := List.eq_nil_of_length_eq_zero h4.1.symm
  subst hl
  refine ⟨t', y, ?_, h3, by rw [h2]; exact hy⟩
  rw [(set_cmd h hg hx).1, h1, Res.ok_bind]

/-- With `-f`, a tag that is made from an ID3v1 tag holds what `C81_partial` says, then the tag cloud. -/
theorem C94_created {C : Conv} {c : Cfg} {o : XtagOpts} {P : Processor Tg} {x : Bytes} (hcmd : xtagCmd C c o = .ok P) (hg : o.get = false)
    (hx : o.xtags = some x) (v1 : V1Tag) (hd : o.dryRun = false) (hf : o.createFrame = true)
    (h0 : 0 ∉ o.owner) (hok : ∃ t0, ofText o.owner x = .ok t0) (hn : CleanText x) (h : Readable C v1) :
    ∃ t t' y, copyV1 C c v1 = .ok t ∧ P.createV2From v1 = .ok t' ∧ CopiedV1 C v1 t ∧ contents t'.tag = contents t.tag ++ [y] ∧
      (y.data.length < 2 ^ 32 → Cloud t'.cfg y o.owner ⟨MentionsKey x, MentionsVal x⟩) := by
  obtain ⟨t, h1, h2, -, h3, ar, ti, al, co, yr, da, dt, dl, dc, dg, dy, -, -, -, -, -, h4⟩ := C81_partial C c v1 h
  have hids : ∀ x ∈ contents t.tag, x.id ≠ xtgId t.cfg := by
    rw [h2, h4]
    intro x hx
    have key : ∀ (p : Prop) [Decidable p] (id : Bytes) (k : Cls) (d : Bytes), x ∈ itemIf p id k d → x.id = id := by
      intro p _ id k d hx
      unfold itemIf at hx
      split at hx
      · rw [List.mem_singleton] at hx
        rw [hx]
      · cases hx
    simp only [List.mem_append] at hx
    rcases hx with ((((hx | hx) | hx) | hx) | hx) | hx <;> rw [key _ _ _ _ hx] <;>
      exact fun e => absurd (show _ = ([88, 84, 65, 71] : Bytes) from e) (by decide)
  have hna : ∀ x ∈ contents t.tag, ¬ CloudAsked t.cfg o.owner x := fun x hx ⟨_, _, ⟨hi, _⟩, _⟩ => hids x hx hi
  obtain ⟨upd, t', h5, hc, l, made, h6, h7, h8, -⟩ := C93_partial (o := ⟨x, o.owner, false, o.createFrame, o.merge, o.dryRun⟩) (t := t)
    rfl hd h0 hok hn (fun x hx hi => absurd hi (hids x hx))
  obtain ⟨y, rfl, hy⟩ := h8 ⟨hf, by rintro ⟨x, hx, ha⟩; exact hna x hx ha⟩
  refine ⟨t, t', y, h1, ?_, h3, ?_, by rw [hc]; exact hy⟩
  · rw [(set_cmd hcmd hg hx).2]
    simp only [h1, Res.ok_bind, h5]
  rw [h6]
  congr 1
  apply List.ext_getElem?
  intro i
  by_cases hi : i < l.length
  · have hi' : i < (contents t.tag).length := by rw [h7.1]; exact hi
    rw [List.getElem?_eq_getElem hi, List.getElem?_eq_getElem hi']
    congr 1
    exact (h7.2 i _ _ (List.getElem?_eq_getElem hi') (List.getElem?_eq_getElem hi)).other (hna _ (List.getElem_mem hi'))
  · rw [List.getElem?_eq_none (by omega), List.getElem?_eq_none (by rw [h7.1]; omega)]

example : Readable plainConv v1sample ∧ ∃ P, xtagCmd plainConv (cfg .v3) { createFrame := true, createV2 := true, xtags := some [0x6b, 0x3d, 0x77] } = .ok P ∧
    CleanText [0x6b, 0x3d, 0x77] := ⟨v1sample_ok, _, rfl, kw_clean⟩

/-- A dry run without `--get` leaves tags in memory as they are, and does not look at the text at all. -/
theorem C94_dry {o : XtagCfg} (hd : o.dryRun = true) (t : Tg) (hc : CloudsReadable t) : ∃ upd, xtagTag o t = .ok (upd, t) ∧
    (upd = true ↔ (∃ x ∈ contents t.tag, CloudAsked t.cfg o.owner x) ∨ (o.create = true ∧ o.get = false)) := by
  obtain ⟨n, -, e, -, -, hn⟩ := get_frames (c := t.cfg) (o := ⟨[], o.owner, true, false, false, false⟩) rfl t.tag.frames
    (fun f hf hi => hc (itemOf f) (List.mem_map.2 ⟨f, hf, rfl⟩) hi)
  have hn' : n ≠ 0 ↔ ∃ x ∈ contents t.tag, CloudAsked t.cfg o.owner x := by
    rw [hn]
    constructor
    · rintro ⟨f, hf, h⟩; exact ⟨_, List.mem_map.2 ⟨f, hf, rfl⟩, h⟩
    · rintro ⟨x, hx, h⟩
      obtain ⟨f, hf, rfl⟩ := List.mem_map.1 hx
      exact ⟨f, hf, h⟩
  have hsame : ∀ f, seeXtag t.cfg o f = seeXtag t.cfg ⟨[], o.owner, true, false, false, false⟩ f := by
    intro f
    unfold seeXtag changeCloud
    simp [hd]
  have hs : ∀ l, seeXtags t.cfg o l = seeXtags t.cfg ⟨[], o.owner, true, false, false, false⟩ l := by
    intro l
    induction l with
    | nil => rfl
    | cons f l ih => rw [seeXtags, seeXtags, hsame, ih]
  rw [← hn']
  unfold xtagTag
  rw [hs, e, Res.ok_bind]
  by_cases hmk : n = 0 ∧ o.create = true ∧ (!o.get) = true
  · rw [if_pos hmk, if_pos hd]
    exact ⟨_, rfl, by simpa using .inr ⟨hmk.2.1, by simpa using hmk.2.2⟩⟩
  · rw [if_neg hmk]
    refine ⟨_, rfl, ?_⟩
    simp only [decide_eq_true_eq]
    constructor
    · exact .inl
    · rintro (h | ⟨h1, h2⟩)
      · exact h
      · intro h0; exact hmk ⟨h0, h1, by simp [h2]⟩

end Scribbu.Props
