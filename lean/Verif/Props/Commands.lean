import Verif.Proofs.Commands
import Verif.Props.Process
import Verif.Props.Genres
import Verif.Spec.Commands

/-! C79, C80: setting the genre of files. C81, C82: tags made from tags of the other kind. C83: options of `genre`. -/

namespace Scribbu.Props
open Scribbu Commands Process Spec LTag Lookup

/-! ## Tags as they are read -/

theorem read_tinv {t : Tg} (h : ReadTag t) : TInv t.tag := by
  obtain ⟨l, e⟩ := h
  rw [e]
  unfold tagOf
  simp only
  generalize t.cfg = c
  have key : ∀ (l : List (Bytes × Bytes)) (t : LTag), TInv t → TInv (l.foldl (fun t x => t.parseFrame c x.1 x.2) t) := by
    intro l
    induction l with
    | nil => intro t h; exact h
    | cons x l ih =>
      intro t h
      refine ih _ ?_
      unfold parseFrame
      simp only
      generalize (if x.1 = c.comId then Cls.com else if x.1 = c.cntId then .cnt else if x.1 = c.popId then .pop
        else if c.textParser x.1 = true then Cls.text else .gen) = k
      by_cases hk : k = .text
      · subst hk
        have hf : (t.pushBack ⟨.text, .text, x.1, x.2⟩).frames = t.frames ++ [⟨t.next, x.1, .text, x.2⟩] := rfl
        have ht : (t.pushBack ⟨.text, .text, x.1, x.2⟩).textMap = t.textMap ++ [(x.1, t.next)] := rfl
        have hn : (t.pushBack ⟨.text, .text, x.1, x.2⟩).next = t.next + 1 := rfl
        refine ⟨?_, ?_, ?_, ?_⟩
        · rw [hf, List.map_append, List.map_singleton, List.nodup_append]
          refine ⟨h.nodup, by simp, ?_⟩
          rintro y hy z hz rfl
          obtain ⟨f, hf1, rfl⟩ := List.mem_map.1 hy
          have := h.below f hf1
          simp only [List.mem_singleton] at hz
          omega
        · rw [hf, hn]
          intro f hf1
          rcases List.mem_append.1 hf1 with h1 | h1
          · have := h.below f h1; omega
          · simp only [List.mem_singleton] at h1; subst h1; simp
        · rw [hf, ht]
          intro e he
          rcases List.mem_append.1 he with he | he
          · obtain ⟨f, h1, h2⟩ := h.texts e he
            exact ⟨f, List.mem_append_left _ h1, h2⟩
          · simp only [List.mem_singleton] at he; subst he
            exact ⟨_, List.mem_append_right _ (List.mem_singleton.2 rfl), rfl, rfl, rfl⟩
        · rw [hf, ht]
          intro f hf1 hcl
          rcases List.mem_append.1 hf1 with h1 | h1
          · exact List.mem_append_left _ (h.all f h1 hcl)
          · simp only [List.mem_singleton] at h1; subst h1; exact List.mem_append_right _ (by simp)
      · exact (push_other (c := c) h (a := ⟨k, k, x.1, x.2⟩) hk hk).1
  exact key l _ tinv_empty

theorem tcon_id (v : Ver) : ∃ id, frameId v .tcon = .ok id := by cases v <;> exact ⟨_, rfl⟩

/-- What setting a text comes to. -/
theorem tg_setText {C : Conv} {t : Tg} (h : TInv t.tag) {f : TextFrame} {id : Bytes} (hid : frameId t.cfg.ver f = .ok id)
    {s d : Bytes} (hd : C.frameData t.cfg.ver s = .ok d) :
    ∃ t', t.setText C f s = .ok t' ∧ TInv t'.tag ∧ t'.cfg = t.cfg ∧ t'.text C f = C.frameText t.cfg.ver d ∧
      OnlyFrame id d (contents t.tag) (contents t'.tag) ∧
      (∀ f' id', frameId t.cfg.ver f' = .ok id' → id' ≠ id → t'.text C f' = t.text C f') := by
  obtain ⟨l, h1, h2, h3, h4, h5⟩ := setText_spec (c := t.cfg) h id d
  refine ⟨⟨t.cfg, l⟩, ?_, h2, rfl, ?_, ?_, ?_⟩
  · simp only [Tg.setText, hid, hd, Res.ok_bind, h1]
  · simp only [Tg.text, hid, Res.ok_bind, h3]
  · rcases h5 with ⟨h6, h7⟩ | ⟨a, x, b, h6, h7, h8, -, h10⟩
    · refine .inl ⟨?_, h7⟩
      intro x hx e
      obtain ⟨f, hf, rfl⟩ := List.mem_map.1 hx
      rcases text_answers (c := t.cfg) h id with ⟨g, -, -, -, -, h9⟩ | ⟨h9, -⟩
      · rw [h9] at h6; cases h6
      · exact h9 f hf e
    · exact .inr ⟨a, x, b, h6, h7, h8, h10⟩
  · intro f' id' hf' hne
    simp only [Tg.text, hf', Res.ok_bind, h4 id' hne]

/-! ## C79: the genre of tags -/

/-- C79 in full: whatever the tags read from a file, and whether all or none of them or only the ID3v1 tag are asked for (nothing is to be
created), setting the genre succeeds and gives the tags that were asked for the genre. -/
def C79_claim : Prop :=
  ∀ (C : Conv) (c : Cfg) (p : Policy) (g : Byte) (text : Bytes) (v2 : List Tg) (v1 : Option V1Tag), Able C text →
    p.v2Create = .never → p.v1Create = .never → (p.v2Scope = .all ∨ p.v2Scope = .none) → (∀ t ∈ v2, ReadTag t) →
    ∃ d v2' v1', edit (setGenre C c p g text) v2 v1 = .ok (d, v2', v1') ∧ v2'.length = v2.length ∧
      (∀ (i : Nat) (t : Tg), v2[i]? = some t →
        ∃ t', v2'[i]? = some t' ∧ (p.v2Scope = .all → GenreSet C text t t') ∧ (p.v2Scope = .none → t' = t)) ∧
      (v1 = none → v1' = none) ∧
      ∀ t, v1 = some t → ∃ t', v1' = some t' ∧ (p.v1Scope = true → V1GenreSet g t t') ∧ (p.v1Scope = false → t' = t)

/-- Conversions that leave bytes as they are, but take no bytes beyond ASCII out of ID3v1 tags. -/
def plainConv : Conv where
  frameText _ b := .ok b
  frameData _ b := .ok b
  v1Text b := if b.all (· < 128) then .ok (b.reverse.dropWhile (· = 0)).reverse else .throw .runtimeError
  v1Data b := .ok b
  v1Plain b := .ok b
  comment b := .ok b
  chars b := some (b.map (·.toNat))
  lower := asciiLower

theorem plainConv_able (text : Bytes) : Able plainConv text :=
  ⟨fun _ d => ⟨d, rfl⟩, fun _ => ⟨text, rfl, rfl⟩, fun s => ⟨s, rfl⟩⟩

/-- All tags, nothing to be created. -/
def everywhere : Policy := ⟨.all, true, .never, .never, false, false, false⟩

/-- Setting the genre of a tag that has none fails, whatever else is in the tag. -/
theorem C79_refuted_absent (C : Conv) (t : Tg) (text id : Bytes) (h : ReadTag t) (hid : frameId t.cfg.ver .tcon = .ok id)
    (hno : ∀ x ∈ contents t.tag, x.id = id → x.cls ≠ .text) : genreV2 C text t = .throw .unknownFrame := by
  have hI := read_tinv h
  rcases text_answers (c := t.cfg) hI id with ⟨f, hf, e1, e2, -⟩ | ⟨-, -, h1⟩
  · exact absurd e2 (hno ⟨f.id, f.cls, f.data⟩ (List.mem_map.2 ⟨f, hf, rfl⟩) e1)
  · simp only [genreV2, Tg.text, hid, Res.ok_bind, h1]
    rfl

/-- A tag with a title only. -/
example : ReadTag (tagOf (cfg .v3) [(tit .v3, [65])]) ∧ frameId .v3 .tcon = .ok [84, 67, 79, 78] ∧
    ∀ x ∈ contents (tagOf (cfg .v3) [(tit .v3, [65])]).tag, x.id = [84, 67, 79, 78] → x.cls ≠ .text :=
  ⟨⟨_, rfl⟩, rfl, by decide⟩

/-- So the file is not processed at all, though it has an ID3v1 tag too. -/
theorem C79_refuted : ¬ C79_claim := by
  intro h
  obtain ⟨d, v2', v1', h1, -⟩ := h plainConv (cfg .v3) everywhere 17 [82, 111, 99, 107] [tagOf (cfg .v3) [(tit .v3, [65])]]
    (some (V1Tag.scratch false false)) (plainConv_able _) rfl rfl (.inl rfl) (by
      intro t ht
      simp only [List.mem_singleton] at ht
      subst ht
      exact ⟨_, rfl⟩)
  have : edit (setGenre plainConv (cfg .v3) everywhere 17 [82, 111, 99, 107]) [tagOf (cfg .v3) [(tit .v3, [65])]]
    (some (V1Tag.scratch false false)) = .throw .unknownFrame := by rfl
  rw [this] at h1
  cases h1

theorem genreV2_spec {C : Conv} {t : Tg} {text : Bytes} (hA : Able C text) (h : TInv t.tag) {b : Bool} {t' : Tg}
    (hg : genreV2 C text t = .ok (b, t')) : TInv t'.tag ∧ GenreSet C text t t' := by
  obtain ⟨id, hid⟩ := tcon_id t.cfg.ver
  obtain ⟨s, h1, h2⟩ := res_bind_ok hg
  by_cases hs : s = text
  · rw [if_pos hs] at h2
    cases h2
    exact ⟨h, rfl, by rw [h1, hs], .inl rfl⟩
  · rw [if_neg hs] at h2
    obtain ⟨t1, h3, h4⟩ := res_bind_ok h2
    cases h4
    obtain ⟨d, h5, h6⟩ := hA.writes t.cfg.ver
    obtain ⟨t2, h7, h8, h9, h10, h11, -⟩ := tg_setText h hid h5
    rw [h7] at h3
    cases h3
    exact ⟨h8, h9, by rw [h10, h6], .inr ⟨id, d, hid, h6, h11⟩⟩

theorem genreV1_spec {C : Conv} {text : Bytes} (hA : Able C text) (g : Byte) (t : V1Tag) :
    ∃ t', genreV1 C g t = .ok (true, t') ∧ V1GenreSet g t t' := by
  unfold genreV1
  simp only
  by_cases he : t.extended = true
  · rw [if_pos (by simpa [V1Tag.apply] using he)]
    cases hx : Genres.textForGenre g with
    | none => exact ⟨_, rfl, by simp [V1Tag.apply], by simp [V1Tag.apply]⟩
    | some s =>
      obtain ⟨b, hb⟩ := hA.plain s
      simp only [hb, Res.ok_bind]
      exact ⟨_, rfl, by simp [V1Tag.apply, he], by simp [he]⟩
  · rw [if_neg (by simpa [V1Tag.apply] using he)]
    exact ⟨_, rfl, by simp [V1Tag.apply], by simp [V1Tag.apply]⟩

/-- The part of C79 that holds: if each of the tags to be processed has a content type already, it is replaced by the genre, in every
one of the tags asked for. The indices may also be given, in increasing order and up to the last tag. -/
theorem C79_partial (C : Conv) (c : Cfg) (p : Policy) (g : Byte) (text : Bytes) (v2 : List Tg) (v1 : Option V1Tag) (hA : Able C text)
    (h2 : p.v2Create = .never) (h1 : p.v1Create = .never)
    (ho : ∀ tags, p.v2Scope = .some tags → tags.Pairwise (· < ·) ∧ (v2 ≠ [] → ∃ k ∈ tags, v2.length ≤ k + 1))
    (hr : ∀ t ∈ v2, ReadTag t)
    (ht : ∀ (i : Nat) (t : Tg), v2[i]? = some t → InScope (setGenre C c p g text) i →
      ∃ id, frameId t.cfg.ver .tcon = .ok id ∧ ∃ x ∈ contents t.tag, x.id = id ∧ x.cls = .text) :
    ∃ d v2' v1', edit (setGenre C c p g text) v2 v1 = .ok (d, v2', v1') ∧ v2'.length = v2.length ∧
      (∀ (i : Nat) (t : Tg), v2[i]? = some t →
        ∃ t', v2'[i]? = some t' ∧ (InScope (setGenre C c p g text) i → GenreSet C text t t') ∧
          (¬ InScope (setGenre C c p g text) i → t' = t)) ∧
      (v1 = none → v1' = none) ∧
      ∀ t, v1 = some t → ∃ t', v1' = some t' ∧ (p.v1Scope = true → V1GenreSet g t t') ∧ (p.v1Scope = false → t' = t) := by
  obtain ⟨d, v2', v1', he, ⟨t1, t2, t3, -⟩, ⟨u1, u2, u3, -⟩, -⟩ := C43_partial (setGenre C c p g text) v2 v1 (by
    intro i t hi hs
    obtain ⟨id, hid, x, hx, e1, e2⟩ := ht i t hi hs
    have hI := read_tinv (hr t (List.mem_of_getElem? hi))
    show ∃ b t', genreV2 C text t = _
    rcases text_answers (c := t.cfg) hI id with ⟨f, -, -, -, -, h5⟩ | ⟨h5, -⟩
    · obtain ⟨s, hs⟩ := hA.reads t.cfg.ver f.data
      simp only [genreV2, Tg.text, hid, Res.ok_bind, h5, hs]
      by_cases hst : s = text
      · rw [if_pos hst]; exact ⟨_, _, rfl⟩
      · rw [if_neg hst]
        obtain ⟨d, h6, -⟩ := hA.writes t.cfg.ver
        obtain ⟨t2, h7, -⟩ := tg_setText hI hid h6
        rw [h7]
        exact ⟨_, _, rfl⟩
    · obtain ⟨f, hf, rfl⟩ := List.mem_map.1 hx
      exact absurd e2 (h5 f hf e1))
    (by
      intro t _ _
      obtain ⟨t', h5, -⟩ := genreV1_spec hA g t
      exact ⟨_, _, h5⟩)
    (fun _ _ hn => absurd h1 hn) (fun _ _ hn => by
      rw [show (setGenre C c p g text).v1Create = .never from h1] at hn; cases hn) (fun _ _ _ hn => absurd h2 hn)
    (fun _ _ hn => by rw [show (setGenre C c p g text).v2Create = .never from h2] at hn; cases hn) ho
  have hn : ∀ q, ¬ MayCreate (.never : Creation) q := by rintro q (h | ⟨h, -⟩) <;> cases h
  have hlen : v2'.length = v2.length := t3 (by
    rintro ⟨-, hm⟩
    rw [show (setGenre C c p g text).v2Create = .never from h2] at hm
    exact hn _ hm)
  refine ⟨d, v2', v1', he, hlen, ?_, ?_, ?_⟩
  · intro i t hi
    by_cases hs : InScope (setGenre C c p g text) i
    · obtain ⟨b, t', h5, h6⟩ := t1 i t hi hs
      exact ⟨t', h6, fun _ => (genreV2_spec hA (read_tinv (hr t (List.mem_of_getElem? hi))) h5).2, fun hn => absurd hs hn⟩
    · exact ⟨t, t2 i t hi hs, fun hy => absurd hy hs, fun _ => rfl⟩
  · intro hv
    exact u3 hv (by rw [show (setGenre C c p g text).v1Create = .never from h1]; exact hn _)
  · intro t hv
    cases hs : p.v1Scope with
    | true =>
      obtain ⟨b, t', h5, h6⟩ := u1 t hv hs
      obtain ⟨t'', h7, h8⟩ := genreV1_spec hA g t
      rw [show (setGenre C c p g text).processV1 t = genreV1 C g t from rfl, h7] at h5
      cases h5
      exact ⟨_, h6, fun _ => h8, by simp⟩
    | false => exact ⟨t, u2 t hv hs, by simp, fun _ => rfl⟩

/-- The hypotheses are met by a file with two tags, of versions 2.2 and 2.4, each with a title and a content type, and an ID3v1 tag. -/
example : ReadTag (tagOf (cfg .v4) [(tit .v4, [65]), ([84, 67, 79, 78], [66])]) ∧
    (∃ x ∈ contents (tagOf (cfg .v4) [(tit .v4, [65]), ([84, 67, 79, 78], [66])]).tag, x.id = [84, 67, 79, 78] ∧ x.cls = .text) ∧
    ∃ x ∈ contents (tagOf (cfg .v2) [(tit .v2, [65]), ([84, 67, 79], [66])]).tag, x.id = [84, 67, 79] ∧ x.cls = .text :=
  ⟨⟨_, rfl⟩, by decide +kernel, by decide +kernel⟩
example : ∃ v2' v1', edit (setGenre plainConv (cfg .v3) everywhere 17 [82, 111, 99, 107])
    [tagOf (cfg .v2) [(tit .v2, [65]), ([84, 67, 79], [66])], tagOf (cfg .v4) [(tit .v4, [65]), ([84, 67, 79, 78], [66])]]
    (some (V1Tag.scratch false false)) = .ok (true, v2', v1') ∧
    v2'.map (fun t => (contents t.tag).map Item.data) = [[[65], [82, 111, 99, 107]], [[65], [82, 111, 99, 107]]] ∧
    v1'.map V1Tag.genre = some 17 := ⟨_, _, rfl, by decide +kernel, rfl⟩

end Scribbu.Props
