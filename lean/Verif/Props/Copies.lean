import Verif.Props.Commands

/-! C80: ID3v1 tags made from ID3v2 tags. C81: ID3v2 tags made from ID3v1 tags. -/

namespace Scribbu.Props
open Scribbu Commands Process Spec LTag Lookup

/-! ## C80: ID3v1 tags made from ID3v2 tags -/

/-- The kinds of frames that are looked at. -/
def copied : List TextFrame := [.talb, .tpe1, .tit2, .tyer, .tcon]

/-- C80 in full: whatever the tags read from a file, an ID3v1 tag can be made from them; it says what they say, and has the genre that
was asked for. -/
def C80_claim : Prop :=
  ∀ (C : Conv) (c : Cfg) (p : Policy) (g : Byte) (text : Bytes) (v2 : List Tg), v2 ≠ [] → (∀ t ∈ v2, ReadTag t) → V2Able C v2 →
    ∃ t, (setGenre C c p g text).createV1From v2 = .ok t ∧ t.genre = g ∧ CopiedV2 C v2 t

theorem copied_id {f : TextFrame} (hf : f ∈ copied) (v : Ver) : ∃ id, frameId v f = .ok id := by
  simp only [copied, List.mem_cons, List.not_mem_nil, or_false] at hf
  rcases hf with rfl | rfl | rfl | rfl | rfl <;> cases v <;> exact ⟨_, rfl⟩

/-- If the first of the tags lacks one of album, artist, title, year and genre, no tag is made, whatever there is in the others. -/
theorem C80_refuted_absent (C : Conv) (c : Cfg) (p : Policy) (g : Byte) (text : Bytes) (t : Tg) (v2 : List Tg) (f : TextFrame)
    (hf : f ∈ copied) (h : ReadTag t) (hno : ∀ id, frameId t.cfg.ver f = .ok id → ∀ x ∈ contents t.tag, x.id = id → x.cls ≠ .text) :
    ¬ ∃ n, (setGenre C c p g text).createV1From (t :: v2) = .ok n := by
  have ht : t.text C f = .throw .unknownFrame := by
    obtain ⟨id, hid⟩ := copied_id hf t.cfg.ver
    rcases text_answers (c := t.cfg) (read_tinv h) id with ⟨x, hx, e1, e2, -⟩ | ⟨-, -, h1⟩
    · exact absurd e2 (hno id hid ⟨x.id, x.cls, x.data⟩ (List.mem_map.2 ⟨x, hx, rfl⟩) e1)
    · simp only [Tg.text, hid, Res.ok_bind, h1]; rfl
  rintro ⟨n, hn⟩
  obtain ⟨m, hm, -⟩ := res_bind_ok hn
  obtain ⟨x1, h1, hm⟩ := res_bind_ok hm
  obtain ⟨y1, -, hm⟩ := res_bind_ok hm
  obtain ⟨x2, h2, hm⟩ := res_bind_ok hm
  obtain ⟨y2, -, hm⟩ := res_bind_ok hm
  obtain ⟨x3, h3, hm⟩ := res_bind_ok hm
  obtain ⟨y3, -, hm⟩ := res_bind_ok hm
  obtain ⟨x4, h4, hm⟩ := res_bind_ok hm
  obtain ⟨y4, -, hm⟩ := res_bind_ok hm
  obtain ⟨x5, h5, -⟩ := res_bind_ok hm
  simp only [copied, List.mem_cons, List.not_mem_nil, or_false] at hf
  rcases hf with rfl | rfl | rfl | rfl | rfl
  · simp only [findFrame, ht] at h1; cases h1
  · simp only [findFrame, ht] at h2; cases h2
  · simp only [findFrame, ht] at h3; cases h3
  · simp only [findYear, ht] at h4; cases h4
  · simp only [findGenre, ht] at h5; cases h5

/-- An ID3v2.4 tag with everything, but whose year is in TDRC as that version has it, is such a tag. -/
def tag24 : Tg := tagOf (cfg .v4) [([84, 73, 84, 50], [65]), ([84, 80, 69, 49], [66]), ([84, 65, 76, 66], [67]), ([84, 67, 79, 78], [82]),
  ([84, 68, 82, 67], [50, 48, 48, 52])]
example : ReadTag tag24 ∧ ∀ id, frameId tag24.cfg.ver .tyer = .ok id → ∀ x ∈ contents tag24.tag, x.id = id → x.cls ≠ .text := by
  refine ⟨⟨_, rfl⟩, fun id h => ?_⟩
  cases h
  decide +kernel

theorem C80_refuted : ¬ C80_claim := by
  intro h
  obtain ⟨n, hn, -⟩ := h plainConv (cfg .v4) everywhere 17 [82, 111, 99, 107] [tagOf (cfg .v4) [(tit .v4, [65])]] (by simp)
    (by
      intro t ht
      simp only [List.mem_singleton] at ht
      subst ht
      exact ⟨_, rfl⟩)
    ⟨fun _ d => ⟨d, rfl⟩, fun s => ⟨s, rfl⟩, by
      intro t ht s hs
      simp only [List.mem_singleton] at ht
      subst ht
      revert hs
      have : (tagOf (cfg .v4) [(tit .v4, [65])]).text plainConv .tcon = .throw .unknownFrame := by rfl
      rw [this]
      intro hs; cases hs⟩
  exact C80_refuted_absent plainConv (cfg .v4) everywhere 17 [82, 111, 99, 107] (tagOf (cfg .v4) [(tit .v4, [65])]) [] .tyer (by decide)
    ⟨_, rfl⟩ (by intro id h; cases h; decide +kernel) ⟨n, hn⟩

theorem findFrame_spec {C : Conv} {f : TextFrame} : ∀ {v2 : List Tg}, (∀ t ∈ v2, ∃ s, t.text C f = .ok s) →
    ((∀ t ∈ v2, t.text C f = .ok []) ∧ findFrame C f v2 = .ok none) ∨
    ∃ a t b s, v2 = a ++ t :: b ∧ (∀ t ∈ a, t.text C f = .ok []) ∧ t.text C f = .ok s ∧ s ≠ [] ∧ findFrame C f v2 = .ok (some s)
  | [], _ => .inl ⟨by simp, rfl⟩
  | t :: ts, h => by
    obtain ⟨s, hs⟩ := h t List.mem_cons_self
    by_cases hse : s = []
    · subst hse
      have he : findFrame C f (t :: ts) = findFrame C f ts := by simp only [findFrame, hs, Res.ok_bind]; rfl
      rw [he]
      rcases findFrame_spec (v2 := ts) (fun t ht => h t (List.mem_cons_of_mem _ ht)) with ⟨h1, h2⟩ | ⟨a, t', b, s', h1, h2, h3⟩
      · refine .inl ⟨?_, h2⟩
        intro x hx
        rcases List.mem_cons.1 hx with rfl | hx
        · exact hs
        · exact h1 x hx
      · refine .inr ⟨t :: a, t', b, s', by rw [h1]; rfl, ?_, h3⟩
        intro x hx
        rcases List.mem_cons.1 hx with rfl | hx
        · exact hs
        · exact h2 x hx
    · exact .inr ⟨[], t, ts, s, rfl, by simp, hs, hse, by simp only [findFrame, hs, Res.ok_bind]; rw [if_pos hse]⟩

theorem findYear_spec {C : Conv} : ∀ {v2 : List Tg}, (∀ t ∈ v2, ∃ s, t.text C .tyer = .ok s) →
    ((∀ t ∈ v2, ∀ s, t.text C .tyer = .ok s → s.length ≠ 4) ∧ findYear C v2 = .ok none) ∨
    ∃ a t b s, v2 = a ++ t :: b ∧ (∀ t ∈ a, ∀ s, t.text C .tyer = .ok s → s.length ≠ 4) ∧ t.text C .tyer = .ok s ∧ s.length = 4 ∧
      findYear C v2 = .ok (some s)
  | [], _ => .inl ⟨by simp, rfl⟩
  | t :: ts, h => by
    obtain ⟨s, hs⟩ := h t List.mem_cons_self
    by_cases hse : s.length = 4
    · exact .inr ⟨[], t, ts, s, rfl, by simp, hs, hse, by simp only [findYear, hs, Res.ok_bind]; rw [if_pos hse]⟩
    · have he : findYear C (t :: ts) = findYear C ts := by simp only [findYear, hs, Res.ok_bind]; rw [if_neg hse]
      have ht : ∀ s, t.text C .tyer = .ok s → s.length ≠ 4 := by intro s' h'; rw [hs] at h'; cases h'; exact hse
      rw [he]
      rcases findYear_spec (v2 := ts) (fun t ht => h t (List.mem_cons_of_mem _ ht)) with ⟨h1, h2⟩ | ⟨a, t', b, s', h1, h2, h3⟩
      · refine .inl ⟨?_, h2⟩
        intro x hx
        rcases List.mem_cons.1 hx with rfl | hx
        · exact ht
        · exact h1 x hx
      · refine .inr ⟨t :: a, t', b, s', by rw [h1]; rfl, ?_, h3⟩
        intro x hx
        rcases List.mem_cons.1 hx with rfl | hx
        · exact ht
        · exact h2 x hx

theorem findGenre_ok {C : Conv} : ∀ {v2 : List Tg} {best : Option (Nat × Nat)}, (∀ t ∈ v2, ∃ s, t.text C .tcon = .ok s) →
    (∀ t ∈ v2, ∀ s, t.text C .tcon = .ok s → s ≠ [] → ∃ r, Genres.matchGenre C.chars C.lower s = .ok r) →
    ∃ r, findGenre C v2 best = .ok r
  | [], best, _, _ => ⟨best, rfl⟩
  | t :: ts, best, h, hm => by
    obtain ⟨s, hs⟩ := h t List.mem_cons_self
    simp only [findGenre, hs, Res.ok_bind]
    by_cases hse : s = []
    · subst hse
      exact findGenre_ok (fun t ht => h t (List.mem_cons_of_mem _ ht)) (fun t ht => hm t (List.mem_cons_of_mem _ ht))
    · obtain ⟨⟨n, g, d⟩, hr⟩ := hm t List.mem_cons_self s hs hse
      rw [if_pos (by simpa using hse), hr]
      simp only [Res.ok_bind]
      cases best with
      | none => exact findGenre_ok (fun t ht => h t (List.mem_cons_of_mem _ ht)) (fun t ht => hm t (List.mem_cons_of_mem _ ht))
      | some b => exact findGenre_ok (fun t ht => h t (List.mem_cons_of_mem _ ht)) (fun t ht => hm t (List.mem_cons_of_mem _ ht))

theorem resize_field (d : Bytes) (n : Nat) :
    (resize d n).length = n ∧ (resize d n = d.take n ∨ ∃ k, resize d n = d ++ List.replicate k 0) := by
  unfold resize
  by_cases h : n ≤ d.length
  · rw [if_pos h]; exact ⟨by simp [h], .inl rfl⟩
  · rw [if_neg h]; exact ⟨by simp; omega, .inr ⟨_, rfl⟩⟩

/-- What is put into a field. -/
theorem firstText_of {C : Conv} {f : TextFrame} {v2 : List Tg} (h : ∀ t ∈ v2, ∃ s, t.text C f = .ok s) (hp : ∀ s, ∃ b, C.v1Data s = .ok b)
    (t : V1Tag) (op : Bytes → V1Tag.Op) : ∃ o t', findFrame C f v2 = .ok o ∧ setIf t o C.v1Data op = .ok t' ∧
      ((t' = t ∧ FirstText C f v2 30 (List.replicate 30 0)) ∨
       ∃ d, t' = t.apply (op d) ∧ FirstText C f v2 30 (resize d 30)) := by
  rcases findFrame_spec h with ⟨h1, h2⟩ | ⟨a, t1, b, s, h1, h2, h3, h4, h5⟩
  · exact ⟨none, t, h2, rfl, .inl ⟨rfl, .inl ⟨fun t ht => .inl (h1 t ht), rfl⟩⟩⟩
  · obtain ⟨d, hd⟩ := hp s
    obtain ⟨hl, hf⟩ := resize_field d 30
    exact ⟨some s, t.apply (op d), h5, by simp [setIf, hd, Res.bind],
      .inr ⟨d, rfl, .inr ⟨a, t1, b, s, d, h1, fun t ht => .inl (h2 t ht), h3, h4, hd, hl, hf⟩⟩⟩

theorem cstrField_all {s : Bytes} (h0 : (0 : Byte) ∉ s) : V1Tag.cstrField s.length s = s := by
  induction s with
  | nil => rfl
  | cons x xs ih =>
    simp only [List.mem_cons, not_or] at h0
    simp only [List.length_cons, V1Tag.cstrField]
    rw [if_neg (fun e => h0.1 e.symm), ih h0.2]

/-- Two ways of splitting a list at its first element of some kind are the same. -/
theorem split_first {α : Type} {P : α → Prop} : ∀ {a a' : List α} {t t' : α} {b b' : List α}, a ++ t :: b = a' ++ t' :: b' →
    (∀ x ∈ a, ¬ P x) → P t → (∀ x ∈ a', ¬ P x) → P t' → t = t'
  | [], [], t, t', b, b', e, _, _, _, _ => by cases e; rfl
  | [], x :: a', t, t', b, b', e, _, h2, h3, _ => by
    cases e
    exact absurd h2 (h3 _ List.mem_cons_self)
  | x :: a, [], t, t', b, b', e, h1, _, _, h4 => by
    cases e
    exact absurd h4 (h1 _ List.mem_cons_self)
  | x :: a, y :: a', t, t', b, b', e, h1, h2, h3, h4 =>
    split_first (List.cons.inj e).2 (fun x hx => h1 x (List.mem_cons_of_mem _ hx)) h2 (fun x hx => h3 x (List.mem_cons_of_mem _ hx)) h4

/-- The part of C80 that holds: if each of the tags has all five kinds of frames, an ID3v1 tag is made as it should be. -/
theorem C80_partial (C : Conv) (c : Cfg) (p : Policy) (g : Byte) (text : Bytes) (v2 : List Tg) (hr : ∀ t ∈ v2, ReadTag t)
    (hA : V2Able C v2)
    (hall : ∀ t ∈ v2, ∀ f ∈ copied, ∃ id, frameId t.cfg.ver f = .ok id ∧ ∃ x ∈ contents t.tag, x.id = id ∧ x.cls = .text) :
    ∃ t, (setGenre C c p g text).createV1From v2 = .ok t ∧ t.genre = g ∧ CopiedV2 C v2 t := by
  have htext : ∀ f ∈ copied, ∀ t ∈ v2, ∃ s, t.text C f = .ok s := by
    intro f hf t ht
    obtain ⟨id, hid, x, hx, e1, e2⟩ := hall t ht f hf
    rcases text_answers (c := t.cfg) (read_tinv (hr t ht)) id with ⟨y, -, -, -, -, h5⟩ | ⟨h5, -⟩
    · obtain ⟨s, hs⟩ := hA.reads t.cfg.ver y.data
      exact ⟨s, by simp only [Tg.text, hid, Res.ok_bind, h5, hs]⟩
    · obtain ⟨y, hy, rfl⟩ := List.mem_map.1 hx
      exact absurd e2 (h5 y hy e1)
  obtain ⟨o1, t1, f1, s1, r1⟩ := firstText_of (htext .talb (by decide)) hA.plain (V1Tag.scratch false false) .setAlbum
  obtain ⟨o2, t2, f2, s2, r2⟩ := firstText_of (htext .tpe1 (by decide)) hA.plain t1 .setArtist
  obtain ⟨o3, t3, f3, s3, r3⟩ := firstText_of (htext .tit2 (by decide)) hA.plain t2 .setTitle
  obtain ⟨g', fg⟩ := findGenre_ok (best := none) (htext .tcon (by decide)) hA.match_
  have y : ∃ o t4, findYear C v2 = .ok o ∧ setIf t3 o .ok .setYear = .ok t4 ∧ ∃ y, t4 = { t3 with year := y } ∧ FirstYear C v2 y := by
    rcases findYear_spec (htext .tyer (by decide)) with ⟨h1, h2⟩ | ⟨a, t, b, s, h1, h2, h3, h4, h5⟩
    · refine ⟨none, t3, h2, rfl, t3.year, rfl, ?_⟩
      intro a t b s e _ hs hl
      exact absurd hl (h1 t (by rw [e]; simp) s hs)
    · refine ⟨some s, t3.apply (.setYear s), h5, rfl, _, rfl, ?_⟩
      intro a' t' b' s' e ha' hs' hl' h0
      have : t = t' := split_first (P := fun t => ∃ s, t.text C .tyer = .ok s ∧ s.length = 4) (h1.symm.trans e)
        (fun x hx ⟨s, e1, e2⟩ => h2 x hx s e1 e2) ⟨s, h3, h4⟩ (fun x hx ⟨s, e1, e2⟩ => ha' x hx s e1 e2) ⟨s', hs', hl'⟩
      subst this
      rw [h3] at hs'
      cases hs'
      have := cstrField_all h0
      rw [h4] at this
      exact this
  obtain ⟨o4, t4, f4, s4, yr, rfl, hy⟩ := y
  have key : ∀ t5, t5 = { t3 with year := yr } ∨ (∃ g, t5 = { t3 with year := yr, genre := g }) → CopiedV2 C v2 (t5.apply (.setGenre g)) := by
    have hsc : (V1Tag.scratch false false).textSz = 30 := rfl
    intro t5 h5
    have h6 : (t5.apply (.setGenre g)) = { t3 with year := yr, genre := g } := by
      rcases h5 with rfl | ⟨_, rfl⟩ <;> rfl
    rw [h6]
    rcases r1 with ⟨rfl, F1⟩ | ⟨d1, rfl, F1⟩ <;> rcases r2 with ⟨rfl, F2⟩ | ⟨d2, rfl, F2⟩ <;> rcases r3 with ⟨rfl, F3⟩ | ⟨d3, rfl, F3⟩ <;>
      exact ⟨F3, F2, F1, hy, rfl, rfl, rfl⟩
  refine ⟨(match g' with | none => ({ t3 with year := yr } : V1Tag) | some x => { t3 with year := yr, genre := UInt8.ofNat x.2 }).apply (.setGenre g),
    ?_, rfl, ?_⟩
  · show (copyV2 C v2).bind _ = _
    unfold copyV2
    simp only [f1, s1, f2, s2, f3, s3, f4, s4, fg, Res.ok_bind]
    cases g' <;> rfl
  · apply key
    cases g' with
    | none => exact .inl rfl
    | some x => exact .inr ⟨_, rfl⟩

/-- Two tags of different versions, the first with an empty title. -/
def tags5 : List Tg :=
  [tagOf (cfg .v2) [([84, 84, 50], []), ([84, 80, 49], [66]), ([84, 65, 76], [67]), ([84, 67, 79], []), ([84, 89, 69], [57])],
   tagOf (cfg .v3) [([84, 73, 84, 50], [65]), ([84, 80, 69, 49], [66]), ([84, 65, 76, 66], [67]), ([84, 67, 79, 78], []),
    ([84, 89, 69, 82], [50, 48, 48, 52])]]
example : (∀ t ∈ tags5, ReadTag t) ∧ V2Able plainConv tags5 ∧
    (∀ t ∈ tags5, ∀ f ∈ copied, ∃ id, frameId t.cfg.ver f = .ok id ∧ ∃ x ∈ contents t.tag, x.id = id ∧ x.cls = .text) := by
  refine ⟨?_, ⟨fun _ d => ⟨d, rfl⟩, fun s => ⟨s, rfl⟩, ?_⟩, ?_⟩
  · intro t ht
    simp only [tags5, List.mem_cons, List.not_mem_nil, or_false] at ht
    rcases ht with rfl | rfl <;> exact ⟨_, rfl⟩
  · intro t ht s hs hne
    simp only [tags5, List.mem_cons, List.not_mem_nil, or_false] at ht
    rcases ht with rfl | rfl
    · have : Tg.text plainConv (tagOf (cfg .v2) [([84, 84, 50], []), ([84, 80, 49], [66]), ([84, 65, 76], [67]), ([84, 67, 79], []), ([84, 89, 69], [57])]) .tcon = .ok [] := by rfl
      rw [this] at hs; cases hs; exact absurd rfl hne
    · have : Tg.text plainConv (tagOf (cfg .v3) [([84, 73, 84, 50], [65]), ([84, 80, 69, 49], [66]), ([84, 65, 76, 66], [67]), ([84, 67, 79, 78], []),
        ([84, 89, 69, 82], [50, 48, 48, 52])]) .tcon = .ok [] := by rfl
      rw [this] at hs; cases hs; exact absurd rfl hne
  · intro t ht f hf
    simp only [tags5, List.mem_cons, List.not_mem_nil, or_false] at ht
    simp only [copied, List.mem_cons, List.not_mem_nil, or_false] at hf
    rcases ht with rfl | rfl <;> rcases hf with rfl | rfl | rfl | rfl | rfl <;> exact ⟨_, rfl, by decide +kernel⟩
example : ∃ t, copyV2 plainConv tags5 = .ok t ∧ t.title = 65 :: List.replicate 29 0 ∧ t.year = [50, 48, 48, 52] := ⟨_, rfl, by decide +kernel⟩

/-- Even then a title that is not in ASCII cannot be read from the new tag, as that is taken to be in ASCII: of the tag with the title
`é` made here, in which the title is in UTF-8. -/
theorem C80_refuted_readback : ∃ t, copyV2 plainConv [tagOf (cfg .v3) [([84, 73, 84, 50], [0xc3, 0xa9]), ([84, 80, 69, 49], [66]),
    ([84, 65, 76, 66], [67]), ([84, 67, 79, 78], []), ([84, 89, 69, 82], [50, 48, 48, 52])]] = .ok t ∧
    t.title = [0xc3, 0xa9] ++ List.replicate 28 0 ∧ plainConv.v1Text t.title = .throw .runtimeError := ⟨_, rfl, by decide +kernel, rfl⟩

/-! ## C81: ID3v2 tags made from ID3v1 tags -/

/-- C81 in full: an ID3v1 tag that can be read can be made into an ID3v2 tag that says the same, with the number of the track. -/
def C81_claim : Prop :=
  ∀ (C : Conv) (c : Cfg) (v1 : V1Tag), Readable C v1 →
    ∃ t, copyV1 C c v1 = .ok t ∧ t.cfg.ver = .v3 ∧ CopiedV1 C v1 t ∧
      (∀ n, v1.v11 = true → v1.track = some n → n ≠ 0 → ∃ s, t.text C .trck = .ok s)

/-- A tag in the making: what is in it so far, what it says, and the identifiers that have had their turn. -/
structure Made (C : Conv) (c : Cfg) (t : Tg) (l : List Item) (said : List (TextFrame × Bytes × Bytes)) (ids : List Bytes) : Prop where
  cfg : t.cfg = { c with ver := .v3 }
  inv : TInv t.tag
  items : contents t.tag = l
  within : ∀ x ∈ l, x.id ∈ ids
  said : ∀ y ∈ said, frameId .v3 y.1 = .ok y.2.1 ∧ y.2.1 ∈ ids ∧ t.text C y.1 = .ok y.2.2

/-- What the frames of a new tag are, given what the fields say. -/
def itemIf (c : Bool) (id : Bytes) (k : Cls) (d : Bytes) : List Item := if c then [⟨id, k, d⟩] else []

/-- What a new tag says, likewise. -/
def saidIf (c : Bool) (f : TextFrame) (id s : Bytes) : List (TextFrame × Bytes × Bytes) := if c then [(f, id, s)] else []

theorem made_set {C : Conv} {c : Cfg} {t : Tg} {l : List Item} {said : List (TextFrame × Bytes × Bytes)} {ids : List Bytes}
    (h : Made C c t l said ids) {f : TextFrame} {id s : Bytes} (hid : frameId .v3 f = .ok id) (hs : Trips C s) (hnew : id ∉ ids) (k : Bool) :
    ∃ t' d, (if k = true then t.setText C f s else .ok t) = .ok t' ∧
      Made C c t' (l ++ itemIf k id .text d) (said ++ saidIf k f id s) (id :: ids) := by
  cases k with
  | false =>
    refine ⟨t, [], rfl, h.cfg, h.inv, by simp [itemIf, h.items], ?_, ?_⟩
    · simp only [itemIf, Bool.false_eq_true, if_false, List.append_nil]
      exact fun x hx => List.mem_cons_of_mem _ (h.within x hx)
    · simp only [saidIf, Bool.false_eq_true, if_false, List.append_nil]
      exact fun y hy => ⟨(h.said y hy).1, List.mem_cons_of_mem _ (h.said y hy).2.1, (h.said y hy).2.2⟩
  | true =>
    obtain ⟨d, h1, h2⟩ := hs
    have hv : t.cfg.ver = .v3 := by rw [h.cfg]
    obtain ⟨t', h3, h4, h5, h6, h7, h8⟩ := tg_setText (C := C) (f := f) (id := id) (s := s) (d := d) h.inv (by rw [hv]; exact hid)
      (by rw [hv]; exact h1)
    rw [hv] at h6 h8
    refine ⟨t', d, by rw [if_pos rfl]; exact h3, h5.trans h.cfg, h4, ?_, ?_, ?_⟩
    · rw [h.items] at h7
      rcases h7 with ⟨-, h7⟩ | ⟨a, x, b, e, e1, -, -⟩
      · simpa [itemIf] using h7
      · exact absurd (e1 ▸ h.within x (by rw [e]; simp)) hnew
    · simp only [itemIf, if_true]
      intro x hx
      rcases List.mem_append.1 hx with hx | hx
      · exact List.mem_cons_of_mem _ (h.within x hx)
      · simp only [List.mem_singleton] at hx; subst hx; exact List.mem_cons_self
    · simp only [saidIf, if_true]
      intro y hy
      rcases List.mem_append.1 hy with hy | hy
      · obtain ⟨a, b, e⟩ := h.said y hy
        refine ⟨a, List.mem_cons_of_mem _ b, ?_⟩
        rw [h8 y.1 y.2.1 a (fun e => hnew (e ▸ b)), e]
      · simp only [List.mem_singleton] at hy; subst hy
        exact ⟨hid, List.mem_cons_self, by rw [h6, h2]⟩

theorem made_textIf {C : Conv} {c : Cfg} {t : Tg} {l : List Item} {said : List (TextFrame × Bytes × Bytes)} {ids : List Bytes}
    (h : Made C c t l said ids) {f : TextFrame} {id s : Bytes} (hid : frameId .v3 f = .ok id) (hs : Trips C s) (hnew : id ∉ ids) :
    ∃ t' d, textIf C t f s = .ok t' ∧ Made C c t' (l ++ itemIf (s ≠ []) id .text d) (said ++ saidIf (s ≠ []) f id s) (id :: ids) := by
  obtain ⟨t', d, h1, h2⟩ := made_set h hid hs hnew (decide (s ≠ []))
  refine ⟨t', d, ?_, h2⟩
  rw [← h1]
  unfold textIf
  by_cases hse : s = [] <;> simp [hse]

theorem made_comment {C : Conv} {c : Cfg} {t : Tg} {l : List Item} {said : List (TextFrame × Bytes × Bytes)} {ids : List Bytes}
    (h : Made C c t l said ids) {s d : Bytes} (hd : C.comment s = .ok d) :
    ∃ t', copyComment C t s = .ok t' ∧
      Made C c t' (l ++ itemIf (s ≠ []) [67, 79, 77, 77] .com d) said ([67, 79, 77, 77] :: ids) := by
  by_cases hse : s = []
  · subst hse
    refine ⟨t, rfl, h.cfg, h.inv, by simp [itemIf, h.items], ?_, ?_⟩
    · simp only [itemIf, ne_eq, not_true_eq_false, decide_false, Bool.false_eq_true, if_false, List.append_nil]
      exact fun x hx => List.mem_cons_of_mem _ (h.within x hx)
    · exact fun y hy => ⟨(h.said y hy).1, List.mem_cons_of_mem _ (h.said y hy).2.1, (h.said y hy).2.2⟩
  · have hv : t.cfg.ver = .v3 := by rw [h.cfg]
    have hp := push_other (c := t.cfg) h.inv (a := ⟨.gen, .com, [67, 79, 77, 77], d⟩) (fun e => by cases e) (fun e => by cases e)
    have hcom : t.cfg.comId = [67, 79, 77, 77] := by rw [h.cfg]; rfl
    refine ⟨⟨t.cfg, t.tag.pushBack ⟨.gen, .com, [67, 79, 77, 77], d⟩⟩, ?_, h.cfg, hp.1, ?_, ?_, ?_⟩
    · unfold copyComment
      rw [if_pos (by simpa using hse), hd]
      simp only [Res.ok_bind, addComment, hv, hcom]
    · have : contents (t.tag.pushBack ⟨.gen, .com, [67, 79, 77, 77], d⟩) = contents t.tag ++ [⟨[67, 79, 77, 77], .com, d⟩] := by
        unfold contents
        rw [show (t.tag.pushBack ⟨.gen, .com, [67, 79, 77, 77], d⟩).frames = t.tag.frames ++ [⟨t.tag.next, [67, 79, 77, 77], .com, d⟩] from rfl]
        simp
      simp [itemIf, hse, this, h.items]
    · simp only [itemIf, ne_eq, hse, not_false_eq_true, decide_true, if_true]
      intro x hx
      rcases List.mem_append.1 hx with hx | hx
      · exact List.mem_cons_of_mem _ (h.within x hx)
      · simp only [List.mem_singleton] at hx; subst hx; exact List.mem_cons_self
    · intro y hy
      obtain ⟨a, b, e⟩ := h.said y hy
      refine ⟨a, List.mem_cons_of_mem _ b, ?_⟩
      rw [← e]
      simp only [Tg.text, hv, a, Res.ok_bind]
      rw [hp.2]

theorem made_genre {C : Conv} {c : Cfg} {t : Tg} {l : List Item} {said : List (TextFrame × Bytes × Bytes)} {ids : List Bytes}
    (h : Made C c t l said ids) {g : Byte} (hg : ∀ name ∈ genres, Trips C name) {s : Bytes} (hs : Trips C s)
    (hnew : ([84, 67, 79, 78] : Bytes) ∉ ids) :
    ∃ t' d name, copyGenre C t g = .ok t' ∧ (∀ n, genres[g.toNat]? = some n → n = name ∧ g.toNat < 192) ∧
      Made C c t' (l ++ itemIf (g.toNat < 192) [84, 67, 79, 78] .text d) (said ++ saidIf (g.toNat < 192) .tcon [84, 67, 79, 78] name)
        ([84, 67, 79, 78] :: ids) := by
  by_cases hl : g.toNat < 192
  · obtain ⟨name, hn⟩ : ∃ name, Genres.textForGenre g = some name := by
      have := (C42_defined g).2 hl
      exact Option.isSome_iff_exists.1 this
    have hn' : genres[g.toNat]? = some name := by rw [← C42_text, hn]
    obtain ⟨t5, dg, h1, h2⟩ := made_set (f := .tcon) h rfl (hg name (List.mem_of_getElem? hn')) hnew (decide (g.toNat < 192))
    refine ⟨t5, dg, name, ?_, ?_, h2⟩
    · unfold copyGenre
      rw [if_pos hl, hn]
      rw [if_pos (by simpa using hl)] at h1
      exact h1
    · intro n e
      rw [hn'] at e
      cases e
      exact ⟨rfl, hl⟩
  · obtain ⟨t5, dg, h1, h2⟩ := made_set (f := .tcon) h rfl hs hnew (decide (g.toNat < 192))
    refine ⟨t5, dg, s, ?_, ?_, h2⟩
    · unfold copyGenre
      rw [if_neg hl]
      rw [if_neg (by simpa using hl)] at h1
      exact h1
    · intro n e
      have := (List.getElem?_eq_some_iff.1 e).1
      rw [genres_length] at this
      exact absurd this hl

/-- What holds of C81: an ID3v1 tag that can be read is made into an ID3v2.3 tag that says the same, with these frames only. What is
missing is the number of the track. -/
theorem C81_partial (C : Conv) (c : Cfg) (v1 : V1Tag) (h : Readable C v1) :
    ∃ t, copyV1 C c v1 = .ok t ∧ t.cfg = { c with ver := .v3 } ∧ TInv t.tag ∧ CopiedV1 C v1 t ∧
      ∃ (ar ti al co yr da dt dl dc dg dy : Bytes), C.v1Text v1.artist = .ok ar ∧ C.v1Text v1.title = .ok ti ∧ C.v1Text v1.album = .ok al ∧
        C.v1Text v1.comment = .ok co ∧ C.v1Text v1.year = .ok yr ∧
        contents t.tag = itemIf (ar ≠ []) [84, 80, 69, 49] .text da ++ itemIf (ti ≠ []) [84, 73, 84, 50] .text dt ++
          itemIf (al ≠ []) [84, 65, 76, 66] .text dl ++ itemIf (co ≠ []) [67, 79, 77, 77] .com dc ++
          itemIf (v1.genre.toNat < 192) [84, 67, 79, 78] .text dg ++ itemIf (yr.length = 4) [84, 89, 69, 82] .text dy := by
  obtain ⟨ar, har, tar⟩ := h.artist
  obtain ⟨ti, hti, tti⟩ := h.title
  obtain ⟨al, hal, tal⟩ := h.album
  obtain ⟨yr, hyr, tyr⟩ := h.year
  obtain ⟨co, dc, hco, hdc⟩ := h.comment
  have m0 : Made C c ⟨{ c with ver := .v3 }, .empty⟩ [] [] [] := ⟨rfl, tinv_empty, rfl, by simp, by simp⟩
  obtain ⟨t1, da, e1, m1⟩ := made_textIf (f := .tpe1) m0 rfl tar (by decide)
  obtain ⟨t2, dt, e2, m2⟩ := made_textIf (f := .tit2) m1 rfl tti (by decide)
  obtain ⟨t3, dl, e3, m3⟩ := made_textIf (f := .talb) m2 rfl tal (by decide)
  obtain ⟨t4, e4, m4⟩ := made_comment m3 hdc
  obtain ⟨t5, dg, name, e5, hname, m5⟩ := made_genre (g := v1.genre) m4 h.genre tar (by decide)
  obtain ⟨t6, dy, e6, m6⟩ := made_set (f := .tyer) m5 rfl tyr (by decide) (decide (yr.length = 4))
  have e6' : (if yr.length = 4 then t5.setText C .tyer yr else .ok t5) = .ok t6 := by
    rw [← e6]
    by_cases hy : yr.length = 4 <;> simp [hy]
  refine ⟨t6, ?_, m6.cfg, m6.inv, ?_, ar, ti, al, co, yr, da, dt, dl, dc, dg, dy, har, hti, hal, hco, hyr, ?_⟩
  · unfold copyV1
    simp only [har, hti, hal, hco, hyr, Res.ok_bind, e1, e2, e3, e4, e5, e6']
  · have said : ∀ k f id s, k = true → (f, id, s) ∈ saidIf k f id s := by rintro _ f id s rfl; simp [saidIf]
    refine ⟨?_, ?_, ?_, ?_, ?_, ?_⟩
    · intro s hs hne
      rw [har] at hs; cases hs
      exact (m6.said (.tpe1, [84, 80, 69, 49], ar) (by simp [saidIf, hne])).2.2
    · intro s hs hne
      rw [hti] at hs; cases hs
      exact (m6.said (.tit2, [84, 73, 84, 50], ti) (by simp [saidIf, hne])).2.2
    · intro s hs hne
      rw [hal] at hs; cases hs
      exact (m6.said (.talb, [84, 65, 76, 66], al) (by simp [saidIf, hne])).2.2
    · intro s hs hne
      rw [hyr] at hs; cases hs
      exact (m6.said (.tyer, [84, 89, 69, 82], yr) (by simp [saidIf, hne])).2.2
    · intro s d hs hne hd
      rw [hco] at hs; cases hs
      rw [hdc] at hd; cases hd
      exact ⟨⟨[67, 79, 77, 77], .com, dc⟩, by rw [m6.items]; simp [itemIf, hne], rfl, rfl⟩
    · intro n hn
      obtain ⟨rfl, hl⟩ := hname n hn
      exact (m6.said (.tcon, [84, 67, 79, 78], n) (by simp [saidIf, hl])).2.2
  · rw [m6.items]; simp

/-- A full ID3v1.1 tag can be read. -/
def v1sample : V1Tag := ⟨false, true, 67 :: List.replicate 29 0, 66 :: List.replicate 29 0, 68 :: List.replicate 27 0, 17, [], none, none, none,
  65 :: List.replicate 29 0, some 5, [50, 48, 48, 52]⟩
theorem v1sample_ok : Readable plainConv v1sample :=
  ⟨⟨[66], rfl, _, rfl, rfl⟩, ⟨[65], rfl, _, rfl, rfl⟩, ⟨[67], rfl, _, rfl, rfl⟩, ⟨[50, 48, 48, 52], rfl, _, rfl, rfl⟩, ⟨[68], [68], rfl, rfl⟩,
    fun n _ => ⟨n, rfl, rfl⟩⟩
set_option maxRecDepth 10000 in
example : ∃ t, copyV1 plainConv (cfg .v4) v1sample = .ok t ∧ contents t.tag = [⟨[84, 80, 69, 49], .text, [66]⟩, ⟨[84, 73, 84, 50], .text, [65]⟩,
    ⟨[84, 65, 76, 66], .text, [67]⟩, ⟨[67, 79, 77, 77], .com, [68]⟩, ⟨[84, 67, 79, 78], .text, [82, 111, 99, 107]⟩,
    ⟨[84, 89, 69, 82], .text, [50, 48, 48, 52]⟩] := ⟨_, rfl, by decide +kernel⟩

/-- The number of the track is lost, whatever it is. -/
theorem C81_refuted_track (C : Conv) (c : Cfg) (v1 : V1Tag) (h : Readable C v1) :
    ∃ t, copyV1 C c v1 = .ok t ∧ t.text C .trck = .throw .unknownFrame := by
  obtain ⟨t, h1, h2, h3, -, ar, ti, al, co, yr, da, dt, dl, dc, dg, dy, -, -, -, -, -, h4⟩ := C81_partial C c v1 h
  refine ⟨t, h1, ?_⟩
  have hid : frameId t.cfg.ver .trck = .ok [84, 82, 67, 75] := by rw [h2]; rfl
  rcases text_answers (c := t.cfg) h3 [84, 82, 67, 75] with ⟨f, hf, e1, -⟩ | ⟨-, -, h5⟩
  · have : (⟨f.id, f.cls, f.data⟩ : Item) ∈ contents t.tag := List.mem_map.2 ⟨f, hf, rfl⟩
    rw [h4] at this
    simp only [List.mem_append] at this
    rcases this with ((((h | h) | h) | h) | h) | h <;> · unfold itemIf at h; split at h <;> simp [e1] at h
  · simp only [Tg.text, hid, Res.ok_bind, h5]; rfl

theorem C81_refuted : ¬ C81_claim := by
  intro h
  obtain ⟨t, h1, -, -, h2⟩ := h plainConv (cfg .v3) v1sample v1sample_ok
  obtain ⟨s, hs⟩ := h2 5 rfl rfl (by decide)
  obtain ⟨t', h3, h4⟩ := C81_refuted_track plainConv (cfg .v3) v1sample v1sample_ok
  rw [h1] at h3
  cases h3
  rw [h4] at hs
  cases hs

/-- Nor is there a tag if a field cannot be read, say because there is a character in it that is not in ASCII: the ID3v2 tag is not
made at all. -/
theorem C81_refuted_text (C : Conv) (c : Cfg) (v1 : V1Tag) (field : Bytes) (hf : field ∈ [v1.artist, v1.title, v1.album, v1.comment, v1.year])
    (h : ¬ ∃ s, C.v1Text field = .ok s) : ¬ ∃ t, copyV1 C c v1 = .ok t := by
  rintro ⟨t, ht⟩
  obtain ⟨s1, h1, ht⟩ := res_bind_ok ht
  obtain ⟨y1, -, ht⟩ := res_bind_ok ht
  obtain ⟨s2, h2, ht⟩ := res_bind_ok ht
  obtain ⟨y2, -, ht⟩ := res_bind_ok ht
  obtain ⟨s3, h3, ht⟩ := res_bind_ok ht
  obtain ⟨y3, -, ht⟩ := res_bind_ok ht
  obtain ⟨s4, h4, ht⟩ := res_bind_ok ht
  obtain ⟨y4, -, ht⟩ := res_bind_ok ht
  obtain ⟨y5, -, ht⟩ := res_bind_ok ht
  obtain ⟨s5, h5, -⟩ := res_bind_ok ht
  simp only [List.mem_cons, List.not_mem_nil, or_false] at hf
  rcases hf with rfl | rfl | rfl | rfl | rfl
  · exact h ⟨_, h1⟩
  · exact h ⟨_, h2⟩
  · exact h ⟨_, h3⟩
  · exact h ⟨_, h4⟩
  · exact h ⟨_, h5⟩

/-- `Motörhead` in ISO-8859-1. -/
example : ¬ ∃ s, plainConv.v1Text [77, 111, 116, 0xf6, 114, 104, 101, 97, 100] = .ok s := by
  rintro ⟨s, h⟩
  have : plainConv.v1Text [77, 111, 116, 0xf6, 114, 104, 101, 97, 100] = .throw .runtimeError := rfl
  rw [this] at h
  cases h

set_option maxRecDepth 10000 in
/-- The comment is in the new tag, but not among those that the tag lists as its comments. -/
theorem C81_refuted_comments : ∃ t, copyV1 plainConv (cfg .v3) v1sample = .ok t ∧ t.tag.comments = .ok [] ∧
    ∃ x ∈ contents t.tag, x.cls = .com ∧ x.data = [68] := ⟨_, rfl, rfl, by decide +kernel⟩

/-! ## C79, tags that are made -/

/-- C79: tags that are made by `genre` have the genre too: those made from the tag of the other kind and those made from nothing. -/
theorem C79_created (C : Conv) (c : Cfg) (p : Policy) (g : Byte) (text : Bytes) (hA : Able C text) (v2 : List Tg) (v1 : Option V1Tag)
    (h1 : ∀ t, v1 = some t → Readable C t) {d : Bool} {v2' : List Tg} {v1' : Option V1Tag}
    (h : edit (setGenre C c p g text) v2 v1 = .ok (d, v2', v1')) :
    (v2 = [] → ∀ t ∈ v2', TInv t.tag ∧ t.cfg.ver = .v3 ∧ t.text C .tcon = .ok text) ∧ (v1 = none → ∀ t, v1' = some t → t.genre = g) := by
  obtain ⟨⟨d2, w2, new⟩, e2, h⟩ := res_bind_ok h
  obtain ⟨⟨d1, w1⟩, e1, h⟩ := res_bind_ok h
  cases h
  constructor
  · rintro rfl t ht
    have hset : ∀ t0 t' : Tg, TInv t0.tag → t0.cfg.ver = .v3 → t0.setText C .tcon text = .ok t' →
        TInv t'.tag ∧ t'.cfg.ver = .v3 ∧ t'.text C .tcon = .ok text := by
      intro t0 t' hI hv hs
      obtain ⟨d, h5, h6⟩ := hA.writes t0.cfg.ver
      obtain ⟨id, hid⟩ := tcon_id t0.cfg.ver
      obtain ⟨t2, h7, h8, h9, h10, -⟩ := tg_setText hI hid h5
      rw [h7] at hs
      cases hs
      exact ⟨h8, by rw [h9, hv], by rw [h10, h6]⟩
    cases v1 with
    | none =>
      simp only [editV2] at e2
      split at e2
      · obtain ⟨n, hn, e2⟩ := res_bind_ok e2
        cases e2
        simp only [List.nil_append, Option.toList_some, List.mem_singleton] at ht
        subst ht
        exact hset ⟨{ c with ver := .v3 }, .empty⟩ _ tinv_empty rfl hn
      · cases e2; simp at ht
    | some t1 =>
      simp only [editV2] at e2
      split at e2
      · obtain ⟨n, hn, e2⟩ := res_bind_ok e2
        cases e2
        simp only [List.nil_append, Option.toList_some, List.mem_singleton] at ht
        subst ht
        obtain ⟨t0, h5, h6⟩ := res_bind_ok hn
        obtain ⟨t0', h7, h8, h9, -⟩ := C81_partial C c t1 (h1 t1 rfl)
        rw [h7] at h5
        cases h5
        exact hset _ _ h9 (by rw [h8]) h6
      · cases e2; simp at ht
  · rintro rfl t rfl
    simp only [editV1] at e1
    split at e1
    · obtain ⟨n, hn, e1⟩ := res_bind_ok e1
      cases e1
      obtain ⟨m, -, hn⟩ := res_bind_ok hn
      cases hn
      rfl
    · split at e1
      · obtain ⟨n, hn, e1⟩ := res_bind_ok e1
        cases e1
        cases hn
        rfl
      · cases e1

/-- A tag is made of each kind, from nothing. -/
example : ∃ t1 t2, edit (setGenre plainConv (cfg .v3) { everywhere with v2Create := .always, v1Create := .always } 17 [82, 111, 99, 107]) []
    none = .ok (true, [t2], some t1) ∧ t1.genre = 17 := ⟨_, _, rfl, rfl⟩

end Scribbu.Props
