import Verif.Props.TextCmd
import Verif.Props.Tables

/-! C85, tags that are made. C86: ID3v1 tags with `text`. C87: the options of `text`. -/

namespace Scribbu.Props
open Scribbu Commands Process Spec LTag Lookup

/-! ## C85, tags that are made -/

/-- C85: a tag made from an ID3v1 tag says what that one says and has the texts asked for in place of others. -/
theorem C85_made_partial (C : Conv) (c : Cfg) (tags : List Nat) (create : Creation) (au bu : Bool) (adds : List (TextFrame × Bytes))
    (v1 : V1Tag) (h : Readable C v1) (ha : Askable C .v3 [] adds) :
    ∃ t t', copyV1 C c v1 = .ok t ∧ CopiedV1 C v1 t ∧ (setTexts C c tags create au bu [] adds).createV2From v1 = .ok t' ∧
      t'.cfg.ver = .v3 ∧ TextsDone C [] adds t t' := by
  obtain ⟨t, e, hc, hI, hk, ar, ti, al, co, yr, da, dt, dl, dc, dg, dy, -, -, -, -, -, hcon⟩ := C81_partial C c v1 h
  have hv : t.cfg.ver = .v3 := by rw [hc]
  have hno : ∀ f, frameId .v3 f ≠ .ok [67, 79, 77, 77] := by intro f; cases f <;> decide
  obtain ⟨t2, e2, -, c2, x2, -, r2, n2⟩ := setAll_spec (C := C) adds t hI (by rw [hv]; simpa using ha.known) ha.once
    (by rw [hv]; exact ha.trips) (by
      intro y hy hn
      rw [hv] at hn
      obtain ⟨f, -, hf⟩ := hn
      rw [hcon] at hy
      simp only [List.mem_append, itemIf] at hy
      rcases hy with ((((hy | hy) | hy) | hy) | hy) | hy <;> (split at hy <;> simp at hy) <;> subst hy
      all_goals first | rfl | exact absurd hf (hno f))
  refine ⟨t, t2, e, hk, ?_, by rw [c2, hv], c2, x2, by simp, ?_, ?_⟩
  · show ((copyV1 C c v1).bind fun t => (textTag C [] adds t).bind fun r => .ok r.2) = .ok t2
    rw [e]
    simp only [Res.ok_bind, textTag, deleteAll, e2]
  · exact r2 _ (by intro y hy; simpa using hy)
  · intro f hf _ id hid
    exact n2 f hf id hid

/-- C85: so has a tag made from nothing, which has no other frames. -/
theorem C85_new_partial (C : Conv) (c : Cfg) (tags : List Nat) (create : Creation) (au bu : Bool) (dels : List TextFrame)
    (adds : List (TextFrame × Bytes)) (hp : SaneParser { c with ver := .v3 }) (ha : Askable C .v3 dels adds) :
    ∃ t', (setTexts C c tags create au bu dels adds).createV2 = .ok t' ∧ t'.cfg.ver = .v3 ∧ (∀ x ∈ adds, t'.text C x.1 = .ok x.2) ∧
      ∀ x ∈ contents t'.tag, Named .v3 (adds.map Prod.fst) x.id := by
  obtain ⟨t', e, hd⟩ := C85_partial C dels adds ⟨{ c with ver := .v3 }, .empty⟩ ⟨[], rfl⟩ hp ha
    ⟨fun f _ a x b e => by simp [contents, LTag.empty] at e, by
      refine List.pairwise_iff_forall_sublist.2 ?_
      intro f g _ a x b e
      simp [contents, LTag.empty] at e⟩ (by simp [contents, LTag.empty])
  refine ⟨t', ?_, by rw [hd.cfg], hd.set, ?_⟩
  · show ((textTag C dels adds ⟨{ c with ver := .v3 }, .empty⟩).bind fun r => .ok r.2) = .ok t'
    rw [e]; rfl
  · intro x hx
    have hN : Named .v3 (dels ++ adds.map Prod.fst) x.id := by
      apply Decidable.byContradiction
      intro hn
      have : x ∈ (contents t'.tag).filter fun x => ¬ Named .v3 (dels ++ adds.map Prod.fst) x.id :=
        List.mem_filter.2 ⟨hx, by simpa using hn⟩
      have hr := hd.rest
      simp only at hr
      rw [hr] at this
      simp [contents, LTag.empty] at this
    obtain ⟨f, hf, e⟩ := hN
    by_cases hfa : f ∈ adds.map Prod.fst
    · exact ⟨f, hfa, e⟩
    · rcases List.mem_append.1 hf with hf | hf
      · exact absurd rfl (hd.gone f hf hfa x.id e x hx)
      · exact absurd hf hfa

example : ∃ t', (setTexts plainConv (cfg .v3) [] .always false false [.tenc] [(.tit2, [65]), (.tpe1, [66])]).createV2 = .ok t' ∧
    contents t'.tag = [⟨tit .v3, .text, [65]⟩, ⟨tpe .v3, .text, [66]⟩] := ⟨_, rfl, by decide⟩

/-! ## C86: ID3v1 tags -/

/-- C86: if a file has an ID3v1 tag and is processed without error, the title, the artist and the album in that tag are as asked for, and
this is written. -/
def C86_claim : Prop := ∀ (C : Conv) (c : Cfg) (tags : List Nat) (create : Creation) (au bu : Bool) (dels : List TextFrame)
  (adds : List (TextFrame × Bytes)) (v2 : List Tg) (v1 : V1Tag) (d : Bool) (v2' : List Tg) (v1' : Option V1Tag),
  (adds.map Prod.fst).Nodup → edit (setTexts C c tags create au bu dels adds) v2 (some v1) = .ok (d, v2', v1') →
  d = true ∧ ∃ t, v1' = some t ∧ V1TextsDone C dels adds v1 t

/-- C86 is refuted: unless indices of ID3v2 tags are given, the ID3v1 tag is left alone, whatever is asked for. -/
theorem C86_refuted_untouched (C : Conv) (c : Cfg) (create : Creation) (au bu : Bool) (dels : List TextFrame)
    (adds : List (TextFrame × Bytes)) (v2 : List Tg) (v1 : Option V1Tag) (d : Bool) (v2' : List Tg) (v1' : Option V1Tag)
    (h : edit (setTexts C c [] create au bu dels adds) v2 v1 = .ok (d, v2', v1')) : v1' = v1 := by
  obtain ⟨⟨d2, w2, new⟩, -, h⟩ := res_bind_ok h
  obtain ⟨⟨d1, w1⟩, e1, h⟩ := res_bind_ok h
  cases h
  cases v1 with
  | some t => simp [editV1, setTexts] at e1; exact e1.2.symm
  | none => simp [editV1, setTexts] at e1; exact e1.2.symm

theorem C86_refuted : ¬ C86_claim := by
  intro h
  have h1 := h plainConv (cfg .v3) [] .never false false [] [(.tit2, [65])] [twoTexts .v3] (V1Tag.scratch false false) true
  have : ∃ v2' v1', edit (setTexts plainConv (cfg .v3) [] .never false false [] [(.tit2, [65])]) [twoTexts .v3]
      (some (V1Tag.scratch false false)) = .ok (true, v2', v1') := ⟨_, _, rfl⟩
  obtain ⟨v2', v1', e⟩ := this
  have e1 := C86_refuted_untouched _ _ _ _ _ _ _ _ _ _ _ _ e
  obtain ⟨-, t, e2, hd⟩ := h1 v2' v1' (by simp) e
  rw [e1] at e2
  cases e2
  obtain ⟨d, e3, -, h3⟩ := hd.title.1 [65] (by simp)
  cases e3
  revert h3
  rintro (h3 | ⟨k, h3⟩)
  · cases h3
  · cases h3

/-- If a file has an ID3v1 tag only, that is changed if indices are given, but the file is not written. -/
theorem C86_refuted_lost (C : Conv) (c : Cfg) (k : Nat) (tags : List Nat) (au bu : Bool) (dels : List TextFrame)
    (adds : List (TextFrame × Bytes)) (v1 : Option V1Tag) (d : Bool) (v2' : List Tg) (v1' : Option V1Tag)
    (h : edit (setTexts C c (k :: tags) .never au bu dels adds) [] v1 = .ok (d, v2', v1')) : d = false := by
  obtain ⟨⟨d2, w2, new⟩, e2, h⟩ := res_bind_ok h
  obtain ⟨⟨d1, w1⟩, e1, h⟩ := res_bind_ok h
  cases h
  cases v1 with
  | some t =>
    simp [editV2, setTexts] at e2
    simp only [editV1] at e1
    rw [if_pos (show (setTexts C c (k :: tags) .never au bu dels adds).v1Scope = true from rfl)] at e1
    obtain ⟨⟨b, t'⟩, e3, e1⟩ := res_bind_ok e1
    obtain ⟨t2, -, e3⟩ := res_bind_ok e3
    cases e3; cases e1
    simp [e2.1]
  | none =>
    simp [editV2, setTexts] at e2
    simp [editV1, setTexts] at e1
    simp [e2.1, e1.1]

example : edit (setTexts plainConv (cfg .v3) [0] .never false false [] [(.tit2, [65])]) [] (some (V1Tag.scratch false false)) =
    .ok (false, [], some ((V1Tag.scratch false false).apply (.setTitle [65]))) := rfl

theorem rest_iff (a t : V1Tag) : { a with title := t.title, artist := t.artist, album := t.album } = t ↔
    a.extended = t.extended ∧ a.v11 = t.v11 ∧ a.comment = t.comment ∧ a.genre = t.genre ∧ a.extGenre = t.extGenre ∧
    a.startTime = t.startTime ∧ a.endTime = t.endTime ∧ a.speed = t.speed ∧ a.track = t.track ∧ a.year = t.year := by
  cases a; cases t; simp

theorem clearV1_spec : ∀ (dels : List TextFrame) (t : V1Tag),
    (clearV1 dels t).title = (if .tit2 ∈ dels then List.replicate t.textSz 0 else t.title) ∧
    (clearV1 dels t).artist = (if .tpe1 ∈ dels then List.replicate t.textSz 0 else t.artist) ∧
    (clearV1 dels t).album = (if .talb ∈ dels then List.replicate t.textSz 0 else t.album) ∧
    { clearV1 dels t with title := t.title, artist := t.artist, album := t.album } = t := by
  have hz : ∀ n, resize [] n = List.replicate n 0 := by
    intro n; unfold resize; cases n <;> simp
  intro dels
  induction dels with
  | nil => intro t; simp [clearV1]
  | cons f fs ih =>
    intro t
    cases f
    case tit2 =>
      obtain ⟨h1, h2, h3, h4⟩ := ih (t.apply (.setTitle []))
      have hs : (t.apply (.setTitle [])).textSz = t.textSz := rfl
      simp only [clearV1, h1, h2, h3, hs]
      refine ⟨?_, ?_, ?_, ?_⟩
      · simp [V1Tag.apply, hz]
      · simp [V1Tag.apply]
      · simp [V1Tag.apply]
      · have q := (rest_iff _ _).1 h4
        exact (rest_iff _ _).2 q
    case tpe1 =>
      obtain ⟨h1, h2, h3, h4⟩ := ih (t.apply (.setArtist []))
      have hs : (t.apply (.setArtist [])).textSz = t.textSz := rfl
      simp only [clearV1, h1, h2, h3, hs]
      refine ⟨?_, ?_, ?_, ?_⟩
      · simp [V1Tag.apply]
      · simp [V1Tag.apply, hz]
      · simp [V1Tag.apply]
      · have q := (rest_iff _ _).1 h4
        exact (rest_iff _ _).2 q
    case talb =>
      obtain ⟨h1, h2, h3, h4⟩ := ih (t.apply (.setAlbum []))
      have hs : (t.apply (.setAlbum [])).textSz = t.textSz := rfl
      simp only [clearV1, h1, h2, h3, hs]
      refine ⟨?_, ?_, ?_, ?_⟩
      · simp [V1Tag.apply]
      · simp [V1Tag.apply]
      · simp [V1Tag.apply, hz]
      · have q := (rest_iff _ _).1 h4
        exact (rest_iff _ _).2 q
    all_goals
      have := ih t
      simpa [clearV1] using this

/-- A field as set. -/
def SetField (C : Conv) (f : TextFrame) (adds : List (TextFrame × Bytes)) (n : Nat) (old new : Bytes) : Prop :=
  (∀ s, (f, s) ∈ adds → ∃ d, C.v1Plain s = .ok d ∧ new = resize d n) ∧ (f ∉ adds.map Prod.fst → new = old)

theorem setV1_spec {C : Conv} : ∀ (adds : List (TextFrame × Bytes)) (t : V1Tag), (adds.map Prod.fst).Nodup →
    ∀ t', setV1 C adds t = .ok t' →
      SetField C .tit2 adds t.textSz t.title t'.title ∧ SetField C .tpe1 adds t.textSz t.artist t'.artist ∧
      SetField C .talb adds t.textSz t.album t'.album ∧ { t' with title := t.title, artist := t.artist, album := t.album } = t := by
  intro adds
  induction adds with
  | nil => intro t _ t' h; cases h; simp [SetField]
  | cons x xs ih =>
    intro t hn t' h
    obtain ⟨f, s⟩ := x
    simp only [List.map_cons, List.nodup_cons] at hn
    have hns : ∀ s', (f, s') ∉ xs := fun s' hm => hn.1 (List.mem_map.2 ⟨_, hm, rfl⟩)
    cases f
    case tit2 =>
      simp only [setV1] at h
      obtain ⟨b, hb, h⟩ := res_bind_ok h
      obtain ⟨h1, h2, h3, h4⟩ := ih _ hn.2 _ h
      refine ⟨⟨?_, by simp⟩, ⟨fun s' hs' => h2.1 s' (by simpa using hs'), fun hm => h2.2 (by simpa using hm)⟩,
        ⟨fun s' hs' => h3.1 s' (by simpa using hs'), fun hm => h3.2 (by simpa using hm)⟩, ?_⟩
      · intro s' hs'
        simp only [List.mem_cons, Prod.mk.injEq, true_and] at hs'
        rcases hs' with rfl | hs'
        · exact ⟨b, hb, h1.2 hn.1⟩
        · exact absurd hs' (hns s')
      · have q := (rest_iff _ _).1 h4
        exact (rest_iff _ _).2 q
    case tpe1 =>
      simp only [setV1] at h
      obtain ⟨b, hb, h⟩ := res_bind_ok h
      obtain ⟨h1, h2, h3, h4⟩ := ih _ hn.2 _ h
      refine ⟨⟨fun s' hs' => h1.1 s' (by simpa using hs'), fun hm => h1.2 (by simpa using hm)⟩, ⟨?_, by simp⟩,
        ⟨fun s' hs' => h3.1 s' (by simpa using hs'), fun hm => h3.2 (by simpa using hm)⟩, ?_⟩
      · intro s' hs'
        simp only [List.mem_cons, Prod.mk.injEq, true_and] at hs'
        rcases hs' with rfl | hs'
        · exact ⟨b, hb, h2.2 hn.1⟩
        · exact absurd hs' (hns s')
      · have q := (rest_iff _ _).1 h4
        exact (rest_iff _ _).2 q
    case talb =>
      simp only [setV1] at h
      obtain ⟨b, hb, h⟩ := res_bind_ok h
      obtain ⟨h1, h2, h3, h4⟩ := ih _ hn.2 _ h
      refine ⟨⟨fun s' hs' => h1.1 s' (by simpa using hs'), fun hm => h1.2 (by simpa using hm)⟩,
        ⟨fun s' hs' => h2.1 s' (by simpa using hs'), fun hm => h2.2 (by simpa using hm)⟩, ⟨?_, by simp⟩, ?_⟩
      · intro s' hs'
        simp only [List.mem_cons, Prod.mk.injEq, true_and] at hs'
        rcases hs' with rfl | hs'
        · exact ⟨b, hb, h3.2 hn.1⟩
        · exact absurd hs' (hns s')
      · have q := (rest_iff _ _).1 h4
        exact (rest_iff _ _).2 q
    all_goals
      simp only [setV1] at h
      obtain ⟨h1, h2, h3, h4⟩ := ih _ hn.2 _ h
      exact ⟨⟨fun s' hs' => h1.1 s' (by simpa using hs'), fun hm => h1.2 (by simpa using hm)⟩,
        ⟨fun s' hs' => h2.1 s' (by simpa using hs'), fun hm => h2.2 (by simpa using hm)⟩,
        ⟨fun s' hs' => h3.1 s' (by simpa using hs'), fun hm => h3.2 (by simpa using hm)⟩, h4⟩

theorem setV1_ok {C : Conv} : ∀ (adds : List (TextFrame × Bytes)) (t : V1Tag), (∀ x ∈ adds, ∃ d, C.v1Plain x.2 = .ok d) →
    ∃ t', setV1 C adds t = .ok t' := by
  intro adds
  induction adds with
  | nil => intro t _; exact ⟨t, rfl⟩
  | cons x xs ih =>
    intro t h
    obtain ⟨f, s⟩ := x
    obtain ⟨d, hd⟩ := h (f, s) List.mem_cons_self
    have h' : ∀ x ∈ xs, ∃ d, C.v1Plain x.2 = .ok d := fun x hx => h x (List.mem_cons_of_mem _ hx)
    simp only at hd
    cases f
    all_goals first
      | (simp only [setV1, hd, Res.ok_bind]; exact ih _ h')
      | (simp only [setV1]; exact ih _ h')

theorem textV1_spec {C : Conv} {dels : List TextFrame} {adds : List (TextFrame × Bytes)} {t t' : V1Tag} {b : Bool}
    (hn : (adds.map Prod.fst).Nodup) (h : textV1 C dels adds t = .ok (b, t')) : V1TextsDone C dels adds t t' := by
  obtain ⟨t2, h2, h⟩ := res_bind_ok h
  cases h
  obtain ⟨c1, c2, c3, c4⟩ := clearV1_spec dels t
  obtain ⟨s1, s2, s3, s4⟩ := setV1_spec adds _ hn _ h2
  have hsz : (clearV1 dels t).textSz = t.textSz := by
    have := congrArg V1Tag.extended c4
    simp only at this
    unfold V1Tag.textSz
    rw [this]
  have field : ∀ (f : TextFrame) (o m n : Bytes), SetField C f adds (clearV1 dels t).textSz m n →
      m = (if f ∈ dels then List.replicate t.textSz 0 else o) → FieldDone C f dels adds (if t.extended then 90 else 30) o n := by
    rintro f o m n ⟨h1, h2⟩ hm
    rw [hsz] at h1
    refine ⟨?_, ?_, ?_⟩
    · intro s hs
      obtain ⟨d, hd, e⟩ := h1 s hs
      subst e
      exact ⟨d, hd, resize_field d t.textSz⟩
    · intro ha hd
      rw [h2 ha, hm, if_pos hd]; rfl
    · intro ha hd
      rw [h2 ha, hm, if_neg hd]
  refine ⟨field _ _ _ _ s1 c1, field _ _ _ _ s2 c2, field _ _ _ _ s3 c3, ?_⟩
  have := congrArg (fun x : V1Tag => { x with title := t.title, artist := t.artist, album := t.album }) s4
  simp only at this
  rw [c4] at this
  exact this

/-- The part of C86 that holds: if indices of ID3v2 tags are given, the ID3v1 tag is as asked for whenever the file is processed without
error, and this is written if the first index given is that of a tag in the file. -/
theorem C86_partial (C : Conv) (c : Cfg) (k : Nat) (tags : List Nat) (create : Creation) (au bu : Bool) (dels : List TextFrame)
    (adds : List (TextFrame × Bytes)) (v2 : List Tg) (v1 : V1Tag) (d : Bool) (v2' : List Tg) (v1' : Option V1Tag)
    (hn : (adds.map Prod.fst).Nodup) (h : edit (setTexts C c (k :: tags) create au bu dels adds) v2 (some v1) = .ok (d, v2', v1')) :
    (∃ t, v1' = some t ∧ V1TextsDone C dels adds v1 t) ∧ (k < v2.length → d = true) := by
  obtain ⟨⟨d2, w2, new⟩, e2, h⟩ := res_bind_ok h
  obtain ⟨⟨d1, w1⟩, e1, h⟩ := res_bind_ok h
  cases h
  constructor
  · simp only [editV1] at e1
    rw [if_pos (show (setTexts C c (k :: tags) create au bu dels adds).v1Scope = true from rfl)] at e1
    obtain ⟨⟨b, t'⟩, e3, e1⟩ := res_bind_ok e1
    cases e1
    exact ⟨t', rfl, textV1_spec hn e3⟩
  · intro hk
    have loop : ∀ (ts : List Tg) (i : Nat) (e : Bool) (ts' : List Tg), i ≤ k → k < i + ts.length →
        scopeLoop (textTag C dels adds) i (k :: tags) ts = .ok (e, ts') → e = true := by
      intro ts
      induction ts with
      | nil => intro i e ts' h1 h2 _; simp at h2; omega
      | cons t ts ih =>
        intro i e ts' h1 h2 h3
        simp only [List.length_cons] at h2
        unfold scopeLoop at h3
        by_cases hki : k = i
        · rw [if_pos hki] at h3
          obtain ⟨⟨u, t'⟩, h4, h3⟩ := res_bind_ok h3
          obtain ⟨⟨r, ts2⟩, -, h3⟩ := res_bind_ok h3
          obtain ⟨x, -, h4⟩ := res_bind_ok h4
          obtain ⟨y, -, h4⟩ := res_bind_ok h4
          cases h4; cases h3; rfl
        · rw [if_neg hki] at h3
          obtain ⟨⟨r, ts2⟩, h5, h3⟩ := res_bind_ok h3
          cases h3
          exact ih (i + 1) _ ts2 (by omega) (by omega) h5
    cases v2 with
    | nil => simp at hk
    | cons t ts =>
      simp only [editV2] at e2
      rw [if_neg (show (setTexts C c (k :: tags) create au bu dels adds).v2Scope ≠ .none from nofun)] at e2
      obtain ⟨⟨u, ts2⟩, h5, e2⟩ := res_bind_ok e2
      cases e2
      have := loop (t :: ts) 0 u ts2 (Nat.zero_le _) (by simpa using hk) h5
      simp [this]

/-- The hypotheses are met: the second of two tags and an ID3v1 tag. -/
example : ∃ v2', edit (setTexts plainConv (cfg .v3) [1] .never false false [.talb] [(.tit2, [65])]) [twoTexts .v3, twoTexts .v3]
    (some (V1Tag.scratch false false)) = .ok (true, v2', some ((V1Tag.scratch false false).apply (.setTitle [65]))) := ⟨_, rfl⟩

/-- C85 and C86 for a file: if each of the ID3v2 tags to be processed can be, and all texts can be put into ID3v1 tags, the file is
processed and written, each tag in scope as C85 has it (those that report so, and no others), the ID3v1 tag only if indices are given. -/
theorem C86_file_partial (C : Conv) (c : Cfg) (tags : List Nat) (create : Creation) (au bu : Bool) (dels : List TextFrame)
    (adds : List (TextFrame × Bytes)) (v2 : List Tg) (v1 : Option V1Tag) (hn : (adds.map Prod.fst).Nodup) (hne : v2 ≠ [])
    (hi : tags ≠ [] → tags.Pairwise (· < ·) ∧ ∃ k ∈ tags, v2.length ≤ k + 1)
    (h2 : ∀ i t, v2[i]? = some t → tags = [] ∨ i ∈ tags → ∃ t', textTag C dels adds t = .ok (true, t') ∧ TextsDone C dels adds t t')
    (h1 : ∀ x ∈ adds, ∃ d, C.v1Plain x.2 = .ok d) :
    ∃ d v2' v1', edit (setTexts C c tags create au bu dels adds) v2 v1 = .ok (d, v2', v1') ∧
      (d = true ↔ ∃ i, i < v2.length ∧ (tags = [] ∨ i ∈ tags)) ∧
      v2'.length = v2.length ∧
      (∀ i t, v2[i]? = some t → tags = [] ∨ i ∈ tags → ∃ t', v2'[i]? = some t' ∧ TextsDone C dels adds t t') ∧
      (∀ i t, v2[i]? = some t → ¬ (tags = [] ∨ i ∈ tags) → v2'[i]? = some t) ∧
      (tags = [] ∨ v1 = none → v1' = v1) ∧
      (tags ≠ [] → ∀ t, v1 = some t → ∃ t', v1' = some t' ∧ V1TextsDone C dels adds t t') := by
  have hsc : ∀ i, InScope (setTexts C c tags create au bu dels adds) i ↔ (tags = [] ∨ i ∈ tags) := by
    intro i
    cases tags with
    | nil => simp [InScope, setTexts]
    | cons a l => simp [InScope, setTexts]
  have hv1 : ∀ t, ∃ t', textV1 C dels adds t = .ok (false, t') := by
    intro t
    obtain ⟨t', e⟩ := setV1_ok adds (clearV1 dels t) h1
    exact ⟨t', by simp only [textV1, e, Res.ok_bind]⟩
  obtain ⟨d, v2', v1', e, ha, hb, hd⟩ := C43_partial (setTexts C c tags create au bu dels adds) v2 v1
    (by
      intro i t ht hs
      obtain ⟨t', e, -⟩ := h2 i t ht ((hsc i).1 hs)
      exact ⟨_, _, e⟩)
    (by
      intro t _ _
      obtain ⟨t', e⟩ := hv1 t
      exact ⟨_, _, e⟩)
    (by intro _ _ h; exact absurd rfl h)
    (by intro _ h; exact absurd h hne)
    (by intro _ _ h; exact absurd h hne)
    (by intro _ h; exact absurd h hne)
    (by
      intro ks hks
      cases tags with
      | nil => simp [setTexts] at hks
      | cons a l =>
        simp [setTexts] at hks
        subst hks
        obtain ⟨p, q⟩ := hi (by simp)
        exact ⟨p, fun _ => q⟩)
  refine ⟨d, v2', v1', e, ?_, ?_, ?_, ?_, ?_, ?_⟩
  · rw [hd]
    constructor
    · rintro (⟨i, t, t', ht, hs, -⟩ | ⟨h, -⟩ | ⟨t, t', -, -, h⟩ | ⟨-, h⟩)
      · exact ⟨i, (List.getElem?_eq_some_iff.1 ht).1, (hsc i).1 hs⟩
      · exact absurd h hne
      · obtain ⟨t2, e2⟩ := hv1 t
        have : textV1 C dels adds t = .ok (true, t') := h
        rw [e2] at this
        cases this
      · rcases h with h | ⟨h, -⟩ <;> cases h
    · rintro ⟨i, hi, hs⟩
      obtain ⟨t', e', -⟩ := h2 i v2[i] (List.getElem?_eq_getElem hi) hs
      exact .inl ⟨i, v2[i], t', List.getElem?_eq_getElem hi, (hsc i).2 hs, e'⟩
  · exact ha.2.2.1 (fun h => hne h.1)
  · intro i t ht hs
    obtain ⟨b, t', e1, e2⟩ := ha.1 i t ht ((hsc i).2 hs)
    obtain ⟨t2, e3, hdone⟩ := h2 i t ht hs
    have : textTag C dels adds t = .ok (b, t') := e1
    rw [e3] at this
    cases this
    exact ⟨_, e2, hdone⟩
  · intro i t ht hs
    exact ha.2.1 i t ht (fun h => hs ((hsc i).1 h))
  · intro h
    cases v1 with
    | none =>
      refine hb.2.2.1 rfl ?_
      rintro (h | ⟨h, -⟩) <;> cases h
    | some t =>
      rcases h with rfl | h
      · exact hb.2.1 t rfl rfl
      · cases h
  · intro hne t ht
    obtain ⟨b, t', e1, e2⟩ := hb.1 t ht (by cases tags with
      | nil => exact absurd rfl hne
      | cons => rfl)
    exact ⟨t', e2, textV1_spec hn e1⟩

/-- The hypotheses are met: the title is set in the second of two tags. -/
example : ∀ i t, [twoTexts .v3, twoTexts .v3][i]? = some t → ([1] : List Nat) = [] ∨ i ∈ [1] →
    ∃ t', textTag plainConv [] [(.tit2, [65])] t = .ok (true, t') ∧ TextsDone plainConv [] [(.tit2, [65])] t t' := by
  intro i t h1 h2
  simp only [List.cons_ne_nil, List.mem_singleton, false_or] at h2
  subst h2
  cases h1
  refine C85_partial plainConv [] _ (twoTexts .v3) ⟨_, rfl⟩ (cfg_sane .v3) ⟨fun f _ => v3_known f, by simp, fun x _ => ⟨x.2, rfl, rfl⟩⟩
    ⟨by simp, .nil⟩ ?_
  decide +kernel

/-! ## C87: the options -/

/-- The names of the options that set frames: album, artist, encoded-by, genre, title, track, year. -/
def optionNames : List (Bytes × TextFrame) :=
  [([97, 108, 98, 117, 109], .talb),
   ([97, 114, 116, 105, 115, 116], .tpe1),
   ([101, 110, 99, 111, 100, 101, 100, 45, 98, 121], .tenc),
   ([103, 101, 110, 114, 101], .tcon),
   ([116, 105, 116, 108, 101], .tit2),
   ([116, 114, 97, 99, 107], .trck),
   ([121, 101, 97, 114], .tyer)]

/-- `s` names a frame, as documented: by the name of the option or by the identifier in ID3v2.3. -/
def NamesFrame (s : Bytes) (f : TextFrame) : Prop := (s, f) ∈ optionNames ∨ (f, s) ∈ Spec.stdId4

/-- `l` are the frames of which the options give the text, with that text. -/
def GivenTexts (o : TextOpts) (l : List (TextFrame × Bytes)) : Prop :=
  (l.map Prod.fst).Nodup ∧ ∀ f s, (f, s) ∈ l ↔ (f = .talb ∧ o.album = some s) ∨ (f = .tpe1 ∧ o.artist = some s) ∨
    (f = .tenc ∧ o.encodedBy = some s) ∨ (f = .tcon ∧ o.genre = some s) ∨ (f = .tit2 ∧ o.title = some s) ∨
    (f = .trck ∧ o.track = some s) ∨ (f = .tyer ∧ o.year = some s)

/-- `dels` are the frames named by `l`, in that order. -/
def NamesFrames (l : List Bytes) (dels : List TextFrame) : Prop :=
  dels.length = l.length ∧ ∀ (i : Nat) (s : Bytes) (f : TextFrame), l[i]? = some s → dels[i]? = some f → NamesFrame s f

/-- What the options ask for. -/
structure TextAsked (C : Conv) (o : TextOpts) (dels : List TextFrame) (P : Processor Tg) : Prop where
  scope : ∀ i, InScope P i ↔ (o.tags = [] ∨ i ∈ o.tags)
  create : P.v2Create = if o.alwaysV2 then .always else if o.createV2 then .whenOther else .never
  never : P.v1Create = .never
  flags : P.adjustUnsync = o.adjustUnsync ∧ P.createBackups = o.createBackups ∧ P.dryRun = false
  texts : ∃ adds, GivenTexts o adds ∧ P.processV2 = textTag C dels adds ∧ P.processV1 = textV1 C dels adds

/-- C87: whatever the locale, options that do not contradict each other are followed; those that do are refused. -/
def C87_claim : Prop := ∀ (C : Conv) (c : Cfg) (global user : Bytes) (o : TextOpts) (dels : List TextFrame),
  NamesFrames o.delete dels →
  (o.createV2 = true ∧ o.alwaysV2 = true → textCmd C c global user o = .throw .invalidArgument) ∧
  (¬ (o.createV2 = true ∧ o.alwaysV2 = true) → ∃ P, textCmd C c global user o = .ok P ∧ TextAsked C o dels P)

/-- C87 is refuted: unless the encoding is given, nothing can be done in locales whose names state a character set. -/
theorem C87_refuted_locale (C : Conv) (c : Cfg) (l1 c1 l2 c2 : Bytes) (o : TextOpts) (h : o.encoding = none) :
    textCmd C c (l1 ++ 46 :: c1) (l2 ++ 46 :: c2) o = .throw .rangeError := by
  unfold textCmd TextOpts.source
  rw [h]
  simp only [C73_refuted_all]
  rfl

theorem C87_refuted : ¬ C87_claim := by
  intro h
  obtain ⟨P, e, -⟩ := (h plainConv (cfg .v3) [101, 110, 95, 85, 83, 46, 85, 84, 70, 45, 56] [101, 110, 95, 85, 83, 46, 85, 84, 70, 45, 56]
    { title := some [65] } [] ⟨rfl, by simp⟩).2 (by simp)
  rw [show ([101, 110, 95, 85, 83, 46, 85, 84, 70, 45, 56] : Bytes) = [101, 110, 95, 85, 83] ++ 46 :: [85, 84, 70, 45, 56] from rfl,
    C87_refuted_locale _ _ _ _ _ _ _ rfl] at e
  cases e

/-- Frames are found by the names documented. -/
theorem parse_names {s : Bytes} {f : TextFrame} (h : NamesFrame s f) : TextFrame.parse s = .ok f := by
  rcases h with h | h
  · have key : ∀ x ∈ optionNames, TextFrame.parse x.1 = .ok x.2 := by decide +kernel
    exact key _ h
  · have key : ∀ x ∈ Spec.stdId4, TextFrame.parse x.2 = .ok x.1 := by decide +kernel
    exact key _ h

theorem namedFrames_spec : ∀ (l : List Bytes) (dels : List TextFrame), NamesFrames l dels → namedFrames l = .ok dels := by
  intro l
  induction l with
  | nil =>
    rintro dels ⟨h, -⟩
    cases dels with
    | nil => rfl
    | cons => simp at h
  | cons s l ih =>
    rintro dels ⟨h, hn⟩
    cases dels with
    | nil => simp at h
    | cons f fs =>
      have h1 := ih fs ⟨by simpa using h, fun i s f h2 h3 => hn (i + 1) s f (by simpa using h2) (by simpa using h3)⟩
      simp only [namedFrames, parse_names (hn 0 s f rfl rfl), Res.ok_bind, h1]

theorem adds_given (o : TextOpts) : GivenTexts o o.adds := by
  constructor
  · have h : ∀ a b c d e f g : Option Bytes, (({ album := a, genre := b, encodedBy := c, title := d, artist := e, track := f, year := g } : TextOpts).adds.map Prod.fst).Nodup := by
      intro a b c d e f g
      cases a <;> cases b <;> cases c <;> cases d <;> cases e <;> cases f <;> cases g <;> simp [TextOpts.adds]
    exact h o.album o.genre o.encodedBy o.title o.artist o.track o.year
  · intro f s
    simp only [TextOpts.adds, List.mem_append, Option.mem_toList, Option.map_eq_some_iff, Prod.mk.injEq]
    constructor
    · rintro ((((((⟨a, h, rfl, rfl⟩ | ⟨a, h, rfl, rfl⟩) | ⟨a, h, rfl, rfl⟩) | ⟨a, h, rfl, rfl⟩) | ⟨a, h, rfl, rfl⟩) | ⟨a, h, rfl, rfl⟩) |
        ⟨a, h, rfl, rfl⟩) <;> simp [h]
    · rintro (⟨rfl, h⟩ | ⟨rfl, h⟩ | ⟨rfl, h⟩ | ⟨rfl, h⟩ | ⟨rfl, h⟩ | ⟨rfl, h⟩ | ⟨rfl, h⟩) <;> simp [h]

/-- The part of C87 that holds: if the encoding is given or one of the names of the locales states no character set. -/
theorem C87_partial (C : Conv) (c : Cfg) (global user : Bytes) (o : TextOpts) (dels : List TextFrame) (hd : NamesFrames o.delete dels)
    (he : o.encoding ≠ none ∨ (46 : Byte) ∉ global ∨ (46 : Byte) ∉ user) :
    (o.createV2 = true ∧ o.alwaysV2 = true → textCmd C c global user o = .throw .invalidArgument) ∧
    (¬ (o.createV2 = true ∧ o.alwaysV2 = true) → ∃ P, textCmd C c global user o = .ok P ∧ TextAsked C o dels P) := by
  have henc : ∃ e, o.source global user = .ok e := by
    unfold TextOpts.source
    cases h : o.encoding with
    | some e => exact ⟨e, rfl⟩
    | none =>
      obtain ⟨h1, h2, -⟩ := C73_partial global user
      by_cases hg : (46 : Byte) ∈ global
      · exact ⟨_, h2 hg (by rcases he with he | he | he
                            · exact absurd h he
                            · exact absurd hg he
                            · exact he)⟩
      · exact ⟨_, h1 hg⟩
  obtain ⟨e, henc⟩ := henc
  unfold textCmd
  rw [henc]
  simp only [Res.ok_bind, namedFrames_spec _ _ hd]
  constructor
  · rintro ⟨h1, h2⟩
    simp only [h1, h2]
    rfl
  · intro hcc
    have main : ∀ create, create = (if o.alwaysV2 then Creation.always else if o.createV2 then .whenOther else .never) →
        TextAsked C o dels (setTexts C c o.tags create o.adjustUnsync o.createBackups dels o.adds) := by
      intro create hcr
      refine ⟨?_, hcr, rfl, ⟨rfl, rfl, rfl⟩, o.adds, adds_given o, rfl, rfl⟩
      intro i
      cases ht : o.tags with
      | nil => simp [InScope, setTexts]
      | cons a l => simp [InScope, setTexts]
    cases ha : o.alwaysV2 with
    | true =>
      cases hc : o.createV2 with
      | true => exact absurd ⟨hc, ha⟩ hcc
      | false => exact ⟨_, rfl, main _ (by simp [ha])⟩
    | false =>
      cases hc : o.createV2 with
      | true => exact ⟨_, rfl, main _ (by simp [ha, hc])⟩
      | false => exact ⟨_, rfl, main _ (by simp [ha, hc])⟩

/-- The hypotheses are met: `text -T A -d album -d TENC` in the locale C. -/
example : NamesFrames ({ title := some [65], delete := [[97, 108, 98, 117, 109], [84, 69, 78, 67]] } : TextOpts).delete [.talb, .tenc] := by
  refine ⟨rfl, ?_⟩
  intro i s f h1 h2
  match i with
  | 0 => cases h1; cases h2; exact .inl (by decide)
  | 1 => cases h1; cases h2; exact .inr (by decide)
example : (46 : Byte) ∉ ([67] : Bytes) := by decide

end Scribbu.Props
