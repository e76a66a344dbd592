import Verif.Proofs.WriteBack

/-! Property C196: the tags of a file are read and written back, unchanged, any number of times; and what C33 says
of ID3v2.4 tags. -/

namespace Scribbu.Props
open Scribbu Scribbu.Spec Scribbu.WriteBack Scribbu.Tagset

/-- `bs` are the bytes of the tags `ts`. -/
def WrittenAs (z : Zlib) (ts : List AnyTag) (bs : List Bytes) : Prop :=
  Pairs (fun t b => ∃ x, (anyI z).write t false = .ok (b, x)) ts bs

/-- **C196** as claimed: reading all the tags of a file that begins with tags the library wrote, and writing them back over it, leaves the
file as it is. -/
def C196_claim : Prop := ∀ (z : Zlib) (st : EmplaceStrategy) (ts : List AnyTag) (bs : List Bytes) (audio d : Bytes),
  WrittenAs z ts bs → NoHeader audio → WrittenBack z st (bs.flatten ++ audio) d → d = bs.flatten ++ audio

theorem noHeader_of_short {b : Bytes} (h : b.length < 10) : NoHeader b := by
  rintro v r f n ⟨s0, s1, s2, s3, rest, rfl, -⟩
  simp only [List.length_append, List.length_cons, List.length_nil] at h
  omega

/-- By evaluation. -/
theorem writtenBack_of {z : Zlib} {st : EmplaceStrategy} {d d' : Bytes}
    (h : ((Scheme.readTags z d).bind fun ts => (Tagset.maybeEmplace (anyI z) (some d) .never st ts).bind fun r => .ok r.2.1) = .ok d') :
    WrittenBack z st d d' := by
  rw [Res.bind_eq_ok] at h
  obtain ⟨ts, h1, h⟩ := h
  rw [Res.bind_eq_ok] at h
  obtain ⟨⟨how, b, ts'⟩, h2, h⟩ := h
  cases h
  exact ⟨ts, how, ts', h1, h2⟩

/-- **Finding** A file with a title marked as to be discarded when the tag is altered: after its tags have been read and written back without a
change the file says that the title is to be discarded when the file is altered. -/
theorem C196_refuted : ¬ C196_claim := by
  intro h
  have hw : ∃ x, (anyI zId).write (.inr (.inl fleeting)) false = .ok (fleeting0, x) := ⟨_, by rfl⟩
  have := h zId .reducePaddingEvenly [.inr (.inl fleeting)] [fleeting0] [0xff, 0xfb]
    [73, 68, 51, 3, 0, 0, 0, 0, 0, 14, 84, 73, 84, 50, 0, 0, 0, 2, 32, 0, 0, 65, 0, 0, 0xff, 0xfb]
    (.cons hw .nil) (noHeader_of_short (by decide)) (writtenBack_of (by decide +kernel))
  revert this
  decide

/-- **Finding** A file with an ID3v2.2 tag whose artist is in UCS-2: after its tags have been read and written
back without a change, one byte of the artist has moved out of its frame and the file is longer by one byte. -/
theorem C196_refuted_longer : ¬ ∀ (z : Zlib) (st : EmplaceStrategy) (ts : List AnyTag) (bs : List Bytes) (audio d : Bytes),
    WrittenAs z ts bs → NoHeader audio → WrittenBack z st (bs.flatten ++ audio) d → d.length = (bs.flatten ++ audio).length := by
  intro h
  have hw : ∃ x, (anyI zId).write (.inl ⟨some false, some false, some 0, [tp1]⟩) false = .ok (grown0, x) := ⟨_, by rfl⟩
  have := h zId .onlyWithFullPadding [.inl ⟨some false, some false, some 0, [tp1]⟩] [grown0] [0xff, 0xfb] (grown1 ++ [0xff, 0xfb])
    (.cons hw .nil) (noHeader_of_short (by decide)) (writtenBack_of (by decide +kernel))
  revert this
  decide

/-- Tags that survive (C195). -/
def Keepable (z : Zlib) : AnyTag → Prop
  | .inl t => ∃ w c pad sz t1, Storable t false w c pad ∧ t.size false = .ok (sz, t1) ∧ sz < 2 ^ 28
  | .inr (.inl t) => ∃ w, StorableFrames z .v3 t.frames w ∧ t.ext = none ∧ t.unsync ≠ some true ∧
    (t.frames.map fun f => 10 + (w f).length).sum + t.padding < 2 ^ 28
  | .inr (.inr t) => ∃ w, StorableFrames z .v4 t.frames w ∧ t.ext = none ∧ t.padding = 0 ∧ t.footer = false ∧
    (t.frames.map fun f => 10 + (w f).length).sum < 2 ^ 28

/-- None of the frames has an attribute set. -/
def NoAttributes : AnyTag → Prop
  | .inl _ => True
  | .inr (.inl t) => ∀ f ∈ t.frames, f.tap = false ∧ f.fap = false ∧ f.ro = false
  | .inr (.inr t) => ∀ f ∈ t.frames, f.tap = false ∧ f.fap = false ∧ f.ro = false

theorem keepable_settles {z : Zlib} (hz : ∀ c b, z.crc32 c b < 2 ^ 32) {t : AnyTag} (h : Keepable z t) :
    ∃ C, (∃ x, (anyI z).write t false = .ok (C 0, x)) ∧ Settles z (NoAttributes t) C := by
  rcases t with t | t | t
  · obtain ⟨w, c, pad, sz, t1, h1, h2, h3⟩ := h
    obtain ⟨C, ⟨⟨n, t'⟩, k1⟩, k2⟩ := settles22 z t w c pad h1 sz t1 h2 h3
    exact ⟨C, ⟨.inl t', by simp only [anyI, TagI.sum, tag22I, k1, Res.ok_bind]⟩, k2⟩
  · obtain ⟨w, h1, h2, h3, h4⟩ := h
    obtain ⟨hs, e⟩ := pack_eq h1
    rw [← e] at h4
    obtain ⟨C, ⟨⟨n, t'⟩, k1⟩, k2⟩ := settles23 hz hs h2 h3 h4
    exact ⟨C, ⟨.inr (.inl t'), by simp only [anyI, TagI.sum, tag23I, k1, Res.ok_bind]⟩, k2⟩
  · obtain ⟨w, h1, h2, h3, h4, h5⟩ := h
    obtain ⟨hs, e⟩ := pack_eq h1
    rw [← e] at h5
    obtain ⟨C, ⟨⟨n, t'⟩, k1⟩, k2⟩ := settles24 hs h2 h3 h4 h5
    exact ⟨C, ⟨.inr (.inr t'), by simp only [anyI, TagI.sum, tag24I, k1, Res.ok_bind]⟩, k2⟩

theorem keepable_all {z : Zlib} (hz : ∀ c b, z.crc32 c b < 2 ^ 32) {ts : List AnyTag} {bs : List Bytes}
    (hk : ∀ t ∈ ts, Keepable z t) (hb : WrittenAs z ts bs) :
    ∃ Cs : Nat → List Bytes, Cs 0 = bs ∧ (∀ n, Pairs (Step z) (Cs n) (Cs (n + 1))) ∧
      (∀ n, (Cs n).flatten.length = bs.flatten.length) ∧ (∀ n, 3 ≤ n → Cs n = Cs 3) ∧
      ((∀ t ∈ ts, NoAttributes t) → ∀ n, Cs n = bs) := by
  unfold WrittenAs at hb
  induction hb with
  | nil => exact ⟨fun _ => [], rfl, fun _ => .nil, fun _ => rfl, fun _ _ => rfl, fun _ _ => rfl⟩
  | @cons t b ts bs h1 _ ih =>
    obtain ⟨Cs, k1, k2, k3, k4, k5⟩ := ih fun t ht => hk t (by simp [ht])
    obtain ⟨C, ⟨x, c1⟩, c2, c3, c4, c5⟩ := keepable_settles hz (hk t (by simp))
    obtain ⟨y, h1⟩ := h1
    have e : C 0 = b := by
      rw [c1, Res.ok.injEq, Prod.mk.injEq] at h1
      exact h1.1
    subst e
    refine ⟨fun n => C n :: Cs n, by simp [k1], fun n => .cons (c2 n) (k2 n), fun n => ?_, fun n hn => ?_, fun ha n => ?_⟩
    · simp only [List.flatten_cons, List.length_append, c3 n, k3 n]
    · show C n :: Cs n = _
      rw [c4 n hn, k4 n hn]
    · show C n :: Cs n = _
      rw [c5 (ha t (by simp)) n, k5 (fun t ht => ha t (by simp [ht])) n]

/-- **C196** (partial) Each of the tags is an ID3v2.2 tag that can be stored as it is, or an ID3v2.3 tag without extended header that is not
marked as unsynchronised, or an ID3v2.4 tag without extended header, padding and footer (`Keepable`), of less than 2^28 bytes; there may be any number
of them, and what comes after them does not begin with another. Then the tags can be read and written back any number of times. Every time they
are put in the place of the old ones: the file keeps its length, and what comes after the tags stays as it is. From the fourth state on the file does
not change. If no frame has an attribute set it never changes. Missing: the attributes, which move by one place each time; ID3v2.4 tags with
padding or a footer; ID3v2.2 tags with an FF before 00 or before E0 or more that are not marked as unsynchronised; ID3v2.3 tags that are; extended
headers. -/
theorem C196_partial (z : Zlib) (hz : ∀ c b, z.crc32 c b < 2 ^ 32) (st : EmplaceStrategy) (ts : List AnyTag) (bs : List Bytes)
    (audio : Bytes) (hk : ∀ t ∈ ts, Keepable z t) (hb : WrittenAs z ts bs) (hr : NoHeader audio) (hne : bs.flatten ++ audio ≠ []) :
    ∃ B : Nat → Bytes, B 0 = bs.flatten ++ audio ∧ RewriteChain (WrittenBack z st) B ∧
      (∀ n, (B n).length = (B 0).length ∧ (B n).drop bs.flatten.length = audio) ∧ (∀ n, 3 ≤ n → B n = B 3) ∧
      ((∀ t ∈ ts, NoAttributes t) → ∀ n, B n = B 0) := by
  obtain ⟨Cs, k1, k2, k3, k4, k5⟩ := keepable_all hz hk hb
  refine ⟨fun n => (Cs n).flatten ++ audio, by simp only [k1], fun n => ?_, fun n => ⟨?_, ?_⟩, fun n hn => ?_, fun ha n => ?_⟩
  · refine written_back (k2 n) st audio hr ?_
    intro h0
    have := congrArg List.length h0
    rw [List.length_append, k3, ← List.length_append] at this
    exact hne (List.length_eq_zero_iff.1 this)
  · simp only [List.length_append, k3]
  · show ((Cs n).flatten ++ audio).drop _ = _
    rw [← k3 n, List.drop_left]
  · show (Cs n).flatten ++ audio = _
    rw [k4 n hn]
  · show (Cs n).flatten ++ audio = (Cs 0).flatten ++ audio
    rw [k5 ha n, k5 ha 0]

/-- A file with three tags: a marked title in ID3v2.3, an artist in UCS-2 in ID3v2.2, and a title to be discarded when the file is altered
in ID3v2.4. -/
example : ∃ b c, ∃ B : Nat → Bytes, B 0 = fleeting0 ++ (b ++ c) ++ [0xff, 0xfb, 0x90] ∧
    RewriteChain (WrittenBack zId .reducePaddingEvenly) B ∧ (∀ n, 3 ≤ n → B n = B 3) := by
  have h1 : ∃ x, (anyI zId).write (.inr (.inl fleeting)) false = .ok (fleeting0, x) := ⟨_, by rfl⟩
  have h2 : ∃ b, (∃ x, (anyI zId).write (.inl markedTag) false = .ok (b, x)) := ⟨_, _, by rfl⟩
  have h3 : ∃ b, (∃ x, (anyI zId).write (.inr (.inr ⟨none, true, false, none, 0,
    [.new (mkId4 'T' 'I' 'T' '2') (.text 0 [0x41]) false true false false none none false none]⟩)) false = .ok (b, x)) := ⟨_, _, by rfl⟩
  obtain ⟨b, h2⟩ := h2
  obtain ⟨c, h3⟩ := h3
  obtain ⟨B, k1, k2, -, k3, -⟩ := C196_partial zId (fun c b => Nat.mod_lt _ (by decide)) .reducePaddingEvenly
    [.inr (.inl fleeting), .inl markedTag, .inr (.inr ⟨none, true, false, none, 0,
      [.new (mkId4 'T' 'I' 'T' '2') (.text 0 [0x41]) false true false false none none false none]⟩)] [fleeting0, b, c] [0xff, 0xfb, 0x90]
    (by
      intro t ht
      simp only [List.mem_cons, List.not_mem_nil, or_false] at ht
      rcases ht with rfl | rfl | rfl
      · refine ⟨fun _ => [0, 0x41], ?_, rfl, by decide, by decide⟩
        intro f hf
        simp only [fleeting, List.mem_singleton] at hf
        subst hf
        exact ⟨.inl rfl, by unfold PlainFrame; decide, trivial, rfl, by decide, by decide, by decide⟩
      · exact ⟨_, _, _, _, _, markedTag_storable, rfl, by decide⟩
      · refine ⟨fun _ => [0, 0x41], ?_, rfl, rfl, rfl, by decide⟩
        intro f hf
        simp only [List.mem_singleton] at hf
        subst hf
        exact ⟨.inl rfl, by unfold PlainFrame; decide, trivial, rfl, by decide, by decide, by decide⟩)
    (.cons h1 (.cons h2 (.cons h3 .nil))) (noHeader_of_short (by decide)) (by simp [fleeting0])
  exact ⟨b, c, B, by simpa using k1, k2, k3⟩

/-! ### `replace_tagset_copy` with ID3v2.4 tags -/

/-- An ID3v2.4 tag without extended header, padding and footer. -/
def Bare24 (z : Zlib) : AnyTag → Prop
  | .inr (.inr t) => ∃ w, StorableFrames z .v4 t.frames w ∧ t.ext = none ∧ t.padding = 0 ∧ t.footer = false
  | _ => False

theorem bare24_held {z : Zlib} {t : AnyTag} (h : Bare24 z t) : ∃ n, (∃ t', (anyI z).size t false = .ok (n, t')) ∧ (anyI z).padding t = .ok 0 ∧
    (n < 2 ^ 28 → ∃ b, Steady (anyI z) n 0 b t ∧ Serialised (anyI z) .never t 0 b ∧ CompleteTag b) := by
  rcases t with t | t | t
  · exact h.elim
  · exact h.elim
  obtain ⟨w, h1, h2, h3, h4⟩ := h
  obtain ⟨hs, -⟩ := pack_eq h1
  refine ⟨(rawBytes .v4 (laidOf .v4 t.frames)).length, ?_, by simp only [anyI, TagI.sum, tag24I, h3], fun hn => ?_⟩
  · obtain ⟨gs, h6, h7⟩ := sizeAll_ready z false (t.padding == 0) (storable_ready hs) (storable_writable hs)
    have hbytes : (gs.map Frame4.plain).flatten = rawBytes .v4 (laidOf .v4 t.frames) := (refreshed_clean h7).2.2
    refine ⟨.inr (.inr { t with frames := gs }), ?_⟩
    simp only [anyI, TagI.sum, tag24I, Tag24.size, Tag24.extSize]
    rw [h6, h2, ← hbytes]
    simp only [Res.ok_bind, h3, h4, Bool.false_eq_true, if_false, Nat.zero_add, Nat.add_zero]
  · obtain ⟨hdr, g1, -, -⟩ := writeHeader24_spec t.flags _ hn
    have hst := steady24 hs h2 h3 h4 hdr g1
    refine ⟨_, hst.inr.inr, ?_, (back24 hs h2 h4 hn hdr g1).1⟩
    obtain ⟨t1, q1, q2, q3⟩ := hst.size
    obtain ⟨t2, q4⟩ := q3.write
    refine ⟨false, .inr (.inr t), (rawBytes .v4 (laidOf .v4 t.frames)).length, .inr (.inr t1), .inr (.inr t2), ⟨rfl, rfl⟩, by simp only [anyI, TagI.sum, q1, Res.ok_bind], ?_⟩
    have e : (tag24I z).setPadding t1 0 = t1 := by
      simp only [tag24I, Res.ok.injEq] at q2
      simp only [tag24I]
      rw [← q2]
    simp only [anyI, TagI.sum, e, q4, Res.ok_bind]

theorem canWrite_held {z : Zlib} {t : AnyTag} (h : CanWrite z t) : ∃ n p, (∃ t', (anyI z).size t false = .ok (n, t')) ∧ (anyI z).padding t = .ok p ∧
    (n < 2 ^ 28 → ∃ b, Steady (anyI z) n p b t ∧ Serialised (anyI z) .never t p b ∧ CompleteTag b) := by
  obtain ⟨V, p, h1, h2⟩ := canWrite_look h
  obtain ⟨t', h3, -⟩ := (simAny z).size false h1
  exact ⟨_, p, ⟨t', h3⟩, h2, fun hn => ⟨_, steady_sim (simAny z) h1 hn, serialised_sim (simAny z) .never h1 p hn, ((simAny z).len false h1 hn).2⟩⟩

/-- **C33** (partial: `replace_tagset_copy` for ID3v2.4) Besides those of `C33_copy_partial` the tags may be ID3v2.4 tags without extended header, padding and
footer, if unsynchronisation is never applied: the new file consists of the tags, each serialised as its own `write` would, each complete, with the paddings they
had, and what followed the old ones. Missing: ID3v2.4 tags with padding, a footer or an extended header, and applying unsynchronisation to ID3v2.4
tags (C54, C55). -/
theorem C33_copy_v24_partial (z : Zlib) (olds : List Bytes) (audio : Bytes) (ts : List AnyTag)
    (ho : ∀ t ∈ olds, CompleteTag t) (hr : NoHeader audio) (hw : ∀ t ∈ ts, CanWrite z t ∨ Bare24 z t)
    (hs : ∀ t ∈ ts, ∀ n t', (anyI z).size t false = .ok (n, t') → n < 2 ^ 28) :
    ∃ b ts', ∃ news : List (Nat × Bytes), copyContents (anyI z) (some (olds.flatten ++ audio)) .never ts = .ok (b, ts') ∧
      b = (news.map (·.2)).flatten ++ audio ∧ Padded (anyI z) ts (news.map (·.1)) ∧
      Pairs (fun t x => Serialised (anyI z) .never t x.1 x.2 ∧ CompleteTag x.2) ts news := by
  have key : ∃ hd : List (Held AnyTag), hd.map (·.tag) = ts ∧ (∀ x ∈ hd, Steady (anyI z) x.n x.p x.b x.tag) ∧
      Padded (anyI z) ts (hd.map (·.p)) ∧
      Pairs (fun t x => Serialised (anyI z) .never t x.1 x.2 ∧ CompleteTag x.2) ts (hd.map fun x => (x.p, x.b)) := by
    induction ts with
    | nil => exact ⟨[], rfl, by simp, .nil, .nil⟩
    | cons t ts ih =>
      obtain ⟨hd, h1, h2, h3, h4⟩ := ih (fun t ht => hw t (by simp [ht])) (fun t ht => hs t (by simp [ht]))
      have : ∃ n p, (∃ t', (anyI z).size t false = .ok (n, t')) ∧ (anyI z).padding t = .ok p ∧
          (n < 2 ^ 28 → ∃ b, Steady (anyI z) n p b t ∧ Serialised (anyI z) .never t p b ∧ CompleteTag b) := by
        rcases hw t (by simp) with h | h
        · exact canWrite_held h
        · obtain ⟨n, h⟩ := bare24_held h
          exact ⟨n, 0, h⟩
      obtain ⟨n, p, ⟨t', k1⟩, k2, k3⟩ := this
      obtain ⟨b, k4, k5, k6⟩ := k3 (hs t (by simp) n t' k1)
      refine ⟨⟨t, n, p, b⟩ :: hd, by simp [h1], ?_, .cons k2 h3, .cons ⟨k5, k6⟩ h4⟩
      intro x hx
      rcases List.mem_cons.1 hx with rfl | hx
      · exact k4
      · exact h2 x hx
  obtain ⟨hd, rfl, h2, h3, h4⟩ := key
  obtain ⟨ts', h5⟩ := writeAll_steady h2
  refine ⟨_, ts', hd.map fun x => (x.p, x.b), ?_, rfl, by rw [List.map_map]; exact h3, h4⟩
  unfold copyContents
  rw [h5]
  simp only [Res.ok_bind]
  rw [readRest_tags olds audio ho hr _ (by have := tags_length ho; rw [List.length_append]; omega)]
  simp only [Res.ok_bind, List.map_map]
  rfl

/-- An ID3v2.4 tag with a title is put before the audio of a file that has an ID3v2.3 tag. -/
example : ∃ b ts', ∃ news : List (Nat × Bytes), copyContents (anyI zId) (some ([fleeting0].flatten ++ [0xff, 0xfb])) .never
    [.inr (.inr ⟨none, true, false, none, 0, [.new (mkId4 'T' 'I' 'T' '2') (.text 0 [0x41]) false true false false none none false none]⟩)] =
      .ok (b, ts') ∧ b = (news.map (·.2)).flatten ++ [0xff, 0xfb] := by
  obtain ⟨b, ts', news, h1, h2, -⟩ := C33_copy_v24_partial zId [fleeting0] [0xff, 0xfb]
    [.inr (.inr ⟨none, true, false, none, 0, [.new (mkId4 'T' 'I' 'T' '2') (.text 0 [0x41]) false true false false none none false none]⟩)]
    (by
      intro t ht
      simp only [List.mem_singleton] at ht
      subst ht
      exact ⟨3, 0, 0, 14, ⟨0, 0, 0, 14, [84, 73, 84, 50, 0, 0, 0, 2, 64, 0, 0, 65, 0, 0], rfl, by decide, by decide, by decide, by decide⟩, rfl⟩)
    (noHeader_of_short (by decide))
    (by
      intro t ht
      simp only [List.mem_singleton] at ht
      subst ht
      refine .inr ⟨fun _ => [0, 0x41], ?_, rfl, rfl, rfl⟩
      intro f hf
      simp only [List.mem_singleton] at hf
      subst hf
      exact ⟨.inl rfl, by unfold PlainFrame; decide, trivial, rfl, by decide, by decide, by decide⟩)
    (by
      intro t ht n t' hn
      simp only [List.mem_singleton] at ht
      subst ht
      have := congrArg (fun r : Res (Nat × AnyTag) => r.bind fun r => .ok r.1) hn
      rw [Res.ok_bind] at this
      have e : n = 12 := by
        have h12 : ((anyI zId).size (.inr (.inr ⟨none, true, false, none, 0,
          [.new (mkId4 'T' 'I' 'T' '2') (.text 0 [0x41]) false true false false none none false none]⟩)) false).bind (fun r => (.ok r.1 : Res Nat)) = .ok 12 := by
          decide +kernel
        rw [h12] at this
        cases this
        rfl
      omega)
  exact ⟨b, ts', news, h1, h2⟩

end Scribbu.Props
