import Verif.Proofs.Id3v1Edit

/-! Properties C10-C14 and the ID3v1 part of C46. -/

namespace Scribbu.Props
open Scribbu Scribbu.Spec

/-! ## C10 -/

/-- **C10** Reading any 128-byte ID3v1/ID3v1.1 image that ends a stream gives its
fields, leaves the stream good, at its end and with the caller's mask, and
writing the tag gives back the same 128 bytes. -/
theorem C10_standard (body : Bytes) (f : StdFields) (hf : f.Ok) (m : IoBits) :
    ∃ t, V1Tag.ofStream ⟨body ++ f.image, body.length, m, IoBits.none⟩ =
        (.ok t, ⟨body ++ f.image, (body ++ f.image).length, m, IoBits.none⟩) ∧
      t.title = f.title ∧ t.artist = f.artist ∧ t.album = f.album ∧ t.year = f.year ∧
      t.genre = f.genre ∧ t.extended = false ∧
      ((t.v11 = true ∧ ∃ n, n ≠ 0 ∧ t.track = some n ∧ f.comment = t.comment ++ [0, n]) ∨
       (t.v11 = false ∧ ¬ Is11 f.comment ∧ t.comment = f.comment)) ∧
      t.write = .ok f.image := by
  have hos := ofStream_128 body f.image m (image_length hf)
  have hlen : (body ++ f.image).length = body.length + 128 := by simp [image_length hf]
  obtain ⟨a, b⟩ := initStandard_image f hf
  rw [hlen]
  by_cases h : Is11 f.comment
  · obtain ⟨n, hn, hc, hr⟩ := a h
    rw [hr] at hos
    exact ⟨_, hos, rfl, rfl, rfl, rfl, rfl, rfl, .inl ⟨rfl, n, hn, rfl, hc⟩,
      write_stdTag f hf _ _ _ (.inl ⟨rfl, n, rfl, hc⟩)⟩
  · rw [b h] at hos
    exact ⟨_, hos, rfl, rfl, rfl, rfl, rfl, rfl, .inr ⟨rfl, h, rfl⟩,
      write_stdTag f hf _ _ _ (.inr ⟨rfl, rfl⟩)⟩

/-- **C10** The same for the 355-byte enhanced tag. -/
theorem C10_enhanced (body : Bytes) (e : ExtFields) (f : StdFields) (he : e.Ok) (hf : f.Ok)
    (m : IoBits) :
    ∃ t, V1Tag.ofStream ⟨body ++ (e.image ++ f.image), body.length, m, IoBits.none⟩ =
        (.ok t, ⟨body ++ (e.image ++ f.image), (body ++ (e.image ++ f.image)).length, m,
          IoBits.none⟩) ∧
      t.title = f.title ++ e.title ∧ t.artist = f.artist ++ e.artist ∧
      t.album = f.album ++ e.album ∧ t.year = f.year ∧ t.genre = f.genre ∧
      t.speed = some e.speed ∧ t.extGenre = e.genre ∧ t.startTime = some e.start ∧
      t.endTime = some e.stop ∧ t.extended = true ∧
      ((t.v11 = true ∧ ∃ n, n ≠ 0 ∧ t.track = some n ∧ f.comment = t.comment ++ [0, n]) ∨
       (t.v11 = false ∧ ¬ Is11 f.comment ∧ t.comment = f.comment)) ∧
      t.write = .ok (e.image ++ f.image) := by
  have hl : (e.image ++ f.image).length = 355 := by
    rw [List.length_append, image_length hf, ext_image_length he]
  have hos := ofStream_355 body _ m hl
  have hlen : (body ++ (e.image ++ f.image)).length = body.length + 355 := by
    rw [List.length_append, hl]
  obtain ⟨a, b⟩ := initExtended_image e f he hf
  rw [hlen]
  by_cases h : Is11 f.comment
  · obtain ⟨n, hn, hc, hr⟩ := a h
    rw [hr] at hos
    exact ⟨_, hos, rfl, rfl, rfl, rfl, rfl, rfl, rfl, rfl, rfl, rfl, .inl ⟨rfl, n, hn, rfl, hc⟩,
      write_extTag e f he hf _ _ _ (.inl ⟨rfl, n, rfl, hc⟩)⟩
  · rw [b h] at hos
    exact ⟨_, hos, rfl, rfl, rfl, rfl, rfl, rfl, rfl, rfl, rfl, rfl, .inr ⟨rfl, h, rfl⟩,
      write_extTag e f he hf _ _ _ (.inr ⟨rfl, rfl⟩)⟩

/-- **C10** A tag read from any stream, written and read again is the same tag in
every field; what is written are the bytes that were read. -/
theorem C10_reread (s : IStream) (hs : s.Good) (t : V1Tag) (s' : IStream)
    (h : V1Tag.ofStream s = (.ok t, s')) (m : IoBits) :
    ∃ w, t.write = .ok w ∧ (∃ body, s.data = body ++ w ∧ body.length = s.pos) ∧
      V1Tag.ofStream ⟨w, 0, m, IoBits.none⟩ = (.ok t, ⟨w, w.length, m, IoBits.none⟩) := by
  obtain ⟨d, p, m0, st⟩ := s
  simp only [IStream.Good] at hs
  subst hs
  obtain ⟨body, img, rfl, rfl, ⟨hl, hi⟩ | ⟨hl, hi⟩⟩ := ofStream_inv h
  · obtain ⟨t', h1, h2, h3⟩ := initStandard_write hl (initStandard_magic hl hi)
    rw [hi] at h1
    cases h1
    refine ⟨img, h2, ⟨body, rfl, rfl⟩, ?_⟩
    have := ofStream_128 [] img m hl
    rw [hi] at this
    simpa [hl] using this
  · obtain ⟨m1, m2⟩ := initExtended_magic hl hi
    obtain ⟨t', h1, h2, h3⟩ := initExtended_write hl m1 m2
    rw [hi] at h1
    cases h1
    refine ⟨img, h2, ⟨body, rfl, rfl⟩, ?_⟩
    have := ofStream_355 [] img m hl
    rw [hi] at this
    simpa [hl] using this

/-- Sample images used in the examples below. -/
def sampleStd (n : Byte) : StdFields :=
  ⟨[0x48, 0x69] ++ List.replicate 28 0, List.replicate 30 0x41, List.replicate 30 0x42,
   [0x31, 0x39, 0x39, 0x31], List.replicate 28 0x43 ++ [0, n], 17⟩
def sampleExt : ExtFields :=
  ⟨List.replicate 60 0x44, List.replicate 60 0x45, List.replicate 60 0, 2,
   List.replicate 30 0x46, List.replicate 6 0x30, List.replicate 6 0x31⟩

example : (sampleStd 3).Ok ∧ sampleExt.Ok := by
  simp [sampleStd, sampleExt, StdFields.Ok, ExtFields.Ok]
example : ((V1Tag.ofStream ⟨9 :: (sampleStd 3).image, 1, IoBits.none, IoBits.none⟩).1.bind
    fun t => .ok (t.v11, t.track, t.comment)) =
    .ok (true, some 3, List.replicate 28 0x43) := by decide +kernel
/-- A zero track number is an ID3v1.0 comment. -/
example : ((V1Tag.ofStream ⟨(sampleStd 0).image, 0, IoBits.none, IoBits.none⟩).1.bind
    fun t => .ok (t.v11, t.comment)) =
    .ok (false, List.replicate 28 0x43 ++ [0, 0]) := by decide +kernel
example : ((V1Tag.ofStream ⟨sampleExt.image ++ (sampleStd 3).image, 0, IoBits.none,
    IoBits.none⟩).1.bind fun t => t.write) = .ok (sampleExt.image ++ (sampleStd 3).image) := by
  decide +kernel

/-! ## C11 -/

/-- **C11** On any good stream `ends_in_id3v1` returns normally, leaves the
stream exactly as it was (bytes, position, mask, state), reports the end of the
stream as `end_`, and reports an enhanced tag starting at `n` iff "TAG+" is at
`n` = 355 from the end; otherwise a standard tag at `n` iff "TAG" is at
`n` = 128 from the end; otherwise no tag. -/
theorem C11_ends_in_id3v1 (s : IStream) (hs : s.Good) :
    ∃ i, endsInId3v1 s = (.ok i, s) ∧ i.stop = s.data.length ∧
      (∀ n : Nat, (i.type = .v1Extended ∧ i.start = n) ↔ ExtAt s.data n) ∧
      (∀ n : Nat, (i.type = .v1 ∧ i.start = n) ↔ (¬ ∃ k, ExtAt s.data k) ∧ StdAt s.data n) ∧
      (i.type = .none ↔ (¬ ∃ k, ExtAt s.data k) ∧ ¬ ∃ k, StdAt s.data k) ∧
      (i.type = .none → i.start = i.stop) := by
  obtain ⟨d, p, m, st⟩ := s
  simp only [IStream.Good] at hs
  subst hs
  refine ⟨_, endsInId3v1_spec d p m, ?_⟩
  unfold findV1
  by_cases he : ∃ n, ExtAt d n
  · obtain ⟨k, hk⟩ := he
    obtain ⟨hk1, hk2⟩ := extAt_pos hk
    rw [if_pos ⟨k, hk⟩]
    refine ⟨rfl, fun n => ⟨?_, ?_⟩, fun n => ?_, ?_, by simp⟩
    · rintro ⟨-, h⟩
      have : n = k := by simp only at h; omega
      exact this ▸ hk
    · intro h
      obtain ⟨h1, h2⟩ := extAt_pos h
      simp only at h1 h2
      exact ⟨rfl, by simp only; omega⟩
    · constructor
      · simp
      · rintro ⟨h, -⟩; exact absurd ⟨k, hk⟩ h
    · constructor
      · simp
      · rintro ⟨h, -⟩; exact absurd ⟨k, hk⟩ h
  · rw [if_neg he]
    by_cases hs : ∃ n, StdAt d n
    · obtain ⟨k, hk⟩ := hs
      obtain ⟨hk1, hk2⟩ := stdAt_pos hk
      rw [if_pos ⟨k, hk⟩]
      refine ⟨rfl, fun n => ⟨by simp, fun h => absurd ⟨n, h⟩ he⟩, fun n => ⟨?_, ?_⟩, ?_, by simp⟩
      · rintro ⟨-, h⟩
        have : n = k := by simp only at h; omega
        exact ⟨he, this ▸ hk⟩
      · rintro ⟨-, h⟩
        obtain ⟨h1, h2⟩ := stdAt_pos h
        simp only at h1 h2
        exact ⟨rfl, by simp only; omega⟩
      · constructor
        · simp
        · rintro ⟨-, h⟩; exact absurd ⟨k, hk⟩ h
    · rw [if_neg hs]
      refine ⟨rfl, fun n => ⟨by simp, fun h => absurd ⟨n, h⟩ he⟩,
        fun n => ⟨by simp, fun h => absurd ⟨n, h.2⟩ hs⟩, by simp [he, hs], by simp⟩

example : endsInId3v1 ⟨[7, 7] ++ (sampleStd 3).image, 1, IoBits.all, IoBits.none⟩ =
    (.ok ⟨.v1, 2, 130⟩, ⟨[7, 7] ++ (sampleStd 3).image, 1, IoBits.all, IoBits.none⟩) := by
  decide +kernel
example : endsInId3v1 ⟨[7, 7], 1, IoBits.all, IoBits.none⟩ =
    (.ok ⟨.none, 2, 2⟩, ⟨[7, 7], 1, IoBits.all, IoBits.none⟩) := by decide

/-! ## C12 -/

/-- **C12** `maybe_remove_id3v1` on any file: with an enhanced tag at `n` (both
magics in place) or a standard tag at `n` it keeps exactly the first `n` bytes;
with "TAG+" but no "TAG" it throws (file untouched); with no tag it keeps the
file. -/
theorem C12_remove (f : Bytes) :
    (∀ n, ExtAt f n → (∃ k, StdAt f k) → maybeRemoveId3v1 f = .ok (f.take n)) ∧
    (∀ n, ExtAt f n → (¬ ∃ k, StdAt f k) → maybeRemoveId3v1 f = .throw .invalidTag) ∧
    (∀ n, (¬ ∃ k, ExtAt f k) → StdAt f n → maybeRemoveId3v1 f = .ok (f.take n)) ∧
    ((¬ ∃ k, ExtAt f k) → (¬ ∃ k, StdAt f k) → maybeRemoveId3v1 f = .ok f) :=
  maybeRemove_spec f

/-- **C12** Replacing: whatever removal leaves, followed by exactly the bytes the
new tag writes. -/
theorem C12_replace (f body w : Bytes) (t : V1Tag) (h : maybeRemoveId3v1 f = .ok body)
    (hw : t.write = .ok w) :
    replaceId3v1 f t = .ok (body ++ w) ∧ ∃ old, f = body ++ old ∧
      (old = [] ∨ old.length = 128 ∨ old.length = 355) := by
  refine ⟨by simp [replaceId3v1, h, hw], ?_⟩
  obtain ⟨a, b, c, d⟩ := maybeRemove_spec f
  by_cases he : ∃ k, ExtAt f k
  · obtain ⟨n, hn⟩ := he
    obtain ⟨hn1, hn2⟩ := extAt_pos hn
    by_cases hs : ∃ k, StdAt f k
    · rw [a n hn hs] at h
      cases h
      exact ⟨f.drop n, (List.take_append_drop _ _).symm,
        .inr (.inr (by rw [List.length_drop]; omega))⟩
    · rw [b n hn hs] at h; cases h
  · by_cases hs : ∃ k, StdAt f k
    · obtain ⟨n, hn⟩ := hs
      obtain ⟨hn1, hn2⟩ := stdAt_pos hn
      rw [c n he hn] at h
      cases h
      exact ⟨f.drop n, (List.take_append_drop _ _).symm,
        .inr (.inl (by rw [List.length_drop]; omega))⟩
    · rw [d he hs] at h
      cases h
      exact ⟨[], by simp, .inl rfl⟩

/-- The remaining claim of C12: after a replacement, detection finds exactly the
new tag. -/
def C12_detect_claim : Prop :=
  ∀ (f r w : Bytes) (t : V1Tag), t.WF → t.write = .ok w → replaceId3v1 f t = .ok r →
    ∃ i, (endsInId3v1 ⟨r, 0, IoBits.all, IoBits.none⟩).1 = .ok i ∧
      i.start = (r.length : Int) - w.length

/-- **C12** (refuted part) The audio may end in 227 bytes that begin "TAG+": a
standard tag appended to it is then taken for part of an enhanced tag that begins
inside the audio (and a later removal would cut 227 bytes of audio). -/
theorem C12_refuted : ¬ C12_detect_claim := by
  intro h
  let t : V1Tag := stdTag (sampleStd 3) true (List.replicate 28 0x43) (some 3)
  have hok : (sampleStd 3).Ok := by simp [sampleStd, StdFields.Ok]
  have hw : t.write = .ok (sampleStd 3).image :=
    write_stdTag _ hok _ _ _ (.inl ⟨rfl, 3, rfl, rfl⟩)
  have hwf : t.WF := by
    constructor <;> simp [t, stdTag, sampleStd, V1Tag.textSz]
  have hr : replaceId3v1 ([1, 2] ++ sampleExt.image) t =
    .ok (([1, 2] ++ sampleExt.image) ++ (sampleStd 3).image) := by decide +kernel
  obtain ⟨i, h1, h2⟩ := h ([1, 2] ++ sampleExt.image) _ _ t hwf hw hr
  have h3 : (endsInId3v1 ⟨([1, 2] ++ sampleExt.image) ++ (sampleStd 3).image, 0, IoBits.all,
    IoBits.none⟩).1 = .ok ⟨.v1Extended, 2, 357⟩ := by decide +kernel
  rw [h3] at h1
  cases h1
  revert h2
  decide +kernel

/-- **C12** (partial) Detection after a replacement finds exactly the new tag when
the new tag is enhanced, or the remaining audio does not have "TAG+" 227 bytes
before its end. Missing: the case refuted above. -/
theorem C12_detect_partial (f body r w : Bytes) (t : V1Tag) (ht : t.WF) (hw : t.write = .ok w)
    (hb : maybeRemoveId3v1 f = .ok body) (hr : replaceId3v1 f t = .ok r)
    (h : t.extended = true ∨ ¬ ∃ a b, body = a ++ TAGP ++ b ∧ b.length = 223) (m : IoBits) :
    endsInId3v1 ⟨r, 0, m, IoBits.none⟩ =
      (.ok ⟨if t.extended then .v1Extended else .v1, body.length, r.length⟩,
       ⟨r, 0, m, IoBits.none⟩) := by
  have hrr := (C12_replace f body w t hb hw).1
  rw [hr] at hrr
  have hrr' : r = body ++ w := by simpa using hrr
  subst hrr'
  obtain ⟨n, hn⟩ : ∃ n, t.v11 = true → t.track = some n := by
    by_cases hv : t.v11 = true
    · obtain ⟨n, hn⟩ := ht.track hv
      exact ⟨n, fun _ => hn⟩
    · exact ⟨0, fun h => absurd h hv⟩
  obtain ⟨w1, w2⟩ := ht.write n hn
  have hok := ht.std_ok n
  rw [endsInId3v1_spec]
  unfold findV1
  cases he : t.extended with
  | true =>
    obtain ⟨sp, st, en, hsp, hst, hen, hst6, hen6, hw'⟩ := w2 he
    have hext := ht.ext_ok he sp st en hst6 hen6
    rw [hw] at hw'
    cases hw'
    have hlen : ((t.ext' sp st en).image ++ (t.std n).image).length = 355 := by
      rw [List.length_append, image_length hok, ext_image_length hext]
    have : ExtAt (body ++ ((t.ext' sp st en).image ++ (t.std n).image)) body.length := by
      refine ⟨body, ((t.ext' sp st en).image ++ (t.std n).image).drop 4, ?_, rfl, ?_⟩
      · simp [ExtFields.image, TAGP]
      · rw [List.length_drop, hlen]
    rw [if_pos ⟨_, this⟩]
    simp only [List.length_append (as := body), hlen, if_true]
    rw [show ((body.length + 355 : Nat) : Int) - 355 = body.length by omega]
  | false =>
    have hw' := w1 he
    rw [hw] at hw'
    cases hw'
    have hlen : (t.std n).image.length = 128 := image_length hok
    have hne : ¬ ∃ k, ExtAt (body ++ (t.std n).image) k := by
      rintro ⟨k, a, b, hab, hk, hbl⟩
      have h' : ¬ ∃ a b, body = a ++ TAGP ++ b ∧ b.length = 223 := by
        rcases h with h | h
        · rw [he] at h; cases h
        · exact h
      apply h'
      refine ⟨a, b.take 223, ?_, by simp [hbl]⟩
      have e2 : a ++ TAGP ++ b = (a ++ TAGP ++ b.take 223) ++ b.drop 223 := by
        rw [List.append_assoc _ (b.take 223), List.take_append_drop]
      rw [e2] at hab
      exact (List.append_inj' hab (by rw [hlen, List.length_drop, hbl])).1
    have hst : StdAt (body ++ (t.std n).image) body.length := by
      refine ⟨body, (t.std n).image.drop 3, ?_, rfl, by rw [List.length_drop, hlen]⟩
      simp [StdFields.image, TAG]
    rw [if_neg hne, if_pos ⟨_, hst⟩]
    simp only [List.length_append, hlen]
    rw [show ((body.length + 128 : Nat) : Int) - 128 = body.length by omega]
    rfl

/-- Non-trivial instance: a file with a standard tag is given an enhanced one. -/
example : (replaceId3v1 ([1, 2, 3] ++ (sampleStd 3).image)
      (extTag sampleExt (sampleStd 0) false (sampleStd 0).comment none)) =
    .ok ([1, 2, 3] ++ (sampleExt.image ++ (sampleStd 0).image)) := by decide +kernel

/-! ## C13 -/

/-- Tag objects a caller can construct. -/
def Constructed (t : V1Tag) : Prop :=
  (∃ v e, t = V1Tag.scratch v e) ∨ ∃ s s', IStream.Good s ∧ V1Tag.ofStream s = (.ok t, s')

/-- The full claim (without the read-back part). -/
def C13_claim : Prop :=
  ∀ t, Constructed t → ∀ ops, ∃ w, (t.applyAll ops).write = .ok w ∧
    w.length = (t.applyAll ops).size

/-- **C13** (refuted) A from-scratch ID3v1.1 tag written without calling
`set_track_number` reads an uninitialised member. -/
theorem C13_refuted : ¬ C13_claim := by
  intro h
  obtain ⟨w, hw, _⟩ := h (V1Tag.scratch true false) (.inl ⟨_, _, rfl⟩) [.setTitle [0x41]]
  have h2 : ((V1Tag.scratch true false).applyAll [.setTitle [0x41]]).write = .ub .uninit := by decide
  rw [h2] at hw
  cases hw

/-- **C13** (refuted, second way) *Every* standard tag that was read from a
stream is turned into one whose `write` reads out of bounds by `set_speed`. -/
theorem C13_enhance_refuted (s s' : IStream) (hs : s.Good) (t : V1Tag)
    (h : V1Tag.ofStream s = (.ok t, s')) (he : t.extended = false) (sp : Byte) :
    (t.applyAll [.setSpeed sp]).write = .ub .oobRead := by
  obtain ⟨d, p, m, st⟩ := s
  simp only [IStream.Good] at hs
  subst hs
  have hwf := wf_of_stream h
  have : (t.title).length = 30 := by rw [hwf.title]; simp [V1Tag.textSz, he]
  simp [V1Tag.applyAll, V1Tag.apply, V1Tag.write, slice, this, Res.bind]

/-- **C13** (partial) For a tag read from a stream, or a from-scratch tag on which
the speed (if enhanced) and the track number (if ID3v1.1) are set, after any
sequence of setters — using enhanced-only setters only on a tag that was enhanced
to begin with — `write` is defined and emits `size()` bytes; and reading them
back gives every field's value (comment cut to its 28/30 bytes) provided an
ID3v1.1 track number is non-zero and an ID3v1.0 comment does not look like an
ID3v1.1 one. Missing: the cases refuted above. -/
theorem C13_edited_partial (t : V1Tag) (ops : List V1Tag.Op)
    (hsrc : (∃ s s', IStream.Good s ∧ V1Tag.ofStream s = (.ok t, s')) ∨
      (∃ v e, t = V1Tag.scratch v e ∧ (e = true → ∃ sp, V1Tag.Op.setSpeed sp ∈ ops) ∧
        (v = true → ∃ n, V1Tag.Op.setTrack n ∈ ops)))
    (hx : t.extended = true ∨ ∀ o ∈ ops, o.extends = false) (m : IoBits) :
    let u := t.applyAll ops
    (∃ w, u.write = .ok w ∧ w.length = u.size ∧ u.size = t.size) ∧
    ((u.v11 = true → u.track ≠ some 0) → (u.v11 = false → ¬ Is11 (u.comment.take 30)) →
      ∃ w t', u.write = .ok w ∧
        V1Tag.ofStream ⟨w, 0, m, IoBits.none⟩ = (.ok t', ⟨w, w.length, m, IoBits.none⟩) ∧
        t'.title = u.title ∧ t'.artist = u.artist ∧ t'.album = u.album ∧ t'.year = u.year ∧
        t'.genre = u.genre ∧ t'.extended = u.extended ∧ t'.v11 = u.v11 ∧
        t'.comment = u.comment.take (if u.v11 then 28 else 30) ∧
        (u.v11 = true → t'.track = u.track) ∧
        (u.extended = true → t'.speed = u.speed ∧ t'.extGenre = u.extGenre ∧
          t'.startTime = u.startTime ∧ t'.endTime = u.endTime)) := by
  intro u
  have hwf : u.WF ∧ u.extended = t.extended := by
    rcases hsrc with ⟨s, s', hs, h⟩ | ⟨v, e, rfl, h1, h2⟩
    · obtain ⟨d, p, m, st⟩ := s
      simp only [IStream.Good] at hs
      subst hs
      exact (wf_of_stream h).applyAll ops hx
    · exact V1Tag.scratch_edited_wf v e ops h1 h2 hx
  refine ⟨?_, ?_⟩
  · obtain ⟨w, h1, h2⟩ := hwf.1.write_size
    exact ⟨w, h1, h2, by simp [V1Tag.size, hwf.2]⟩
  · intro h0 h1
    obtain ⟨w, t', a, b, c⟩ := hwf.1.readback m h0 h1
    exact ⟨w, t', a, c⟩

/-- Instance: enhanced ID3v1.1 tag from scratch. -/
example : (((V1Tag.scratch true true).applyAll
      [.setSpeed 2, .setTrack 7, .setTitle (List.replicate 100 0x41), .setYear [0x32, 0x30, 0, 9],
       .setComment [0x43]]).write.bind fun w =>
      (V1Tag.ofStream ⟨w, 0, IoBits.none, IoBits.none⟩).1.bind fun t =>
      .ok (w.length, t.title, t.track, t.year, t.comment)) =
    .ok (355, List.replicate 90 0x41, some 7, [0x32, 0x30, 0, 0],
      0x43 :: List.replicate 27 0) := by decide +kernel

/-! ## C14 -/

/-- **C14** Each setter changes exactly its own field (and, for the enhanced-only
setters and the track number, the corresponding kind flag), storing the text cut
or NUL-padded to the field's width; C-string arguments end at their NUL. -/
theorem C14_setters (t : V1Tag) (b : Bytes) (n : Byte) :
    t.apply (.setAlbum b) = { t with album := padded (if t.extended then 90 else 30) b } ∧
    t.apply (.setArtist b) = { t with artist := padded (if t.extended then 90 else 30) b } ∧
    t.apply (.setTitle b) = { t with title := padded (if t.extended then 90 else 30) b } ∧
    t.apply (.setComment b) = { t with comment := padded (if t.extended then 90 else 30) b } ∧
    t.apply (.setYear b) = { t with year := padded 4 (b.takeWhile (· ≠ 0)) } ∧
    t.apply (.setGenre n) = { t with genre := n } ∧
    t.apply (.setTrack n) = { t with track := some n, v11 := true } ∧
    t.apply (.setSpeed n) = { t with speed := some n, extended := true } ∧
    t.apply (.setEnhGenre b) = { t with extGenre := padded 30 b, extended := true } ∧
    t.apply (.setStart b) =
      { t with startTime := some (padded 6 (b.takeWhile (· ≠ 0))), extended := true } ∧
    t.apply (.setEnd b) =
      { t with endTime := some (padded 6 (b.takeWhile (· ≠ 0))), extended := true } := by
  simp only [V1Tag.apply, V1Tag.textSz, resize_eq_padded, cstrField_eq, and_self]

/-- **C14** After any history the title is what the last `set_title` stored,
whatever other setters followed it; and likewise for the other text fields. -/
theorem C14_last_set (t : V1Tag) (pre post : List V1Tag.Op) (b : Bytes) :
    let w := if (t.applyAll pre).extended then 90 else 30
    ((∀ x, V1Tag.Op.setTitle x ∉ post) →
      (t.applyAll (pre ++ .setTitle b :: post)).title = padded w b) ∧
    ((∀ x, V1Tag.Op.setArtist x ∉ post) →
      (t.applyAll (pre ++ .setArtist b :: post)).artist = padded w b) ∧
    ((∀ x, V1Tag.Op.setAlbum x ∉ post) →
      (t.applyAll (pre ++ .setAlbum b :: post)).album = padded w b) ∧
    ((∀ x, V1Tag.Op.setComment x ∉ post) →
      (t.applyAll (pre ++ .setComment b :: post)).comment = padded w b) ∧
    ((∀ x, V1Tag.Op.setYear x ∉ post) →
      (t.applyAll (pre ++ .setYear b :: post)).year = padded 4 (b.takeWhile (· ≠ 0))) ∧
    (∀ n, (∀ x, V1Tag.Op.setTrack x ∉ post) →
      (t.applyAll (pre ++ .setTrack n :: post)).track = some n) ∧
    (∀ n, (∀ x, V1Tag.Op.setGenre x ∉ post) →
      (t.applyAll (pre ++ .setGenre n :: post)).genre = n) := by
  intro w
  obtain ⟨s1, s2, s3, s4, s5, -⟩ := C14_setters (t.applyAll pre) b 0
  refine ⟨fun h => ?_, fun h => ?_, fun h => ?_, fun h => ?_, fun h => ?_, fun n h => ?_,
    fun n h => ?_⟩ <;> rw [V1Tag.applyAll_append, V1Tag.applyAll_cons]
  · rw [V1Tag.applyAll_keep V1Tag.title (fun o => match o with | .setTitle _ => true | _ => false)
      (by intro t o ho; cases o <;> simp_all [V1Tag.apply]) _ _
      (by intro o ho; cases o <;> simp_all), s3]
  · rw [V1Tag.applyAll_keep V1Tag.artist (fun o => match o with | .setArtist _ => true | _ => false)
      (by intro t o ho; cases o <;> simp_all [V1Tag.apply]) _ _
      (by intro o ho; cases o <;> simp_all), s2]
  · rw [V1Tag.applyAll_keep V1Tag.album (fun o => match o with | .setAlbum _ => true | _ => false)
      (by intro t o ho; cases o <;> simp_all [V1Tag.apply]) _ _
      (by intro o ho; cases o <;> simp_all), s1]
  · rw [V1Tag.applyAll_keep V1Tag.comment (fun o => match o with | .setComment _ => true | _ => false)
      (by intro t o ho; cases o <;> simp_all [V1Tag.apply]) _ _
      (by intro o ho; cases o <;> simp_all), s4]
  · rw [V1Tag.applyAll_keep V1Tag.year (fun o => match o with | .setYear _ => true | _ => false)
      (by intro t o ho; cases o <;> simp_all [V1Tag.apply]) _ _
      (by intro o ho; cases o <;> simp_all), s5]
  · rw [V1Tag.applyAll_keep V1Tag.track (fun o => match o with | .setTrack _ => true | _ => false)
      (by intro t o ho; cases o <;> simp_all [V1Tag.apply]) _ _
      (by intro o ho; cases o <;> simp_all)]
    rfl
  · rw [V1Tag.applyAll_keep V1Tag.genre (fun o => match o with | .setGenre _ => true | _ => false)
      (by intro t o ho; cases o <;> simp_all [V1Tag.apply]) _ _
      (by intro o ho; cases o <;> simp_all)]
    rfl

example : ((V1Tag.scratch false false).apply (.setTitle [0x41, 0x42])).title =
    [0x41, 0x42] ++ List.replicate 28 0 := by decide

/-! ## C46, ID3v1 part -/

/-- The claim for the ID3v1 stream constructor. -/
def C46_v1_claim : Prop :=
  ∀ s s' e, IStream.Good s → V1Tag.ofStream s = (.throw e, s') → s'.pos = s.pos ∧ s'.mask = s.mask

/-- **C46** (refuted) 128 bytes that do not start with "TAG": the get pointer is
left after them and the exception mask is left at eofbit|failbit|badbit. -/
theorem C46_v1_refuted : ¬ C46_v1_claim := by
  intro h
  have h1 : V1Tag.ofStream ⟨List.replicate 128 0, 0, IoBits.none, IoBits.none⟩ =
    (.throw .invalidTag, ⟨List.replicate 128 0, 128, IoBits.all, IoBits.none⟩) := by decide +kernel
  have := h _ _ _ (show IStream.Good ⟨_, _, _, _⟩ from rfl) h1
  exact absurd this.1 (by decide)

/-- **C46** (partial) When there are neither 128 nor 355 bytes left the
constructor throws `invalid_tag` with the position, state and bytes as they were.
Missing: the exception mask, which is left at "all". -/
theorem C46_v1_wrong_size_partial (s : IStream) (hs : s.Good)
    (h1 : s.pos + 128 ≠ s.data.length) (h2 : s.pos + 355 ≠ s.data.length) :
    V1Tag.ofStream s = (.throw .invalidTag, { s with mask := IoBits.all }) := by
  obtain ⟨d, p, m, st⟩ := s
  simp only [IStream.Good] at hs h1 h2
  subst hs
  have c1 : ¬ ((d.length : Int) - (p : Int) = 128) := by omega
  have c2 : ¬ ((d.length : Int) - (p : Int) = 355) := by omega
  unfold V1Tag.ofStream
  simp [SM.attempt, c1, c2]

example : V1Tag.ofStream ⟨[1, 2, 3], 1, IoBits.none, IoBits.none⟩ =
    (.throw .invalidTag, ⟨[1, 2, 3], 1, IoBits.all, IoBits.none⟩) := by decide

/-- The claim for the constructor that is told which kind of tag to expect: a stream it
gave up on is where it was, good, and has the caller's mask. -/
def C46_v1_known_claim : Prop :=
  ∀ enh s s' e, IStream.Good s → V1Tag.ofStreamKnown enh s = (.throw e, s') → s' = s

/-- **C46** (partial) Where fewer bytes are left than the kind of tag takes, that
constructor throws, with the caller's mask and the bytes as they were — but leaves the
stream failed, since the handler seeks without clearing the error first. With failbit
in the mask, restoring the mask throws `ios_base::failure` in place of `invalid_tag`.
(Missing: the position and the state, which `C46_v1_known_refuted` shows are lost.) -/
theorem C46_v1_known_short_partial (enh : Bool) (s : IStream) (hs : s.Good)
    (h : s.data.length < s.pos + (if enh then 355 else 128)) :
    ∃ p, V1Tag.ofStreamKnown enh s =
      (.throw (if s.mask.fail then .streamFailure else .invalidTag),
        { s with pos := p, st := ⟨false, true, false⟩ }) := by
  obtain ⟨d, p, m, st⟩ := s
  simp only [IStream.Good] at hs h
  subst hs
  have fin : ∀ p', V1Tag.onFailure p m ⟨d, p', IoBits.all, ⟨true, true, false⟩⟩ =
      (.throw (if m.fail then .streamFailure else .invalidTag), ⟨d, p', m, ⟨false, true, false⟩⟩) := by
    intro p'
    unfold V1Tag.onFailure
    cases hm : m.fail <;>
      simp [SM.seekBeg, SM.seekAbs, SM.setState, IoBits.none, SM.setExceptions, IoBits.meets, hm,
        IoBits.or]
  unfold V1Tag.ofStreamKnown
  rw [SM.bind_ok (SM.exceptions_apply _), SM.bind_ok (SM.setExceptions_good _ _ _ _),
    SM.bind_ok (SM.tellg_good _ _ _)]
  cases enh with
  | false =>
    obtain ⟨p', hr⟩ := SM.read_short 128 d p IoBits.all (by simpa using h) (by omega) rfl
    refine ⟨p', ?_⟩
    simp only [Bool.false_eq_true, if_false]
    rw [SM.bind_ok (SM.attempt_fail (SM.bind_throw hr))]
    exact fin p'
  | true =>
    obtain ⟨p', hr⟩ := SM.read_short 355 d p IoBits.all (by simpa using h) (by omega) rfl
    refine ⟨p', ?_⟩
    simp only [if_true]
    rw [SM.bind_ok (SM.attempt_fail (SM.bind_throw hr))]
    exact fin p'

/-- **C46** (refuted) Three bytes where a tag is expected: the stream is left failed. -/
theorem C46_v1_known_refuted : ¬ C46_v1_known_claim := by
  intro h
  obtain ⟨p, hp⟩ := C46_v1_known_short_partial false ⟨[1, 2, 3], 0, IoBits.none, IoBits.none⟩ rfl
    (by decide)
  have := h false ⟨[1, 2, 3], 0, IoBits.none, IoBits.none⟩ _ _ rfl hp
  simp [IoBits.none] at this

end Scribbu.Props
