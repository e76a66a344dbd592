import Verif.Model.Direct
import Verif.Proofs.Split

/-! C154: making tags straight from a stream. -/

namespace Scribbu.Props
open Scribbu Spec Direct

/-- What reading a tag gives, together with a version and a revision. -/
def tagged {τ : Type} (vr : Option (Byte × Byte)) (x : Res τ × IStream) : Res (Option (Byte × Byte) × τ) × IStream :=
  (x.1.bind fun t => .ok (vr, t), x.2)

/-- What is expected of such a constructor: if there is a tag of its version, it is read as by looking for the header first, then reading on; if not, an exception is thrown, and
the stream is as before. -/
def Constructs {τ : Type} (v : Byte) (rest : Id3v2Info → SM τ) : Prop :=
  ∀ s : IStream, s.Good →
    (∀ r f n, IsHeader (s.data.drop s.pos) v r f n → construct rest s = tagged (some (v, r)) (rest ⟨v, r, f, n⟩ { s with pos := s.pos + 10 })) ∧
    ((∀ r f n, ¬ IsHeader (s.data.drop s.pos) v r f n) → ∃ e, construct rest s = (.throw e, s))

/-- C154, in full. -/
def C154_claim : Prop := Constructs 2 Tag22.read ∧ ∀ z, Constructs 3 (Tag23.read z) ∧ Constructs 4 (Tag24.read z)

theorem readHalf_full (d : Bytes) (p : Nat) (m m0 : IoBits) (h : p + 5 ≤ d.length) :
    readHalf m0 p ⟨d, p, m, IoBits.none⟩ = (.ok ((d.drop p).take 5), ⟨d, p + 5, m, IoBits.none⟩) := by
  unfold readHalf SM.onThrow
  rw [SM.read_full 5 d p m h]

theorem firstHalf_full (d : Bytes) (p : Nat) (m : IoBits) (h : p + 5 ≤ d.length) (vr : Option (Byte × Byte)) (b : Bool)
    (hc : checkHalf ((d.drop p).take 5) = .ok (vr, b)) :
    firstHalf ⟨d, p, m, IoBits.none⟩ = (.ok vr, ⟨d, if b then p + 5 else p, m, IoBits.none⟩) := by
  unfold firstHalf
  simp only [SM.bind_apply, SM.exceptions_apply, SM.setExceptions_good, SM.tellg_good, readHalf_full d p _ _ h, SM.lift_apply, hc]
  cases b <;> simp

theorem secondHalf_full (d : Bytes) (p : Nat) (m : IoBits) (h : p + 5 ≤ d.length) (f : Byte) (n : Nat)
    (hc : flagsAndSize ((d.drop p).take 5) = .ok (f, n)) :
    secondHalf ⟨d, p, m, IoBits.none⟩ = (.ok (f, n), ⟨d, if n = 0 then p else p + 5, m, IoBits.none⟩) := by
  unfold secondHalf
  simp only [SM.bind_apply, SM.exceptions_apply, SM.setExceptions_good, SM.tellg_good, readHalf_full d p _ _ h, SM.lift_apply, hc]
  by_cases hn : n = 0 <;> simp [hn]

theorem construct_full {τ : Type} (rest : Id3v2Info → SM τ) (d : Bytes) (p p' : Nat) (m : IoBits) (vr : Option (Byte × Byte)) (f : Byte) (n p'' : Nat)
    (h1 : firstHalf ⟨d, p, m, IoBits.none⟩ = (.ok vr, ⟨d, p', m, IoBits.none⟩)) (h2 : secondHalf ⟨d, p', m, IoBits.none⟩ = (.ok (f, n), ⟨d, p'', m, IoBits.none⟩)) :
    construct rest ⟨d, p, m, IoBits.none⟩ = tagged vr (rest ⟨0, 0, f, n⟩ ⟨d, p'', m, IoBits.none⟩) := by
  unfold construct tagged
  simp only [SM.bind_apply, h1, h2]
  rcases rest ⟨0, 0, f, n⟩ ⟨d, p'', m, IoBits.none⟩ with ⟨x, s⟩
  cases x <;> rfl

/-- **Finding** (scribbu/id3v2.cc L436-447, L498-505): where there is no `ID3`, no exception is thrown: the first five bytes are read again, as flags and size; if they are no size, the tag is taken
to be empty, and the version it reports is not initialised. Whatever the bytes are: -/
theorem C154_refuted_nothing {τ : Type} (rest : Id3v2Info → SM τ) (pre post : Bytes) (b0 b1 b2 b3 b4 : Byte) (m : IoBits) (h : ¬ (b0 = 0x49 ∧ b1 = 0x44 ∧ b2 = 0x33))
    (hs : ¬ (b1 < 0x80 ∧ b2 < 0x80 ∧ b3 < 0x80 ∧ b4 < 0x80)) :
    construct rest ⟨pre ++ [b0, b1, b2, b3, b4] ++ post, pre.length, m, IoBits.none⟩ =
      tagged none (rest ⟨0, 0, b0, 0⟩ ⟨pre ++ [b0, b1, b2, b3, b4] ++ post, pre.length, m, IoBits.none⟩) := by
  have hd : ((pre ++ [b0, b1, b2, b3, b4] ++ post).drop pre.length).take 5 = [b0, b1, b2, b3, b4] := by simp [List.append_assoc]
  have hl : pre.length + 5 ≤ (pre ++ [b0, b1, b2, b3, b4] ++ post).length := by simp
  refine construct_full rest _ _ pre.length m none b0 0 pre.length ?_ ?_
  · rw [firstHalf_full _ _ m hl none false (by rw [hd]; simp only [checkHalf, if_neg h])]
    simp
  · rw [secondHalf_full _ _ m hl b0 0 (by rw [hd]; simp only [flagsAndSize, if_neg hs])]
    simp

/-- The beginning of an MP3 frame. -/
def audioStart : Bytes := [0xff, 0xfb, 0x90, 0x44, 0, 0, 0, 0, 0, 0]

theorem audioStart_none (v r f : Byte) (n : Nat) : ¬ IsHeader audioStart v r f n := by
  rintro ⟨s0, s1, s2, s3, rest, h, -⟩
  simp [audioStart] at h

theorem parseFrames_nil (buf : Bytes) : Tag22.parseFrames buf 0 0 = .ok ([], 0) := by
  rw [Tag22.parseFrames]; simp

theorem parseBuf_nil (b : Bool) : Tag22.parseBuf b [] = .ok ([], 0) := by
  cases b
  · exact parseFrames_nil []
  · unfold Tag22.parseBuf
    rw [show resynchronise [] = some (.ok ([], 0)) by decide +kernel]
    exact parseFrames_nil []

theorem read22_nothing (v r f : Byte) (d : Bytes) (p : Nat) (m : IoBits) : Tag22.read ⟨v, r, f, 0⟩ ⟨d, p, m, IoBits.none⟩ =
    (.ok ⟨some (f &&& 0x80 ≠ 0), some (f &&& 0x40 ≠ 0), some 0, []⟩, ⟨d, p, m, IoBits.none⟩) := by
  unfold Tag22.read Tag22.parse
  have : SM.read 0 ⟨d, p, IoBits.all, IoBits.none⟩ = (.ok [], ⟨d, p, IoBits.all, IoBits.none⟩) := by simp [SM.read]
  simp [SM.onThrow, this, parseBuf_nil]

/-- **Finding** (scribbu/id3v2.cc L436-447): `id3v2_2_tag(is)` makes a tag of the beginning of an MP3 frame, unsynchronised and compressed, with no frames. -/
theorem C154_refuted : ¬ C154_claim := by
  intro h
  obtain ⟨e, he⟩ := (h.1 ⟨audioStart, 0, IoBits.none, IoBits.none⟩ rfl).2 fun r f n => audioStart_none 2 r f n
  rw [show construct Tag22.read ⟨audioStart, 0, IoBits.none, IoBits.none⟩ = tagged none (Tag22.read ⟨0, 0, 0xff, 0⟩ ⟨audioStart, 0, IoBits.none, IoBits.none⟩) from
    C154_refuted_nothing Tag22.read [] [0, 0, 0, 0, 0] 0xff 0xfb 0x90 0x44 0 IoBits.none (by decide) (by decide), read22_nothing] at he
  cases he

/-- **Finding** (scribbu/id3v2.cc L436-447, scribbu/id3v23.cc L1217-1229): of the beginning of an MP3 frame `id3v2_3_tag(is)` makes a read out of bounds: its first byte, FF, is taken for flags that say there
is an extended header, in no bytes at all. -/
theorem C154_refuted_sound (z : Zlib) : (tag23 z ⟨audioStart, 0, IoBits.none, IoBits.none⟩).1 = .ub .oobRead := rfl

/-- Bytes that are no tag. -/
def noTag : Bytes := [0, 0xff, 0, 0, 0, 0]

theorem noTag_none (v r f : Byte) (n : Nat) : ¬ IsHeader noTag v r f n := by
  rintro ⟨s0, s1, s2, s3, rest, h, -⟩
  simp [noTag] at h

theorem encrScan_nil (z : Zlib) (v : Ver) : encrScan z v [] 0 0 = .ok ([], 0) := by
  have h : encrPass z v [] 0 0 [] false = .ok ([], false, 0) := by rw [encrPass]; simp
  unfold encrScan encrLoop
  rw [h]
  rfl

theorem framePass_nil (z : Zlib) (v : Ver) (ms : List Byte) : framePass z v ms [] 0 0 = .ok [] := by
  rw [framePass]; simp

theorem read23_nothing (z : Zlib) (d : Bytes) (p : Nat) (m : IoBits) : Tag23.read z ⟨0, 0, 0, 0⟩ ⟨d, p, m, IoBits.none⟩ =
    (.ok ⟨some false, false, none, 0, []⟩, ⟨d, p, m, IoBits.none⟩) := by
  unfold Tag23.read Tag23.parse
  have : SM.read 0 ⟨d, p, IoBits.all, IoBits.none⟩ = (.ok [], ⟨d, p, IoBits.all, IoBits.none⟩) := by simp [SM.read]
  simp [SM.onThrow, this, Tag23.parseBuf, Tag23.parseAll, Res.bind, encrScan_nil, framePass_nil]

theorem read24_nothing (z : Zlib) (d : Bytes) (p : Nat) (m : IoBits) : Tag24.read z ⟨0, 0, 0, 0⟩ ⟨d, p, m, IoBits.none⟩ =
    (.ok ⟨some false, false, false, none, 0, []⟩, ⟨d, p, m, IoBits.none⟩) := by
  unfold Tag24.read Tag24.parse
  have : SM.read 0 ⟨d, p, IoBits.all, IoBits.none⟩ = (.ok [], ⟨d, p, IoBits.all, IoBits.none⟩) := by simp [SM.read]
  simp [SM.onThrow, this, Tag24.parseBuf, Res.bind, encrScan_nil, framePass_nil]

/-- None of the three constructors can be relied on. -/
theorem C154_refuted_each (z : Zlib) : ¬ Constructs 2 Tag22.read ∧ ¬ Constructs 3 (Tag23.read z) ∧ ¬ Constructs 4 (Tag24.read z) := by
  refine ⟨fun h => ?_, fun h => ?_, fun h => ?_⟩
  · obtain ⟨e, he⟩ := (h ⟨noTag, 0, IoBits.none, IoBits.none⟩ rfl).2 fun r f n => noTag_none 2 r f n
    rw [show construct Tag22.read ⟨noTag, 0, IoBits.none, IoBits.none⟩ = tagged none (Tag22.read ⟨0, 0, 0, 0⟩ ⟨noTag, 0, IoBits.none, IoBits.none⟩) from
      C154_refuted_nothing Tag22.read [] [0] 0 0xff 0 0 0 IoBits.none (by decide) (by decide), read22_nothing] at he
    cases he
  · obtain ⟨e, he⟩ := (h ⟨noTag, 0, IoBits.none, IoBits.none⟩ rfl).2 fun r f n => noTag_none 3 r f n
    rw [show construct (Tag23.read z) ⟨noTag, 0, IoBits.none, IoBits.none⟩ = tagged none (Tag23.read z ⟨0, 0, 0, 0⟩ ⟨noTag, 0, IoBits.none, IoBits.none⟩) from
      C154_refuted_nothing (Tag23.read z) [] [0] 0 0xff 0 0 0 IoBits.none (by decide) (by decide), read23_nothing] at he
    cases he
  · obtain ⟨e, he⟩ := (h ⟨noTag, 0, IoBits.none, IoBits.none⟩ rfl).2 fun r f n => noTag_none 4 r f n
    rw [show construct (Tag24.read z) ⟨noTag, 0, IoBits.none, IoBits.none⟩ = tagged none (Tag24.read z ⟨0, 0, 0, 0⟩ ⟨noTag, 0, IoBits.none, IoBits.none⟩) from
      C154_refuted_nothing (Tag24.read z) [] [0] 0 0xff 0 0 0 IoBits.none (by decide) (by decide), read24_nothing] at he
    cases he

/-- **Finding** (scribbu/id3v2.cc L503-505): an empty tag leaves the stream in the middle of its header, five bytes behind its beginning. -/
theorem C154_refuted_empty (pre post : Bytes) (f : Byte) (m : IoBits) :
    tag22 ⟨pre ++ [0x49, 0x44, 0x33, 2, 0, f, 0, 0, 0, 0] ++ post, pre.length, m, IoBits.none⟩ =
      (.ok (some (2, 0), ⟨some (f &&& 0x80 ≠ 0), some (f &&& 0x40 ≠ 0), some 0, []⟩),
        ⟨pre ++ [0x49, 0x44, 0x33, 2, 0, f, 0, 0, 0, 0] ++ post, pre.length + 5, m, IoBits.none⟩) := by
  have h1 : ((pre ++ [0x49, 0x44, 0x33, 2, 0, f, 0, 0, 0, 0] ++ post).drop pre.length).take 5 = [0x49, 0x44, 0x33, 2, 0] := by simp [List.append_assoc]
  have h2 : ((pre ++ [0x49, 0x44, 0x33, 2, 0, f, 0, 0, 0, 0] ++ post).drop (pre.length + 5)).take 5 = [f, 0, 0, 0, 0] := by
    rw [← List.drop_drop]; simp [List.append_assoc]
  have hl : pre.length + 10 ≤ (pre ++ [0x49, 0x44, 0x33, 2, 0, f, 0, 0, 0, 0] ++ post).length := by simp
  generalize pre ++ [0x49, 0x44, 0x33, 2, 0, f, 0, 0, 0, 0] ++ post = d at *
  unfold tag22
  rw [construct_full Tag22.read d pre.length (pre.length + 5) m (some (2, 0)) f 0 (pre.length + 5)]
  · rw [read22_nothing]; rfl
  · rw [firstHalf_full d _ m (by omega) (some (2, 0)) true (by rw [h1]; rfl)]; rfl
  · rw [secondHalf_full d _ m (by omega) f 0 (by rw [h2]; rfl)]; rfl

/-- **Finding** (scribbu/id3v2.cc L427-433): if the stream ends too early and the caller's exception mask tells of that, restoring the mask throws before the stream is restored: it is left failed, at its end. -/
theorem C154_refuted_short {τ : Type} (rest : Id3v2Info → SM τ) (d : Bytes) (p : Nat) (m : IoBits) (hm : m.fail = true) (hp : p ≤ d.length) (h : d.length < p + 5) :
    construct rest ⟨d, p, m, IoBits.none⟩ = (.throw .streamFailure, ⟨d, d.length, m, ⟨true, true, false⟩⟩) := by
  have hr : SM.read 5 ⟨d, p, IoBits.all, IoBits.none⟩ = (.throw .streamFailure, ⟨d, d.length, IoBits.all, ⟨true, true, false⟩⟩) := by
    have h1 : ((d.drop p).take 5).length ≠ 5 := by simp; omega
    have h2 : p + ((d.drop p).take 5).length = d.length := by simp; omega
    simp only [SM.read, if_true, h1, if_false, h2]
    simp [SM.setState, IoBits.or, IoBits.none, IoBits.meets, IoBits.all]
  have hh : readHalf m p ⟨d, p, IoBits.all, IoBits.none⟩ = (.throw .streamFailure, ⟨d, d.length, m, ⟨true, true, false⟩⟩) := by
    unfold readHalf SM.onThrow
    rw [hr]
    simp [SM.setExceptions, IoBits.meets, hm]
  unfold construct firstHalf
  simp [hh]

/-- Whatever the version in it, a header with a size is read as by looking for it first. -/
theorem construct_header {τ : Type} (rest : Id3v2Info → SM τ) (hrest : ∀ v r f n, rest ⟨v, r, f, n⟩ = rest ⟨0, 0, f, n⟩) (s : IStream) (hs : s.Good)
    (v r f : Byte) (n : Nat) (h : IsHeader (s.data.drop s.pos) v r f n) (hn : n ≠ 0) :
    construct rest s = tagged (some (v, r)) (rest ⟨v, r, f, n⟩ { s with pos := s.pos + 10 }) := by
  obtain ⟨d, p, m, st⟩ := s
  cases hs
  obtain ⟨s0, s1, s2, s3, tl, he, hv, hr, hb, hz⟩ := h
  simp only at he
  have hlen : p + 10 ≤ d.length := by
    have := congrArg List.length he
    simp at this
    omega
  have h1 : (d.drop p).take 5 = [0x49, 0x44, 0x33, v, r] := by rw [he]; rfl
  have h2 : (d.drop (p + 5)).take 5 = [f, s0, s1, s2, s3] := by rw [← List.drop_drop, he]; rfl
  have hc : s0 < 0x80 ∧ s1 < 0x80 ∧ s2 < 0x80 ∧ s3 < 0x80 := by
    simp only [lt80_iff]
    exact ⟨hb _ (by simp), hb _ (by simp), hb _ (by simp), hb _ (by simp)⟩
  rw [hrest]
  refine construct_full rest d p (p + 5) m (some (v, r)) f n (p + 10) ?_ ?_
  · rw [firstHalf_full d p m (by omega) (some (v, r)) true (by rw [h1]; simp [checkHalf, hv, hr])]
    rfl
  · rw [secondHalf_full d (p + 5) m (by omega) f n (by rw [h2]; simp only [flagsAndSize, if_pos hc]; rw [hz, ss4_spec])]
    simp [hn]

/-- **Finding** (scribbu/id3v22.cc L169-186, scribbu/id3v23.cc L315-333, scribbu/id3v24.cc L451-469): nobody looks at the version: the constructor of ID3v2.3 tags takes an ID3v2.4 tag for its own, and so
with any other. -/
theorem C154_refuted_version (z : Zlib) (s : IStream) (hs : s.Good) (v r f : Byte) (n : Nat) (h : IsHeader (s.data.drop s.pos) v r f n) (hn : n ≠ 0) :
    tag23 z s = tagged (some (v, r)) (Tag23.read z ⟨v, r, f, n⟩ { s with pos := s.pos + 10 }) :=
  construct_header _ (fun _ _ _ _ => rfl) s hs v r f n h hn

/-- **C154** (what is left of it, `_partial`: for tags that are not empty; nothing else is refused): the three constructors give what is read behind the header, with its version and revision, and leave the
stream as that does. -/
theorem C154_partial (z : Zlib) (s : IStream) (hs : s.Good) (r f : Byte) (n : Nat) (hn : n ≠ 0) :
    (IsHeader (s.data.drop s.pos) 2 r f n → tag22 s = tagged (some (2, r)) (Tag22.read ⟨2, r, f, n⟩ { s with pos := s.pos + 10 })) ∧
    (IsHeader (s.data.drop s.pos) 3 r f n → tag23 z s = tagged (some (3, r)) (Tag23.read z ⟨3, r, f, n⟩ { s with pos := s.pos + 10 })) ∧
    (IsHeader (s.data.drop s.pos) 4 r f n → tag24 z s = tagged (some (4, r)) (Tag24.read z ⟨4, r, f, n⟩ { s with pos := s.pos + 10 })) :=
  ⟨fun h => construct_header _ (fun _ _ _ _ => rfl) s hs _ r f n h hn, fun h => construct_header _ (fun _ _ _ _ => rfl) s hs _ r f n h hn,
    fun h => construct_header _ (fun _ _ _ _ => rfl) s hs _ r f n h hn⟩

/-- An ID3v2.2 tag of three bytes of padding, somewhere in a stream. -/
example : IsHeader (([7, 7, 0x49, 0x44, 0x33, 2, 0, 0x80, 0, 0, 0, 3, 0, 0, 0, 9] : Bytes).drop 2) 2 0 0x80 3 := ⟨0, 0, 0, 3, [0, 0, 0, 9], rfl, by decide, by decide, by decide, by decide⟩

end Scribbu.Props
