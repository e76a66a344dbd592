import Verif.Proofs.Track
import Verif.Props.Mp3

/-! Property C15: track data. -/

namespace Scribbu.Props
open Scribbu Scribbu.Spec

/-- Where the track ends in the file `f`: at the ID3v1 tag (enhanced or not) if `f` has
one, at the end of the file otherwise. -/
def TrackEnd (f : Bytes) (e : Nat) : Prop :=
  ExtAt f e ∨ ((¬ ∃ n, ExtAt f n) ∧ StdAt f e) ∨
    ((¬ ∃ n, ExtAt f n) ∧ (¬ ∃ n, StdAt f n) ∧ e = f.length)

theorem trackEnd_findV1 {f : Bytes} {e : Nat} (h : TrackEnd f e) : (e : Int) = (findV1 f).start := by
  unfold findV1
  rcases h with h | ⟨h1, h2⟩ | ⟨h1, h2, h3⟩
  · have := extAt_pos h
    rw [if_pos ⟨e, h⟩]
    simp only; omega
  · have := stdAt_pos h2
    rw [if_neg h1, if_pos ⟨e, h2⟩]
    simp only; omega
  · rw [if_neg h1, if_neg h2]
    simp only; omega

/-- C15 in full, for `track_data`: constructing it from a stream positioned anywhere before the end of
the track succeeds, the size is the number of bytes up to the end of the track and
the digest is taken of precisely those bytes. -/
def C15_track_claim : Prop :=
  ∀ (f : Bytes) (p e fuel : Nat) (m : IoBits), TrackEnd f e → p ≤ e → f.length < fuel →
    ∃ td, trackData fuel ⟨f, p, m, IoBits.none⟩ = (.ok (some td), ⟨f, e, m, IoBits.none⟩) ∧
      td.size = (e : Int) - p ∧ td.digested = (f.drop p).take (e - p)

/-- C15 in full, for `compute_track_md5`, with or without the hint: the digest is taken
of precisely the bytes up to the end of the track. -/
def C15_md5_claim : Prop :=
  ∀ (f : Bytes) (p e fuel : Nat) (m : IoBits) (hint : Option Int),
    TrackEnd f e → p ≤ e → f.length < fuel → hint = none ∨ hint = some (e : Int) →
    (computeTrackMd5 fuel hint ⟨f, p, m, IoBits.none⟩).1 = .ok (some ((f.drop p).take (e - p)))

/-- A frame announcing a Xing header whose table of contents is cut short. -/
def cutXing : Bytes :=
  [0xff, 0xf3, 0x14, 0xc0] ++ List.replicate 9 0 ++ XING ++ [0, 0, 0, 7] ++ [0, 0, 0, 5] ++
    [0, 0, 0, 200] ++ List.replicate 50 0

theorem cutXing_end : TrackEnd cutXing 79 := by
  refine .inr (.inr ⟨fun ⟨n, h⟩ => ?_, fun ⟨n, h⟩ => ?_, by decide⟩)
  · have := (extAt_pos h).2
    rw [show cutXing.length = 79 by decide] at this
    omega
  · have := (stdAt_pos h).2
    rw [show cutXing.length = 79 by decide] at this
    omega

/-- **Finding**: on a track truncated inside the table of contents of a Xing header, the
scan leaves the stream failed, and the constructor's final `seekg` throws. -/
theorem C15_truncated_refuted : ¬ C15_track_claim := by
  intro h
  obtain ⟨td, h1, -⟩ := h cutXing 0 79 80 IoBits.none cutXing_end (by decide) (by decide)
  have hr : (trackData 80 ⟨cutXing, 0, IoBits.none, IoBits.none⟩).1 = .throw .streamFailure := by
    decide +kernel
  rw [h1] at hr
  cases hr

/-- **Finding**: without the hint, `compute_track_md5` starts reading wherever
`find_id3v1_tag` left the get pointer. On ten bytes without a tag that is the end of
the file, and the first read throws. -/
theorem C15_no_hint_refuted : ¬ C15_md5_claim := by
  intro h
  have := h (List.replicate 10 7) 0 10 11 IoBits.all none
    (.inr (.inr ⟨fun ⟨n, h⟩ => by have := (extAt_pos h).2; simp at this,
      fun ⟨n, h⟩ => by have := (stdAt_pos h).2; simp at this, rfl⟩))
    (by decide) (by decide) (.inl rfl)
  revert this
  decide +kernel

/-- **C15** For every file and every position before the end of its track:
`track_data` either returns with exactly the right size and digest input, leaving the
stream good, at the end of the track and with the caller's mask; or scanning for the
duration was undefined; or that scan left the stream failed, and the constructor
throws `ios_base::failure`. (Missing from the full claim: the last two outcomes do
occur.) -/
theorem C15_track_partial (f : Bytes) (p e fuel : Nat) (m : IoBits) (he : TrackEnd f e) (hp : p ≤ e)
    (hf : f.length < fuel) :
    (∃ td, trackData fuel ⟨f, p, m, IoBits.none⟩ = (.ok (some td), ⟨f, e, m, IoBits.none⟩) ∧
      td.size = (e : Int) - p ∧ td.digested = (f.drop p).take (e - p)) ∨
    (∃ u, (trackData fuel ⟨f, p, m, IoBits.none⟩).1 = .ub u ∧
      (mp3Duration fuel ⟨f, p, IoBits.all, IoBits.none⟩).1 = .ub u) ∨
    ((trackData fuel ⟨f, p, m, IoBits.none⟩).1 = .throw .streamFailure ∧
      (mp3Duration fuel ⟨f, p, IoBits.all, IoBits.none⟩).1 = .throw .streamFailure) := by
  have hs := trackData_spec f p e fuel m (trackEnd_findV1 he) hp hf
  have hend := mp3Duration_end fuel f p IoBits.all rfl hf
  have htot := mp3Duration_total fuel f p IoBits.all hf
  generalize mp3Duration fuel ⟨f, p, IoBits.all, IoBits.none⟩ = r at hs hend htot
  obtain ⟨r, s⟩ := r
  cases r with
  | ok k =>
    cases k with
    | none => exact absurd rfl htot
    | some k => exact .inl ⟨_, hs, rfl, rfl⟩
  | throw x =>
    simp only at hs
    by_cases hst : s.st = IoBits.none
    · rw [if_pos hst] at hs
      exact .inl ⟨_, hs, rfl, rfl⟩
    · rw [if_neg hst] at hs
      rcases (hend.2 x rfl).2 with h | ⟨rfl, -⟩
      · exact absurd h hst
      · right; right
        rw [hs]
        exact ⟨rfl, rfl⟩
  | ub u =>
    simp only at hs
    right; left
    rw [hs]
    exact ⟨u, rfl, rfl⟩

/-- **C15** (a track of frames) If what lies at the get pointer is a run of frames of
equal duration without a VBR header, followed by anything but another frame, the
constructor succeeds and all three figures are right. -/
theorem C15_frames_partial (fs : List (Bytes × (Nat × Nat))) (rest pre : Bytes) (m : IoBits)
    (num den e fuel : Nat) (hne : fs ≠ []) (hall : ∀ f ∈ fs, IsFrame f.1 f.2)
    (hsame : ∀ f ∈ fs, f.2 = (num, den)) (hns : NoSync rest)
    (hv : NoVbr ((fs.map (·.1)).flatten ++ rest))
    (h42 : 42 ≤ ((fs.map (·.1)).flatten ++ rest).length)
    (he : TrackEnd (pre ++ ((fs.map (·.1)).flatten ++ rest)) e) (hp : pre.length ≤ e)
    (hf : (pre ++ ((fs.map (·.1)).flatten ++ rest)).length < fuel) :
    trackData fuel ⟨pre ++ ((fs.map (·.1)).flatten ++ rest), pre.length, m, IoBits.none⟩ =
      (.ok (some ⟨(e : Int) - pre.length,
          ((fs.map (·.1)).flatten ++ rest).take (e - pre.length), some (num, fs.length, den)⟩),
        ⟨pre ++ ((fs.map (·.1)).flatten ++ rest), e, m, IoBits.none⟩) := by
  have hs := trackData_spec _ pre.length e fuel m (trackEnd_findV1 he) hp hf
  obtain ⟨q, hq, -⟩ := C37_sum_partial fs rest pre IoBits.all num den hne hall hsame hns hv h42 fuel hf
  rw [hq] at hs
  simp only at hs
  rw [hs, List.drop_left]

/-- **C15** (with the hint) `compute_track_md5` given the end of the track digests
precisely the track, and keeps the caller's mask. -/
theorem C15_md5_hint_partial (f : Bytes) (p e fuel : Nat) (m : IoBits) (hp : p ≤ e)
    (he : e ≤ f.length) (hf : f.length < fuel) :
    computeTrackMd5 fuel (some (e : Int)) ⟨f, p, m, IoBits.none⟩ =
      (.ok (some ((f.drop p).take (e - p))), ⟨f, e, m, IoBits.none⟩) := by
  unfold computeTrackMd5
  rw [SM.bind_ok (SM.exceptions_apply _), SM.bind_ok (SM.setExceptions_good _ _ _ _)]
  simp only
  rw [SM.bind_assoc, SM.bind_ok (SM.tellg_good _ _ _), SM.bind_ok (SM.pure_apply' _ _)]
  simp only
  have := md5Loop_spec 4194304 (by omega) fuel (e - p) [] f p IoBits.all (by omega) (by omega)
  rw [show (e : Int) - (p : Int) = ((e - p : Nat) : Int) by omega, SM.bind_ok this]
  simp only
  rw [SM.bind_ok (SM.setExceptions_good _ _ _ _), show p + (e - p) = e by omega]
  rfl

/-- Two frames after three bytes of something else, then an ID3v1 tag. -/
example : trackData 200 ⟨[1, 2, 3] ++ tinyFrame ++ tinyFrame ++ TAG ++ List.replicate 125 0x20, 3,
      IoBits.none, IoBits.none⟩ =
    (.ok (some ⟨48, tinyFrame ++ tinyFrame, some (576, 2, 24000)⟩),
      ⟨[1, 2, 3] ++ tinyFrame ++ tinyFrame ++ TAG ++ List.replicate 125 0x20, 51, IoBits.none,
        IoBits.none⟩) := by decide +kernel

end Scribbu.Props
