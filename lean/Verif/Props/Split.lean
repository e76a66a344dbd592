import Verif.Proofs.Split
import Verif.Props.Id3v1

/-! Property C08: splitting a file. -/

namespace Scribbu.Props
open Scribbu Scribbu.Spec

/-- **C08** Whenever `scribbu split` succeeds, the pieces it wrote, concatenated
in order, are byte for byte the file. (As many loop iterations as the file has
bytes are always enough.) -/
theorem C08_lossless (f : Bytes) (m : IoBits) :
    (∃ pieces, (splitFile f.length ⟨f, 0, m, IoBits.none⟩).1 = .ok (some pieces) ∧
      pieces.flatten = f) ∨
    ∃ e, (splitFile f.length ⟨f, 0, m, IoBits.none⟩).1 = .throw e := by
  rcases splitTags_cases f.length f 0 (by omega) (by omega) with ⟨ts, rest, h1, h2, h3, h4⟩ | h
  · have hs := splitFile_of_tags ts rest h2 h3 f.length h4 m
    rw [List.drop_zero] at h1
    rw [← h1] at hs
    simp only at hs
    by_cases hlow : (findV1 f).start < ts.flatten.length
    · rw [if_pos hlow] at hs
      exact .inr ⟨_, hs⟩
    · rw [if_neg hlow] at hs
      refine .inl ⟨_, hs, ?_⟩
      generalize hk : (findV1 f).start.toNat = k
      have hpre : f.take ts.flatten.length = ts.flatten := by rw [h1]; simp
      have hle : ts.flatten.length ≤ k := by omega
      have hcut : ts.flatten ++ (f.take k).drop ts.flatten.length = f.take k := by
        have : (f.take k).take ts.flatten.length = ts.flatten := by
          rw [List.take_take, Nat.min_eq_left hle, hpre]
        conv => lhs; lhs; rw [← this]
        rw [List.take_append_drop]
      have hstop : (findV1 f).start = (findV1 f).stop → f.take k = f := by
        intro he
        have : (findV1 f).stop = f.length := by
          unfold findV1; split
          · rfl
          · split <;> rfl
        apply List.take_of_length_le
        omega
      by_cases he : (findV1 f).start = (findV1 f).stop
      · rw [if_neg (by simp [he])]
        simp only [List.append_nil, List.flatten_append, List.flatten_cons, List.flatten_nil]
        rw [hcut, hstop he]
      · rw [if_pos he]
        simp only [List.flatten_append, List.flatten_cons, List.flatten_nil, List.append_nil]
        rw [hcut, List.take_append_drop]
  · right
    refine ⟨.streamFailure, ?_⟩
    unfold splitFile
    rw [SM.bind_ok (SM.setExceptions_good _ _ _ _), SM.bind_apply]
    generalize splitTags f.length ⟨f, 0, IoBits.all, IoBits.none⟩ = q at h ⊢
    obtain ⟨q1, q2⟩ := q
    simp only at h
    subst h
    rfl

/-- The second half of C08: a file of complete ID3v2 tags, a track and possibly an
ID3v1 tag is always split successfully. -/
def C08_success_claim : Prop :=
  ∀ (ts : List Bytes) (track v1 : Bytes), (∀ t ∈ ts, CompleteTag t) → NoHeader (track ++ v1) →
    (v1 = [] ∨ (v1.length = 355 ∧ v1.take 4 = TAGP) ∨ (v1.length = 128 ∧ v1.take 3 = TAG)) →
    ∃ ps, (splitFile (ts.flatten ++ (track ++ v1)).length
      ⟨ts.flatten ++ (track ++ v1), 0, IoBits.none, IoBits.none⟩).1 = .ok (some ps)

/-- **C08** (refuted half) A file that is a single ID3v2 tag whose last 128 bytes
begin "TAG": the ID3v1 probe finds a tag starting *inside* the ID3v2 tag, the
track length is negative and the command fails. -/
theorem C08_refuted : ¬ C08_success_claim := by
  intro h
  let t : Bytes := [0x49, 0x44, 0x33, 3, 0, 0, 0, 0, 1, 0] ++ ([0x54, 0x41, 0x47] ++
    List.replicate 125 0)
  have ht : CompleteTag t := by
    refine ⟨3, 0, 0, 128, ⟨0, 0, 1, 0, _, rfl, by decide, by decide, by decide, by decide⟩, rfl⟩
  obtain ⟨ps, hps⟩ := h [t] [] [] (by simpa using ht)
    (by rintro v r f n ⟨_, _, _, _, _, h, _⟩; simp at h) (.inl rfl)
  have : (splitFile ([t].flatten ++ ([] ++ [])).length
      ⟨[t].flatten ++ ([] ++ []), 0, IoBits.none, IoBits.none⟩).1 = .throw .other := by
    decide +kernel
  rw [this] at hps
  cases hps

/-- **C08** (partial) A file made of complete ID3v2 tags, a track that does not
begin with an ID3v2 header, and an ID3v1 tag is split into exactly those pieces,
provided the ID3v1 probe at the end of the file finds that ID3v1 tag and no other.
Missing: files whose last 128 or 355 bytes look like an ID3v1 tag by accident. -/
theorem C08_complete_partial (ts : List Bytes) (track v1 : Bytes) (m : IoBits) (fuel : Nat)
    (hts : ∀ t ∈ ts, CompleteTag t) (hr : NoHeader (track ++ v1)) (hf : ts.length ≤ fuel)
    (hv : (v1 = [] ∧ (¬ ∃ k, ExtAt (ts.flatten ++ (track ++ v1)) k) ∧
            ¬ ∃ k, StdAt (ts.flatten ++ (track ++ v1)) k) ∨
          (v1.length = 355 ∧ v1.take 4 = TAGP) ∨
          (v1.length = 128 ∧ v1.take 3 = TAG ∧
            ¬ ∃ k, ExtAt (ts.flatten ++ (track ++ v1)) k)) :
    (splitFile fuel ⟨ts.flatten ++ (track ++ v1), 0, m, IoBits.none⟩).1 =
      .ok (some (ts ++ [track] ++ if v1 = [] then [] else [v1])) := by
  rw [splitFile_of_tags ts _ hts hr fuel hf m]
  have hcut : ((ts.flatten ++ (track ++ v1)).take (ts.flatten ++ track).length).drop
      ts.flatten.length = track := by
    rw [← List.append_assoc, List.take_left, List.drop_left]
  have hrest : (ts.flatten ++ (track ++ v1)).drop (ts.flatten ++ track).length = v1 := by
    rw [← List.append_assoc, List.drop_left]
  have hlen : (ts.flatten ++ (track ++ v1)).length = (ts.flatten ++ track).length + v1.length := by
    simp; omega
  have hge : ts.flatten.length ≤ (ts.flatten ++ track).length := by simp
  rcases hv with ⟨rfl, h1, h2⟩ | ⟨h1, h2⟩ | ⟨h1, h2, h3⟩
  · simp only [findV1, h1, h2, if_false]
    have : (((ts.flatten ++ (track ++ [])).length : Nat) : Int).toNat = (ts.flatten ++ track).length := by
      rw [Int.toNat_natCast, List.append_nil]
    rw [this, hcut, if_neg (by simp; omega)]
    simp
  · have he : ∃ k, ExtAt (ts.flatten ++ (track ++ v1)) k := by
      refine ⟨_, ts.flatten ++ track, v1.drop 4, ?_, rfl, by rw [List.length_drop]; omega⟩
      rw [← h2]; simp
    simp only [findV1, he, if_true]
    have e : (((ts.flatten ++ (track ++ v1)).length : Nat) : Int) - 355 =
        ((ts.flatten ++ track).length : Nat) := by omega
    rw [e]
    simp only [Int.toNat_natCast]
    rw [hcut, hrest, if_neg (by omega), if_pos (by omega),
      if_neg (by intro h; simp [h] at h1)]
  · have he : ∃ k, StdAt (ts.flatten ++ (track ++ v1)) k := by
      refine ⟨_, ts.flatten ++ track, v1.drop 3, ?_, rfl, by rw [List.length_drop]; omega⟩
      rw [← h2]; simp
    simp only [findV1, he, h3, if_true, if_false]
    have e : (((ts.flatten ++ (track ++ v1)).length : Nat) : Int) - 128 =
        ((ts.flatten ++ track).length : Nat) := by omega
    rw [e]
    simp only [Int.toNat_natCast]
    rw [hcut, hrest, if_neg (by omega), if_pos (by omega),
      if_neg (by intro h; simp [h] at h1)]

/-- Two ID3v2 tags (sizes 1 and 0), a track and an ID3v1 tag. -/
example : (splitFile 200 ⟨[0x49, 0x44, 0x33, 3, 0, 0, 0, 0, 0, 1, 7] ++
      [0x49, 0x44, 0x33, 4, 0, 0, 0, 0, 0, 0] ++ [1, 2, 3] ++ (sampleStd 3).image, 0, IoBits.none,
      IoBits.none⟩).1 =
    .ok (some [[0x49, 0x44, 0x33, 3, 0, 0, 0, 0, 0, 1, 7], [0x49, 0x44, 0x33, 4, 0, 0, 0, 0, 0, 0],
      [1, 2, 3], (sampleStd 3).image]) := by decide +kernel
/-- A truncated tag makes the command fail. -/
example : (splitFile 20 ⟨[0x49, 0x44, 0x33, 3, 0, 0, 0, 0, 0, 9, 7], 0, IoBits.none,
    IoBits.none⟩).1 = .throw .streamFailure := by decide +kernel

end Scribbu.Props
