import Verif.Props.Locality
import Verif.Props.V1Locality
import Verif.Props.Split

/-! Property C199: splitting a file and reading the pieces gives what reading the file gives. -/

namespace Scribbu.Props
open Scribbu Scribbu.Spec Scribbu.V1Locality

theorem NoHeader.of_append {a b : Bytes} (h : NoHeader (a ++ b)) : NoHeader a :=
  fun v r f n hi => h v r f n (isHeader_append hi b)

theorem noHeader_tag {b : Bytes} (h : b.take 2 = [0x54, 0x41]) : NoHeader b := by
  rintro v r f n ⟨s0, s1, s2, s3, rest, rfl, -⟩
  simp at h

theorem oneByOne_append (read : Bytes → Res (List α)) (as bs : List Bytes) :
    oneByOne read (as ++ bs) = (oneByOne read as).bind fun ts => (oneByOne read bs).bind fun us => .ok (ts ++ us) := by
  induction as with
  | nil =>
    simp only [List.nil_append, oneByOne, Res.ok_bind]
    cases oneByOne read bs <;> rfl
  | cons a as ih =>
    simp only [List.cons_append, oneByOne, ih]
    cases read a with
    | ok x =>
      simp only [Res.ok_bind]
      cases oneByOne read as with
      | ok y =>
        simp only [Res.ok_bind]
        cases oneByOne read bs with
        | ok u => simp only [Res.ok_bind, List.append_assoc]
        | throw e => rfl
        | ub u => rfl
      | throw e => rfl
      | ub u => rfl
    | throw e => rfl
    | ub u => rfl

theorem oneByOne_silent (z : Zlib) {as bs : List Bytes} (h : ∀ b ∈ bs, NoHeader b) :
    oneByOne (Scheme.readTags z) (as ++ bs) = oneByOne (Scheme.readTags z) as := by
  have : oneByOne (Scheme.readTags z) bs = .ok [] := by
    induction bs with
    | nil => rfl
    | cons b bs ih =>
      rw [oneByOne, readTags_silent z (h b (by simp)), ih fun c hc => h c (by simp [hc])]
      rfl
  rw [oneByOne_append, this]
  cases oneByOne (Scheme.readTags z) as with
  | ok x => simp only [Res.ok_bind, List.append_nil]
  | throw e => rfl
  | ub u => rfl

/-- What a successful `split_file` has found. -/
theorem split_found {f : Bytes} {m : IoBits} {ps : List Bytes} (h : (splitFile f.length ⟨f, 0, m, IoBits.none⟩).1 = .ok (some ps)) :
    ∃ ts rest, f = ts.flatten ++ rest ∧ (∀ t ∈ ts, CompleteTag t) ∧ NoHeader rest ∧ ¬ (findV1 f).start < ts.flatten.length ∧
      ps = ts ++ [(f.take (findV1 f).start.toNat).drop ts.flatten.length] ++
        if (findV1 f).start ≠ (findV1 f).stop then [f.drop (findV1 f).start.toNat] else [] := by
  rcases splitTags_cases f.length f 0 (by omega) (by omega) with ⟨ts, rest, h1, h2, h3, h4⟩ | h5
  · have hs := splitFile_of_tags ts rest h2 h3 f.length h4 m
    rw [List.drop_zero] at h1
    rw [← h1] at hs
    simp only at hs
    rw [h] at hs
    by_cases hlow : (findV1 f).start < ts.flatten.length
    · rw [if_pos hlow] at hs
      cases hs
    · rw [if_neg hlow] at hs
      simp only [Res.ok.injEq, Option.some.injEq] at hs
      exact ⟨ts, rest, h1, h2, h3, hlow, hs⟩
  · unfold splitFile at h
    rw [SM.bind_ok (SM.setExceptions_good _ _ _ _)] at h
    rcases hx : splitTags f.length ⟨f, 0, IoBits.all, IoBits.none⟩ with ⟨x, s⟩
    rw [hx] at h5
    cases h5
    rw [SM.bind_throw hx] at h
    cases h

/-- **C199** The ID3v2 tags: if `scribbu split` succeeds, then reading the tags of each of the files it wrote, in order, gives the tags of
the file, or the failure of reading them. -/
theorem C199_tags (z : Zlib) (f : Bytes) (m : IoBits) (ps : List Bytes) (h : (splitFile f.length ⟨f, 0, m, IoBits.none⟩).1 = .ok (some ps)) :
    Scheme.readTags z f = oneByOne (Scheme.readTags z) ps := by
  obtain ⟨ts, rest, h1, h2, h3, h4, h5⟩ := split_found h
  have hsplit : f.drop ts.flatten.length = rest := by
    rw [h1, List.drop_left]
  have hk : (findV1 f).start = ((findV1 f).start.toNat : Int) := by omega
  generalize (findV1 f).start.toNat = k at hk h5
  rw [h5, List.append_assoc, oneByOne_silent]
  · have := C197_file z ts h2 rest h3
    rw [← h1] at this
    exact this
  · intro b hb
    simp only [List.mem_append, List.mem_singleton] at hb
    rcases hb with rfl | hb
    · rw [List.drop_take, hsplit]
      apply NoHeader.of_append (b := rest.drop (k - ts.flatten.length))
      rw [List.take_append_drop]
      exact h3
    · split at hb
      · rename_i hne
        simp only [List.mem_singleton] at hb
        subst hb
        apply noHeader_tag
        unfold findV1 at hk hne
        split at hk
        · rename_i he
          obtain ⟨he1, he2⟩ := (extAt_iff f).1 he
          simp only at hk
          rw [show k = f.length - 355 by omega, show (2 : Nat) = min 2 4 from rfl, ← List.take_take, he2]
          rfl
        · split at hk
          · rename_i hs
            obtain ⟨hs1, hs2⟩ := (stdAt_iff f).1 hs
            simp only at hk
            rw [show k = f.length - 128 by omega, show (2 : Nat) = min 2 3 from rfl, ← List.take_take, hs2]
            rfl
          · rename_i he hs
            rw [if_neg he, if_neg hs] at hne
            simp at hne
      · simp at hb

/-- **C199** The ID3v1 tag: it is that of the last of the files `scribbu split` wrote, or the same failure. -/
theorem C199_last (f : Bytes) (m : IoBits) (ps : List Bytes) (h : (splitFile f.length ⟨f, 0, m, IoBits.none⟩).1 = .ok (some ps)) (p p' : Nat) (m1 m2 : IoBits) :
    ∃ qs last, ps = qs ++ [last] ∧ (processId3v1 ⟨f, p, m1, IoBits.none⟩).1 = (processId3v1 ⟨last, p', m2, IoBits.none⟩).1 := by
  obtain ⟨ts, rest, h1, h2, h3, h4, h5⟩ := split_found h
  have hsplit : f.drop ts.flatten.length = rest := by
    rw [h1, List.drop_left]
  have hlen : ts.flatten.length + rest.length = f.length := by rw [h1]; simp
  rw [process_fst]
  unfold findV1 at h4 h5
  simp only [extAt_iff, stdAt_iff] at h4 h5
  by_cases he : 355 ≤ f.length ∧ (f.drop (f.length - 355)).take 4 = TAGP
  · simp only [if_pos he] at h4 h5 ⊢
    rw [if_pos (by omega)] at h5
    refine ⟨_, _, h5, ?_⟩
    have e : ((f.length : Int) - 355).toNat = f.length - 355 := by omega
    rw [e, process_fst]
    have l : (f.drop (f.length - 355)).length = 355 := by rw [List.length_drop]; omega
    rw [l, Nat.sub_self, List.drop_zero, if_pos ⟨Nat.le_refl _, he.2⟩]
  · simp only [if_neg he] at h4 h5 ⊢
    by_cases hs : 128 ≤ f.length ∧ (f.drop (f.length - 128)).take 3 = TAG
    · simp only [if_pos hs] at h4 h5 ⊢
      rw [if_pos (by omega)] at h5
      refine ⟨_, _, h5, ?_⟩
      have e : ((f.length : Int) - 128).toNat = f.length - 128 := by omega
      rw [e, process_fst]
      have l : (f.drop (f.length - 128)).length = 128 := by rw [List.length_drop]; omega
      rw [l, if_neg (by omega), Nat.sub_self, List.drop_zero, if_pos ⟨Nat.le_refl _, hs.2⟩]
    · simp only [if_neg hs] at h4 h5 ⊢
      simp only [ne_eq, not_true_eq_false, if_false, List.append_nil] at h5
      refine ⟨_, _, h5, ?_⟩
      rw [show ((f.length : Int)).toNat = f.length by omega, List.take_length, hsplit, process_fst]
      have d : ∀ k, k ≤ rest.length → rest.drop (rest.length - k) = f.drop (f.length - k) := by
        intro k hk
        rw [← hsplit, List.drop_drop, List.length_drop]
        congr 1
        omega
      rw [if_neg, if_neg]
      · rintro ⟨a, b⟩
        exact hs ⟨by omega, by rw [← d 128 a]; exact b⟩
      · rintro ⟨a, b⟩
        exact he ⟨by omega, by rw [← d 355 a]; exact b⟩

/-- Two tags, audio and an ID3v1 tag: they are split, and the ID3v1 tag and the two tags are read from the pieces as from the file. -/
example : ∃ ps, (splitFile (aTag23 ++ aTag22 ++ [0xff, 0xfb] ++ (TAG ++ List.replicate 125 0x41)).length
      ⟨aTag23 ++ aTag22 ++ [0xff, 0xfb] ++ (TAG ++ List.replicate 125 0x41), 0, IoBits.all, IoBits.none⟩).1 = .ok (some ps) ∧ ps.length = 4 ∧
    ((Scheme.readTags zId (aTag23 ++ aTag22 ++ [0xff, 0xfb] ++ (TAG ++ List.replicate 125 0x41))).bind fun ts => .ok ts.length) = .ok 2 ∧
    ∃ qs last t, ps = qs ++ [last] ∧ (processId3v1 ⟨last, 0, IoBits.all, IoBits.none⟩).1 = .ok (some t) ∧ t.artist = List.replicate 30 0x41 := by
  have h : (splitFile (aTag23 ++ aTag22 ++ [0xff, 0xfb] ++ (TAG ++ List.replicate 125 0x41)).length
      ⟨aTag23 ++ aTag22 ++ [0xff, 0xfb] ++ (TAG ++ List.replicate 125 0x41), 0, IoBits.all, IoBits.none⟩).1 =
      .ok (some [aTag23, aTag22, [0xff, 0xfb], TAG ++ List.replicate 125 0x41]) := by decide +kernel
  refine ⟨_, h, rfl, ?_, ?_⟩
  · rw [C199_tags zId _ _ _ h]
    decide +kernel
  · obtain ⟨qs, last, h1, h2⟩ := C199_last _ _ _ h 0 0 IoBits.all IoBits.all
    have h3 : ((processId3v1 ⟨aTag23 ++ aTag22 ++ [0xff, 0xfb] ++ (TAG ++ List.replicate 125 0x41), 0, IoBits.all, IoBits.none⟩).1.bind fun o =>
      .ok (o.map (·.artist))) = .ok (some (List.replicate 30 0x41)) := by decide +kernel
    rw [Res.bind_eq_ok] at h3
    obtain ⟨o, h3, k⟩ := h3
    simp only [Res.ok.injEq, Option.map_eq_some_iff] at k
    obtain ⟨t, rfl, k⟩ := k
    exact ⟨qs, last, t, h1, h2 ▸ h3, k⟩

end Scribbu.Props
