import Verif.Model.Split
import Verif.Proofs.Header
import Verif.Proofs.Id3v1Find

namespace Scribbu
open Spec

/-- One complete ID3v2 tag: a header and exactly as many bytes as it announces. -/
def Spec.CompleteTag (t : Bytes) : Prop :=
  ∃ v r f n, IsHeader t v r f n ∧ t.length = 10 + n

/-- No ID3v2 header here. -/
def Spec.NoHeader (b : Bytes) : Prop := ∀ v r f n, ¬ IsHeader b v r f n

theorem isHeader_append {t : Bytes} {v r f : Byte} {n : Nat} (h : IsHeader t v r f n) (b : Bytes) :
    IsHeader (t ++ b) v r f n := by
  obtain ⟨s0, s1, s2, s3, rest, rfl, h⟩ := h
  exact ⟨s0, s1, s2, s3, rest ++ b, by simp, h⟩

theorem isHeader_take {t : Bytes} {v r f : Byte} {n k : Nat} (h : IsHeader t v r f n)
    (hk : 10 ≤ k) : IsHeader (t.take k) v r f n := by
  obtain ⟨s0, s1, s2, s3, rest, rfl, h⟩ := h
  refine ⟨s0, s1, s2, s3, rest.take (k - 10), ?_, h⟩
  rw [List.take_append, List.take_of_length_le (by simpa using hk)]
  rfl

theorem lookingAt_none {d : Bytes} {p : Nat} (m : IoBits) (h : NoHeader (d.drop p)) (b : Bool) :
    lookingAtId3v2 b ⟨d, p, m, IoBits.none⟩ = (.ok none, ⟨d, p, m, IoBits.none⟩) := by
  obtain ⟨o, ho, hs⟩ := lookingAt_spec d p m b
  cases o with
  | none => simpa using ho
  | some i => exact absurd ((hs i.version i.revision i.flags i.size).1 rfl) (h _ _ _ _)

theorem lookingAt_some {d : Bytes} {p : Nat} {v r f : Byte} {n : Nat} (m : IoBits)
    (h : IsHeader (d.drop p) v r f n) :
    lookingAtId3v2 true ⟨d, p, m, IoBits.none⟩ = (.ok (some ⟨v, r, f, n⟩), ⟨d, p, m, IoBits.none⟩) := by
  obtain ⟨o, ho, hs⟩ := lookingAt_spec d p m true
  have := (hs v r f n).2 h
  subst this
  simpa using ho

theorem splitTags_none {d : Bytes} {p : Nat} {fuel : Nat} (h : NoHeader (d.drop p)) :
    splitTags fuel ⟨d, p, IoBits.all, IoBits.none⟩ =
      (.ok (some []), ⟨d, p, IoBits.all, IoBits.none⟩) := by
  cases fuel <;> unfold splitTags <;> rw [SM.bind_ok (lookingAt_none _ h true)] <;> rfl

theorem splitTags_complete (ts : List Bytes) (rest : Bytes) (hts : ∀ t ∈ ts, CompleteTag t)
    (hr : NoHeader rest) (fuel : Nat) (hf : ts.length ≤ fuel) (pre : Bytes) :
    splitTags fuel ⟨pre ++ ts.flatten ++ rest, pre.length, IoBits.all, IoBits.none⟩ =
      (.ok (some ts), ⟨pre ++ ts.flatten ++ rest, pre.length + ts.flatten.length, IoBits.all,
        IoBits.none⟩) := by
  induction ts generalizing fuel pre with
  | nil =>
    rw [splitTags_none (by simpa using hr)]
    simp
  | cons t ts ih =>
    cases fuel with
    | zero => simp at hf
    | succ fuel =>
      obtain ⟨v, r, f, n, hh, hl⟩ := hts t (by simp)
      have hd : pre ++ (t :: ts).flatten ++ rest = (pre ++ t) ++ ts.flatten ++ rest := by simp
      have hdrop : (pre ++ (t :: ts).flatten ++ rest).drop pre.length = t ++ (ts.flatten ++ rest) := by
        rw [List.append_assoc, List.drop_left]; simp
      have hh' : IsHeader ((pre ++ (t :: ts).flatten ++ rest).drop pre.length) v r f n := by
        rw [hdrop]; exact isHeader_append hh _
      unfold splitTags
      rw [SM.bind_ok (lookingAt_some _ hh')]
      have hread := SM.read_full (10 + n) (pre ++ (t :: ts).flatten ++ rest) pre.length IoBits.all
        (by simp [hl])
      rw [hdrop, ← hl, List.take_left] at hread
      have hx : xferBytes (10 + (n : Int)) ⟨pre ++ (t :: ts).flatten ++ rest, pre.length, IoBits.all,
          IoBits.none⟩ = (.ok t, ⟨pre ++ (t :: ts).flatten ++ rest, pre.length + t.length,
            IoBits.all, IoBits.none⟩) := by
        unfold xferBytes
        rw [if_neg (by omega), show ((10 + (n : Int)).toNat) = t.length by omega]
        exact hread
      dsimp only
      rw [SM.bind_ok hx]
      have := ih (fun x hx => hts x (by simp [hx])) fuel (by simpa using hf) (pre ++ t)
      rw [← hd, List.length_append] at this
      rw [SM.bind_ok this]
      simp [Nat.add_assoc]

theorem splitTags_cases (fuel : Nat) : ∀ (d : Bytes) (p : Nat), p ≤ d.length →
    d.length < p + 10 * (fuel + 1) →
    (∃ ts : List Bytes, ∃ rest, d.drop p = ts.flatten ++ rest ∧ (∀ t ∈ ts, CompleteTag t) ∧
      NoHeader rest ∧ ts.length ≤ fuel) ∨
    (splitTags fuel ⟨d, p, IoBits.all, IoBits.none⟩).1 = .throw .streamFailure := by
  intro d p hp hlen
  induction fuel generalizing p with
  | zero =>
    left
    refine ⟨[], d.drop p, by simp, by simp, ?_, by simp⟩
    intro v r f n h
    have := isHeader_length h
    rw [List.length_drop] at this
    omega
  | succ fuel ih =>
    by_cases hh : NoHeader (d.drop p)
    · left
      exact ⟨[], d.drop p, by simp, by simp, hh, by simp⟩
    · have : ∃ v r f n, IsHeader (d.drop p) v r f n := by
        by_cases hx : ∃ v r f n, IsHeader (d.drop p) v r f n
        · exact hx
        · exact absurd (fun v r f n h => hx ⟨v, r, f, n, h⟩) hh
      obtain ⟨v, r, f, n, h⟩ := this
      unfold splitTags
      rw [SM.bind_ok (lookingAt_some _ h)]
      dsimp only
      have hx : xferBytes (10 + (n : Int)) = SM.read (10 + n) := by
        unfold xferBytes
        rw [if_neg (by omega), show ((10 + (n : Int)).toNat) = 10 + n by omega]
      rw [hx]
      by_cases hc : p + (10 + n) ≤ d.length
      · rw [SM.bind_ok (SM.read_full _ _ _ _ hc)]
        rcases ih (p + (10 + n)) hc (by omega) with ⟨ts, rest, h1, h2, h3, h4⟩ | h1
        · left
          refine ⟨(d.drop p).take (10 + n) :: ts, rest, ?_, ?_, h3, by simpa using h4⟩
          · rw [List.flatten_cons, List.append_assoc, ← h1, ← List.drop_drop,
              List.take_append_drop]
          · intro t ht
            rcases List.mem_cons.1 ht with rfl | ht
            · refine ⟨v, r, f, n, isHeader_take h (by omega), ?_⟩
              rw [List.length_take, List.length_drop]; omega
            · exact h2 t ht
        · right
          rw [SM.bind_apply]
          generalize splitTags fuel ⟨d, p + (10 + n), IoBits.all, IoBits.none⟩ = q at h1 ⊢
          obtain ⟨q1, q2⟩ := q
          simp only at h1
          subst h1
          rfl
      · right
        obtain ⟨p', h1⟩ := SM.read_short (10 + n) d p IoBits.all (by omega) (by omega) rfl
        rw [SM.bind_throw h1]

theorem noHeader_rest {pre ts rest : Bytes} : (pre ++ ts ++ rest).drop (pre.length + ts.length) = rest := by
  rw [← List.length_append, List.drop_left]

/-- The tail of `split_file` once the ID3v2 tags are done. -/
theorem splitFile_of_tags (ts : List Bytes) (rest : Bytes) (hts : ∀ t ∈ ts, CompleteTag t)
    (hr : NoHeader rest) (fuel : Nat) (hf : ts.length ≤ fuel) (m : IoBits) :
    (splitFile fuel ⟨ts.flatten ++ rest, 0, m, IoBits.none⟩).1 =
      (let f := ts.flatten ++ rest
       let i := findV1 f
       if i.start < ts.flatten.length then .throw .other
       else .ok (some (ts ++ [(f.take i.start.toNat).drop ts.flatten.length] ++
         if i.start ≠ i.stop then [f.drop i.start.toNat] else []))) := by
  have hc := splitTags_complete ts rest hts hr fuel hf []
  simp only [List.nil_append, List.length_nil, Nat.zero_add] at hc
  unfold splitFile
  rw [SM.bind_ok (SM.setExceptions_good _ _ _ _), SM.bind_ok hc]
  dsimp only
  rw [SM.bind_ok (endsInId3v1_spec _ _ _), SM.bind_ok (SM.tellg_good _ _ _)]
  generalize hf' : ts.flatten ++ rest = f
  have hlt : ts.flatten.length ≤ f.length := by rw [← hf']; simp
  have hi : ∃ k : Nat, (findV1 f).start = k ∧ k ≤ f.length ∧ (findV1 f).stop = f.length := by
    unfold findV1
    split
    · rename_i h; have := ((extAt_iff f).1 h).1
      exact ⟨f.length - 355, by simp only; omega, by omega, rfl⟩
    · split
      · rename_i h; have := ((stdAt_iff f).1 h).1
        exact ⟨f.length - 128, by simp only; omega, by omega, rfl⟩
      · exact ⟨f.length, rfl, by omega, rfl⟩
  obtain ⟨k, hk, hkl, hstop⟩ := hi
  rw [hk, hstop]
  by_cases hlow : k < ts.flatten.length
  · rw [if_pos (by omega)]
    unfold xferBytes
    rw [if_pos (by omega)]
    rfl
  · rw [if_neg (by omega)]
    have e1 : xferBytes ((k : Int) - (ts.flatten.length : Int)) =
        SM.read (k - ts.flatten.length) := by
      unfold xferBytes
      rw [if_neg (by omega), show (((k : Int) - (ts.flatten.length : Int)).toNat) =
        k - ts.flatten.length by omega]
    have e2 : xferBytes ((f.length : Int) - (k : Int)) = SM.read (f.length - k) := by
      unfold xferBytes
      rw [if_neg (by omega), show (((f.length : Int) - (k : Int)).toNat) = f.length - k by omega]
    rw [e1, SM.bind_ok (SM.read_full _ _ _ _ (by omega))]
    have e3 : (f.drop ts.flatten.length).take (k - ts.flatten.length) =
        (f.take k).drop ts.flatten.length := by
      rw [List.drop_take]
    rw [e3]
    by_cases hne : k = f.length
    · rw [if_neg (by rw [hne]; simp), if_neg (by rw [hne]; simp)]
      simp
    · rw [if_pos (by omega), if_pos (by omega), e2,
        show ts.flatten.length + (k - ts.flatten.length) = k by omega,
        SM.bind_ok (SM.read_full _ _ _ _ (by omega))]
      rw [List.take_of_length_le (l := f.drop k) (by rw [List.length_drop]; omega)]
      simp

end Scribbu
