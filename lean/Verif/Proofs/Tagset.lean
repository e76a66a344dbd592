import Verif.Model.Tagset
import Verif.Spec.Tagset
import Verif.Proofs.Split

namespace Scribbu
namespace Tagset
open Spec

variable {τ : Type} {I : TagI τ}

/-! ### Passing over the tags of a file -/

theorem lookingAt_some_false {d : Bytes} {p : Nat} {v r f : Byte} {n : Nat} (m : IoBits)
    (h : IsHeader (d.drop p) v r f n) :
    lookingAtId3v2 false ⟨d, p, m, IoBits.none⟩ = (.ok (some ⟨v, r, f, n⟩), ⟨d, p + 10, m, IoBits.none⟩) := by
  obtain ⟨o, ho, hs⟩ := lookingAt_spec d p m false
  have := (hs v r f n).2 h
  subst this
  simpa using ho

theorem seekCur_nat (n p : Nat) (d : Bytes) (m : IoBits) :
    SM.seekCur (n : Int) ⟨d, p, m, IoBits.none⟩ = (.ok (), ⟨d, p + n, m, IoBits.none⟩) := by
  unfold SM.seekCur
  rw [SM.seekAbs_good d p m (by simp only; omega)]
  have : ((p : Int) + n).toNat = p + n := by omega
  simp [this]

theorem sizeLoop_tags (olds : List Bytes) (rest : Bytes) (ho : ∀ t ∈ olds, CompleteTag t) (hr : NoHeader rest)
    (fuel : Nat) (hf : olds.length < fuel) (pre : Bytes) (m : IoBits) :
    sizeLoop fuel ⟨pre ++ olds.flatten ++ rest, pre.length, m, IoBits.none⟩ =
      (.ok olds.flatten.length, ⟨pre ++ olds.flatten ++ rest, (pre ++ olds.flatten).length, m, IoBits.none⟩) := by
  induction olds generalizing fuel pre with
  | nil =>
    obtain ⟨fuel, rfl⟩ : ∃ k, fuel = k + 1 := ⟨fuel - 1, by simp at hf; omega⟩
    unfold sizeLoop
    rw [SM.bind_ok (lookingAt_none m (by simpa using hr) false)]
    simp
  | cons t ts ih =>
    obtain ⟨fuel, rfl⟩ : ∃ k, fuel = k + 1 := ⟨fuel - 1, by simp at hf; omega⟩
    obtain ⟨v, r, f, n, hh, hl⟩ := ho t (by simp)
    have hd : pre ++ (t :: ts).flatten ++ rest = (pre ++ t) ++ ts.flatten ++ rest := by simp
    have hdrop : (pre ++ (t :: ts).flatten ++ rest).drop pre.length = t ++ (ts.flatten ++ rest) := by
      rw [List.append_assoc, List.drop_left]; simp
    have hh' : IsHeader ((pre ++ (t :: ts).flatten ++ rest).drop pre.length) v r f n := by
      rw [hdrop]; exact isHeader_append hh _
    unfold sizeLoop
    rw [SM.bind_ok (lookingAt_some_false m hh')]
    dsimp only
    rw [SM.bind_ok (seekCur_nat n _ _ m)]
    have := ih (fun x hx => ho x (by simp [hx])) fuel (by simpa using hf) (pre ++ t)
    rw [← hd, show (pre ++ t).length = pre.length + 10 + n by rw [List.length_append]; omega] at this
    rw [SM.bind_ok this]
    simp [hl, Nat.add_assoc]

theorem tags_length {olds : List Bytes} (ho : ∀ t ∈ olds, CompleteTag t) : olds.length ≤ olds.flatten.length := by
  induction olds with
  | nil => simp
  | cons t ts ih =>
    have := ih (fun x hx => ho x (by simp [hx]))
    obtain ⟨v, r, f, n, hh, hl⟩ := ho t (by simp)
    simp only [List.length_cons, List.flatten_cons, List.length_append]
    omega

theorem tagsetSize_tags (olds : List Bytes) (rest : Bytes) (ho : ∀ t ∈ olds, CompleteTag t) (hr : NoHeader rest) :
    tagsetSize (some (olds.flatten ++ rest)) = .ok olds.flatten.length := by
  have := sizeLoop_tags olds rest ho hr ((olds.flatten ++ rest).length + 1)
    (by have := tags_length ho; rw [List.length_append]; omega) [] IoBits.all
  simp only [List.nil_append, List.length_nil] at this
  simp only [tagsetSize, this]

theorem skipLoop_tags (olds : List Bytes) (rest : Bytes) (ho : ∀ t ∈ olds, CompleteTag t) (hr : NoHeader rest)
    (fuel : Nat) (hf : olds.length < fuel) (pre : Bytes) (m : IoBits) :
    skipLoop fuel ⟨pre ++ olds.flatten ++ rest, pre.length, m, IoBits.none⟩ =
      (.ok (), ⟨pre ++ olds.flatten ++ rest, (pre ++ olds.flatten).length, m, IoBits.none⟩) := by
  induction olds generalizing fuel pre with
  | nil =>
    obtain ⟨fuel, rfl⟩ : ∃ k, fuel = k + 1 := ⟨fuel - 1, by simp at hf; omega⟩
    unfold skipLoop
    rw [SM.bind_ok (lookingAt_none m (by simpa using hr) true)]
    simp
  | cons t ts ih =>
    obtain ⟨fuel, rfl⟩ : ∃ k, fuel = k + 1 := ⟨fuel - 1, by simp at hf; omega⟩
    obtain ⟨v, r, f, n, hh, hl⟩ := ho t (by simp)
    have hd : pre ++ (t :: ts).flatten ++ rest = (pre ++ t) ++ ts.flatten ++ rest := by simp
    have hdrop : (pre ++ (t :: ts).flatten ++ rest).drop pre.length = t ++ (ts.flatten ++ rest) := by
      rw [List.append_assoc, List.drop_left]; simp
    have hh' : IsHeader ((pre ++ (t :: ts).flatten ++ rest).drop pre.length) v r f n := by
      rw [hdrop]; exact isHeader_append hh _
    unfold skipLoop
    rw [SM.bind_ok (lookingAt_some m hh')]
    dsimp only
    rw [show (10 + (n : Int)) = ((10 + n : Nat) : Int) by omega, SM.bind_ok (seekCur_nat (10 + n) _ _ m)]
    have := ih (fun x hx => ho x (by simp [hx])) fuel (by simpa using hf) (pre ++ t)
    rw [← hd, show (pre ++ t).length = pre.length + (10 + n) by rw [List.length_append]; omega] at this
    rw [this]
    simp

theorem readRest_tags (olds : List Bytes) (rest : Bytes) (ho : ∀ t ∈ olds, CompleteTag t) (hr : NoHeader rest)
    (fuel : Nat) (hf : olds.length < fuel) :
    (readRest fuel ⟨olds.flatten ++ rest, 0, IoBits.all, IoBits.none⟩).1 = .ok rest := by
  have h1 := skipLoop_tags olds rest ho hr fuel hf [] IoBits.all
  simp only [List.nil_append, List.length_nil] at h1
  unfold readRest
  rw [SM.bind_ok h1, SM.bind_ok (SM.tellg_good _ _ _), SM.bind_ok (SM.seekEnd_zero _ _ _), SM.bind_ok (SM.tellg_good _ _ _),
    SM.bind_ok (SM.seekBeg_nat _ _ _ _)]
  have e : ((olds.flatten ++ rest).length : Int) - (olds.flatten.length : Int) = (rest.length : Int) := by
    rw [List.length_append]; omega
  rw [e]
  by_cases h : rest = []
  · subst h; simp
  · have : 0 < rest.length := List.length_pos_iff.2 h
    rw [if_neg (by omega), if_neg (by omega), Int.toNat_natCast, SM.read_full _ _ _ _ (by simp)]
    simp

theorem noHeader_nil : NoHeader [] := by
  rintro v r f n ⟨_, _, _, _, _, h, _⟩
  simp at h

theorem skipLoop_append (olds : List Bytes) (d rest : Bytes) (ho : ∀ t ∈ olds, CompleteTag t) (fuel k : Nat)
    (hf : fuel = olds.length + k) (pre : Bytes) (m : IoBits) (hd : d = pre ++ olds.flatten ++ rest) :
    skipLoop fuel ⟨d, pre.length, m, IoBits.none⟩ = skipLoop k ⟨d, (pre ++ olds.flatten).length, m, IoBits.none⟩ := by
  induction olds generalizing fuel pre with
  | nil => simp at hf; subst hf; simp
  | cons t ts ih =>
    obtain ⟨fuel, rfl⟩ : ∃ k, fuel = k + 1 := ⟨fuel - 1, by simp at hf; omega⟩
    obtain ⟨v, r, f, n, hh, hl⟩ := ho t (by simp)
    have hdrop : d.drop pre.length = t ++ (ts.flatten ++ rest) := by
      rw [hd, List.append_assoc, List.drop_left]; simp
    have hh' : IsHeader (d.drop pre.length) v r f n := by
      rw [hdrop]; exact isHeader_append hh _
    conv => lhs; unfold skipLoop
    rw [SM.bind_ok (lookingAt_some m hh')]
    dsimp only
    rw [show (10 + (n : Int)) = ((10 + n : Nat) : Int) by omega, SM.bind_ok (seekCur_nat (10 + n) _ _ m)]
    have := ih (fun x hx => ho x (by simp [hx])) fuel (by simp at hf; omega) (pre ++ t) (by rw [hd]; simp)
    rw [show (pre ++ t).length = pre.length + (10 + n) by rw [List.length_append]; omega] at this
    rw [this]
    simp

/-- The last tag claims to be larger than what is left of the file. -/
theorem readRest_truncated (olds : List Bytes) (rest : Bytes) (ho : ∀ t ∈ olds, CompleteTag t) {v r f : Byte} {n : Nat}
    (hh : IsHeader rest v r f n) (hl : rest.length < 10 + n) (fuel : Nat) (hf : olds.length + 1 < fuel) :
    (readRest fuel ⟨olds.flatten ++ rest, 0, IoBits.all, IoBits.none⟩).1 = .throw .other := by
  obtain ⟨k, hk⟩ : ∃ k, fuel = olds.length + (k + 2) := ⟨fuel - olds.length - 2, by omega⟩
  have h1 := skipLoop_append olds (olds.flatten ++ rest) rest ho fuel (k + 2) hk [] IoBits.all (by simp)
  have hdrop : (olds.flatten ++ rest).drop olds.flatten.length = rest := by simp
  have h2 : skipLoop (k + 2) ⟨olds.flatten ++ rest, olds.flatten.length, IoBits.all, IoBits.none⟩ =
      (.ok (), ⟨olds.flatten ++ rest, olds.flatten.length + (10 + n), IoBits.all, IoBits.none⟩) := by
    unfold skipLoop
    rw [SM.bind_ok (lookingAt_some IoBits.all (by rw [hdrop]; exact hh))]
    dsimp only
    rw [show (10 + (n : Int)) = ((10 + n : Nat) : Int) by omega, SM.bind_ok (seekCur_nat (10 + n) _ _ _)]
    unfold skipLoop
    rw [SM.bind_ok (lookingAt_none _ (by
      rw [List.drop_eq_nil_of_le (by rw [List.length_append]; omega)]
      exact noHeader_nil) true)]
    rfl
  simp only [List.nil_append, List.length_nil] at h1
  rw [h2] at h1
  unfold readRest
  rw [SM.bind_ok h1, SM.bind_ok (SM.tellg_good _ _ _), SM.bind_ok (SM.seekEnd_zero _ _ _), SM.bind_ok (SM.tellg_good _ _ _),
    SM.bind_ok (SM.seekBeg_nat _ _ _ _)]
  have : ((olds.flatten ++ rest).length : Int) - ((olds.flatten.length + (10 + n) : Nat) : Int) < 0 := by
    rw [List.length_append]; omega
  rw [if_neg (by omega), if_pos this]
  rfl

/-! ### Adjusting the padding -/

/-- The paddings of the tags. -/
def Pads (I : TagI τ) : List τ → List Nat → Prop := Pairs fun t p => I.padding t = .ok p

/-- The tags with new paddings. -/
def setPads (I : TagI τ) (ts : List τ) (ps : List Nat) : List τ := List.zipWith I.setPadding ts ps

theorem Pads.length {ts : List τ} {ps : List Nat} (h : Pads I ts ps) : ts.length = ps.length := by
  unfold Pads at h
  induction h with
  | nil => rfl
  | cons _ _ ih => simp [ih]

theorem adjustRest_ok {ts : List τ} {ps : List Nat} (h : Pads I ts ps) (adj : Int)
    (hf : ∀ p ∈ ps, 0 ≤ (p : Int) + adj) (hu : ∀ p ∈ ps, (p : Int) + adj < 2 ^ 64) :
    adjustRest I adj ts = (setPads I ts (ps.map fun (p : Nat) => ((p : Int) + adj).toNat), .ok ()) := by
  unfold Pads at h
  induction h with
  | nil => rfl
  | @cons t p ts ps h1 _ ih =>
    have a1 := hf p (by simp)
    have a2 := hu p (by simp)
    simp only [adjustRest, h1]
    rw [if_neg (by omega), ih (fun q hq => hf q (by simp [hq])) (fun q hq => hu q (by simp [hq])),
      Int.emod_eq_of_lt a1 a2]
    rfl

/-- Which tags have been given another padding when the adjustment is refused. -/
theorem adjustRest_throw {ts : List τ} {ps : List Nat} (h : Pads I ts ps) (adj : Int)
    (hf : ¬ ∀ p ∈ ps, 0 ≤ (p : Int) + adj) (hu : ∀ p ∈ ps, (p : Int) + adj < 2 ^ 64) :
    ∃ k : Nat, k < ts.length ∧ adjustRest I adj ts =
      (setPads I (ts.take k) ((ps.take k).map fun (p : Nat) => ((p : Int) + adj).toNat) ++ ts.drop k, .throw .tagsetRequest) := by
  unfold Pads at h
  induction h with
  | nil => simp at hf
  | @cons t p ts ps h1 _ ih =>
    have a2 := hu p (by simp)
    simp only [adjustRest, h1]
    by_cases a1 : 0 ≤ (p : Int) + adj
    · obtain ⟨k, hk, e⟩ := ih (by
          intro hx; apply hf; intro q hq
          rcases List.mem_cons.1 hq with rfl | hq
          · exact a1
          · exact hx q hq) (fun q hq => hu q (by simp [hq]))
      refine ⟨k + 1, by simpa using hk, ?_⟩
      rw [if_neg (by omega), e, Int.emod_eq_of_lt a1 a2]
      rfl
    · exact ⟨0, by simp, by rw [if_pos (by omega)]; rfl⟩

theorem tdiv_facts (total : Int) (n : Nat) (h : 0 < n) :
    let adj := total.tdiv n
    let mu := total.tmod n
    adj * n + mu = total ∧ (0 ≤ total → 0 ≤ adj ∧ 0 ≤ mu) ∧ (total ≤ 0 → adj ≤ 0 ∧ mu ≤ 0) ∧ -(n : Int) < mu ∧ mu < n := by
  have e : total.tdiv n * n + total.tmod n = total := by
    have := Int.tmod_add_mul_tdiv total n
    rw [Int.mul_comm] at this
    omega
  refine ⟨e, fun h0 => ⟨Int.tdiv_nonneg h0 (by omega), Int.tmod_nonneg _ h0⟩, fun h0 => ?_, ?_, ?_⟩
  · obtain ⟨k, hk⟩ : ∃ k : Nat, total = -(k : Int) := ⟨total.natAbs, by omega⟩
    subst hk
    rw [Int.neg_tdiv, Int.neg_tmod]
    have h1 : (0 : Int) ≤ (k : Int).tdiv n := Int.tdiv_nonneg (by omega) (by omega)
    have h2 : (0 : Int) ≤ (k : Int).tmod n := Int.tmod_nonneg _ (by omega)
    omega
  · rcases Int.lt_or_le total 0 with h0 | h0
    · obtain ⟨k, hk⟩ : ∃ k : Nat, total = -(k : Int) := ⟨total.natAbs, by omega⟩
      subst hk
      rw [Int.neg_tmod]
      have := Int.tmod_lt_of_pos (k : Int) (show (0 : Int) < n by omega)
      omega
    · have := Int.tmod_nonneg (n : Int) h0
      omega
  · exact Int.tmod_lt_of_pos _ (by omega)

theorem sum_add (ps : List Nat) (adj : Int) (hf : ∀ p ∈ ps, 0 ≤ (p : Int) + adj) :
    (((ps.map fun (p : Nat) => ((p : Int) + adj).toNat).sum : Nat) : Int) = (ps.sum : Int) + adj * ps.length := by
  induction ps with
  | nil => simp
  | cons p ps ih =>
    have := ih (fun q hq => hf q (by simp [hq]))
    have h1 := hf p (by simp)
    simp only [List.map_cons, List.sum_cons, List.length_cons]
    rw [Int.natCast_add, this, Int.natCast_add, Int.natCast_add, Int.mul_add]
    omega

/-- `adjust_padding_to` as a function of the paddings. -/
theorem adjust_cases {t : τ} {ts : List τ} {p : Nat} {ps : List Nat} (h : Pads I (t :: ts) (p :: ps)) (cbNew cbCurr : Nat)
    (hu : ∀ q ∈ p :: ps, q < 2 ^ 64 ∧ q + cbNew < 2 ^ 64 + cbCurr)
    (hw : cbCurr < cbNew + (ts.length + 1) → cbCurr ≤ cbNew + p) :
    let adj := ((cbNew : Int) - cbCurr).tdiv ((ts.length + 1 : Nat) : Int)
    let mu := ((cbNew : Int) - cbCurr).tmod ((ts.length + 1 : Nat) : Int)
    ((0 ≤ (p : Int) + adj + mu ∧ ∀ q ∈ ps, 0 ≤ (q : Int) + adj) →
      ∃ qs, adjustPaddingTo I (t :: ts) cbNew cbCurr = (setPads I (t :: ts) qs, .ok ()) ∧ qs.length = ts.length + 1 ∧
        qs.sum + cbCurr = (p :: ps).sum + cbNew) ∧
    (¬ (0 ≤ (p : Int) + adj + mu ∧ ∀ q ∈ ps, 0 ≤ (q : Int) + adj) →
      cbNew < cbCurr ∧ ∃ k qs, adjustPaddingTo I (t :: ts) cbNew cbCurr =
        (setPads I ((t :: ts).take k) qs ++ (t :: ts).drop k, .throw .tagsetRequest) ∧ qs.length = k ∧ k ≤ ts.length ∧
        ∀ i (hi : i < qs.length) (hj : i < (p :: ps).length), qs[i] ≤ (p :: ps)[i]) := by
  intro adj mu
  obtain ⟨f1, f2, f3, f4, f5⟩ := tdiv_facts ((cbNew : Int) - cbCurr) (ts.length + 1) (by omega)
  change adj * _ + mu = _ at f1
  change _ → 0 ≤ adj ∧ 0 ≤ mu at f2
  change _ → adj ≤ 0 ∧ mu ≤ 0 at f3
  change _ < mu at f4
  change mu < _ at f5
  cases h with
  | cons h0 hrest =>
    have hlen : ts.length = ps.length := Pads.length (I := I) hrest
    obtain ⟨b1, b2⟩ : (0 ≤ (cbNew : Int) - cbCurr → adj + mu ≤ (cbNew : Int) - cbCurr) ∧ (adj = 0 → mu = (cbNew : Int) - cbCurr) := by
      constructor
      · intro h
        have h1 := (f2 h).1
        have : 0 ≤ adj * (ts.length : Int) := Int.mul_nonneg h1 (by omega)
        rw [Int.natCast_add, Int.mul_add] at f1
        omega
      · intro h
        rw [h] at f1
        omega
    have hup : ∀ q ∈ p :: ps, (q : Int) + adj < 2 ^ 64 ∧ (q : Int) + adj + mu < 2 ^ 64 := by
      intro q hq
      have := hu q hq
      rcases Int.le_total 0 ((cbNew : Int) - cbCurr) with h | h
      · have := f2 h; have := b1 h; omega
      · have := f3 h
        omega
    simp only [adjustPaddingTo, h0, List.length_cons]
    change ((0 ≤ (p : Int) + adj + mu ∧ ∀ q ∈ ps, 0 ≤ (q : Int) + adj) → ∃ qs, (if adj < 0 ∧ -(adj + mu) > (p : Int) then _ else _) = _ ∧ _) ∧
      (¬ (0 ≤ (p : Int) + adj + mu ∧ ∀ q ∈ ps, 0 ≤ (q : Int) + adj) → _ ∧ ∃ k qs, (if adj < 0 ∧ -(adj + mu) > (p : Int) then _ else _) = _ ∧ _)
    constructor
    · rintro ⟨g1, g2⟩
      rw [if_neg (by omega), adjustRest_ok hrest adj g2 (fun q hq => (hup q (by simp [hq])).1),
        Int.emod_eq_of_lt g1 (hup p (by simp)).2]
      refine ⟨((p : Int) + adj + mu).toNat :: ps.map fun (q : Nat) => ((q : Int) + adj).toNat, rfl, by simp [hlen], ?_⟩
      have h1 := sum_add ps adj g2
      rw [Int.natCast_add, Int.mul_add, hlen] at f1
      simp only [List.sum_cons]
      omega
    · intro hn
      have hneg : (cbNew : Int) - cbCurr < 0 := by
        rcases Int.lt_or_le ((cbNew : Int) - cbCurr) 0 with h | h
        · exact h
        · exact absurd ⟨by have := f2 h; omega, fun q _ => by have := f2 h; omega⟩ hn
      have f3 := f3 (by omega)
      refine ⟨by omega, ?_⟩
      by_cases g1 : 0 ≤ (p : Int) + adj + mu
      · have g2 : ¬ ∀ q ∈ ps, 0 ≤ (q : Int) + adj := fun h => hn ⟨g1, h⟩
        obtain ⟨k, hk, e⟩ := adjustRest_throw hrest adj g2 (fun q hq => (hup q (by simp [hq])).1)
        refine ⟨k + 1, ((p : Int) + adj + mu).toNat :: (ps.take k).map fun (q : Nat) => ((q : Int) + adj).toNat, ?_, by simp; omega, by omega, ?_⟩
        · rw [if_neg (by omega), e, Int.emod_eq_of_lt g1 (hup p (by simp)).2]
          rfl
        · intro i hi hj
          cases i with
          | zero => simp only [List.getElem_cons_zero]; omega
          | succ i =>
            simp only [List.getElem_cons_succ, List.getElem_map, List.getElem_take]
            omega
      · have hadj : adj < 0 := by
          rcases Int.lt_or_le adj 0 with h | h
          · exact h
          · have h : adj = 0 := by omega
            have := b2 h
            have := hw (by omega)
            omega
        exact ⟨0, [], by rw [if_pos (by omega)]; rfl, rfl, by omega, by simp⟩

end Tagset
end Scribbu
