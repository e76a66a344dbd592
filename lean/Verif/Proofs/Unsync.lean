import Verif.Model.Unsync
import Verif.Spec.Unsync

namespace Scribbu
open Spec

/-- Recursive form of resynchronisation: `prev` says the previous byte was FF. -/
def rs (prev : Bool) : Bytes → Bytes
  | [] => []
  | b :: r => if prev && b == 0 then rs false r else b :: rs (b == 0xff) r

theorem zip_filter_rs (p : Option Byte) (bs : Bytes) :
    (((p :: bs.map some).zip bs).filter fun x => ¬ (x.1 = some 0xff ∧ x.2 = 0x00)).map Prod.snd
      = rs (p == some 0xff) bs := by
  induction bs generalizing p with
  | nil => simp [rs]
  | cons b r ih =>
    have ih := ih (some b)
    simp only [List.map_cons, List.zip_cons_cons, List.filter_cons, rs]
    by_cases h1 : p = some 0xff <;> by_cases h2 : b = 0
    · subst h1 h2; simpa using ih
    · subst h1; simp_all
    · subst h2; simp_all
    · simp_all

theorem dropStuffing_eq_rs (bs : Bytes) : dropStuffing bs = rs false bs := by
  have := zip_filter_rs none bs
  simpa [dropStuffing, withPred] using this

theorem rs_length_le (prev : Bool) (bs : Bytes) : (rs prev bs).length ≤ bs.length := by
  induction bs generalizing prev with
  | nil => simp [rs]
  | cons b r ih =>
    simp only [rs]; split
    · have := ih false; simp; omega
    · have := ih (b == 0xff); simp; omega

theorem rs_true_eq {c : Byte} {t : Bytes} (h : c ≠ 0) : rs true (c :: t) = rs false (c :: t) := by
  simp [rs, h]

theorem unsync_head (last : Bool) (c : Byte) (r : Bytes) :
    ∃ t, unsynchronise last (c :: r) = c :: t := by
  unfold unsynchronise
  split
  · next h =>
    subst h
    cases r with
    | nil => simp only; split <;> exact ⟨_, rfl⟩
    | cons d r => simp only; split <;> exact ⟨_, rfl⟩
  · exact ⟨_, rfl⟩

theorem rs_unsync (last : Bool) (bs : Bytes) : rs false (unsynchronise last bs) = bs := by
  induction bs with
  | nil => simp [unsynchronise, rs]
  | cons b r ih =>
    unfold unsynchronise
    split
    · next h =>
      subst h
      cases r with
      | nil => cases last <;> simp [rs]
      | cons d r =>
        simp only
        split
        · next hd =>
          simp [rs, ih]
        · next hd =>
          have hd0 : d ≠ 0 := by
            intro h; subst h; simp [unsyncTest] at hd
          obtain ⟨t, ht⟩ := unsync_head last d r
          have : rs true (unsynchronise last (d :: r)) = d :: r := by
            rw [ht, rs_true_eq hd0, ← ht, ih]
          simp [rs, this]
    · next h =>
      have hb : (b == 0xff) = false := by simp [h]
      simp [rs, hb, ih]

/-- No `FF 00` pair with first component at an index below `k - 1`. -/
def PairFree (q : Bytes) : Prop :=
  ∀ j : Nat, ¬ (q[j]? = some 0xff ∧ q[j + 1]? = some 0x00)

theorem rs_append_of_pairFree (seg rest : Bytes) (prev : Bool) (h : PairFree seg)
    (hp : prev = true → seg.head? ≠ some 0) :
    rs prev (seg ++ rest) =
      seg ++ rs (if seg = [] then prev else seg.getLast? == some 0xff) rest := by
  induction seg generalizing prev with
  | nil => simp
  | cons b r ih =>
    have hb : (prev && b == 0) = false := by
      cases prev
      · simp
      · have := hp rfl; simp at this; simpa using this
    have hr : PairFree r := fun j => by simpa using h (j + 1)
    have h' : (b == 0xff) = true → r.head? ≠ some 0 := by
      intro hb hr0
      have := h 0
      simp at hb
      simp [hb] at this
      cases r <;> simp_all
    simp only [List.cons_append, rs, hb, Bool.false_eq_true, if_false, ih _ hr h']
    cases r with
    | nil => simp
    | cons c r => simp

theorem findFalseSync_spec (p : Bytes) (i : Nat) (hi : i ≤ p.length) :
    ∃ j, findFalseSync p p.length i = .ok j ∧ i ≤ j ∧
      (∀ k, i ≤ k → k < j → ¬ (p[k]? = some 0xff ∧ p[k + 1]? = some 0x00)) ∧
      ((j + 1 < p.length ∧ p[j]? = some 0xff ∧ p[j + 1]? = some 0x00) ∨
       (j = p.length ∧ i = p.length) ∨ (j + 1 = p.length)) := by
  generalize hn : p.length - i = n
  induction n using Nat.strongRecOn generalizing i with
  | ind n ih =>
    unfold findFalseSync
    split
    · next h =>
      have hi1 : i < p.length := by omega
      have hi2 : i + 1 < p.length := by omega
      rw [rd_ok hi1, rd_ok hi2]
      simp only [Res.ok_bind]
      have step : ¬ (p[i]? = some 0xff ∧ p[i + 1]? = some 0x00) →
          ∃ j, findFalseSync p p.length (i + 1) = .ok j ∧ i ≤ j ∧
          (∀ k, i ≤ k → k < j → ¬ (p[k]? = some 0xff ∧ p[k + 1]? = some 0x00)) ∧
          ((j + 1 < p.length ∧ p[j]? = some 0xff ∧ p[j + 1]? = some 0x00) ∨
           (j = p.length ∧ i = p.length) ∨ (j + 1 = p.length)) := by
        intro hne
        obtain ⟨j, h1, h2, h3, h4⟩ := ih (p.length - (i + 1)) (by omega) (i + 1) (by omega) rfl
        refine ⟨j, h1, by omega, ?_, ?_⟩
        · intro k hk1 hk2
          by_cases hk : k = i
          · subst hk; exact hne
          · exact h3 k (by omega) hk2
        · rcases h4 with h4 | h4 | h4
          · exact Or.inl h4
          · omega
          · exact Or.inr (Or.inr h4)
      split
      · next hff =>
        split
        · next h00 =>
          refine ⟨i, rfl, Nat.le_refl _, fun k _ _ => by omega, Or.inl ⟨hi2, ?_, ?_⟩⟩
          · simp [hi1, hff]
          · simp [hi2, h00]
        · next h00 => exact step (by simp [hi1, hi2, h00])
      · next hff => exact step (by simp [hi1, hff])
    · next h =>
      refine ⟨i, rfl, Nat.le_refl _, fun k _ _ => by omega, ?_⟩
      omega

theorem moveBack_spec (p : Bytes) (s i i1 : Nat) (hs : 1 ≤ s) (hsi : s ≤ i) (h1 : i1 ≤ p.length) :
    ∃ p', moveBack p s i i1 = .ok p' ∧ p'.length = p.length ∧
      ∀ j, p'[j]? = if i ≤ j + s ∧ j + s < i1 then p[j + s]? else p[j]? := by
  generalize hn : i1 - i = n
  induction n generalizing i p with
  | zero =>
    unfold moveBack
    rw [if_neg (by omega)]
    refine ⟨p, rfl, rfl, fun j => ?_⟩
    rw [if_neg (by omega)]
  | succ n ih =>
    unfold moveBack
    rw [if_pos (by omega), rd_ok (show i < p.length by omega)]
    simp only [Res.ok_bind]
    rw [if_neg (by omega), wr_ok (by omega)]
    simp only [Res.ok_bind]
    obtain ⟨p', e, hl, hg⟩ := ih (p.set (i - s) p[i]) (i + 1) (by omega) (by simpa using h1) (by omega)
    refine ⟨p', e, by simpa using hl, fun j => ?_⟩
    rw [hg j]
    by_cases hj : j + s = i
    · have : j = i - s := by omega
      subst this
      rw [if_neg (by omega), if_pos (by omega), List.getElem?_set_self (by omega), hj]
      simp [show i < p.length by omega]
    · by_cases hc : i + 1 ≤ j + s ∧ j + s < i1
      · rw [if_pos hc, if_pos (by omega), List.getElem?_set_ne (by omega)]
      · rw [if_neg hc, if_neg (by omega), List.getElem?_set_ne (by omega)]

theorem moveBack_take (p : Bytes) (s i i1 : Nat) (hs : 1 ≤ s) (hsi : s ≤ i) (hi : i ≤ i1)
    (h1 : i1 ≤ p.length) :
    ∃ p', moveBack p s i i1 = .ok p' ∧ p'.length = p.length ∧
      p'.take (i1 - s) = p.take (i - s) ++ (p.drop i).take (i1 - i) ∧
      p'.drop i1 = p.drop i1 := by
  obtain ⟨p', e, hl, hg⟩ := moveBack_spec p s i i1 hs hsi h1
  refine ⟨p', e, hl, ?_, ?_⟩
  · apply List.ext_getElem?
    intro j
    rw [List.getElem?_append]
    simp only [List.length_take, List.getElem?_take, List.getElem?_drop, hg]
    by_cases hj : j < i1 - s
    · rw [if_pos hj]
      by_cases hj2 : j < i - s
      · rw [if_neg (by omega), if_pos (by omega), if_pos hj2]
      · rw [if_pos (by omega), if_neg (by omega), if_pos (by omega)]
        congr 1; omega
    · rw [if_neg hj, if_neg (by omega), if_neg (by omega)]
  · apply List.ext_getElem?
    intro j
    simp only [List.getElem?_drop, hg]
    rw [if_neg (by omega)]

theorem resyncLoop_spec (fuel : Nat) (p : Bytes) (s i0 : Nat) (hi0 : i0 < p.length) (hs : 1 ≤ s)
    (hsi : s ≤ i0) (hf : p.length ≤ fuel + i0) :
    ∃ p' n, resyncLoop (fuel + 1) p p.length s i0 = some (.ok (p', n)) ∧
      n ≤ p.length ∧ p'.length = p.length ∧
      p'.take n = p.take (i0 + 1 - s) ++ rs false (p.drop (i0 + 1)) := by
  induction fuel generalizing p s i0 with
  | zero => omega
  | succ fuel ih =>
    rw [resyncLoop]
    rw [if_pos hi0]
    obtain ⟨j, hj1, hj2, hj3, hj4⟩ := findFalseSync_spec p (i0 + 1) (by omega)
    rw [hj1]
    dsimp only
    -- the segment moved is pair free
    have hpf : ∀ m, m ≤ j + 1 - (i0 + 1) → PairFree ((p.drop (i0 + 1)).take m) := by
      intro m hm k ⟨h1, h2⟩
      simp only [List.getElem?_take, List.getElem?_drop] at h1 h2
      split at h2
      · next hk =>
        rw [if_pos (by omega)] at h1
        refine hj3 (i0 + 1 + k) (by omega) (by omega) ⟨h1, ?_⟩
        rw [← h2]; congr 1
      · simp at h2
    rcases hj4 with ⟨hlt, hff, h00⟩ | ⟨hje, hie⟩ | hje
    · -- found another pair
      rw [if_pos (by omega)]
      obtain ⟨p1, hm, hml, hmt, hmd⟩ :=
        moveBack_take p s (i0 + 1) (j + 1) hs (by omega) (by omega) (by omega)
      rw [hm]
      simp only
      rw [if_neg (by omega)]
      obtain ⟨p', n, hr, hn, hl, ht⟩ :=
        ih p1 (s + 1) (j + 1) (by omega) (by omega) (by omega) (by omega)
      rw [hml] at hr hn hl
      refine ⟨p', n, hr, hn, hl, ?_⟩
      rw [ht, show j + 1 + 1 - (s + 1) = j + 1 - s by omega, hmt, List.append_assoc]
      congr 1
      -- split p.drop (i0+1)
      have hsplit : p.drop (i0 + 1) =
          (p.drop (i0 + 1)).take (j + 1 - (i0 + 1)) ++ 0x00 :: p.drop (j + 1 + 1) := by
        conv => lhs; rw [← List.take_append_drop (j + 1 - (i0 + 1)) (p.drop (i0 + 1))]
        congr 1
        rw [List.drop_drop, show i0 + 1 + (j + 1 - (i0 + 1)) = j + 1 by omega]
        rw [List.drop_eq_getElem_cons hlt]
        congr 1
        rw [List.getElem?_eq_getElem hlt] at h00
        exact Option.some.inj h00
      have hd1 : p1.drop (j + 1 + 1) = p.drop (j + 1 + 1) := by
        have := congrArg (List.drop 1) hmd
        simpa [List.drop_drop, Nat.add_comm] using this
      rw [hd1]
      conv => rhs; rw [hsplit]
      rw [rs_append_of_pairFree _ _ _ (hpf _ (Nat.le_refl _)) (by simp)]
      congr 1
      have hne : (p.drop (i0 + 1)).take (j + 1 - (i0 + 1)) ≠ [] := by
        intro h
        have := congrArg List.length h
        simp at this
        omega
      have hlast : ((p.drop (i0 + 1)).take (j + 1 - (i0 + 1))).getLast? = some 0xff := by
        rw [List.getLast?_eq_getElem?]
        simp only [List.length_take, List.length_drop, List.getElem?_take, List.getElem?_drop]
        rw [if_pos (by omega), ← hff]
        congr 1
        omega
      rw [if_neg hne, hlast]
      simp [rs]
    · -- i0 was the last byte
      rw [if_neg (by omega)]
      subst hje
      obtain ⟨p1, hm, hml, hmt, hmd⟩ :=
        moveBack_take p s (i0 + 1) p.length hs (by omega) (by omega) (by omega)
      rw [hm]
      simp only [if_true]
      refine ⟨p1, _, rfl, by omega, hml, ?_⟩
      rw [hmt]
      congr 1
      rw [show p.length - (i0 + 1) = 0 by omega, List.drop_eq_nil_of_le (by omega)]
      simp [rs]
    · -- no further pair
      rw [if_pos (by omega), hje]
      obtain ⟨p1, hm, hml, hmt, hmd⟩ :=
        moveBack_take p s (i0 + 1) p.length hs (by omega) (by omega) (by omega)
      rw [hm]
      simp only [if_true]
      refine ⟨p1, _, rfl, by omega, hml, ?_⟩
      rw [hmt]
      congr 1
      have hpf' := hpf (j + 1 - (i0 + 1)) (Nat.le_refl _)
      have he : (p.drop (i0 + 1)).take (p.length - (i0 + 1)) = p.drop (i0 + 1) := by
        apply List.take_of_length_le; simp
      rw [hje, he] at hpf'
      rw [he]
      have := rs_append_of_pairFree _ [] false hpf' (by simp)
      simpa [rs] using this.symm

theorem resynchronise_spec (p : Bytes) :
    ∃ p' n, resynchronise p = some (.ok (p', n)) ∧ n ≤ p.length ∧ p'.length = p.length ∧
      p'.take n = rs false p := by
  unfold resynchronise
  dsimp only
  split
  · next h =>
    have : p = [] := List.length_eq_zero_iff.mp h
    subst this
    exact ⟨[], 0, rfl, by simp, rfl, by simp [rs]⟩
  · next h =>
    obtain ⟨j, hj1, _, hj3, hj4⟩ := findFalseSync_spec p 0 (by omega)
    rw [hj1]
    dsimp only
    have hpf : ∀ m, m ≤ j + 1 → PairFree (p.take m) := by
      intro m hm k ⟨h1, h2⟩
      simp only [List.getElem?_take] at h1 h2
      split at h2
      · next hk =>
        rw [if_pos (by omega)] at h1
        exact hj3 k (by omega) (by omega) ⟨h1, h2⟩
      · simp at h2
    rcases hj4 with ⟨hlt, hff, h00⟩ | ⟨hje, hie⟩ | hje
    · rw [if_neg (by omega)]
      obtain ⟨p', n, hr, hn, hl, ht⟩ :=
        resyncLoop_spec p.length p 1 (j + 1) hlt (by omega) (by omega) (by omega)
      refine ⟨p', n, hr, hn, hl, ?_⟩
      rw [ht]
      have hsplit : p = p.take (j + 1) ++ 0x00 :: p.drop (j + 1 + 1) := by
        conv => lhs; rw [← List.take_append_drop (j + 1) p]
        congr 1
        rw [List.drop_eq_getElem_cons hlt]
        congr 1
        rw [List.getElem?_eq_getElem hlt] at h00
        exact Option.some.inj h00
      conv => rhs; rw [hsplit]
      rw [rs_append_of_pairFree _ _ _ (hpf _ (Nat.le_refl _)) (by simp)]
      congr 1
      have hne : p.take (j + 1) ≠ [] := by
        intro h'
        have := congrArg List.length h'
        rw [List.length_take] at this
        simp only [List.length_nil] at this
        omega
      have hlast : (p.take (j + 1)).getLast? = some 0xff := by
        rw [List.getLast?_eq_getElem?]
        simp only [List.length_take, List.getElem?_take]
        rw [if_pos (by omega), ← hff]
        congr 1
        omega
      rw [if_neg hne, hlast]
      simp [rs]
    · omega
    · rw [if_pos hje]
      refine ⟨p, p.length, rfl, Nat.le_refl _, rfl, ?_⟩
      have hpf' := hpf (j + 1) (Nat.le_refl _)
      rw [hje, List.take_of_length_le (Nat.le_refl _)] at hpf'
      have := rs_append_of_pairFree _ [] false hpf' (by simp)
      simpa [rs] using this.symm

end Scribbu

namespace Scribbu
open Spec

theorem hasPair_nil (x : Byte) (q : Byte → Prop) : ¬ HasPair x q [] := by
  rintro ⟨pre, c, post, h, _⟩; simp at h

theorem hasPair_single (x a : Byte) (q : Byte → Prop) : ¬ HasPair x q [a] := by
  rintro ⟨pre, c, post, h, _⟩
  have := congrArg List.length h
  simp at this
  omega

theorem hasPair_cons (x a b : Byte) (q : Byte → Prop) (r : Bytes) :
    HasPair x q (a :: b :: r) ↔ (a = x ∧ q b) ∨ HasPair x q (b :: r) := by
  constructor
  · rintro ⟨pre, c, post, h, hq⟩
    cases pre with
    | nil => simp at h; obtain ⟨rfl, rfl, rfl⟩ := h; exact Or.inl ⟨rfl, hq⟩
    | cons d pre => simp at h; exact Or.inr ⟨pre, c, post, h.2, hq⟩
  · rintro (⟨rfl, hq⟩ | ⟨pre, c, post, h, hq⟩)
    · exact ⟨[], b, r, rfl, hq⟩
    · exact ⟨a :: pre, c, post, by simp [h], hq⟩

theorem hasPair_cons_ne {x a : Byte} (q : Byte → Prop) (r : Bytes) (h : a ≠ x) :
    HasPair x q (a :: r) ↔ HasPair x q r := by
  cases r with
  | nil => simp [hasPair_nil, hasPair_single]
  | cons b r => rw [hasPair_cons]; simp [h]

theorem unsyncTest_iff (b : Byte) : unsyncTest b = true ↔ (b = 0 ∨ 0xe0 ≤ b.toNat) := by
  have : ∀ n : Fin 256, unsyncTest (UInt8.ofNat n.val) = true ↔
      (UInt8.ofNat n.val = 0 ∨ 0xe0 ≤ (UInt8.ofNat n.val).toNat) := by decide +kernel
  have h := this ⟨b.toNat, b.toNat_lt⟩
  simpa using h

theorem unsync_no_false_sync (last : Bool) (bs : Bytes) :
    ¬ HasFalseSync (unsynchronise last bs) := by
  unfold HasFalseSync
  induction bs with
  | nil => simp [unsynchronise, hasPair_nil]
  | cons b r ih =>
    unfold unsynchronise
    split
    · next h =>
      subst h
      cases r with
      | nil =>
        cases last
        · simp [hasPair_single]
        · simp [hasPair_cons, hasPair_single]
      | cons d r =>
        simp only
        split
        · rw [hasPair_cons, hasPair_cons_ne _ _ (by decide)]
          simp [ih]
        · next hd =>
          rw [unsyncTest_iff] at hd
          obtain ⟨t, ht⟩ := unsync_head last d r
          rw [ht] at ih ⊢
          rw [hasPair_cons]
          rintro (⟨_, h2⟩ | h2)
          · exact hd (Or.inr h2)
          · exact ih h2
    · next h => rwa [hasPair_cons_ne _ _ h]

theorem unsync_last_not_ff (bs : Bytes) : (unsynchronise true bs).getLast? ≠ some 0xff := by
  induction bs with
  | nil => simp [unsynchronise]
  | cons b r ih =>
    cases r with
    | nil => unfold unsynchronise; split <;> simp_all [unsynchronise]
    | cons d r =>
      obtain ⟨t, ht⟩ := unsync_head true d r
      rw [ht] at ih
      unfold unsynchronise
      split
      · simp only
        split
        · rw [ht]; simp only [List.getLast?_cons_cons]; exact ih
        · rw [ht]; simp only [List.getLast?_cons_cons]; exact ih
      · rw [ht]; simp only [List.getLast?_cons_cons]; exact ih

theorem isFalseSync_iff (x y : Byte) : isFalseSync x y = true ↔ x = 0xff ∧ 0xea ≤ y.toNat := by
  simp only [isFalseSync, Bool.and_eq_true, beq_iff_eq, decide_eq_true_eq, UInt8.lt_iff_toNat_lt]
  exact Iff.rfl

theorem needsUnsync_iff (x y : Byte) :
    needsUnsync x y = true ↔ x = 0xff ∧ (y = 0 ∨ 0xea ≤ y.toNat) := by
  simp only [needsUnsync, Bool.and_eq_true, beq_iff_eq, decide_eq_true_eq, UInt8.lt_iff_toNat_lt,
    Bool.or_eq_true]
  rw [or_comm]
  exact Iff.rfl

/-- Growth of `unsynchronise` without the end-of-tag rule, for the pairs it tests. -/
def growth : Bytes → Nat
  | [] => 0
  | [_] => 0
  | x :: y :: rest => (if x = 0xff ∧ unsyncTest y then 1 else 0) + growth (y :: rest)

theorem unsync_length (bs : Bytes) : (unsynchronise false bs).length = bs.length + growth bs := by
  induction bs with
  | nil => rfl
  | cons b r ih =>
    cases r with
    | nil => unfold unsynchronise; split <;> simp [growth, unsynchronise]
    | cons d r =>
      unfold unsynchronise growth
      by_cases hb : b = 0xff
      · by_cases hd : unsyncTest d = true
        · simp [hb, hd, ih]; omega
        · simp [hb, hd, ih]; omega
      · simp [hb, ih]; omega

theorem unsync_length_last (bs : Bytes) : (unsynchronise true bs).length =
    bs.length + growth bs + (if bs.getLast? = some 0xff then 1 else 0) := by
  induction bs with
  | nil => rfl
  | cons b r ih =>
    cases r with
    | nil => unfold unsynchronise; split <;> simp_all [growth, unsynchronise]
    | cons d r =>
      unfold unsynchronise growth
      rw [List.getLast?_cons_cons]
      by_cases hb : b = 0xff
      · by_cases hd : unsyncTest d = true
        · simp [hb, hd, ih]; omega
        · simp [hb, hd, ih]; omega
      · simp [hb, ih]; omega

theorem countSyncs_le_growth (fo : Bool) (bs : Bytes) : countSyncs fo bs ≤ growth bs := by
  induction bs with
  | nil => simp [countSyncs, growth]
  | cons b r ih =>
    cases r with
    | nil => simp [countSyncs, growth]
    | cons d r =>
      unfold countSyncs growth
      have hle : (if (if fo = true then isFalseSync b d else needsUnsync b d) = true then 1 else 0) ≤
          (if b = 0xff ∧ unsyncTest d = true then 1 else 0) := by
        by_cases h : (if fo = true then isFalseSync b d else needsUnsync b d) = true
        · rw [if_pos h]
          have : b = 0xff ∧ unsyncTest d = true := by
            rw [unsyncTest_iff]
            cases fo
            · rw [if_neg (by simp), needsUnsync_iff] at h; obtain ⟨h1, h2⟩ := h
              refine ⟨h1, ?_⟩; rcases h2 with h2 | h2
              · exact Or.inl h2
              · right; omega
            · rw [if_pos rfl, isFalseSync_iff] at h
              exact ⟨h.1, by have := h.2; right; omega⟩
          rw [if_pos this]; omega
        · rw [if_neg h]; omega
      omega

theorem countSyncs_eq_growth (bs : Bytes)
    (h : ¬ HasPair 0xff (fun c => 0xe0 ≤ c.toNat ∧ c.toNat < 0xea) bs) :
    countSyncs false bs = growth bs := by
  induction bs with
  | nil => simp [countSyncs, growth]
  | cons b r ih =>
    cases r with
    | nil => simp [countSyncs, growth]
    | cons d r =>
      rw [hasPair_cons] at h
      simp only [not_or] at h
      unfold countSyncs growth
      rw [ih h.2]
      congr 1
      have : (needsUnsync b d = true) ↔ (b = 0xff ∧ unsyncTest d = true) := by
        rw [needsUnsync_iff, unsyncTest_iff]
        constructor
        · rintro ⟨h1, h2⟩; exact ⟨h1, h2.imp id (by omega)⟩
        · rintro ⟨h1, h2⟩; refine ⟨h1, ?_⟩
          have := h.1
          rcases h2 with h2 | h2
          · exact Or.inl h2
          · right
            have h3 := h.1
            simp only [h1, true_and, not_and] at h3
            have := h3 h2
            omega
      simp [this]

theorem growth_eq_zero_iff (bs : Bytes) :
    growth bs = 0 ↔ ¬ HasPair 0xff (fun c => c = 0 ∨ 0xe0 ≤ c.toNat) bs := by
  induction bs with
  | nil => simp [growth, hasPair_nil]
  | cons b r ih =>
    cases r with
    | nil => simp [growth, hasPair_single]
    | cons d r =>
      unfold growth
      rw [hasPair_cons, not_or, ← ih, ← unsyncTest_iff]
      by_cases h : b = 0xff ∧ unsyncTest d = true
      · rw [if_pos h]; simp [h]
      · rw [if_neg h]; simp [h]

end Scribbu
