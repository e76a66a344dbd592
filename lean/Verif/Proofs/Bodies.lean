import Verif.Model.Bodies
import Verif.Spec.Bodies
import Verif.Spec.Unsync
import Verif.Proofs.Id3v1

/-! Lemmas about frame bodies. -/

namespace Scribbu
open Spec

/-! ### Counters -/

theorem beNat_append (a : Bytes) (b : Byte) : beNat (a ++ [b]) = beNat a * 256 + b.toNat := by
  induction a with
  | nil => simp [beNat]
  | cons x xs ih =>
    simp only [List.cons_append, beNat, ih, List.length_append, List.length_singleton,
      Nat.add_mul, Nat.pow_succ, Nat.mul_assoc]
    omega

theorem beNat_lt (a : Bytes) : beNat a < 256 ^ a.length := by
  induction a with
  | nil => simp [beNat]
  | cons x xs ih =>
    simp only [beNat, List.length_cons, Nat.pow_succ]
    have := x.toNat_lt
    have h2 : x.toNat * 256 ^ xs.length ≤ 255 * 256 ^ xs.length := Nat.mul_le_mul_right _ (by omega)
    omega

theorem fillBE_length (cb n : Nat) : (fillBE cb n).length = cb := by
  induction cb generalizing n with
  | zero => rfl
  | succ cb ih => simp [fillBE, ih]

theorem fillBE_val (cb n : Nat) (h : n < 256 ^ cb) : beNat (fillBE cb n) = n := by
  induction cb generalizing n with
  | zero => simp at h; subst h; rfl
  | succ cb ih =>
    rw [fillBE, beNat_append, ih (n >>> 8) (by
      rw [Nat.shiftRight_eq_div_pow]
      rw [Nat.pow_succ] at h
      exact Nat.div_lt_of_lt_mul (by omega)), Nat.shiftRight_eq_div_pow]
    rw [show (0xff : Nat) = 2 ^ 8 - 1 from rfl, Nat.and_two_pow_sub_one_eq_mod]
    simp [UInt8.toNat_ofNat']
    omega

theorem log2_bytes (n : Nat) (h : n ≠ 0) : n < 256 ^ (Nat.log2 n / 8 + 1) := by
  have h1 : n < 2 ^ (Nat.log2 n + 1) := Nat.lt_log2_self
  have h2 : 2 ^ (Nat.log2 n + 1) ≤ 2 ^ (8 * (Nat.log2 n / 8 + 1)) :=
    Nat.pow_le_pow_right (by omega) (by omega)
  rw [Nat.pow_mul] at h2
  exact Nat.lt_of_lt_of_le h1 h2

theorem resetCounter_val (n : Nat) : beNat (resetCounter n) = n := by
  unfold resetCounter
  split
  · subst_vars; rfl
  · exact fillBE_val _ _ (log2_bytes n ‹_›)

theorem resetCounter_length (n : Nat) :
    (resetCounter n).length = if n = 0 then 1 else Nat.log2 n / 8 + 1 := by
  unfold resetCounter
  split
  · rfl
  · exact fillBE_length _ _

theorem resetCounter_length_le {n k : Nat} (hk : 0 < k) (h : n < 256 ^ k) : (resetCounter n).length ≤ k := by
  rw [resetCounter_length]
  split
  · omega
  · rename_i h0
    have h2 : Nat.log2 n < 8 * k := (Nat.log2_lt h0).2 (by rw [Nat.pow_mul]; exact h)
    omega

theorem resetCounter_length_ge {n k : Nat} (h : 256 ^ k ≤ n) : k < (resetCounter n).length := by
  have h1 := beNat_lt (resetCounter n)
  rw [resetCounter_val] at h1
  exact (Nat.pow_lt_pow_iff_right (by omega : 1 < 256)).1 (Nat.lt_of_le_of_lt h h1)

theorem resetCounter_pos (n : Nat) : 0 < (resetCounter n).length := by
  rw [resetCounter_length]; split <;> omega

theorem counterCount_ok {c : Bytes} (h0 : c ≠ []) (h : c.length ≤ 4) : counterCount c = .ok (beNat c) := by
  have e8 : ∀ (a b : Nat), b < 2 ^ 8 → a <<< 8 ||| b = a * 2 ^ 8 + b := fun a b h => by
    rw [Nat.shiftLeft_eq, Nat.mul_comm, ← Nat.two_pow_add_eq_or_of_lt h]
  have e16 : ∀ (a b : Nat), b < 2 ^ 16 → a <<< 16 ||| b = a * 2 ^ 16 + b := fun a b h => by
    rw [Nat.shiftLeft_eq, Nat.mul_comm, ← Nat.two_pow_add_eq_or_of_lt h]
  have e24 : ∀ (a b : Nat), b < 2 ^ 24 → a <<< 24 ||| b = a * 2 ^ 24 + b := fun a b h => by
    rw [Nat.shiftLeft_eq, Nat.mul_comm, ← Nat.two_pow_add_eq_or_of_lt h]
  match c, h0, h with
  | [a], _, _ => simp [counterCount, beNat]
  | [a, b], _, _ =>
    have := b.toNat_lt
    simp only [counterCount, beNat, List.length_cons, List.length_nil]
    rw [e8 _ _ (by omega)]
    congr 1
    omega
  | [a, b, d], _, _ =>
    have := b.toNat_lt
    have := d.toNat_lt
    simp only [counterCount, beNat, List.length_cons, List.length_nil]
    rw [Nat.or_assoc, e8 _ _ (by omega), e16 _ _ (by omega)]
    congr 1
    omega
  | [a, b, d, e], _, _ =>
    have := b.toNat_lt
    have := d.toNat_lt
    have := e.toNat_lt
    simp only [counterCount, beNat, List.length_cons, List.length_nil]
    rw [Nat.or_assoc, Nat.or_assoc, e8 _ _ (by omega), e16 _ _ (by omega), e24 _ _ (by omega)]
    congr 1
    omega
  | _ :: _ :: _ :: _ :: _ :: _, _, h => simp at h

theorem counterCount_big {c : Bytes} (h : 4 < c.length) : counterCount c = .throw .domainError := by
  match c, h with
  | _ :: _ :: _ :: _ :: _ :: _, _ => rfl

/-! ### Terminated strings -/

theorem takeWhile_nul {d r : Bytes} (h : (0 : Byte) ∉ d) :
    (d ++ 0 :: r).takeWhile (· ≠ 0) = d := by
  induction d with
  | nil => simp
  | cons c cs ih =>
    have h1 : c ≠ 0 := fun h' => h (h' ▸ List.mem_cons_self ..)
    have h2 := ih fun h' => h (List.mem_cons_of_mem _ h')
    simp only [List.cons_append, List.takeWhile_cons, h1, ne_eq, not_false_eq_true, decide_true, if_true, h2]

theorem drop_takeWhile {b : Bytes} : b.drop (b.takeWhile (· ≠ 0)).length = b.dropWhile (· ≠ 0) := by
  induction b with
  | nil => rfl
  | cons c cs ih =>
    by_cases h : c = 0
    · subst h; simp
    · simp [h] at ih ⊢; exact ih

theorem ftn_unfold (two : Bool) (mem : Bytes) (n i : Nat) : findTrailingNull two mem n i =
    if i < n then
      (rd mem i).bind fun b0 =>
      if two = false ∧ b0 = 0 then .ok i
      else (rd mem (i + 1)).bind fun b1 =>
        if b0 = 0 ∧ b1 = 0 then .ok i
        else findTrailingNull two mem n (i + (if two then 2 else 1))
    else .ok i := by rw [findTrailingNull]

theorem rd_at (pre : Bytes) (a : Byte) (r : Bytes) (i : Nat) (h : i = pre.length) :
    rd (pre ++ a :: r) i = .ok a := by
  subst h; simp [rd]

/-- One-byte characters: the terminator is found. -/
theorem ftn_one (d : Bytes) : ∀ (pre r : Bytes) (n : Nat), (0 : Byte) ∉ d →
    pre.length + d.length < n →
    findTrailingNull false (pre ++ d ++ 0 :: r) n pre.length = .ok (pre.length + d.length) := by
  induction d with
  | nil =>
    intro pre r n _ hn
    rw [ftn_unfold, if_pos (by simpa using hn), List.append_nil, rd_at _ _ _ _ rfl]
    simp
  | cons c cs ih =>
    intro pre r n h hn
    have hc : c ≠ 0 := fun h' => h (h' ▸ List.mem_cons_self ..)
    rw [ftn_unfold, if_pos (by simp at hn; omega)]
    have e : pre ++ c :: cs ++ 0 :: r = (pre ++ [c]) ++ cs ++ 0 :: r := by simp
    have hl : pre.length + 1 = (pre ++ [c]).length := by simp
    obtain ⟨x, hx⟩ : ∃ x, rd (pre ++ c :: cs ++ 0 :: r) (pre.length + 1) = .ok x := by
      refine ⟨_, rd_ok ?_⟩
      simp <;> omega
    rw [show rd (pre ++ c :: cs ++ 0 :: r) pre.length = .ok c by
      rw [List.append_assoc]; exact rd_at _ _ _ _ rfl]
    simp only [Res.ok_bind]
    rw [if_neg (fun hh => hc hh.2), hx]
    simp only [Res.ok_bind]
    rw [if_neg (fun hh => hc hh.1)]
    simp only [Bool.false_eq_true, if_false]
    rw [e, hl, ih (pre ++ [c]) r n (fun h' => h (List.mem_cons_of_mem _ h')) (by simp at hn ⊢; omega)]
    simp <;> omega

/-- Two-byte characters: the terminator is found. -/
theorem ftn_two : ∀ (k : Nat) (d pre r : Bytes) (n : Nat), d.length = 2 * k →
    (∀ j, ¬ (d[2 * j]? = some 0 ∧ d[2 * j + 1]? = some 0)) → pre.length + d.length < n →
    findTrailingNull true (pre ++ d ++ 0 :: 0 :: r) n pre.length = .ok (pre.length + d.length) := by
  intro k
  induction k with
  | zero =>
    intro d pre r n hl _ hn
    have : d = [] := List.length_eq_zero_iff.1 (by omega)
    subst this
    rw [ftn_unfold, if_pos (by simpa using hn), List.append_nil, rd_at _ _ _ _ rfl]
    simp only [Res.ok_bind]
    rw [if_neg (by simp), List.append_cons, rd_at _ _ _ _ (by simp)]
    simp
  | succ k ih =>
    intro d pre r n hl h hn
    match d, hl with
    | a :: b :: cs, hl =>
      rw [ftn_unfold, if_pos (by simp at hn; omega)]
      have e : pre ++ (a :: b :: cs) ++ 0 :: 0 :: r = (pre ++ [a, b]) ++ cs ++ 0 :: 0 :: r := by simp
      rw [show rd (pre ++ (a :: b :: cs) ++ 0 :: 0 :: r) pre.length = .ok a by
        rw [List.append_assoc]; exact rd_at _ _ _ _ rfl]
      simp only [Res.ok_bind]
      rw [if_neg (by simp), show rd (pre ++ (a :: b :: cs) ++ 0 :: 0 :: r) (pre.length + 1) = .ok b by
        rw [show pre ++ (a :: b :: cs) ++ 0 :: 0 :: r = (pre ++ [a]) ++ b :: (cs ++ 0 :: 0 :: r) by simp]
        exact rd_at _ _ _ _ (by simp)]
      simp only [Res.ok_bind]
      have h00 := h 0
      rw [if_neg (by simpa using h00)]
      simp only [if_true]
      rw [e, show pre.length + 2 = (pre ++ [a, b]).length by simp,
        ih cs (pre ++ [a, b]) r n (by simp at hl; omega) (fun j => by
          have := h (j + 1)
          rw [show 2 * (j + 1) = 2 * j + 1 + 1 by omega, show 2 * j + 1 + 1 + 1 = (2 * j + 1) + 1 + 1 by omega,
            List.getElem?_cons_succ, List.getElem?_cons_succ, List.getElem?_cons_succ,
            List.getElem?_cons_succ] at this
          exact this) (by simp at hn ⊢; omega)]
      simp only [List.length_append, List.length_cons, List.length_nil, Res.ok.injEq]
      omega

theorem parseDescText_rt (w : Nat) (pre d t post : Bytes) (h : NoNul w d) (n : Nat)
    (hn : n = pre.length + d.length + w + t.length) :
    parseDescText w (pre ++ d ++ List.replicate w 0 ++ t ++ post) n pre.length = .ok (d, t) := by
  have hf : findTrailingNull (w == 2) (pre ++ d ++ List.replicate w 0 ++ t ++ post) n pre.length =
      .ok (pre.length + d.length) := by
    rcases h with ⟨rfl, h⟩ | ⟨rfl, hl, h⟩
    · rw [show pre ++ d ++ List.replicate 1 0 ++ t ++ post = pre ++ d ++ 0 :: (t ++ post) by simp]
      exact ftn_one d pre _ n h (by omega)
    · rw [show pre ++ d ++ List.replicate 2 0 ++ t ++ post = pre ++ d ++ 0 :: 0 :: (t ++ post) by simp]
      exact ftn_two (d.length / 2) d pre _ n (by omega) h (by omega)
  unfold parseDescText
  rw [hf]
  simp only [Res.ok_bind]
  rw [slice_mid (pre := pre) (x := d) (post := List.replicate w 0 ++ t ++ post) (by simp) rfl (by omega)]
  simp only [Res.ok_bind]
  rw [if_pos (by omega), slice_mid (pre := pre ++ d ++ List.replicate w 0) (x := t) (post := post) (by simp)
    (by simp <;> omega) (by omega)]
  rfl

theorem rd_eq_ok {p : Bytes} {i : Nat} {x : Byte} (h : rd p i = .ok x) : p[i]? = some x := by
  unfold rd at h
  split at h
  · rename_i b hb; cases h; exact hb
  · cases h

/-- If the search stays inside the buffer, then it stops at the end or at a terminator. -/
theorem ftn_sound (two : Bool) (b : Bytes) : ∀ (k i p : Nat), b.length - i = k →
    i ≤ b.length → findTrailingNull two b b.length i = .ok p →
    i ≤ p ∧ NoNul (if two then 2 else 1) ((b.drop i).take (p - i)) ∧
    (p = b.length ∨ p + (if two then 2 else 1) ≤ b.length ∧
      (b.drop p).take (if two then 2 else 1) = List.replicate (if two then 2 else 1) 0) := by
  intro k
  induction k using Nat.strongRecOn with
  | _ k ih =>
    intro i p hk hi h
    rw [ftn_unfold] at h
    split at h
    · rename_i hlt
      obtain ⟨x, hx, h⟩ := Res.bind_eq_ok.1 h
      have hx' := rd_eq_ok hx
      split at h
      · rename_i hc
        cases h
        obtain ⟨rfl, rfl⟩ := hc
        refine ⟨Nat.le_refl _, .inl ⟨rfl, by simp⟩, .inr ⟨by simp; omega, ?_⟩⟩
        simp only [Bool.false_eq_true, if_false]
        rw [List.drop_eq_getElem_cons hlt, (List.getElem?_eq_some_iff.1 hx').2]
        simp
      · rename_i hc
        obtain ⟨y, hy, h⟩ := Res.bind_eq_ok.1 h
        have hy' := rd_eq_ok hy
        have hylt := (List.getElem?_eq_some_iff.1 hy').1
        split at h
        · rename_i h00
          cases h
          obtain ⟨rfl, rfl⟩ := h00
          have ht : two = true := by
            cases two
            · exact absurd ⟨rfl, rfl⟩ hc
            · rfl
          subst ht
          refine ⟨Nat.le_refl _, .inr ⟨rfl, by simp, by simp⟩, .inr ⟨by simp; omega, ?_⟩⟩
          simp only [if_true]
          rw [List.drop_eq_getElem_cons hlt, (List.getElem?_eq_some_iff.1 hx').2,
            List.drop_eq_getElem_cons hylt, (List.getElem?_eq_some_iff.1 hy').2]
          simp
        · rename_i h00
          cases two with
          | false =>
            simp only [Bool.false_eq_true, if_false] at h ⊢
            have hx0 : x ≠ 0 := fun hh => hc ⟨rfl, hh⟩
            obtain ⟨h1, h2, h3⟩ := ih (b.length - (i + 1)) (by omega) (i + 1) p rfl (by omega) h
            simp only [Bool.false_eq_true, if_false] at h2 h3
            refine ⟨by omega, ?_, h3⟩
            left
            refine ⟨rfl, ?_⟩
            rw [show p - i = (p - (i + 1)) + 1 by omega, List.drop_eq_getElem_cons hlt,
              (List.getElem?_eq_some_iff.1 hx').2, List.take_succ_cons]
            rcases h2 with ⟨-, h2⟩ | ⟨h2, -⟩
            · simp only [List.mem_cons, not_or]; exact ⟨Ne.symm hx0, h2⟩
            · cases h2
          | true =>
            simp only [if_true] at h ⊢
            obtain ⟨h1, h2, h3⟩ := ih (b.length - (i + 2)) (by omega) (i + 2) p rfl (by omega) h
            simp only [if_true] at h2 h3
            refine ⟨by omega, ?_, h3⟩
            · right
              refine ⟨rfl, ?_⟩
              rw [show p - i = (p - (i + 2)) + 1 + 1 by omega, List.drop_eq_getElem_cons hlt,
                (List.getElem?_eq_some_iff.1 hx').2, List.take_succ_cons, List.drop_eq_getElem_cons hylt,
                (List.getElem?_eq_some_iff.1 hy').2, List.take_succ_cons]
              rcases h2 with ⟨h2, -⟩ | ⟨-, h2, h5⟩
              · cases h2
              · refine ⟨by simp only [List.length_cons, show i + 1 + 1 = i + 2 from rfl]; omega, fun j => ?_⟩
                cases j with
                | zero => simpa using h00
                | succ j =>
                  rw [show 2 * (j + 1) = 2 * j + 1 + 1 by omega,
                    show 2 * j + 1 + 1 + 1 = (2 * j + 1) + 1 + 1 by omega,
                    List.getElem?_cons_succ, List.getElem?_cons_succ, List.getElem?_cons_succ,
                    List.getElem?_cons_succ]
                  exact h5 j
    · rename_i hge
      cases h
      refine ⟨Nat.le_refl _, ?_, .inl (by omega)⟩
      cases two <;> simp [NoNul]

/-- Description and text found in a buffer are read back from what is written for them. -/
theorem parseDescText_sound {w : Nat} (hw : w = 1 ∨ w = 2) {b d t : Bytes} {i : Nat} (hi : i ≤ b.length)
    (h : parseDescText w b b.length i = .ok (d, t)) : NoNul w d := by
  unfold parseDescText at h
  obtain ⟨p, hp, h⟩ := Res.bind_eq_ok.1 h
  obtain ⟨d', hd, h⟩ := Res.bind_eq_ok.1 h
  have hs := (ftn_sound (w == 2) b _ i p rfl hi hp).2.1
  have hw' : (if (w == 2) = true then 2 else 1) = w := by rcases hw with rfl | rfl <;> rfl
  rw [hw'] at hs
  have hdd : d' = (b.drop i).take (p - i) := by
    unfold slice at hd
    split at hd
    · cases hd; rfl
    · cases hd
  have : d = d' := by
    split at h
    · obtain ⟨t', -, h⟩ := Res.bind_eq_ok.1 h
      cases h; rfl
    · cases h; rfl
  rw [this, hdd]; exact hs

theorem cbnilOf_cases (v : Ver) (u : Byte) : cbnilOf v u = 1 ∨ cbnilOf v u = 2 := by
  unfold cbnilOf
  split <;> split <;> simp

/-! ### Counting over concatenations -/

theorem countSyncs_append (f : Bool) (a b : Bytes) : countSyncs f (a ++ b) = countSyncs f a + countSyncs f b +
    (match a.getLast?, b.head? with
     | some x, some y => if (if f then isFalseSync x y else needsUnsync x y) then 1 else 0
     | _, _ => 0) := by
  induction a with
  | nil => simp [countSyncs]
  | cons x xs ih =>
    cases xs with
    | nil =>
      cases b with
      | nil => simp [countSyncs]
      | cons y ys => simp [countSyncs]; omega
    | cons z zs =>
      simp only [List.cons_append, countSyncs] at ih ⊢
      rw [ih]
      simp only [List.getLast?_cons_cons]
      omega

theorem isFalseSync_zero (x : Byte) : isFalseSync x 0 = false ∧ isFalseSync 0 x = false := by
  constructor
  · simp only [isFalseSync, Bool.and_eq_false_iff]; right; decide
  · simp [isFalseSync]

end Scribbu
