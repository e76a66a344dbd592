import Verif.Model.Url
import Verif.Spec.Url

namespace Scribbu
open Spec

theorem hexVal_spec (c : Byte) :
    (∃ n, HexDigit c n ∧ hexVal c = .ok n ∧ n < 16 ∧ c ≠ 0x25) ∨
    ((¬ ∃ n, HexDigit c n) ∧ hexVal c = .throw .invalidArgument) := by
  have h0 : ((0x30 ≤ c && c ≤ 0x39) = true) ↔ (48 ≤ c.toNat ∧ c.toNat ≤ 57) := by
    simp [UInt8.le_iff_toNat_le]
  have h1 : ((0x61 ≤ c && c ≤ 0x66) = true) ↔ (97 ≤ c.toNat ∧ c.toNat ≤ 102) := by
    simp [UInt8.le_iff_toNat_le]
  have h2 : ((0x41 ≤ c && c ≤ 0x46) = true) ↔ (65 ≤ c.toNat ∧ c.toNat ≤ 70) := by
    simp [UInt8.le_iff_toNat_le]
  have hp : c.toNat ≠ 37 → c ≠ 0x25 := by rintro h rfl; exact h rfl
  unfold hexVal
  by_cases a : 48 ≤ c.toNat ∧ c.toNat ≤ 57
  · rw [if_pos (h0.2 a)]
    exact .inl ⟨_, .inl ⟨c.toNat - 48, by omega, by omega, rfl⟩, rfl, by omega, hp (by omega)⟩
  · rw [if_neg (mt h0.1 a)]
    by_cases b : 97 ≤ c.toNat ∧ c.toNat ≤ 102
    · rw [if_pos (h1.2 b)]
      exact .inl ⟨_, .inr (.inl ⟨c.toNat - 97, by omega, by omega, by omega⟩), rfl, by omega,
        hp (by omega)⟩
    · rw [if_neg (mt h1.1 b)]
      by_cases d : 65 ≤ c.toNat ∧ c.toNat ≤ 70
      · rw [if_pos (h2.2 d)]
        exact .inl ⟨_, .inr (.inr ⟨c.toNat - 65, by omega, by omega, by omega⟩), rfl, by omega,
          hp (by omega)⟩
      · rw [if_neg (mt h2.1 d)]
        refine .inr ⟨?_, rfl⟩
        rintro ⟨n, ⟨k, _, _, _⟩ | ⟨k, _, _, _⟩ | ⟨k, _, _, _⟩⟩ <;> omega

theorem hexDigit_unique {c : Byte} {m n : Nat} (h1 : HexDigit c m) (h2 : HexDigit c n) : m = n := by
  rcases h1 with ⟨k, _, _, _⟩ | ⟨k, _, _, _⟩ | ⟨k, _, _, _⟩ <;>
    rcases h2 with ⟨l, _, _, _⟩ | ⟨l, _, _, _⟩ | ⟨l, _, _, _⟩ <;> omega

theorem hexVal_of {c : Byte} {n : Nat} (h : HexDigit c n) : hexVal c = .ok n ∧ c ≠ 0x25 := by
  rcases hexVal_spec c with ⟨m, hm, hv, _, hp⟩ | ⟨hn, _⟩
  · rw [hexDigit_unique h hm]; exact ⟨hv, hp⟩
  · exact absurd ⟨n, h⟩ hn

/-- List form of the decoder. -/
def udec : Bool → Bytes → Res Bytes
  | _, [] => .ok []
  | false, c :: cs => if c = 0x25 then udec true cs else (udec false cs).bind fun r => .ok (c :: r)
  | true, c :: cs =>
    if c = 0x25 then (udec false cs).bind fun r => .ok (c :: r)
    else match cs with
      | [] => .throw .invalidArgument
      | d :: ds => (hexVal c).bind fun x => (hexVal d).bind fun y =>
          (udec false ds).bind fun r => .ok (UInt8.ofNat (16 * x + y) :: r)

theorem udec_true (c : Byte) (cs : Bytes) : udec true (c :: cs) =
    if c = 0x25 then (udec false cs).bind fun r => .ok (c :: r)
    else match cs with
      | [] => .throw .invalidArgument
      | d :: ds => (hexVal c).bind fun x => (hexVal d).bind fun y =>
          (udec false ds).bind fun r => .ok (UInt8.ofNat (16 * x + y) :: r) := by
  cases cs <;> simp [udec]

theorem bind_assoc' {α β γ : Type} (r : Res α) (f : α → Res β) (g : β → Res γ) :
    (r.bind f).bind g = r.bind fun a => (f a).bind g := by cases r <;> rfl

theorem decodeLoop_eq (text : Bytes) (fuel i : Nat) (saw : Bool) (out : Bytes)
    (h : text.length ≤ i + fuel) :
    decodeLoop text fuel i saw out = (udec saw (text.drop i)).bind fun r => .ok (out ++ r) := by
  induction fuel generalizing i saw out with
  | zero =>
    rw [List.drop_eq_nil_of_le (by omega)]
    cases saw <;> simp [decodeLoop, udec]
  | succ k ih =>
    unfold decodeLoop
    by_cases hi : i < text.length
    · rw [if_pos hi, List.drop_eq_getElem_cons hi]
      have hrd : rd text i = .ok text[i] := by simp [rd, hi]
      rw [hrd, Res.ok_bind]
      cases saw with
      | false =>
        simp only [udec, Bool.false_eq_true, if_false]
        by_cases hp : text[i] = 0x25
        · rw [if_pos hp, if_pos hp, ih _ _ _ (by omega)]
        · rw [if_neg hp, if_neg hp, ih _ _ _ (by omega), bind_assoc']
          simp
      | true =>
        simp only [udec_true, if_true]
        by_cases hp : text[i] = 0x25
        · rw [if_pos hp, if_pos hp, ih _ _ _ (by omega), bind_assoc']
          simp
        · rw [if_neg hp, if_neg hp]
          by_cases hl : text.length < i + 2
          · rw [if_pos hl, List.drop_eq_nil_of_le (by omega)]
            rfl
          · rw [if_neg hl, List.drop_eq_getElem_cons (by omega : i + 1 < text.length)]
            have r1 : rd (text ++ [0]) i = .ok text[i] := by
              rw [rd]; simp [List.getElem?_append, hi]
            have r2 : rd (text ++ [0]) (i + 1) = .ok text[i + 1] := by
              rw [rd]; simp [List.getElem?_append, (by omega : i + 1 < text.length)]
            simp only [strtochar, r1, r2, Res.ok_bind, bind_assoc']
            rcases hexVal_spec text[i] with ⟨x, -, hx, -⟩ | ⟨-, hx⟩
            · rw [hx]
              rcases hexVal_spec text[i + 1] with ⟨y, -, hy, -⟩ | ⟨-, hy⟩
              · rw [hy]
                simp only [Res.ok_bind]
                rw [ih _ _ _ (by omega)]
                simp
              · rw [hy]; rfl
            · rw [hx]; rfl
    · rw [if_neg hi, List.drop_eq_nil_of_le (by omega)]
      cases saw <;> simp [udec]

theorem urldecode_eq (text : Bytes) : urldecode text = udec false text := by
  unfold urldecode
  rw [decodeLoop_eq text _ _ _ _ (by omega)]
  cases h : udec false (List.drop 0 text) <;> simp_all

theorem udec_of_decodes {t o : Bytes} (h : Decodes t o) :
    udec false t = .ok o ∧ udec false (t ++ [0x25]) = .ok o := by
  induction h with
  | nil => simp [udec]
  | plain hc _ ih => simp [udec, hc, ih]
  | pct _ ih => simp [udec_true, udec, ih]
  | esc hx hy _ ih =>
    obtain ⟨h1, h2⟩ := hexVal_of hx
    obtain ⟨h3, h4⟩ := hexVal_of hy
    simp [udec, h1, h2, h3, ih]

theorem udec_inv (n : Nat) : ∀ t : Bytes, t.length ≤ n →
    (∃ o, udec false t = .ok o ∧ (Decodes t o ∨ ∃ t', t = t' ++ [0x25] ∧ Decodes t' o)) ∨
    udec false t = .throw .invalidArgument := by
  induction n with
  | zero =>
    intro t ht
    have : t = [] := List.length_eq_zero_iff.1 (by omega)
    subst this
    exact .inl ⟨[], rfl, .inl .nil⟩
  | succ n ih =>
    intro t ht
    cases t with
    | nil => exact .inl ⟨[], rfl, .inl .nil⟩
    | cons c cs =>
      simp only [List.length_cons] at ht
      by_cases hc : c = 0x25
      · subst hc
        cases cs with
        | nil => exact .inl ⟨[], by simp [udec], .inr ⟨[], rfl, .nil⟩⟩
        | cons d ds =>
          simp only [List.length_cons] at ht
          by_cases hd : d = 0x25
          · subst hd
            rcases ih ds (by omega) with ⟨o, ho, hdec⟩ | hthrow
            · refine .inl ⟨0x25 :: o, by simp [udec_true, udec, ho], ?_⟩
              rcases hdec with hdec | ⟨t', rfl, hdec⟩
              · exact .inl (.pct hdec)
              · exact .inr ⟨0x25 :: 0x25 :: t', rfl, .pct hdec⟩
            · exact .inr (by simp [udec_true, udec, hthrow])
          · cases ds with
            | nil => exact .inr (by simp [udec, hd])
            | cons e es =>
              simp only [List.length_cons] at ht
              rcases hexVal_spec d with ⟨x, hx, hvx, -⟩ | ⟨-, hvx⟩
              · rcases hexVal_spec e with ⟨y, hy, hvy, -⟩ | ⟨-, hvy⟩
                · rcases ih es (by omega) with ⟨o, ho, hdec⟩ | hthrow
                  · refine .inl ⟨UInt8.ofNat (16 * x + y) :: o, by simp [udec, hd, hvx, hvy, ho], ?_⟩
                    rcases hdec with hdec | ⟨t', rfl, hdec⟩
                    · exact .inl (.esc hx hy hdec)
                    · exact .inr ⟨0x25 :: d :: e :: t', rfl, .esc hx hy hdec⟩
                  · exact .inr (by simp [udec, hd, hvx, hvy, hthrow])
                · exact .inr (by simp [udec, hd, hvx, hvy])
              · exact .inr (by simp [udec, hd, hvx])
      · rcases ih cs (by omega) with ⟨o, ho, hdec⟩ | hthrow
        · refine .inl ⟨c :: o, by simp [udec, hc, ho], ?_⟩
          rcases hdec with hdec | ⟨t', rfl, hdec⟩
          · exact .inl (.plain hc hdec)
          · exact .inr ⟨c :: t', rfl, .plain hc hdec⟩
        · exact .inr (by simp [udec, hc, hthrow])

theorem decodes_length {t o : Bytes} (h : Decodes t o) : o.length ≤ t.length := by
  induction h with
  | nil => exact Nat.le_refl _
  | plain _ _ ih => simp only [List.length_cons]; omega
  | pct _ ih => simp only [List.length_cons]; omega
  | esc _ _ _ ih => simp only [List.length_cons]; omega

theorem hexDigit_hex {n : Nat} (h : n < 16) : HexDigit (hexDigit n) n := by
  unfold hexDigit HexDigit
  split
  · left
    exact ⟨n, by assumption, by simp [UInt8.toNat_ofNat']; omega, rfl⟩
  · right; left
    exact ⟨n - 10, by omega, by simp [UInt8.toNat_ofNat']; omega, by omega⟩

theorem isUnreserved_iff (c : Byte) : isUnreserved c = true ↔ Unreserved c := by
  have e : ∀ k : Byte, (c == k) = true ↔ c.toNat = k.toNat := by
    intro k; rw [beq_iff_eq, UInt8.toNat_inj]
  unfold isUnreserved Unreserved
  simp only [Bool.or_eq_true, Bool.and_eq_true, decide_eq_true_eq, UInt8.le_iff_toNat_le, e]
  simp
  omega

theorem urlencode_decodes (s : Bytes) : Decodes (urlencode s) s ∧ Encoded (urlencode s) := by
  induction s with
  | nil => exact ⟨.nil, .nil⟩
  | cons c cs ih =>
    unfold urlencode
    by_cases hc : c = 0x25
    · subst hc
      have h2 : HexDigit 0x32 2 := .inl ⟨2, by decide, rfl, rfl⟩
      have h5 : HexDigit 0x35 5 := .inl ⟨5, by decide, rfl, rfl⟩
      simp only [if_true]
      exact ⟨.esc h2 h5 ih.1, .esc h2 h5 ih.2⟩
    · rw [if_neg hc]
      by_cases hu : isUnreserved c = true
      · rw [if_pos hu]
        exact ⟨.plain hc ih.1, .plain ((isUnreserved_iff c).1 hu) ih.2⟩
      · rw [if_neg hu]
        have hlt := c.toNat_lt
        have h1 := hexDigit_hex (n := c.toNat / 16) (by omega)
        have h2 := hexDigit_hex (n := c.toNat % 16) (by omega)
        refine ⟨?_, .esc h1 h2 ih.2⟩
        have := Decodes.esc h1 h2 ih.1
        rwa [Nat.div_add_mod, UInt8.ofNat_toNat] at this

end Scribbu
