import Verif.Model.Json
import Verif.Spec.Json
import Verif.Proofs.Report

/-! Lemmas about JSON: a rendering of values, and that the reader takes it back. -/

namespace Scribbu.Json
open Scribbu Spec.Json Report

/-! ## Rendering -/

/-- A part of a string, escaped. -/
def rch : Ch → Bytes
  | .raw b => esc1 b
  | .u _ => []

/-- A string without quotation marks. -/
def rstr (s : List Ch) : Bytes := s.flatMap rch

/-- Parts of strings that `escape` makes something valid of. -/
def OkCh : Ch → Prop
  | .raw b => 32 ≤ b ∨ b ∈ [(8 : Byte), 9, 10, 12, 13]
  | .u _ => False

mutual
  /-- A value without white space. -/
  def rv : J → Bytes
    | .null => [110, 117, 108, 108]
    | .bool b => Json.bool b
    | .num _ n _ _ => Backup.dec n
    | .str s => 34 :: (rstr s ++ [34])
    | .arr .nil => [91, 93]
    | .arr (.cons j l) => 91 :: (rv j ++ rjs l)
    | .obj .nil => [123, 125]
    | .obj (.cons k j m) => 123 :: 34 :: (rstr k ++ 34 :: 58 :: (rv j ++ rms m))
  /-- What comes after an element. -/
  def rjs : Js → Bytes
    | .nil => [93]
    | .cons j l => 44 :: (rv j ++ rjs l)
  /-- What comes after a member. -/
  def rms : Ms → Bytes
    | .nil => [125]
    | .cons k j m => 44 :: 34 :: (rstr k ++ 34 :: 58 :: (rv j ++ rms m))
end

mutual
  /-- Values that are rendered faithfully. -/
  def Ok : J → Prop
    | .null => True
    | .bool _ => True
    | .num neg _ f e => neg = false ∧ f = [] ∧ e = []
    | .str s => ∀ c ∈ s, OkCh c
    | .arr l => OkJs l
    | .obj m => OkMs m
  /-- All elements are. -/
  def OkJs : Js → Prop
    | .nil => True
    | .cons j l => Ok j ∧ OkJs l
  /-- All members are. -/
  def OkMs : Ms → Prop
    | .nil => True
    | .cons k j m => (∀ c ∈ k, OkCh c) ∧ Ok j ∧ OkMs m
end

mutual
  /-- How far the reader has to go for a value. -/
  def cost : J → Nat
    | .arr l => 1 + costJs l
    | .obj m => 1 + costMs m
    | _ => 1
  /-- For elements. -/
  def costJs : Js → Nat
    | .nil => 0
    | .cons j l => 1 + cost j + costJs l
  /-- For members. -/
  def costMs : Ms → Nat
    | .nil => 0
    | .cons _ j m => 1 + cost j + costMs m
end

/-- What may come after a number. -/
def Stop (b : Bytes) : Prop := ∀ c ∈ b.head?, dig c = false ∧ c ≠ 46 ∧ c ≠ 101 ∧ c ≠ 69

theorem stop_cons {c : Byte} {r : Bytes} (h : dig c = false ∧ c ≠ 46 ∧ c ≠ 101 ∧ c ≠ 69) : Stop (c :: r) := by
  intro d hd; simp at hd; subst hd; exact h

/-! ## Reading back -/

theorem ne_of_toNat {a b : Byte} (h : a.toNat ≠ b.toNat) : a ≠ b := fun e => h (by rw [e])

theorem string_esc1 {b : Byte} (h : OkCh (.raw b)) (r : Bytes) :
    string (esc1 b ++ r) = (string r).map fun p => (Ch.raw b :: p.1, p.2) := by
  by_cases h1 : b = 8
  · subst h1; rfl
  by_cases h2 : b = 12
  · subst h2; rfl
  by_cases h3 : b = 10
  · subst h3; rfl
  by_cases h4 : b = 13
  · subst h4; rfl
  by_cases h5 : b = 9
  · subst h5; rfl
  by_cases h6 : b = 34
  · subst h6; rfl
  by_cases h7 : b = 92
  · subst h7; rfl
  have hb : ¬ b < 32 := by
    rcases h with h | h
    · simp only [UInt8.le_iff_toNat_le, UInt8.lt_iff_toNat_lt] at h ⊢; omega
    · simp only [List.mem_cons, List.not_mem_nil, or_false] at h
      rcases h with h | h | h | h | h <;> contradiction
  have e : esc1 b = [b] := by unfold esc1; simp [h1, h2, h3, h4, h5, h6, h7]
  rw [e]
  show string (b :: r) = _
  rw [string.eq_def]
  simp [h6, h7, hb]

theorem string_rstr {s : List Ch} (h : ∀ c ∈ s, OkCh c) (r : Bytes) : string (rstr s ++ 34 :: r) = some (s, r) := by
  induction s with
  | nil => simp only [rstr, List.flatMap_nil, List.nil_append]; rw [string.eq_def]; simp
  | cons c s ih =>
    have h1 := h c (List.mem_cons_self ..)
    have h2 := ih fun d hd => h d (List.mem_cons_of_mem _ hd)
    cases c with
    | u n => exact h1.elim
    | raw b =>
      show string ((esc1 b ++ rstr s) ++ 34 :: r) = _
      rw [List.append_assoc, string_esc1 h1, h2]
      rfl

theorem dig_of_decimal {b : Bytes} {n : Nat} (h : Spec.Decimal b n) : ∀ c ∈ b, dig c = true := by
  intro c hc; have := h.2.1 c hc; simp [dig, this.1, this.2]

theorem takeWhile_dig {b r : Bytes} (h : ∀ c ∈ b, dig c = true) (hr : Stop r) :
    (b ++ r).takeWhile dig = b ∧ (b ++ r).dropWhile dig = r := by
  induction b with
  | nil =>
    cases r with
    | nil => simp
    | cons c r => have := (hr c (by simp)).1; simp [this]
  | cons c b ih =>
    have := ih fun d hd => h d (List.mem_cons_of_mem _ hd)
    simp [h c (List.mem_cons_self ..), this.1, this.2]

theorem digits_eq (b : Bytes) : digits b = Backup.digits b := rfl

theorem decVal_foldl (b : Bytes) (k : Nat) : b.foldl (fun n c => 10 * n + (c.toNat - 48)) k = k * 10 ^ b.length + Spec.decVal b := by
  induction b generalizing k with
  | nil => simp [Spec.decVal]
  | cons c b ih =>
    rw [List.foldl_cons, ih, Spec.decVal, List.length_cons, Nat.pow_succ]
    rw [Nat.add_mul, show 10 * k * 10 ^ b.length = k * (10 ^ b.length * 10) by
      rw [Nat.mul_comm 10 k, Nat.mul_assoc, Nat.mul_comm 10]]
    omega

theorem digits_dec (n : Nat) : digits (Backup.dec n) = n := by
  have := decVal_foldl (Backup.dec n) 0
  rw [Nat.zero_mul, Nat.zero_add, (dec_decimal n).2.2] at this
  exact this

theorem dec_head (n : Nat) : (Backup.dec n).head? = some 48 → n = 0 ∧ Backup.dec n = [48] := by
  induction n using Nat.strongRecOn with
  | _ n ih =>
    rw [Backup.dec]
    by_cases h : n < 10
    · rw [if_pos h]
      intro e
      simp only [List.head?_cons, Option.some.injEq] at e
      have h2 := congrArg UInt8.toNat e
      rw [UInt8.toNat_ofNat', Nat.mod_eq_of_lt (by omega)] at h2
      have : n = 0 := by simp at h2; omega
      subst this; exact ⟨rfl, rfl⟩
    · rw [if_neg h]
      intro e
      have hne : Backup.dec (n / 10) ≠ [] := (dec_decimal _).1
      have e : (Backup.dec (n / 10)).head? = some 48 := by
        cases hq : Backup.dec (n / 10) with
        | nil => exact absurd hq hne
        | cons c b => rw [hq] at e; exact e
      have := (ih (n / 10) (by omega) e).1
      omega

theorem number_dec (n : Nat) {r : Bytes} (hr : Stop r) : number false (Backup.dec n ++ r) = some (nat n, r) := by
  have hd := dec_decimal n
  obtain ⟨h1, h2⟩ := takeWhile_dig (dig_of_decimal hd) hr
  unfold number
  rw [h1, h2]
  have h3 : ¬ (Backup.dec n = [] ∨ ((Backup.dec n).head? = some 48 ∧ 1 < (Backup.dec n).length)) := by
    rintro (h | ⟨h, h'⟩)
    · exact hd.1 h
    · rw [(dec_head n h).2] at h'; simp at h'
  simp only [if_neg h3]
  have hf : fraction r = some ([], r) := by
    cases r with
    | nil => rfl
    | cons c r =>
      have := (hr c (by simp)).2.1
      unfold fraction
      split
      · rename_i heq; simp at heq; exact absurd heq.1 this
      · rfl
  have he : exponent r = some ([], r) := by
    cases r with
    | nil => rfl
    | cons c r =>
      have := (hr c (by simp)).2.2
      unfold exponent
      simp [this.1, this.2]
  rw [hf]
  simp [he, digits_dec, nat]

theorem skip_cons {c : Byte} {r : Bytes} (h : ws c = false) : skip (c :: r) = c :: r := by simp [skip, h]

theorem ws_dig {c : Byte} (h : dig c = true) : ws c = false := by
  simp only [dig, decide_eq_true_eq, UInt8.le_iff_toNat_le] at h
  have h' : 48 ≤ c.toNat := h.1
  simp only [ws, decide_eq_false_iff_not]
  rintro (e | e | e | e) <;> (rw [e] at h'; simp at h')

theorem rv_head (j : J) : ∃ c b, rv j = c :: b ∧ ws c = false ∧ c ≠ 93 ∧ c ≠ 125 := by
  cases j with
  | null => exact ⟨_, _, by rw [rv], by decide⟩
  | bool b => cases b <;> exact ⟨_, _, by rw [rv]; rfl, by decide⟩
  | num neg i f e =>
    have hd := dec_decimal i
    have hdig := dig_of_decimal hd
    cases hb : Backup.dec i with
    | nil => exact absurd hb hd.1
    | cons c b =>
      have hc := hdig c (by rw [hb]; exact List.mem_cons_self ..)
      exact ⟨c, b, by rw [rv, hb], ws_dig hc, by rintro rfl; revert hc; decide, by rintro rfl; revert hc; decide⟩
  | str s => exact ⟨_, _, by rw [rv], by decide⟩
  | arr l =>
    cases l with
    | nil => exact ⟨_, _, by rw [rv], by decide⟩
    | cons j l => exact ⟨_, _, by rw [rv], by decide⟩
  | obj m =>
    cases m with
    | nil => exact ⟨_, _, by rw [rv], by decide⟩
    | cons k j l => exact ⟨_, _, by rw [rv], by decide⟩

mutual
theorem value_rv (j : J) (hj : Ok j) (n : Nat) (hn : cost j ≤ n) (r : Bytes) (hr : Stop r) : value n (rv j ++ r) = some (j, r) := by
  cases n with
  | zero => exfalso; cases j <;> (simp only [cost] at hn; omega)
  | succ n =>
    cases j with
    | null => rw [rv, value]; simp [skip, ws, dig, word]
    | bool b => cases b <;> (rw [rv, value]; simp [Json.bool, skip, ws, dig, word])
    | num neg i f e =>
      obtain ⟨rfl, rfl, rfl⟩ := hj
      rw [rv, value]
      have hd := dec_decimal i
      have hdig := dig_of_decimal hd
      have hnum := number_dec i hr
      cases hb : Backup.dec i with
      | nil => exact absurd hb hd.1
      | cons c b =>
        rw [hb] at hdig hnum
        have hc := hdig c (List.mem_cons_self ..)
        rw [List.cons_append, skip_cons (ws_dig hc)]
        have hc' := hc
        simp only [dig, decide_eq_true_eq, UInt8.le_iff_toNat_le] at hc'
        have e1 : c ≠ 123 := by rintro rfl; revert hc; decide
        have e2 : c ≠ 91 := by rintro rfl; revert hc; decide
        have e3 : c ≠ 34 := by rintro rfl; revert hc; decide
        have e4 : c ≠ 45 := by rintro rfl; revert hc; decide
        simp only [e1, e2, e3, e4, if_false, hc, if_true]
        exact hnum
    | str s =>
      rw [rv, value, List.cons_append, skip_cons (by decide), List.append_assoc]
      simp only [List.cons_append, List.nil_append]
      rw [string_rstr hj]
      simp
    | arr l =>
      cases l with
      | nil => rw [rv, value]; simp [skip, ws]
      | cons j l =>
        have h1 : Ok j ∧ OkJs l := hj
        simp only [cost, costJs] at hn
        have he := elements_rv j l h1.1 h1.2 n (by omega) r hr
        rw [rv, value, List.cons_append, skip_cons (by decide)]
        simp only [show ((91 : Byte) = 123) = False by simp, if_false, if_true]
        obtain ⟨c, b, hc, hw, h93⟩ := rv_head j
        rw [List.append_assoc, hc, List.cons_append] at he
        rw [List.append_assoc, hc, List.cons_append]
        rw [skip_cons hw]
        simp only [h93.1, if_false]
        rw [he]
        rfl
    | obj m =>
      cases m with
      | nil => rw [rv, value]; simp [skip, ws]
      | cons k j m =>
        have h1 : (∀ c ∈ k, OkCh c) ∧ Ok j ∧ OkMs m := hj
        simp only [cost, costMs] at hn
        have he := members_rv k j m h1.1 h1.2.1 h1.2.2 n (by omega) r hr
        rw [rv, value, List.cons_append, skip_cons (by decide)]
        simp only [if_true]
        simp only [List.cons_append, List.append_assoc] at he ⊢
        rw [skip_cons (by decide)]
        simp only [show ((34 : Byte) = 125) = False by simp, if_false]
        rw [he]
        rfl
termination_by n
theorem elements_rv (j : J) (l : Js) (hj : Ok j) (hl : OkJs l) (n : Nat) (hn : 1 + cost j + costJs l ≤ n) (r : Bytes) (hr : Stop r) :
    elements n (rv j ++ rjs l ++ r) = some (.cons j l, r) := by
  cases n with
  | zero => omega
  | succ n =>
    have hv := value_rv j hj n (by omega) (rjs l ++ r) (by
      cases l with
      | nil => exact stop_cons (by decide)
      | cons j l => exact stop_cons (by decide))
    rw [elements, List.append_assoc, hv]
    cases l with
    | nil => simp [rjs, skip, ws]
    | cons j' l =>
      have h1 : Ok j' ∧ OkJs l := hl
      simp only [costJs] at hn
      have he := elements_rv j' l h1.1 h1.2 n (by omega) r hr
      simp only [rjs, List.cons_append]
      rw [skip_cons (by decide)]
      simp only [show ((44 : Byte) = 93) = False by simp, if_false, if_true]
      rw [he]
      rfl
termination_by n
theorem members_rv (k : List Ch) (j : J) (m : Ms) (hk : ∀ c ∈ k, OkCh c) (hj : Ok j) (hm : OkMs m) (n : Nat)
    (hn : 1 + cost j + costMs m ≤ n) (r : Bytes) (hr : Stop r) :
    members n (34 :: (rstr k ++ 34 :: 58 :: (rv j ++ rms m)) ++ r) = some (.cons k j m, r) := by
  cases n with
  | zero => omega
  | succ n =>
    have hv := value_rv j hj n (by omega) (rms m ++ r) (by
      cases m with
      | nil => exact stop_cons (by decide)
      | cons k j l => exact stop_cons (by decide))
    rw [members, List.cons_append, skip_cons (by decide)]
    simp only [ne_eq, not_true_eq_false, if_false, List.append_assoc, List.cons_append]
    rw [string_rstr hk]
    simp only
    rw [skip_cons (by decide)]
    simp only [not_true_eq_false, if_false]
    rw [hv]
    cases m with
    | nil => simp [rms, skip, ws]
    | cons k' j' m =>
      have h1 : (∀ c ∈ k', OkCh c) ∧ Ok j' ∧ OkMs m := hm
      simp only [costMs] at hn
      have he := members_rv k' j' m h1.1 h1.2.1 h1.2.2 n (by omega) r hr
      simp only [rms, List.cons_append, List.append_assoc] at he ⊢
      rw [skip_cons (by decide)]
      simp only [show ((44 : Byte) = 125) = False by simp, if_false, if_true]
      rw [he]
      rfl
termination_by n
end

/-! ## Costs and characters -/

theorem esc1_ge {b : Byte} (h : OkCh (.raw b)) : ∀ c ∈ esc1 b, 32 ≤ c := by
  intro c hc
  unfold esc1 at hc
  by_cases h1 : b = 8
  · subst h1; revert c; decide
  by_cases h2 : b = 12
  · subst h2; revert c; decide
  by_cases h3 : b = 10
  · subst h3; revert c; decide
  by_cases h4 : b = 13
  · subst h4; revert c; decide
  by_cases h5 : b = 9
  · subst h5; revert c; decide
  simp only [h1, h2, h3, h4, h5, if_false] at hc
  have hb : 32 ≤ b := by
    rcases h with h | h
    · exact h
    · simp only [List.mem_cons, List.not_mem_nil, or_false] at h
      rcases h with h | h | h | h | h <;> contradiction
  split at hc
  · simp only [List.mem_cons, List.not_mem_nil, or_false] at hc
    rcases hc with rfl | rfl
    · decide
    · exact hb
  · simp only [List.mem_cons, List.not_mem_nil, or_false] at hc
    subst hc; exact hb

theorem rstr_ge {s : List Ch} (h : ∀ c ∈ s, OkCh c) : ∀ c ∈ rstr s, 32 ≤ c := by
  intro c hc
  obtain ⟨x, hx, hc⟩ := List.mem_flatMap.1 hc
  cases x with
  | u n => exact (h _ hx).elim
  | raw b => exact esc1_ge (h _ hx) c hc

theorem dec_ge (n : Nat) : ∀ c ∈ Backup.dec n, (32 : Byte) ≤ c := by
  intro c hc
  have := ((dec_decimal n).2.1 c hc).1
  simp only [UInt8.le_iff_toNat_le] at this ⊢
  exact Nat.le_trans (by decide) this

mutual
theorem rv_ge (j : J) (h : Ok j) : ∀ c ∈ rv j, 32 ≤ c := by
  cases j with
  | null => rw [rv]; decide
  | bool b => cases b <;> (rw [rv]; decide)
  | num neg i f e => rw [rv]; exact dec_ge i
  | str s =>
    intro c hc
    rw [rv] at hc
    simp only [List.mem_cons, List.mem_append, List.not_mem_nil, or_false] at hc
    rcases hc with rfl | hc | rfl
    · decide
    · exact rstr_ge h c hc
    · decide
  | arr l =>
    cases l with
    | nil => rw [rv]; decide
    | cons j l =>
      have h1 : Ok j ∧ OkJs l := h
      intro c hc
      rw [rv] at hc
      simp only [List.mem_cons, List.mem_append] at hc
      rcases hc with rfl | hc | hc
      · decide
      · exact rv_ge j h1.1 c hc
      · exact rjs_ge l h1.2 c hc
  | obj m =>
    cases m with
    | nil => rw [rv]; decide
    | cons k j l =>
      have h1 : (∀ c ∈ k, OkCh c) ∧ Ok j ∧ OkMs l := h
      intro c hc
      rw [rv] at hc
      simp only [List.mem_cons, List.mem_append] at hc
      rcases hc with rfl | rfl | hc | rfl | rfl | hc | hc
      · decide
      · decide
      · exact rstr_ge h1.1 c hc
      · decide
      · decide
      · exact rv_ge j h1.2.1 c hc
      · exact rms_ge l h1.2.2 c hc
theorem rjs_ge (l : Js) (h : OkJs l) : ∀ c ∈ rjs l, 32 ≤ c := by
  cases l with
  | nil => rw [rjs]; decide
  | cons j l =>
    have h1 : Ok j ∧ OkJs l := h
    intro c hc
    rw [rjs] at hc
    simp only [List.mem_cons, List.mem_append] at hc
    rcases hc with rfl | hc | hc
    · decide
    · exact rv_ge j h1.1 c hc
    · exact rjs_ge l h1.2 c hc
theorem rms_ge (l : Ms) (h : OkMs l) : ∀ c ∈ rms l, 32 ≤ c := by
  cases l with
  | nil => rw [rms]; decide
  | cons k j l =>
    have h1 : (∀ c ∈ k, OkCh c) ∧ Ok j ∧ OkMs l := h
    intro c hc
    rw [rms] at hc
    simp only [List.mem_cons, List.mem_append] at hc
    rcases hc with rfl | rfl | hc | rfl | rfl | hc | hc
    · decide
    · decide
    · exact rstr_ge h1.1 c hc
    · decide
    · decide
    · exact rv_ge j h1.2.1 c hc
    · exact rms_ge l h1.2.2 c hc
end

mutual
theorem cost_le (j : J) : cost j ≤ (rv j).length := by
  cases j with
  | null => rw [rv]; simp [cost]
  | bool b => cases b <;> (rw [rv]; simp [cost, Json.bool])
  | num neg i f e =>
    rw [rv]
    have := (dec_decimal i).1
    simp only [cost]
    exact Nat.succ_le_of_lt (List.length_pos_iff.2 this)
  | str s => rw [rv]; simp [cost]
  | arr l =>
    cases l with
    | nil => rw [rv]; simp [cost, costJs]
    | cons j l =>
      have h1 := cost_le j
      have h2 := costJs_le l
      rw [rv]; simp only [cost, costJs, List.length_cons, List.length_append]; omega
  | obj m =>
    cases m with
    | nil => rw [rv]; simp [cost, costMs]
    | cons k j l =>
      have h1 := cost_le j
      have h2 := costMs_le l
      rw [rv]; simp only [cost, costMs, List.length_cons, List.length_append]; omega
theorem costJs_le (l : Js) : costJs l + 1 ≤ (rjs l).length := by
  cases l with
  | nil => rw [rjs]; simp [costJs]
  | cons j l =>
    have h1 := cost_le j
    have h2 := costJs_le l
    rw [rjs]; simp only [costJs, List.length_cons, List.length_append]; omega
theorem costMs_le (l : Ms) : costMs l + 1 ≤ (rms l).length := by
  cases l with
  | nil => rw [rms]; simp [costMs]
  | cons k j l =>
    have h1 := cost_le j
    have h2 := costMs_le l
    rw [rms]; simp only [costMs, List.length_cons, List.length_append]; omega
end

/-! ## Many values -/

/-- Rendered values one after the other, with line ends anywhere between them. -/
inductive Renders : List J → Bytes → Prop
  | nil : Renders [] []
  | nl {js b} : Renders js b → Renders js (10 :: b)
  | cons {j js b} : Ok j → Stop b → Renders js b → Renders (j :: js) (rv j ++ b)

theorem value_nl (n : Nat) (b : Bytes) : value n (10 :: b) = value n b := by
  cases n with
  | zero => rfl
  | succ n => rw [value, value]; rfl

theorem values_nl (n : Nat) (b : Bytes) : values n (10 :: b) = values n b := by
  cases n with
  | zero => rfl
  | succ n =>
    rw [values, values, value_nl]
    rfl

theorem cost_pos (j : J) : 1 ≤ cost j := by cases j <;> (simp only [cost]; omega)

theorem skip_rv (j : J) (b : Bytes) : skip (rv j ++ b) = rv j ++ b := by
  obtain ⟨c, r, h, hw, _⟩ := rv_head j
  rw [h, List.cons_append, skip_cons hw]

theorem Renders.values {js : List J} {b : Bytes} (h : Renders js b) : ∀ n, b.length + 1 ≤ n → values n b = some js := by
  induction h with
  | nil => intro n hn; cases n with
    | zero => omega
    | succ n => rfl
  | nl _ ih => intro n hn; rw [values_nl]; exact ih n (by simp only [List.length_cons] at hn; omega)
  | @cons j js b hj hs _ ih =>
    intro n hn
    cases n with
    | zero => omega
    | succ n =>
      have h1 := cost_le j
      have h2 := cost_pos j
      simp only [List.length_append] at hn
      have h3 := value_rv j hj n (by omega) b hs
      rw [Spec.Json.values, skip_rv, if_neg, h3]
      · simp only
        rw [ih n (by omega)]
        rfl
      · obtain ⟨c, r, h, _⟩ := rv_head j
        rw [h]; simp

theorem Renders.read {js : List J} {b : Bytes} (h : Renders js b) : read b = some js := h.values _ (by omega)

end Scribbu.Json
