import Verif.Model.TemplateEval
import Verif.Spec.Template

/-! # Lemmas on the text transformations of templates -/

namespace Scribbu.Tbt
open Scribbu.Spec

theorem upper_toNat (c : UInt8) : (upper c).toNat = if 97 ≤ c.toNat ∧ c.toNat ≤ 122 then c.toNat - 32 else c.toNat := by
  unfold upper
  by_cases h : 97 ≤ c ∧ c ≤ 122
  · have h' : 97 ≤ c.toNat ∧ c.toNat ≤ 122 := by
      simpa [UInt8.le_iff_toNat_le] using h
    rw [if_pos h, if_pos h', UInt8.toNat_sub_of_le]
    · rfl
    · rw [UInt8.le_iff_toNat_le]
      show 32 ≤ c.toNat
      omega
  · have h' : ¬ (97 ≤ c.toNat ∧ c.toNat ≤ 122) := by
      simpa [UInt8.le_iff_toNat_le] using h
    rw [if_neg h, if_neg h']

theorem lower_toNat (c : UInt8) : (lower c).toNat = if 65 ≤ c.toNat ∧ c.toNat ≤ 90 then c.toNat + 32 else c.toNat := by
  unfold lower
  by_cases h : 65 ≤ c ∧ c ≤ 90
  · have h' : 65 ≤ c.toNat ∧ c.toNat ≤ 90 := by
      simpa [UInt8.le_iff_toNat_le] using h
    rw [if_pos h, if_pos h', UInt8.toNat_add]
    show (c.toNat + 32) % 256 = _
    omega
  · have h' : ¬ (65 ≤ c.toNat ∧ c.toNat ≤ 90) := by
      simpa [UInt8.le_iff_toNat_le] using h
    rw [if_neg h, if_neg h']

theorem upper_eq_iff (a b : UInt8) : upper a = upper b ↔ SameLetter a b := by
  have h : upper a = upper b ↔ (upper a).toNat = (upper b).toNat := UInt8.toNat_inj.symm
  rw [h, upper_toNat, upper_toNat]
  unfold SameLetter
  have ha : a = b ↔ a.toNat = b.toNat := UInt8.toNat_inj.symm
  rw [ha]
  split <;> split <;> omega

theorem iequals_iff (a b : Bytes) : iequals a b = true ↔ SameText a b := by
  unfold iequals
  rw [beq_iff_eq]
  induction a generalizing b with
  | nil => cases b <;> simp [SameText]
  | cons x a ih =>
    cases b with
    | nil => simp [SameText]
    | cons y b => simp [SameText, ih, upper_eq_iff]

theorem _root_.Scribbu.Spec.SameText.length {a b : Bytes} (h : SameText a b) : a.length = b.length := by
  induction a generalizing b with
  | nil => cases b <;> simp_all [SameText]
  | cons x a ih =>
    cases b with
    | nil => simp [SameText] at h
    | cons y b => simp [ih h.2]

theorem _root_.Scribbu.Spec.SameText.refl (a : Bytes) : SameText a a := by
  induction a with
  | nil => trivial
  | cons x a ih => exact ⟨.inl rfl, ih⟩

theorem _root_.Scribbu.Spec.SameText.append {a b c d : Bytes} (h : SameText a b) (h' : SameText c d) : SameText (a ++ c) (b ++ d) := by
  induction a generalizing b with
  | nil => cases b with | nil => exact h' | cons => simp [SameText] at h
  | cons x a ih =>
    cases b with
    | nil => simp [SameText] at h
    | cons y b => exact ⟨h.1, ih h.2⟩

theorem doThe_suffix {art rest : Bytes} (h : SameText thePrefix art) (hr : rest ≠ []) :
    doThe (art ++ rest) .makeSuffix = rest ++ theSuffix := by
  have h4 : art.length = 4 := by rw [← h.length]; rfl
  have h1 : 0 < rest.length := List.length_pos_iff.mpr hr
  simp only [doThe]
  rw [if_pos]
  · rw [← h4, List.drop_left]
  · refine ⟨by rw [List.length_append]; omega, ?_⟩
    rw [← h4, List.take_left]
    exact (iequals_iff _ _).mpr h

theorem doThe_prefix {art rest : Bytes} (h : SameText theSuffix art) :
    doThe (rest ++ art) .makePrefix = thePrefix ++ rest := by
  have h5 : art.length = 5 := by rw [← h.length]; rfl
  have h6 : (rest ++ art).length - 5 = rest.length := by rw [List.length_append]; omega
  simp only [doThe]
  rw [if_pos]
  · rw [h6, List.take_left]
  · refine ⟨by rw [List.length_append]; omega, ?_⟩
    rw [h6, List.drop_left]
    exact (iequals_iff _ _).mpr h

theorem doThe_suffix_other {text : Bytes} (h : ¬ ∃ art rest, text = art ++ rest ∧ SameText thePrefix art ∧ rest ≠ []) :
    doThe text .makeSuffix = text := by
  simp only [doThe]
  rw [if_neg]
  rintro ⟨h1, h2⟩
  refine h ⟨text.take 4, text.drop 4, (List.take_append_drop 4 text).symm, (iequals_iff _ _).mp h2, ?_⟩
  intro h3
  have := congrArg List.length h3
  simp at this
  omega

theorem doThe_prefix_other {text : Bytes} (h : ¬ ∃ rest art, text = rest ++ art ∧ SameText theSuffix art) :
    doThe text .makePrefix = text := by
  simp only [doThe]
  rw [if_neg]
  rintro ⟨h1, h2⟩
  exact h ⟨_, _, (List.take_append_drop (text.length - 5) text).symm, (iequals_iff _ _).mp h2⟩

/-! ### Blanks -/

theorem blank_iff (c : UInt8) : blank c = true ↔ ¬ NotBlank c := by
  unfold blank NotBlank
  simp only [Bool.or_eq_true, beq_iff_eq]
  constructor
  · rintro (h | h) h' <;> simp_all
  · intro h
    by_cases h1 : c = 32
    · exact .inl h1
    · by_cases h2 : c = 9
      · exact .inr h2
      · exact absurd ⟨h1, h2⟩ h

theorem splitBlanks_ne (t : Bytes) : splitBlanks t ≠ [] := by
  cases t with
  | nil => simp [splitBlanks]
  | cons c t =>
    unfold splitBlanks
    split
    · simp
    · cases splitBlanks t <;> simp

theorem join_cons (sep w : Bytes) (ws : List Bytes) (h : ws ≠ []) : join sep (w :: ws) = w ++ sep ++ join sep ws := by
  cases ws with
  | nil => exact absurd rfl h
  | cons => rfl

theorem join_replaced (r t : Bytes) : Replaced r t (join r (splitBlanks t)) := by
  induction t with
  | nil => exact .nil
  | cons c t ih =>
    unfold splitBlanks
    by_cases h : blank c = true
    · rw [if_pos h, join_cons _ _ _ (splitBlanks_ne t)]
      exact .blank c ((blank_iff c).mp h) ih
    · rw [if_neg h]
      have h' : NotBlank c := by
        have := mt (blank_iff c).mpr h
        exact Classical.not_not.mp this
      cases hs : splitBlanks t with
      | nil => exact absurd hs (splitBlanks_ne t)
      | cons w ws =>
        rw [hs] at ih
        have : join r ((c :: w) :: ws) = c :: join r (w :: ws) := by
          cases ws <;> simp [join]
        show Replaced r (c :: t) (join r ((c :: w) :: ws))
        rw [this]
        exact .keep c h' ih

theorem _root_.Scribbu.Spec.Replaced.unique {r t u v : Bytes} (h : Replaced r t u) (h' : Replaced r t v) : u = v := by
  induction h generalizing v with
  | nil => cases h'; rfl
  | keep c hc _ ih =>
    cases h' with
    | keep _ _ h2 => rw [ih h2]
    | blank _ hb _ => exact absurd hc hb
  | blank c hb _ ih =>
    cases h' with
    | keep _ hc _ => exact absurd hc hb
    | blank _ _ h2 => rw [ih h2]

/-! ### Escaping -/

theorem special_iff (c : UInt8) : special c = true ↔ Special c := by
  unfold special Special
  simp only [Bool.or_eq_true, beq_iff_eq, List.mem_cons, List.not_mem_nil, or_false]
  constructor
  · rintro (((((((h | h) | h) | h) | h) | h) | h) | h) <;> simp [h]
  · rintro (h | h | h | h | h | h | h | h) <;> simp [h]

/-- What ends a text in the scanner. -/
def Stops (rest : Bytes) : Prop := ∀ c cs, rest = c :: cs → Special c ∧ c ≠ 92

theorem textSpan_stop {rest : Bytes} (h : Stops rest) : textSpan rest = ([], rest) := by
  match rest, h with
  | [], _ => rfl
  | [c], h =>
    have := h c [] rfl
    unfold textSpan
    rw [if_pos ((special_iff c).mpr this.1)]
  | c :: d :: r, h =>
    have := h c (d :: r) rfl
    unfold textSpan
    rw [if_neg this.2, if_pos ((special_iff c).mpr this.1)]

theorem textSpan_plain {c : UInt8} (h : ¬ Special c) (r : Bytes) :
    textSpan (c :: r) = (c :: (textSpan r).1, (textSpan r).2) := by
  have h1 : special c = false := by
    rw [← Bool.not_eq_true]
    exact mt (special_iff c).mp h
  have h2 : c ≠ 92 := by
    rintro rfl
    exact h (by decide)
  cases r with
  | nil =>
    unfold textSpan
    rw [h1]
    rfl
  | cons d r =>
    conv => lhs; unfold textSpan
    rw [if_neg h2, h1]
    rfl

theorem textSpan_escaped {c : UInt8} (h : Special c) (r : Bytes) :
    textSpan (92 :: c :: r) = (92 :: c :: (textSpan r).1, (textSpan r).2) := by
  conv => lhs; unfold textSpan
  rw [if_pos rfl, if_pos ((special_iff c).mpr h)]

theorem textSpan_escape (b : Bytes) {rest : Bytes} (h : Stops rest) : textSpan (escape b ++ rest) = (escape b, rest) := by
  induction b with
  | nil => exact textSpan_stop h
  | cons c b ih =>
    unfold escape
    by_cases hc : Special c
    · rw [if_pos hc]
      show textSpan (92 :: c :: (escape b ++ rest)) = _
      rw [textSpan_escaped hc, ih]
    · rw [if_neg hc]
      show textSpan (c :: (escape b ++ rest)) = _
      rw [textSpan_plain hc, ih]

theorem unescapable_of {c : UInt8} (h : Special c) (h' : c ≠ 61) : unescapable c = true := by
  unfold Special at h
  simp only [List.mem_cons, List.not_mem_nil, or_false] at h
  rcases h with h | h | h | h | h | h | h | h <;> first | (subst h; decide) | exact absurd h h'

theorem unescape_escape {b : Bytes} (h : 61 ∉ b) : unescape (escape b) = b := by
  unfold unescape
  induction b with
  | nil => rfl
  | cons c b ih =>
    rw [List.mem_cons, not_or] at h
    unfold escape
    by_cases hc : Special c
    · rw [if_pos hc]
      show unescapeLoop true (c :: escape b) = _
      show (if unescapable c = true then [c] else [92, c]) ++ unescapeLoop false (escape b) = _
      rw [if_pos (unescapable_of hc (Ne.symm h.1)), ih h.2]
      rfl
    · rw [if_neg hc]
      have h2 : c ≠ 92 := by
        rintro rfl
        exact hc (by decide)
      show (if c = 92 then _ else c :: unescapeLoop false (escape b)) = _
      rw [if_neg h2, ih h.2]

theorem escape_ne {b : Bytes} (h : b ≠ []) : escape b ≠ [] := by
  cases b with
  | nil => exact absurd rfl h
  | cons c b => unfold escape; split <;> simp

theorem mem_escape {b : Bytes} {c : UInt8} (h : c ∈ escape b) : c ∈ b ∨ c = 92 := by
  induction b with
  | nil => simp [escape] at h
  | cons d b ih =>
    unfold escape at h
    split at h
    · simp only [List.mem_cons] at h ⊢
      rcases h with h | h | h
      · exact .inr h
      · exact .inl (.inl h)
      · rcases ih h with h | h
        · exact .inl (.inr h)
        · exact .inr h
    · simp only [List.mem_cons] at h ⊢
      rcases h with h | h
      · exact .inl (.inl h)
      · rcases ih h with h | h
        · exact .inl (.inr h)
        · exact .inr h

end Scribbu.Tbt
