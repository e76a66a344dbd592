import Verif.Proofs.Url

/-! Properties C16 and C17: URL encoding. -/

namespace Scribbu.Props
open Scribbu Scribbu.Spec

/-- **C16** Decoding inverts encoding, for every byte string. -/
theorem C16_round_trip (s : Bytes) : urldecode (urlencode s) = .ok s := by
  rw [urldecode_eq]; exact (udec_of_decodes (urlencode_decodes s).1).1

/-- **C16** The encoder emits only unreserved characters and complete escapes. -/
theorem C16_alphabet (s : Bytes) : Encoded (urlencode s) := (urlencode_decodes s).2

example : urlencode [0x61, 0x20, 0x25, 0xff] =
    [0x61, 0x25, 0x32, 0x30, 0x25, 0x32, 0x35, 0x25, 0x66, 0x66] := by decide
example : urldecode [0x25, 0x46, 0x66, 0x25, 0x25] = .ok [0xff, 0x25] := by decide

/-- **C17** The decoder returns or throws `invalid_argument`; it never reads
outside the text; what it returns is no longer than its input. -/
theorem C17_total (t : Bytes) :
    (∃ o, urldecode t = .ok o ∧ o.length ≤ t.length) ∨ urldecode t = .throw .invalidArgument := by
  rw [urldecode_eq]
  rcases udec_inv t.length t (Nat.le_refl _) with ⟨o, ho, h | ⟨t', rfl, h⟩⟩ | h
  · exact .inl ⟨o, ho, decodes_length h⟩
  · exact .inl ⟨o, ho, by have := decodes_length h; simp; omega⟩
  · exact .inr h

/-- The remaining claim of C17: only well-formed text is accepted. -/
def C17_strict_claim : Prop := ∀ t o, urldecode t = .ok o → Decodes t o

/-- **C17** (refuted) A lone trailing `%` is accepted (and dropped). -/
theorem C17_refuted : ¬ C17_strict_claim := by
  intro h
  have := h [0x25] [] (by decide)
  cases this

/-- **C17** (partial) Exactly what is accepted: well-formed text, optionally
followed by one lone `%`. Missing: rejection of that trailing `%`. -/
theorem C17_accepts_partial (t o : Bytes) :
    urldecode t = .ok o ↔ (Decodes t o ∨ ∃ t', t = t' ++ [0x25] ∧ Decodes t' o) := by
  rw [urldecode_eq]
  constructor
  · intro h
    rcases udec_inv t.length t (Nat.le_refl _) with ⟨o', ho, hd⟩ | hd
    · rw [h] at ho
      cases ho
      exact hd
    · rw [h] at hd; cases hd
  · rintro (h | ⟨t', rfl, h⟩)
    · exact (udec_of_decodes h).1
    · exact (udec_of_decodes h).2

example : urldecode [0x61, 0x25, 0x34] = .throw .invalidArgument := by decide
example : urldecode [0x25, 0x34, 0x67] = .throw .invalidArgument := by decide
example : urldecode [0x61, 0x25] = .ok [0x61] := by decide

end Scribbu.Props
