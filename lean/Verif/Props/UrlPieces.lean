import Verif.Props.Url

/-! Property C205: texts can be URL-encoded and decoded in pieces. -/

namespace Scribbu.Props
open Scribbu Scribbu.Spec

/-- **C205** Encoding in pieces. -/
theorem C205_encode (ps : List Bytes) : urlencode ps.flatten = (ps.map urlencode).flatten := by
  have two : ∀ a b : Bytes, urlencode (a ++ b) = urlencode a ++ urlencode b := by
    intro a b
    induction a with
    | nil => rfl
    | cons c a ih => rw [List.cons_append, urlencode, urlencode, ih, List.append_assoc]
  induction ps with
  | nil => rfl
  | cons p ps ih => rw [List.flatten_cons, two, ih]; rfl

/-- **C205** as claimed of decoding: where two pieces can be decoded, so can they together, to the two texts one after the other. -/
def C205_claim : Prop := ∀ a b x y : Bytes, urldecode a = .ok x → urldecode b = .ok y → urldecode (a ++ b) = .ok (x ++ y)

/-- **Finding** (C205) A percent sign at the end of a text is decoded to nothing (C17): so `%` and `41` can be decoded, to nothing and to `41`, but together they are the letter A. -/
theorem C205_refuted : ¬ C205_claim := by
  intro h
  have := h [0x25] [0x34, 0x31] [] [0x34, 0x31] (by decide) (by decide)
  revert this
  decide

/-- **C205** for a first piece that is well-formed, and any second piece: what comes out is the text of the first and then what comes out of the second; if the second cannot be decoded,
the whole cannot. Missing: first pieces that end in a single percent sign. -/
theorem C205_decode_partial (a x b : Bytes) (h : Decodes a x) : urldecode (a ++ b) = (urldecode b).bind fun y => .ok (x ++ y) := by
  rw [urldecode_eq, urldecode_eq]
  induction h with
  | nil => rw [List.nil_append]; cases udec false b <;> rfl
  | @plain c t o hc _ ih =>
    rw [List.cons_append, udec, if_neg hc, ih]
    cases udec false b <;> rfl
  | @pct t o _ ih =>
    rw [List.cons_append, List.cons_append, udec, if_pos rfl, udec_true, if_pos rfl, ih]
    cases udec false b <;> rfl
  | @esc p q u v t o hp hq _ ih =>
    rw [List.cons_append, List.cons_append, List.cons_append, udec, if_pos rfl, udec_true, if_neg (hexVal_of hp).2]
    simp only [(hexVal_of hp).1, (hexVal_of hq).1, Res.ok_bind, ih]
    cases udec false b <;> rfl

/-- **C205** Nothing of this can go wrong with texts that were encoded: any number of them, put together, are decoded at once to the texts one after the other. -/
theorem C205_encoded (ps : List Bytes) : urldecode (ps.map urlencode).flatten = .ok ps.flatten := by
  rw [← C205_encode]
  exact C16_round_trip _

/-- **C205** An encoded text begins with another exactly if the texts do. -/
theorem C205_prefix (a b : Bytes) : urlencode a <+: urlencode b ↔ a <+: b := by
  constructor
  · rintro ⟨t, h⟩
    have h1 := C205_decode_partial (urlencode a) a t (urlencode_decodes a).1
    rw [h, C16_round_trip] at h1
    obtain ⟨y, -, h2⟩ := Res.bind_eq_ok.1 h1.symm
    exact ⟨y, Res.ok.inj h2⟩
  · rintro ⟨t, rfl⟩
    have := C205_encode [a, t]
    simp only [List.flatten_cons, List.flatten_nil, List.append_nil, List.map_cons, List.map_nil] at this
    exact ⟨urlencode t, this.symm⟩

/-- `a%20` before `%zz`, which cannot be decoded, and before `b`. -/
example : Decodes [0x61, 0x25, 0x32, 0x30] [0x61, 0x20] ∧ urldecode ([0x61, 0x25, 0x32, 0x30] ++ [0x25, 0x7a, 0x7a]) = .throw .invalidArgument ∧
    urldecode ([0x61, 0x25, 0x32, 0x30] ++ [0x62]) = .ok [0x61, 0x20, 0x62] := by
  refine ⟨.plain (by decide) (.esc (x := 2) (y := 0) (.inl ⟨2, by decide⟩) (.inl ⟨0, by decide⟩) .nil), by decide, by decide⟩

end Scribbu.Props
