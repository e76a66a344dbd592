import Verif.Model.Errors

/-! # Messages of exceptions (C193) -/

namespace Scribbu.Spec.Errors
open Scribbu Scribbu.Errors

/-- Characters that can be seen, and spaces; no ends of lines. -/
def Seen (s : Bytes) : Prop := ∀ b ∈ s, 32 ≤ b ∧ b ≠ 127

/-- The identifier of a frame that can be seen. -/
def PlainName : FrameName → Prop
  | .three a b c => (32 ≤ a ∧ a ≠ 127) ∧ (32 ≤ b ∧ b ≠ 127) ∧ (32 ≤ c ∧ c ≠ 127)
  | .four a b c d => (32 ≤ a ∧ a ≠ 127) ∧ (32 ≤ b ∧ b ≠ 127) ∧ (32 ≤ c ∧ c ≠ 127) ∧ (32 ≤ d ∧ d ≠ 127)

/-- All that is not of the program itself in what an exception is about (identifiers, names, messages of the system) can be seen; there is no
apostrophe in messages of the system. -/
def Plain : Err → Prop
  | .duplicateFrame f _ => PlainName f
  | .unknownFrame f => PlainName f
  | .reservedFrame f => PlainName f
  | .badUnicode b => 32 ≤ b ∧ b ≠ 127
  | .iconv e => Seen e
  | .fileOpen n e => Seen n ∧ Seen e ∧ (39 : Byte) ∉ e
  | .fileNotFound p => Seen p
  | .missingSource _ (some t) => Seen t
  | _ => True

end Scribbu.Spec.Errors
