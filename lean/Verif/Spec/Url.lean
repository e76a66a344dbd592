import Verif.Model.Basic

/-! Independent grammar of %-encoded text. -/

namespace Scribbu.Spec

/-- `c` is a hex digit (either case) of value `n`. -/
def HexDigit (c : Byte) (n : Nat) : Prop :=
  (∃ k, k < 10 ∧ c.toNat = 48 + k ∧ n = k) ∨ (∃ k, k < 6 ∧ c.toNat = 97 + k ∧ n = 10 + k) ∨
  (∃ k, k < 6 ∧ c.toNat = 65 + k ∧ n = 10 + k)

/-- `Decodes t o`: `t` is well-formed %-encoded text for the bytes `o`. -/
inductive Decodes : Bytes → Bytes → Prop
  | nil : Decodes [] []
  | plain {c t o} : c ≠ 0x25 → Decodes t o → Decodes (c :: t) (c :: o)
  | pct {t o} : Decodes t o → Decodes (0x25 :: 0x25 :: t) (0x25 :: o)
  | esc {a b x y t o} : HexDigit a x → HexDigit b y → Decodes t o →
      Decodes (0x25 :: a :: b :: t) (UInt8.ofNat (16 * x + y) :: o)

/-- RFC 3986 unreserved characters: letters, digits, `-`, `_`, `.`, `~`. -/
def Unreserved (c : Byte) : Prop :=
  (65 ≤ c.toNat ∧ c.toNat ≤ 90) ∨ (97 ≤ c.toNat ∧ c.toNat ≤ 122) ∨
  (48 ≤ c.toNat ∧ c.toNat ≤ 57) ∨ c.toNat ∈ [45, 95, 46, 126]

/-- Text made of unreserved characters and complete `%xx` escapes. -/
inductive Encoded : Bytes → Prop
  | nil : Encoded []
  | plain {c t} : Unreserved c → Encoded t → Encoded (c :: t)
  | esc {a b x y t} : HexDigit a x → HexDigit b y → Encoded t → Encoded (0x25 :: a :: b :: t)

end Scribbu.Spec
