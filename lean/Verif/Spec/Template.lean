import Verif.Model.Basic

/-!
# What template transformations should do, said without the code
-/

namespace Scribbu.Spec

/-- The same letter, in either case. -/
def SameLetter (a b : UInt8) : Prop :=
  a = b ∨ (65 ≤ a.toNat ∧ a.toNat ≤ 90 ∧ b.toNat = a.toNat + 32) ∨ (65 ≤ b.toNat ∧ b.toNat ≤ 90 ∧ a.toNat = b.toNat + 32)

/-- The same text up to the case of letters. -/
def SameText : List UInt8 → List UInt8 → Prop
  | [], [] => True
  | a :: as, b :: bs => SameLetter a b ∧ SameText as bs
  | _, _ => False

/-- `The` -/
def the : List UInt8 := [84, 104, 101]

/-- Neither a space nor a tab. -/
def NotBlank (c : UInt8) : Prop := c ≠ 32 ∧ c ≠ 9

instance (c : UInt8) : Decidable (NotBlank c) := inferInstanceAs (Decidable (_ ∧ _))

/-- Two neighbouring blanks. -/
def HasRun (t : List UInt8) : Prop := ∃ a x y b, t = a ++ x :: y :: b ∧ ¬ NotBlank x ∧ ¬ NotBlank y

/-- A text in which every blank has been replaced. -/
inductive Replaced (r : List UInt8) : List UInt8 → List UInt8 → Prop where
  | nil : Replaced r [] []
  | keep (c : UInt8) {t u} : NotBlank c → Replaced r t u → Replaced r (c :: t) (c :: u)
  | blank (c : UInt8) {t u} : ¬ NotBlank c → Replaced r t u → Replaced r (c :: t) (r ++ u)

/-- The characters with a meaning in templates: `? % : & ) ( = \`. -/
def Special (c : UInt8) : Prop := c ∈ ([63, 37, 58, 38, 41, 40, 61, 92] : List UInt8)

instance (c : UInt8) : Decidable (Special c) := inferInstanceAs (Decidable (_ ∈ _))

/-- A text with a backslash before every special character. -/
def escape : List UInt8 → List UInt8
  | [] => []
  | c :: rest => if Special c then 92 :: c :: escape rest else c :: escape rest

end Scribbu.Spec
