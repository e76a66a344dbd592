import Verif.Spec.Genres

/-!
# What users expect of the list of genres
-/

namespace Scribbu.Spec.Pager

/-- A line of the list: the number in three columns, and the genre. -/
def line (n : Nat) (t : List UInt8) : List UInt8 :=
  let d (k : Nat) : UInt8 := UInt8.ofNat (48 + k % 10)
  (if n < 10 then [32, 32, d n] else if n < 100 then [32, d (n / 10), d n] else [d (n / 100), d (n / 10), d n]) ++ [58, 32] ++ t

/-- The lines of a text, each of which ends with a newline. -/
def lines : List UInt8 → List (List UInt8)
  | [] => []
  | b :: r =>
    if b = 10 then [] :: lines r
    else match lines r with
      | [] => [[b]]
      | l :: ls => (b :: l) :: ls

/-- A blank or a tab. -/
def Blank (b : UInt8) : Prop := b = 32 ∨ b = 9

instance (b : UInt8) : Decidable (Blank b) := inferInstanceAs (Decidable (b = 32 ∨ b = 9))

/-- A word: not empty, and without blanks. -/
def Word (w : List UInt8) : Prop := w ≠ [] ∧ ∀ b ∈ w, ¬ Blank b

/-- A command written as text: its words, with blanks between them and perhaps around them. -/
inductive Spaced : List (List UInt8) → List UInt8 → Prop where
  | last (w g : List UInt8) : Word w → (∀ b ∈ g, Blank b) → Spaced [w] (w ++ g)
  | more (w g : List UInt8) (ws : List (List UInt8)) (s : List UInt8) : Word w → g ≠ [] → (∀ b ∈ g, Blank b) → Spaced ws s → Spaced (w :: ws) (w ++ g ++ s)
  | before (b : UInt8) (ws : List (List UInt8)) (s : List UInt8) : Blank b → Spaced ws s → Spaced ws (b :: s)

/-- The same, with one blank between words and none around them. -/
inductive Tight : List (List UInt8) → List UInt8 → Prop where
  | last (w : List UInt8) : Word w → Tight [w] w
  | more (w : List UInt8) (b : UInt8) (ws : List (List UInt8)) (s : List UInt8) : Word w → Blank b → Tight ws s → Tight (w :: ws) (w ++ b :: s)

/-- The variable that has the pager, if there is one: the first of those that are set. -/
def chosen (own general : Option (List UInt8)) : Option (List UInt8) := own <|> general

end Scribbu.Spec.Pager
