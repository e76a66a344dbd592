import Verif.Spec.Header

/-! # Where in a file the ID3v2 tags end -/

namespace Scribbu.Spec
open Scribbu

/-- The length of a tag by what is in its header: the header, what it announces, and the footer that the flags of an ID3v2.4 tag
announce. -/
def tagSpan (version flags : Byte) (size : Nat) : Nat := 10 + size + if version = 4 ∧ flags &&& 0x10 ≠ 0 then 10 else 0

/-- The tags at the beginning of a file, by version and revision, and where they end. -/
inductive TagsTo : Bytes → List (Byte × Byte) → Nat → Prop
  | none {d} : (∀ v r f n, ¬ IsHeader d v r f n) → TagsTo d [] 0
  | tag {d v r f n hs k} : IsHeader d v r f n → TagsTo (d.drop (tagSpan v f n)) hs k → TagsTo d ((v, r) :: hs) (tagSpan v f n + k)

/-- No tag at the beginning of a file has a footer. -/
inductive NoFooter : Bytes → Prop
  | none {d} : (∀ v r f n, ¬ IsHeader d v r f n) → NoFooter d
  | tag {d v r f n} : IsHeader d v r f n → (v = 4 → f &&& 0x10 = 0) → NoFooter (d.drop (10 + n)) → NoFooter d

/-- Lists of the same length whose members are related one by one. -/
inductive Each {α β : Type} (R : α → β → Prop) : List α → List β → Prop
  | nil : Each R [] []
  | cons {a b l m} : R a b → Each R l m → Each R (a :: l) (b :: m)

end Scribbu.Spec
