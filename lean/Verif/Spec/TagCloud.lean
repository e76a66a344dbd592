import Verif.Spec.Url

/-! What tag clouds and their text form mean. -/

namespace Scribbu.Spec

/-- The fields between separators. -/
def splitOn (sep : Byte) : Bytes → List Bytes
  | [] => [[]]
  | c :: cs =>
    if c = sep then [] :: splitOn sep cs
    else match splitOn sep cs with
      | [] => [[c]]
      | h :: t => (c :: h) :: t

/-- `t` stands for the string `o`: %-encoded text, optionally followed by one `%`. -/
def Means (t o : Bytes) : Prop := Decodes t o ∨ ∃ t', t = t' ++ [0x25] ∧ Decodes t' o

/-- Some `&`-separated field of the text is for the key `k`. -/
def MentionsKey (text k : Bytes) : Prop :=
  ∃ p ∈ splitOn 0x26 text, Means (p.takeWhile (· ≠ 0x3d)) k

/-- Some `&`-separated field of the text is for the key `k` and gives it the value `v`. -/
def MentionsVal (text k v : Bytes) : Prop :=
  ∃ p ∈ splitOn 0x26 text, ∃ a b, p = a ++ 0x3d :: b ∧ 0x3d ∉ a ∧ Means a k ∧
    ∃ w ∈ splitOn 0x2c b, Means w v

/-- The set of keys and the relation between keys and values that a cloud is. -/
structure AbsCloud where
  key : Bytes → Prop
  val : Bytes → Bytes → Prop

namespace AbsCloud
def addKey (k : Bytes) (a : AbsCloud) : AbsCloud := ⟨fun x => x = k ∨ a.key x, a.val⟩
def addValue (k v : Bytes) (a : AbsCloud) : AbsCloud :=
  ⟨fun x => x = k ∨ a.key x, fun x y => (x = k ∧ y = v) ∨ a.val x y⟩
def merge (text : Bytes) (a : AbsCloud) : AbsCloud :=
  ⟨fun x => MentionsKey text x ∨ a.key x, fun x y => MentionsVal text x y ∨ a.val x y⟩
def update (text : Bytes) (_ : AbsCloud) : AbsCloud := ⟨MentionsKey text, MentionsVal text⟩
end AbsCloud

/-- The entries of a cloud, in iteration order, represent an abstract cloud. -/
def Represents (m : List (Bytes × List Bytes)) (a : AbsCloud) : Prop :=
  (∀ k, (∃ s, (k, s) ∈ m) ↔ a.key k) ∧ (∀ k v, (∃ s, (k, s) ∈ m ∧ v ∈ s) ↔ a.val k v)

end Scribbu.Spec
