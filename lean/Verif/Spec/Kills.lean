import Verif.Spec.History

/-! What a file is to keep through any history of sub-commands, any of which may be killed. -/

namespace Scribbu.Spec
open Scribbu Process

/-- What runs that were killed have left at the end of a file: parts of ID3v1 tags, each from its beginning, or whole ones. -/
def Debris (j : Bytes) : Prop := ∃ ws : List Bytes, j = ws.flatten ∧ ∀ w ∈ ws, w ≠ [] ∧ ∃ v, V1Bytes v ∧ w <+: v

/-- The file consists of complete ID3v2 tags, the audio, and debris. -/
def Bears (audio d : Bytes) : Prop :=
  ∃ (tags : List Bytes) (j : Bytes), d = tags.flatten ++ (audio ++ j) ∧ (∀ t ∈ tags, CompleteTag t) ∧ Debris j

/-- The audio does not begin like an ID3v2 tag and says "TAG" nowhere; it is as long as any ID3v1 tag. -/
structure Clear (a : Bytes) : Prop where
  start : ¬ [0x49, 0x44, 0x33] <+: a
  tag : ¬ TAG <:+: a
  long : 355 ≤ a.length

/-- There is at most one ID3v2 tag at the beginning of the file. -/
def OneTag (d : Bytes) : Prop := ∀ (tags : List Bytes) (rest : Bytes), d = tags.flatten ++ rest → (∀ t ∈ tags, CompleteTag t) → tags.length ≤ 1

end Scribbu.Spec
