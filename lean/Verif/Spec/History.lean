import Verif.Proofs.Split
import Verif.Model.Process
import Verif.Model.AnyTag

/-! What a file is to keep through any history of sub-commands: its audio. -/

namespace Scribbu.Spec
open Scribbu Process

/-- The bytes of an ID3v1 tag, or of an enhanced one. -/
def V1Bytes (w : Bytes) : Prop :=
  (∃ t, w = TAG ++ t ∧ t.length = 125) ∨ ∃ x t, w = TAGP ++ x ++ (TAG ++ t) ∧ x.length = 223 ∧ t.length = 125

/-- The file consists of complete ID3v2 tags, the audio, and perhaps an ID3v1 tag. -/
def Carries (audio d : Bytes) : Prop :=
  ∃ (tags : List Bytes) (v1 : Bytes), d = tags.flatten ++ (audio ++ v1) ∧ (∀ t ∈ tags, CompleteTag t) ∧ (v1 = [] ∨ V1Bytes v1)

/-- The audio, by itself, begins with no ID3v2 tag and ends in no ID3v1 tag. -/
structure Untagged (a : Bytes) : Prop where
  start : ¬ [0x49, 0x44, 0x33] <+: a
  std : ¬ ∃ n, StdAt a n
  ext : ¬ ∃ n, ExtAt a n

/-- Nor will it look like part of an ID3v1 tag when bytes are put before or after it: it is as long as any ID3v1 tag, and does not say "TAG+" where the first part of an
enhanced tag begins, of which the second would follow the audio. -/
structure Distinct (a : Bytes) : Prop extends Untagged a where
  long : 355 ≤ a.length
  half : ¬ ∃ x y, a = x ++ TAGP ++ y ∧ y.length = 223

/-- What is left in a file when a run is killed. The audio is all there, with part of an ID3v1 tag behind it, or all of one, or nothing. Before it are complete ID3v2 tags; or the
file is as it was but for some of the tags, from the beginning, over which others of the same length in all have been written. -/
def Survives (audio d0 d : Bytes) : Prop :=
  (∃ (tags : List Bytes) (w back : Bytes), d = tags.flatten ++ (audio ++ back) ∧ (∀ t ∈ tags, CompleteTag t) ∧ V1Bytes w ∧ back <+: w) ∨
  ∃ (olds news : List Bytes) (i : Nat) (v1 : Bytes), d0 = olds.flatten ++ (audio ++ v1) ∧ (∀ t ∈ olds, CompleteTag t) ∧ (v1 = [] ∨ V1Bytes v1) ∧
    (∀ t ∈ news, CompleteTag t) ∧ news.flatten.length = olds.flatten.length ∧ i ≤ news.flatten.length ∧
    d = news.flatten.take i ++ olds.flatten.drop i ++ (audio ++ v1)

/-- One run of a sub-command on a file: what it does, where, and how the system behaves. -/
structure Run (τ : Type) where
  proc : Processor τ
  env : Replace.Env
  pth : Path

end Scribbu.Spec
