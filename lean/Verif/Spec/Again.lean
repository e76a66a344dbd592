import Verif.Model.Process
import Verif.Spec.Commands

/-! What it means that running a sub-command once more changes nothing (C185), and that two runs may be exchanged (C186). -/

namespace Scribbu.Spec
open Scribbu Commands Process

/-- The frames of a tag as they are in the file: names and contents. -/
def stored (t : Tg) : List (Bytes × Bytes) := (contents t.tag).map fun x => (x.id, x.data)

/-- The tag as the next run reads it. -/
def reread (t : Tg) : Tg := tagOf t.cfg (stored t)

/-- A run over tags (of files as they have been left by the run before) succeeds, and the tags stay as they are. Simplified: ID3v1 tags are read as they have
been written. -/
def Settled (P : Processor Tg) (v2 : List Tg) (v1 : Option V1Tag) : Prop :=
  ∃ d v2', edit P (v2.map reread) v1 = .ok (d, v2', v1) ∧ v2'.map stored = v2.map stored

/-- Whatever tags a file has: if a run over them succeeds, the next changes nothing. -/
def OnceIsEnough (ok : Tg → Prop) (P : Processor Tg) : Prop :=
  ∀ v2 v1 d v2' v1', (∀ t ∈ v2, ReadTag t ∧ ok t) → edit P v2 v1 = .ok (d, v2', v1') → Settled P v2' v1'

/-- Texts that can be put into frames are the same when read back. -/
def AllTrip (C : Conv) : Prop := ∀ v s d, C.frameData v s = .ok d → C.frameText v d = .ok s

/-- Tags of this kind know the frames that sub-commands set for text frames, and nothing for a text frame that does not begin with T. -/
structure KnowsTexts (c : Cfg) : Prop where
  known : ∀ f ∈ [TextFrame.talb, .tcon, .tenc, .tit2, .tpe1, .trck, .tyer], ∀ id, frameId c.ver f = .ok id → c.textParser id = true
  sane : ∀ id, c.textParser id = true → id.head? = some 84

end Scribbu.Spec
