import Verif.Model.TextCmd
import Verif.Spec.Again

/-! What runs one after the other come to (C186). -/

namespace Scribbu.Spec
open Scribbu Commands Process

/-- A run over a tag, and another over the tag as it has been left in the file by the first. -/
def oneThenOther (F G : Tg → Res (Bool × Tg)) (t : Tg) : Res Tg := (F t).bind fun r => (G (reread r.2)).bind fun q => .ok q.2

/-- The frames of a name, in their order. -/
def ofName (t : Tg) (id : Bytes) : List (Bytes × Bytes) := (stored t).filter fun x => decide (x.1 = id)

/-- The same frames under every name. Only frames of different names may be in another order. -/
def SameByName (t u : Tg) : Prop := ∀ id, ofName t id = ofName u id

end Scribbu.Spec
