import Verif.Spec.Settle
import Verif.Model.Scheme
import Verif.Model.AnyTag
import Verif.Model.Tagset

/-! What it means to read the tags of a file and to write them back over it. -/

namespace Scribbu.Spec
open Scribbu

/-- All the tags at the beginning of the file `d` are read and written back without having been changed, which makes the file `d'`. -/
def WrittenBack (z : Zlib) (st : EmplaceStrategy) (d d' : Bytes) : Prop := ∃ ts how ts',
  Scheme.readTags z d = .ok ts ∧ Tagset.maybeEmplace (anyI z) (some d) .never st ts = .ok (how, d', ts')

end Scribbu.Spec
