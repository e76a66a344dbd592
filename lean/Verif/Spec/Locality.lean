import Verif.Model.Scheme

/-! What is read from each of several pieces, on its own, put together. -/

namespace Scribbu.Spec
open Scribbu

/-- What comes of each of the pieces, one list after the other; the first failure is the failure of all. -/
def oneByOne (read : Bytes → Res (List α)) : List Bytes → Res (List α)
  | [] => .ok []
  | b :: bs => (read b).bind fun ts => (oneByOne read bs).bind fun us => .ok (ts ++ us)

end Scribbu.Spec
