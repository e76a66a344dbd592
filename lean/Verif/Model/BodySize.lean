import Verif.Model.Bodies
import Verif.Model.TagCloud

/-!
# The sizes that the remaining frame bodies predict

scribbu/framesv2.cc: `serialized_size` of encryption methods, comments and tag clouds.
-/

namespace Scribbu

/-- `encryption_method::serialized_size(unsync)`: scribbu/framesv2.cc L686-695. -/
def Encr.serializedSize (e : Encr) (unsync : Bool) : Res Nat :=
  if unsync then (e.countSyncs false).bind fun n => .ok (e.size + n) else .ok e.size

/-- `comments::serialized_size(unsync)`: scribbu/framesv2.cc L978-986. -/
def Comm.serializedSize (c : Comm) (unsync : Bool) : Res Nat :=
  if unsync then (c.countSyncs false).bind fun n => .ok (c.size + n) else .ok c.size

/-- `tag_cloud::serialized_size(unsync)`: scribbu/framesv2.cc L1404-1412. -/
def TagCloud.serializedSize (t : TagCloud) (unsync : Bool) : Res Nat :=
  if unsync then (t.countSyncs false).bind fun n => .ok (t.size + n) else .ok t.size

end Scribbu
