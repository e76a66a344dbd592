import Verif.Model.Header
import Verif.Model.Id3v1

/-! # `scribbu split` (src/split.cc) -/

namespace Scribbu

/-- `xfer_bytes(in, pth, cb)`: src/split.cc L51-65; the bytes transferred to the
output file. `cb` is a `std::size_t`; a negative difference converted to it is an
allocation size `new char[cb]` cannot satisfy (`std::bad_array_new_length` or
`std::bad_alloc`). Failures to create or write the output file are not modelled. -/
def xferBytes (cb : Int) : SM Bytes :=
  if cb < 0 then SM.throw .other else SM.read cb.toNat

/-- The `while (id3v2.present_)` loop of `split_file`: src/split.cc L99-111.
`none`: more iterations than `fuel`. -/
def splitTags : Nat → SM (Option (List Bytes))
  | 0 => do
    let o ← lookingAtId3v2 true
    match o with
    | none => pure (some [])
    | some _ => pure none
  | fuel + 1 => do
    let o ← lookingAtId3v2 true
    match o with
    | none => pure (some [])
    | some i => do
      let p ← xferBytes (10 + i.size)
      let r ← splitTags fuel
      pure (r.map (p :: ·))

/-- `split_file(in, suffix)`: src/split.cc L92-124: the contents of the files
written, in order (`id3v2N`, `track`, `id3v1`). -/
def splitFile (fuel : Nat) : SM (Option (List Bytes)) := do
  SM.setExceptions IoBits.all
  let tags ← splitTags fuel
  match tags with
  | none => pure none
  | some tags => do
    let i ← endsInId3v1
    let here ← SM.tellg
    let track ← xferBytes (i.start - here)
    if i.start ≠ i.stop then do
      let v1 ← xferBytes (i.stop - i.start)
      pure (some (tags ++ [track, v1]))
    else pure (some (tags ++ [track]))

end Scribbu
