import Verif.Model.Tag22
import Verif.Model.Tag23
import Verif.Model.Tag24

/-! Making ID3v2 tags straight from a stream, without looking for a header first: `id3v2_2_tag(is)`, `id3v2_3_tag(is)` and `id3v2_4_tag(is)`. -/

namespace Scribbu
namespace Direct

/-- The test on the five bytes read: scribbu/id3v2.cc L436-443. Gives `version_` and `revision_` (`none`: they are left as they were, uninitialised) and `present`. -/
def checkHalf (buf : Bytes) : Res (Option (Byte × Byte) × Bool) :=
  match buf with
  | [b0, b1, b2, b3, b4] => .ok (if b0 = 0x49 ∧ b1 = 0x44 ∧ b2 = 0x33 then (some (b3, b4), b3 ≠ 0xff ∧ b4 ≠ 0xff) else (none, false))
  | _ => .ub .uninit

/-- Reading five bytes; if that fails, the stream is to be as before: scribbu/id3v2.cc L425-434, L481-490. -/
def readHalf (excMask : IoBits) (here : Int) : SM Bytes :=
  SM.onThrow (SM.read 5) (do
    SM.setExceptions excMask
    SM.clear
    SM.seekBeg here)

/-- `id3v2_tag(is)`: scribbu/id3v2.cc L410-451. -/
def firstHalf : SM (Option (Byte × Byte)) := do
  let excMask ← SM.exceptions
  SM.setExceptions IoBits.all
  let here ← SM.tellg
  let buf ← readHalf excMask here
  let h ← SM.lift (checkHalf buf)
  if !h.2 then SM.seekBeg here
  SM.setExceptions excMask
  pure h.1

/-- The flags and the size, out of the five bytes read: scribbu/id3v2.cc L492-501. -/
def flagsAndSize (buf : Bytes) : Res (Byte × Nat) :=
  match buf with
  | [f, b1, b2, b3, b4] => .ok (f, if b1 < 0x80 ∧ b2 < 0x80 ∧ b3 < 0x80 ∧ b4 < 0x80 then unsignedFromSyncSafe4 b1 b2 b3 b4 else 0)
  | _ => .ub .uninit

/-- `parse_flags_and_size`: scribbu/id3v2.cc L464-512. -/
def secondHalf : SM (Byte × Nat) := do
  let excMask ← SM.exceptions
  SM.setExceptions IoBits.all
  let here ← SM.tellg
  let buf ← readHalf excMask here
  let r ← SM.lift (flagsAndSize buf)
  if r.2 = 0 then SM.seekBeg here
  SM.setExceptions excMask
  pure r

/-- The constructors: scribbu/id3v22.cc L169-186, scribbu/id3v23.cc L315-333, scribbu/id3v24.cc L451-469. What comes behind the header, `rest`, is as for the constructors that take
a header (which use its flags and size only). Gives the version and revision that the tag reports, and the tag. -/
def construct (rest : Id3v2Info → SM τ) : SM (Option (Byte × Byte) × τ) := do
  let vr ← firstHalf
  let fs ← secondHalf
  let t ← rest ⟨0, 0, fs.1, fs.2⟩
  pure (vr, t)

/-- `id3v2_2_tag(is)`. -/
def tag22 : SM (Option (Byte × Byte) × Tag22) := construct Tag22.read
/-- `id3v2_3_tag(is)`. -/
def tag23 (z : Zlib) : SM (Option (Byte × Byte) × Tag23) := construct (Tag23.read z)
/-- `id3v2_4_tag(is)`. -/
def tag24 (z : Zlib) : SM (Option (Byte × Byte) × Tag24) := construct (Tag24.read z)

end Direct
end Scribbu
