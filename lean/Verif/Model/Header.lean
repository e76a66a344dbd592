import Verif.Model.Stream
import Verif.Model.SyncSafe

/-! # `looking_at_id3v2` (scribbu/id3v2.cc) -/

namespace Scribbu

/-- `struct id3v2_info` (scribbu/id3v2.hh) for a header that is present. The C++
struct also has `present_`; here absence is `none`, since the other members are
indeterminate in that case. -/
structure Id3v2Info where
  version : Byte
  revision : Byte
  flags : Byte
  size : Nat
  deriving DecidableEq, Repr

/-- The header test on the ten bytes read: scribbu/id3v2.cc L187-209. Using
bytes that were not read is a read of an uninitialised buffer. -/
def checkHeader (buf : Bytes) : Res (Option Id3v2Info) :=
  match buf with
  | [b0, b1, b2, b3, b4, b5, b6, b7, b8, b9] =>
    .ok <|
      if b0 = 0x49 ∧ b1 = 0x44 ∧ b2 = 0x33 then
        if b3 ≠ 0xff ∧ b4 ≠ 0xff then
          if b6 < 0x80 ∧ b7 < 0x80 ∧ b8 < 0x80 ∧ b9 < 0x80 then
            some ⟨b3, b4, b5, unsignedFromSyncSafe4 b6 b7 b8 b9⟩
          else none
        else none
      else none
  | _ => .ub .uninit

/-- `looking_at_id3v2(is, restore_get_if_found)`: scribbu/id3v2.cc L158-218. -/
def lookingAtId3v2 (restore : Bool) : SM (Option Id3v2Info) := do
  let excMask ← SM.exceptions
  SM.setExceptions IoBits.all
  let here ← SM.tellg
  let r ← SM.attempt (SM.read 10)
  match r with
  | none => do
    SM.clear
    SM.setExceptions excMask
    SM.seekBeg here
    pure none
  | some buf => do
    let h ← SM.lift (checkHeader buf)
    if h.isNone || restore then SM.seekBeg here
    SM.setExceptions excMask
    pure h

end Scribbu
