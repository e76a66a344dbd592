import Verif.Model.Mp3

/-!
# The tags that encoders leave in the first MP3 frame, and frames made straight from a stream

scribbu/mp3.cc and mp3.hh.
-/

namespace Scribbu.Vbr

/-- `class xing_mp3_tag`: scribbu/mp3.hh L623-641. -/
structure Xing where
  frames : Option Nat
  bytes : Option Nat
  toc : Option Bytes
  quality : Option Nat
  deriving DecidableEq, Repr

/-- `has_toc()`: scribbu/mp3.hh L632-633. -/
def Xing.hasToc (x : Xing) : Bool := x.toc.isSome

/-- A number of four bytes, if the flag says that it is there: scribbu/mp3.cc L130-139, L146-149. -/
def optField (there : Bool) : SM (Option Nat) := do
  if there then do
    let b ← readInit 4
    pure (some (beVal b))
  else pure none

/-- `xing_mp3_tag(is)`: scribbu/mp3.cc L120-152. The table of contents is all zeroes to begin with. The second number is
converted with `htonl`, which is the same as `ntohl`. -/
def xing : SM Xing := do
  let buf ← readInit 4
  match buf with
  | [_, _, _, fl] => do
    let frames ← optField (fl &&& 1 ≠ 0)
    let bytes ← optField (fl &&& 2 ≠ 0)
    let toc ← (if fl &&& 4 ≠ 0 then do
        let b ← readOver (List.replicate 100 0) 100
        pure (some b)
      else pure none)
    let quality ← optField (fl &&& 8 ≠ 0)
    pure ⟨frames, bytes, toc, quality⟩
  | _ => SM.ub .oobRead

/-- `enum class vbr_method`: scribbu/mp3.hh L661-671. -/
inductive Method where
  | unknown | constant | abr | vbr1 | vbr2 | vbr3 | vbr4 | cbrTwoPass | abrTwoPass
  deriving DecidableEq, Repr

/-- `vbr_method_for_bits(x)`: scribbu/mp3.cc L186-220. -/
def methodForBits (x : Nat) : Method :=
  match x with
  | 1 => .constant
  | 2 => .abr
  | 3 => .vbr1
  | 4 => .vbr2
  | 5 => .vbr3
  | 6 => .vbr4
  | 8 => .cbrTwoPass
  | 9 => .abrTwoPass
  | _ => .unknown

/-- `class lame_mp3_tag`: scribbu/mp3.hh L658-692. -/
structure Lame where
  id : Bytes
  method : Method
  bitrate : Byte
  size : Nat
  deriving DecidableEq, Repr

/-- `lame_mp3_tag(tag_id, is)`: scribbu/mp3.cc L158-184. -/
def lame (tagId : Bytes) : SM Lame := do
  let rest ← readInit 5
  let b ← readInit 1
  SM.seekCur 10
  let r ← readInit 1
  SM.seekCur 7
  let n ← readInit 4
  match b, r with
  | [b], [r] => pure ⟨tagId.take 4 ++ rest, methodForBits (b &&& 0xf).toNat, r, beVal n⟩
  | _, _ => SM.ub .oobRead

/-- `mp3_audio_frame(is, check_vbr)`: scribbu/mp3.cc L298-319. -/
def frame (checkVbr : Bool) : SM (Mp3Frame × Option (Nat × Nat)) := do
  let h ← readHdr ⟨0, 0, 0, 0⟩
  mp3Frame h checkVbr

end Scribbu.Vbr
