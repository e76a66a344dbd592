import Verif.Model.Mp3

/-! # Track data (scribbu/scribbu.cc L138-321) -/

namespace Scribbu

/-- `find_id3v1_tag(is)`: scribbu/scribbu.cc L143-212. The result is the pair of
positions; `buf` is uninitialised until a probe has read into it. -/
def findId3v1Tag : SM (Int × Int) := do
  let excMask ← SM.exceptions
  SM.setExceptions IoBits.all
  let here ← SM.tellg
  let r ← SM.attempt (do
    SM.seekEnd (-355)
    let buf ← SM.read 4
    if buf = [0x54, 0x41, 0x47, 0x2b] then do
      let t ← SM.tellg
      pure (some (t - 4))
    else pure none)
  let ext ← (match r with
    | some e => pure e
    | none => do
      SM.setExceptions IoBits.none
      SM.clear
      SM.seekEnd 0
      let _ ← SM.tellg
      SM.setExceptions excMask
      pure none)
  let tag ← (match ext with
    | some t => pure t
    | none => do
      let r2 ← SM.attempt (do
        SM.seekEnd (-128)
        let buf ← SM.read 3
        if buf.length ≠ 3 then SM.ub .uninit
        else if buf = [0x54, 0x41, 0x47] then do
          let t ← SM.tellg
          pure (t - 3)
        else do
          SM.seekEnd 0
          SM.tellg)
      match r2 with
      | some t => pure t
      | none => do
        SM.setExceptions IoBits.none
        SM.clear
        SM.seekEnd 0
        SM.tellg)
  SM.setExceptions excMask
  pure (here, tag)

/-- The loop of `compute_track_md5`: scribbu/scribbu.cc L248-260; the bytes handed to
the digest. `none`: more than `fuel` iterations. The 4 MB buffer size is `buf`. A
short read would throw. -/
def md5Loop (buf : Nat) : Nat → Int → Bytes → SM (Option Bytes)
  | fuel, nleft, acc =>
    if 0 < nleft then
      match fuel with
      | 0 => pure none
      | fuel + 1 => do
        let n := if nleft < buf then nleft else (buf : Int)
        let b ← SM.read n.toNat
        md5Loop buf fuel (nleft - n) (acc ++ b)
    else pure (some acc)

/-- `compute_track_md5(is, hint)`: scribbu/scribbu.cc L214-270. The digest itself is
OpenSSL's; the result here is the byte sequence it is applied to. `hint = none`
stands for the default argument `EOF`. -/
def computeTrackMd5 (fuel : Nat) (hint : Option Int) : SM (Option Bytes) := do
  let excMask ← SM.exceptions
  SM.setExceptions IoBits.all
  let (here, tag) ← (match hint with
    | none => findId3v1Tag
    | some t => do
      let here ← SM.tellg
      pure (here, t))
  let r ← md5Loop 4194304 fuel (tag - here) []
  match r with
  | none => pure none
  | some b => do
    SM.setExceptions excMask
    pure (some b)

/-- `class track_data`: scribbu/scribbu.hh L315-. -/
structure TrackData where
  /-- `size_bytes_`; the C++ type is unsigned -/
  size : Int
  /-- the bytes `md5_` is the digest of -/
  digested : Bytes
  /-- `duration_secs_` as a fraction `num * frames / den` -/
  duration : Option (Nat × Nat × Nat)
  deriving DecidableEq, Repr

/-- `track_data(is)`: scribbu/scribbu.cc L276-321. `none`: more than `fuel`
iterations of some loop. -/
def trackData (fuel : Nat) : SM (Option TrackData) := do
  let excMask ← SM.exceptions
  SM.setExceptions IoBits.all
  let (here, tag) ← findId3v1Tag
  SM.seekBeg here
  let md5 ← computeTrackMd5 fuel (some tag)
  match md5 with
  | none => pure none
  | some digested => do
    SM.seekBeg here
    let d ← SM.catchAll (mp3Duration fuel)
    match d with
    | some none => pure none
    | d => do
      SM.seekBeg tag
      SM.clear
      SM.setExceptions excMask
      pure (some ⟨tag - here, digested, d.join⟩)

end Scribbu
