import Verif.Model.Stream

/-! # MPEG layer III frames and duration (scribbu/mp3.cc, scribbu/mp3.hh) -/

namespace Scribbu

/-- `enum class mpeg_version`: scribbu/mp3.hh. -/
inductive MpegVersion where
  | v1 | v2 | v25
  deriving DecidableEq, Repr

/-- Data members of `class mp3_audio_frame` (scribbu/mp3.hh L789-813) that affect
anything observable here; `crc` records only whether a CRC was read. -/
structure Mp3Frame where
  version : MpegVersion
  crc : Bool
  bitrate : Nat
  sampleRate : Nat
  padded : Bool
  priv : Bool
  channelMode : Nat
  sideInfo : Nat
  size : Nat
  deriving DecidableEq, Repr

/-- `BITRATES_BPS`: scribbu/mp3.cc L36-42. -/
def bitratesBps : List (List Nat) :=
  [[32000, 40000, 48000, 56000, 64000, 80000, 96000, 112000,
    128000, 160000, 192000, 224000, 256000, 320000],
   [8000, 16000, 24000, 32000, 40000, 48000, 56000,
    64000, 80000, 96000, 112000, 128000, 144000, 160000]]

/-- `SAMPLE_RATE_HZ`: scribbu/mp3.cc L45-50. -/
def sampleRateHz : List (List Nat) :=
  [[44100, 48000, 32000], [22050, 24000, 16000], [11025, 12000, 8000]]

/-- `table[i][j]` on a two-dimensional C array. -/
def rd2 (t : List (List Nat)) (i j : Nat) : Res Nat :=
  match t[i]? with
  | none => .ub .oobRead
  | some r => match r[j]? with
    | none => .ub .oobRead
    | some x => .ok x

/-- `is_sync(hdr)`: scribbu/mp3.hh L705-709. -/
def isSync (b0 b1 : Byte) : Bool := b0 == 0xff && 0xe0 ≤ b1

/-- Four header bytes. -/
structure Hdr where
  b0 : Byte
  b1 : Byte
  b2 : Byte
  b3 : Byte
  deriving DecidableEq, Repr

/-- `(b >> k) & (m - 1)` for `m` a power of two. -/
def bits (b : Byte) (k m : Nat) : Nat := b.toNat / 2 ^ k % m

/-- `mp3_audio_frame::parse_header(hdr, is)`: scribbu/mp3.cc L321-447. Inside the
`try` block; a CRC that could not be read is an indeterminate value. -/
def parseHeaderBody (h : Hdr) (here : Int) : SM Mp3Frame := do
  if !isSync h.b0 h.b1 then SM.throw .mp3Error
  else do
  let v ← (match bits h.b1 3 4 with
    | 0 => pure MpegVersion.v25
    | 1 => SM.throw .mp3Error
    | 2 => pure MpegVersion.v2
    | _ => pure MpegVersion.v1)
  if bits h.b1 1 4 ≠ 1 then do
    SM.seekBeg here
    SM.throw .mp3Error
  else do
  let crc ← (if bits h.b1 0 2 = 0 then do
      let b ← SM.read 2
      if b.length ≠ 2 then SM.ub .uninit else pure true
    else pure false)
  let i := if v = .v1 then 0 else 1
  let j := bits h.b2 4 16
  if j = 0 then do
    SM.seekBeg here
    SM.throw .mp3Error
  else if j = 15 then do
    SM.seekBeg here
    SM.throw .mp3Error
  else do
  let bitrate ← SM.lift (rd2 bitratesBps i (j - 1))
  let i := match v with | .v1 => 0 | .v2 => 1 | .v25 => 2
  let j := bits h.b2 2 4
  if j = 3 then do
    SM.seekBeg here
    SM.throw .mp3Error
  else do
  let rate ← SM.lift (rd2 sampleRateHz i j)
  let padded := bits h.b2 1 2 ≠ 0
  let priv := bits h.b2 0 2 ≠ 0
  let ch := bits h.b3 6 4
  let side : Nat := if v = .v1 then (if ch = 3 then 17 else 32) else (if ch = 3 then 9 else 17)
  SM.seekCur side
  let spf := if v = .v1 then 1152 else 576
  let size := spf * bitrate / 8 / rate + (if padded then 1 else 0)
  pure { version := v, crc := crc, bitrate := bitrate, sampleRate := rate, padded := padded,
         priv := priv, channelMode := ch, sideInfo := side, size := size }

/-- `parse_header` with its handler: scribbu/mp3.cc L440-446. -/
def parseHeader (h : Hdr) : SM Mp3Frame := do
  let here ← SM.tellg
  SM.onThrow (parseHeaderBody h here) (do
    let st ← SM.state
    if !st.eof then SM.seekBeg here)

/-- Reading into a buffer that already holds `buf`. -/
def readOver (buf : Bytes) (n : Nat) : SM Bytes := do
  let got ← SM.read n
  pure (got ++ buf.drop got.length)

/-- Reading into an uninitialised object of `n` bytes whose value is then used. -/
def readInit (n : Nat) : SM Bytes := do
  let got ← SM.read n
  if got.length ≠ n then SM.ub .uninit else pure got

/-- Big-endian value (`ntohl`/`ntohs`). -/
def beVal : Bytes → Nat := fun b => b.foldl (fun a x => a * 256 + x.toNat) 0

/-- `xing_mp3_tag(is)`: scribbu/mp3.cc L120-152: number of frames and bytes, if
present. -/
def xingTag : SM (Option Nat × Option Nat) := do
  let buf ← readInit 4
  let fl := (buf.getLast?.getD 0).toNat
  let frames ← (if fl % 2 = 1 then do let b ← readInit 4; pure (some (beVal b)) else pure none)
  let bytes ← (if fl / 2 % 2 = 1 then do let b ← readInit 4; pure (some (beVal b)) else pure none)
  if fl / 4 % 2 = 1 then do let _ ← SM.read 100; pure ()
  if fl / 8 % 2 = 1 then do let _ ← readInit 4; pure ()
  pure (frames, bytes)

/-- `is_lame(buf)`: scribbu/mp3.cc L70-75. `buf` has four elements, and the second
alternative reads `buf[4]`. -/
def isLame (buf : Bytes) : Res Bool :=
  if buf = [0x4c, 0x41, 0x4d, 0x45] then .ok true
  else if buf.take 3 = [0x4c, 0x33, 0x2e] then .ub .oobRead
  else .ok false

/-- `lame_mp3_tag(tag_id, is)`: scribbu/mp3.cc L158-184 (values unused here). -/
def lameTag : SM Unit := do
  let _ ← readInit 5
  let _ ← readInit 1
  SM.seekCur 10
  let _ ← readInit 1
  SM.seekCur 7
  let _ ← readInit 4
  pure ()

/-- `vbri_mp3_tag(is)`: scribbu/mp3.cc L81-114: frames and bytes. Line 101 reads
four bytes into a two-byte object. -/
def vbriTag : SM (Nat × Nat) := do
  let _ ← readInit 2
  let _ ← readInit 2
  let _ ← readInit 2
  let fs ← readInit 4
  let nf ← readInit 4
  let ne ← SM.read 4
  if 2 < ne.length then SM.ub .oobWrite
  else if ne.length < 2 then SM.ub .uninit
  else do
    -- exactly two bytes were left: the remaining reads transfer nothing
    let _ ← SM.read 2
    let _ ← SM.read 2
    let _ ← SM.read 2
    pure (beVal nf, beVal fs)

/-- "Xing": `is_xing`, scribbu/mp3.cc L52-56. -/
def XING : Bytes := [0x58, 0x69, 0x6e, 0x67]
/-- "Info": `is_info`, scribbu/mp3.cc L58-62. -/
def INFO : Bytes := [0x49, 0x6e, 0x66, 0x6f]
/-- "VBRI": `is_vbri`, scribbu/mp3.cc L64-68. -/
def VBRI : Bytes := [0x56, 0x42, 0x52, 0x49]

/-- The Xing/Info branch of `parse_vbr`: scribbu/mp3.cc L500-508. -/
def xingBranch (buf : Bytes) : SM (Option (Nat × Nat)) := do
  let (f, b) ← xingTag
  let buf ← readOver buf 4
  let l ← SM.lift (isLame buf)
  if l then lameTag
  -- `vbri()`: scribbu/mp3.cc L545-567
  match f, b with
  | some f, some b => pure (some (f, b))
  | _, _ => pure none

/-- `parse_vbr(is)` composed with `vbri()`: scribbu/mp3.cc L451-535, L545-567. -/
def parseVbr (side : Nat) : SM (Option (Nat × Nat)) := do
  let here ← SM.tellg
  let buf ← readOver [0, 0, 0, 0] 4
  let r ← (if buf = XING ∨ buf = INFO then xingBranch buf
    else do
      SM.seekCur (-6)
      let buf ← readOver buf 4
      if buf = XING ∨ buf = INFO then xingBranch buf
      else do
        SM.seekCur (32 - (side : Int) - 2)
        let buf ← readOver buf 4
        if buf = VBRI then do
          let p ← vbriTag
          pure (some p)
        else pure none)
  SM.seekBeg here
  pure r

/-- `mp3_audio_frame(hdr, is, check_vbr)`: scribbu/mp3.cc L275-296. -/
def mp3Frame (h : Hdr) (checkVbr : Bool) : SM (Mp3Frame × Option (Nat × Nat)) := do
  let f ← parseHeader h
  let v ← (if checkVbr then parseVbr f.sideInfo else pure none)
  SM.seekCur ((f.size : Int) - 4 - (if f.crc then 2 else 0) - f.sideInfo)
  pure (f, v)

/-- `duration()`: scribbu/mp3.cc L537-543: samples per frame and sampling rate. -/
def Mp3Frame.duration (f : Mp3Frame) : Nat × Nat :=
  (if f.version = .v1 then 1152 else 576, f.sampleRate)

/-- The loop of `find_sync(is)`: scribbu/mp3.cc L592-601. `buf` are the two bytes
last read (stale where a read came up short). `none`: more than `fuel` iterations. -/
def findSyncLoop : Nat → Int → Byte → Byte → SM (Option (Int × Bool))
  | fuel, here, b0, b1 => do
    let ok ← SM.isOk
    if ok && !isSync b0 b1 then
      match fuel with
      | 0 => pure none
      | fuel + 1 => do
        let here' := here + (if b1 = 0xff then 1 else 2)
        SM.seekBeg here'
        let got ← SM.read 2
        match got ++ [b0, b1].drop got.length with
        | [c0, c1] => findSyncLoop fuel here' c0 c1
        | _ => SM.ub .oobRead
    else pure (some (here, isSync b0 b1))

/-- `find_sync(is)`: scribbu/mp3.cc L569-605. The exception mask is not restored. -/
def findSync (fuel : Nat) : SM (Option Unit) := do
  SM.setExceptions ⟨false, false, true⟩
  let here ← SM.tellg
  let got ← SM.read 2
  match got with
  | [b0, b1] => do
    let r ← findSyncLoop fuel here b0 b1
    match r with
    | none => pure none
    | some (at', hit) => do
      if hit then SM.seekBeg at'
      pure (some ())
  | _ => SM.ub .uninit

/-- Overlay of a four-byte header buffer by the bytes read. -/
def readHdr (h : Hdr) : SM Hdr := do
  let got ← SM.read 4
  match got ++ [h.b0, h.b1, h.b2, h.b3].drop got.length with
  | [a, b, c, d] => pure ⟨a, b, c, d⟩
  | _ => SM.ub .oobRead

/-- The frame-counting loop of `get_mp3_duration`: scribbu/mp3.cc L651-664; the
number of frames counted. `none`: more than `fuel` iterations. -/
def countFrames : Nat → Hdr → Nat → SM (Option Nat)
  | fuel, h, n => do
    let h ← readHdr h
    let ok ← SM.isOk
    if !ok || !isSync h.b0 h.b1 then do
      SM.clear
      pure (some n)
    else
      match fuel with
      | 0 => pure none
      | fuel + 1 => do
        let _ ← mp3Frame h false
        countFrames fuel h (n + 1)

/-- `get_mp3_duration(is)`: scribbu/mp3.cc L607-672. The result is the exact
rational `num * frames / den` as the triple `(num, frames, den)`; the C++ rounds it
to `double`. `none`: the loops ran longer than `fuel`. The initial contents of
`hdr` are only used when all four bytes were read. -/
def mp3Duration (fuel : Nat) : SM (Option (Nat × Nat × Nat)) := do
  let excMask ← SM.exceptions
  SM.setExceptions ⟨false, false, true⟩
  let here ← SM.tellg
  let h ← readHdr ⟨0, 0, 0, 0⟩
  let ok ← SM.isOk
  let h ← (if ok && !isSync h.b0 h.b1 then do
      let r ← findSync fuel
      match r with
      | none => pure none
      | some () => do
        let h ← readHdr h
        pure (some h)
    else pure (some h))
  match h with
  | none => pure none
  | some h => do
    let ok ← SM.isOk
    if !ok || !isSync h.b0 h.b1 then do
      SM.clear
      SM.seekBeg here
      pure (some (0, 0, 1))
    else do
      let (f, vbr) ← mp3Frame h true
      let (num, den) := f.duration
      match vbr with
      | some (frames, nbytes) => do
        SM.seekCur ((nbytes : Int) - f.size)
        SM.setExceptions excMask
        pure (some (num, frames, den))
      | none => do
        let r ← countFrames fuel h 1
        match r with
        | none => pure none
        | some n => do
          SM.setExceptions excMask
          pure (some (num, n, den))

end Scribbu
