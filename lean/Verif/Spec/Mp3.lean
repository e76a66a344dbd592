import Verif.Model.Mp3

/-! # The MPEG-1/2/2.5 layer III frame header, as ISO/IEC 11172-3 lays it out -/

namespace Scribbu.Spec

/-- The two version bits. -/
def mpegVersion : Nat → Option MpegVersion
  | 0 => some .v25
  | 2 => some .v2
  | 3 => some .v1
  | _ => none

/-- Layer III bit rates in kbit/s by bit-rate index (0 is "free", 15 forbidden). -/
def kbps (v : MpegVersion) (i : Nat) : Option Nat :=
  if i = 0 then none
  else match v with
    | .v1 => [0, 32, 40, 48, 56, 64, 80, 96, 112, 128, 160, 192, 224, 256, 320][i]?
    | _ => [0, 8, 16, 24, 32, 40, 48, 56, 64, 80, 96, 112, 128, 144, 160][i]?

/-- Sampling rates: the MPEG-1 ones, halved for MPEG-2 and quartered for 2.5. -/
def hertz (v : MpegVersion) (i : Nat) : Option Nat :=
  ([44100, 48000, 32000][i]?).map fun r =>
    match v with | .v1 => r | .v2 => r / 2 | .v25 => r / 4

/-- `h` is the header of a layer III frame: eleven set bits, version, layer bits
`01`, protection bit (0: a CRC follows), bit-rate index, sampling-rate index,
padding, private, channel mode. -/
def IsLayerIII (h : Hdr) (v : MpegVersion) (crc : Bool) (kb hz : Nat) (pad : Bool)
    (mono : Bool) : Prop :=
  h.b0.toNat = 255 ∧
  (∃ vb, mpegVersion vb = some v ∧
    h.b1.toNat = 7 * 32 + vb * 8 + 1 * 2 + (if crc then 0 else 1)) ∧
  (∃ bi si pr, kbps v bi = some kb ∧ hertz v si = some hz ∧ pr < 2 ∧
    h.b2.toNat = bi * 16 + si * 4 + (if pad then 1 else 0) * 2 + pr) ∧
  (∃ ch low, ch < 4 ∧ low < 64 ∧ h.b3.toNat = ch * 64 + low ∧ mono = decide (ch = 3))

/-- Samples per layer III frame. -/
def samples : MpegVersion → Nat
  | .v1 => 1152
  | _ => 576

/-- Bytes in a layer III frame: `⌊144 · bitrate / rate⌋` (72 for MPEG-2 and 2.5)
plus the padding slot. -/
def frameBytes (v : MpegVersion) (kb hz : Nat) (pad : Bool) : Nat :=
  (match v with | .v1 => 144 | _ => 72) * (kb * 1000) / hz + (if pad then 1 else 0)

/-- Size of the side information. -/
def sideBytes : MpegVersion → Bool → Nat
  | .v1, true => 17
  | .v1, false => 32
  | _, true => 9
  | _, false => 17

/-- `bs` is exactly one layer III frame, lasting `dur.1 / dur.2` seconds. -/
def IsFrame (bs : Bytes) (dur : Nat × Nat) : Prop :=
  ∃ h v crc kb hz pad mono, IsLayerIII h v crc kb hz pad mono ∧
    bs.take 4 = [h.b0, h.b1, h.b2, h.b3] ∧ bs.length = frameBytes v kb hz pad ∧
    dur = (samples v, hz)

/-- `bs` starts with a frame whose header, CRC and side information occupy `n` bytes. -/
def PayloadAt (bs : Bytes) (n : Nat) (crc : Bool) : Prop :=
  ∃ h v kb hz pad mono, IsLayerIII h v crc kb hz pad mono ∧
    bs.take 4 = [h.b0, h.b1, h.b2, h.b3] ∧
    n = 4 + (if crc then 2 else 0) + sideBytes v mono

/-- Four ASCII letters. -/
def xing : Bytes := "Xing".toList.map fun c => c.toNat.toUInt8
def info : Bytes := "Info".toList.map fun c => c.toNat.toUInt8
def vbri : Bytes := "VBRI".toList.map fun c => c.toNat.toUInt8

/-- No variable-bit-rate header in any of the three places the library looks. -/
def NoVbr (bs : Bytes) : Prop :=
  ∃ n crc, PayloadAt bs n crc ∧
    (bs.drop n).take 4 ≠ xing ∧ (bs.drop n).take 4 ≠ info ∧
    (bs.drop (n - 2)).take 4 ≠ xing ∧ (bs.drop (n - 2)).take 4 ≠ info ∧
    (bs.drop (36 + if crc then 2 else 0)).take 4 ≠ vbri

/-- `bs` does not go on with another frame. -/
def NoSync (bs : Bytes) : Prop :=
  bs.length < 4 ∨ ∃ a b rest, bs = a :: b :: rest ∧ ¬ (a.toNat = 255 ∧ 224 ≤ b.toNat)

end Scribbu.Spec
