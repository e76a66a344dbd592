import Verif.Spec.Tag23

/-! Frames and extended headers as the standards lay them out, whoever writes them (id3v2.3.0 section 3.3.1,
id3v2.4.0-structure sections 3.2 and 4.1). -/

namespace Scribbu.Spec

/-- What is said of a frame by the standards. -/
structure StdFrame where
  id : Id4
  /-- discard when the tag is altered -/
  tap : Bool
  /-- discard when the file is altered -/
  fap : Bool
  /-- read only -/
  ro : Bool
  /-- group -/
  gid : Option Byte
  /-- ID3v2.3: decompressed size, if the frame is compressed; ID3v2.4: data length indicator -/
  size : Option Nat
  /-- ID3v2.4: compressed -/
  compressed : Bool
  /-- ID3v2.4: unsynchronised -/
  unsynch : Bool
  /-- the data as stored -/
  data : Bytes

/-- The bytes of a group, if there is one. -/
def gidBytes : Option Byte → Bytes
  | none => []
  | some x => [x]

/-- The bytes of an optional size. -/
def sizeBytes (enc : Nat → Bytes) : Option Nat → Bytes
  | none => []
  | some n => enc n

/-- What follows the ten bytes of the header: in ID3v2.3 the decompressed size and the group; in ID3v2.4 the group and the
data length indicator. -/
def StdFrame.payload (ver : Ver) (f : StdFrame) : Bytes :=
  match ver with
  | .v4 => gidBytes f.gid ++ sizeBytes ss28 f.size ++ f.data
  | _ => sizeBytes be32 f.size ++ gidBytes f.gid ++ f.data

/-- The second flag byte: %ijk00000 in ID3v2.3, %0h00kmnp in ID3v2.4; nothing is encrypted here. -/
def StdFrame.flags1 (ver : Ver) (f : StdFrame) : Byte :=
  match ver with
  | .v4 => (if f.gid.isSome then 0x40 else 0) + (if f.compressed then 0x08 else 0) + (if f.unsynch then 0x02 else 0) +
      (if f.size.isSome then 0x01 else 0)
  | _ => (if f.size.isSome then 0x80 else 0) + (if f.gid.isSome then 0x20 else 0)

/-- The bytes of the frame. -/
def StdFrame.bytes (ver : Ver) (f : StdFrame) : Bytes :=
  frame4 ver f.id (flags0 ver f.tap f.fap f.ro) (f.flags1 ver) (f.payload ver)

/-- Five bytes of seven bits each (four in the first) for 32 bits. -/
def ss35 (n : Nat) : Bytes :=
  [UInt8.ofNat (n / 268435456 % 16), UInt8.ofNat (n / 2097152 % 128), UInt8.ofNat (n / 16384 % 128), UInt8.ofNat (n / 128 % 128),
   UInt8.ofNat (n % 128)]

/-- The bytes of an extended header of ID3v2.4: its whole size, the number of flag bytes, the flag byte %0bcd0000, and for
each flag a length and data. -/
def ext24 (update : Bool) (crc : Option Nat) (restr : Option Byte) : Bytes :=
  let data := (if update then [0] else []) ++ (match crc with | none => [] | some c => [5] ++ ss35 c) ++
    (match restr with | none => [] | some r => [1, r])
  ss28 (6 + data.length) ++ [1, (if update then 0x40 else 0) + (if crc.isSome then 0x20 else 0) + (if restr.isSome then 0x10 else 0)] ++ data

end Scribbu.Spec
