import Verif.Spec.Tag23
import Verif.Spec.Unsync

/-! # CRC-32 as in ISO 3309, which both standards ask for -/

namespace Scribbu.Spec

/-- One bit: the generator is EDB88320, lowest bit first. -/
def crcBit (c : Nat) : Nat := if c % 2 = 1 then (c / 2) ^^^ 0xedb88320 else c / 2

/-- One byte. -/
def crcByte (c : Nat) (b : Byte) : Nat := crcBit (crcBit (crcBit (crcBit (crcBit (crcBit (crcBit (crcBit (c ^^^ b.toNat))))))))

/-- The checksum of `bs`, going on from checksum `c` of what is in front of it: all bits are inverted before and after. -/
def crc32 (c : Nat) (bs : Bytes) : Nat := (bs.foldl crcByte (c ^^^ 0xffffffff)) ^^^ 0xffffffff

/-- A checksum that can be computed in pieces. -/
def Streaming (f : Nat → Bytes → Nat) : Prop := f 0 [] = 0 ∧ ∀ c a b, f c (a ++ b) = f (f c a) b

/-- Five bytes, seven bits each. -/
def crcSyncSafe (n : Nat) : Bytes :=
  [UInt8.ofNat (n / 268435456 % 128), UInt8.ofNat (n / 2097152 % 128), UInt8.ofNat (n / 16384 % 128), UInt8.ofNat (n / 128 % 128), UInt8.ofNat (n % 128)]

/-- An ID3v2.3 tag as written, with an extended header with a checksum and this much padding: its checksum is that of what is between the extended header and
the padding, "frames and only the frames". -/
def Checksum23 (out : Bytes) (padding : Nat) : Prop :=
  (out.drop 20).take 4 = be32 (crc32 0 ((out.drop 24).take (out.length - 24 - padding)))

/-- An ID3v2.4 tag as written, without footer, whose extended header has nothing but a checksum: the checksum is that of everything behind the extended header. -/
def Checksum24 (out : Bytes) : Prop :=
  (out.drop 16).take 6 = [5] ++ crcSyncSafe (crc32 0 (out.drop 22))

end Scribbu.Spec
