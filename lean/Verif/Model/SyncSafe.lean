import Verif.Model.Basic

/-!
# Integer codecs of `scribbu/id3v2.cc`

`std::uint32_t`/`std::size_t` results are `Nat`; the bit operations are those of
the source. The C++ shifts act on promoted `int`s; `(b & 0x0f) << 28` and
`b << 24` may reach the sign bit, which every supported compiler defines as the
two's complement bit pattern, then converted to `std::uint32_t` — the value
modelled here.
-/

namespace Scribbu

/-- `unsigned_from_sync_safe(b0,b1,b2)`: scribbu/id3v2.cc L40-46. -/
def unsignedFromSyncSafe3 (b0 b1 b2 : Byte) : Nat :=
  ((b0.toNat &&& 0x7f) <<< 14) ||| ((b1.toNat &&& 0x7f) <<< 7) ||| (b2.toNat &&& 0x7f)

/-- `unsigned_from_sync_safe(b0,b1,b2,b3)` / `uint32_from_sync_safe`:
scribbu/id3v2.cc L48-55, L67-77. -/
def unsignedFromSyncSafe4 (b0 b1 b2 b3 : Byte) : Nat :=
  ((b0.toNat &&& 0x7f) <<< 21) ||| ((b1.toNat &&& 0x7f) <<< 14) |||
  ((b2.toNat &&& 0x7f) <<< 7) ||| (b3.toNat &&& 0x7f)

/-- `unsigned_from_sync_safe(b0,b1,b2,b3,b4)` / `uint32_from_sync_safe`:
scribbu/id3v2.cc L57-65, L79-91. -/
def unsignedFromSyncSafe5 (b0 b1 b2 b3 b4 : Byte) : Nat :=
  ((b0.toNat &&& 0x0f) <<< 28) ||| ((b1.toNat &&& 0x7f) <<< 21) |||
  ((b2.toNat &&& 0x7f) <<< 14) ||| ((b3.toNat &&& 0x7f) <<< 7) ||| (b4.toNat &&& 0x7f)

/-- `unsigned_from_non_sync_safe(b0,b1,b2)`: scribbu/id3v2.cc L93-99, L110-116. -/
def unsignedFromNonSyncSafe3 (b0 b1 b2 : Byte) : Nat :=
  (b0.toNat <<< 16) ||| (b1.toNat <<< 8) ||| b2.toNat

/-- `unsigned_from_non_sync_safe(b0,b1,b2,b3)`: scribbu/id3v2.cc L101-108, L118-128. -/
def unsignedFromNonSyncSafe4 (b0 b1 b2 b3 : Byte) : Nat :=
  (b0.toNat <<< 24) ||| (b1.toNat <<< 16) ||| (b2.toNat <<< 8) ||| b3.toNat

/-- `sync_safe_from_unsigned(x, b)`: scribbu/id3v2.cc L130-151. The four bytes
stored into `b[0..3]`, or `std::invalid_argument` before anything is stored. -/
def syncSafeFromUnsigned (x : Nat) : Res (Byte × Byte × Byte × Byte) :=
  if x > 0xfffffff then .throw .invalidArgument
  else .ok (UInt8.ofNat ((x >>> 21) &&& 127), UInt8.ofNat ((x >>> 14) &&& 127),
            UInt8.ofNat ((x >>> 7) &&& 127), UInt8.ofNat (x &&& 127))

end Scribbu
