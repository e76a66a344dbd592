import Verif.Model.Basic

/-! # URL encoding and decoding (scribbu/scribbu.cc L323-421)

`std::string` is a byte list; `char` is its bit pattern. -/

namespace Scribbu

/-- One lower-case hex digit, as `std::hex` prints it. -/
def hexDigit (n : Nat) : Byte :=
  if n < 10 then UInt8.ofNat (0x30 + n) else UInt8.ofNat (0x61 + (n - 10))

/-- The test for un-reserved characters: scribbu/scribbu.cc L335-338. A negative
`char` fails every comparison, as does a byte above 0x7f here. -/
def isUnreserved (c : Byte) : Bool :=
  (0x41 ≤ c && c ≤ 0x5a) || (0x61 ≤ c && c ≤ 0x7a) || (0x30 ≤ c && c ≤ 0x39) ||
  c == 0x2d || c == 0x5f || c == 0x2e || c == 0x7e

/-- `urlencode(text)`: scribbu/scribbu.cc L323-354. -/
def urlencode : Bytes → Bytes
  | [] => []
  | c :: cs =>
    (if c = 0x25 then [0x25, 0x32, 0x35]
     else if isUnreserved c then [c]
     else [0x25, hexDigit (c.toNat / 16), hexDigit (c.toNat % 16)]) ++ urlencode cs

/-- Value of one hex digit or `invalid_argument`: the two halves of `strtochar`,
scribbu/scribbu.cc L360-378. -/
def hexVal (c : Byte) : Res Nat :=
  if 0x30 ≤ c && c ≤ 0x39 then .ok (c.toNat - 0x30)
  else if 0x61 ≤ c && c ≤ 0x66 then .ok (c.toNat - 0x61 + 10)
  else if 0x41 ≤ c && c ≤ 0x46 then .ok (c.toNat - 0x41 + 10)
  else .throw .invalidArgument

/-- `strtochar(p)`: scribbu/scribbu.cc L356-381; `p` is `text.c_str() + i`, i.e. a
pointer into the characters and their terminating NUL. -/
def strtochar (cstr : Bytes) (i : Nat) : Res Byte :=
  (rd cstr i).bind fun a => (hexVal a).bind fun x =>
  (rd cstr (i + 1)).bind fun b => (hexVal b).bind fun y =>
  .ok (UInt8.ofNat (16 * x + y))

/-- The loop of `urldecode`: scribbu/scribbu.cc L391-418. `fuel` is an iteration
count; `text.length` iterations always suffice (`i` grows in each). -/
def decodeLoop (text : Bytes) : Nat → Nat → Bool → Bytes → Res Bytes
  | 0, _, _, out => .ok out
  | fuel + 1, i, sawPct, out =>
    if i < text.length then
      (rd text i).bind fun c =>
      if sawPct then
        if c = 0x25 then decodeLoop text fuel (i + 1) false (out ++ [c])
        else if text.length < i + 2 then .throw .invalidArgument
        else (strtochar (text ++ [0]) i).bind fun x =>
          decodeLoop text fuel (i + 2) false (out ++ [x])
      else if c = 0x25 then decodeLoop text fuel (i + 1) true out
      else decodeLoop text fuel (i + 1) false (out ++ [c])
    else .ok out

/-- `urldecode(text)`: scribbu/scribbu.cc L383-421. -/
def urldecode (text : Bytes) : Res Bytes := decodeLoop text text.length 0 false []

end Scribbu
