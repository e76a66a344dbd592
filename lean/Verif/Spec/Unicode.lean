import Verif.Model.Charset

/-!
# Texts as characters, and character encodings

What the encodings that ID3v2 tags use are, independently of the model: how they write a text, that is a list of the numbers of
characters, and what it takes for a library to convert between them. (RFC 3629 for UTF-8, RFC 2781 for UTF-16, ISO/IEC 8859.)
-/

namespace Scribbu.Spec.Unicode

open Scribbu

/-- A text: the numbers of its characters. -/
abbrev Chars := List Nat

/-- A surrogate, which is no character. -/
def isSurrogate (c : Nat) : Prop := 0xd800 ≤ c ∧ c < 0xe000

instance (c : Nat) : Decidable (isSurrogate c) := inferInstanceAs (Decidable (_ ∧ _))

/-- A character in UTF-8. -/
def utf8 (c : Nat) : Option Bytes :=
  if isSurrogate c then none
  else if c < 0x80 then some [UInt8.ofNat c]
  else if c < 0x800 then some [UInt8.ofNat (0xc0 + c / 64), UInt8.ofNat (0x80 + c % 64)]
  else if c < 0x10000 then some [UInt8.ofNat (0xe0 + c / 4096), UInt8.ofNat (0x80 + c / 64 % 64), UInt8.ofNat (0x80 + c % 64)]
  else if c < 0x110000 then
    some [UInt8.ofNat (0xf0 + c / 262144), UInt8.ofNat (0x80 + c / 4096 % 64), UInt8.ofNat (0x80 + c / 64 % 64), UInt8.ofNat (0x80 + c % 64)]
  else none

/-- A number of 16 bits as two bytes, the high one first or last. -/
def unit (be : Bool) (n : Nat) : Bytes :=
  if be then [UInt8.ofNat (n / 256), UInt8.ofNat (n % 256)] else [UInt8.ofNat (n % 256), UInt8.ofNat (n / 256)]

/-- A character in UCS-2. -/
def ucs2 (be : Bool) (c : Nat) : Option Bytes :=
  if isSurrogate c then none else if c < 0x10000 then some (unit be c) else none

/-- A character in UTF-16. -/
def utf16 (be : Bool) (c : Nat) : Option Bytes :=
  if isSurrogate c then none
  else if c < 0x10000 then some (unit be c)
  else if c < 0x110000 then some (unit be (0xd800 + (c - 0x10000) / 1024) ++ unit be (0xdc00 + (c - 0x10000) % 1024))
  else none

/-- A character in ISO-8859-1. -/
def latin1 (c : Nat) : Option Bytes := if c < 256 then some [UInt8.ofNat c] else none

/-- A character in ISO-8859-8, Latin and Hebrew. -/
def hebrew (c : Nat) : Option Bytes :=
  if c < 0xa1 then some [UInt8.ofNat c]
  else if c < 0xbf ∧ c ≠ 0xa1 ∧ c ≠ 0xaa ∧ c ≠ 0xba then some [UInt8.ofNat c]
  else if c = 0xd7 then some [0xaa]
  else if c = 0xf7 then some [0xba]
  else if c = 0x2017 then some [0xdf]
  else if 0x5d0 ≤ c ∧ c < 0x5eb then some [UInt8.ofNat (0xe0 + (c - 0x5d0))]
  else if c = 0x200e then some [0xfd]
  else if c = 0x200f then some [0xfe]
  else none

/-- Each character in turn. -/
def each (f : Nat → Option Bytes) : Chars → Option Bytes
  | [] => some []
  | c :: cs =>
    match f c, each f cs with
    | some a, some b => some (a ++ b)
    | _, _ => none

/-- The encodings that are specified here. -/
def known : List Encoding :=
  [.ISO_8859_1, .ISO_8859_8, .UTF_8, .UCS_2, .UCS_2BE, .UCS_2LE, .UTF_16, .UTF_16BE, .UTF_16LE]

/-- A character in an encoding; `none`: the encoding does not have it. -/
def char : Encoding → Nat → Option Bytes
  | .ISO_8859_1 => latin1
  | .ISO_8859_8 => hebrew
  | .UTF_8 => utf8
  | .UCS_2BE => ucs2 true
  | .UCS_2 | .UCS_2LE => ucs2 false
  | .UTF_16BE => utf16 true
  | .UTF_16 | .UTF_16LE => utf16 false
  | _ => fun _ => none

/-- What texts start with: UTF-16 has a byte order mark. -/
def mark : Encoding → Bytes
  | .UTF_16 => [0xff, 0xfe]
  | _ => []

/-- A text in an encoding, as the GNU C library writes it on a machine with the low byte first. `none`: the encoding does not have all
of the characters. -/
def encode (e : Encoding) (cs : Chars) : Option Bytes := (each (char e) cs).map fun b => mark e ++ b

/-- The bytes are the text: in UTF-16, by the byte order mark or else with the low byte first. -/
def Reads (e : Encoding) (b : Bytes) (cs : Chars) : Prop :=
  match e with
  | .UTF_16 =>
    (∃ x, each (utf16 false) cs = some x ∧ b = [0xff, 0xfe] ++ x) ∨ (∃ x, each (utf16 true) cs = some x ∧ b = [0xfe, 0xff] ++ x) ∨
      (each (utf16 false) cs = some b ∧ b.take 2 ≠ [0xff, 0xfe] ∧ b.take 2 ≠ [0xfe, 0xff])
  | e => encode e cs = some b

/-- A library that, where characters are not to be replaced or left out, converts texts as they are, or not at all. -/
def Faithful (lib : IconvLib) : Prop :=
  ∀ src ∈ known, ∀ dst ∈ known, ∃ (d : Descriptor) (f : Bytes → Option Bytes),
    Charset.openConv lib src dst .fail = .ok d ∧
    (∀ st b n, (d.call st b n).1 =
      match f b with
      | none => .bad
      | some out => if out.length ≤ n then .done out else .tooBig) ∧
    ∀ b cs, Reads src b cs → f b = encode dst cs

end Scribbu.Spec.Unicode
