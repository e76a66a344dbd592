import Verif.Model.Encodings
import Verif.Model.Languages
import Verif.Model.TemplateEval

/-!
# Character encodings, languages and conversions (scribbu/charsets.cc)
-/

namespace Scribbu
namespace Encoding

/-- `operator>>`: scribbu/charsets.cc L98-225. -/
def parse (b : Bytes) : Res Encoding :=
  match inTable.find? fun e => e.1 = TextFrame.word b with
  | some e => .ok e.2
  | none => .throw .outOfRange

/-- `operator<<`: scribbu/charsets.cc L227-347. -/
def print (x : Encoding) : Res Bytes :=
  match outTable.find? fun e => e.1 = x with
  | some e => .ok e.2
  | none => .throw .outOfRange

/-- `encoding_from_locale_name(name)`: scribbu/charsets.cc L37-91. `none` stands for `make_pair(false, ...)`. `substr(i)` begins
with the dot. -/
def fromLocaleName (name : Bytes) : Option Encoding :=
  let tail := name.reverse.takeWhile (· ≠ 46)
  if tail.length = name.length then some .UTF_8
  else
    match localeTable.find? fun e => e.1 = 46 :: tail.reverse with
    | none => none
    | some e => some e.2

/-- `encoding_from_system_locale()`: scribbu/charsets.cc L639-664, given the names of the global locale and of `locale("")`
(whose construction is taken to succeed). -/
def fromSystemLocale (global user : Bytes) : Res Encoding :=
  match fromLocaleName global with
  | some e => .ok e
  | none =>
    match fromLocaleName user with
    | some e => .ok e
    | none => .throw .rangeError

/-- `char_traits<char>::is_code_unit(x)`: scribbu/charsets.cc L382-406. -/
def isChar (x : Encoding) : Bool := !notChar.contains x

end Encoding

/-- `enum class on_no_encoding`: scribbu/charsets.hh L139-141. -/
inductive OnNo where
  | fail | transliterate | ignore
  deriving DecidableEq, Repr

namespace OnNo

/-- `operator>>`: scribbu/charsets.cc L349-364. -/
def parse (b : Bytes) : Res OnNo :=
  let w := TextFrame.word b
  if w = [102, 97, 105, 108] then .ok .fail
  else if w = [105, 103, 110, 111, 114, 101] then .ok .ignore
  else if w = [116, 114, 97, 110, 115, 108, 105, 116, 101, 114, 97, 116, 101] then .ok .transliterate
  else .throw .outOfRange

/-- `operator<<`: scribbu/charsets.cc L366-377. -/
def print : OnNo → Bytes
  | .fail => [102, 97, 105, 108]
  | .ignore => [105, 103, 110, 111, 114, 101]
  | .transliterate => [116, 114, 97, 110, 115, 108, 105, 116, 101, 114, 97, 116, 101]

/-- `SFX`: scribbu/charsets.cc L606-612. -/
def suffix : OnNo → Bytes
  | .fail => []
  | .transliterate => [47, 47, 84, 82, 65, 78, 83, 76, 73, 84]
  | .ignore => [47, 47, 73, 71, 78, 79, 82, 69]

end OnNo

/-- `string_for_encoding(enc, rsp)`: scribbu/charsets.cc L482-615. -/
def Encoding.iconvName (x : Encoding) (r : OnNo) : Res Bytes :=
  match Encoding.iconvTable.find? fun e => e.1 = x with
  | some e => .ok (e.2 ++ r.suffix)
  | none => .throw .outOfRange

namespace Language

/-- `language_from_iso_639_1(code)`: scribbu/charsets.cc L931-1148. `insert` keeps what is there; `lookup[...]` of a code that is
not there is a zero enumerator. Not modelled: bytes from 0x80 on, which as negative `char`s are shifted to other keys; none of
those is in the table. -/
def fromIso1 (c0 c1 : Byte) : Language :=
  match iso1.find? fun e => e.1 = [c0, c1] with
  | some e => e.2
  | none => fromLocale

/-- `language_from_locale()`: scribbu/charsets.cc L1150-1174, given the values of LANGUAGE, LC_ALL and LANG (`none` and empty
are alike). -/
def ofEnv : List Bytes → Res Language
  | [] => .throw .runtimeError
  | (c0 :: c1 :: _) :: _ => .ok (fromIso1 c0 c1)
  | _ :: rest => ofEnv rest

/-- `language_to_iso_639_2(lang, code)`: scribbu/charsets.cc L1176-1706. -/
def toIso2 (env : List Bytes) (lang : Language) : Res Bytes :=
  (if lang = fromLocale then ofEnv env else .ok lang).bind fun l =>
  match iso2.find? fun e => e.1 = l with
  | some e => .ok e.2
  | none => .throw .logicError

/-- `operator>>`: scribbu/charsets.cc L1708-2228. -/
def parse (b : Bytes) : Res Language :=
  match inTable.find? fun e => e.1 = TextFrame.word b with
  | some e => .ok e.2
  | none => .throw .outOfRange

/-- `operator<<`: scribbu/charsets.cc L2230-2745. -/
def print (x : Language) : Res Bytes :=
  match outTable.find? fun e => e.1 = x with
  | some e => .ok e.2
  | none => .throw .outOfRange

end Language

/-! ## Conversion -/

/-- What a call of `iconv` for a whole input may come to. -/
inductive IconvOut where
  /-- all of the input has been converted; what has been written -/
  | done (out : Bytes)
  /-- `E2BIG` -/
  | tooBig
  /-- any other error -/
  | bad
  deriving DecidableEq, Repr

/-- A conversion descriptor: `iconv_open`, and then calls with all of the input and room for so many bytes, in the state that
the calls before have left. Nothing is assumed of it here. -/
structure Descriptor where
  State : Type
  init : State
  call : State → Bytes → Nat → IconvOut × State

/-- `iconv_open(to, from)`, by what it is given. -/
abbrev IconvLib := Bytes → Bytes → Option Descriptor

namespace Charset

/-- The loop on `E2BIG` of the conversion to `std::string`: scribbu/charsets.cc L699-711, from a buffer of `cb` bytes on. Fuel
stands for memory: `new` throws when there is none. (`bad_alloc` is `other`.) -/
def growString (d : Descriptor) (b : Bytes) : Nat → d.State → Nat → Res Bytes
  | 0, _, _ => .throw .other
  | fuel + 1, st, cb =>
    match d.call st b cb with
    | (.done out, _) => if out.length ≤ cb then .ok out else .ub .oobWrite
    | (.bad, _) => .throw .runtimeError
    | (.tooBig, st') => growString d b fuel st' (cb * 4)

/-- `descriptor(from, to, rsp)`: scribbu/charsets.hh L163-177. -/
def openConv (lib : IconvLib) (src dst : Encoding) (rsp : OnNo) : Res Descriptor :=
  (dst.iconvName rsp).bind fun to =>
  (src.iconvName .fail).bind fun from_ =>
  match lib to from_ with
  | none => .throw .runtimeError
  | some d => .ok d

/-- `convert_encoding<std::string>(pbuf, cbbuf, srcenc, dstenc, rsp)`: scribbu/charsets.cc L666-755. `bad_code_unit` is `other`. -/
def toText (lib : IconvLib) (mem : Nat) (src dst : Encoding) (rsp : OnNo) (b : Bytes) : Res Bytes :=
  if !dst.isChar then .throw .other
  else if b.length = 0 then .ok []
  else
    (openConv lib src dst rsp).bind fun d =>
    (growString d b mem d.init (b.length * 4)).bind fun out => .ok (Tbt.stripTrailing (Tbt.stripBom out))

/-- The byte order mark to add: scribbu/charsets.cc L775-779 and L791-848, on a little-endian machine. -/
def bomFor : Encoding → Bytes
  | .UCS_2 => [0xff, 0xfe]
  | .UCS_4 => [0xff, 0xfe, 0x00, 0x00]
  | .UCS_2BE | .UTF_16BE => [0xfe, 0xff]
  | .UCS_2LE | .UTF_16LE => [0xff, 0xfe]
  | .UTF_8 => [0xef, 0xbb, 0xbf]
  | .UCS_4BE | .UTF_32BE => [0x00, 0x00, 0xff, 0xfe]
  | .UCS_4LE | .UTF_32LE => [0xff, 0xfe, 0x00, 0x00]
  | _ => []

/-- The loop on `E2BIG` of the conversion to a `vector`, from a `vector` of `cb` bytes on: scribbu/charsets.cc L865-878. `iconv` is
told of `cb` bytes, `cbbom` more than there are. What it leaves is noted in a variable of the loop only. -/
def growVector (d : Descriptor) (b : Bytes) (cbbom : Nat) : Nat → d.State → Nat → Res Unit
  | 0, _, _ => .throw .other
  | fuel + 1, st, cb =>
    match d.call st b cb with
    | (.done out, _) => if out.length + cbbom ≤ cb then .ok () else .ub .oobWrite
    | (.bad, _) => .throw .runtimeError
    | (.tooBig, st') => growVector d b cbbom fuel st' (cb * 4)

/-- `convert_encoding<char const*>(text, srcenc, dstenc, add_bom, rsp)`: scribbu/charsets.cc L766-896, and the overloads L898-927.
A C string ends at the first null character. After the loop, `outbytesleft` is the size of the buffer, so that nothing is
returned. -/
def toBytes (lib : IconvLib) (mem : Nat) (src dst : Encoding) (addBom : Bool) (rsp : OnNo) (text : Bytes) : Res Bytes :=
  if !src.isChar then .throw .other
  else
    let b := text.takeWhile (· ≠ 0)
    if b.length = 0 then .ok []
    else
      (openConv lib src dst rsp).bind fun d =>
      let bom := if addBom then bomFor dst else []
      match d.call d.init b (b.length * 4) with
      | (.done out, _) => if out.length ≤ b.length * 4 then .ok (bom ++ out) else .ub .oobWrite
      | (.bad, _) => .throw .runtimeError
      | (.tooBig, st') =>
        (growVector d b bom.length mem st' ((bom.length + b.length * 4) * 4)).bind fun _ => .ok []

end Charset
end Scribbu
