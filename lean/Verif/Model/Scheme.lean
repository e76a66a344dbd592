import Verif.Model.Json

/-! # The Scheme API: `read-id3v1-tag`, `write-id3v1-tag`, `read-tagset`, `write-tagset`, `with-track-in`

scribbu/scheme.cc, scribbu/scheme-serde.cc, scribbu/scheme-serde.hh, scribbu/dynwind-context.cc, and the classes of
scheme/scribbu.scm. The tables are transcribed from the source by a script, entry by entry.

Guile is not modelled but for what the functions that are called do with the values that may occur. Strings are in UTF-8, and so is
the locale. iconv, zlib, and what Guile makes of bytes that are not text are parameters. -/

namespace Scribbu
namespace Scheme

/-! ## Values, and how calls end -/

/-- Scheme values. Numbers are natural ones; negative and inexact ones, and all other values, are refused where these are
expected. -/
inductive Val where
  /-- `'()` -/
  | nil
  /-- `#nil` -/
  | enil
  | bool (b : Bool)
  | num (n : Nat)
  | str (b : Bytes)
  | sym (b : Bytes)
  | bv (b : Bytes)
  | cons (car cdr : Val)
  deriving DecidableEq, Repr

/-- How a call from Scheme ends: with a value, a C++ exception, an error of Guile's, which is not a C++ exception and leaves by
`longjmp`, or undefined behaviour. -/
inductive Ret (α : Type) where
  | ok (a : α)
  | std (e : Exc)
  | guile
  | ub (u : UB)
  deriving DecidableEq, Repr

namespace Ret

/-- One after the other. -/
def bind {α β : Type} (r : Ret α) (f : α → Ret β) : Ret β :=
  match r with
  | ok a => f a
  | std e => std e
  | guile => guile
  | ub u => ub u

/-- A call of C++ code. -/
def ofRes {α : Type} : Res α → Ret α
  | .ok a => ok a
  | .throw e => std e
  | .ub u => ub u

/-- `catch (const exception &ex) { scm_error(...); }`: scribbu/scheme.cc L375-380, L433-438, L527-532, L677-682, L758-763. -/
def caught {α : Type} : Ret α → Ret α
  | std _ => guile
  | r => r

/-- A loop that makes a list, from the first element to the last. -/
def all {α β : Type} (f : α → Ret β) : List α → Ret (List β)
  | [] => ok []
  | a :: as => (f a).bind fun b => (all f as).bind fun bs => ok (b :: bs)

end Ret

/-- The direct classes of frames: scheme/scribbu.scm L201-275; `other`: another class derived from `<id3v2-frame>`. -/
inductive Klass where
  | unk | text | comment | udt | playCount | popm | tagCloud | priv | other
  deriving DecidableEq, Repr

/-- An instance of a class of frames, and the values of its slots, in order: scheme/scribbu.scm L194-275. Slots 0 to 4 are `id`,
`tap`, `fap`, `read-only` and `unsync`. -/
structure Obj where
  cls : Klass
  slots : List Val
  deriving DecidableEq, Repr

/-- An instance of `<id3v2-tag>`: scheme/scribbu.scm L277-281. Simplified: the slot `frames` is a list of frames (anything else is
refused). -/
structure TagObj where
  experimental : Val
  frames : List Obj
  padding : Val
  deriving DecidableEq, Repr

/-- What the functions depend on: iconv, memory, zlib (in `Json.Env`, with no encoding given for frames), the values of LANGUAGE,
LC_ALL and LANG, which bytes are UTF-8, and what Guile makes of bytes when told to put escape sequences or to use the locale. -/
structure Env extends Json.Env where
  langs : List Bytes
  valid : Bytes → Bool
  lenient : Bytes → Option Bytes

/-! ## Guile's conversions -/

/-- `SCM_SLOT(x, i)`, which checks nothing. -/
def slot (o : List Val) (i : Nat) : Ret Val :=
  match o[i]? with
  | some v => .ok v
  | none => .ub .oobRead

/-- `scm_is_null(x)`. -/
def isNull (v : Val) : Bool := v = .nil || v = .enil

/-- `free_utf8_string(x)`, `free_locale_string(x)`: scribbu/dynwind-context.cc L32-44; `scm_to_utf8_string` and
`scm_to_locale_string` refuse what is not a string and strings with null characters. -/
def cstr : Val → Ret Bytes
  | .str b => if 0 ∈ b then .guile else .ok b
  | _ => .guile

/-- `free_utf8_string(scm_symbol_to_string(x))`. -/
def symText : Val → Ret Bytes
  | .sym b => if 0 ∈ b then .guile else .ok b
  | _ => .guile

/-- `scm_to_uchar`, `scm_to_uint`, `scm_to_size_t`: unsigned integers of so many bits. -/
def toUnsigned (bits : Nat) : Val → Ret Nat
  | .num n => if n < 2 ^ bits then .ok n else .guile
  | _ => .guile

/-- `scm_to_bool`. -/
def toBool : Val → Ret Bool
  | .bool b => .ok b
  | _ => .guile

/-- The elements of a proper list. -/
def elements? : Val → Option (List Val)
  | .nil => some []
  | .enil => some []
  | .cons a d => (elements? d).map (a :: ·)
  | _ => none

/-- `scm_length`, and `scm_list_ref` for all the indices there are: a value that is not a proper list is refused. -/
def elements (v : Val) : Ret (List Val) :=
  match elements? v with
  | some l => .ok l
  | none => .guile

/-- A list: `scm_list_for_range`, scribbu/scheme-serde.hh. -/
def ofList : List Val → Val
  | [] => .nil
  | v :: vs => .cons v (ofList vs)

/-- `scm_from_utf8_string(s.c_str())`: up to the first null character; what is not UTF-8 is refused. -/
def Env.utf8 (E : Env) (b : Bytes) : Ret Val :=
  if E.valid (b.takeWhile (· ≠ 0)) then .ok (.str (b.takeWhile (· ≠ 0))) else .guile

/-- `scm_from_stringn(s.c_str(), s.size(), "UTF-8", SCM_FAILED_CONVERSION_ESCAPE_SEQUENCE)`. -/
def Env.text (E : Env) (b : Bytes) : Ret Val :=
  match E.lenient b with
  | some s => .ok (.str s)
  | none => .guile

/-- `scm_from_locale_string(s.c_str())`. -/
def Env.locale (E : Env) (b : Bytes) : Ret Val := E.text (b.takeWhile (· ≠ 0))

/-! ## Tables -/

/-- A symbol, and the identifiers of the frames it stands for. -/
structure Row where
  sym : Bytes
  id3 : Option Id3
  id4 : Id4
  deriving DecidableEq, Repr

/-- Symbols and identifiers, `none` where ID3v2.2 has none: scribbu/scheme-serde.cc L189-234, with L28-114. (`year-frame` is there
twice.) -/
def rows : List Row := [
  ⟨/- file-owner-frame -/ [102, 105, 108, 101, 45, 111, 119, 110, 101, 114, 45, 102, 114, 97, 109, 101], none, mkId4 'T' 'O' 'W' 'N'⟩,
  ⟨/- station-name-frame -/ [115, 116, 97, 116, 105, 111, 110, 45, 110, 97, 109, 101, 45, 102, 114, 97, 109, 101], none, mkId4 'T' 'R' 'S' 'N'⟩,
  ⟨/- station-owner-frame -/ [115, 116, 97, 116, 105, 111, 110, 45, 111, 119, 110, 101, 114, 45, 102, 114, 97, 109, 101], none, mkId4 'T' 'R' 'S' 'O'⟩,
  ⟨/- album-frame -/ [97, 108, 98, 117, 109, 45, 102, 114, 97, 109, 101], some (mkId3 'T' 'A' 'L'), mkId4 'T' 'A' 'L' 'B'⟩,
  ⟨/- artist-frame -/ [97, 114, 116, 105, 115, 116, 45, 102, 114, 97, 109, 101], some (mkId3 'T' 'P' '1'), mkId4 'T' 'P' 'E' '1'⟩,
  ⟨/- band-frame -/ [98, 97, 110, 100, 45, 102, 114, 97, 109, 101], some (mkId3 'T' 'P' '2'), mkId4 'T' 'P' 'E' '2'⟩,
  ⟨/- bpm-frame -/ [98, 112, 109, 45, 102, 114, 97, 109, 101], some (mkId3 'T' 'B' 'P'), mkId4 'T' 'B' 'P' 'M'⟩,
  ⟨/- composer-frame -/ [99, 111, 109, 112, 111, 115, 101, 114, 45, 102, 114, 97, 109, 101], some (mkId3 'T' 'C' 'M'), mkId4 'T' 'C' 'O' 'M'⟩,
  ⟨/- conductor-frame -/ [99, 111, 110, 100, 117, 99, 116, 111, 114, 45, 102, 114, 97, 109, 101], some (mkId3 'T' 'P' '3'), mkId4 'T' 'P' 'E' '3'⟩,
  ⟨/- content-group-frame -/ [99, 111, 110, 116, 101, 110, 116, 45, 103, 114, 111, 117, 112, 45, 102, 114, 97, 109, 101], some (mkId3 'T' 'T' '1'), mkId4 'T' 'I' 'T' '1'⟩,
  ⟨/- copyright-frame -/ [99, 111, 112, 121, 114, 105, 103, 104, 116, 45, 102, 114, 97, 109, 101], some (mkId3 'T' 'C' 'R'), mkId4 'T' 'C' 'O' 'P'⟩,
  ⟨/- date-frame -/ [100, 97, 116, 101, 45, 102, 114, 97, 109, 101], some (mkId3 'T' 'D' 'A'), mkId4 'T' 'D' 'A' 'T'⟩,
  ⟨/- encoded-by-frame -/ [101, 110, 99, 111, 100, 101, 100, 45, 98, 121, 45, 102, 114, 97, 109, 101], some (mkId3 'T' 'E' 'N'), mkId4 'T' 'E' 'N' 'C'⟩,
  ⟨/- file-type-frame -/ [102, 105, 108, 101, 45, 116, 121, 112, 101, 45, 102, 114, 97, 109, 101], some (mkId3 'T' 'F' 'T'), mkId4 'T' 'F' 'L' 'T'⟩,
  ⟨/- genre-frame -/ [103, 101, 110, 114, 101, 45, 102, 114, 97, 109, 101], some (mkId3 'T' 'C' 'O'), mkId4 'T' 'C' 'O' 'N'⟩,
  ⟨/- initial-key-frame -/ [105, 110, 105, 116, 105, 97, 108, 45, 107, 101, 121, 45, 102, 114, 97, 109, 101], some (mkId3 'T' 'K' 'E'), mkId4 'T' 'K' 'E' 'Y'⟩,
  ⟨/- interpreted-by-frame -/ [105, 110, 116, 101, 114, 112, 114, 101, 116, 101, 100, 45, 98, 121, 45, 102, 114, 97, 109, 101], some (mkId3 'T' 'P' '4'), mkId4 'T' 'P' 'E' '4'⟩,
  ⟨/- isrc-frame -/ [105, 115, 114, 99, 45, 102, 114, 97, 109, 101], some (mkId3 'T' 'R' 'C'), mkId4 'T' 'S' 'R' 'C'⟩,
  ⟨/- langs-frame -/ [108, 97, 110, 103, 115, 45, 102, 114, 97, 109, 101], some (mkId3 'T' 'L' 'A'), mkId4 'T' 'L' 'A' 'N'⟩,
  ⟨/- length-frame -/ [108, 101, 110, 103, 116, 104, 45, 102, 114, 97, 109, 101], some (mkId3 'T' 'L' 'E'), mkId4 'T' 'L' 'E' 'N'⟩,
  ⟨/- lyricist-frame -/ [108, 121, 114, 105, 99, 105, 115, 116, 45, 102, 114, 97, 109, 101], some (mkId3 'T' 'X' 'T'), mkId4 'T' 'E' 'X' 'T'⟩,
  ⟨/- media-type-frame -/ [109, 101, 100, 105, 97, 45, 116, 121, 112, 101, 45, 102, 114, 97, 109, 101], some (mkId3 'T' 'M' 'T'), mkId4 'T' 'M' 'E' 'D'⟩,
  ⟨/- original-album-frame -/ [111, 114, 105, 103, 105, 110, 97, 108, 45, 97, 108, 98, 117, 109, 45, 102, 114, 97, 109, 101], some (mkId3 'T' 'O' 'T'), mkId4 'T' 'O' 'A' 'L'⟩,
  ⟨/- original-artist-frame -/ [111, 114, 105, 103, 105, 110, 97, 108, 45, 97, 114, 116, 105, 115, 116, 45, 102, 114, 97, 109, 101], some (mkId3 'T' 'O' 'A'), mkId4 'T' 'O' 'P' 'E'⟩,
  ⟨/- original-filename-frame -/ [111, 114, 105, 103, 105, 110, 97, 108, 45, 102, 105, 108, 101, 110, 97, 109, 101, 45, 102, 114, 97, 109, 101], some (mkId3 'T' 'O' 'F'), mkId4 'T' 'O' 'F' 'N'⟩,
  ⟨/- original-lyricist-frame -/ [111, 114, 105, 103, 105, 110, 97, 108, 45, 108, 121, 114, 105, 99, 105, 115, 116, 45, 102, 114, 97, 109, 101], some (mkId3 'T' 'O' 'L'), mkId4 'T' 'O' 'L' 'Y'⟩,
  ⟨/- original-release-year-frame -/ [111, 114, 105, 103, 105, 110, 97, 108, 45, 114, 101, 108, 101, 97, 115, 101, 45, 121, 101, 97, 114, 45, 102, 114, 97, 109, 101], some (mkId3 'T' 'O' 'R'), mkId4 'T' 'O' 'R' 'Y'⟩,
  ⟨/- part-of-a-set-frame -/ [112, 97, 114, 116, 45, 111, 102, 45, 97, 45, 115, 101, 116, 45, 102, 114, 97, 109, 101], some (mkId3 'T' 'P' 'A'), mkId4 'T' 'P' 'O' 'S'⟩,
  ⟨/- playlist-delay-frame -/ [112, 108, 97, 121, 108, 105, 115, 116, 45, 100, 101, 108, 97, 121, 45, 102, 114, 97, 109, 101], some (mkId3 'T' 'D' 'Y'), mkId4 'T' 'D' 'L' 'Y'⟩,
  ⟨/- publisher-frame -/ [112, 117, 98, 108, 105, 115, 104, 101, 114, 45, 102, 114, 97, 109, 101], some (mkId3 'T' 'P' 'B'), mkId4 'T' 'P' 'U' 'B'⟩,
  ⟨/- recording-dates-frame -/ [114, 101, 99, 111, 114, 100, 105, 110, 103, 45, 100, 97, 116, 101, 115, 45, 102, 114, 97, 109, 101], some (mkId3 'T' 'R' 'D'), mkId4 'T' 'R' 'D' 'A'⟩,
  ⟨/- settings-frame -/ [115, 101, 116, 116, 105, 110, 103, 115, 45, 102, 114, 97, 109, 101], some (mkId3 'T' 'S' 'S'), mkId4 'T' 'S' 'S' 'E'⟩,
  ⟨/- size-frame -/ [115, 105, 122, 101, 45, 102, 114, 97, 109, 101], some (mkId3 'T' 'S' 'I'), mkId4 'T' 'S' 'I' 'Z'⟩,
  ⟨/- subtitle-frame -/ [115, 117, 98, 116, 105, 116, 108, 101, 45, 102, 114, 97, 109, 101], some (mkId3 'T' 'T' '3'), mkId4 'T' 'I' 'T' '3'⟩,
  ⟨/- time-frame -/ [116, 105, 109, 101, 45, 102, 114, 97, 109, 101], some (mkId3 'T' 'I' 'M'), mkId4 'T' 'I' 'M' 'E'⟩,
  ⟨/- title-frame -/ [116, 105, 116, 108, 101, 45, 102, 114, 97, 109, 101], some (mkId3 'T' 'T' '2'), mkId4 'T' 'I' 'T' '2'⟩,
  ⟨/- track-frame -/ [116, 114, 97, 99, 107, 45, 102, 114, 97, 109, 101], some (mkId3 'T' 'R' 'K'), mkId4 'T' 'R' 'C' 'K'⟩,
  ⟨/- year-frame -/ [121, 101, 97, 114, 45, 102, 114, 97, 109, 101], some (mkId3 'T' 'Y' 'E'), mkId4 'T' 'Y' 'E' 'R'⟩,
  ⟨/- comment-frame -/ [99, 111, 109, 109, 101, 110, 116, 45, 102, 114, 97, 109, 101], some (mkId3 'C' 'O' 'M'), mkId4 'C' 'O' 'M' 'M'⟩,
  ⟨/- udt-frame -/ [117, 100, 116, 45, 102, 114, 97, 109, 101], some (mkId3 'T' 'X' 'X'), mkId4 'T' 'X' 'X' 'X'⟩,
  ⟨/- play-count-frame -/ [112, 108, 97, 121, 45, 99, 111, 117, 110, 116, 45, 102, 114, 97, 109, 101], some (mkId3 'C' 'N' 'T'), mkId4 'P' 'C' 'N' 'T'⟩,
  ⟨/- popm-frame -/ [112, 111, 112, 109, 45, 102, 114, 97, 109, 101], some (mkId3 'P' 'O' 'P'), mkId4 'P' 'O' 'P' 'M'⟩,
  ⟨/- tag-cloud-frame -/ [116, 97, 103, 45, 99, 108, 111, 117, 100, 45, 102, 114, 97, 109, 101], some (mkId3 'X' 'T' 'G'), mkId4 'X' 'T' 'A' 'G'⟩,
  ⟨/- priv-frame -/ [112, 114, 105, 118, 45, 102, 114, 97, 109, 101], none, mkId4 'P' 'R' 'I' 'V'⟩]

/-- Which frames are described by which class: scribbu/scheme-serde.cc L1474-1513. -/
def de22 : List (Id3 × Klass) := [
  (mkId3 'T' 'A' 'L', .text),
  (mkId3 'T' 'B' 'P', .text),
  (mkId3 'T' 'C' 'M', .text),
  (mkId3 'T' 'C' 'O', .text),
  (mkId3 'T' 'C' 'R', .text),
  (mkId3 'T' 'D' 'A', .text),
  (mkId3 'T' 'D' 'Y', .text),
  (mkId3 'T' 'E' 'N', .text),
  (mkId3 'T' 'F' 'T', .text),
  (mkId3 'T' 'I' 'M', .text),
  (mkId3 'T' 'K' 'E', .text),
  (mkId3 'T' 'L' 'A', .text),
  (mkId3 'T' 'L' 'E', .text),
  (mkId3 'T' 'M' 'T', .text),
  (mkId3 'T' 'O' 'A', .text),
  (mkId3 'T' 'O' 'F', .text),
  (mkId3 'T' 'O' 'L', .text),
  (mkId3 'T' 'O' 'R', .text),
  (mkId3 'T' 'O' 'T', .text),
  (mkId3 'T' 'P' '1', .text),
  (mkId3 'T' 'P' '2', .text),
  (mkId3 'T' 'P' '3', .text),
  (mkId3 'T' 'P' '4', .text),
  (mkId3 'T' 'P' 'A', .text),
  (mkId3 'T' 'P' 'B', .text),
  (mkId3 'T' 'R' 'C', .text),
  (mkId3 'T' 'R' 'D', .text),
  (mkId3 'T' 'R' 'K', .text),
  (mkId3 'T' 'S' 'I', .text),
  (mkId3 'T' 'S' 'S', .text),
  (mkId3 'T' 'T' '1', .text),
  (mkId3 'T' 'T' '2', .text),
  (mkId3 'T' 'T' '3', .text),
  (mkId3 'T' 'X' 'T', .text),
  (mkId3 'T' 'Y' 'E', .text),
  (mkId3 'C' 'O' 'M', .comment),
  (mkId3 'T' 'X' 'X', .udt),
  (mkId3 'C' 'N' 'T', .playCount),
  (mkId3 'P' 'O' 'P', .popm),
  (mkId3 'X' 'T' 'G', .tagCloud)]

/-- Which frames are described by which class: scribbu/scheme-serde.cc L1515-1557. -/
def de23 : List (Id4 × Klass) := [
  (mkId4 'T' 'A' 'L' 'B', .text),
  (mkId4 'T' 'B' 'P' 'M', .text),
  (mkId4 'T' 'C' 'O' 'M', .text),
  (mkId4 'T' 'C' 'O' 'N', .text),
  (mkId4 'T' 'C' 'O' 'P', .text),
  (mkId4 'T' 'D' 'A' 'T', .text),
  (mkId4 'T' 'D' 'L' 'Y', .text),
  (mkId4 'T' 'E' 'N' 'C', .text),
  (mkId4 'T' 'E' 'X' 'T', .text),
  (mkId4 'T' 'F' 'L' 'T', .text),
  (mkId4 'T' 'I' 'M' 'E', .text),
  (mkId4 'T' 'I' 'T' '1', .text),
  (mkId4 'T' 'I' 'T' '2', .text),
  (mkId4 'T' 'I' 'T' '3', .text),
  (mkId4 'T' 'K' 'E' 'Y', .text),
  (mkId4 'T' 'L' 'A' 'N', .text),
  (mkId4 'T' 'L' 'E' 'N', .text),
  (mkId4 'T' 'M' 'E' 'D', .text),
  (mkId4 'T' 'O' 'A' 'L', .text),
  (mkId4 'T' 'O' 'F' 'N', .text),
  (mkId4 'T' 'O' 'L' 'Y', .text),
  (mkId4 'T' 'O' 'P' 'E', .text),
  (mkId4 'T' 'O' 'R' 'Y', .text),
  (mkId4 'T' 'O' 'W' 'N', .text),
  (mkId4 'T' 'P' 'E' '1', .text),
  (mkId4 'T' 'P' 'E' '2', .text),
  (mkId4 'T' 'P' 'E' '3', .text),
  (mkId4 'T' 'P' 'E' '4', .text),
  (mkId4 'T' 'P' 'O' 'S', .text),
  (mkId4 'T' 'P' 'U' 'B', .text),
  (mkId4 'T' 'R' 'C' 'K', .text),
  (mkId4 'T' 'R' 'D' 'A', .text),
  (mkId4 'T' 'R' 'S' 'N', .text),
  (mkId4 'T' 'R' 'S' 'O', .text),
  (mkId4 'T' 'S' 'I' 'Z', .text),
  (mkId4 'T' 'S' 'R' 'C', .text),
  (mkId4 'T' 'S' 'S' 'E', .text),
  (mkId4 'T' 'Y' 'E' 'R', .text),
  (mkId4 'C' 'O' 'M' 'M', .comment),
  (mkId4 'T' 'X' 'X' 'X', .udt),
  (mkId4 'P' 'C' 'N' 'T', .playCount),
  (mkId4 'P' 'O' 'P' 'M', .popm),
  (mkId4 'X' 'T' 'A' 'G', .tagCloud)]

/-- Which frames are described by which class: scribbu/scheme-serde.cc L1559-1601. -/
def de24 : List (Id4 × Klass) := [
  (mkId4 'T' 'A' 'L' 'B', .text),
  (mkId4 'T' 'B' 'P' 'M', .text),
  (mkId4 'T' 'C' 'O' 'M', .text),
  (mkId4 'T' 'C' 'O' 'N', .text),
  (mkId4 'T' 'C' 'O' 'P', .text),
  (mkId4 'T' 'D' 'A' 'T', .text),
  (mkId4 'T' 'D' 'L' 'Y', .text),
  (mkId4 'T' 'E' 'N' 'C', .text),
  (mkId4 'T' 'E' 'X' 'T', .text),
  (mkId4 'T' 'F' 'L' 'T', .text),
  (mkId4 'T' 'I' 'M' 'E', .text),
  (mkId4 'T' 'I' 'T' '1', .text),
  (mkId4 'T' 'I' 'T' '2', .text),
  (mkId4 'T' 'I' 'T' '3', .text),
  (mkId4 'T' 'K' 'E' 'Y', .text),
  (mkId4 'T' 'L' 'A' 'N', .text),
  (mkId4 'T' 'L' 'E' 'N', .text),
  (mkId4 'T' 'M' 'E' 'D', .text),
  (mkId4 'T' 'O' 'A' 'L', .text),
  (mkId4 'T' 'O' 'F' 'N', .text),
  (mkId4 'T' 'O' 'L' 'Y', .text),
  (mkId4 'T' 'O' 'P' 'E', .text),
  (mkId4 'T' 'O' 'R' 'Y', .text),
  (mkId4 'T' 'O' 'W' 'N', .text),
  (mkId4 'T' 'P' 'E' '1', .text),
  (mkId4 'T' 'P' 'E' '2', .text),
  (mkId4 'T' 'P' 'E' '3', .text),
  (mkId4 'T' 'P' 'E' '4', .text),
  (mkId4 'T' 'P' 'O' 'S', .text),
  (mkId4 'T' 'P' 'U' 'B', .text),
  (mkId4 'T' 'R' 'C' 'K', .text),
  (mkId4 'T' 'R' 'D' 'A', .text),
  (mkId4 'T' 'R' 'S' 'N', .text),
  (mkId4 'T' 'R' 'S' 'O', .text),
  (mkId4 'T' 'S' 'I' 'Z', .text),
  (mkId4 'T' 'S' 'R' 'C', .text),
  (mkId4 'T' 'S' 'S' 'E', .text),
  (mkId4 'T' 'Y' 'E' 'R', .text),
  (mkId4 'C' 'O' 'M' 'M', .comment),
  (mkId4 'T' 'X' 'X' 'X', .udt),
  (mkId4 'P' 'C' 'N' 'T', .playCount),
  (mkId4 'P' 'O' 'P' 'M', .popm),
  (mkId4 'X' 'T' 'A' 'G', .tagCloud)]

/-- Which function makes a frame of an object, by symbol: scribbu/scheme-serde.cc L1603-1642. -/
def ser22 : List (Bytes × Klass) := [
  (/- album-frame -/ [97, 108, 98, 117, 109, 45, 102, 114, 97, 109, 101], .text),
  (/- artist-frame -/ [97, 114, 116, 105, 115, 116, 45, 102, 114, 97, 109, 101], .text),
  (/- band-frame -/ [98, 97, 110, 100, 45, 102, 114, 97, 109, 101], .text),
  (/- bpm-frame -/ [98, 112, 109, 45, 102, 114, 97, 109, 101], .text),
  (/- composer-frame -/ [99, 111, 109, 112, 111, 115, 101, 114, 45, 102, 114, 97, 109, 101], .text),
  (/- conductor-frame -/ [99, 111, 110, 100, 117, 99, 116, 111, 114, 45, 102, 114, 97, 109, 101], .text),
  (/- content-group-frame -/ [99, 111, 110, 116, 101, 110, 116, 45, 103, 114, 111, 117, 112, 45, 102, 114, 97, 109, 101], .text),
  (/- copyright-frame -/ [99, 111, 112, 121, 114, 105, 103, 104, 116, 45, 102, 114, 97, 109, 101], .text),
  (/- date-frame -/ [100, 97, 116, 101, 45, 102, 114, 97, 109, 101], .text),
  (/- encoded-by-frame -/ [101, 110, 99, 111, 100, 101, 100, 45, 98, 121, 45, 102, 114, 97, 109, 101], .text),
  (/- file-type-frame -/ [102, 105, 108, 101, 45, 116, 121, 112, 101, 45, 102, 114, 97, 109, 101], .text),
  (/- genre-frame -/ [103, 101, 110, 114, 101, 45, 102, 114, 97, 109, 101], .text),
  (/- initial-key-frame -/ [105, 110, 105, 116, 105, 97, 108, 45, 107, 101, 121, 45, 102, 114, 97, 109, 101], .text),
  (/- interpreted-by-frame -/ [105, 110, 116, 101, 114, 112, 114, 101, 116, 101, 100, 45, 98, 121, 45, 102, 114, 97, 109, 101], .text),
  (/- isrc-frame -/ [105, 115, 114, 99, 45, 102, 114, 97, 109, 101], .text),
  (/- langs-frame -/ [108, 97, 110, 103, 115, 45, 102, 114, 97, 109, 101], .text),
  (/- length-frame -/ [108, 101, 110, 103, 116, 104, 45, 102, 114, 97, 109, 101], .text),
  (/- lyricist-frame -/ [108, 121, 114, 105, 99, 105, 115, 116, 45, 102, 114, 97, 109, 101], .text),
  (/- media-type-frame -/ [109, 101, 100, 105, 97, 45, 116, 121, 112, 101, 45, 102, 114, 97, 109, 101], .text),
  (/- original-album-frame -/ [111, 114, 105, 103, 105, 110, 97, 108, 45, 97, 108, 98, 117, 109, 45, 102, 114, 97, 109, 101], .text),
  (/- original-artist-frame -/ [111, 114, 105, 103, 105, 110, 97, 108, 45, 97, 114, 116, 105, 115, 116, 45, 102, 114, 97, 109, 101], .text),
  (/- original-filename-frame -/ [111, 114, 105, 103, 105, 110, 97, 108, 45, 102, 105, 108, 101, 110, 97, 109, 101, 45, 102, 114, 97, 109, 101], .text),
  (/- original-lyricist-frame -/ [111, 114, 105, 103, 105, 110, 97, 108, 45, 108, 121, 114, 105, 99, 105, 115, 116, 45, 102, 114, 97, 109, 101], .text),
  (/- original-release-year-frame -/ [111, 114, 105, 103, 105, 110, 97, 108, 45, 114, 101, 108, 101, 97, 115, 101, 45, 121, 101, 97, 114, 45, 102, 114, 97, 109, 101], .text),
  (/- part-of-a-set-frame -/ [112, 97, 114, 116, 45, 111, 102, 45, 97, 45, 115, 101, 116, 45, 102, 114, 97, 109, 101], .text),
  (/- playlist-delay-frame -/ [112, 108, 97, 121, 108, 105, 115, 116, 45, 100, 101, 108, 97, 121, 45, 102, 114, 97, 109, 101], .text),
  (/- publisher-frame -/ [112, 117, 98, 108, 105, 115, 104, 101, 114, 45, 102, 114, 97, 109, 101], .text),
  (/- recording-dates-frame -/ [114, 101, 99, 111, 114, 100, 105, 110, 103, 45, 100, 97, 116, 101, 115, 45, 102, 114, 97, 109, 101], .text),
  (/- settings-frame -/ [115, 101, 116, 116, 105, 110, 103, 115, 45, 102, 114, 97, 109, 101], .text),
  (/- size-frame -/ [115, 105, 122, 101, 45, 102, 114, 97, 109, 101], .text),
  (/- subtitle-frame -/ [115, 117, 98, 116, 105, 116, 108, 101, 45, 102, 114, 97, 109, 101], .text),
  (/- time-frame -/ [116, 105, 109, 101, 45, 102, 114, 97, 109, 101], .text),
  (/- title-frame -/ [116, 105, 116, 108, 101, 45, 102, 114, 97, 109, 101], .text),
  (/- track-frame -/ [116, 114, 97, 99, 107, 45, 102, 114, 97, 109, 101], .text),
  (/- year-frame -/ [121, 101, 97, 114, 45, 102, 114, 97, 109, 101], .text),
  (/- comment-frame -/ [99, 111, 109, 109, 101, 110, 116, 45, 102, 114, 97, 109, 101], .comment),
  (/- udt-frame -/ [117, 100, 116, 45, 102, 114, 97, 109, 101], .udt),
  (/- play-count-frame -/ [112, 108, 97, 121, 45, 99, 111, 117, 110, 116, 45, 102, 114, 97, 109, 101], .playCount),
  (/- popm-frame -/ [112, 111, 112, 109, 45, 102, 114, 97, 109, 101], .popm),
  (/- tag-cloud-frame -/ [116, 97, 103, 45, 99, 108, 111, 117, 100, 45, 102, 114, 97, 109, 101], .tagCloud)]

/-- Which function makes a frame of an object, by symbol: scribbu/scheme-serde.cc L1644-1686. -/
def ser23 : List (Bytes × Klass) := [
  (/- album-frame -/ [97, 108, 98, 117, 109, 45, 102, 114, 97, 109, 101], .text),
  (/- artist-frame -/ [97, 114, 116, 105, 115, 116, 45, 102, 114, 97, 109, 101], .text),
  (/- band-frame -/ [98, 97, 110, 100, 45, 102, 114, 97, 109, 101], .text),
  (/- bpm-frame -/ [98, 112, 109, 45, 102, 114, 97, 109, 101], .text),
  (/- composer-frame -/ [99, 111, 109, 112, 111, 115, 101, 114, 45, 102, 114, 97, 109, 101], .text),
  (/- conductor-frame -/ [99, 111, 110, 100, 117, 99, 116, 111, 114, 45, 102, 114, 97, 109, 101], .text),
  (/- content-group-frame -/ [99, 111, 110, 116, 101, 110, 116, 45, 103, 114, 111, 117, 112, 45, 102, 114, 97, 109, 101], .text),
  (/- copyright-frame -/ [99, 111, 112, 121, 114, 105, 103, 104, 116, 45, 102, 114, 97, 109, 101], .text),
  (/- date-frame -/ [100, 97, 116, 101, 45, 102, 114, 97, 109, 101], .text),
  (/- encoded-by-frame -/ [101, 110, 99, 111, 100, 101, 100, 45, 98, 121, 45, 102, 114, 97, 109, 101], .text),
  (/- file-owner-frame -/ [102, 105, 108, 101, 45, 111, 119, 110, 101, 114, 45, 102, 114, 97, 109, 101], .text),
  (/- file-type-frame -/ [102, 105, 108, 101, 45, 116, 121, 112, 101, 45, 102, 114, 97, 109, 101], .text),
  (/- genre-frame -/ [103, 101, 110, 114, 101, 45, 102, 114, 97, 109, 101], .text),
  (/- initial-key-frame -/ [105, 110, 105, 116, 105, 97, 108, 45, 107, 101, 121, 45, 102, 114, 97, 109, 101], .text),
  (/- interpreted-by-frame -/ [105, 110, 116, 101, 114, 112, 114, 101, 116, 101, 100, 45, 98, 121, 45, 102, 114, 97, 109, 101], .text),
  (/- isrc-frame -/ [105, 115, 114, 99, 45, 102, 114, 97, 109, 101], .text),
  (/- langs-frame -/ [108, 97, 110, 103, 115, 45, 102, 114, 97, 109, 101], .text),
  (/- length-frame -/ [108, 101, 110, 103, 116, 104, 45, 102, 114, 97, 109, 101], .text),
  (/- lyricist-frame -/ [108, 121, 114, 105, 99, 105, 115, 116, 45, 102, 114, 97, 109, 101], .text),
  (/- media-type-frame -/ [109, 101, 100, 105, 97, 45, 116, 121, 112, 101, 45, 102, 114, 97, 109, 101], .text),
  (/- original-album-frame -/ [111, 114, 105, 103, 105, 110, 97, 108, 45, 97, 108, 98, 117, 109, 45, 102, 114, 97, 109, 101], .text),
  (/- original-artist-frame -/ [111, 114, 105, 103, 105, 110, 97, 108, 45, 97, 114, 116, 105, 115, 116, 45, 102, 114, 97, 109, 101], .text),
  (/- original-filename-frame -/ [111, 114, 105, 103, 105, 110, 97, 108, 45, 102, 105, 108, 101, 110, 97, 109, 101, 45, 102, 114, 97, 109, 101], .text),
  (/- original-lyricist-frame -/ [111, 114, 105, 103, 105, 110, 97, 108, 45, 108, 121, 114, 105, 99, 105, 115, 116, 45, 102, 114, 97, 109, 101], .text),
  (/- original-release-year-frame -/ [111, 114, 105, 103, 105, 110, 97, 108, 45, 114, 101, 108, 101, 97, 115, 101, 45, 121, 101, 97, 114, 45, 102, 114, 97, 109, 101], .text),
  (/- part-of-a-set-frame -/ [112, 97, 114, 116, 45, 111, 102, 45, 97, 45, 115, 101, 116, 45, 102, 114, 97, 109, 101], .text),
  (/- playlist-delay-frame -/ [112, 108, 97, 121, 108, 105, 115, 116, 45, 100, 101, 108, 97, 121, 45, 102, 114, 97, 109, 101], .text),
  (/- publisher-frame -/ [112, 117, 98, 108, 105, 115, 104, 101, 114, 45, 102, 114, 97, 109, 101], .text),
  (/- recording-dates-frame -/ [114, 101, 99, 111, 114, 100, 105, 110, 103, 45, 100, 97, 116, 101, 115, 45, 102, 114, 97, 109, 101], .text),
  (/- settings-frame -/ [115, 101, 116, 116, 105, 110, 103, 115, 45, 102, 114, 97, 109, 101], .text),
  (/- size-frame -/ [115, 105, 122, 101, 45, 102, 114, 97, 109, 101], .text),
  (/- station-name-frame -/ [115, 116, 97, 116, 105, 111, 110, 45, 110, 97, 109, 101, 45, 102, 114, 97, 109, 101], .text),
  (/- station-owner-frame -/ [115, 116, 97, 116, 105, 111, 110, 45, 111, 119, 110, 101, 114, 45, 102, 114, 97, 109, 101], .text),
  (/- subtitle-frame -/ [115, 117, 98, 116, 105, 116, 108, 101, 45, 102, 114, 97, 109, 101], .text),
  (/- time-frame -/ [116, 105, 109, 101, 45, 102, 114, 97, 109, 101], .text),
  (/- title-frame -/ [116, 105, 116, 108, 101, 45, 102, 114, 97, 109, 101], .text),
  (/- track-frame -/ [116, 114, 97, 99, 107, 45, 102, 114, 97, 109, 101], .text),
  (/- year-frame -/ [121, 101, 97, 114, 45, 102, 114, 97, 109, 101], .text),
  (/- comment-frame -/ [99, 111, 109, 109, 101, 110, 116, 45, 102, 114, 97, 109, 101], .comment),
  (/- udt-frame -/ [117, 100, 116, 45, 102, 114, 97, 109, 101], .udt),
  (/- play-count-frame -/ [112, 108, 97, 121, 45, 99, 111, 117, 110, 116, 45, 102, 114, 97, 109, 101], .playCount),
  (/- popm-frame -/ [112, 111, 112, 109, 45, 102, 114, 97, 109, 101], .popm),
  (/- tag-cloud-frame -/ [116, 97, 103, 45, 99, 108, 111, 117, 100, 45, 102, 114, 97, 109, 101], .tagCloud)]

/-- Which function makes a frame of an object, by symbol: scribbu/scheme-serde.cc L1688-1730. -/
def ser24 : List (Bytes × Klass) := [
  (/- album-frame -/ [97, 108, 98, 117, 109, 45, 102, 114, 97, 109, 101], .text),
  (/- artist-frame -/ [97, 114, 116, 105, 115, 116, 45, 102, 114, 97, 109, 101], .text),
  (/- band-frame -/ [98, 97, 110, 100, 45, 102, 114, 97, 109, 101], .text),
  (/- bpm-frame -/ [98, 112, 109, 45, 102, 114, 97, 109, 101], .text),
  (/- composer-frame -/ [99, 111, 109, 112, 111, 115, 101, 114, 45, 102, 114, 97, 109, 101], .text),
  (/- conductor-frame -/ [99, 111, 110, 100, 117, 99, 116, 111, 114, 45, 102, 114, 97, 109, 101], .text),
  (/- content-group-frame -/ [99, 111, 110, 116, 101, 110, 116, 45, 103, 114, 111, 117, 112, 45, 102, 114, 97, 109, 101], .text),
  (/- copyright-frame -/ [99, 111, 112, 121, 114, 105, 103, 104, 116, 45, 102, 114, 97, 109, 101], .text),
  (/- date-frame -/ [100, 97, 116, 101, 45, 102, 114, 97, 109, 101], .text),
  (/- encoded-by-frame -/ [101, 110, 99, 111, 100, 101, 100, 45, 98, 121, 45, 102, 114, 97, 109, 101], .text),
  (/- file-owner-frame -/ [102, 105, 108, 101, 45, 111, 119, 110, 101, 114, 45, 102, 114, 97, 109, 101], .text),
  (/- file-type-frame -/ [102, 105, 108, 101, 45, 116, 121, 112, 101, 45, 102, 114, 97, 109, 101], .text),
  (/- genre-frame -/ [103, 101, 110, 114, 101, 45, 102, 114, 97, 109, 101], .text),
  (/- initial-key-frame -/ [105, 110, 105, 116, 105, 97, 108, 45, 107, 101, 121, 45, 102, 114, 97, 109, 101], .text),
  (/- interpreted-by-frame -/ [105, 110, 116, 101, 114, 112, 114, 101, 116, 101, 100, 45, 98, 121, 45, 102, 114, 97, 109, 101], .text),
  (/- isrc-frame -/ [105, 115, 114, 99, 45, 102, 114, 97, 109, 101], .text),
  (/- langs-frame -/ [108, 97, 110, 103, 115, 45, 102, 114, 97, 109, 101], .text),
  (/- length-frame -/ [108, 101, 110, 103, 116, 104, 45, 102, 114, 97, 109, 101], .text),
  (/- lyricist-frame -/ [108, 121, 114, 105, 99, 105, 115, 116, 45, 102, 114, 97, 109, 101], .text),
  (/- media-type-frame -/ [109, 101, 100, 105, 97, 45, 116, 121, 112, 101, 45, 102, 114, 97, 109, 101], .text),
  (/- original-album-frame -/ [111, 114, 105, 103, 105, 110, 97, 108, 45, 97, 108, 98, 117, 109, 45, 102, 114, 97, 109, 101], .text),
  (/- original-artist-frame -/ [111, 114, 105, 103, 105, 110, 97, 108, 45, 97, 114, 116, 105, 115, 116, 45, 102, 114, 97, 109, 101], .text),
  (/- original-filename-frame -/ [111, 114, 105, 103, 105, 110, 97, 108, 45, 102, 105, 108, 101, 110, 97, 109, 101, 45, 102, 114, 97, 109, 101], .text),
  (/- original-lyricist-frame -/ [111, 114, 105, 103, 105, 110, 97, 108, 45, 108, 121, 114, 105, 99, 105, 115, 116, 45, 102, 114, 97, 109, 101], .text),
  (/- original-release-year-frame -/ [111, 114, 105, 103, 105, 110, 97, 108, 45, 114, 101, 108, 101, 97, 115, 101, 45, 121, 101, 97, 114, 45, 102, 114, 97, 109, 101], .text),
  (/- part-of-a-set-frame -/ [112, 97, 114, 116, 45, 111, 102, 45, 97, 45, 115, 101, 116, 45, 102, 114, 97, 109, 101], .text),
  (/- playlist-delay-frame -/ [112, 108, 97, 121, 108, 105, 115, 116, 45, 100, 101, 108, 97, 121, 45, 102, 114, 97, 109, 101], .text),
  (/- publisher-frame -/ [112, 117, 98, 108, 105, 115, 104, 101, 114, 45, 102, 114, 97, 109, 101], .text),
  (/- recording-dates-frame -/ [114, 101, 99, 111, 114, 100, 105, 110, 103, 45, 100, 97, 116, 101, 115, 45, 102, 114, 97, 109, 101], .text),
  (/- settings-frame -/ [115, 101, 116, 116, 105, 110, 103, 115, 45, 102, 114, 97, 109, 101], .text),
  (/- size-frame -/ [115, 105, 122, 101, 45, 102, 114, 97, 109, 101], .text),
  (/- station-name-frame -/ [115, 116, 97, 116, 105, 111, 110, 45, 110, 97, 109, 101, 45, 102, 114, 97, 109, 101], .text),
  (/- station-owner-frame -/ [115, 116, 97, 116, 105, 111, 110, 45, 111, 119, 110, 101, 114, 45, 102, 114, 97, 109, 101], .text),
  (/- subtitle-frame -/ [115, 117, 98, 116, 105, 116, 108, 101, 45, 102, 114, 97, 109, 101], .text),
  (/- time-frame -/ [116, 105, 109, 101, 45, 102, 114, 97, 109, 101], .text),
  (/- title-frame -/ [116, 105, 116, 108, 101, 45, 102, 114, 97, 109, 101], .text),
  (/- track-frame -/ [116, 114, 97, 99, 107, 45, 102, 114, 97, 109, 101], .text),
  (/- year-frame -/ [121, 101, 97, 114, 45, 102, 114, 97, 109, 101], .text),
  (/- comment-frame -/ [99, 111, 109, 109, 101, 110, 116, 45, 102, 114, 97, 109, 101], .comment),
  (/- udt-frame -/ [117, 100, 116, 45, 102, 114, 97, 109, 101], .udt),
  (/- play-count-frame -/ [112, 108, 97, 121, 45, 99, 111, 117, 110, 116, 45, 102, 114, 97, 109, 101], .playCount),
  (/- popm-frame -/ [112, 111, 112, 109, 45, 102, 114, 97, 109, 101], .popm),
  (/- tag-cloud-frame -/ [116, 97, 103, 45, 99, 108, 111, 117, 100, 45, 102, 114, 97, 109, 101], .tagCloud)]

/-- `id3lu.find(id)`: scribbu/scheme-serde.cc L178-187. -/
def sym3 (id : Id3) : Option Bytes := (rows.find? fun r => r.id3 = some id).map (·.sym)

/-- `id4lu.find(id)`. -/
def sym4 (id : Id4) : Option Bytes := (rows.find? fun r => r.id4 = id).map (·.sym)

/-- `id3rlu.find(sym)`. -/
def id3Of (sym : Bytes) : Option Id3 := (rows.find? fun r => r.sym = sym && r.id3.isSome).bind (·.id3)

/-- `id4rlu.find(sym)`. -/
def id4Of (sym : Bytes) : Option Id4 := (rows.find? fun r => r.sym = sym).map (·.id4)

/-- A look-up in one of the tables of the dispatcher. -/
def lookup {α : Type} [DecidableEq α] (t : List (α × Klass)) (k : α) : Option Klass := (t.find? fun e => e.1 = k).map (·.2)

/-- `sym_unknown_frame`. -/
def symUnknown : Bytes := /- unknown-frame -/ [117, 110, 107, 110, 111, 119, 110, 45, 102, 114, 97, 109, 101]

/-- The symbols of the frames that are not text frames: scribbu/scheme-serde.cc L229-233. -/
def symOf : Klass → Bytes
  | .comment => /- comment-frame -/ [99, 111, 109, 109, 101, 110, 116, 45, 102, 114, 97, 109, 101]
  | .udt => /- udt-frame -/ [117, 100, 116, 45, 102, 114, 97, 109, 101]
  | .playCount => /- play-count-frame -/ [112, 108, 97, 121, 45, 99, 111, 117, 110, 116, 45, 102, 114, 97, 109, 101]
  | .popm => /- popm-frame -/ [112, 111, 112, 109, 45, 102, 114, 97, 109, 101]
  | .tagCloud => /- tag-cloud-frame -/ [116, 97, 103, 45, 99, 108, 111, 117, 100, 45, 102, 114, 97, 109, 101]
  | _ => symUnknown

/-! ## From frames to objects -/

/-- The language of a comment: scribbu/scheme-serde.cc L434-439, L461-466, L487-492. -/
def langText (a b c : Byte) : Bytes :=
  let f (x : Byte) : Byte := if x &&& 0x80 = 0 then x else 0
  [f a, f b, f c]

/-- The tag cloud as an association list, made back to front: scribbu/scheme-serde.cc L661-672, L690-701, L719-730. -/
def cloud (E : Env) : TagMap → Val → Ret Val
  | [], acc => .ok acc
  | (k, vs) :: m, acc =>
    (Ret.all E.text vs).bind fun vals =>
    (E.utf8 k).bind fun key => cloud E m (.cons (.cons key (ofList vals)) acc)

/-- The slots from the sixth on, of an object of the class registered for the frame. A frame that is of another C++ class than the
one registered is `std::bad_cast`: scribbu/scheme-serde.cc L379-732. -/
def deBody (E : Env) (v : Ver) : Klass → Body → Ret (List Val)
  | .text, .text u t => (Ret.ofRes (E.asStr v (some u) t)).bind fun s => (E.utf8 s).bind fun x => .ok [x]
  | .comment, .comm c =>
    match c.lang with
    | none => .ub .uninit
    | some (l0, l1, l2) =>
      (E.utf8 (langText l0 l1 l2)).bind fun l =>
      (Ret.ofRes (E.asStr v c.unicode c.desc)).bind fun d => (E.utf8 d).bind fun d' =>
      (Ret.ofRes (E.asStr v c.unicode c.text)).bind fun t => (E.utf8 t).bind fun t' => .ok [l, d', t']
  | .udt, .txxx x =>
    (Ret.ofRes (E.asStr v (some x.unicode) x.desc)).bind fun d => (E.utf8 d).bind fun d' =>
    (Ret.ofRes (E.asStr v (some x.unicode) x.text)).bind fun t => (E.utf8 t).bind fun t' => .ok [d', t']
  | .playCount, .pcnt c => (Ret.ofRes (counterCount c)).bind fun n => .ok [.num n]
  | .popm, .popm p =>
    (Ret.ofRes (E.latin (match v with | .v2 => .UTF_8 | _ => .ISO_8859_1) p.email)).bind fun e => (E.utf8 e).bind fun e' =>
    (Ret.ofRes p.count).bind fun n => .ok [e', .num p.rating.toNat, .num n]
  | .tagCloud, .xtag t => (E.utf8 t.own).bind fun o => (cloud E t.tags .nil).bind fun l => .ok [o, l]
  | _, _ => .std .other

/-- The symbol of the object: scribbu/scheme-serde.cc L382-385, L396-399, L412-415 for text frames. -/
def deSym (look : Option Bytes) : Klass → Ret Bytes
  | .text => match look with | some s => .ok s | none => .std .logicError
  | c => .ok (symOf c)

/-- `de_unknown_frame_2_2`: scribbu/scheme-serde.cc L1882-1905. -/
def deUnknown22 (E : Env) (f : Frame22) (unsync : Bool) : Ret Obj :=
  (E.locale [f.id.a, f.id.b, f.id.c]).bind fun id =>
  (Ret.ofRes (f.write unsync)).bind fun r =>
  .ok ⟨.unk, [.sym symUnknown, .nil, .nil, .nil, .nil, id, .bv r.1]⟩

/-- The slots `tap`, `fap`, `read-only` and `unsync` of an object for a frame: `init_frame`, scribbu/scheme-serde.cc L251-291. -/
def attrSlots (v : Ver) (f : Frame4) : List Val :=
  [.bool !f.tap, .bool !f.fap, .bool f.ro, if v = .v4 then .bool f.unsynch else .nil]

/-- `de_unknown_frame_2_3`, `de_unknown_frame_2_4`: scribbu/scheme-serde.cc L1907-1977. -/
def deUnknown4 (E : Env) (v : Ver) (f : Frame4) (unsync : Bool) : Ret Obj :=
  (E.locale [f.id.a, f.id.b, f.id.c, f.id.d]).bind fun id =>
  (Ret.ofRes (f.write E.z v unsync)).bind fun r =>
  .ok ⟨.unk, [.sym symUnknown] ++ attrSlots v f ++ [id, .bv r.1]⟩

/-- Where the function for a frame throws, the frame is described as one that is unknown: scribbu/scheme-serde.cc L1745-1749. -/
def orUnknown {α : Type} (r unknown : Ret α) : Ret α :=
  match r with
  | .std _ => unknown
  | r => r

/-- `de_2_2`: scribbu/scheme-serde.cc L1736-1752. -/
def deFrame22 (E : Env) (unsync : Bool) (f : Frame22) : Ret Obj :=
  match lookup de22 f.id with
  | none => deUnknown22 E f unsync
  | some c =>
    orUnknown ((deSym (sym3 f.id) c).bind fun s => (deBody E .v2 c f.body).bind fun l =>
      .ok ⟨c, [.sym s, .nil, .nil, .nil, .nil] ++ l⟩) (deUnknown22 E f unsync)

/-- `de_2_3`, `de_2_4`: scribbu/scheme-serde.cc L1754-1791. -/
def deFrame4 (E : Env) (v : Ver) (unsync : Bool) (f : Frame4) : Ret Obj :=
  match lookup (if v = .v4 then de24 else de23) f.id with
  | none => deUnknown4 E v f unsync
  | some c =>
    orUnknown ((deSym (sym4 f.id) c).bind fun s => (deBody E v c f.body).bind fun l =>
      .ok ⟨c, [.sym s] ++ attrSlots v f ++ l⟩) (deUnknown4 E v f unsync)

/-- What `read-tagset` returns for a tag: the object, the version, and whether it is unsynchronised. -/
abbrev Triple := TagObj × Nat × Bool

/-- `scm_from_id3v2_tag`: scribbu/scheme.cc L72-155. The padding is an `unsigned int` in the end. -/
def fromTag (E : Env) : AnyTag → Ret Triple
  | .inl t =>
    (Ret.ofRes (Tag22.use t.padding)).bind fun p =>
    let unsync := t.unsync = some true
    (Ret.all (deFrame22 E unsync) t.frames).bind fun fs => .ok (⟨.nil, fs, .num (p % 2 ^ 32)⟩, 2, unsync)
  | .inr (.inl t) =>
    let unsync := t.unsync = some true
    (Ret.all (deFrame4 E .v3 unsync) t.frames).bind fun fs => .ok (⟨.bool t.experimental, fs, .num (t.padding % 2 ^ 32)⟩, 3, unsync)
  | .inr (.inr t) =>
    let unsync := t.unsync = some true
    (Ret.all (deFrame4 E .v4 unsync) t.frames).bind fun fs => .ok (⟨.bool t.experimental, fs, .num (t.padding % 2 ^ 32)⟩, 4, unsync)

/-- `read_all_id3v2(ifs, ...)` from a file that is open: scribbu/scheme.cc L408-416. -/
def readTags (z : Zlib) (d : Bytes) : Res (List AnyTag) :=
  (readAllId3v2 (fun h => Tag22.read h >>= fun t => pure (.inl t)) (fun h => Tag23.read z h >>= fun t => pure (.inr (.inl t)))
    (fun h => Tag24.read z h >>= fun t => pure (.inr (.inr t))) (d.length + 1) ⟨d, 0, IoBits.all, IoBits.none⟩).1.bind fun o =>
  match o with
  | none => .ub .noProgress
  | some ts => .ok ts

/-- `read-tagset`: scribbu/scheme.cc L397-440. `file`: the contents, if it can be opened. -/
def readTagset (E : Env) (file : Option Bytes) : Ret (List Triple) :=
  match file with
  | none => .guile
  | some d => ((Ret.ofRes (readTags E.z d)).bind (Ret.all (fromTag E))).caught

/-! ## From objects to frames -/

/-- Text for a frame: `convert_encoding(text, UTF_8, dst, false, fail)`. -/
def Env.encode (E : Env) (dst : Encoding) (b : Bytes) : Ret Bytes := Ret.ofRes (Charset.toBytes E.lib E.mem .UTF_8 dst false .fail b)

/-- The encoding of user-defined text and comments: scribbu/framesv2.cc L770-803, L907-949, for `use_unicode::yes`. -/
def wide : Ver → Encoding
  | .v4 => .UTF_8
  | _ => .UCS_2

/-- The language of a comment: scribbu/scheme-serde.cc L902-907, L935-940, L973-978; scribbu/framesv2.cc L900-904. The code has three
letters. -/
def langCode (E : Env) (b : Bytes) : Ret (Byte × Byte × Byte) :=
  (if b = [] then .ok 129 else Ret.ofRes (Language.parse b)).bind fun l =>
  (Ret.ofRes (Language.toIso2 E.langs l)).bind fun c =>
  match c with
  | [c0, c1, c2] => .ok (c0, c1, c2)
  | _ => .ub .oobRead

/-- The elements of a `set<string>`. -/
def insertAll (vs : List Bytes) : List Bytes := vs.foldl (fun s v => setInsert v s) []

/-- One element of an association list: scribbu/scheme-serde.cc L1290-1330. -/
def cloudEntry (v : Val) : Ret (Bytes × List Bytes) :=
  match v with
  | .cons first second =>
    (cstr first).bind fun key =>
    match second with
    | .str _ => (cstr second).bind fun x => .ok (key, [x])
    | _ =>
      match elements? second with
      | some l => (Ret.all cstr l).bind fun vs => .ok (key, insertAll vs)
      | none => .std .runtimeError
  | _ => .guile

/-- The loop over the tags: scribbu/scheme-serde.cc L1288-1333. -/
def cloudOf : List Val → TagMap → Ret TagMap
  | [], m => .ok m
  | v :: vs, m => (cloudEntry v).bind fun e => cloudOf vs (mapUpd e.1 (fun _ => e.2) m)

/-- `map<string, set<string>>` of an association list. For ID3v2.2 and 2.4 the first element of an entry is asked for as
`scm_list_ref(scm, 0)`, with 0 for a Scheme value: scribbu/scheme-serde.cc L1246-1262, L1288-1333, L1367-1383. -/
def cloudMap (v : Ver) (l : Val) : Ret TagMap :=
  (elements l).bind fun es =>
  match v, es with
  | .v3, _ => cloudOf es []
  | _, [] => .ok []
  | _, _ :: _ => .ub .nullDeref

/-- The body of the frame made of an object by the function registered for its symbol: scribbu/scheme-serde.cc L790-1390. The
constructors: scribbu/framesv22.hh L376-385, framesv23.hh L728-776, framesv24.hh L479-531; L770-812 and L893-958 of
scribbu/framesv2.cc. -/
def serBody (E : Env) (v : Ver) (c : Klass) (s : List Val) : Ret Body :=
  match c with
  | .text =>
    (slot s 5).bind fun x => (cstr x).bind fun t =>
    match v with
    | .v4 => (E.encode .UTF_8 t).bind fun b => .ok (.text 3 b)
    | _ => (E.encode .ISO_8859_1 t).bind fun b => .ok (.text 0 b)
  | .comment =>
    (slot s 5).bind fun x => (cstr x).bind fun l =>
    (if l = [] then .ok 129 else Ret.ofRes (Language.parse l)).bind fun _ =>
    (slot s 6).bind fun x => (cstr x).bind fun d =>
    (slot s 7).bind fun x => (cstr x).bind fun t =>
    (langCode E l).bind fun code =>
    (E.encode (wide v) t).bind fun tb => (E.encode (wide v) d).bind fun db => .ok (.comm (Comm.make v .yes code tb db))
  | .udt =>
    (slot s 5).bind fun x => (cstr x).bind fun d =>
    (slot s 6).bind fun x => (cstr x).bind fun t =>
    (E.encode (wide v) t).bind fun tb => (E.encode (wide v) d).bind fun db => .ok (.txxx (Txxx.make v .yes tb db))
  | .playCount => (slot s 5).bind fun x => (toUnsigned 64 x).bind fun n => .ok (.pcnt (resetCounter n))
  | .popm =>
    (slot s 5).bind fun x => (cstr x).bind fun e =>
    (slot s 6).bind fun x => (toUnsigned 8 x).bind fun r =>
    (slot s 7).bind fun x => (toUnsigned 64 x).bind fun n => .ok (.popm (Popm.make e (UInt8.ofNat r) n))
  | .tagCloud =>
    (slot s 5).bind fun x => (cstr x).bind fun o =>
    (slot s 6).bind fun x => (cloudMap v x).bind fun m => .ok (.xtag ⟨o, m⟩)
  | _ => .std .logicError

/-- `ser_frame_2_2`: the object must be a direct instance of the class: scribbu/scheme-serde.cc L293-304. -/
def checkCls (c : Klass) (o : Obj) : Ret Unit := if o.cls = c then .ok () else .std .logicError

/-- The attributes of a frame, as in `Frame4`: scribbu/scheme-serde.cc L322-336 and L361-364; L2020-2032 and L2058-2074 for unknown
frames, which in ID3v2.4 are unsynchronised if the slot `read-only` says so. -/
def serAttrs (unsyncSlot : Nat) (s : List Val) : Ret (Bool × Bool × Bool × Bool) :=
  (slot s 1).bind fun tap => (slot s 2).bind fun fap => (slot s 3).bind fun ro => (slot s unsyncSlot).bind fun un =>
  .ok (tap = .bool false, fap = .bool false, ro = .bool true, un = .bool true)

/-- `frame_id3(const char*)`, `frame_id4(const char*)`: the first characters, whether or not the string has them:
scribbu/framesv2.hh L262-299, L301-340. -/
def idBytes (n : Nat) (b : Bytes) : Ret Bytes := if n ≤ b.length + 1 then .ok ((b ++ [0]).take n) else .ub .oobRead

/-- The data of an unknown frame: the bytevector without its first bytes, the header: scribbu/scheme-serde.cc L1989-1996, L2034-2044,
L2076-2087. Nothing is checked. -/
def unknownData (header : Nat) : Val → Ret Bytes
  | .bv b => if header ≤ b.length then .ok (b.drop header) else .ub .oobRead
  | _ => .ub .oobRead

/-- `ser_unknown_frame_2_2`: scribbu/scheme-serde.cc L1979-1998. -/
def serUnknown22 (s : List Val) : Ret Frame22 :=
  (slot s 5).bind fun x => (cstr x).bind fun b => (idBytes 3 b).bind fun i =>
  (slot s 6).bind fun y => (unknownData 6 y).bind fun d =>
  match i with
  | [a, b, c] => .ok (Frame22.new ⟨a, b, c⟩ (.unknown d))
  | _ => .ub .oobRead

/-- `ser_unknown_frame_2_3`, `ser_unknown_frame_2_4`: scribbu/scheme-serde.cc L2000-2089. -/
def serUnknown4 (v : Ver) (s : List Val) : Ret Frame4 :=
  (slot s 5).bind fun x => (cstr x).bind fun b => (idBytes 4 b).bind fun i =>
  (serAttrs 3 s).bind fun (tap, fap, ro, un) =>
  (slot s 6).bind fun y => (unknownData 10 y).bind fun d =>
  match i with
  | [a, b, c, e] => .ok (Frame4.new ⟨a, b, c, e⟩ (.unknown d) tap fap ro false none none (v = .v4 && un) none)
  | _ => .ub .oobRead

/-- The identifiers of the frames that are not text frames: the constructors of `COM`, `COMM` and so on. -/
def fixed3 : Klass → Option Id3
  | .comment => some (mkId3 'C' 'O' 'M')
  | .udt => some (mkId3 'T' 'X' 'X')
  | .playCount => some (mkId3 'C' 'N' 'T')
  | .popm => some (mkId3 'P' 'O' 'P')
  | .tagCloud => some (mkId3 'X' 'T' 'G')
  | _ => none

/-- The same, for ID3v2.3 and 2.4. -/
def fixed4 : Klass → Option Id4
  | .comment => some (mkId4 'C' 'O' 'M' 'M')
  | .udt => some (mkId4 'T' 'X' 'X' 'X')
  | .playCount => some (mkId4 'P' 'C' 'N' 'T')
  | .popm => some (mkId4 'P' 'O' 'P' 'M')
  | .tagCloud => some (mkId4 'X' 'T' 'A' 'G')
  | _ => none

/-- The identifier of the frame: for text, by the symbol: scribbu/scheme-serde.cc L798-803, L833-838, L872-877. -/
def idFor {α : Type} (fixed : Klass → Option α) (look : Option α) (c : Klass) : Ret α :=
  match c with
  | .text => match look with | some i => .ok i | none => .std .logicError
  | c => match fixed c with | some i => .ok i | none => .std .logicError

/-- `ser_2_2`: scribbu/scheme-serde.cc L1793-1820. -/
def serFrame22 (E : Env) (o : Obj) : Ret Frame22 :=
  (slot o.slots 0).bind fun x => (symText x).bind fun sym =>
  match lookup ser22 sym with
  | none => serUnknown22 o.slots
  | some c =>
    orUnknown ((checkCls c o).bind fun _ => (idFor fixed3 (id3Of sym) c).bind fun i => (serBody E .v2 c o.slots).bind fun b =>
      .ok (Frame22.new i b)) (serUnknown22 o.slots)

/-- `ser_2_3`, `ser_2_4`: scribbu/scheme-serde.cc L1822-1880. -/
def serFrame4 (E : Env) (v : Ver) (o : Obj) : Ret Frame4 :=
  (slot o.slots 0).bind fun x => (symText x).bind fun sym =>
  match lookup (if v = .v4 then ser24 else ser23) sym with
  | none => serUnknown4 v o.slots
  | some c =>
    orUnknown ((checkCls c o).bind fun _ => (serAttrs 4 o.slots).bind fun (tap, fap, ro, un) =>
      (idFor fixed4 (id4Of sym) c).bind fun i => (serBody E v c o.slots).bind fun b =>
      .ok (Frame4.new i b tap fap ro false none none (v = .v4 && un) none)) (serUnknown4 v o.slots)

/-- `scm_to_id3v2_tag`: scribbu/scheme.cc L170-255. Simplified: all frames are made before the first is put into the tag. -/
def toTag (E : Env) (t : TagObj) (version : Nat) : Ret AnyTag :=
  (if isNull t.experimental then .ok false else toBool t.experimental).bind fun fexp =>
  (toUnsigned 32 t.padding).bind fun pad =>
  match version with
  | 2 => (Ret.all (serFrame22 E) t.frames).bind fun fs => .ok (.inl { Tag22.scratch pad fexp with frames := fs })
  | 3 => (Ret.all (serFrame4 E .v3) t.frames).bind fun fs => .ok (.inr (.inl { Tag23.scratch pad fexp none with frames := fs }))
  | 4 => (Ret.all (serFrame4 E .v4) t.frames).bind fun fs => .ok (.inr (.inr { Tag24.scratch pad fexp with frames := fs }))
  | _ => .guile

/-- The value of `#:apply-unsync`: scribbu/scheme.cc L723-733. -/
def unsyncArg : Val → Ret ApplyUnsync
  | .bool true => .ok .always
  | .bool false => .ok .never
  | .sym b => if b = /- as-needed -/ [97, 115, 45, 110, 101, 101, 100, 101, 100] then .ok .asNeeded else .guile
  | _ => .guile

/-- `write-tagset`: scribbu/scheme.cc L708-766: the contents of the file afterwards. `file`: its contents now, if there is one. -/
def writeTagset (E : Env) (tags : List (TagObj × Nat)) (file : Option Bytes) (unsync : Val) (copy : Bool) : Ret Bytes :=
  ((unsyncArg unsync).bind fun au =>
   (Ret.all (fun t => toTag E t.1 t.2) tags).bind fun ts =>
   if copy then Ret.ofRes ((Tagset.copyContents (anyI E.z) file au ts).bind fun r => .ok r.1)
   else Ret.ofRes ((Tagset.maybeEmplace (anyI E.z) file au .onlyWithFullPadding ts).bind fun r => .ok r.2.1)).caught

/-! ## ID3v1 -/

/-- A field as text: scribbu/id3v1.cc L161-302; `convert_encoding(..., UTF_8, rsp)`. -/
def Env.field1 (E : Env) (src : Encoding) (rsp : OnNo) (b : Bytes) : Ret Val :=
  (Ret.ofRes (Charset.toText E.lib E.mem src .UTF_8 rsp b)).bind E.text

/-- A new `<id3v1-tag>`: title, artist, album, year, comment, genre, track-no, enh-genre, speed, start-time, end-time:
scheme/scribbu.scm L128-139. -/
def newV1 : List Val :=
  [.str [], .str [], .str [], .nil, .str [], .num 255, .nil, .str [], .nil, .str [], .str []]

/-- The object for a tag: scribbu/scheme.cc L300-370. The encodings that are not given are those of `DEF_SRC_ENCODING` and so on,
scribbu/id3v1.cc L47-54. -/
def fromV1 (E : Env) (t : V1Tag) : Ret (List Val) :=
  (E.field1 .ISO_8859_1 .transliterate t.title).bind fun title =>
  (E.field1 .ISO_8859_1 .transliterate t.artist).bind fun artist =>
  (E.field1 .ISO_8859_1 .transliterate t.album).bind fun album =>
  (E.field1 .ASCII .fail t.year).bind fun year =>
  (E.field1 .ISO_8859_1 .transliterate t.comment).bind fun comment =>
  let x := (((((newV1.set 0 title).set 1 artist).set 2 album).set 3 year).set 4 comment).set 5 (.num t.genre.toNat)
  (if t.v11 then (Ret.ofRes (initd t.track)).bind fun n => .ok (x.set 6 (.num n.toNat)) else .ok x).bind fun x =>
  if t.extended then
    (Ret.ofRes (initd t.speed)).bind fun speed =>
    (E.field1 .ASCII .fail t.extGenre).bind fun genre =>
    (Ret.ofRes (initd t.startTime)).bind fun s => (E.field1 .ASCII .fail s).bind fun start =>
    (Ret.ofRes (initd t.endTime)).bind fun e => (E.field1 .ASCII .fail e).bind fun stop =>
    .ok ((((x.set 6 genre).set 7 (.num speed.toNat)).set 8 start).set 9 stop)
  else .ok x

/-- `read-id3v1-tag`: scribbu/scheme.cc L278-382; `none` is `#nil`. -/
def readV1 (E : Env) (file : Option Bytes) : Ret (Option (List Val)) :=
  match file with
  | none => .guile
  | some d =>
    ((Ret.ofRes (processId3v1 ⟨d, 0, IoBits.all, IoBits.none⟩).1).bind fun o =>
      match o with
      | none => .ok none
      | some t => (fromV1 E t).bind fun x => .ok (some x)).caught

/-- A slot that may be `'()`: scribbu/scheme.cc L575-578, L589-592, L598-601. -/
def ifSet {α : Type} (dflt : α) (f : Val → Ret α) (v : Val) : Ret α := if isNull v then .ok dflt else f v

/-- Setting a text, unless it is empty: scribbu/scheme.cc L615-623, L633-635. -/
def setText (E : Env) (op : Bytes → V1Tag.Op) (b : Bytes) (t : V1Tag) : Ret V1Tag :=
  if b = [] then .ok t else (E.encode .UTF_8 b).bind fun x => .ok (t.apply (op x))

/-- Setting a year or a time, which must have so many characters, unless it is empty: scribbu/scheme.cc L625-631, L646-669. -/
def setFixed (n : Nat) (op : Bytes → V1Tag.Op) (b : Bytes) (t : V1Tag) : Ret V1Tag :=
  if b = [] then .ok t else if b.length = n then .ok (t.apply (op b)) else .guile

/-- The tag for an object: scribbu/scheme.cc L560-670. -/
def toV1 (E : Env) (s : List Val) : Ret V1Tag :=
  (slot s 0).bind fun x => (cstr x).bind fun title =>
  (slot s 1).bind fun x => (cstr x).bind fun artist =>
  (slot s 2).bind fun x => (cstr x).bind fun album =>
  (slot s 3).bind fun x => (ifSet [] cstr x).bind fun year =>
  (slot s 4).bind fun x => (cstr x).bind fun comment =>
  (slot s 5).bind fun x => (toUnsigned 8 x).bind fun genre =>
  (slot s 6).bind fun x => (ifSet 0 (toUnsigned 8) x).bind fun track =>
  (slot s 7).bind fun x => (cstr x).bind fun enhGenre =>
  (slot s 8).bind fun x => (ifSet 0 (toUnsigned 8) x).bind fun speed =>
  (slot s 9).bind fun x => (cstr x).bind fun start =>
  (slot s 10).bind fun x => (cstr x).bind fun stop =>
  let v11 : Bool := track ≠ 0
  let enh : Bool := enhGenre ≠ [] || speed ≠ 0 || start ≠ [] || stop ≠ []
  (setText E .setTitle title (V1Tag.scratch v11 enh)).bind fun t =>
  (setText E .setArtist artist t).bind fun t =>
  (setText E .setAlbum album t).bind fun t =>
  (setFixed 4 .setYear year t).bind fun t =>
  (setText E .setComment comment t).bind fun t =>
  let t := t.apply (.setGenre (UInt8.ofNat genre))
  let t := if v11 then t.apply (.setTrack (UInt8.ofNat track)) else t
  if enh then
    (E.encode .UTF_8 enhGenre).bind fun g =>
    let t := (t.apply (.setEnhGenre g)).apply (.setSpeed (UInt8.ofNat speed))
    (setFixed 6 .setStart start t).bind fun t => setFixed 6 .setEnd stop t
  else .ok t

/-- `write-id3v1-tag`, for an instance of `<id3v1-tag>` with these slots: scribbu/scheme.cc L550-685: the contents of the file
afterwards. -/
def writeV1 (E : Env) (s : List Val) (file : Option Bytes) : Ret Bytes :=
  ((toV1 E s).bind fun t =>
   match file with
   | none => .std .fsError
   | some d => Ret.ofRes (replaceId3v1 d t)).caught

/-! ## Many files -/

/-- One thing in the directory tree, as `recursive_directory_iterator` has it: its path, whether it is a directory (to find out may
fail), and the contents, if it can be opened. -/
structure Entry where
  path : Bytes
  isDir : Res Bool
  data : Option Bytes

/-- A call of the procedure: the tags (`none`: `#nil`), the path, the ID3v1 tag (`none`: `#nil`). -/
structure Call where
  tagset : Option (List Triple)
  path : Bytes
  v1 : Option (List Val)
  deriving DecidableEq, Repr

/-- What is read of a file: `with_track_in_thunk` within `scm_c_catch`: scribbu/scheme.cc L449-471, L514-518. What has been read
before an error stays. -/
def track (E : Env) (file : Option Bytes) : Ret (Option (List Triple) × Option (List Val)) :=
  match readTagset E file with
  | .ok ts =>
    match readV1 E file with
    | .ok v1 => .ok (some ts, v1)
    | .ub u => .ub u
    | _ => .ok (some ts, none)
  | .ub u => .ub u
  | _ => .ok (none, none)

/-- `with-track-in`: scribbu/scheme.cc L496-535, with the errors of the iteration itself left out: the calls made, and whether it
got to the end. The procedure does not fail. -/
def withTrackIn (E : Env) : List Entry → List Call × Ret Unit
  | [] => ([], .ok ())
  | e :: es =>
    match e.isDir with
    | .throw _ => ([], .guile)
    | .ub u => ([], .ub u)
    | .ok true => withTrackIn E es
    | .ok false =>
      match E.utf8 e.path with
      | .ok (.str p) =>
        match track E e.data with
        | .ok (ts, v1) =>
          let r := withTrackIn E es
          (⟨ts, p, v1⟩ :: r.1, r.2)
        | .ub u => ([], .ub u)
        | _ => ([], .guile)
      | .ub u => ([], .ub u)
      | _ => ([], .guile)

/-! ## In Scheme -/

/-- `(slot-ref x 'id)`. -/
def Obj.id? (o : Obj) : Option Val := o.slots[0]?

/-- `has-frame?`: scheme/scribbu.scm L294-302. -/
def hasFrame (f : Bytes) : List Obj → Bool
  | [] => false
  | o :: os => if o.id? = some (.sym f) then true else hasFrame f os

/-- The loop of `get-frames`: scheme/scribbu.scm L304-312; `ret` is what has been found. -/
def getFramesLoop (f : Bytes) (ret : List Obj) : List Obj → List Obj
  | [] => ret
  | o :: os => getFramesLoop f (if o.id? = some (.sym f) then ret ++ [o] else ret) os

/-- `get-frames`. -/
def getFrames (t : TagObj) (f : Bytes) : List Obj := getFramesLoop f [] t.frames

end Scheme
end Scribbu
