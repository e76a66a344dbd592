import Verif.Model.Basic

/-!
# Tag-based templates: scanning and parsing (scribbu/tbt-lexer.ll, scribbu/tbt-parser.yy)

The generated scanner and parser are modelled by what flex and bison guarantee about them:

* flex matches the longest prefix of the input that some rule of the current start condition accepts, the first such rule
  in the file if there are several, and copies an unmatched character to `stdout`;
* the scanner's start condition is a global variable, so it survives from one template to the next;
* the grammar is LALR(1) without conflicts, so the generated parser accepts exactly the language of the grammar, and
  notices an error at the first token which cannot continue a sentence. The parser of the model is a recursive descent over the
  same grammar; like the generated one it reads one token beyond a phrase only where the grammar requires it, which matters for
  the start condition an abandoned parse leaves behind.

The text of error messages, memory management (the parser leaks what it has built when it gives up) and `std::cerr` output
are not modelled.
-/

namespace Scribbu.Tbt

/-- Start conditions of the scanner: scribbu/tbt-lexer.ll L97-98. -/
inductive Start where
  | initial | replacement | parameter
  deriving DecidableEq, Repr

/-- What a replacement stands for; the tokens `ALBUM`, `ARTIST`, … and `ALBUM_ABBREV`, … of scribbu/tbt-parser.yy L87-147. -/
inductive Name where
  | album | artist | basename | contentType | encodedBy | extension | md5 | size | title | year
  deriving DecidableEq, Repr

/-- Tokens: scribbu/tbt-parser.yy L87-147. -/
inductive Tok where
  | text (b : Bytes) | paramText (b : Bytes)
  | pct | lparen | rparen | colon | amp | question | equal
  | name (n : Name) | abbrev (n : Name)
  | the | base | cap | output | compress | prefV1 | prefV2 | v1Encoding | ws
  | twoDigits | fourDigits | ascii | auto | allLower | allUpper | capitalize | cp1252 | decimal | hex | hexCase | iso8859_1
  | lower | prefix | suffix | upper | utf8 | utf16be | utf16le | utf32 | v1Only | v2Only
  | unknown
  deriving DecidableEq, Repr

/-- The characters that the class `[?%:&)(=\\]` of the pattern `text` lists: scribbu/tbt-lexer.ll L38. -/
def special (c : Byte) : Bool :=
  c == 63 || c == 37 || c == 58 || c == 38 || c == 41 || c == 40 || c == 61 || c == 92

/-- The longest prefix of the input that consists of ordinary characters and of escaped special characters, i.e. the
longest match of `([^?%:&)(=\\]|\\[?%:&)(=\\])*`, and the rest of the input: scribbu/tbt-lexer.ll L38. -/
def textSpan : Bytes → Bytes × Bytes
  | [] => ([], [])
  | [c] => if special c then ([], [c]) else ([c], [])
  | c :: d :: rest =>
    if c = 92 then
      if special d then let r := textSpan rest; (c :: d :: r.1, r.2) else ([], c :: d :: rest)
    else if special c then ([], c :: d :: rest)
    else let r := textSpan (d :: rest); (c :: r.1, r.2)

/-- The characters `unescape_and_copy` drops a backslash before: scribbu/tbt-lexer.ll L190-197. -/
def unescapable (c : Byte) : Bool :=
  c == 37 || c == 40 || c == 41 || c == 58 || c == 63 || c == 38 || c == 92

/-- The loop of `unescape_and_copy`: scribbu/tbt-lexer.ll L187-214. `saw` is `saw_backslash`. -/
def unescapeLoop (saw : Bool) : Bytes → Bytes
  | [] => if saw then [92] else []
  | c :: rest =>
    if saw then (if unescapable c then [c] else [92, c]) ++ unescapeLoop false rest
    else if c = 92 then unescapeLoop true rest
    else c :: unescapeLoop false rest

/-- `unescape_and_copy(text)`: scribbu/tbt-lexer.ll L180-217. -/
def unescape (b : Bytes) : Bytes := unescapeLoop false b

/-- The rules of start condition `REPLACEMENT` other than the last: pattern, token, start condition afterwards.
scribbu/tbt-lexer.ll L105-131, L162-171 and the definitions L40-95. -/
def replacementRules : List (Bytes × Tok × Start) := [
  /- ( -/ ([40], .lparen, .replacement),
  /- ) -/ ([41], .rparen, .initial),
  /- : -/ ([58], .colon, .replacement),
  /- & -/ ([38], .amp, .replacement),
  /- ? -/ ([63], .question, .replacement),
  /- = -/ ([61], .equal, .parameter),
  /- album -/ ([97, 108, 98, 117, 109], .name .album, .replacement),
  /- artist -/ ([97, 114, 116, 105, 115, 116], .name .artist, .replacement),
  /- basename -/ ([98, 97, 115, 101, 110, 97, 109, 101], .name .basename, .replacement),
  /- file-basename -/ ([102, 105, 108, 101, 45, 98, 97, 115, 101, 110, 97, 109, 101], .name .basename, .replacement),
  /- content-type -/ ([99, 111, 110, 116, 101, 110, 116, 45, 116, 121, 112, 101], .name .contentType, .replacement),
  /- genre -/ ([103, 101, 110, 114, 101], .name .contentType, .replacement),
  /- encoded-by -/ ([101, 110, 99, 111, 100, 101, 100, 45, 98, 121], .name .encodedBy, .replacement),
  /- extension -/ ([101, 120, 116, 101, 110, 115, 105, 111, 110], .name .extension, .replacement),
  /- file-extension -/ ([102, 105, 108, 101, 45, 101, 120, 116, 101, 110, 115, 105, 111, 110], .name .extension, .replacement),
  /- md5 -/ ([109, 100, 53], .name .md5, .replacement),
  /- size -/ ([115, 105, 122, 101], .name .size, .replacement),
  /- the -/ ([116, 104, 101], .the, .replacement),
  /- title -/ ([116, 105, 116, 108, 101], .name .title, .replacement),
  /- year -/ ([121, 101, 97, 114], .name .year, .replacement),
  /- base -/ ([98, 97, 115, 101], .base, .replacement),
  /- capitalization -/ ([99, 97, 112, 105, 116, 97, 108, 105, 122, 97, 116, 105, 111, 110], .cap, .replacement),
  /- output -/ ([111, 117, 116, 112, 117, 116], .output, .replacement),
  /- compress -/ ([99, 111, 109, 112, 114, 101, 115, 115], .compress, .replacement),
  /- prefer-v1 -/ ([112, 114, 101, 102, 101, 114, 45, 118, 49], .prefV1, .replacement),
  /- prefer-v2 -/ ([112, 114, 101, 102, 101, 114, 45, 118, 50], .prefV2, .replacement),
  /- v1-encoding -/ ([118, 49, 45, 101, 110, 99, 111, 100, 105, 110, 103], .v1Encoding, .replacement),
  /- ws -/ ([119, 115], .ws, .replacement),
  /- L -/ ([76], .abbrev .album, .initial),
  /- A -/ ([65], .abbrev .artist, .initial),
  /- b -/ ([98], .abbrev .basename, .initial),
  /- G -/ ([71], .abbrev .contentType, .initial),
  /- e -/ ([101], .abbrev .encodedBy, .initial),
  /- E -/ ([69], .abbrev .extension, .initial),
  /- 5 -/ ([53], .abbrev .md5, .initial),
  /- S -/ ([83], .abbrev .size, .initial),
  /- T -/ ([84], .abbrev .title, .initial),
  /- Y -/ ([89], .abbrev .year, .initial)]

/-- The keyword rules of start condition `PARAMETER`: scribbu/tbt-lexer.ll L133-154 and the definitions L61-83. -/
def parameterRules : List (Bytes × Tok × Start) := [
  /- yy -/ ([121, 121], .twoDigits, .replacement),
  /- yyyy -/ ([121, 121, 121, 121], .fourDigits, .replacement),
  /- ascii -/ ([97, 115, 99, 105, 105], .ascii, .replacement),
  /- auto -/ ([97, 117, 116, 111], .auto, .replacement),
  /- all-lower -/ ([97, 108, 108, 45, 108, 111, 119, 101, 114], .allLower, .replacement),
  /- all-upper -/ ([97, 108, 108, 45, 117, 112, 112, 101, 114], .allUpper, .replacement),
  /- capitalize -/ ([99, 97, 112, 105, 116, 97, 108, 105, 122, 101], .capitalize, .replacement),
  /- cp1252 -/ ([99, 112, 49, 50, 53, 50], .cp1252, .replacement),
  /- decimal -/ ([100, 101, 99, 105, 109, 97, 108], .decimal, .replacement),
  /- hex -/ ([104, 101, 120], .hex, .replacement),
  /- hex-case -/ ([104, 101, 120, 45, 99, 97, 115, 101], .hexCase, .replacement),
  /- iso-8859-1 -/ ([105, 115, 111, 45, 56, 56, 53, 57, 45, 49], .iso8859_1, .replacement),
  /- L -/ ([76], .lower, .replacement),
  /- prefix -/ ([112, 114, 101, 102, 105, 120], .prefix, .replacement),
  /- suffix -/ ([115, 117, 102, 102, 105, 120], .suffix, .replacement),
  /- U -/ ([85], .upper, .replacement),
  /- utf-8 -/ ([117, 116, 102, 45, 56], .utf8, .replacement),
  /- utf-16-be -/ ([117, 116, 102, 45, 49, 54, 45, 98, 101], .utf16be, .replacement),
  /- utf-16-le -/ ([117, 116, 102, 45, 49, 54, 45, 108, 101], .utf16le, .replacement),
  /- utf-32 -/ ([117, 116, 102, 45, 51, 50], .utf32, .replacement),
  /- v1-only -/ ([118, 49, 45, 111, 110, 108, 121], .v1Only, .replacement),
  /- v2-only -/ ([118, 50, 45, 111, 110, 108, 121], .v2Only, .replacement)]

/-- The rules of start condition `INITIAL` for single characters: scribbu/tbt-lexer.ll L104-109. -/
def initialRules : List (Bytes × Tok × Start) := [
  /- % -/ ([37], .pct, .replacement),
  /- ( -/ ([40], .lparen, .initial),
  /- ) -/ ([41], .rparen, .initial),
  /- ? -/ ([63], .question, .initial)]

/-- The first of the rules with the longest pattern that is a prefix of the input; `best` is the best one so far. -/
def longest (inp : Bytes) (best : Option (Bytes × Tok × Start)) :
    List (Bytes × Tok × Start) → Option (Bytes × Tok × Start)
  | [] => best
  | r :: rs =>
    longest inp
      (if r.1.isPrefixOf inp then
        match best with
        | none => some r
        | some b => if b.1.length < r.1.length then some r else some b
       else best) rs

/-- One call of the scanner on a non-empty input: the token with the start condition afterwards, if any, and the rest of the
input. A newline in `REPLACEMENT` matches no rule, so it is copied to `stdout` and yields no token.
scribbu/tbt-lexer.ll L100-176. -/
def step (st : Start) (c : Byte) (cs : Bytes) : Option (Tok × Start) × Bytes :=
  let inp := c :: cs
  match st with
  | .initial =>
    match textSpan inp with
    | ([], _) =>
      match longest inp none initialRules with
      | some (p, t, s) => (some (t, s), inp.drop p.length)
      | none => (some (.unknown, .initial), cs)
    | (x, rest) => (some (.text (unescape x), .initial), rest)
  | .replacement =>
    match longest inp none replacementRules with
    | some (p, t, s) => (some (t, s), inp.drop p.length)
    | none => if c = 10 then (none, cs) else (some (.unknown, .replacement), cs)
  | .parameter =>
    match longest inp none parameterRules, textSpan inp with
    | some (p, t, s), (x, rest) =>
      if x.length ≤ p.length then (some (t, s), inp.drop p.length)
      else (some (.paramText (unescape x), .replacement), rest)
    | none, ([], _) => (some (.unknown, .parameter), cs)
    | none, (x, rest) => (some (.paramText (unescape x), .replacement), rest)

/-- The tokens of an input, each with the start condition after it. Every call of the scanner consumes input, so the first
argument, at least the length of the input, never runs out. -/
def lex : Nat → Start → Bytes → List (Tok × Start)
  | 0, _, _ => []
  | _ + 1, _, [] => []
  | n + 1, st, c :: cs =>
    match step st c cs with
    | (none, rest) => lex n st rest
    | (some (t, s), rest) => (t, s) :: lex n s rest

/-! ### What a template means: the objects the parser builds -/

/-- `enum class year_format`: scribbu/tbt-support.hh L43-45. -/
inductive YearFmt where
  | twoDigits | fourDigits
  deriving DecidableEq, Repr

/-- `enum class all_source_preference`: scribbu/tbt-support.hh L48-53. -/
inductive SrcPref where
  | preferV2 | preferV1 | v2Only | v1Only
  deriving DecidableEq, Repr

/-- `enum class v1_encoding`: scribbu/tbt-support.hh L83-86. -/
inductive V1Enc where
  | automatic | iso8859_1 | ascii | cp1252 | utf8 | utf16be | utf16le | utf32
  deriving DecidableEq, Repr

/-- `enum class the_xform`: scribbu/tbt-support.hh L87-89. -/
inductive TheX where
  | nil | makePrefix | makeSuffix
  deriving DecidableEq, Repr

/-- `enum class capitalization`: scribbu/tbt-support.hh L90-92. -/
inductive Cap where
  | nil | capitalize | allUpper | allLower
  deriving DecidableEq, Repr

/-- `enum class output_encoding`: scribbu/tbt-support.hh L93-95. -/
inductive OutEnc where
  | utf8 | ascii | cp1252 | iso8859_1
  deriving DecidableEq, Repr

/-- `enum class base`: scribbu/tbt-support.hh L96. -/
inductive Base where
  | decimal | hex
  deriving DecidableEq, Repr

/-- `enum class hex_case`: scribbu/tbt-support.hh L97. -/
inductive HexCase where
  | lower | upper
  deriving DecidableEq, Repr

/-- Data members of `aacet_term` with the default arguments of its constructor: scribbu/tbt-support.hh L246-328. -/
structure AOpts where
  sp : SrcPref := .preferV2
  v1 : V1Enc := .automatic
  the : TheX := .makeSuffix
  cap : Cap := .capitalize
  compress : Bool := false
  replace : Bytes := []
  out : OutEnc := .utf8
  deriving DecidableEq, Repr

/-- Data members of `file_term` with the default arguments of its constructor: scribbu/tbt-support.hh L330-390. -/
structure FOpts where
  the : TheX := .nil
  cap : Cap := .nil
  compress : Bool := false
  replace : Bytes := []
  deriving DecidableEq, Repr

/-- Data members of `size` and of `md5`; `none` is an indeterminate value: scribbu/tbt-support.hh L577-641. -/
structure NumOpts where
  base : Option Base
  hexCase : Option HexCase
  deriving DecidableEq, Repr

/-- The default arguments of the constructors of `size` and of `md5`: scribbu/tbt-support.hh L580-582 and L613-615. -/
def NumOpts.defaults : NumOpts := { base := some .decimal, hexCase := some .lower }

/-- The fields of a tag `aacet_term` is derived for. -/
inductive Field where
  | album | artist | contentType | title
  deriving DecidableEq, Repr

/-- Terms other than subclauses: classes derived from `term` in scribbu/tbt-support.hh L392-641. `encoded_by` is always built
with its default arguments (scribbu/tbt-parser.yy L256 and L288), so these are not recorded. -/
inductive Atom where
  | text (b : Bytes)
  | field (f : Field) (o : AOpts)
  | encodedBy
  | year (y : YearFmt)
  | basename (o : FOpts)
  | extension (o : FOpts)
  | md5 (o : NumOpts)
  | size (o : NumOpts)
  deriving DecidableEq, Repr

/-- A list of terms; `sub` is a term of class `subclause`: scribbu/tbt-support.hh L408-422. -/
inductive Tpl where
  | nil
  | atom (a : Atom) (rest : Tpl)
  | sub (inner rest : Tpl)
  deriving DecidableEq, Repr

/-- The replacement with default arguments that a name stands for: scribbu/tbt-parser.yy L244-306. -/
def Name.term : Name → Atom
  | .album => .field .album {}
  | .artist => .field .artist {}
  | .basename => .basename {}
  | .contentType => .field .contentType {}
  | .encodedBy => .encodedBy
  | .extension => .extension {}
  | .md5 => .md5 .defaults
  | .size => .size .defaults
  | .title => .field .title {}
  | .year => .year .fourDigits

/-! ### The parser -/

/-- The result of parsing a phrase: the phrase, the scanner's start condition and the tokens not yet consumed; or failure
(a syntax error or a repeated option), with the start condition the scanner is left in. -/
inductive PR (α : Type) where
  | ok (a : α) (cur : Start) (ts : List (Tok × Start))
  | fail (cur : Start)

/-- The start condition once the next token, if any, has been read. -/
def peeked (cur : Start) : List (Tok × Start) → Start
  | [] => cur
  | (_, s) :: _ => s

/-- A syntax error at the next token. -/
def failAt (cur : Start) (ts : List (Tok × Start)) : PR α := .fail (peeked cur ts)

/-- `map<ws_xform, any>`: scribbu/tbt-parser.yy L548-581. -/
structure WsMap where
  compress : Bool
  replace : Option Bytes
  deriving DecidableEq, Repr

/-- `ws_xforms` after the transformations in `m`: scribbu/tbt-parser.yy L548-586. Repetition is noticed without reading
another token. -/
def wsXforms (m : WsMap) (cur : Start) : List (Tok × Start) → PR WsMap
  | (.compress, s) :: ts => if m.compress then .fail s else wsXforms { m with compress := true } s ts
  | (.ws, _) :: (.equal, _) :: (.paramText x, s) :: ts =>
    if m.replace.isSome then .fail s else wsXforms { m with replace := some x } s ts
  | (.ws, _) :: (.equal, s) :: ts => failAt s ts
  | (.ws, s) :: ts => failAt s ts
  | ts => .ok m cur ts

/-- `EQUAL` followed by one of the given tokens: scribbu/tbt-parser.yy L506-546 and L588-616. -/
def equalTo (val : Tok → Option α) (cur : Start) : List (Tok × Start) → PR α
  | (.equal, s) :: ts =>
    match ts with
    | (t, s') :: ts' => match val t with | some a => .ok a s' ts' | none => failAt s ts
    | [] => failAt s ts
  | ts => failAt cur ts

/-- The values of `v1_encoding`: scribbu/tbt-parser.yy L506-521. -/
def v1EncVal : Tok → Option V1Enc
  | .auto => some .automatic
  | .iso8859_1 => some .iso8859_1
  | .ascii => some .ascii
  | .cp1252 => some .cp1252
  | .utf8 => some .utf8
  | _ => none

/-- The values of `the_xform`: scribbu/tbt-parser.yy L526-531. -/
def theVal : Tok → Option TheX
  | .prefix => some .makePrefix
  | .suffix => some .makeSuffix
  | _ => none

/-- The values of `cap_xform`: scribbu/tbt-parser.yy L537-545. -/
def capVal : Tok → Option Cap
  | .allUpper => some .allUpper
  | .allLower => some .allLower
  | .capitalize => some .capitalize
  | _ => none

/-- The values of `output_encoding`: scribbu/tbt-parser.yy L588-600. -/
def outVal : Tok → Option OutEnc
  | .utf8 => some .utf8
  | .ascii => some .ascii
  | .cp1252 => some .cp1252
  | .iso8859_1 => some .iso8859_1
  | _ => none

/-- The values of `base`: scribbu/tbt-parser.yy L602-608. -/
def baseVal : Tok → Option Base
  | .decimal => some .decimal
  | .hex => some .hex
  | _ => none

/-- The values of `hex_case`: scribbu/tbt-parser.yy L610-616. -/
def hexCaseVal : Tok → Option HexCase
  | .lower => some .lower
  | .upper => some .upper
  | _ => none

/-- `pair<const aacet_opt, any>`; the constructor is the key. -/
inductive AOpt where
  | src (p : SrcPref) | v1 (e : V1Enc) | the (x : TheX) | cap (c : Cap) | ws (m : WsMap) | out (e : OutEnc)
  deriving DecidableEq, Repr

/-- The key of an option: `enum class aacet_opt`, scribbu/tbt-support.hh L115-118. -/
def AOpt.key : AOpt → Nat
  | .src _ => 0 | .v1 _ => 1 | .the _ => 2 | .cap _ => 3 | .ws _ => 4 | .out _ => 5

/-- `pair<const file_opt, any>`. -/
inductive FOpt where
  | the (x : TheX) | cap (c : Cap) | ws (m : WsMap)
  deriving DecidableEq, Repr

/-- The key of an option: `enum class file_opt`, scribbu/tbt-support.hh L111. -/
def FOpt.key : FOpt → Nat
  | .the _ => 0 | .cap _ => 1 | .ws _ => 2

/-- `pair<const size_opt, any>`, `pair<const md5_opt, any>`. -/
inductive NumOpt where
  | base (b : Base) | hexCase (c : HexCase)
  deriving DecidableEq, Repr

/-- The key of an option: `enum class size_opt`, `enum class md5_opt`, scribbu/tbt-support.hh L99 and L107. -/
def NumOpt.key : NumOpt → Nat
  | .base _ => 0 | .hexCase _ => 1

/-- An option, and whether the parser had to read the next token to know that the option ends there. -/
abbrev Parsed (α : Type) := PR (α × Bool)

/-- Tag an option. -/
def PR.tag (f : α → β) (look : Bool) : PR α → Parsed β
  | .ok a s ts => .ok (f a, look) s ts
  | .fail s => .fail s

/-- `the_xform`: scribbu/tbt-parser.yy L523-532. -/
def theXform (cur : Start) (ts : List (Tok × Start)) : Parsed TheX :=
  match ts with
  | (.equal, _) :: _ => (equalTo theVal cur ts).tag id false
  | _ => .ok (.makeSuffix, true) cur ts

/-- `cap_xform`: scribbu/tbt-parser.yy L534-546. -/
def capXform (cur : Start) (ts : List (Tok × Start)) : Parsed Cap :=
  match ts with
  | (.equal, _) :: _ => (equalTo capVal cur ts).tag id false
  | _ => .ok (.capitalize, true) cur ts

/-- Change the type of a parsed option. -/
def PR.mapOpt (f : α → β) : Parsed α → Parsed β
  | .ok (a, l) s ts => .ok (f a, l) s ts
  | .fail s => .fail s

/-- `aacet_opt`: scribbu/tbt-parser.yy L357-381 and L492-600. -/
def aOpt (cur : Start) (ts : List (Tok × Start)) : Parsed AOpt :=
  match ts with
  | (.prefV2, s) :: ts => .ok (.src .preferV2, false) s ts
  | (.prefV1, s) :: ts => .ok (.src .preferV1, false) s ts
  | (.v2Only, s) :: ts => .ok (.src .v2Only, false) s ts
  | (.v1Only, s) :: ts => .ok (.src .v1Only, false) s ts
  | (.v1Encoding, s) :: ts => (equalTo v1EncVal s ts).tag .v1 false
  | (.the, s) :: ts => (theXform s ts).mapOpt .the
  | (.cap, s) :: ts => (capXform s ts).mapOpt .cap
  | (.compress, _) :: _ => (wsXforms ⟨false, none⟩ cur ts).tag .ws true
  | (.ws, _) :: _ => (wsXforms ⟨false, none⟩ cur ts).tag .ws true
  | (.output, s) :: ts => (equalTo outVal s ts).tag .out false
  | _ => failAt cur ts

/-- `file_opt`: scribbu/tbt-parser.yy L405-417. -/
def fOpt (cur : Start) (ts : List (Tok × Start)) : Parsed FOpt :=
  match ts with
  | (.the, s) :: ts => (theXform s ts).mapOpt .the
  | (.cap, s) :: ts => (capXform s ts).mapOpt .cap
  | (.compress, _) :: _ => (wsXforms ⟨false, none⟩ cur ts).tag .ws true
  | (.ws, _) :: _ => (wsXforms ⟨false, none⟩ cur ts).tag .ws true
  | _ => failAt cur ts

/-- `md5_opt` and `size_opt`, which have the same form: scribbu/tbt-parser.yy L441-449 and L473-481. -/
def numOpt (cur : Start) (ts : List (Tok × Start)) : Parsed NumOpt :=
  match ts with
  | (.base, s) :: ts => (equalTo baseVal s ts).tag .base false
  | (.hexCase, s) :: ts => (equalTo hexCaseVal s ts).tag .hexCase false
  | _ => failAt cur ts

/-- `aacet_opts`, `file_opts`, `md5_opts` and `size_opts` after the options `acc`: options separated by `AMP`, no two with
the same key. scribbu/tbt-parser.yy L335-355, L383-403, L419-439 and L451-471. The first argument bounds the number of
options; every option takes a token, so the number of tokens is enough. -/
def options (opt : Start → List (Tok × Start) → Parsed α) (key : α → Nat) :
    Nat → List α → Start → List (Tok × Start) → PR (List α)
  | 0, _, cur, _ => .fail cur
  | n + 1, acc, cur, ts =>
    match opt cur ts with
    | .fail s => .fail s
    | .ok (o, look) s ts' =>
      if acc.any (fun a => key a == key o) then .fail (if look then peeked s ts' else s)
      else
        match ts' with
        | (.amp, s') :: ts'' => options opt key n (acc ++ [o]) s' ts''
        | _ => .ok (acc ++ [o]) s ts'

/-- `aacet_term::set_options`, one option: scribbu/tbt-support.hh L264-308. -/
def AOpts.set (o : AOpts) : AOpt → AOpts
  | .src p => { o with sp := p }
  | .v1 e => { o with v1 := e }
  | .the x => { o with the := x }
  | .cap c => { o with cap := c }
  | .ws m => { o with compress := if m.compress then true else o.compress,
                      replace := match m.replace with | some r => r | none => o.replace }
  | .out e => { o with out := e }

/-- `file_term::set_options`, one option: scribbu/tbt-support.hh L344-379. -/
def FOpts.set (o : FOpts) : FOpt → FOpts
  | .the x => { o with the := x }
  | .cap c => { o with cap := c }
  | .ws m => { o with compress := if m.compress then true else o.compress,
                      replace := match m.replace with | some r => r | none => o.replace }

/-- The constructors of `size` and `md5` that take options, one option: scribbu/tbt-support.hh L583-599 and L616-632. They
initialise only the members for which there is an option. -/
def NumOpts.set (o : NumOpts) : NumOpt → NumOpts
  | .base b => { o with base := some b }
  | .hexCase c => { o with hexCase := some c }

/-- The field a name stands for in `aacet_replacement_name`: scribbu/tbt-parser.yy L308-320. -/
def Name.field : Name → Option Field
  | .album => some .album
  | .artist => some .artist
  | .contentType => some .contentType
  | .title => some .title
  | _ => none

/-- A closing parenthesis. -/
def close (a : α) (cur : Start) : List (Tok × Start) → PR α
  | (.rparen, s) :: ts => .ok a s ts
  | ts => failAt cur ts

/-- What follows `PCT LPAREN name COLON`: scribbu/tbt-parser.yy L210-232. The options are gone through in the order of their
keys, which makes no difference as no key occurs twice. -/
def withOptions (n : Name) (cur : Start) (ts : List (Tok × Start)) : PR Atom :=
  match n with
  | .basename =>
    match options fOpt FOpt.key ts.length [] cur ts with
    | .ok os s ts => close (.basename (os.foldl FOpts.set {})) s ts
    | .fail s => .fail s
  | .extension =>
    match options fOpt FOpt.key ts.length [] cur ts with
    | .ok os s ts => close (.extension (os.foldl FOpts.set {})) s ts
    | .fail s => .fail s
  | .md5 =>
    match options numOpt NumOpt.key ts.length [] cur ts with
    | .ok os s ts => close (.md5 (os.foldl NumOpts.set ⟨none, none⟩)) s ts
    | .fail s => .fail s
  | .size =>
    match options numOpt NumOpt.key ts.length [] cur ts with
    | .ok os s ts => close (.size (os.foldl NumOpts.set ⟨none, none⟩)) s ts
    | .fail s => .fail s
  | .year =>
    match ts with
    | (.twoDigits, s) :: ts => close (.year .twoDigits) s ts
    | (.fourDigits, s) :: ts => close (.year .fourDigits) s ts
    | _ => failAt cur ts
  | _ =>
    match n.field with
    | some f =>
      match options aOpt AOpt.key ts.length [] cur ts with
      | .ok os s ts => close (.field f (os.foldl AOpts.set {})) s ts
      | .fail s => .fail s
    | none => failAt cur ts

/-- What follows `PCT` in `replacement`: scribbu/tbt-parser.yy L207-235. After `encoded-by` there can be no colon. -/
def replacement (cur : Start) (ts : List (Tok × Start)) : PR Atom :=
  match ts with
  | (.abbrev n, s) :: ts => .ok n.term s ts
  | (.lparen, s) :: ts =>
    match ts with
    | (.name n, s) :: ts =>
      match ts with
      | (.colon, s') :: ts' => if n = .encodedBy then failAt s ts else withOptions n s' ts'
      | _ => close n.term s ts
    | _ => failAt s ts
  | _ => failAt cur ts

/-- `term_list`: scribbu/tbt-parser.yy L189-205 and L236-239. `any` says that a term has been read already, so that the list
may end here. The first argument bounds the depth of the recursion; one more than the number of tokens is enough. -/
def termList : Nat → Bool → Start → List (Tok × Start) → PR Tpl
  | 0, _, cur, _ => .fail cur
  | n + 1, any, cur, ts =>
    match ts with
    | (.text x, s) :: ts =>
      match termList n true s ts with
      | .ok t s ts => .ok (.atom (.text x) t) s ts
      | .fail s => .fail s
    | (.pct, s) :: ts =>
      match replacement s ts with
      | .fail s => .fail s
      | .ok a s ts =>
        match termList n true s ts with
        | .ok t s ts => .ok (.atom a t) s ts
        | .fail s => .fail s
    | (.lparen, s) :: ts =>
      match termList n false s ts with
      | .fail s => .fail s
      | .ok inner s ts =>
        match ts with
        | (.rparen, s) :: ts =>
          match ts with
          | (.question, s) :: ts =>
            match termList n true s ts with
            | .ok t s ts => .ok (.sub inner t) s ts
            | .fail s => .fail s
          | _ => failAt s ts
        | _ => failAt s ts
    | _ => if any then .ok .nil cur ts else failAt cur ts

/-- `tbtparse`: scribbu/tbt-parser.yy L185-187. The terms, if the template is well-formed, and the scanner's start condition
afterwards. -/
def parse (st : Start) (b : Bytes) : Option Tpl × Start :=
  let ts := lex b.length st b
  match termList (ts.length + 1) false st ts with
  | .ok t s [] => (some t, s)
  | .ok _ s ts => (none, peeked s ts)
  | .fail s => (none, s)

/-- `template_processor(templat)`: scribbu/id3v2-utils.cc L98-122. The scanner sees the template up to its first null
character, and starts in whatever start condition it was left in. `none` stands for `invalid_template` or
`duplicate_option`. -/
def templateProcessor (st : Start) (templat : Bytes) : Option Tpl × Start :=
  parse st (templat.takeWhile (· ≠ 0))

end Scribbu.Tbt
