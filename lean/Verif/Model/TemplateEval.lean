import Verif.Model.Template
import Verif.Model.Genres
import Verif.Model.Id3v1
import Verif.Model.Backup

/-!
# Tag-based templates: evaluation (scribbu/tbt-support.cc, scribbu/tbt-support.hh)

Not modelled: the locale (upper and lower case are those of ASCII, other bytes are left alone, and a number is printed without
grouping), and the text of exceptions. `iconv` is a parameter.
-/

namespace Scribbu.Tbt

/-- The encodings templates deal in (some of `enum class encoding`, scribbu/charsets.hh). -/
inductive Enc where
  | ascii | iso8859_1 | cp1252 | utf8 | utf16be | utf16le | utf32
  deriving DecidableEq, Repr

/-- `iconv` from one encoding to another; `none` is failure. -/
abbrev Iconv := Enc → Enc → Bytes → Option Bytes

/-- Upper case, for ASCII. -/
def upper (c : Byte) : Byte := if 97 ≤ c ∧ c ≤ 122 then c - 32 else c

/-- Lower case, for ASCII. -/
def lower (c : Byte) : Byte := if 65 ≤ c ∧ c ≤ 90 then c + 32 else c

/-- `boost::iequals(a, b)`. -/
def iequals (a b : Bytes) : Bool := a.map upper == b.map upper

/-- `"The "` -/
def thePrefix : Bytes := [84, 104, 101, 32]

/-- `", The"` -/
def theSuffix : Bytes := [44, 32, 84, 104, 101]

/-- `do_the_xform(text, the)`: scribbu/tbt-support.cc L178-194. -/
def doThe (text : Bytes) : TheX → Bytes
  | .makePrefix =>
    if 5 ≤ text.length ∧ iequals theSuffix (text.drop (text.length - 5)) then
      thePrefix ++ text.take (text.length - 5)
    else text
  | .makeSuffix =>
    if 5 ≤ text.length ∧ iequals thePrefix (text.take 4) then text.drop 4 ++ theSuffix else text
  | .nil => text

/-- `do_cap_xform(text, cap)`: scribbu/tbt-support.cc L196-222. `text[0]` of an empty string is a null character, but
`text.substr(1)` throws. -/
def doCap (text : Bytes) : Cap → Res Bytes
  | .capitalize =>
    match text with
    | [] => .throw .outOfRange
    | c :: rest => .ok (upper c :: rest)
  | .allUpper => .ok (text.map upper)
  | .allLower => .ok (text.map lower)
  | .nil => .ok text

/-- A space or a tab: `is_any_of(" \t")`. -/
def blank (c : Byte) : Bool := c == 32 || c == 9

/-- `boost::split(splits, text, is_any_of(" \t"))`, which does not merge adjacent separators. -/
def splitBlanks : Bytes → List Bytes
  | [] => [[]]
  | c :: rest =>
    if blank c then [] :: splitBlanks rest
    else
      match splitBlanks rest with
      | [] => [[c]]
      | w :: ws => (c :: w) :: ws

/-- `boost::join(parts, sep)`. -/
def join (sep : Bytes) : List Bytes → Bytes
  | [] => []
  | [w] => w
  | w :: ws => w ++ sep ++ join sep ws

/-- `do_ws_xform(text, compress, replace)`: scribbu/tbt-support.cc L224-245. -/
def doWs (text : Bytes) (compress : Bool) (replace : Bytes) : Bytes :=
  if !compress && replace.length == 0 then text
  else if replace.length ≠ 0 then join replace (splitBlanks text)
  else join [32] (splitBlanks text)

/-- Remove a byte order mark: scribbu/charsets.cc L718-747. -/
def stripBom (out : Bytes) : Bytes :=
  match out with
  | 0x00 :: 0x00 :: 0xfe :: 0xff :: rest => rest
  | 0xfe :: 0xff :: 0x00 :: 0x00 :: rest => rest
  | 0xef :: 0xbb :: 0xbf :: rest => rest
  | 0xfe :: 0xff :: rest => rest
  | 0xff :: 0xfe :: rest => rest
  | _ => out

/-- Remove trailing null characters and spaces: scribbu/charsets.cc L749-752. -/
def stripTrailing (out : Bytes) : Bytes := (out.reverse.dropWhile fun c => c == 0 || c == 32).reverse

/-- `convert_encoding<std::string>(pbuf, cbbuf, srcenc, dstenc)`: scribbu/charsets.cc L666-755. `iconv_error` is a
`runtime_error`. -/
def convertEncoding (ic : Iconv) (src dst : Enc) (b : Bytes) : Res Bytes :=
  if b.length = 0 then .ok []
  else
    match ic src dst b with
    | none => .throw .runtimeError
    | some out => .ok (stripTrailing (stripBom out))

/-- `encode(text, out)`: scribbu/tbt-support.cc L247-269. -/
def encode (ic : Iconv) (text : Bytes) : OutEnc → Res Bytes
  | .utf8 => .ok text
  | .ascii => convertEncoding ic .utf8 .ascii text
  | .cp1252 => convertEncoding ic .utf8 .cp1252 text
  | .iso8859_1 => convertEncoding ic .utf8 .iso8859_1 text

/-- The encoding `v1_text_to_utf8` settles on when a text starts with a byte order mark: scribbu/tbt-support.cc L330-341. -/
def guess (b : Bytes) : V1Enc :=
  match b with
  | 0xef :: 0xbb :: 0xbf :: _ => .utf8
  | 0xfe :: 0xff :: _ => .utf16be
  | 0xff :: 0xfe :: _ => .utf16be
  | _ => .automatic

/-- `LOOKUP` of `v1_text_to_utf8`: scribbu/tbt-support.cc L367-374. -/
def V1Enc.enc : V1Enc → Option Enc
  | .automatic => none
  | .ascii => some .ascii
  | .iso8859_1 => some .iso8859_1
  | .cp1252 => some .cp1252
  | .utf8 => some .utf8
  | .utf16be => some .utf16be
  | .utf16le => some .utf16le
  | .utf32 => some .utf32

/-- `tag_based_term::v1_text_to_utf8`: scribbu/tbt-support.cc L312-383 and scribbu/tbt-support.hh L226-239. Without an encoding
and without a byte order mark, several conversions are tried, but an exception is thrown whether or not one of them works
(L362), so what they give is left out. -/
def v1TextToUtf8 (ic : Iconv) (b : Bytes) (e : V1Enc) : Res Bytes :=
  if b = [] then .ok []
  else
    match (if e = .automatic then guess b else e).enc with
    | none => .throw .invalidArgument
    | some src => convertEncoding ic src .utf8 b

/-- The text of an ID3v1 tag, unless it is empty: scribbu/tbt-support.hh L192-198 (and L205-209, L215-221). -/
def v1OrMissing (ic : Iconv) (v1 : Bytes) (e : V1Enc) : Res Bytes :=
  (v1TextToUtf8 ic v1 e).bind fun s => if s ≠ [] then .ok s else .throw .missing

/-- `v2 && !v2->empty()`. -/
def nonEmpty (v2 : Option Bytes) : Option Bytes := v2.filter (· ≠ [])

/-- `tag_based_term::source_text`: scribbu/tbt-support.hh L182-223. `v1` is empty when there is no ID3v1 tag. -/
def sourceText (ic : Iconv) (v1 : Bytes) (v2 : Option Bytes) (e : V1Enc) : SrcPref → Res Bytes
  | .preferV2 =>
    match nonEmpty v2 with
    | some s => .ok s
    | none => if v1 ≠ [] then v1OrMissing ic v1 e else .throw .missing
  | .v2Only =>
    match nonEmpty v2 with
    | some s => .ok s
    | none => .throw .missing
  | .preferV1 =>
    if v1 ≠ [] then v1OrMissing ic v1 e
    else
      match nonEmpty v2 with
      | some s => .ok s
      | none => .throw .missing
  | .v1Only => if v1 ≠ [] then v1OrMissing ic v1 e else .throw .missing

/-- The fields of an ID3v2 tag templates look at. -/
inductive V2Field where
  | album | artist | contentType | title | encodedBy | year
  deriving DecidableEq, Repr

/-- What a template is evaluated against. `v2 f` is `none` if the tag has no such frame, otherwise the outcome of asking for
its text (in UTF-8). -/
structure Env where
  ic : Iconv
  /-- `fi.filename().stem()` -/
  stem : Bytes
  /-- `fi.filename().extension()` -/
  ext : Bytes
  /-- `fi.size()` -/
  size : Nat
  /-- `ti.get_md5()` -/
  md5 : Bytes
  v2 : Option (V2Field → Option (Res Bytes))
  v1 : Option V1Tag

/-- `if (pid3v2 && pid3v2->has_album()) { v2 = pid3v2->album(); }` and the like: e.g. scribbu/tbt-support.cc L446-449. -/
def Env.v2Text (env : Env) (f : V2Field) : Res (Option Bytes) :=
  match env.v2 with
  | none => .ok none
  | some get =>
    match get f with
    | none => .ok none
    | some r => r.bind fun s => .ok (some s)

/-- The ID3v1 text of a field: scribbu/tbt-support.cc L441-444, L471-474, L500-513, L539-542. -/
def Env.v1Text (env : Env) (f : Field) : Bytes :=
  match env.v1 with
  | none => []
  | some t =>
    match f with
    | .album => t.album
    | .artist => t.artist
    | .title => t.title
    | .contentType =>
      if t.extGenre = [] then
        match Genres.textForGenre t.genre with
        | some s => s
        | none => []
      else t.extGenre

/-- The ID3v1 text of the year: scribbu/tbt-support.cc L587-590. -/
def Env.v1Year (env : Env) : Bytes :=
  match env.v1 with
  | none => []
  | some t => t.year

/-- The frame of a field. -/
def Field.v2 : Field → V2Field
  | .album => .album
  | .artist => .artist
  | .contentType => .contentType
  | .title => .title

/-- `aacet_term::xform_and_encode`: scribbu/tbt-support.cc L418-425. -/
def xformAndEncode (ic : Iconv) (o : AOpts) (text : Bytes) : Res Bytes :=
  (doCap (doThe text o.the) o.cap).bind fun s => encode ic (doWs s o.compress o.replace) o.out

/-- `file_term::transform`: scribbu/tbt-support.cc L615-622. -/
def fileTransform (o : FOpts) (text : Bytes) : Res Bytes :=
  (doCap (doThe text o.the) o.cap).bind fun s => .ok (doWs s o.compress o.replace)

/-- `size::evaluate`: scribbu/tbt-support.cc L642-665. For base 16 only manipulators are sent to the stream. -/
def evalSize (n : Nat) (o : NumOpts) : Res Bytes :=
  match o.base with
  | none => .ub .uninit
  | some .decimal => .ok (Backup.dec n)
  | some .hex =>
    match o.hexCase with
    | none => .ub .uninit
    | some _ => .ok []

/-- `md5::evaluate`: scribbu/tbt-support.cc L667-690. The digest's bytes are sent to the stream as characters. -/
def evalMd5 (d : Bytes) (o : NumOpts) : Res Bytes :=
  match o.base with
  | none => .ub .uninit
  | some .decimal => .ok d
  | some .hex =>
    match o.hexCase with
    | none => .ub .uninit
    | some _ => .ok d

/-- `evaluate` of a term: scribbu/tbt-support.cc L433-690, scribbu/tbt-support.hh L398-402. -/
def Atom.eval (env : Env) : Atom → Res Bytes
  | .text b => .ok b
  | .field f o =>
    (env.v2Text f.v2).bind fun v2 =>
    (sourceText env.ic (env.v1Text f) v2 o.v1 o.sp).bind fun s =>
    xformAndEncode env.ic o s
  | .encodedBy =>
    (env.v2Text .encodedBy).bind fun v2 =>
    match v2 with
    | none => .throw .missing
    | some s => (doCap (doThe s .makeSuffix) .capitalize).bind fun s => encode env.ic s .utf8
  | .year fmt =>
    (env.v2Text .year).bind fun v2 =>
    (sourceText env.ic env.v1Year v2 .automatic .preferV2).bind fun s =>
    match fmt with
    | .fourDigits => .ok s
    | .twoDigits => if 2 ≤ s.length then .ok (s.drop 2) else .throw .outOfRange
  | .basename o => fileTransform o env.stem
  | .extension o => fileTransform o env.ext
  | .md5 o => evalMd5 env.md5 o
  | .size o => evalSize env.size o

/-- `catch (const scribbu::tbt_support::error&) { }` of `subclause::evaluate`: scribbu/tbt-support.cc L405-413. -/
def catchMissing : Res Bytes → Res Bytes
  | .throw .missing => .ok []
  | r => r

/-- The terms of a template, evaluated and concatenated in order; a subclause yields nothing if a `tbt_support::error` (here:
`missing_source_text`) leaves it. scribbu/tbt-support.cc L398-415 and scribbu/id3v2-utils.cc L136-137. -/
def Tpl.eval (env : Env) : Tpl → Res Bytes
  | .nil => .ok []
  | .atom a rest => (a.eval env).bind fun x => (rest.eval env).bind fun y => .ok (x ++ y)
  | .sub inner rest =>
    (catchMissing (inner.eval env)).bind fun x => (rest.eval env).bind fun y => .ok (x ++ y)

end Scribbu.Tbt
