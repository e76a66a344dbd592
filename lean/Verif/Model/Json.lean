import Verif.Model.Report
import Verif.Model.Charset
import Verif.Model.AnyTag
import Verif.Model.Read
import Verif.Model.Track

/-! # Tags as JSON: `json_pprinter`, and the sub-command `dump` in that format

scribbu/json-pprinter.cc, the tables of scribbu/pprinter.cc, src/dump.cc.

The file system is a parameter, and so are MD5, iconv and zlib. Not modelled: the other formats of `dump`, help, notices on stderr. -/

namespace Scribbu
namespace Json
open Report

/-! ## Texts -/

/-- One byte of `escape`: scribbu/json-pprinter.cc L49-70. -/
def esc1 (c : Byte) : Bytes :=
  if c = 8 then [92, 98]
  else if c = 12 then [92, 102]
  else if c = 10 then [92, 110]
  else if c = 13 then [92, 114]
  else if c = 9 then [92, 116]
  else if c = 34 ∨ c = 92 then [92, c]
  else [c]

/-- `escape(s)`: scribbu/json-pprinter.cc L45-73. -/
def escape (s : Bytes) : Bytes := s.flatMap esc1

/-- What printing depends on: iconv, memory, zlib and MD5; `v1enc_` and `v2enc_` of the printer. `dump` gives the former and not the
latter (src/dump.cc L190). Text is printed in UTF-8, and what UTF-8 lacks is an error, as nobody has put an `ienc` into the stream
(scribbu/ostream.cc L59-69). -/
structure Env where
  lib : IconvLib
  mem : Nat
  z : Zlib
  md5 : Bytes → Bytes
  v1 : Encoding := .CP1252
  v2 : Option Encoding := none

/-- `convert_encoding<string>(p, cb, src, dst, rsp)`, as called while printing. -/
def Env.conv (E : Env) (src : Encoding) (b : Bytes) : Res Bytes := Charset.toText E.lib E.mem src .UTF_8 .fail b

/-- The source encoding by the byte in the frame and by the byte order mark: scribbu/framesv22.cc L52-70, scribbu/framesv23.cc
L325-343, scribbu/framesv24.cc L53-77. -/
def source (v : Ver) (unicode : Byte) (b : Bytes) : Res Encoding :=
  match v with
  | .v4 =>
    if unicode = 0 then .ok .ISO_8859_1
    else if unicode = 1 ∨ unicode = 2 then
      .ok (if b.take 2 = [0xfe, 0xff] then .UTF_16BE else if b.take 2 = [0xff, 0xfe] then .UTF_16LE else .UTF_16)
    else if unicode = 3 then .ok .UTF_8
    else .throw .rangeError
  | _ =>
    if unicode = 0 then .ok .ISO_8859_1
    else if unicode = 1 then
      .ok (if b.take 2 = [0xfe, 0xff] then .UCS_2BE else if b.take 2 = [0xff, 0xfe] then .UCS_2LE else .UCS_2)
    else .throw .rangeError

/-- `as_str<string>(p, cb, unicode, dst, rsp, v2enc_)`, and its callers' test for an empty text: scribbu/framesv22.cc L36-73,
framesv22.hh L435-444, L527-553, L595-620, and their counterparts for ID3v2.3 and 2.4. `unicode` may be uninitialised. -/
def Env.asStr (E : Env) (v : Ver) (unicode : Option Byte) (b : Bytes) : Res Bytes :=
  if b = [] then .ok []
  else match E.v2 with
    | some src => E.conv src b
    | none =>
      match unicode with
      | none => .ub .uninit
      | some u => (source v u b).bind fun src => E.conv src b

/-- The e-mail address in a frame, or the owner of an ID3v2.3 or 2.4 identifier: scribbu/framesv22.hh L695-704, framesv23.hh
L559-568, L615-624, L1156-1165, L1317-1326. `dflt` is the encoding without `v2enc_`. -/
def Env.latin (E : Env) (dflt : Encoding) (b : Bytes) : Res Bytes :=
  if b = [] then .ok [] else E.conv (match E.v2 with | some e => e | none => dflt) b

/-- The owner of an ID3v2.2 identifier, `frm.owner<string>(dst, rsp, v2enc_)`: scribbu/framesv22.hh L269-278, where `src.get()` is
called whether or not there is anything in `src`. -/
def Env.ufiOwner (E : Env) (b : Bytes) : Res Bytes :=
  if b = [] then .ok []
  else match E.v2 with
    | some e => E.conv e b
    | none => .ub .nullDeref

/-! ## Frames -/

/-- Parts put one after the other. -/
def cat : List (Res Bytes) → Res Bytes
  | [] => .ok []
  | p :: ps => p.bind fun a => (cat ps).bind fun b => .ok (a ++ b)

/-- `boost::algorithm::join(parts, ",")`. -/
def joined : List Bytes → Bytes := sepBy 44

/-- `escape(...)` of a text that has to be converted first. -/
def Env.quoted (r : Res Bytes) : Res Bytes := r.bind fun b => .ok (escape b)

/-- An integer in decimal. -/
def numb (r : Res Nat) : Res Bytes := r.bind fun n => .ok (Backup.dec n)

/-- The beginning of a frame: the identifier as it is, and the size: scribbu/json-pprinter.cc L223-225 and so on. Simplified: sizes
are `int`s. -/
def head (id : Bytes) (size : Nat) : Bytes :=
  /- {"id":" -/ [123, 34, 105, 100, 34, 58, 34] ++ id ++ /- ","size": -/ [34, 44, 34, 115, 105, 122, 101, 34, 58] ++ Backup.dec size

/-- One tag in the cloud: scribbu/json-pprinter.cc L340-352, L511-523, L702-714. -/
def cloudTag (p : Bytes × List Bytes) : Bytes :=
  match p.2 with
  | [] => [34] ++ escape p.1 ++ [34]
  | [x] => /- {" -/ [123, 34] ++ escape p.1 ++ /- ":" -/ [34, 58, 34] ++ escape x ++ /- "} -/ [34, 125]
  | xs => /- {" -/ [123, 34] ++ escape p.1 ++ /- ":[ -/ [34, 58, 91] ++ joined xs ++ /- ]} -/ [93, 125]

/-- What is printed for a frame, by its class; `id` is what its identifier is as text, `v` the version of the tag. The classes that
are printed are those in the table that `operator<<` looks into, which has none for XTAG and PRIV of ID3v2.4:
scribbu/pprinter.cc L266-293 and L1088-1104. L216-738 of scribbu/json-pprinter.cc. -/
def frame (E : Env) (v : Ver) (id : Bytes) (b : Body) : Res Bytes :=
  match b with
  | .unknown _ => .ok (head id b.size ++ /- } -/ [125])
  | .text u t => cat [.ok (head id b.size), .ok (/- ,"text":" -/ [44, 34, 116, 101, 120, 116, 34, 58, 34]), Env.quoted (E.asStr v (some u) t), .ok (/- "} -/ [34, 125])]
  | .ufid x =>
    cat [.ok (head id b.size), .ok (/- ,"owner": -/ [44, 34, 111, 119, 110, 101, 114, 34, 58]),
      Env.quoted (match v with | .v2 => E.ufiOwner x.owner | _ => E.latin .ISO_8859_1 x.owner), .ok (/- "} -/ [34, 125])]
  | .txxx x =>
    cat [.ok (head id b.size), .ok (/- ,"description":" -/ [44, 34, 100, 101, 115, 99, 114, 105, 112, 116, 105, 111, 110, 34, 58, 34]), Env.quoted (E.asStr v (some x.unicode) x.desc),
      .ok (/- ","text":" -/ [34, 44, 34, 116, 101, 120, 116, 34, 58, 34]), Env.quoted (E.asStr v (some x.unicode) x.text), .ok (/- "} -/ [34, 125])]
  | .comm x =>
    cat [.ok (head id b.size), .ok (/- ,"description":" -/ [44, 34, 100, 101, 115, 99, 114, 105, 112, 116, 105, 111, 110, 34, 58, 34]), Env.quoted (E.asStr v x.unicode x.desc),
      .ok (/- ","text":" -/ [34, 44, 34, 116, 101, 120, 116, 34, 58, 34]), Env.quoted (E.asStr v x.unicode x.text), .ok (/- "} -/ [34, 125])]
  | .pcnt c =>
    cat [.ok (match v with | .v2 => /- {"id":"CNT,"size": -/ [123, 34, 105, 100, 34, 58, 34, 67, 78, 84, 44, 34, 115, 105, 122, 101, 34, 58] | _ => /- {"id":"PCNT,"size": -/ [123, 34, 105, 100, 34, 58, 34, 80, 67, 78, 84, 44, 34, 115, 105, 122, 101, 34, 58]),
      .ok (Backup.dec b.size), .ok (/- ,"count": -/ [44, 34, 99, 111, 117, 110, 116, 34, 58]), numb (counterCount c), .ok (/- } -/ [125])]
  | .popm p =>
    cat [.ok (head id b.size), .ok (/- ,"email":" -/ [44, 34, 101, 109, 97, 105, 108, 34, 58, 34]),
      Env.quoted (E.latin (match v with | .v2 => .UTF_8 | _ => .ISO_8859_1) p.email),
      .ok (/- ","rating": -/ [34, 44, 34, 114, 97, 116, 105, 110, 103, 34, 58]), .ok (Backup.dec p.rating.toNat), .ok (/- ,"count": -/ [44, 34, 99, 111, 117, 110, 116, 34, 58]), numb p.count, .ok (/- } -/ [125])]
  | .encr e =>
    match v with
    | .v2 => .throw .outOfRange
    | _ => cat [.ok (head id b.size), .ok (/- ,"email":" -/ [44, 34, 101, 109, 97, 105, 108, 34, 58, 34]), Env.quoted (E.latin .ISO_8859_1 e.email), .ok (/- "} -/ [34, 125])]
  | .xtag t =>
    match v with
    | .v4 => .throw .outOfRange
    | _ =>
      .ok (/- {"id":" -/ [123, 34, 105, 100, 34, 58, 34] ++ id ++ /- ",size": -/ [34, 44, 115, 105, 122, 101, 34, 58] ++ Backup.dec b.size ++ /- ,"owner":" -/ [44, 34, 111, 119, 110, 101, 114, 34, 58, 34] ++ escape t.own ++
        /- ","cloud":"[ -/ [34, 44, 34, 99, 108, 111, 117, 100, 34, 58, 34, 91] ++ joined (t.tags.map cloudTag) ++ /- ]} -/ [93, 125])
  | .priv p =>
    match v with
    | .v3 => cat [.ok (head id b.size), .ok (/- ,"email":" -/ [44, 34, 101, 109, 97, 105, 108, 34, 58, 34]), Env.quoted (E.latin .ISO_8859_1 p.email), .ok (/- "} -/ [34, 125])]
    | _ => .throw .outOfRange

/-- `return stm.str()` after a frame has been put into an `ostrstream`: a `std::string` made of a pointer, that is, up to the first
null character. Only for ID3v2.3 has one been put behind the frame: scribbu/json-pprinter.cc L88-93, L114-119, L141-146. -/
def cstr (v : Ver) (b : Bytes) : Res Bytes :=
  match v with
  | .v3 => .ok (b.takeWhile (· ≠ 0))
  | _ => if 0 ∈ b then .ok (b.takeWhile (· ≠ 0)) else .ub .oobRead

/-- The vector of frames: scribbu/json-pprinter.cc L87-93, L113-119, L140-146. -/
def frames (E : Env) (v : Ver) : List (Bytes × Body) → Res (List Bytes)
  | [] => .ok []
  | f :: fs => (frame E v f.1 f.2).bind fun b => (cstr v b).bind fun s => (frames E v fs).bind fun ss => .ok (s :: ss)

/-! ## Tags, track data -/

/-- `os << n` where computing `n` may fail. -/
def putNum (r : Res Nat) : Pr := fun s =>
  match r with
  | .ok n => Pr.num n s
  | .throw e => (s, .throw e)
  | .ub u => (s, .ub u)

/-- `(cond ? "true" : "false")`. -/
def bool (b : Bool) : Bytes := if b then /- true -/ [116, 114, 117, 101] else /- false -/ [102, 97, 108, 115, 101]

/-- A frame's identifier as text, and its body. -/
def parts22 (f : Frame22) : Bytes × Body := ([f.id.a, f.id.b, f.id.c], f.body)

/-- A frame's identifier as text, and its body. -/
def parts4 (f : Frame4) : Bytes × Body := ([f.id.a, f.id.b, f.id.c, f.id.d], f.body)

/-- `pprint_v2_2_tag`: scribbu/json-pprinter.cc L75-99. `unsynchronised()` is an optional truth value, of which is printed whether it
is there (scribbu/id3v2.hh L686); the flags are a character. -/
def tag22 (E : Env) (t : Tag22) : Pr :=
  Pr.all [Pr.put (/- {"version":"2.2","unsynchronised": -/ [123, 34, 118, 101, 114, 115, 105, 111, 110, 34, 58, 34, 50, 46, 50, 34, 44, 34, 117, 110, 115, 121, 110, 99, 104, 114, 111, 110, 105, 115, 101, 100, 34, 58]), Pr.put (bool t.unsync.isSome),
    Pr.put (/- ,"flags": -/ [44, 34, 102, 108, 97, 103, 115, 34, 58]), Pr.base false, Pr.value (t.flags.bind fun f => .ok [f]),
    Pr.put (/- ,"size": -/ [44, 34, 115, 105, 122, 101, 34, 58]), putNum ((t.size false).bind fun r => .ok r.1),
    Pr.put (/- ,"padding": -/ [44, 34, 112, 97, 100, 100, 105, 110, 103, 34, 58]), putNum (Tag22.use t.padding),
    Pr.put (/- ",frames:[" -/ [34, 44, 102, 114, 97, 109, 101, 115, 58, 91, 34]), Pr.value ((frames E .v2 (t.frames.map parts22)).bind fun l => .ok (joined l)),
    Pr.put (/- ]} -/ [93, 125])]

/-- `pprint_v2_3_tag`: scribbu/json-pprinter.cc L101-125. -/
def tag23 (E : Env) (t : Tag23) : Pr :=
  Pr.all [Pr.put (/- {"version":"2.3","unsynchronised": -/ [123, 34, 118, 101, 114, 115, 105, 111, 110, 34, 58, 34, 50, 46, 51, 34, 44, 34, 117, 110, 115, 121, 110, 99, 104, 114, 111, 110, 105, 115, 101, 100, 34, 58]), Pr.put (bool t.unsync.isSome),
    Pr.put (/- ,"flags": -/ [44, 34, 102, 108, 97, 103, 115, 34, 58]), Pr.base false, Pr.num t.flags.toNat,
    Pr.put (/- ,"size": -/ [44, 34, 115, 105, 122, 101, 34, 58]), putNum ((t.size E.z false).bind fun r => .ok r.1),
    Pr.put (/- ,"padding": -/ [44, 34, 112, 97, 100, 100, 105, 110, 103, 34, 58]), Pr.num t.padding,
    Pr.put (/- ,"frames":[ -/ [44, 34, 102, 114, 97, 109, 101, 115, 34, 58, 91]), Pr.value ((frames E .v3 (t.frames.map parts4)).bind fun l => .ok (joined l)),
    Pr.put (/- ]} -/ [93, 125])]

/-- `pprint_v2_4_tag`: scribbu/json-pprinter.cc L127-152. -/
def tag24 (E : Env) (t : Tag24) : Pr :=
  Pr.all [Pr.put (/- {"version":"2.4","unsynchronised": -/ [123, 34, 118, 101, 114, 115, 105, 111, 110, 34, 58, 34, 50, 46, 52, 34, 44, 34, 117, 110, 115, 121, 110, 99, 104, 114, 111, 110, 105, 115, 101, 100, 34, 58]), Pr.put (bool t.unsync.isSome),
    Pr.put (/- ,"flags": -/ [44, 34, 102, 108, 97, 103, 115, 34, 58]), Pr.base false, Pr.put [t.flags],
    Pr.put (/- ,"size": -/ [44, 34, 115, 105, 122, 101, 34, 58]), putNum ((t.size E.z false).bind fun r => .ok r.1),
    Pr.put (/- ,"experimental": -/ [44, 34, 101, 120, 112, 101, 114, 105, 109, 101, 110, 116, 97, 108, 34, 58]), Pr.put (bool t.experimental),
    Pr.put (/- ,"padding": -/ [44, 34, 112, 97, 100, 100, 105, 110, 103, 34, 58]), Pr.num t.padding,
    Pr.put (/- ",frames:[" -/ [34, 44, 102, 114, 97, 109, 101, 115, 58, 91, 34]), Pr.value ((frames E .v4 (t.frames.map parts4)).bind fun l => .ok (joined l)),
    Pr.put (/- ]} -/ [93, 125])]

/-- `cout << *(id3v2[i])`: the printer is chosen by the class of the tag, scribbu/pprinter.cc L263-265, L1072-1076. -/
def tag (E : Env) : AnyTag → Pr
  | .inl t => tag22 E t
  | .inr (.inl t) => tag23 E t
  | .inr (.inr t) => tag24 E t

/-- `pprint_track_data`: scribbu/json-pprinter.cc L154-170. -/
def track (md5 : Bytes) : Pr :=
  Pr.all [Pr.put (/- {"md5":" -/ [123, 34, 109, 100, 53, 34, 58, 34]), Pr.base true, Pr.put (md5.flatMap hex2), Pr.put (/- "} -/ [34, 125])]

/-- A field of an ID3v1 tag as text: scribbu/id3v1.cc L161-290. -/
def Env.field (E : Env) (b : Bytes) : Res Bytes := if b = [] then .ok [] else E.conv E.v1 b

/-- `pprint_v1_tag`: scribbu/json-pprinter.cc L172-214. The album goes without `escape`. -/
def tag1 (E : Env) (t : V1Tag) : Pr :=
  Pr.all [Pr.put (/- {"version":" -/ [123, 34, 118, 101, 114, 115, 105, 111, 110, 34, 58, 34]),
    Pr.put (/- 1 -/ [49] ++ (if t.v11 then /- .1 -/ [46, 49] else []) ++ (if t.extended then /- -enh -/ [45, 101, 110, 104] else [])),
    Pr.put (/- ","album":" -/ [34, 44, 34, 97, 108, 98, 117, 109, 34, 58, 34]), Pr.value (E.field t.album),
    Pr.put (/- ","artist":" -/ [34, 44, 34, 97, 114, 116, 105, 115, 116, 34, 58, 34]), Pr.value (Env.quoted (E.field t.artist)),
    Pr.put (/- ","comment":" -/ [34, 44, 34, 99, 111, 109, 109, 101, 110, 116, 34, 58, 34]), Pr.value (Env.quoted (E.field t.comment)),
    Pr.put (/- ","genre": -/ [34, 44, 34, 103, 101, 110, 114, 101, 34, 58]), Pr.base false, Pr.num t.genre.toNat,
    Pr.put (/- ,"title":" -/ [44, 34, 116, 105, 116, 108, 101, 34, 58, 34]), Pr.value (Env.quoted (E.field t.title)),
    Pr.put (/- ","year":" -/ [34, 44, 34, 121, 101, 97, 114, 34, 58, 34]), Pr.value (Env.quoted (E.field t.year)),
    Pr.put [34],
    if t.v11 then Pr.all [Pr.put (/- ,"track": -/ [44, 34, 116, 114, 97, 99, 107, 34, 58]), Pr.base false,
      putNum ((Tag22.use t.track).bind fun b => .ok b.toNat)] else Pr.nop,
    if t.extended then Pr.all [Pr.put (/- ,"enhanced-genre":" -/ [44, 34, 101, 110, 104, 97, 110, 99, 101, 100, 45, 103, 101, 110, 114, 101, 34, 58, 34]), Pr.value (Env.quoted (E.field t.extGenre)),
      Pr.put [34]] else Pr.nop,
    Pr.put [125]]

end Json

/-! ## The sub-command -/

namespace Dump
open Report

/-- What is read from a file: src/dump.cc L237-240. -/
structure Facts where
  v2 : List AnyTag
  md5 : Bytes
  v1 : Option V1Tag

/-- `read_all_id3v2`, `track_data`, `process_id3v1`, from a stream of `n` bytes: src/dump.cc L238-240. More tags or frames than bytes:
`noProgress`. -/
def readStream (z : Zlib) (md5 : Bytes → Bytes) (n : Nat) : SM Facts := do
  let o ← readAllId3v2 (fun h => do let t ← Tag22.read h; pure (.inl t)) (fun h => do let t ← Tag23.read z h; pure (.inr (.inl t)))
    (fun h => do let t ← Tag24.read z h; pure (.inr (.inr t))) (n + 1)
  match o with
  | none => SM.lift (.ub .noProgress)
  | some v2 => do
    let td ← trackData (n + 1)
    match td with
    | none => SM.lift (.ub .noProgress)
    | some td => do
      let v1 ← processId3v1
      pure ⟨v2, md5 td.digested, v1⟩

/-- Opening a file and reading it: src/dump.cc L233-240. The time of last modification is not asked for here: with JSON it is not
printed. -/
def readFile (z : Zlib) (md5 : Bytes → Bytes) (file : Option Bytes) : Res Facts :=
  match file with
  | none => .throw .fsError
  | some d => (readStream z md5 d.length ⟨d, 0, IoBits.all, IoBits.none⟩).1

/-- The options that matter with JSON: `--id3v1-tags`, `--track-data`, `--id3v2-tags`, and which file names `--expression` matches, if
it is given: src/dump.cc L360-381. -/
structure Opts where
  v1 : Bool := false
  track : Bool := false
  v2 : Bool := false
  filter : Option (Path → Bool) := none

/-- What is to be dumped: everything, if nothing is asked for: src/dump.cc L186-188. -/
def Opts.all (o : Opts) : Bool := !o.v2 && !o.track && !o.v1

/-- What is printed about a file that has been read: src/dump.cc L248-262. -/
def put (E : Json.Env) (o : Opts) (f : Facts) : Pr :=
  Pr.all [if o.v2 || o.all then Pr.all (f.v2.map (Json.tag E)) else Pr.nop,
    if o.track || o.all then Json.track f.md5 else Pr.nop,
    match f.v1 with
    | some t => if o.v1 || o.all then Json.tag1 E t else Pr.nop
    | none => Pr.nop,
    Pr.put [10]]

/-- What is there at a path that is not a directory: the contents, or that there are none to be had (no such file, or it cannot be
opened); and whether it is a regular file. -/
structure File where
  regular : Bool
  data : Option Bytes

/-- The files, and the arguments on the command line. -/
structure World where
  file : Path → File
  item : Path → Item

/-- `operator()(pth, explict)` after the test for a regular file: src/dump.cc L227-267. Exceptions are noted on stderr and forgotten; what
has been printed until then has been printed. -/
def one (E : Json.Env) (w : World) (o : Opts) (p : Path) (s : OS) : Res OS :=
  if (match o.filter with | some f => !f p | none => false) then .ok s
  else
    match readFile E.z E.md5 (w.file p).data with
    | .throw _ => .ok s
    | .ub u => .ub u
    | .ok f =>
      match put E o f s with
      | (s', .ok _) => .ok s'
      | (s', .throw _) => .ok s'
      | (_, .ub u) => .ub u

/-- `for_each` over a directory: src/dump.cc L470-472 with L220-225. -/
def walk (E : Json.Env) (w : World) (o : Opts) : List Entry → OS → Res OS
  | [], s => .ok s
  | e :: es, s => if e.regular then (one E w o e.path s).bind (walk E w o es) else walk E w o es s

/-- The loop over the arguments: src/dump.cc L468-477. The exception that ends it, if one does, is caught in the handler. -/
def args (E : Json.Env) (w : World) (o : Opts) : List Path → OS → Res (OS × Option Exc)
  | [], s => .ok (s, none)
  | p :: ps, s =>
    match w.item p with
    | .absent => .ok (s, some .fsError)
    | .file => if (w.file p).regular then (one E w o p s).bind fun s => args E w o ps s else .ok (s, some .fsError)
    | .dir es broken => (walk E w o es s).bind fun s => if broken then .ok (s, some .fsError) else args E w o ps s

/-- A run of `scribbu dump --format json`: the exit status and what is on the standard output. src/dump.cc L429-493. -/
def run (E : Json.Env) (w : World) (o : Opts) (ps : List Path) : Res (Nat × Bytes) :=
  (args E w o ps ⟨[], false⟩).bind fun r => .ok (if r.2.isNone then 0 else 1, r.1.out)

end Dump
end Scribbu
