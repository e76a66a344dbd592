import Verif.Model.Json
import Verif.Model.Genres
import Verif.Model.Languages

/-! # The standard pretty-printer, and the sub-command `dump` in its formats for people and for spreadsheets

`standard_pprinter` in scribbu/pprinter.cc, src/dump.cc; the printer for comma-separated values is in `Verif.Model.Report`.

The file system is a parameter, and so are MD5, iconv, zlib and the texts of points in time. Not modelled: help, notices on stderr,
other encodings of the output stream than the default. -/

namespace Scribbu
namespace Std
open Report

/-- What printing depends on: what JSON does, and `indent_` and `expand_genre_` of the printer; whether `unordered_multimap::find` gives
the newest of several elements with one key, or the oldest (the standard leaves that open). -/
structure Env where
  base : Json.Env
  newest : Bool
  indent : Nat := 0
  expand : Bool := true

/-- `sin_`: scribbu/pprinter.hh L449. -/
def Env.sin (E : Env) : Bytes := List.replicate E.indent 32

/-- `email<string>()` and `owner<string>()` without arguments: from ASCII to UTF-8. scribbu/framesv22.hh L267-278, L693-704;
framesv23.hh L557-568, L613-624, L1154-1165, L1316-1326; framesv24.hh L281-292, L344-355, L905-916, L1070-1081. -/
def Env.ascii (E : Env) (b : Bytes) : Res Bytes := if b = [] then .ok [] else E.base.conv .ASCII b

/-- `description<string>()` and `text<string>()` without arguments, of user-defined text: `v2enc_` has no say. scribbu/framesv22.hh
L527-553, framesv23.hh L926-952, framesv24.hh L654-680. -/
def Env.user (E : Env) (v : Ver) (u : Byte) (b : Bytes) : Res Bytes := { E.base with v2 := none }.asStr v (some u) b

/-- The first word of a text, as `operator>>` reads it; in the "C" locale. -/
def word (b : Bytes) : Bytes :=
  let space (c : Byte) : Bool := c = 32 ∨ (9 ≤ c ∧ c ≤ 13)
  (b.dropWhile space).takeWhile (fun c => !space c)

/-- `setw(2)`, the fill character being `0`, in base sixteen, of `(unsigned)c` for a `char`, which is signed: scribbu/pprinter.cc
L99-102. -/
def charHex (c : Byte) : Bytes := if c < 0x80 then hex2 c else hexa (0xffffff00 + c.toNat)

/-- `comment_lang`: scribbu/pprinter.cc L78-107. The code is taken for a C string; what is not in the table of languages is shown in base
sixteen. -/
def lang (l : Byte × Byte × Byte) : Res Bytes :=
  match Language.inTable.lookup (word ([l.1, l.2.1, l.2.2].takeWhile (· ≠ 0))) with
  | some x =>
    match Language.outTable.lookup x with
    | some s => .ok s
    | none => .throw .outOfRange
  | none => .ok (/- 0x -/ [48, 120] ++ charHex l.1 ++ /- ,0x -/ [44, 48, 120] ++ charHex l.2.1 ++ /- ,0x -/ [44, 48, 120] ++ charHex l.2.2)

/-- `asciify`: scribbu/pprinter.cc L48-56. -/
def asciify (x : Byte) : Byte := if 31 < x ∧ x < 127 then x else 46

/-- `pprint_binary`: scribbu/pprinter.cc L59-76. The first byte is taken without asking whether there is one. The fill character has been
`0` since the beginning of the tag. -/
def binary (E : Env) (b : Bytes) : Pr :=
  match b with
  | [] => fun s => (s, .ub .oobRead)
  | x :: xs => Pr.all [Pr.put E.sin, Pr.base true, Pr.put (hex2 x ++ xs.flatMap (fun y => 32 :: hex2 y)), Pr.put (/-   > -/ [32, 32, 62] ++ (x :: xs).map asciify ++ /- < -/ [60])]

/-- The values of a tag in the cloud. -/
def values : List Bytes → Bytes
  | [] => []
  | [x] => x
  | x :: y :: l => x ++ /- ,  -/ [44, 32] ++ values (y :: l)

/-- A text, or something else instead of none. -/
def orElse (b dflt : Bytes) : Bytes := if b = [] then dflt else b

/-- `os << frame`: the classes that are printed are those in the table that `operator<<` looks into, which has none for XTAG and PRIV of
ID3v2.4 (scribbu/pprinter.cc L266-293). L546-1010 of scribbu/pprinter.cc. -/
def frame (E : Env) (v : Ver) (id : Bytes) (b : Body) : Pr :=
  match b with
  | .unknown d =>
    match v with
    | .v2 => Pr.all [Pr.put E.sin, Pr.put id, Pr.put /- : UNKNOWN -/ [58, 32, 85, 78, 75, 78, 79, 87, 78], Pr.put [10]]
    | _ => Pr.all [Pr.put /- frame  -/ [102, 114, 97, 109, 101, 32], Pr.put id, Pr.put /-  ( -/ [32, 40], Pr.base false, Pr.num d.length, Pr.put /-  bytes) -/ [32, 98, 121, 116, 101, 115, 41], Pr.put [10]]
  | .text u t => Pr.all [Pr.put E.sin, Pr.put id, Pr.put /- :  -/ [58, 32], Pr.value (E.base.asStr v (some u) t), Pr.put [10]]
  | .ufid x =>
    Pr.all [Pr.put E.sin, Pr.put id, Pr.put /- :  -/ [58, 32], Pr.value (E.ascii x.owner), Pr.put [10],
      Pr.put E.sin, Pr.put (match v with | .v2 => /-       -/ [32, 32, 32, 32, 32] | _ => /-        -/ [32, 32, 32, 32, 32, 32]), Pr.base true, Pr.put (x.ident.flatMap hex2), Pr.put [10]]
  | .txxx x =>
    Pr.all [Pr.put E.sin, Pr.put id, Pr.put /- :  -/ [58, 32], Pr.value (E.user v x.unicode x.desc), Pr.put [10],
      Pr.put E.sin, Pr.value (E.user v x.unicode x.text), Pr.put [10]]
  | .comm x =>
    Pr.value ((Tag22.use x.lang).bind fun l => (lang l).bind fun l => (E.base.asStr v x.unicode x.desc).bind fun d =>
      (E.base.asStr v x.unicode x.text).bind fun t =>
      .ok (id ++ /-  ( -/ [32, 40] ++ l ++ /- ,  -/ [44, 32] ++ orElse d /- <no description> -/ [60, 110, 111, 32, 100, 101, 115, 99, 114, 105, 112, 116, 105, 111, 110, 62] ++ /- ): -/ [41, 58] ++ [10] ++ orElse t /- <no text> -/ [60, 110, 111, 32, 116, 101, 120, 116, 62] ++ [10]))
  | .pcnt c => Pr.all [Pr.put E.sin, Pr.put id, Pr.put /- :  -/ [58, 32], Pr.base false, Json.putNum (counterCount c), Pr.put [10]]
  | .popm p =>
    Pr.all [Pr.put E.sin, Pr.put id, Pr.put /- :  -/ [58, 32], Pr.value (E.ascii p.email), Pr.put [10],
      Pr.put E.sin, Pr.put /- rating:  -/ [114, 97, 116, 105, 110, 103, 58, 32], Pr.base false, Pr.num p.rating.toNat, Pr.put [10],
      Pr.put E.sin, Pr.put /- counter:  -/ [99, 111, 117, 110, 116, 101, 114, 58, 32], Pr.base true, Pr.put (p.counter.flatMap hex2), Pr.put [10]]
  | .encr e =>
    match v with
    | .v2 => fun s => (s, .throw .outOfRange)
    | _ =>
      Pr.all [Pr.put E.sin, Pr.put id, Pr.put /- :  -/ [58, 32], Pr.value (E.ascii e.email), Pr.put [10],
        Pr.put E.sin, Pr.put /- Method symbol:  -/ [77, 101, 116, 104, 111, 100, 32, 115, 121, 109, 98, 111, 108, 58, 32], Pr.base false, Pr.value ((Tag22.use e.method).bind fun m => .ok [m]), Pr.put [10],
        Pr.put E.sin, Pr.put /- Encryption data:  -/ [69, 110, 99, 114, 121, 112, 116, 105, 111, 110, 32, 100, 97, 116, 97, 58, 32], Pr.base true, Pr.put (e.data.flatMap fun x => [48, x]), Pr.put [10]]
  | .xtag t =>
    match v with
    | .v4 => fun s => (s, .throw .outOfRange)
    | _ =>
      Pr.all [Pr.put E.sin, Pr.put id, Pr.put /- :  -/ [58, 32], Pr.put t.own, Pr.put [10], Pr.put E.sin, Pr.put /- tags: -/ [116, 97, 103, 115, 58], Pr.put [10],
        Pr.all (t.tags.map fun x => Pr.all [Pr.put E.sin, Pr.put x.1, Pr.put /- :  -/ [58, 32], Pr.put (values x.2), Pr.put [10]])]
  | .priv p =>
    match v with
    | .v3 =>
      fun s =>
        match E.ascii p.email with
        | .throw e => (s, .throw e)
        | .ub u => (s, .ub u)
        | .ok owner =>
          Pr.all [Pr.put E.sin, Pr.put id, Pr.put /-  ( -/ [32, 40], Pr.put owner, Pr.put /- ):  -/ [41, 58, 32], Pr.base false, Pr.num p.contents.length,
            Pr.put /-  bytes beginning with: -/ [32, 98, 121, 116, 101, 115, 32, 98, 101, 103, 105, 110, 110, 105, 110, 103, 32, 119, 105, 116, 104, 58], Pr.put [10], binary E (p.contents.take 16), Pr.put [10]] s
    | _ => fun s => (s, .throw .outOfRange)

/-! ## Tags, track data -/

/-- A tag as far as it is printed: version, revision, `size()`, `flags()`, whether it is unsynchronised, `padding()`, and its frames. -/
structure Tag where
  ver : Ver
  rev : Byte
  size : Res Nat
  flags : Res Byte
  unsync : Option Bool
  padding : Res Nat
  frames : List (Bytes × Body)
  deriving DecidableEq

/-- The text frame that `text_map_.find(id)` gives: scribbu/id3v22.cc L1016-1028, id3v23.cc L1592-1604, id3v24.cc L1639-1651. -/
def find (E : Env) (fs : List (Bytes × Body)) (id : Bytes) : Option (Byte × Bytes) :=
  (if E.newest then fs.reverse else fs).findSome? fun f =>
    if f.1 = id then (match f.2 with | .text u t => some (u, t) | _ => none) else none

/-- `frame_map_.count(id)` as a truth value. -/
def has (fs : List (Bytes × Body)) (id : Bytes) : Bool := fs.any (·.1 = id)

/-- `text_frame_as_str(id, dst, rsp, v2enc_)`. -/
def Tag.text (E : Env) (t : Tag) (id : Bytes) : Res Bytes :=
  match find E t.frames id with
  | none => .throw .unknownFrame
  | some (u, b) => E.base.asStr t.ver (some u) b

/-- `tag.has_artist() ? tag.artist(dst, rsp, v2enc_) : "<no artist>"`: scribbu/pprinter.cc L1029-1036. -/
def Tag.textOr (E : Env) (t : Tag) (id dflt : Bytes) : Res Bytes := if has t.frames id then t.text E id else .ok dflt

/-- The identifiers of artist, title, album, year, track, content type and "encoded by": scribbu/id3v22.hh L142-209, id3v23.hh L250-312,
id3v24.hh L283-345. -/
structure Ids where
  artist : Bytes
  title : Bytes
  album : Bytes
  year : Bytes
  track : Bytes
  content : Bytes
  encoder : Bytes

/-- The identifiers by version: ID3v2.4 has those of ID3v2.3. -/
def ids : Ver → Ids
  | .v2 => ⟨/- TP1 -/ [84, 80, 49], /- TT2 -/ [84, 84, 50], /- TAL -/ [84, 65, 76], /- TYE -/ [84, 89, 69], /- TRK -/ [84, 82, 75], /- TCO -/ [84, 67, 79], /- TEN -/ [84, 69, 78]⟩
  | _ => ⟨/- TPE1 -/ [84, 80, 69, 49], /- TIT2 -/ [84, 73, 84, 50], /- TALB -/ [84, 65, 76, 66], /- TYER -/ [84, 89, 69, 82], /- TRCK -/ [84, 82, 67, 75], /- TCON -/ [84, 67, 79, 78], /- TENC -/ [84, 69, 78, 67]⟩

/-- `print_id3v2_tag`: scribbu/pprinter.cc L1012-1066. -/
def headTag (E : Env) (t : Tag) : Pr := fun s =>
  let i := ids t.ver
  match (t.textOr E i.artist /- <no artist> -/ [60, 110, 111, 32, 97, 114, 116, 105, 115, 116, 62]).bind fun ar => (t.textOr E i.title /- <no title> -/ [60, 110, 111, 32, 116, 105, 116, 108, 101, 62]).bind fun ti =>
    (t.textOr E i.album /- <no album> -/ [60, 110, 111, 32, 97, 108, 98, 117, 109, 62]).bind fun al => (t.textOr E i.year /- <no year> -/ [60, 110, 111, 32, 121, 101, 97, 114, 62]).bind fun y => .ok (ar, ti, al, y) with
  | .throw e => (s, .throw e)
  | .ub u => (s, .ub u)
  | .ok (ar, ti, al, y) =>
    Pr.all [Pr.put E.sin, Pr.put /- ID3v2. -/ [73, 68, 51, 118, 50, 46], Pr.base false, Pr.num (verNum t.ver), Pr.put /- (. -/ [40, 46], Pr.num t.rev.toNat, Pr.put /- ) Tag: -/ [41, 32, 84, 97, 103, 58], Pr.put [10],
      Pr.put E.sin, Json.putNum t.size, Pr.put /-  bytes,  -/ [32, 98, 121, 116, 101, 115, 44, 32], Pr.put (if t.unsync = some true then /- unsynchronised -/ [117, 110, 115, 121, 110, 99, 104, 114, 111, 110, 105, 115, 101, 100] else /- synchronised -/ [115, 121, 110, 99, 104, 114, 111, 110, 105, 115, 101, 100]), Pr.put [10],
      Pr.put E.sin, Pr.put /- flags: 0x -/ [102, 108, 97, 103, 115, 58, 32, 48, 120], Pr.base true, Pr.value (t.flags.bind fun f => .ok (hex2 f)), Pr.put [10],
      Pr.put E.sin, Pr.put ar, Pr.put /-  -  -/ [32, 45, 32], Pr.put ti, Pr.put [10], Pr.put E.sin, Pr.put al,
      if has t.frames i.track then Pr.all [Pr.put /-  (track  -/ [32, 40, 116, 114, 97, 99, 107, 32], Pr.value (t.text E i.track), Pr.put /- ) -/ [41]] else Pr.nop,
      Pr.put /- ,  -/ [44, 32], Pr.put y, Pr.put [10],
      if has t.frames i.content then Pr.all [Pr.put E.sin, Pr.put /- Content-type  -/ [67, 111, 110, 116, 101, 110, 116, 45, 116, 121, 112, 101, 32], Pr.value (t.text E i.content), Pr.put [10]] else Pr.nop,
      if has t.frames i.encoder then Pr.all [Pr.put E.sin, Pr.put /- Encoded by  -/ [69, 110, 99, 111, 100, 101, 100, 32, 98, 121, 32], Pr.value (t.text E i.encoder), Pr.put [10]] else Pr.nop] s

/-- `pprint_v2_2_tag`, `pprint_v2_3_tag`, `pprint_v2_4_tag`: scribbu/pprinter.cc L425-464. -/
def tag (E : Env) (t : Tag) : Pr :=
  Pr.all [headTag E t, Pr.all (t.frames.map fun f => frame E t.ver f.1 f.2),
    Pr.put E.sin, Pr.base false, Json.putNum t.padding, Pr.put /-  bytes of padding -/ [32, 98, 121, 116, 101, 115, 32, 111, 102, 32, 112, 97, 100, 100, 105, 110, 103], Pr.put [10]]

/-- A tag that has been read, with the revision its header gave. -/
def ofAny (z : Zlib) (rev : Byte) : AnyTag → Tag
  | .inl t => ⟨.v2, rev, (t.size false).bind fun r => .ok r.1, t.flags, t.unsync, Tag22.use t.padding, t.frames.map Json.parts22⟩
  | .inr (.inl t) => ⟨.v3, rev, (t.size z false).bind fun r => .ok r.1, .ok t.flags, t.unsync, .ok t.padding, t.frames.map Json.parts4⟩
  | .inr (.inr t) => ⟨.v4, rev, (t.size z false).bind fun r => .ok r.1, .ok t.flags, t.unsync, .ok t.padding, t.frames.map Json.parts4⟩

/-- `pprint_track_data`: scribbu/pprinter.cc L466-485. -/
def track (E : Env) (size : Nat) (md5 : Bytes) : Pr :=
  Pr.all [Pr.put E.sin, Pr.base false, Pr.num size, Pr.put /-  bytes of track data: -/ [32, 98, 121, 116, 101, 115, 32, 111, 102, 32, 116, 114, 97, 99, 107, 32, 100, 97, 116, 97, 58], Pr.put [10],
    Pr.put E.sin, Pr.put /- MD5:  -/ [77, 68, 53, 58, 32], Pr.base true, Pr.put (md5.flatMap hex2), Pr.put [10]]

/-- A number in base ten. -/
def decimal (n : Nat) : Pr := Pr.all [Pr.base false, Pr.num n]

/-- A genre; `unnamed` is done for one without name: scribbu/pprinter.cc L522-533 and L542-551. -/
def genre (E : Env) (g : Byte) (unnamed : Pr) : Pr :=
  if E.expand then
    match Genres.textForGenre g with
    | some x => Pr.put x
    | none => unnamed
  else Pr.all [Pr.put /- genre  -/ [103, 101, 110, 114, 101, 32], decimal g.toNat]

/-- `pprint_v1_tag`: scribbu/pprinter.cc L487-555. -/
def tag1 (E : Env) (t : V1Tag) : Pr :=
  Pr.all [Pr.put E.sin, Pr.put /- ID3v1 -/ [73, 68, 51, 118, 49], if t.v11 then Pr.put /- .1 -/ [46, 49] else Pr.nop, if t.extended then Pr.put /-  (enhanced) -/ [32, 40, 101, 110, 104, 97, 110, 99, 101, 100, 41] else Pr.nop,
    Pr.put /- :  -/ [58, 32], Pr.value (E.base.field t.artist), Pr.put /-  -  -/ [32, 45, 32], Pr.value (E.base.field t.title), Pr.put [10],
    Pr.put E.sin, Pr.value (E.base.field t.album),
    if t.v11 then Pr.all [Pr.put /-  (track  -/ [32, 40, 116, 114, 97, 99, 107, 32], Pr.base false, Json.putNum ((Tag22.use t.track).bind fun b => .ok b.toNat), Pr.put /- ) -/ [41]] else Pr.nop,
    Pr.put /- ,  -/ [44, 32], Pr.value (E.base.field t.year), Pr.put [10],
    Pr.put E.sin, Pr.value (E.base.field t.comment), Pr.put [10], Pr.put E.sin,
    if t.extended then
      Pr.all [Pr.value (E.base.field t.extGenre), Pr.put /- / -/ [47],
        genre E t.genre (Pr.put /- unrecognized genre -/ [117, 110, 114, 101, 99, 111, 103, 110, 105, 122, 101, 100, 32, 103, 101, 110, 114, 101]),
        Pr.put [10], Pr.put E.sin,
        Pr.value ((Tag22.use t.startTime).bind E.base.field), Pr.put /- - -/ [45], Pr.value ((Tag22.use t.endTime).bind E.base.field), Pr.put /- : speed  -/ [58, 32, 115, 112, 101, 101, 100, 32],
        Pr.base false, Json.putNum ((Tag22.use t.speed).bind fun b => .ok b.toNat), Pr.put [10]]
    else genre E t.genre (Pr.all [Pr.put /- unknown genre  -/ [117, 110, 107, 110, 111, 119, 110, 32, 103, 101, 110, 114, 101, 32], decimal t.genre.toNat]),
    Pr.put [10]]

/-! ## Comma-separated values -/

/-- The look-up tables of a tag, and for which identifiers there is a text frame parser: scribbu/id3v22.cc L109-143, id3v23.cc L115-152,
id3v24.cc L113-150. -/
def cfg (E : Env) (v : Ver) : Cfg :=
  ⟨v, E.newest, fun id =>
    match v with
    | .v2 => textIds22.any fun x => [x.a, x.b, x.c] = id
    | _ => textIds4.any fun x => [x.a, x.b, x.c, x.d] = id⟩

/-- The contents of a frame as far as they are printed: text with the byte that says which encoding it is in; counters. -/
def data : Body → Bytes
  | .text u t => u :: t
  | .comm c =>
    match c.unicode with
    | some u => u :: c.text
    | none => []
  | .pcnt c => c
  | _ => []

/-- The texts, given such contents. -/
def texts (E : Env) : Texts where
  frame v b := match b with | [] => .ok [] | u :: t => E.base.asStr v (some u) t
  comment v b := match b with | [] => .ok [] | u :: t => E.base.asStr v (some u) t

/-- A tag whose frames have been entered by `parse_frame`, which gives them classes by their identifiers. -/
def lookups (E : Env) (t : Tag) : LTag := t.frames.foldl (fun l f => l.parseFrame (cfg E t.ver) f.1 (data f.2)) LTag.empty

/-- `os << tag` for comma-separated values: scribbu/csv-pprinter.cc L93-247. -/
def csvTag (E : Env) (ncomm : Nat) (t : Tag) : Pr := fun s =>
  match t.size, t.flags with
  | .ok n, .ok f => putTag2 (texts E) csvFmt ncomm ⟨cfg E t.ver, t.rev, n, f, t.unsync, lookups E t⟩ s
  | .ok _, .throw e => (s, .throw e)
  | .ok _, .ub u => (s, .ub u)
  | .throw e, _ => (s, .throw e)
  | .ub u, _ => (s, .ub u)

/-- `os << tag` for an ID3v1 tag. -/
def csvTag1 (E : Env) (t : V1Tag) : Pr :=
  putTag1 csvFmt ⟨t.v11, t.extended, E.base.field t.artist, E.base.field t.title, E.base.field t.album, E.base.field t.year,
    E.base.field t.comment, t.genre⟩

/-! ## The sub-command -/

/-- `--format`, with `--num-comments` for comma-separated values: src/dump.cc L447-466. -/
inductive Form
  | standard
  | csv (ncomm : Nat)
  deriving DecidableEq, Repr

/-- What is read from a file: src/dump.cc L237-240. -/
structure Facts where
  v2 : List Tag
  size : Nat
  md5 : Bytes
  v1 : Option V1Tag
  deriving DecidableEq

/-- `read_all_id3v2`, `track_data`, `process_id3v1`, from a stream of `n` bytes: src/dump.cc L238-240. `size_t` has 64 bits. -/
def readStream (z : Zlib) (md5 : Bytes → Bytes) (n : Nat) : SM Facts := do
  let o ← readAllId3v2 (fun h => do let t ← Tag22.read h; pure (ofAny z h.revision (.inl t)))
    (fun h => do let t ← Tag23.read z h; pure (ofAny z h.revision (.inr (.inl t))))
    (fun h => do let t ← Tag24.read z h; pure (ofAny z h.revision (.inr (.inr t)))) (n + 1)
  match o with
  | none => SM.lift (.ub .noProgress)
  | some v2 => do
    let td ← trackData (n + 1)
    match td with
    | none => SM.lift (.ub .noProgress)
    | some td => do
      let v1 ← processId3v1
      pure ⟨v2, (td.size % 18446744073709551616).toNat, md5 td.digested, v1⟩

/-- Opening a file and reading it: src/dump.cc L237-240. -/
def readFile (z : Zlib) (md5 : Bytes → Bytes) (file : Option Bytes) : Res Facts :=
  match file with
  | none => .throw .fsError
  | some d => (readStream z md5 d.length ⟨d, 0, IoBits.all, IoBits.none⟩).1

/-- `cout << *(id3v2[i])`: src/dump.cc L250. -/
def putTag (E : Env) : Form → Tag → Pr
  | .standard, t => tag E t
  | .csv n, t => csvTag E n t

/-- `cout << td`: src/dump.cc L255. -/
def putTrack (E : Env) : Form → Nat → Bytes → Pr
  | .standard, n, d => track E n d
  | .csv _, n, d => Report.putTrack csvFmt n d

/-- `cout << *pid3v1`: src/dump.cc L259. -/
def putV1 (E : Env) : Form → V1Tag → Pr
  | .standard, t => tag1 E t
  | .csv _, t => csvTag1 E t

/-- What is printed about a file that has been read; `time` is the text of the time of its last modification: src/dump.cc L242-262. -/
def put (E : Env) (k : Form) (o : Dump.Opts) (p : Path) (time : Bytes) (f : Facts) : Pr :=
  Pr.all [Pr.put (quoted p), Pr.put /- : -/ [58], Pr.put [10], Pr.put /- Last Modified:  -/ [76, 97, 115, 116, 32, 77, 111, 100, 105, 102, 105, 101, 100, 58, 32], Pr.put time, Pr.put [10],
    if o.v2 || o.all then Pr.all (f.v2.map (putTag E k)) else Pr.nop,
    if o.track || o.all then putTrack E k f.size f.md5 else Pr.nop,
    match f.v1 with
    | some t => if o.v1 || o.all then putV1 E k t else Pr.nop
    | none => Pr.nop,
    Pr.put [10]]

/-- The files, the arguments on the command line, and when files were modified, if that can be found out. -/
structure World where
  base : Dump.World
  time : Path → Option Bytes

/-- `operator()(pth, explict)` after the test for a regular file: src/dump.cc L227-267. Opening the file and asking for the time come first. -/
def one (E : Env) (k : Form) (w : World) (o : Dump.Opts) (p : Path) (s : OS) : Res OS :=
  if (match o.filter with | some f => !f p | none => false) then .ok s
  else
    match (w.base.file p).data, w.time p with
    | some d, some t =>
      match readFile E.base.z E.base.md5 (some d) with
      | .throw _ => .ok s
      | .ub u => .ub u
      | .ok f =>
        match put E k o p t f s with
        | (s', .ok _) => .ok s'
        | (s', .throw _) => .ok s'
        | (_, .ub u) => .ub u
    | _, _ => .ok s

/-- `for_each` over a directory: src/dump.cc L470-472 with L220-225. -/
def walk (E : Env) (k : Form) (w : World) (o : Dump.Opts) : List Entry → OS → Res OS
  | [], s => .ok s
  | e :: es, s => if e.regular then (one E k w o e.path s).bind (walk E k w o es) else walk E k w o es s

/-- The loop over the arguments: src/dump.cc L468-477. The exception that ends it, if one does, is caught in the handler. -/
def args (E : Env) (k : Form) (w : World) (o : Dump.Opts) : List Path → OS → Res (OS × Option Exc)
  | [], s => .ok (s, none)
  | p :: ps, s =>
    match w.base.item p with
    | .absent => .ok (s, some .fsError)
    | .file => if (w.base.file p).regular then (one E k w o p s).bind fun s => args E k w o ps s else .ok (s, some .fsError)
    | .dir es broken => (walk E k w o es s).bind fun s => if broken then .ok (s, some .fsError) else args E k w o ps s

/-- A run of `scribbu dump`: the exit status and what is on the standard output. src/dump.cc L429-493. -/
def run (E : Env) (k : Form) (w : World) (o : Dump.Opts) (ps : List Path) : Res (Nat × Bytes) :=
  (args E k w o ps ⟨[], false⟩).bind fun r => .ok (if r.2.isNone then 0 else 1, r.1.out)

end Std
end Scribbu
