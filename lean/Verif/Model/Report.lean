import Verif.Model.Lookup
import Verif.Model.Bodies
import Verif.Model.Backup
import Verif.Model.Url

/-! # Reports: the printers for comma- and tab-separated values, and the sub-command `report`

scribbu/csv-pprinter.cc, scribbu/tdf-pprinter.cc (the same but for the separator and for `escape`), src/report.cc.

Reading a file (`open_file`, `maybe_read_id3v2`, `track_data`, `process_id3v1`) is modelled elsewhere; here what it gives, or how it
fails, is a parameter. So is what iconv makes of the texts. -/

namespace Scribbu
namespace Report

/-! ## Output streams -/

/-- What matters of an output stream while a report is written: what has been put into it, and whether integers are put in base
sixteen (`std::hex`, which stays until `std::dec`). -/
structure OS where
  out : Bytes
  hex : Bool
  deriving DecidableEq, Repr

/-- Code that puts things into a stream: the stream afterwards, and how the code ended. -/
abbrev Pr := OS → OS × Res Unit

namespace Pr

/-- Nothing. -/
def nop : Pr := fun s => (s, .ok ())

/-- Sequencing: once something has thrown, nothing more is put. -/
def seq (a b : Pr) : Pr := fun s =>
  match a s with
  | (s', .ok _) => b s'
  | r => r

/-- `os << text`. -/
def put (b : Bytes) : Pr := fun s => ({ s with out := s.out ++ b }, .ok ())

/-- `os << std::dec`, `os << std::hex`. -/
def base (hex : Bool) : Pr := fun s => ({ s with hex := hex }, .ok ())

/-- `os << f(...)`, where the text to be put is computed first, and that may fail. -/
def value (r : Res Bytes) : Pr := fun s =>
  match r with
  | .ok b => put b s
  | .throw e => (s, .throw e)
  | .ub u => (s, .ub u)

/-- One after the other. -/
def all : List Pr → Pr
  | [] => nop
  | p :: ps => seq p (all ps)

end Pr

/-- An integer in base sixteen. -/
def hexa (n : Nat) : Bytes := if n < 16 then [hexDigit n] else hexa (n / 16) ++ [hexDigit (n % 16)]

/-- `os << n` for an integer, in the base the stream is set to. -/
def Pr.num (n : Nat) : Pr := fun s => Pr.put (if s.hex then hexa n else Backup.dec n) s

/-- `os << setw(2) << setfill('0') << (unsigned)b` in base sixteen. -/
def hex2 (b : Byte) : Bytes := [hexDigit (b.toNat / 16), hexDigit (b.toNat % 16)]

/-! ## `csv_pprinter::escape` -/

/-- The loop of `escape`, which doubles every `esc`: scribbu/csv-pprinter.cc L60-69. -/
def doubled (esc : Byte) : Bytes → Bytes
  | [] => []
  | c :: s => if c = esc then esc :: esc :: doubled esc s else c :: doubled esc s

/-- `escape(s, sep, esc)`: scribbu/csv-pprinter.cc L51-75. -/
def escape (s : Bytes) (sep : Byte) (esc : Byte := 34) : Bytes :=
  if s.any (fun c => c = sep ∨ c = 10) then esc :: (doubled esc s ++ [esc]) else s

/-- Whether the constructor takes the separator (else it throws `bad_separator`): scribbu/csv-pprinter.cc L77-91. -/
def sepOk (c : Byte) : Bool :=
  c = 9 ∨ (0x21 ≤ c ∧ c ≤ 0x2f) ∨ (0x3a ≤ c ∧ c ≤ 0x40) ∨ (0x5b ≤ c ∧ c ≤ 0x60) ∨ (0x7b ≤ c ∧ c ≤ 0x7e)

/-! ## What is printed -/

/-- Text conversions (not modelled): the text of a text frame (`as_str`) and of a comment (`text`), from their contents. Simplified: a
frame's contents here include the byte that says which encoding they are in. -/
structure Texts where
  frame : Ver → Bytes → Res Bytes
  comment : Ver → Bytes → Res Bytes

/-- An ID3v2 tag as far as it is printed: version (with how its look-up tables behave), revision, size, flags, whether it is
unsynchronised, and its frames. -/
structure Tag2 where
  cfg : Cfg
  rev : Byte
  size : Nat
  flags : Byte
  unsync : Option Bool
  tag : LTag

/-- An ID3v1 tag as far as it is printed; the texts are what converting the fields gives. -/
structure Tag1 where
  v11 : Bool
  extended : Bool
  artist : Res Bytes
  title : Res Bytes
  album : Res Bytes
  year : Res Bytes
  comment : Res Bytes
  genre : Byte

/-- The format: separator, and what is done to texts. -/
structure Fmt where
  sep : Byte
  esc : Bytes → Bytes

/-- csv_pprinter with its default separator, `print_as_csv(ncomm, v1enc)`: src/report.cc L162. -/
def csvFmt : Fmt := ⟨44, fun s => escape s 44⟩

/-- tdf_pprinter: scribbu/tdf-pprinter.cc L40-46. -/
def tdfFmt (ascii : Bool) : Fmt := ⟨if ascii then 0x1f else 9, id⟩

/-- The number of the version. -/
def verNum : Ver → Nat
  | .v2 => 2
  | .v3 => 3
  | .v4 => 4

/-- The text frames in the report, in the order of the columns: scribbu/csv-pprinter.cc L109, L161, L213. -/
def textIds : Ver → List Bytes
  | .v2 => [[84, 80, 49], [84, 84, 50], [84, 65, 76], [84, 67, 79], [84, 69, 78], [84, 89, 82], [84, 76, 65]]
  | _ => [[84, 80, 69, 49], [84, 73, 84, 50], [84, 65, 76, 66], [84, 67, 79, 78], [84, 69, 78, 67], [84, 89, 69, 82], [84, 76, 65, 78]]

/-- `optional_to_uint`: scribbu/pprinter.cc L1118-1127. -/
def optUint : Option Bool → Nat
  | some true => 1
  | some false => 0
  | none => 4294967295

/-- `os << tag.get_frame(id)`: text frames print their text, frames nothing is known about their identifier (scribbu/csv-pprinter.cc
L287-304, L412-428, L574-591). Simplified: of the other classes, none has one of the identifiers this is called with. -/
def putFrame (X : Texts) (F : Fmt) (v : Ver) (f : Fr) : Pr :=
  match f.cls with
  | .text => Pr.value ((X.frame v f.data).bind fun s => .ok (F.esc s))
  | _ => Pr.put f.id

/-- One turn of the loop over the text frames: scribbu/csv-pprinter.cc L109-114, L161-166, L213-218. -/
def putText (X : Texts) (F : Fmt) (t : Tag2) (id : Bytes) : Pr :=
  Pr.seq
    (if t.tag.hasFrame id ≠ 0 then
      match t.tag.getFrame t.cfg id with
      | .ok f => putFrame X F t.cfg.ver f
      | .throw e => fun s => (s, .throw e)
      | .ub u => fun s => (s, .ub u)
     else Pr.nop)
    (Pr.put [F.sep])

/-- The play count: scribbu/csv-pprinter.cc L118-125, L170-177, L222-229. The stream is still in base sixteen. -/
def putCount (F : Fmt) (t : Tag2) : Pr :=
  let n := t.tag.hasFrame t.cfg.cntId
  Pr.all [Pr.num n, Pr.put [F.sep],
    if n = 1 then
      match (t.tag.playCount t.cfg).bind counterCount with
      | .ok k => Pr.num k
      | .throw e => fun s => (s, .throw e)
      | .ub u => fun s => (s, .ub u)
    else if 1 < n then Pr.put [42] else Pr.nop]

/-- The loop over the comments, from `i` on, with `k` columns to go: scribbu/csv-pprinter.cc L133-140, L185-192, L237-244. -/
def putComments (X : Texts) (F : Fmt) (v : Ver) : Nat → List Bytes → Pr
  | 0, _ => Pr.nop
  | k + 1, cs =>
    Pr.all [
      match cs with
      | [] => Pr.nop
      | d :: _ => Pr.value ((X.comment v d).bind fun s => .ok (F.esc s)),
      if k = 0 then Pr.nop else Pr.put [F.sep],
      putComments X F v k cs.tail]

/-- `pprint_v2_2_tag`, `pprint_v2_3_tag`, `pprint_v2_4_tag`: scribbu/csv-pprinter.cc L93-247, scribbu/tdf-pprinter.cc L48-202. -/
def putTag2 (X : Texts) (F : Fmt) (ncomm : Nat) (t : Tag2) : Pr :=
  Pr.all [Pr.base false, Pr.num (verNum t.cfg.ver), Pr.put [F.sep], Pr.num t.rev.toNat, Pr.put [F.sep], Pr.num t.size, Pr.put [F.sep],
    Pr.put [48, 120], Pr.base true, Pr.put (hex2 t.flags), Pr.put [F.sep], Pr.num (optUint t.unsync), Pr.put [F.sep],
    Pr.all ((textIds t.cfg.ver).map (putText X F t)),
    putCount F t, Pr.put [F.sep], Pr.num (t.tag.hasFrame t.cfg.comId), Pr.put [F.sep],
    match t.tag.comments with
    | .ok cs => putComments X F t.cfg.ver ncomm cs
    | .throw e => fun s => (s, .throw e)
    | .ub u => fun s => (s, .ub u)]

/-- `pprint_track_data`: scribbu/csv-pprinter.cc L249-265, scribbu/tdf-pprinter.cc L204-220. -/
def putTrack (F : Fmt) (size : Nat) (md5 : Bytes) : Pr :=
  Pr.all [Pr.base false, Pr.num size, Pr.put [F.sep], Pr.base true, Pr.put (md5.flatMap hex2)]

/-- A Boolean. -/
def bit (b : Bool) : Bytes := if b then [49] else [48]

/-- A text field of an ID3v1 tag. -/
def putField (F : Fmt) (r : Res Bytes) : Pr := Pr.value (r.bind fun s => .ok (F.esc s))

/-- `pprint_v1_tag`: scribbu/csv-pprinter.cc L267-285, scribbu/tdf-pprinter.cc L222-240. -/
def putTag1 (F : Fmt) (t : Tag1) : Pr :=
  Pr.all [Pr.put (bit t.v11), Pr.put [F.sep], Pr.put (bit t.extended), Pr.put [F.sep],
    putField F t.artist, Pr.put [F.sep], putField F t.title, Pr.put [F.sep], putField F t.album, Pr.put [F.sep],
    putField F t.year, Pr.put [F.sep], putField F t.comment, Pr.put [F.sep], Pr.base false, Pr.num t.genre.toNat]

/-! ## Rows -/

/-- What reading a file gives (`open_file`, `maybe_read_id3v2`, `track_data`, `process_id3v1`): src/report.cc L418-427. -/
structure Facts where
  parent : Path
  name : Path
  size : Nat
  v2 : Option Tag2
  trackSize : Nat
  md5 : Bytes
  v1 : Option Tag1

/-- `os << path`, i.e. `os << std::quoted(path.string())`: quotes and backslashes get a backslash. -/
def quoted (p : Path) : Bytes := 34 :: (p.flatMap fun c => if c = 34 ∨ c = 92 then [92, c] else [c]) ++ [34]

/-- A number rounded to the nearest, ties to even. -/
def roundEven (n d : Nat) : Nat :=
  let q := n / d
  let r := n % d
  if 2 * r < d then q else if d < 2 * r then q + 1 else q + q % 2

/-- `os << setprecision(3) << fixed << double(size) / 1048576`: src/report.cc L175-183, L301-309. Simplified: `double` holds sizes exactly (they
are below 2^53), and dividing by a power of two is exact, so only the three places are rounded. -/
def megabytes (size : Nat) : Bytes :=
  let m := roundEven (size * 1000) 1048576
  Backup.dec (m / 1000) ++ [46, UInt8.ofNat (48 + m / 100 % 10), UInt8.ofNat (48 + m / 10 % 10), UInt8.ofNat (48 + m % 10)]

/-- Options of `report`: src/report.cc L508-523. -/
structure Opts where
  ncomm : Nat := 6
  tsv : Bool := false
  ascii : Bool := false
  noDir : Bool := false
  noSummary : Bool := false

/-- The format asked for: src/report.cc L615-618 (`--ascii-delimited` without `--tsv` has no effect). -/
def Opts.fmt (o : Opts) : Fmt := if o.tsv then tdfFmt o.ascii else csvFmt

/-- `make_entry`: src/report.cc L165-204 and L291-330. -/
def putRow (X : Texts) (o : Opts) (f : Facts) : Pr :=
  let F := o.fmt
  Pr.all [
    if o.noDir then Pr.nop else Pr.put (quoted f.parent ++ [F.sep]),
    Pr.put (quoted f.name), Pr.put [F.sep], Pr.put (megabytes f.size), Pr.put [F.sep],
    match f.v2 with
    | some t => putTag2 X F o.ncomm t
    | none => Pr.put (List.replicate (14 + o.ncomm) F.sep),
    Pr.put [F.sep], putTrack F f.trackSize f.md5, Pr.put [F.sep],
    match f.v1 with
    | some t => putTag1 F t
    | none => Pr.put (List.replicate 7 F.sep),
    Pr.put [10]]

/-- The columns before the comments: src/report.cc L126-142, L252-268. -/
def headA : List Bytes :=
  [
   /- file -/ [102, 105, 108, 101],
   /- file size(MB) -/ [102, 105, 108, 101, 32, 115, 105, 122, 101, 40, 77, 66, 41],
   /- ID3v2 version -/ [73, 68, 51, 118, 50, 32, 118, 101, 114, 115, 105, 111, 110],
   /- ID3v2 revision -/ [73, 68, 51, 118, 50, 32, 114, 101, 118, 105, 115, 105, 111, 110],
   /- ID3v2 size(bytes) -/ [73, 68, 51, 118, 50, 32, 115, 105, 122, 101, 40, 98, 121, 116, 101, 115, 41],
   /- ID3v2 flags -/ [73, 68, 51, 118, 50, 32, 102, 108, 97, 103, 115],
   /- ID3v2 unsync -/ [73, 68, 51, 118, 50, 32, 117, 110, 115, 121, 110, 99],
   /- ID3v2 Artist -/ [73, 68, 51, 118, 50, 32, 65, 114, 116, 105, 115, 116],
   /- ID3v2 Title -/ [73, 68, 51, 118, 50, 32, 84, 105, 116, 108, 101],
   /- ID3v2 Album -/ [73, 68, 51, 118, 50, 32, 65, 108, 98, 117, 109],
   /- ID3v2 Content Type -/ [73, 68, 51, 118, 50, 32, 67, 111, 110, 116, 101, 110, 116, 32, 84, 121, 112, 101],
   /- ID3v2 Encoded By -/ [73, 68, 51, 118, 50, 32, 69, 110, 99, 111, 100, 101, 100, 32, 66, 121],
   /- ID3v2 Year -/ [73, 68, 51, 118, 50, 32, 89, 101, 97, 114],
   /- ID3v2 Langauges -/ [73, 68, 51, 118, 50, 32, 76, 97, 110, 103, 97, 117, 103, 101, 115],
   /- # ID3v2 play count frames -/ [35, 32, 73, 68, 51, 118, 50, 32, 112, 108, 97, 121, 32, 99, 111, 117, 110, 116, 32, 102, 114, 97, 109, 101, 115],
   /- Play Count -/ [80, 108, 97, 121, 32, 67, 111, 117, 110, 116],
   /- # ID3v2 comment frames -/ [35, 32, 73, 68, 51, 118, 50, 32, 99, 111, 109, 109, 101, 110, 116, 32, 102, 114, 97, 109, 101, 115]]

/-- The columns after the comments but the last: src/report.cc L148-157, L274-283. -/
def headB : List Bytes :=
  [
   /- size (bytes) -/ [115, 105, 122, 101, 32, 40, 98, 121, 116, 101, 115, 41],
   /- MD5 -/ [77, 68, 53],
   /- has ID3v1.1 -/ [104, 97, 115, 32, 73, 68, 51, 118, 49, 46, 49],
   /- has ID3v1 extended -/ [104, 97, 115, 32, 73, 68, 51, 118, 49, 32, 101, 120, 116, 101, 110, 100, 101, 100],
   /- ID3v1 Artist -/ [73, 68, 51, 118, 49, 32, 65, 114, 116, 105, 115, 116],
   /- ID3v1 Title -/ [73, 68, 51, 118, 49, 32, 84, 105, 116, 108, 101],
   /- ID3v1 Album -/ [73, 68, 51, 118, 49, 32, 65, 108, 98, 117, 109],
   /- ID3v1 Year -/ [73, 68, 51, 118, 49, 32, 89, 101, 97, 114],
   /- ID3v1 Comment -/ [73, 68, 51, 118, 49, 32, 67, 111, 109, 109, 101, 110, 116]]

/-- The heading of comment `i`: src/report.cc L144-146, L270-272. -/
def headComment (i : Nat) : Bytes := /- comment # -/ [99, 111, 109, 109, 101, 110, 116, 32, 35] ++ Backup.dec i ++ /- text -/ [32, 116, 101, 120, 116]

/-- The last column: src/report.cc L158 and L284. -/
def headLast (tsv : Bool) : Bytes := if tsv then /- ID3v1 Genre -/ [73, 68, 51, 118, 49, 32, 71, 101, 110, 114, 101] else /- ID3v1 Genrre -/ [73, 68, 51, 118, 49, 32, 71, 101, 110, 114, 114, 101]

/-- Texts with separators between them. -/
def sepBy (sep : Byte) : List Bytes → Bytes
  | [] => []
  | [x] => x
  | x :: xs => x ++ sep :: sepBy sep xs

/-- The first row: src/report.cc L118-158 and L244-284. -/
def header (o : Opts) : Bytes :=
  sepBy o.fmt.sep ((if o.noDir then [] else [/- directory -/ [100, 105, 114, 101, 99, 116, 111, 114, 121]]) ++ headA ++
    (List.range o.ncomm).map headComment ++ headB ++ [headLast o.tsv]) ++ [10]

/-! ## Files -/

/-- Something that a walk through a directory comes across: its path, and whether it is a regular file. -/
structure Entry where
  path : Path
  regular : Bool
  deriving DecidableEq, Repr

/-- A path given on the command line: nothing there; a directory with what `recursive_directory_iterator` comes across, in its order,
and whether the walk ends by throwing (a directory that cannot be read); or anything else. -/
inductive Item
  | absent
  | dir (entries : List Entry) (broken : Bool)
  | file
  deriving DecidableEq, Repr

/-- `boost::regex_match(path, ".*\\.mp3")`: src/report.cc L410. -/
def mp3Name (p : Path) : Bool := p.reverse.take 4 = [51, 112, 109, 46]

/-- What the report depends on. -/
structure Env where
  texts : Texts
  read : Path → Res Facts
  item : Path → Item

/-- The state of a run: the stream, files done, files that failed. -/
structure St where
  os : OS
  ok : Nat
  err : Nat
  deriving DecidableEq, Repr

/-- `process_file`, with the counting in its callers: src/report.cc L412-438, L376-381, L452-456. -/
def oneFile (E : Env) (o : Opts) (p : Path) (s : St) : Res St :=
  match E.read p with
  | .throw _ => .ok { s with err := s.err + 1 }
  | .ub u => .ub u
  | .ok f =>
    match putRow E.texts o f s.os with
    | (os, .ok _) => .ok { s with os := os, ok := s.ok + 1 }
    | (os, .throw _) => .ok { s with os := os, err := s.err + 1 }
    | (_, .ub u) => .ub u

/-- `process_directory`: src/report.cc L440-462. -/
def walk (E : Env) (o : Opts) : List Entry → St → Res St
  | [], s => .ok s
  | e :: es, s => if e.regular && mp3Name e.path then (oneFile E o e.path s).bind (walk E o es) else walk E o es s

/-- The loop over the arguments, `operator()`: src/report.cc L359-387, L622-628. The exception that ends it, if one does, is caught in
`handle_report`. -/
def args (E : Env) (o : Opts) : List Path → St → Res (St × Option Exc)
  | [], s => .ok (s, none)
  | p :: ps, s =>
    match E.item p with
    | .absent => .ok (s, some .invalidArgument)
    | .file => (oneFile E o p s).bind fun s => args E o ps s
    | .dir es broken => (walk E o es s).bind fun s => if broken then .ok (s, some .fsError) else args E o ps s

/-- The output file: it cannot be opened; it takes so many bytes and then no more; or it takes everything. -/
inductive Dest
  | closed
  | full (n : Nat)
  | fine
  deriving DecidableEq, Repr

/-- What is in the output file in the end. `ofs_` is never asked about errors: src/report.cc L113, L238. -/
def Dest.file : Dest → Bytes → Option Bytes
  | .closed, _ => none
  | .full n, b => some (b.take n)
  | .fine, b => some b

/-- A run: the exit status, the summary if there is one, what is in the output file. -/
structure Done where
  status : Nat
  summary : Option (Nat × Nat)
  file : Option Bytes
  deriving DecidableEq, Repr

/-- `handle_report`: src/report.cc L470-652. Options have been parsed; help has not been asked for. -/
def report (E : Env) (o : Opts) (d : Dest) (ps : List Path) : Res Done :=
  (args E o ps ⟨⟨header o, false⟩, 0, 0⟩).bind fun (s, x) =>
    match x with
    | some _ => .ok ⟨1, none, d.file s.os.out⟩
    | none => .ok ⟨if s.err ≠ 0 then 1 else 0, if o.noSummary then none else some (s.ok, s.err), d.file s.os.out⟩

end Report
end Scribbu
