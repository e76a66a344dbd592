import Verif.Model.Report
import Verif.Model.Charset
import Verif.Model.Commands
import Verif.Model.Mp3

/-! # Playlists: the sub-command `m3u`

src/m3u.cc, and `process_dirent_args` of src/command-utilities.hh.

What iconv makes of texts is a parameter, and so is the file system. Not modelled: help, the notices on stderr, and that
`m3u_to_file` hands a reference to a stream that is not constructed yet to its base class, which keeps it (src/m3u.cc L262-265). -/

namespace Scribbu
namespace M3u
open Commands

/-- What is read from a file: its ID3v2 tags, the duration as `num * frames / den` seconds, the ID3v1 tag: src/m3u.cc L197-201. -/
structure Facts where
  v2 : List Tg
  num : Nat
  frames : Nat
  den : Nat
  v1 : Option V1Tag

/-- `read_all_id3v2`, `get_mp3_duration`, `process_id3v1`, from a stream of `n` bytes: src/m3u.cc L199-201. More tags or frames than
bytes: `noProgress`. -/
def readStream (mk2 mk3 mk4 : Id3v2Info → SM Tg) (n : Nat) : SM Facts := do
  let o ← readAllId3v2 mk2 mk3 mk4 (n + 1)
  match o with
  | none => SM.lift (.ub .noProgress)
  | some v2 => do
    let u ← mp3Duration (n + 1)
    match u with
    | none => SM.lift (.ub .noProgress)
    | some (num, frames, den) => do
      let v1 ← processId3v1
      pure ⟨v2, num, frames, den, v1⟩

/-- Opening a file and reading it: src/m3u.cc L197-201. -/
def readFile (mk2 mk3 mk4 : Id3v2Info → SM Tg) (file : Option Bytes) : Res Facts :=
  match file with
  | none => .throw .fsError
  | some d => (readStream mk2 mk3 mk4 d.length ⟨d, 0, IoBits.all, IoBits.none⟩).1

/-- Text conversions (not modelled); `none` is an `iconv_error`. `frame` stands for `as_str(dst, rsp, src)` of a text frame, `field`
for `artist<string>(src, dst, rsp)` and `title<string>(...)` of an ID3v1 tag. -/
structure Conv where
  frame : Ver → Bytes → (dst : Encoding) → OnNo → (src : Option Encoding) → Option Bytes
  field : Bytes → (src : Option Encoding) → (dst : Encoding) → OnNo → Option Bytes

/-- The frame that `artist` and `has_artist` ask for: scribbu/id3v22.hh L151, L194, scribbu/id3v23.hh L260, L297, scribbu/id3v24.hh L330. -/
def artistId : Ver → Bytes
  | .v2 => [84, 80, 49]
  | _ => [84, 80, 69, 49]

/-- The frame that `title` and `has_title` ask for: scribbu/id3v22.hh L177, L204, scribbu/id3v23.hh L282, L307, scribbu/id3v24.hh L340. -/
def titleId : Ver → Bytes
  | .v2 => [84, 84, 50]
  | _ => [84, 73, 84, 50]

/-- How the playlist is to be written: the members of class m3u but the stream, src/m3u.cc L137-141. -/
structure Ctx where
  conv : Conv
  src : Option Encoding
  dst : Encoding
  rsp : OnNo
  verbose : Bool
  toFile : Bool

/-- `a + " - " + t`, if neither is empty: src/m3u.cc L166-168, L175-177. -/
def pair (a t : Bytes) : Option Bytes := if a ≠ [] ∧ t ≠ [] then some (a ++ [32, 45, 32] ++ t) else none

/-- The part of `guess_display_title` about ID3v2 tags: src/m3u.cc L156-169. The outer `none` is an `iconv_error`, the inner that
there is no title to be had. -/
def fromV2 (c : Ctx) (ts : List Tg) : Res (Option (Option Bytes)) :=
  match ts.find? fun t => t.tag.hasFrame (artistId t.cfg.ver) ≠ 0 && t.tag.hasFrame (titleId t.cfg.ver) ≠ 0 with
  | none => .ok (some none)
  | some t =>
    (t.tag.textOf t.cfg (artistId t.cfg.ver)).bind fun a =>
    match c.conv.frame t.cfg.ver a c.dst c.rsp c.src with
    | none => .ok none
    | some a =>
      (t.tag.textOf t.cfg (titleId t.cfg.ver)).bind fun t' =>
      match c.conv.frame t.cfg.ver t' c.dst c.rsp c.src with
      | none => .ok none
      | some t' => .ok (some (pair a t'))

/-- The part about the ID3v1 tag: src/m3u.cc L171-178. -/
def fromV1 (c : Ctx) : Option V1Tag → Option Bytes
  | none => none
  | some t =>
    match c.conv.field t.artist c.src c.dst c.rsp with
    | none => none
    | some a =>
      match c.conv.field t.title c.src c.dst c.rsp with
      | none => none
      | some t => pair a t

/-- `guess_display_title`: src/m3u.cc L144-189. -/
def guessDisplayTitle (c : Ctx) (f : Facts) : Res (Option Bytes) :=
  (fromV2 c f.v2).bind fun
    | none => .ok none
    | some (some d) => .ok (some d)
    | some none => .ok (fromV1 c f.v1)

/-- The last component of a path: what follows the last `/`. -/
def baseName (p : Path) : Bytes := (p.reverse.takeWhile (· ≠ 47)).reverse

/-- `pth.stem().native()`: the last component without its extension, which starts at the last full stop unless that is the first byte;
`.` and `..` have none. -/
def stem (p : Path) : Bytes :=
  let b := baseName p
  if b = [46, 46] then b
  else
    let s := (b.reverse.dropWhile (· ≠ 46)).drop 1
    if s = [] then b else s.reverse

/-- `(int) (secs + 0.5)`: src/m3u.cc L213. Simplified: the C++ computes in `double`. No overflow: a duration is at most 2^32 frames of
0.072 s. Division by zero does not arise: sampling rates are positive. -/
def seconds (f : Facts) : Nat := (2 * (f.num * f.frames) + f.den) / (2 * f.den)

/-- `#EXTINF:` -/
def EXTINF : Bytes := [35, 69, 88, 84, 73, 78, 70, 58]

/-- `#EXTM3U` -/
def EXTM3U : Bytes := [35, 69, 88, 84, 77, 51, 85]

/-- The two lines for a file: src/m3u.cc L203-216. -/
def entry (c : Ctx) (p : Path) (f : Facts) : Res Bytes :=
  (guessDisplayTitle c f).bind fun g =>
    .ok (EXTINF ++ Backup.dec (seconds f) ++ [44] ++ (match g with | some d => d | none => stem p) ++ [10] ++ p ++ [10])

/-- What `process_dirent_args` comes across, in its order: regular files; things that are neither files nor directories (or are not there);
paths about which the file system cannot be asked; directories with what is in them, and whether going through them ends by throwing. -/
inductive Forest
  | nil
  | file (p : Path) (rest : Forest)
  | other (p : Path) (rest : Forest)
  | bad (rest : Forest)
  | dir (kids : Forest) (broken : Bool) (rest : Forest)
  deriving DecidableEq, Repr

/-- What has been written: to the playlist file, and to standard output. -/
structure St where
  list : Bytes
  cout : Bytes
  deriving DecidableEq, Repr

/-- `os_ << ...`: to the file, or to standard output. -/
def St.put (c : Ctx) (b : Bytes) (s : St) : St :=
  if c.toFile then { s with list := s.list ++ b } else { s with cout := s.cout ++ b }

/-- The notice about things that are not files: src/command-utilities.hh L559-561. It goes to standard output. -/
def notice (p : Path) : Bytes :=
  /- skipping non-file ` -/ [115, 107, 105, 112, 112, 105, 110, 103, 32, 110, 111, 110, 45, 102, 105, 108, 101, 32, 96] ++ Report.quoted p ++ [39, 10]

/-- `process_dirent_args`: src/command-utilities.hh L543-563, with `process_file`, src/m3u.cc L191-217. -/
def walk (c : Ctx) (read : Path → Res Facts) : Forest → St → St × Res Unit
  | .nil, s => (s, .ok ())
  | .file p rest, s =>
    match (read p).bind (entry c p) with
    | .ok b => walk c read rest (s.put c b)
    | .throw e => (s, .throw e)
    | .ub u => (s, .ub u)
  | .other p rest, s => walk c read rest (if c.verbose then { s with cout := s.cout ++ notice p } else s)
  | .bad _, s => (s, .throw .fsError)
  | .dir kids broken rest, s =>
    match walk c read kids s with
    | (s, .ok _) => if broken then (s, .throw .fsError) else walk c read rest s
    | r => r

/-- Options: src/m3u.cc L333-350. `output = []` if there is none; `arguments = none` if there are none. -/
structure Opts where
  append : Bool := false
  rsp : OnNo := .fail
  output : Path := []
  sourceEncoding : Encoding := .CP1252
  useUtf8 : Bool := false
  verbose : Bool := false
  arguments : Option Forest

/-- What a run depends on: conversions, files, the encoding of the system locale (or that it is not known), what is in the output file
beforehand, and whether it takes what is written to it. -/
structure Env where
  conv : Conv
  read : Path → Res Facts
  locale : Res Encoding
  old : Option Bytes
  dest : Report.Dest

/-- A run: the exit status, what is on standard output, what is in the output file in the end. -/
structure Done where
  status : Nat
  cout : Bytes
  file : Option Bytes
  deriving DecidableEq, Repr

/-- What is in the output file after opening it and writing `b`: src/m3u.cc L274-282. Whether writing fails is not asked. -/
def written (E : Env) (append : Bool) (b : Bytes) : Option Bytes :=
  match E.dest.file b with
  | none => E.old
  | some b =>
    some (if append then (match E.old with | some x => x ++ b | none => b) else b)

/-- How a run ends: src/m3u.cc L411-427. -/
def finish (file : Bytes → Option Bytes) : St × Res Unit → Res Done
  | (s, .ok _) => .ok ⟨0, s.cout, file s.list⟩
  | (s, .throw _) => .ok ⟨1, s.cout, file s.list⟩
  | (_, .ub u) => .ub u

/-- `handle_m3u`: src/m3u.cc L300-430. Options have been parsed; help has not been asked for. `src_enc` is taken from an option
`encoding`, which there is not (L385-388). -/
def m3u (E : Env) (o : Opts) : Res Done :=
  if o.append ∧ o.output = [] then .ok ⟨2, [], E.old⟩
  else if o.useUtf8 ∧ o.output = [] then .ok ⟨2, [], E.old⟩
  else
    match o.arguments with
    | none => .ok ⟨1, [], E.old⟩
    | some args =>
      match if o.output ≠ [] ∧ o.useUtf8 then .ok Encoding.UTF_8 else E.locale with
      | .throw _ => .ok ⟨1, [], E.old⟩
      | .ub u => .ub u
      | .ok dst =>
        let c : Ctx := ⟨E.conv, none, dst, o.rsp, o.verbose, o.output ≠ []⟩
        if o.output = [] then finish (fun _ => E.old) (walk c E.read args ⟨[], []⟩)
        else if E.dest = .closed then .ok ⟨1, [], E.old⟩
        else finish (written E o.append) (walk c E.read args ⟨EXTM3U ++ [10], []⟩)

end M3u
end Scribbu
