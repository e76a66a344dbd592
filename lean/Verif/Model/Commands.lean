import Verif.Model.Process
import Verif.Model.Lookup
import Verif.Model.TextFrame
import Verif.Model.GenreMatch

/-! # The sub-command `genre`, and tags made from tags of the other kind (src/genre.cc, src/command-utilities.hh,
src/command-utilities.cc) -/

namespace Scribbu
namespace Commands
open Process

/-- Conversions of text, which are not modelled here (`Model/Charset.lean`): what becomes of a text in a frame and of the contents of a
frame as text, by the version of the tag (simplified: a frame's contents here include the byte that says which encoding they are in);
the text of a field of an ID3v1 tag (`convert_encoding` from ASCII); the bytes of a text put there (to UTF-8, as `copy_id3_v2` has it,
and to the encoding in `DEF_SRC_ENCODING`); the contents of a comment frame; and what matching a genre makes of characters. Texts are
in UTF-8. -/
structure Conv where
  frameText : Ver → Bytes → Res Bytes
  frameData : Ver → Bytes → Res Bytes
  v1Text : Bytes → Res Bytes
  v1Data : Bytes → Res Bytes
  v1Plain : Bytes → Res Bytes
  comment : Bytes → Res Bytes
  chars : Bytes → Option (List Nat)
  lower : Nat → Nat

/-- An ID3v2 tag of one of the three classes. -/
structure Tg where
  cfg : Cfg
  tag : LTag

/-- `frame_id3(frm)` or `frame_id4(frm)`, by the class of the tag. -/
def frameId (v : Ver) (f : TextFrame) : Res Bytes :=
  match v with
  | .v2 => f.id3
  | _ => f.id4

/-- `text(frm)`: scribbu/id3v22.cc L350-358, scribbu/id3v23.cc L729-737, scribbu/id3v24.cc L802-810. `year()` and `content_type()` are
the same with `tyer` and `tcon`: scribbu/id3v22.hh, scribbu/id3v23.hh L262-265 and L289-292, scribbu/id3v24.hh. -/
def Tg.text (C : Conv) (t : Tg) (f : TextFrame) : Res Bytes :=
  (frameId t.cfg.ver f).bind fun id => (t.tag.textOf t.cfg id).bind fun d => C.frameText t.cfg.ver d

/-- `text(frm, text)`: scribbu/id3v22.cc L361-371, scribbu/id3v23.cc L740-750, scribbu/id3v24.cc L813-823. -/
def Tg.setText (C : Conv) (t : Tg) (f : TextFrame) (s : Bytes) : Res Tg :=
  (frameId t.cfg.ver f).bind fun id => (C.frameData t.cfg.ver s).bind fun d =>
    (t.tag.setText t.cfg id d).bind fun l => .ok { t with tag := l }

/-- `detail::find_frame(frm, p0, p1)`: src/command-utilities.hh L439-451. -/
def findFrame (C : Conv) (f : TextFrame) : List Tg → Res (Option Bytes)
  | [] => .ok none
  | t :: ts => (t.text C f).bind fun s => if s ≠ [] then .ok (some s) else findFrame C f ts

/-- `detail::find_year(p0, p1)`: src/command-utilities.hh L453-471. -/
def findYear (C : Conv) : List Tg → Res (Option Bytes)
  | [] => .ok none
  | t :: ts => (t.text C .tyer).bind fun s => if s.length = 4 then .ok (some s) else findYear C ts

/-- The loop of `detail::find_content_type(p0, p1)`: src/command-utilities.hh L473-506. `best` is the distance and the number of the
best match so far (`none`: `SIZE_MAX`, which no distance reaches). -/
def findGenre (C : Conv) : List Tg → Option (Nat × Nat) → Res (Option (Nat × Nat))
  | [], best => .ok best
  | t :: ts, best => (t.text C .tcon).bind fun s =>
    if s.length ≠ 0 then
      (Genres.matchGenre C.chars C.lower s).bind fun (_, g, dl) =>
        match best with
        | none => findGenre C ts (some (dl, g))
        | some b => findGenre C ts (if dl < b.1 then some (dl, g) else some b)
    else findGenre C ts best

/-- `if (hit) p->set_...(text)`. -/
def setIf (t : V1Tag) (o : Option Bytes) (conv : Bytes → Res Bytes) (op : Bytes → V1Tag.Op) : Res V1Tag :=
  match o with
  | none => .ok t
  | some s => (conv s).bind fun b => .ok (t.apply (op b))

/-- `copy_id3_v2(p0, p1)`: src/command-utilities.hh L510-537. -/
def copyV2 (C : Conv) (v2 : List Tg) : Res V1Tag :=
  (findFrame C .talb v2).bind fun al => (setIf (V1Tag.scratch false false) al C.v1Data .setAlbum).bind fun t =>
  (findFrame C .tpe1 v2).bind fun ar => (setIf t ar C.v1Data .setArtist).bind fun t =>
  (findFrame C .tit2 v2).bind fun ti => (setIf t ti C.v1Data .setTitle).bind fun t =>
  (findYear C v2).bind fun y => (setIf t y .ok .setYear).bind fun t =>
  (findGenre C v2 none).bind fun g =>
  match g with
  | none => .ok t
  | some x => .ok (t.apply (.setGenre (UInt8.ofNat x.2)))

/-- `if (text.length()) p->text(frm, text)`. -/
def textIf (C : Conv) (t : Tg) (f : TextFrame) (s : Bytes) : Res Tg :=
  if s.length ≠ 0 then t.setText C f s else .ok t

/-- The comment: src/command-utilities.cc L442-443. -/
def copyComment (C : Conv) (t : Tg) (s : Bytes) : Res Tg :=
  if s.length ≠ 0 then (C.comment s).bind fun d => (t.tag.addComment t.cfg d).bind fun l => .ok { t with tag := l } else .ok t

/-- The genre: src/command-utilities.cc L445-449. -/
def copyGenre (C : Conv) (t : Tg) (g : Byte) : Res Tg :=
  if g.toNat < 192 then
    match Genres.textForGenre g with
    | none => .ub .nullDeref
    | some s => t.setText C .tcon s
  else .ok t

/-- `copy_id3_v1(v1)`, given how the library's hash tables behave (`Cfg`): src/command-utilities.cc L428-456. The tag is an ID3v2.3 one. -/
def copyV1 (C : Conv) (c : Cfg) (v1 : V1Tag) : Res Tg :=
  (C.v1Text v1.artist).bind fun s => (textIf C ⟨{ c with ver := .v3 }, .empty⟩ .tpe1 s).bind fun t =>
  (C.v1Text v1.title).bind fun s => (textIf C t .tit2 s).bind fun t =>
  (C.v1Text v1.album).bind fun s => (textIf C t .talb s).bind fun t =>
  (C.v1Text v1.comment).bind fun s => (copyComment C t s).bind fun t =>
  (copyGenre C t v1.genre).bind fun t =>
  (C.v1Text v1.year).bind fun s => if s.length = 4 then t.setText C .tyer s else .ok t

/-! ## `genre` -/

/-- `set_genre::process_v1(v1)`: src/genre.cc L351-363. -/
def genreV1 (C : Conv) (g : Byte) (t : V1Tag) : Res (Bool × V1Tag) :=
  let t := t.apply (.setGenre g)
  if t.extended then
    match Genres.textForGenre g with
    | none => .ok (true, t)
    | some s => (C.v1Plain s).bind fun b => .ok (true, t.apply (.setEnhGenre b))
  else .ok (true, t)

/-- `set_genre::process_v2(v2)`, the three overloads: src/genre.cc L365-396. -/
def genreV2 (C : Conv) (text : Bytes) (t : Tg) : Res (Bool × Tg) :=
  (t.text C .tcon).bind fun s =>
    if s = text then .ok (false, t) else (t.setText C .tcon text).bind fun t => .ok (true, t)

/-- The policies that `tagset_processor` is constructed with: src/command-utilities.hh L264-306. -/
structure Policy where
  v2Scope : V2Scope
  v1Scope : Bool
  v2Create : Creation
  v1Create : Creation
  dryRun : Bool
  adjustUnsync : Bool
  createBackups : Bool
  deriving DecidableEq, Repr

/-- `class set_genre`, with `genre_` and `content_type_` as given: src/genre.cc L146-299 and L313-396. -/
def setGenre (C : Conv) (c : Cfg) (p : Policy) (g : Byte) (text : Bytes) : Processor Tg where
  v2Scope := p.v2Scope
  v1Scope := p.v1Scope
  v2Create := p.v2Create
  v1Create := p.v1Create
  dryRun := p.dryRun
  adjustUnsync := p.adjustUnsync
  createBackups := p.createBackups
  createV1From v2 := (copyV2 C v2).bind fun t => .ok (t.apply (.setGenre g))
  createV1 := .ok ((V1Tag.scratch false false).apply (.setGenre g))
  createV2From v1 := (copyV1 C c v1).bind fun t => t.setText C .tcon text
  createV2 := (⟨{ c with ver := .v3 }, .empty⟩ : Tg).setText C .tcon text
  processV1 := genreV1 C g
  processV2 := genreV2 C text

/-- What `handle_genre` has made of the options: src/genre.cc L909-958. `winamp` and `v1` are 255 (`UNDEFINED_GENRE`) and the texts empty if
not given. -/
structure GenreOpts where
  winamp : Byte := 255
  genre : Bytes := []
  freeForm : Bytes := []
  v1 : Byte := 255
  v1Only : Bool := false
  v2Only : Bool := false
  createV2 : Bool := false
  alwaysV2 : Bool := false
  createV1 : Bool := false
  alwaysV1 : Bool := false
  tags : List Nat := []
  dryRun : Bool := false
  adjustUnsync : Bool := false
  createBackups : Bool := false
  deriving DecidableEq, Repr

/-- `textual_genre_for_args`: src/genre.cc L509-560. With `-w`, `best_match` is returned without having been initialised (`none`; copying
it is undefined by the letter, here only looking at it is). `po::error` is `invalidArgument`. -/
def textualGenre (winamp : Byte) (genre freeForm : Bytes) : Res (Bytes × Option Bool) :=
  match decide (255 ≠ winamp), !genre.isEmpty, !freeForm.isEmpty with
  | false, false, false => .throw .invalidArgument
  | true, false, false => .ok ([], none)
  | false, true, false => .ok (genre, some true)
  | false, false, true => .ok (freeForm, some false)
  | _, _, _ => .throw .invalidArgument

/-- `tag_scope_policies_for_args`: src/genre.cc L562-611. -/
def scopePolicies (v2Only v1Only : Bool) (tags : List Nat) : Res (V2Scope × Bool) :=
  match v1Only, v2Only, !tags.isEmpty with
  | false, false, false => .ok (.all, true)
  | true, false, false => .ok (.none, true)
  | false, true, false => .ok (.all, false)
  | false, false, true => .ok (.some tags, true)
  | false, true, true => .ok (.some tags, false)
  | _, _, _ => .throw .invalidArgument

/-- `tag_creation_policies_for_args`: src/genre.cc L613-681: for ID3v2, for ID3v1. -/
def creationPolicies (createV2 alwaysV2 createV1 alwaysV1 : Bool) : Res (Creation × Creation) :=
  match createV1, alwaysV1, createV2, alwaysV2 with
  | false, false, false, false => .ok (.never, .never)
  | true, false, false, false => .ok (.never, .whenOther)
  | false, true, false, false => .ok (.never, .always)
  | false, false, true, false => .ok (.whenOther, .never)
  | true, false, true, false => .ok (.whenOther, .whenOther)
  | false, true, true, false => .ok (.whenOther, .always)
  | false, false, false, true => .ok (.always, .never)
  | true, false, false, true => .ok (.always, .whenOther)
  | false, true, false, true => .ok (.always, .always)
  | _, _, _, _ => .throw .invalidArgument

/-- The constructors of `set_genre` (`genre_`, `content_type_`), chosen by whether there is a number: src/genre.cc L174-273. -/
def genreOf (C : Conv) (o : GenreOpts) (text : Bytes) (best : Option Bool) : Res (Byte × Bytes) :=
  if o.winamp ≠ 255 then
    match Genres.textForGenre o.winamp with
    | none => .throw .rangeError
    | some s => .ok (o.winamp, s)
  else
    (Genres.matchGenre C.chars C.lower text).bind fun (s, g, _) =>
      match best with
      | none => .ub .uninit
      | some true => .ok (UInt8.ofNat g, s)
      | some false => .ok (if o.v1 = 255 then UInt8.ofNat g else o.v1, text)

/-- `genre(...)` up to the processing of files: src/genre.cc L683-749. -/
def genreCmd (C : Conv) (c : Cfg) (o : GenreOpts) : Res (Processor Tg) :=
  (textualGenre o.winamp o.genre o.freeForm).bind fun (text, best) =>
  (scopePolicies o.v2Only o.v1Only o.tags).bind fun (s2, s1) =>
  (creationPolicies o.createV2 o.alwaysV2 o.createV1 o.alwaysV1).bind fun (c2, c1) =>
  (genreOf C o text best).bind fun (g, s) =>
  .ok (setGenre C c ⟨s2, s1, c2, c1, o.dryRun, o.adjustUnsync, o.createBackups⟩ g s)

/-- The value of `--v1`, as `po::value<unsigned char>` parses it (src/genre.cc L841-842, L950-953): `boost::lexical_cast` to a type of
characters takes the text to be the one character. `po::invalid_option_value` is `invalidArgument`. -/
def v1Value : Bytes → Res Byte
  | [b] => .ok b
  | _ => .throw .invalidArgument

/-! ## Files and directories -/

mutual
/-- What an argument names, as `is_directory` and `is_regular_file` see it. Simplified: no directory is beneath itself (by way of symbolic
links), and directories do not change while they are gone through. -/
inductive Entry where
  | file (p : Path)
  | dir (p : Path) (l : Entries)
  | other (p : Path)

/-- Several of them: arguments, or what a directory has in it, in the order of the iteration. -/
inductive Entries where
  | nil
  | cons (e : Entry) (l : Entries)
end

mutual
/-- The body of the loop of `process_dirent_args(p0, p1, F)`: src/command-utilities.hh L554-562. -/
def processEntry (F : Path → FM Unit) : Entry → FM Unit
  | .dir _ l => processEntries F l
  | .file p => F p
  | .other _ => FM.lift (.ok ())

/-- `process_dirent_args(p0, p1, F)`: src/command-utilities.hh L543-563. -/
def processEntries (F : Path → FM Unit) : Entries → FM Unit
  | .nil => FM.lift (.ok ())
  | .cons e l => FM.bind (processEntry F e) fun _ => processEntries F l
end

end Commands
end Scribbu
