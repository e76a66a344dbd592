import Verif.Model.Commands
import Verif.Model.Charset

/-! # The sub-command `text` (src/text.cc) -/

namespace Scribbu
namespace Commands
open Process

/-- `delete_frame(id)`: scribbu/id3v22.cc L375-385, scribbu/id3v23.cc L754-764, scribbu/id3v24.cc L828-838. -/
def Tg.delete (t : Tg) (f : TextFrame) : Res Tg :=
  (frameId t.cfg.ver f).bind fun id => (t.tag.deleteFrame t.cfg id).bind fun l => .ok { t with tag := l }

/-- The loop over `dels_`: src/text.cc L296-304. -/
def deleteAll : List TextFrame → Tg → Res Tg
  | [], t => .ok t
  | f :: fs, t => (t.delete f).bind fun t => deleteAll fs t

/-- The loop over `adds_`: src/text.cc L305-313. The conversion is from `enc_` (simplified: texts are in UTF-8). -/
def setAll (C : Conv) : List (TextFrame × Bytes) → Tg → Res Tg
  | [], t => .ok t
  | x :: xs, t => (t.setText C x.1 x.2).bind fun t => setAll C xs t

/-- `set_text::process_tag(ptag)`, which the three overloads of `process_v2` are: src/text.cc L270-315. -/
def textTag (C : Conv) (dels : List TextFrame) (adds : List (TextFrame × Bytes)) (t : Tg) : Res (Bool × Tg) :=
  (deleteAll dels t).bind fun t => (setAll C adds t).bind fun t => .ok (true, t)

/-- The first loop of `set_text::process_v1(v1)`: src/text.cc L232-247. Converting the empty text gives no bytes. -/
def clearV1 : List TextFrame → V1Tag → V1Tag
  | [], t => t
  | .tit2 :: fs, t => clearV1 fs (t.apply (.setTitle []))
  | .tpe1 :: fs, t => clearV1 fs (t.apply (.setArtist []))
  | .talb :: fs, t => clearV1 fs (t.apply (.setAlbum []))
  | _ :: fs, t => clearV1 fs t

/-- The second: src/text.cc L249-264. -/
def setV1 (C : Conv) : List (TextFrame × Bytes) → V1Tag → Res V1Tag
  | [], t => .ok t
  | (.tit2, s) :: xs, t => (C.v1Plain s).bind fun b => setV1 C xs (t.apply (.setTitle b))
  | (.tpe1, s) :: xs, t => (C.v1Plain s).bind fun b => setV1 C xs (t.apply (.setArtist b))
  | (.talb, s) :: xs, t => (C.v1Plain s).bind fun b => setV1 C xs (t.apply (.setAlbum b))
  | _ :: xs, t => setV1 C xs t

/-- `set_text::process_v1(v1)`: src/text.cc L224-267. `num_deltas` stays zero. -/
def textV1 (C : Conv) (dels : List TextFrame) (adds : List (TextFrame × Bytes)) (t : V1Tag) : Res (Bool × V1Tag) :=
  (setV1 C adds (clearV1 dels t)).bind fun t => .ok (false, t)

/-- `class set_text`: src/text.cc L100-268, by whether indices were given. `bad_operation` is `logicError`. -/
def setTexts (C : Conv) (c : Cfg) (tags : List Nat) (create : Creation) (au bu : Bool) (dels : List TextFrame)
    (adds : List (TextFrame × Bytes)) : Processor Tg where
  v2Scope := if tags.isEmpty then .all else .some tags
  v1Scope := if tags.isEmpty then false else true
  v2Create := create
  v1Create := .never
  dryRun := false
  adjustUnsync := au
  createBackups := bu
  createV1From _ := .throw .logicError
  createV1 := .throw .logicError
  createV2From v1 := (copyV1 C c v1).bind fun t => (textTag C dels adds t).bind fun r => .ok r.2
  createV2 := (textTag C dels adds ⟨{ c with ver := .v3 }, .empty⟩).bind fun r => .ok r.2
  processV1 := textV1 C dels adds
  processV2 := textTag C dels adds

/-- The options of `text`: src/text.cc L365-400, as given on the command line or in the environment. -/
structure TextOpts where
  album : Option Bytes := none
  artist : Option Bytes := none
  encodedBy : Option Bytes := none
  genre : Option Bytes := none
  title : Option Bytes := none
  track : Option Bytes := none
  year : Option Bytes := none
  delete : List Bytes := []
  encoding : Option Encoding := none
  createV2 : Bool := false
  alwaysV2 : Bool := false
  tags : List Nat := []
  adjustUnsync : Bool := false
  createBackups : Bool := false
  deriving DecidableEq, Repr

/-- `adds`, a `map` from frames (in the order of the enumeration) to texts: src/text.cc L463-484. -/
def TextOpts.adds (o : TextOpts) : List (TextFrame × Bytes) :=
  let item := fun (f : TextFrame) (s : Option Bytes) => (s.map fun s => (f, s)).toList
  item .talb o.album ++ item .tcon o.genre ++ item .tenc o.encodedBy ++ item .tit2 o.title ++ item .tpe1 o.artist ++
    item .trck o.track ++ item .tyer o.year

/-- The loop for `dels`: src/text.cc L486-491. Simplified: `lexical_cast` also throws if the name is followed by something else. -/
def namedFrames : List Bytes → Res (List TextFrame)
  | [] => .ok []
  | s :: ss => (TextFrame.parse s).bind fun f => (namedFrames ss).bind fun fs => .ok (f :: fs)

/-- The encoding of the arguments: src/text.cc L460-461. -/
def TextOpts.source (o : TextOpts) (global user : Bytes) : Res Encoding :=
  match o.encoding with
  | some e => .ok e
  | none => Encoding.fromSystemLocale global user

/-- `handle_text` up to the processing of files, in a process with the names of the global and the user's locale: src/text.cc
L450-529. `po::error` is `invalidArgument`. -/
def textCmd (C : Conv) (c : Cfg) (global user : Bytes) (o : TextOpts) : Res (Processor Tg) :=
  (o.source global user).bind fun _ =>
  (namedFrames o.delete).bind fun dels =>
  (match o.alwaysV2, o.createV2 with
   | true, true => (.throw .invalidArgument : Res Creation)
   | false, true => .ok .whenOther
   | true, false => .ok .always
   | false, false => .ok .never).bind fun create =>
  .ok (setTexts C c o.tags create o.adjustUnsync o.createBackups dels o.adds)

end Commands
end Scribbu
