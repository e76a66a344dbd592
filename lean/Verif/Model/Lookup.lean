import Verif.Model.Frame22
import Verif.Model.Frame23

/-! Model of the frame container of the ID3v2 tag classes and of the look-up tables kept beside it
(`frames_`, `frame_map_`, `text_map_`, `coms_`/`cnts_`/`pops_`). The three classes share one model:
id3v23.cc and id3v24.cc repeat id3v22.cc with other identifiers and class names; the places where
they differ branch on `Cfg.ver`. -/

namespace Scribbu

/-- The classes of frame objects that the look-up tables tell apart: any other class, text frames,
play counters, comments and popularimeters (id3v22.cc L604-652, the five overloads of `push_back`). -/
inductive Cls | gen | text | cnt | com | pop
  deriving DecidableEq, Repr

/-- A frame object in the tag. `ptr` stands for its address (no two live objects share one), `cls` for
its dynamic class. Simplified: the contents are one byte string (`data`): the text of a text frame,
the payload of any other. -/
structure Fr where
  ptr : Nat
  id : Bytes
  cls : Cls
  data : Bytes
  deriving DecidableEq, Repr

/-- A frame that a caller passes to `push_back`, `insert` or an assignment: `cls` is its dynamic class,
`ov` the class by which it is passed, which selects the overload (`Cls.gen`: as the base class). -/
structure Arg where
  ov : Cls
  cls : Cls
  id : Bytes
  data : Bytes
  deriving DecidableEq, Repr

/-- What the model depends on: the class of tag; whether `unordered_multimap::find` returns the newest or the
oldest of several elements with one key (the standard leaves that open); and for which identifiers
the tag has a text frame parser (never PRIV in an ID3v2.3 tag, id3v23.cc L1521-1525). -/
structure Cfg where
  ver : Ver
  newest : Bool
  textParser : Bytes → Bool

/-- The tag: its frames and look-up tables, oldest entry first; `next` is an address not yet in use.
id3v22.hh L686-728, id3v23.hh L773-805, id3v24.hh L829-862 (data members). -/
structure LTag where
  frames : List Fr
  frameMap : List (Bytes × Nat)
  textMap : List (Bytes × Nat)
  coms : List (Nat × Nat)
  cnts : List (Nat × Nat)
  pops : List (Nat × Nat)
  next : Nat
  deriving DecidableEq, Repr

namespace Cfg

/-- The identifier of comments: "COM" or "COMM" (id3v22.cc L688, id3v23.cc L1067, id3v24.cc L1153). -/
def comId (c : Cfg) : Bytes := match c.ver with | .v2 => [67, 79, 77] | _ => [67, 79, 77, 77]
/-- The identifier of play counters: "CNT" or "PCNT" (same lines). -/
def cntId (c : Cfg) : Bytes := match c.ver with | .v2 => [67, 78, 84] | _ => [80, 67, 78, 84]
/-- The identifier of popularimeters: "POP" or "POPM" (same lines). -/
def popId (c : Cfg) : Bytes := match c.ver with | .v2 => [80, 79, 80] | _ => [80, 79, 80, 77]
/-- The identifier of user-defined text: "TXX" or "TXXX". -/
def txxId (c : Cfg) : Bytes := match c.ver with | .v2 => [84, 88, 88] | _ => [84, 88, 88, 88]
/-- The identifier whose frames `has_play_count` counts: id3v22.hh L201-202 and id3v23.hh L304-305 count
play counters; id3v24.hh L337-338 counts "CNT", stored as four bytes. -/
def hasCntId (c : Cfg) : Bytes := match c.ver with | .v4 => [67, 78, 84, 0] | _ => c.cntId

end Cfg

/-- `frame_id3::text_frame`, `frame_id4::text_frame`, framesv2.hh L287-289 and L334-336. -/
def isTextId (id : Bytes) : Bool := id.head? = some 84

namespace LTag

/-- A tag without frames. -/
def empty : LTag := ⟨[], [], [], [], [], [], 0⟩

/-- `unordered_multimap::find`: one of the elements with key `k`. -/
def mfind (c : Cfg) (m : List (Bytes × Nat)) (k : Bytes) : Option Nat :=
  ((if c.newest then m.reverse else m).find? fun e => e.1 = k).map Prod.snd

/-- `p->...` where `p` points to a frame: undefined once the frame is gone. -/
def deref (t : LTag) (p : Nat) : Res Fr :=
  match t.frames.find? fun f => f.ptr = p with
  | some f => .ok f
  | none => .ub .dangling

/-- `add_frame_to_lookups`, the overload for class `ov`: id3v22.cc L731-768, id3v23.cc L1106-1143,
id3v24.cc L1192-1229. -/
def addLookups (t : LTag) (ov : Cls) (f : Fr) (idx : Nat) : LTag :=
  let t := match ov with
    | .gen => t
    | .text => { t with textMap := t.textMap ++ [(f.id, f.ptr)] }
    | .cnt => { t with cnts := t.cnts ++ [(f.ptr, idx)] }
    | .com => { t with coms := t.coms ++ [(f.ptr, idx)] }
    | .pop => { t with pops := t.pops ++ [(f.ptr, idx)] }
  { t with frameMap := t.frameMap ++ [(f.id, idx)] }

/-- `p = find_if(v.begin(), v.end(), x.second == idx); v.erase(p)`. -/
def eraseIx (l : List (Nat × Nat)) (idx : Nat) : Res (List (Nat × Nat)) :=
  if l.any fun x => x.2 = idx then .ok (l.eraseP fun x => x.2 = idx) else .ub .badIterator

/-- The first half of `remove_frame_from_lookups`: the table for the class that the identifier stands for.
id3v22.cc L690-722 (which throws if a text frame is not in its table), id3v23.cc L1069-1097 and
id3v24.cc L1155-1183 (which erase `end()`). -/
def removeTyped (c : Cfg) (t : LTag) (id : Bytes) (idx : Nat) : Res LTag :=
  if id = c.comId then (eraseIx t.coms idx).bind fun l => .ok { t with coms := l }
  else if id = c.cntId then (eraseIx t.cnts idx).bind fun l => .ok { t with cnts := l }
  else if id = c.popId then (eraseIx t.pops idx).bind fun l => .ok { t with pops := l }
  else if isTextId id then
    match t.frames[idx]? with
    | none => .ub .oobRead
    | some f =>
      if (id, f.ptr) ∈ t.textMap then .ok { t with textMap := t.textMap.erase (id, f.ptr) }
      else match c.ver with
        | .v2 => .throw .logicError
        | _ => .ub .badIterator
  else .ok t

/-- `remove_frame_from_lookups`: id3v22.cc L685-729, id3v23.cc L1064-1104, id3v24.cc L1150-1190. -/
def removeLookups (c : Cfg) (t : LTag) (id : Bytes) (idx : Nat) : Res LTag :=
  (removeTyped c t id idx).bind fun t =>
    if (id, idx) ∈ t.frameMap then .ok { t with frameMap := t.frameMap.erase (id, idx) }
    else .ub .badIterator

/-- A copy of the caller's frame (`clone` or copy constructor) at a new address. -/
def alloc (t : LTag) (a : Arg) : Fr × LTag := (⟨t.next, a.id, a.cls, a.data⟩, { t with next := t.next + 1 })

/-- `push_back`: id3v22.cc L604-652, id3v23.cc L982-1030, id3v24.cc L1056-1104. -/
def pushBack (t : LTag) (a : Arg) : LTag :=
  let (f, t) := t.alloc a
  let t := { t with frames := t.frames ++ [f] }
  t.addLookups a.ov f (t.frames.length - 1)

/-- `insert`: id3v22.cc L525-602, id3v23.cc L904-980, id3v24.cc L977-1054. -/
def insert (t : LTag) (i : Nat) (a : Arg) : Res LTag :=
  if t.frames.length < i then .ub .oobWrite
  else
    let (f, t) := t.alloc a
    let t := { t with frames := t.frames.take i ++ f :: t.frames.drop i }
    .ok (t.addLookups a.ov f i)

/-- Assignment of a frame through a dereferenced iterator (the five copying overloads of
`mutable_frame_proxy::operator=`): id3v22.cc L430-523, id3v23.cc L808-902, id3v24.cc L881-975. -/
def assign (c : Cfg) (t : LTag) (i : Nat) (a : Arg) : Res LTag :=
  match t.frames[i]? with
  | none => .ub .oobRead
  | some old =>
    let (f, t) := t.alloc a
    (removeLookups c t old.id i).bind fun t =>
      .ok (({ t with frames := t.frames.set i f }).addLookups a.ov f i)

/-- The overload of `add_frame_to_lookups` that a move assignment selects, by the identifier; a
`dynamic_cast` to another class than the frame's throws `bad_cast`. id3v22.cc L402-425, id3v23.cc
L782-803, id3v24.cc L855-876. -/
def castFor (c : Cfg) (f : Fr) : Res Cls :=
  let want := if f.id = c.cntId then .cnt else if f.id = c.comId then .com
    else if f.id = c.popId then .pop else if isTextId f.id then .text else Cls.gen
  if want = .gen ∨ want = f.cls then .ok want else .throw .other

/-- Move assignment between two places of one tag, which the standard algorithms use (`remove_if`):
id3v22.cc L391-428, id3v23.cc L771-806, id3v24.cc L844-879. Simplified: both places belong to one
tag. -/
def moveAssign (c : Cfg) (t : LTag) (i j : Nat) : Res LTag :=
  match t.frames[i]?, t.frames[j]? with
  | some fi, some fj =>
    (removeLookups c t fi.id i).bind fun t =>
      let t := { t with frames := (t.frames.set i fj).set j fi }
      (castFor c fi).bind fun ov => .ok (t.addLookups ov fi j)
  | _, _ => .ub .oobRead

/-- `erase(p)`: id3v22.cc L654-660, id3v23.cc L1032-1038, id3v24.cc L1106-1112. -/
def erase (c : Cfg) (t : LTag) (i : Nat) : Res LTag :=
  match t.frames[i]? with
  | none => .ub .oobRead
  | some f => (removeLookups c t f.id i).bind fun t => .ok { t with frames := t.frames.eraseIdx i }

/-- The loop of `erase(p0, p1)`: `n` frames from `i` on leave the look-up tables. id3v22.cc L665-668,
id3v23.cc L1043-1046, id3v24.cc L1117-1120. -/
def removeRange (c : Cfg) (t : LTag) (i : Nat) : Nat → Res LTag
  | 0 => .ok t
  | n + 1 =>
    match t.frames[i]? with
    | none => .ub .oobRead
    | some f => (removeLookups c t f.id i).bind fun t => removeRange c t (i + 1) n

/-- `erase(p0, p1)`: id3v22.cc L662-672, id3v23.cc L1040-1050, id3v24.cc L1114-1124. -/
def eraseRange (c : Cfg) (t : LTag) (i j : Nat) : Res LTag :=
  (removeRange c t i (j - i)).bind fun t => .ok { t with frames := t.frames.take i ++ t.frames.drop j }

/-- `delete_frame`: id3v22.cc L373-385, id3v23.cc L754-764, id3v24.cc L828-838. -/
def deleteFrame (c : Cfg) (t : LTag) (id : Bytes) : Res LTag :=
  match mfind c t.frameMap id with
  | none => .ok t
  | some idx => (removeLookups c t id idx).bind fun t =>
    if idx < t.frames.length then .ok { t with frames := t.frames.eraseIdx idx } else .ub .badIterator

/-- `set_text_frame`, which the setters `title`, `artist`, `text`, ... call: id3v22.cc L1030-1048,
id3v23.cc L1607-1624, id3v24.cc L1654-1672. Simplified: the text is given already encoded. -/
def setText (c : Cfg) (t : LTag) (id data : Bytes) : Res LTag :=
  match mfind c t.textMap id with
  | some p => (t.deref p).bind fun _ =>
    .ok { t with frames := t.frames.map fun f => if f.ptr = p then { f with data := data } else f }
  | none => .ok (t.pushBack ⟨.text, .text, id, data⟩)

/-- `add_comment`: in id3v22.cc L314-330 and id3v24.cc L758-777 the pointer is dereferenced after it was
moved from; id3v23.cc L686-707 passes the comment by const reference, which selects the overload for
the base class. -/
def addComment (c : Cfg) (t : LTag) (data : Bytes) : Res LTag :=
  match c.ver with
  | .v3 => .ok (t.pushBack ⟨.gen, .com, c.comId, data⟩)
  | _ => .ub .afterMove

/-- `add_user_defined_text`: id3v22.cc L332-347 and id3v24.cc L782-800 (pointer dereferenced after it
was moved from), id3v23.cc L709-726. -/
def addUserText (c : Cfg) (t : LTag) (data : Bytes) : Res LTag :=
  match c.ver with
  | .v3 => .ok (t.pushBack ⟨.gen, .gen, c.txxId, data⟩)
  | _ => .ub .afterMove

/-- `parse_frame`, which enters a frame found in a file: id3v22.cc L951-1012, id3v23.cc L1480-1566,
id3v24.cc L1517-1612. -/
def parseFrame (c : Cfg) (t : LTag) (id data : Bytes) : LTag :=
  let cls := if id = c.comId then .com else if id = c.cntId then .cnt else if id = c.popId then .pop
    else if c.textParser id then Cls.text else .gen
  t.pushBack ⟨cls, cls, id, data⟩

/-- The copy constructor of id3v2_2_tag, id3v22.cc L201-212. The frames are entered by the base class
and with the number of frames so far instead of the index. (The other two classes initialise their
base class with themselves, id3v23.cc L348-350 and id3v24.cc L498-500: not modelled.) -/
def copy22 (t : LTag) : LTag :=
  t.frames.foldl (fun n f =>
    let (g, n) := n.alloc ⟨.gen, f.cls, f.id, f.data⟩
    let n := { n with frames := n.frames ++ [g] }
    n.addLookups .gen g n.frames.length) empty

/-- `has_frame`: id3v22.hh L303-304, id3v23.hh L408-409, id3v24.hh L444-445. The accessors `has_album`,
`has_title`, ... are calls with a fixed identifier. -/
def hasFrame (t : LTag) (id : Bytes) : Nat := t.frameMap.countP fun e => e.1 = id

/-- `get_frame`: id3v22.hh L306-309, id3v23.hh L411-415, id3v24.hh L447-451. -/
def getFrame (c : Cfg) (t : LTag) (id : Bytes) : Res Fr :=
  match mfind c t.frameMap id with
  | none => .ub .badIterator
  | some idx =>
    match t.frames[idx]? with
    | none => .throw .outOfRange
    | some f => .ok f

/-- `text_frame_as_str`, which the accessors `title`, `artist`, `text`, ... call: id3v22.cc L1016-1028,
id3v23.cc L1592-1604, id3v24.cc L1639-1651. -/
def textOf (c : Cfg) (t : LTag) (id : Bytes) : Res Bytes :=
  match mfind c t.textMap id with
  | none => .throw .unknownFrame
  | some p => (t.deref p).bind fun f => .ok f.data

/-- The loop of `get_comments`, `get_play_counts` and `get_popularimeters`: id3v22.hh L311-338,
id3v23.hh L417-443, id3v24.hh L453-479. -/
def derefAll (t : LTag) : List (Nat × Nat) → Res (List Bytes)
  | [] => .ok []
  | x :: l => (t.deref x.1).bind fun f => (derefAll t l).bind fun r => .ok (f.data :: r)

/-- `get_comments`. -/
def comments (t : LTag) : Res (List Bytes) := derefAll t t.coms
/-- `get_play_counts`. -/
def counts (t : LTag) : Res (List Bytes) := derefAll t t.cnts
/-- `get_popularimeters`. -/
def populars (t : LTag) : Res (List Bytes) := derefAll t t.pops

/-- `play_count`: id3v22.cc L302-312, id3v23.cc L673-683, id3v24.cc L746-756. Simplified: the payload of
the counter instead of the number in it. -/
def playCount (c : Cfg) (t : LTag) : Res Bytes :=
  match t.hasFrame c.hasCntId with
  | 1 => match t.cnts with
    | [] => .ub .emptyContainer
    | x :: _ => (t.deref x.1).bind fun f => .ok f.data
  | _ => .throw .logicError

/-- What a program can do to the frames of a tag. -/
inductive Op
  | pushBack (a : Arg)
  | insert (i : Nat) (a : Arg)
  | assign (i : Nat) (a : Arg)
  | moveAssign (i j : Nat)
  | erase (i : Nat)
  | eraseRange (i j : Nat)
  | deleteFrame (id : Bytes)
  | setText (id data : Bytes)
  | addComment (data : Bytes)
  | addUserText (data : Bytes)
  | parseFrame (id data : Bytes)
  deriving DecidableEq, Repr

/-- One operation. -/
def step (c : Cfg) (t : LTag) : Op → Res LTag
  | .pushBack a => .ok (t.pushBack a)
  | .insert i a => t.insert i a
  | .assign i a => t.assign c i a
  | .moveAssign i j => t.moveAssign c i j
  | .erase i => t.erase c i
  | .eraseRange i j => t.eraseRange c i j
  | .deleteFrame id => t.deleteFrame c id
  | .setText id data => t.setText c id data
  | .addComment data => t.addComment c data
  | .addUserText data => t.addUserText c data
  | .parseFrame id data => .ok (t.parseFrame c id data)

/-- A history of operations. -/
def run (c : Cfg) (t : LTag) : List Op → Res LTag
  | [] => .ok t
  | o :: os => (t.step c o).bind fun t => run c t os

end LTag

end Scribbu
