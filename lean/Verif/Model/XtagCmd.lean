import Verif.Model.Commands
import Verif.Model.TagCloud

/-! # The sub-command `xtag` (src/xtag.cc) -/

namespace Scribbu
namespace Commands
open Process

/-- The identifier of tag cloud frames, XTG or XTAG: `is_xtag`, src/xtag.cc L300-303, L318-321, L343-346. -/
def xtgId (c : Cfg) : Bytes :=
  match c.ver with
  | .v2 => [88, 84, 71]
  | _ => [88, 84, 65, 71]

/-- Data members of `class xtag_processor`: src/xtag.cc L285-290, and `dry_run_` of its base class. -/
structure XtagCfg where
  cloud : Bytes
  owner : Bytes
  get : Bool
  create : Bool
  merge : Bool
  dryRun : Bool

/-- The frame as an object: `tag_cloud(p0, p1)`. Simplified: a frame's contents are bytes in this model, so that they are parsed here (the
code has parsed them when the tag was read). Parsing comes to an end (`C48_xtag_terminates_partial`), so that the last case does not
occur. -/
def cloudOf (d : Bytes) : Res TagCloud :=
  match TagCloud.parse d with
  | some r => r
  | none => .ub .noProgress

/-- What is done with a tag cloud: src/xtag.cc L256-272. Printing is `shownCloud`. -/
def changeCloud (o : XtagCfg) (t : TagCloud) : Res TagCloud :=
  if o.get then .ok t
  else if o.merge then
    if o.dryRun then .ok t
    else (t.merge o.cloud).1.bind fun _ => .ok (t.merge o.cloud).2
  else if o.dryRun then .ok t
  else (t.update o.cloud).1.bind fun _ => .ok (t.update o.cloud).2

/-- The body of the loop in `process_tag`: src/xtag.cc L242-274: whether the frame is counted, and the frame. A frame that is not changed
keeps its bytes. -/
def seeXtag (c : Cfg) (o : XtagCfg) (f : Fr) : Res (Bool × Fr) :=
  if f.id ≠ xtgId c then .ok (false, f)
  else
    (cloudOf f.data).bind fun t =>
    if o.owner ≠ [] ∧ o.owner ≠ t.own then .ok (false, f)
    else (changeCloud o t).bind fun t' => .ok (true, if o.get ∨ o.dryRun then f else { f with data := t'.write })

/-- The loop. -/
def seeXtags (c : Cfg) (o : XtagCfg) : List Fr → Res (Nat × List Fr)
  | [] => .ok (0, [])
  | f :: fs => (seeXtag c o f).bind fun r => (seeXtags c o fs).bind fun q => .ok (q.1 + (if r.1 then 1 else 0), r.2 :: q.2)

/-- What `--get` prints for a frame: src/xtag.cc L252-258. -/
def shownCloud (c : Cfg) (o : XtagCfg) (f : Fr) : Res (List Bytes) :=
  if f.id ≠ xtgId c then .ok []
  else
    (cloudOf f.data).bind fun t =>
    if o.owner ≠ [] ∧ o.owner ≠ t.own then .ok []
    else .ok (if t.urlencoded = [] then [] else [t.urlencoded])

/-- What `--get` prints for a tag: the lines. -/
def shownClouds (c : Cfg) (o : XtagCfg) : List Fr → Res (List Bytes)
  | [] => .ok []
  | f :: fs => (shownCloud c o f).bind fun a => (shownClouds c o fs).bind fun b => .ok (a ++ b)

/-- `process_tag(tag)`: src/xtag.cc L228-288. -/
def xtagTag (o : XtagCfg) (t : Tg) : Res (Bool × Tg) :=
  (seeXtags t.cfg o t.tag.frames).bind fun q =>
  let t := { t with tag := { t.tag with frames := q.2 } }
  if q.1 = 0 ∧ o.create ∧ !o.get then
    if o.dryRun then .ok (true, t)
    else (TagCloud.ofText o.owner o.cloud).bind fun x => .ok (true, { t with tag := t.tag.pushBack ⟨.gen, .gen, xtgId t.cfg, x.write⟩ })
  else .ok (decide (q.1 ≠ 0), t)

/-- `class xtag_processor`: src/xtag.cc L106-188, L360-435. `unknown_op` is `logicError`. -/
def setXtag (C : Conv) (c : Cfg) (tags : List Nat) (create : Creation) (au bu : Bool) (o : XtagCfg) : Processor Tg where
  v2Scope := if tags.isEmpty then .all else .some tags
  v1Scope := false
  v2Create := create
  v1Create := .never
  dryRun := o.dryRun
  adjustUnsync := au
  createBackups := bu
  createV1From _ := .throw .logicError
  createV1 := .throw .logicError
  createV2From v1 := (copyV1 C c v1).bind fun t => (xtagTag o t).bind fun r => .ok r.2
  createV2 := (xtagTag o ⟨{ c with ver := .v3 }, .empty⟩).bind fun r => .ok r.2
  processV1 _ := .throw .logicError
  processV2 := xtagTag o

/-- The options of `xtag`: src/xtag.cc L484-513, as given on the command line or in the environment. -/
structure XtagOpts where
  adjustUnsync : Bool := false
  alwaysV2 : Bool := false
  createFrame : Bool := false
  createV2 : Bool := false
  createBackups : Bool := false
  dryRun : Bool := false
  get : Bool := false
  merge : Bool := false
  owner : Bytes := []
  tags : List Nat := []
  xtags : Option Bytes := none
  deriving DecidableEq, Repr

/-- When tags are made: src/xtag.cc L592-605. `po::error` is `invalidArgument`. -/
def XtagOpts.creation (o : XtagOpts) : Res Creation :=
  if o.alwaysV2 ∧ o.createV2 then .throw .invalidArgument
  else .ok (if o.createV2 then .whenOther else if o.alwaysV2 then .always else .never)

/-- `handle_xtag` up to the processing of files: src/xtag.cc L565-634. The constructors for `--get` (L155-186) ask for no tags to be made,
no dry run, no adjustment and no backups. -/
def xtagCmd (C : Conv) (c : Cfg) (o : XtagOpts) : Res (Processor Tg) :=
  o.creation.bind fun create =>
  if o.get then .ok (setXtag C c o.tags .never false false ⟨[], o.owner, true, false, true, false⟩)
  else match o.xtags with
    | none => .throw .invalidArgument
    | some x => .ok (setXtag C c o.tags create o.adjustUnsync o.createBackups ⟨x, o.owner, false, o.createFrame, o.merge, o.dryRun⟩)

end Commands
end Scribbu
