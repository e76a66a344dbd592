import Verif.Model.Commands
import Verif.Model.Bodies

/-! # The sub-command `popm` (src/popm.cc) -/

namespace Scribbu
namespace Commands
open Process

/-- `set_pcnt_popm::frame_policy`: src/popm.cc L165. -/
inductive Frames where
  | both | pcntOnly | popmOnly
  deriving DecidableEq, Repr

/-- Data members of `class set_pcnt_popm`: src/popm.cc L456-461, and `dry_run_` of its base class. `email` stands for the conversion
that `email<string>()` does, from ASCII to UTF-8: scribbu/framesv22.hh, scribbu/framesv23.hh L1154-1167, scribbu/framesv24.hh. -/
structure PopmCfg where
  rating : Option Byte
  policy : Frames
  owner : Option Bytes
  count : Nat
  absolute : Bool
  createFrame : Bool
  dryRun : Bool
  email : Bytes → Res Bytes

/-- `new_pc`: src/popm.cc L264-267 and L287-290; a `size_t`. -/
def PopmCfg.new (o : PopmCfg) (old : Res Nat) : Res Nat :=
  if o.absolute then .ok o.count else old.bind fun n => .ok ((o.count + n) % 2 ^ 64)

/-- `process_pcnt(G)`: src/popm.cc L257-275: the new count and the frame. -/
def processPcnt (o : PopmCfg) (d : Bytes) : Res (Nat × Bytes) :=
  (o.new (counterCount d)).bind fun n => .ok (n, if o.dryRun then d else resetCounter n)

/-- `process_popm(G, email)`: src/popm.cc L279-304. -/
def processPopm (o : PopmCfg) (p : Popm) : Res (Nat × Popm) :=
  (o.new p.count).bind fun n => .ok (n, if o.dryRun then p else ⟨p.email, o.rating.getD p.rating, resetCounter n⟩)

/-- `num_pcnt`, `num_popm`, `curr_pc`: src/popm.cc L345-347. -/
structure Seen where
  pcnt : Nat
  popm : Nat
  pc : Nat
  deriving DecidableEq, Repr

/-- The part for PCNT frames of the loop in `process_tag`: src/popm.cc L353-366. `create` is the argument `create_frame`. -/
def seePcnt (o : PopmCfg) (s : Seen) (d : Bytes) : Res (Seen × Bytes) :=
  if o.policy = .popmOnly then (counterCount d).bind fun n => .ok ({ s with pc := max s.pc n }, d)
  else (processPcnt o d).bind fun r => .ok ({ s with pcnt := s.pcnt + 1, pc := max s.pc r.1 }, r.2)

/-- The part for POPM frames: src/popm.cc L369-381. Simplified: a frame's contents are bytes in this model, so that they are parsed
here (the code has parsed them when the tag was read). -/
def seePopm (o : PopmCfg) (s : Seen) (d : Bytes) : Res (Seen × Bytes) :=
  (Popm.parse d).bind fun p =>
  (if p.email.isEmpty then .ok [] else o.email p.email).bind fun e =>
  p.count.bind fun n =>
  if o.owner = none ∨ o.owner = some e then
    (processPopm o p).bind fun r => .ok ({ s with popm := s.popm + 1, pc := max s.pc r.1 }, r.2.write)
  else .ok ({ s with pc := max s.pc n }, d)

/-- The body of the loop: src/popm.cc L350-383. `std::bad_cast` is `other`. -/
def seeFrame (c : Cfg) (o : PopmCfg) (create : Bool) (s : Seen) (f : Fr) : Res (Seen × Fr) :=
  if f.id = c.cntId ∧ (create ∨ o.policy ≠ .popmOnly) then
    if f.cls = .cnt then (seePcnt o s f.data).bind fun r => .ok (r.1, { f with data := r.2 }) else .throw .other
  else if f.id = c.popId ∧ (create ∨ o.policy ≠ .pcntOnly) then
    if f.cls = .pop then (seePopm o s f.data).bind fun r => .ok (r.1, { f with data := r.2 }) else .throw .other
  else .ok (s, f)

/-- The loop. -/
def seeFrames (c : Cfg) (o : PopmCfg) (create : Bool) : Seen → List Fr → Res (Seen × List Fr)
  | s, [] => .ok (s, [])
  | s, f :: fs => (seeFrame c o create s f).bind fun r => (seeFrames c o create r.1 fs).bind fun q => .ok (q.1, r.2 :: q.2)

/-- `tag.push_back(traits_type::make_pcnt(pc))`: src/popm.cc L394-415. -/
def makePcnt (o : PopmCfg) (s : Seen) (t : Tg) : Bool × Tg :=
  if o.policy ≠ .popmOnly ∧ s.pcnt = 0 then
    (true, if o.dryRun then t
      else { t with tag := t.tag.pushBack ⟨.cnt, .cnt, t.cfg.cntId, resetCounter (if s.pc = 0 then o.count else s.pc)⟩ })
  else (false, t)

/-- `tag.push_back(traits_type::make_popm(email, rating, pc))`: src/popm.cc L418-446. -/
def makePopm (o : PopmCfg) (s : Seen) (t : Tg) : Bool × Tg :=
  match o.owner, o.rating with
  | some own, some r =>
    if o.policy ≠ .pcntOnly ∧ s.popm = 0 then
      (true, if o.dryRun then t
        else { t with tag := t.tag.pushBack ⟨.pop, .pop, t.cfg.popId, (Popm.make own r (if s.pc = 0 then o.count else s.pc)).write⟩ })
    else (false, t)
  | _, _ => (false, t)

/-- `process_tag(tag, create_frame)`: src/popm.cc L334-452. -/
def popmTag (o : PopmCfg) (create : Bool) (t : Tg) : Res (Bool × Tg) :=
  (seeFrames t.cfg o create ⟨0, 0, 0⟩ t.tag.frames).bind fun q =>
  let t := { t with tag := { t.tag with frames := q.2 } }
  let upd := q.1.popm ≠ 0 ∨ q.1.pcnt ≠ 0
  if create then
    let a := makePcnt o q.1 t
    let b := makePopm o q.1 a.2
    .ok (decide upd || a.1 || b.1, b.2)
  else .ok (decide upd, t)

/-- `class set_pcnt_popm`: src/popm.cc L161-254, L464-537. `unknown_op` is `logicError`. -/
def setPopm (C : Conv) (c : Cfg) (tags : List Nat) (create : Creation) (au bu : Bool) (o : PopmCfg) : Processor Tg where
  v2Scope := if tags.isEmpty then .all else .some tags
  v1Scope := false
  v2Create := create
  v1Create := .never
  dryRun := o.dryRun
  adjustUnsync := au
  createBackups := bu
  createV1From _ := .throw .logicError
  createV1 := .throw .logicError
  createV2From v1 := (copyV1 C c v1).bind fun t => (popmTag o true t).bind fun r => .ok r.2
  createV2 := (popmTag o true ⟨{ c with ver := .v3 }, .empty⟩).bind fun r => .ok r.2
  processV1 _ := .throw .logicError
  processV2 := popmTag o o.createFrame

/-! ## Ratings -/

/-- The value of decimal digits; nothing if one of the characters is none. -/
def digitsVal : Nat → Bytes → Option Nat
  | n, [] => some n
  | n, c :: cs => if 48 ≤ c ∧ c ≤ 57 then digitsVal (10 * n + (c.toNat - 48)) cs else none

/-- `lexical_cast<unsigned short>(text)` of Boost: a sign, if any, and digits; a number that does not fit, or no digits, is an error
(`none`); a negative number is taken modulo 2¹⁶. Simplified: the locale has no separators between groups of digits. -/
def castUShort (b : Bytes) : Option Nat :=
  let sd : Bool × Bytes := match b with
    | 45 :: ds => (true, ds)
    | 43 :: ds => (false, ds)
    | ds => (false, ds)
  if sd.2.isEmpty then none
  else (digitsVal 0 sd.2).bind fun n => if n < 65536 then some (if sd.1 then (65536 - n) % 65536 else n) else none

/-- The characters in `[a-zA-Z@#%*+]`: src/popm.cc L661. -/
def starChar (c : Byte) : Bool := (97 ≤ c && c ≤ 122) || (65 ≤ c && c ≤ 90) || c = 64 || c = 35 || c = 37 || c = 42 || c = 43

/-- The second half of `rating_from_text`: src/popm.cc L658-690. `po::error` is `invalidArgument`. -/
def starsRating (b : Bytes) : Res Byte :=
  if 1 ≤ b.length ∧ b.length ≤ 5 ∧ b.all starChar then
    .ok (match b.length with
      | 1 => 1
      | 2 => 64
      | 3 => 128
      | 4 => 196
      | _ => 255)
  else .throw .invalidArgument

/-- `rating_from_text(text)`: src/popm.cc L641-693. -/
def ratingFromText (b : Bytes) : Res Byte :=
  match castUShort b with
  | some n => if n ≤ 255 then .ok (UInt8.ofNat n) else starsRating b
  | none => starsRating b

/-! ## Options -/

/-- The options of `popm`: src/popm.cc L745-776, as given on the command line or in the environment. -/
structure PopmOpts where
  adjustUnsync : Bool := false
  alwaysV2 : Bool := false
  count : Option Nat := none
  createV2 : Bool := false
  createFrame : Bool := false
  createBackups : Bool := false
  dryRun : Bool := false
  increment : Option Nat := none
  owner : Option Bytes := none
  playcountOnly : Bool := false
  popularimeterOnly : Bool := false
  rating : Option Bytes := none
  tags : List Nat := []
  deriving DecidableEq, Repr

/-- The rating: src/popm.cc L855-858. -/
def PopmOpts.stars (o : PopmOpts) : Res (Option Byte) :=
  match o.rating with
  | none => .ok none
  | some s => (ratingFromText s).bind fun r => .ok (some r)

/-- The frames: src/popm.cc L862-873. `invalid_option_value` is `invalidArgument`. -/
def PopmOpts.frames (o : PopmOpts) : Res Frames :=
  if o.playcountOnly ∧ o.popularimeterOnly then .throw .invalidArgument
  else .ok (if o.playcountOnly then .pcntOnly else if o.popularimeterOnly then .popmOnly else .both)

/-- The count, and whether it is absolute: src/popm.cc L875-892. -/
def PopmOpts.counts (o : PopmOpts) : Res (Nat × Bool) :=
  match o.increment, o.count with
  | some _, some _ => .throw .invalidArgument
  | some i, none => .ok (i, false)
  | none, some n => .ok (n, true)
  | none, none => .ok (1, false)

/-- When tags are made: src/popm.cc L894-906. -/
def PopmOpts.creation (o : PopmOpts) : Res Creation :=
  if o.createV2 ∧ o.alwaysV2 then .throw .invalidArgument
  else .ok (if o.alwaysV2 then .always else if o.createV2 then .whenOther else .never)

/-- `handle_popm` up to the processing of files: src/popm.cc L821-935. The indices given are put into a variable that is not used
(L851-853): `tags` stays empty. -/
def popmCmd (C : Conv) (c : Cfg) (email : Bytes → Res Bytes) (o : PopmOpts) : Res (Processor Tg) :=
  o.stars.bind fun rating =>
  o.frames.bind fun fp =>
  o.counts.bind fun pc =>
  o.creation.bind fun create =>
  .ok (setPopm C c [] create o.adjustUnsync o.createBackups ⟨rating, fp, o.owner, pc.1, pc.2, o.createFrame, o.dryRun, email⟩)

end Commands
end Scribbu
