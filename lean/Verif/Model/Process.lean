import Verif.Model.Id3v1
import Verif.Model.Read
import Verif.Model.Replace

/-! # Sub-commands that process the tags of files (src/command-utilities.cc, src/command-utilities.hh)

`class tagset_processor` is an abstract class: what a sub-command does with a tag is in virtual members. Here it is a structure of
functions, over the type `τ` of ID3v2 tags. -/

namespace Scribbu
namespace Process
open Path FM

/-- `v2_creation_policy`, `v1_creation_policy`: src/command-utilities.hh L217-220. The second is `when_v1_present` or
`when_v2_present`. -/
inductive Creation where
  | never | whenOther | always
  deriving DecidableEq, Repr

/-- `v2_tag_scope_policy`: src/command-utilities.hh L224, with the indices `v2_tags_` (L428). -/
inductive V2Scope where
  | all | none | some (tags : List Nat)
  deriving DecidableEq, Repr

/-- `class tagset_processor`, its data members (src/command-utilities.hh L419-428) and pure virtual members (L399-417). Of
`process_v2`'s three overloads that for the class of the tag is called; one that does not belong to any is not modelled
(`read_all_id3v2` makes no others). A function that changes a tag returns the changed tag. Simplified: sub-commands keep
nothing from one file to the next, and what they print is left out. -/
structure Processor (τ : Type) where
  v2Scope : V2Scope
  v1Scope : Bool
  v2Create : Creation
  v1Create : Creation
  dryRun : Bool
  adjustUnsync : Bool
  createBackups : Bool
  createV1From : List τ → Res V1Tag
  createV1 : Res V1Tag
  createV2From : V1Tag → Res τ
  createV2 : Res τ
  processV1 : V1Tag → Res (Bool × V1Tag)
  processV2 : τ → Res (Bool × τ)

variable {τ : Type}

/-- The loop over the ID3v2 tags, from the `i`-th on: src/command-utilities.cc L339-361: whether one of them was updated, and the
tags. `tags` is the `deque` of indices; `front` of an empty one is undefined. -/
def scopeLoop (F : τ → Res (Bool × τ)) : Nat → List Nat → List τ → Res (Bool × List τ)
  | _, _, [] => .ok (false, [])
  | _, [], _ :: _ => .ub .emptyContainer
  | i, k :: ks, t :: ts =>
    if k = i then
      (F t).bind fun (upd, t') => (scopeLoop F (i + 1) ks ts).bind fun (rest, ts') => .ok (upd || rest, t' :: ts')
    else (scopeLoop F (i + 1) (k :: ks) ts).bind fun (rest, ts') => .ok (rest, t :: ts')

/-- The indices of the tags to be processed, of `n`: src/command-utilities.cc L329-336. -/
def indices (n : Nat) : V2Scope → List Nat
  | .some tags => tags
  | _ => List.range n

/-- The ID3v2 tags: src/command-utilities.cc L309-362: whether anything was updated, the tags, and the new tag. -/
def editV2 (P : Processor τ) (v2 : List τ) (v1 : Option V1Tag) : Res (Bool × List τ × Option τ) :=
  match v2 with
  | [] =>
    match v1 with
    | some t => if P.v2Create ≠ .never then (P.createV2From t).bind fun n => .ok (true, [], some n) else .ok (false, [], none)
    | none => if P.v2Create = .always then P.createV2.bind fun n => .ok (true, [], some n) else .ok (false, [], none)
  | _ :: _ =>
    if P.v2Scope = .none then .ok (false, v2, none)
    else (scopeLoop P.processV2 0 (indices v2.length P.v2Scope) v2).bind fun (upd, v2') => .ok (upd, v2', none)

/-- The ID3v1 tag: src/command-utilities.cc L364-383. `v2` are the ID3v2 tags found in the file (a new one is not among them), as
they are by now. -/
def editV1 (P : Processor τ) (v2 : List τ) (v1 : Option V1Tag) : Res (Bool × Option V1Tag) :=
  match v1 with
  | none =>
    if !v2.isEmpty ∧ P.v1Create ≠ .never then (P.createV1From v2).bind fun n => .ok (true, some n)
    else if v2.isEmpty ∧ P.v1Create = .always then P.createV1.bind fun n => .ok (true, some n)
    else .ok (false, none)
  | some t => if P.v1Scope then (P.processV1 t).bind fun (upd, t') => .ok (upd, some t') else .ok (false, some t)

/-- What `process_file` does with the tags: src/command-utilities.cc L309-392: whether there is anything to write, and what. -/
def edit (P : Processor τ) (v2 : List τ) (v1 : Option V1Tag) : Res (Bool × List τ × Option V1Tag) :=
  (editV2 P v2 v1).bind fun (d2, v2', new) =>
  (editV1 P v2' v1).bind fun (d1, v1') =>
  .ok (d2 || d1, v2' ++ new.toList, v1')

/-- `read_tagset(pth, pout)`: src/command-utilities.cc L172-188. More tags than bytes: `noProgress`. -/
def readTagset (mk2 mk3 mk4 : Id3v2Info → SM τ) (file : Option Bytes) : Res (List τ × Option V1Tag) :=
  match file with
  | none => .throw .fsError
  | some d =>
    let m : SM (List τ × Option V1Tag) := do
      let o ← readAllId3v2 mk2 mk3 mk4 (d.length + 1)
      match o with
      | none => SM.lift (.ub .noProgress)
      | some v2 => do
        let v1 ← processId3v1
        pure (v2, v1)
    (m ⟨d, 0, IoBits.all, IoBits.none⟩).1

/-- Writing `new` over the start of `p` through a mapping into memory, byte by byte. Simplified: the operating system may write
the bytes in any order. -/
def overwrite (p : Path) (new : Bytes) : FM Unit := fun s =>
  match s.get p with
  | none => ⟨[], .throw .streamFailure, s⟩
  | some old => ⟨(List.range (new.length + 1)).map fun i => s.put p (new.take i ++ old.drop i), .ok (), s.put p new⟩

/-- Writing `b` at the end of `p`, byte by byte. -/
def append (p : Path) (b : Bytes) : FM Unit := fun s =>
  match s.get p with
  | none => FM.create .streamFailure p b .none s
  | some old => ⟨(List.range (b.length + 1)).map fun i => s.put p (old ++ b.take i), .ok (), s.put p (old ++ b)⟩

/-- `fs::resize_file(p, n)`, to `n` no larger than the file. -/
def truncate (p : Path) (n : Nat) : FM Unit := fun s =>
  match s.get p with
  | none => ⟨[], .throw .fsError, s⟩
  | some old => ⟨[s.put p (old.take n)], .ok (), s.put p (old.take n)⟩

/-- `maybe_emplace_tagset(pth, p0, p1, au, reduce_padding_evenly, adjust_padding_evenly, false)`: scribbu/tagset.hh L705-747, as a
sequence of steps. What becomes of the file is `Tagset.maybeEmplace`. -/
def maybeEmplaceSteps (I : TagI τ) (e : Replace.Env) (pth : Path) (ts : List τ) (au : ApplyUnsync) : FM Unit := do
  let old ← FM.look (absolute e.cwd pth)
  match Tagset.maybeEmplace I old au .reducePaddingEvenly ts with
  | .ok (.emplaced, new, _) => overwrite (absolute e.cwd pth) new
  | .ok (.created, new, _) => FM.create .streamFailure (absolute e.cwd pth) new e.write
  | .ok (.copied, _, _) => do
    let r ← FM.lift (Tagset.sizes I au ts)
    Replace.replaceTagsetCopy I e pth r.2.2 au false
  | .throw x => FM.lift (.throw x)
  | .ub u => FM.lift (.ub u)

/-- `replace_id3v1(pth, tag)`: scribbu/id3v1.cc L561-572, L534-559, as a sequence of steps. Simplified: the tag is put into the
file as a whole (`write` puts it there field by field). -/
def replaceId3v1Steps (p : Path) (t : V1Tag) : FM Unit := do
  let old ← FM.look p
  match old with
  | none => FM.lift (.throw .fsError)
  | some d => do
    let body ← FM.lift (maybeRemoveId3v1 d)
    let _ ← (if body.length < d.length then truncate p body.length else pure ())
    let w ← FM.lift t.write
    append p w

/-- `write_tagset(dirty, p0, p1, pv1, pth)`: src/command-utilities.hh L360-396. -/
def writeTagset (I : TagI τ) (P : Processor τ) (e : Replace.Env) (pth : Path) (dirty : Bool) (v2 : List τ) (v1 : Option V1Tag) :
    FM Unit :=
  if dirty then
    if P.dryRun then pure ()
    else do
      let au : ApplyUnsync := if P.adjustUnsync then .asNeeded else .never
      let _ ← (if P.createBackups then Replace.replaceTagsetCopy I e pth v2 au true else maybeEmplaceSteps I e pth v2 au)
      match v1 with
      | some t => replaceId3v1Steps (absolute e.cwd pth) t
      | none => pure ()
  else pure ()

/-- `tagset_processor::process_file(pth)`: src/command-utilities.cc L299-395. -/
def processFile (I : TagI τ) (mk2 mk3 mk4 : Id3v2Info → SM τ) (P : Processor τ) (e : Replace.Env) (pth : Path) : FM Unit := do
  let old ← FM.look (absolute e.cwd pth)
  let r ← FM.lift (readTagset mk2 mk3 mk4 old)
  let w ← FM.lift (edit P r.1 r.2)
  writeTagset I P e pth w.1 w.2.1 w.2.2

end Process
end Scribbu
