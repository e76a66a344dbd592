import Verif.Model.Lookup

/-! Independent specification of a tag as a list of frames: what each operation does to that list and
what the accessors answer, in terms of the list alone. -/

namespace Scribbu.Spec
open Scribbu LTag

/-- A frame as a user sees it. -/
structure Item where
  id : Bytes
  cls : Cls
  data : Bytes
  deriving DecidableEq, Repr

/-- The contents of a tag: what iterating over it shows. -/
def contents (t : LTag) : List Item := t.frames.map fun f => ⟨f.id, f.cls, f.data⟩

/-- The frame that a caller hands over. -/
def given (a : Arg) : Item := ⟨a.id, a.cls, a.data⟩

/-- The class of frames that an identifier stands for. -/
def stdCls (c : Cfg) (id : Bytes) : Cls :=
  if id = c.comId then .com else if id = c.cntId then .cnt else if id = c.popId then .pop
  else if id.head? = some 84 then .text else .gen

/-- The class that reading a file gives to a frame: as `stdCls`, but of the identifiers beginning with T
only those known as text frames. -/
def readCls (c : Cfg) (id : Bytes) : Cls :=
  if id = c.comId then .com else if id = c.cntId then .cnt else if id = c.popId then .pop
  else if c.textParser id then .text else .gen

/-- What an operation does to the contents. Where several frames qualify, which one is taken is left
open. -/
inductive Effect (c : Cfg) : Op → List Item → List Item → Prop
  | pushBack (a l) : Effect c (.pushBack a) l (l ++ [given a])
  | insert (i a l) : i ≤ l.length → Effect c (.insert i a) l (l.take i ++ given a :: l.drop i)
  | assign (i a l) : i < l.length → Effect c (.assign i a) l (l.set i (given a))
  | moveAssign (i j l l') : l'.length = l.length → l'[i]? = l[j]? →
      (∀ k, k ≠ i → k ≠ j → l'[k]? = l[k]?) → Effect c (.moveAssign i j) l l'
  | erase (i l) : i < l.length → Effect c (.erase i) l (l.eraseIdx i)
  | eraseRange (i j l) : i ≤ j → j ≤ l.length → Effect c (.eraseRange i j) l (l.take i ++ l.drop j)
  | deleteNone (id l) : (∀ x ∈ l, x.id ≠ id) → Effect c (.deleteFrame id) l l
  | deleteOne (id a x b) : x.id = id → Effect c (.deleteFrame id) (a ++ x :: b) (a ++ b)
  | setNew (id d l) : (∀ x ∈ l, x.id = id → x.cls ≠ .text) → Effect c (.setText id d) l (l ++ [⟨id, .text, d⟩])
  | setOld (id d a x b) : x.id = id → x.cls = .text →
      Effect c (.setText id d) (a ++ x :: b) (a ++ ⟨id, .text, d⟩ :: b)
  | addComment (d l) : Effect c (.addComment d) l (l ++ [⟨c.comId, .com, d⟩])
  | addUserText (d l) : Effect c (.addUserText d) l (l ++ [⟨c.txxId, .gen, d⟩])
  | parseFrame (id d l) : Effect c (.parseFrame id d) l (l ++ [⟨id, readCls c id, d⟩])

/-- A frame that a caller can have: passed as its own class or as the base class; comments, play
counters and popularimeters have their fixed identifiers. -/
def ArgOk (c : Cfg) (a : Arg) : Prop :=
  (a.ov = .gen ∨ a.ov = a.cls) ∧ (a.cls = .com → a.id = c.comId) ∧ (a.cls = .cnt → a.id = c.cntId) ∧
  (a.cls = .pop → a.id = c.popId)

/-- An operation that a caller may perform on a tag with `n` frames: positions are inside the tag. -/
def OpOk (c : Cfg) (n : Nat) : Op → Prop
  | .pushBack a => ArgOk c a
  | .insert i a => i ≤ n ∧ ArgOk c a
  | .assign i a => i < n ∧ ArgOk c a
  | .moveAssign i j => i < n ∧ j < n
  | .erase i => i < n
  | .eraseRange i j => i ≤ j ∧ j ≤ n
  | _ => True

/-- The contents of the frames of one class. -/
def dataOf (k : Cls) (l : List Item) : List Bytes := (l.filter fun x => x.cls = k).map Item.data

/-- The accessors answer from the contents of the tag. -/
structure Answers (c : Cfg) (t : LTag) : Prop where
  has : ∀ id, t.hasFrame id = (contents t).countP fun x => x.id = id
  get : ∀ id, (∃ x ∈ contents t, x.id = id) → ∃ f ∈ t.frames, f.id = id ∧ t.getFrame c id = .ok f
  text : ∀ id, (∃ x ∈ contents t, x.id = id ∧ x.cls = .text ∧ t.textOf c id = .ok x.data) ∨
    ((∀ x ∈ contents t, x.id = id → x.cls ≠ .text) ∧ t.textOf c id = .throw .unknownFrame)
  comments : ∃ l, t.comments = .ok l ∧ l.Perm (dataOf .com (contents t))
  counts : ∃ l, t.counts = .ok l ∧ l.Perm (dataOf .cnt (contents t))
  populars : ∃ l, t.populars = .ok l ∧ l.Perm (dataOf .pop (contents t))

/-- `play_count` answers the play counter of the tag, if there is exactly one. -/
def PlayAnswers (c : Cfg) (t : LTag) : Prop :=
  ∀ d, dataOf .cnt (contents t) = [d] → t.playCount c = .ok d

end Scribbu.Spec
