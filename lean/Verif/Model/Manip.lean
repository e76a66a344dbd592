import Verif.Model.Charset

/-! # What streams are told to use (scribbu/ostream.cc, scribbu/pprinter.cc)

`os << ienc(...)` and `os << print_as_...(...)` put an object into a slot (`pword`) of the stream and register a callback, which is called when the
stream is destroyed or its format replaced by that of another (`copyfmt`). The two are written alike and differ in how the object is made,
copied and deleted. -/

namespace Scribbu
namespace Manip

/-- How the two differ. `val m`: what the `m`th manipulator is for. `ok`: whether it is accepted, scribbu/ostream.cc L119-121. `once`: the object is
taken out of the manipulator, which is then empty, scribbu/pprinter.cc L322-328. `bytes`: the object as it is in memory, if it is copied by `strdup`,
scribbu/ostream.cc L93-98; otherwise it is cloned, scribbu/pprinter.cc L377-381. `strict`: whether to delete an object as if it were a `char` is taken for
what it is, undefined, or only gives the memory back, as it does in practice. -/
structure Impl (α : Type) where
  val : Nat → α
  ok : α → Bool
  once : Bool
  bytes : Option (α → Bytes)
  strict : Bool
  dflt : α

/-- An object on the heap: as it should be, a string made by `strdup`, or deleted. -/
inductive Cell (α : Type) where
  | good (a : α)
  | raw (b : Bytes)
  | freed
  deriving DecidableEq, Repr

/-- What can go wrong with memory. -/
inductive Bad where
  | deletedTwice
  | wrongType     -- an object is deleted as one of another type
  | outOfBounds
  | dangling
  deriving DecidableEq, Repr

/-- The outcome of an operation. -/
inductive Out (β : Type) where
  | ok (b : β)
  | bad (e : Bad)
  deriving DecidableEq, Repr

/-- Sequencing. -/
def Out.bind {β γ : Type} (r : Out β) (f : β → Out γ) : Out γ :=
  match r with
  | .ok b => f b
  | .bad e => .bad e

/-- A stream: the slot, and how many times the callback is registered. -/
structure Strm where
  slot : Option Nat
  cbs : Nat
  deriving DecidableEq, Repr

/-- The heap, the streams there are (`none`: destroyed), and the manipulators that are empty. -/
structure St (α : Type) where
  heap : List (Cell α)
  streams : List (Option Strm)
  spent : List Nat
  deriving DecidableEq, Repr

variable {α : Type}

/-- `delete p`; `asChar`: of a pointer that has been cast to `char*`. -/
def del (I : Impl α) (asChar : Bool) (h : List (Cell α)) : Option Nat → Out (List (Cell α))
  | none => .ok h
  | some a =>
    match h[a]? with
    | some (.good _) => if asChar && I.strict then .bad .wrongType else .ok (h.set a .freed)
    | some (.raw _) => if I.strict then .bad .wrongType else .ok (h.set a .freed)
    | _ => .bad .deletedTwice

/-- `callback(erase_event, ...)`, as often as it is registered: scribbu/ostream.cc L78-89, scribbu/pprinter.cc L363-374. The slot is left as it is. -/
def erase (I : Impl α) (slot : Option Nat) : Nat → List (Cell α) → Out (List (Cell α))
  | 0, h => .ok h
  | n + 1, h => (del I I.bytes.isSome h slot).bind (erase I slot n)

/-- `strdup`: as far as the first NUL, which is copied, too. -/
def strdup (b : Bytes) : Bytes := b.takeWhile (· ≠ 0) ++ [0]

/-- The copy of an object. -/
def copyOf (I : Impl α) : Cell α → Out (Cell α)
  | .freed => .bad .dangling
  | .good a =>
    match I.bytes with
    | none => .ok (.good a)
    | some f => .ok (.raw (strdup (f a)))
  | .raw b => .ok (.raw (strdup b))

/-- `callback(copyfmt_event, ...)`, as often as it is registered: scribbu/ostream.cc L90-106, scribbu/pprinter.cc L375-389. -/
def copies (I : Impl α) : Nat → Option Nat → List (Cell α) → Out (Option Nat × List (Cell α))
  | 0, slot, h => .ok (slot, h)
  | n + 1, slot, h =>
    match slot with
    | none => copies I n none h
    | some a =>
      match h[a]? with
      | some c => (copyOf I c).bind fun c' => copies I n (some h.length) (h ++ [c'])
      | none => .bad .dangling

/-- What a program can do: make a stream, insert a manipulator, ask what a stream uses, copy the format of a stream (to `i` from `j`), destroy a stream. -/
inductive Op where
  | new
  | put (i m : Nat)
  | get (i : Nat)
  | copyfmt (i j : Nat)
  | close (i : Nat)
  deriving DecidableEq, Repr

/-- What the program gets to know. -/
inductive Ans (α : Type) where
  | uses (a : α)
  | refused
  deriving DecidableEq, Repr

/-- `ienc::insert`, `pprint_manipulator::do_manip`: scribbu/ostream.cc L36-55, scribbu/pprinter.cc L337-354. -/
def insert (I : Impl α) (st : St α) (i m : Nat) (s : Strm) : Out (St α) :=
  let cbs := if s.slot.isNone then s.cbs + 1 else s.cbs
  let empty := I.once && st.spent.contains m
  let h := if empty then st.heap else st.heap ++ [.good (I.val m)]
  let slot := if empty then none else some st.heap.length
  (del I false h s.slot).bind fun h => .ok ⟨h, st.streams.set i (some ⟨slot, cbs⟩), if I.once then m :: st.spent else st.spent⟩

/-- `ienc::retrieve`, `get_pretty_printer`: scribbu/ostream.cc L57-73, scribbu/pprinter.cc L394-409. An `ienc` has eight bytes; of
what `strdup` has copied there are never so many, see `iencBytes`, and what would be read then is left out. -/
def retrieve (I : Impl α) (st : St α) (s : Strm) : Out α :=
  match s.slot with
  | none => .ok I.dflt
  | some a =>
    match st.heap[a]? with
    | some (.good v) => .ok v
    | some (.raw b) => if b.length < 8 then .bad .outOfBounds else .ok I.dflt
    | _ => .bad .dangling

/-- One operation. A program that names a stream that it does not have has no effect in this model. `std::ios_base` calls the callbacks at destruction
with `erase_event`; `copyfmt` calls those of the destination with `erase_event`, copies slots and callbacks, and calls the callbacks with `copyfmt_event`,
unless source and destination are the same. -/
def step (I : Impl α) (st : St α) : Op → Out (St α × List (Ans α))
  | .new => .ok ({ st with streams := st.streams ++ [some ⟨none, 0⟩] }, [])
  | .put i m =>
    match st.streams[i]? with
    | some (some s) => if I.ok (I.val m) then (insert I st i m s).bind fun st => .ok (st, []) else .ok (st, [.refused])
    | _ => .ok (st, [])
  | .get i =>
    match st.streams[i]? with
    | some (some s) => (retrieve I st s).bind fun a => .ok (st, [.uses a])
    | _ => .ok (st, [])
  | .copyfmt i j =>
    if i = j then .ok (st, []) else
    match st.streams[i]?, st.streams[j]? with
    | some (some s), some (some s') =>
      (erase I s.slot s.cbs st.heap).bind fun h =>
      (copies I s'.cbs s'.slot h).bind fun r => .ok ({ st with heap := r.2, streams := st.streams.set i (some ⟨r.1, s'.cbs⟩) }, [])
    | _, _ => .ok (st, [])
  | .close i =>
    match st.streams[i]? with
    | some (some s) => (erase I s.slot s.cbs st.heap).bind fun h => .ok ({ st with heap := h, streams := st.streams.set i none }, [])
    | _ => .ok (st, [])

/-- A history. -/
def run (I : Impl α) : List Op → St α → Out (St α × List (Ans α))
  | [], st => .ok (st, [])
  | o :: os, st => (step I st o).bind fun r => (run I os r.1).bind fun q => .ok (q.1, r.2 ++ q.2)

/-- At the start. -/
def start : St α := ⟨[], [], []⟩

/-- An `ienc` as it is in memory: two `int`s, the least significant byte first; there are less than 256 encodings. -/
def iencBytes (x : Encoding × OnNo) : Bytes :=
  [UInt8.ofNat (Encoding.all.idxOf x.1), 0, 0, 0, match x.2 with | .fail => 0 | .transliterate => 1 | .ignore => 2, 0, 0, 0]

/-- Encodings, for streams of `char`: scribbu/ostream.cc. Without any, UTF-8. -/
def encodings (val : Nat → Encoding × OnNo) (strict : Bool) : Impl (Encoding × OnNo) :=
  ⟨val, fun x => x.1.isChar, false, some iencBytes, strict, (.UTF_8, .fail)⟩

/-- Printers: scribbu/pprinter.cc. They are deleted as what they are. Without any, the standard printer. -/
def printers (val : Nat → α) (std : α) (strict : Bool) : Impl α := ⟨val, fun _ => true, true, none, strict, std⟩

end Manip
end Scribbu
