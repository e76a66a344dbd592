import Verif.Model.Basic

/-!
The default parsers of frames of ID3v2.2 tags, which all threads share: scribbu/id3v22.cc L66-102, L773-803 and scribbu/id3v22.hh L564-596.
(The other two versions have the same functions for getting them, scribbu/id3v23.hh L642-663 and scribbu/id3v24.hh L685-706; what they declare for
registering, scribbu/id3v23.hh L665-673 and scribbu/id3v24.hh L707-714, is nowhere defined.) Parsers are opaque values of type `P`.
-/

namespace Scribbu
namespace Registry

/-- A table of parsers: an `unordered_map` as the list of its entries in the order of iteration; new entries may come anywhere, here they come first. -/
abbrev Table (P : Type) := List (Bytes × P)

/-- `find`. -/
def find (t : Table P) (id : Bytes) : Option P := (t.find? fun e => e.1 = id).map (·.2)

/-- What all threads share: scribbu/id3v22.cc L81-91. -/
structure Maps (P : Type) where
  gen : Table P
  text : Table P
  deriving DecidableEq, Repr

/-- Which of the two tables. -/
inductive Which where
  | gen
  | text
  deriving DecidableEq, Repr

/-- One of the tables. -/
def Maps.get (m : Maps P) : Which → Table P
  | .gen => m.gen
  | .text => m.text

/-- A new entry. -/
def Maps.add (m : Maps P) (w : Which) (id : Bytes) (p : P) : Maps P :=
  match w with
  | .gen => { m with gen := (id, p) :: m.gen }
  | .text => { m with text := (id, p) :: m.text }

/-- `parsing_is_reserved`: scribbu/id3v22.cc L794-802. -/
def reserved (id : Bytes) : Bool := [/- COM -/ [67, 79, 77], /- PCT -/ [80, 67, 84], /- POP -/ [80, 79, 80]].contains id

/-- The calls that a thread can make: `register_default_generic_frame_parser`, `register_default_text_frame_parser`, `get_default_generic_frame_parsers`,
`get_default_text_frame_parsers`. -/
inductive Call (P : Type) where
  | reg (w : Which) (id : Bytes) (p : P)
  | get (w : Which)
  deriving DecidableEq, Repr

/-- What comes back: a flag, the exception `reserved_frame_error`, or a copy of a table. -/
inductive Ans (P : Type) where
  | flag (b : Bool)
  | refused
  | table (t : Table P)
  deriving DecidableEq, Repr

/-- Where a thread is. -/
inductive Loc (P : Type) where
  | out                                       -- between calls
  | called (c : Call P)                       -- before the mutex
  | locked (c : Call P)                       -- with the mutex, at the beginning of what it guards
  | looked (w : Which) (id : Bytes) (p : P) (found : Bool)   -- within `insert`, behind the search
  | copying (w : Which) (got : Table P) (i : Nat)   -- within `copy`, before the entry with this number
  | unlocking (a : Ans P)                     -- behind what the mutex guards
  | returning (a : Ans P)
  deriving DecidableEq, Repr

/-- A thread: the calls still to be made, and where it is. -/
structure Thread (P : Type) where
  todo : List (Call P)
  loc : Loc P
  deriving DecidableEq, Repr

/-- What can be seen of a run: calls and what comes back. -/
inductive Event (P : Type) where
  | call (t : Nat) (c : Call P)
  | ret (t : Nat) (a : Ans P)
  deriving DecidableEq, Repr

/-- The state: the shared tables, the mutex (who has it), the threads, and what could be seen so far. -/
structure St (P : Type) where
  maps : Maps P
  owner : Option Nat
  thr : Nat → Thread P
  hist : List (Event P)

/-- Thread `t` moves to `l`. -/
def St.to (s : St P) (t : Nat) (l : Loc P) : St P :=
  { s with thr := fun u => if u = t then { s.thr u with loc := l } else s.thr u }

/-- A step of thread `t` in whatever comes next for it; nothing happens if it waits for the mutex or has nothing left to do.
Registering: scribbu/id3v22.cc L773-792; `insert` is a search, and a link if nothing was found. Getting: scribbu/id3v22.hh L564-585. -/
def step (s : St P) (t : Nat) : St P :=
  match (s.thr t).loc with
  | .out =>
    match (s.thr t).todo with
    | [] => s
    | c :: cs => { s with thr := fun u => if u = t then ⟨cs, .called c⟩ else s.thr u, hist := s.hist ++ [.call t c] }
  | .called c =>
    match c with
    | .reg .gen id _ => if reserved id then s.to t (.returning .refused) else lock c
    | _ => lock c
  | .locked (.reg w id p) => s.to t (.looked w id p (find (s.maps.get w) id).isSome)
  | .locked (.get w) => s.to t (.copying w [] 0)
  | .looked w id p found =>
    if found then s.to t (.unlocking (.flag false))
    else { (s.to t (.unlocking (.flag true))) with maps := s.maps.add w id p }
  | .copying w got i =>
    match (s.maps.get w)[i]? with
    | some e => s.to t (.copying w (got ++ [e]) (i + 1))
    | none => s.to t (.unlocking (.table got))
  | .unlocking a => { (s.to t (.returning a)) with owner := none }
  | .returning a => { (s.to t .out) with hist := s.hist ++ [.ret t a] }
where
  /-- `std::lock_guard`. -/
  lock (c : Call P) : St P :=
    match s.owner with
    | none => { (s.to t (.locked c)) with owner := some t }
    | some _ => s

/-- A run: whose turn it is, again and again. -/
def run (s : St P) : List Nat → St P
  | [] => s
  | t :: ts => run (step s t) ts

/-- At the beginning: any tables, any calls to be made. -/
def init (m : Maps P) (prog : Nat → List (Call P)) : St P := ⟨m, none, fun t => ⟨prog t, .out⟩, []⟩

end Registry
end Scribbu
