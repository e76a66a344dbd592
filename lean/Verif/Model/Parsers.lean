import Verif.Model.Registry

/-!
Which parser makes the frames of an ID3v2.2 tag: scribbu/id3v22.cc L168-199, L773-803, L950-1013 and scribbu/id3v22.hh L587-628. Tags are read by their constructors
only (`parse` is private, and called nowhere else). One thread; for several, see `Registry`.
-/

namespace Scribbu
namespace Parsers
open Registry

/-- What makes a frame: the library itself (comments, counters, popularimeters), a parser out of one of the tables, or nothing in particular. -/
inductive Maker (P : Type) where
  | library
  | parser (w : Which) (p : P)
  | unknown
  deriving DecidableEq, Repr

/-- The frames that `parse_frame` looks after itself: scribbu/id3v22.cc L957-975. -/
def special (id : Bytes) : Bool := [/- COM -/ [67, 79, 77], /- CNT -/ [67, 78, 84], /- POP -/ [80, 79, 80]].contains id

/-- `parse_frame`: scribbu/id3v22.cc L950-1013. -/
def maker (m : Maps P) (id : Bytes) : Maker P :=
  if special id then .library
  else match find m.text id with
    | some p => .parser .text p
    | none => match find m.gen id with
      | some p => .parser .gen p
      | none => .unknown

/-- `insert`. -/
def insert (m : Maps P) (w : Which) (id : Bytes) (p : P) : Bool × Maps P :=
  if (find (m.get w) id).isSome then (false, m) else (true, m.add w id p)

/-- `register_default_generic_frame_parser` and `register_default_text_frame_parser`: scribbu/id3v22.cc L773-792. The latter does not look for reserved identifiers. -/
def registerDefault (m : Maps P) (w : Which) (id : Bytes) (p : P) : Ans P × Maps P :=
  match w with
  | .gen => if reserved id then (.refused, m) else let r := insert m .gen id p; (.flag r.1, r.2)
  | .text => let r := insert m .text id p; (.flag r.1, r.2)

/-- `register_generic_frame_parser` and `register_text_frame_parser` of a tag: scribbu/id3v22.hh L604-628. -/
def registerOwn (m : Maps P) (w : Which) (id : Bytes) (p : P) : Ans P × Maps P :=
  if reserved id then (.refused, m) else let r := insert m w id p; (.flag r.1, r.2)

/-- A tag: its parsers, and its frames with what has made them. -/
structure Tag (P : Type) where
  own : Maps P
  frames : List (Bytes × Maker P)
  deriving DecidableEq, Repr

/-- The default parsers, and the tags there are. -/
structure World (P : Type) where
  dflt : Maps P
  tags : List (Tag P)
  deriving DecidableEq, Repr

/-- What a program can do. -/
inductive Op (P : Type) where
  | regDefault (w : Which) (id : Bytes) (p : P)
  | read (ids : List Bytes)                       -- a tag with frames of these identifiers
  | regOwn (i : Nat) (w : Which) (id : Bytes) (p : P)

/-- Reading a tag: scribbu/id3v22.cc L168-199. The constructor copies the default parsers, then reads. -/
def readTag (m : Maps P) (ids : List Bytes) : Tag P := ⟨m, ids.map fun id => (id, maker m id)⟩

/-- One thing that a program does: the functions of scribbu/id3v22.hh L564-628 and the constructors of scribbu/id3v22.cc L168-199. -/
def World.exec (s : World P) : Op P → World P
  | .regDefault w id p => { s with dflt := (registerDefault s.dflt w id p).2 }
  | .read ids => { s with tags := s.tags ++ [readTag s.dflt ids] }
  | .regOwn i w id p => { s with tags := s.tags.modify i fun t => { t with own := (registerOwn t.own w id p).2 } }

/-- One thing after another: any use of those functions. -/
def World.execAll (s : World P) : List (Op P) → World P
  | [] => s
  | o :: os => (s.exec o).execAll os

end Parsers
end Scribbu
