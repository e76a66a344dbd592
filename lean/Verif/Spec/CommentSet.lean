import Verif.Spec.TextSet
import Verif.Model.CommentSet

/-! # What comments and user-defined text made from texts are to say, in terms of characters -/

namespace Scribbu.Spec.CommentSet

open Scribbu Spec.Unicode Spec.TextSet CommentSet

/-- The encoding for texts that a caller asks for: ISO-8859-1, or Unicode as a version of the standard has it. -/
def asked (v : Ver) (u : UseUnicode) : Encoding :=
  if u = .no then .ISO_8859_1 else if v = .v4 then .UTF_8 else .UCS_2

/-- A frame says the description `ds` and the text `cs`: asked for in UTF-8, they are that. -/
def Says (lib : IconvLib) (mem : Nat) (v : Ver) (unicode : Option Byte) (desc text : Bytes) (ds cs : Chars) : Prop :=
  (∃ b, encode .UTF_8 ds = some b ∧ part lib mem v unicode desc .UTF_8 .fail = .ok b) ∧
  (∃ b, encode .UTF_8 cs = some b ∧ part lib mem v unicode text .UTF_8 .fail = .ok b)

/-- A comment in some language, as it is and after it has been written and read. -/
def Comment (lib : IconvLib) (mem : Nat) (v : Ver) (c : Comm) (l : Byte × Byte × Byte) (ds cs : Chars) : Prop :=
  (c.lang = some l ∧ Says lib mem v c.unicode c.desc c.text ds cs) ∧
  ∃ w d, c.write = .ok w ∧ w.length = c.size ∧ Comm.parse v w w.length = .ok d ∧ d.lang = some l ∧
    Says lib mem v d.unicode d.desc d.text ds cs

/-- User-defined text, as it is and after it has been written and read. -/
def UserText (lib : IconvLib) (mem : Nat) (v : Ver) (t : Txxx) (ds cs : Chars) : Prop :=
  Says lib mem v (some t.unicode) t.desc t.text ds cs ∧
  ∃ d, t.write.length = t.size ∧ Txxx.parse v t.write t.write.length = .ok d ∧ Says lib mem v (some d.unicode) d.desc d.text ds cs

/-- The encoding that the first byte of a comment stands for. -/
def marked (v : Ver) (u : Byte) : Option Encoding :=
  if u = 0 then some .ISO_8859_1
  else if v ≠ .v4 then (if u = 1 then some .UCS_2 else none)
  else if u = 1 then some .UTF_16
  else if u = 2 then some .UTF_16BE
  else if u = 3 then some .UTF_8
  else none

/-- A comment is the same after it has been written and read. -/
def Kept (v : Ver) (c : Comm) : Prop :=
  ∃ w d, c.write = .ok w ∧ Comm.parse v w w.length = .ok d ∧ d.unicode = c.unicode ∧ d.lang = c.lang ∧ d.desc = c.desc ∧ d.text = c.text

end Scribbu.Spec.CommentSet
