import Verif.Spec.Unicode
import Verif.Model.TextSet

/-! # What putting a text into a frame is to do, in terms of characters -/

namespace Scribbu.Spec.TextSet

open Scribbu Spec.Unicode TextSet

/-- A text as people write it: no null characters, no byte order mark, nor one the wrong way round, at the start, and no space at the
end. -/
def Ordinary (cs : Chars) : Prop :=
  0 ∉ cs ∧ cs.head? ≠ some 0xfeff ∧ cs.head? ≠ some 0xfffe ∧ cs.getLast? ≠ some 32

instance (cs : Chars) : Decidable (Ordinary cs) := inferInstanceAs (Decidable (_ ∧ _ ∧ _ ∧ _))

/-- The encoding that a value of `frame_encoding` names. -/
def meant : FrameEncoding → Encoding
  | .latin1 => .ISO_8859_1
  | .utf16Bom => .UTF_16
  | .utf16Be => .UTF_16BE
  | .utf8 => .UTF_8

/-- The encodings of texts given to the library here: those of which every byte of a text that is not null can be part of a string. -/
def sources : List Encoding := [.UTF_8, .ISO_8859_1, .ISO_8859_8]

/-- The text in a frame is `cs`: asked for in UTF-8, it is that. -/
def Holds (lib : IconvLib) (mem : Nat) (v : Ver) (t : Text) (cs : Chars) : Prop :=
  ∃ b, encode .UTF_8 cs = some b ∧ asStr lib mem v t .UTF_8 .fail = .ok b

/-- The characters that texts in tags of a version may have, in some encoding or other. -/
def allowed (v : Ver) : Encoding :=
  match v with
  | .v4 => .UTF_8
  | _ => .UCS_2

/-- A text stored as the standard has it: by the first byte ISO-8859-1; 16 bits after a byte order mark, UCS-2 or in ID3v2.4 UTF-16;
in ID3v2.4, UTF-16 with the high byte first without such a mark; in ID3v2.4, UTF-8. -/
def Standard (v : Ver) (t : Text) (cs : Chars) : Prop :=
  (t.unicode = 0 ∧ encode .ISO_8859_1 cs = some t.text) ∨
  (v ≠ .v4 ∧ t.unicode = 1 ∧ ((∃ b, encode .UCS_2LE cs = some b ∧ t.text = [0xff, 0xfe] ++ b) ∨
    (∃ b, encode .UCS_2BE cs = some b ∧ t.text = [0xfe, 0xff] ++ b))) ∨
  (v = .v4 ∧ t.unicode = 1 ∧ ((∃ b, encode .UTF_16LE cs = some b ∧ t.text = [0xff, 0xfe] ++ b) ∨
    (∃ b, encode .UTF_16BE cs = some b ∧ t.text = [0xfe, 0xff] ++ b))) ∨
  (v = .v4 ∧ t.unicode = 2 ∧ encode .UTF_16BE cs = some t.text) ∨
  (v = .v4 ∧ t.unicode = 3 ∧ encode .UTF_8 cs = some t.text)

end Scribbu.Spec.TextSet
