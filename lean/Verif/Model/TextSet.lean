import Verif.Model.Charset
import Verif.Model.Json
import Verif.Model.Lookup

/-!
# Texts put into text frames (scribbu/framesv22.cc, scribbu/framesv23.cc, scribbu/framesv24.cc)

`Model/Lookup.lean` has texts put into frames already encoded; here is how they come to be.
-/

namespace Scribbu
namespace TextSet

/-- What a text frame holds: the byte for the encoding and the bytes of the text (`unicode_`, `text_`): scribbu/framesv22.hh L462-466,
scribbu/framesv23.hh and scribbu/framesv24.hh alike. -/
structure Text where
  unicode : Byte
  text : Bytes
  deriving DecidableEq, Repr

/-- `id3v2_4_text_frame::frame_encoding`: scribbu/framesv24.hh L419-421. -/
inductive FrameEncoding where
  | latin1 | utf16Bom | utf16Be | utf8
  deriving DecidableEq, Repr

/-- `encshim(x)`: scribbu/framesv24.cc L287-303. -/
def encshim : FrameEncoding → Encoding
  | .latin1 => .ISO_8859_8
  | .utf16Bom => .UTF_16
  | .utf16Be => .UTF_16BE
  | .utf8 => .UTF_8

/-- `encshim2(x)`: scribbu/framesv24.cc L305-321. -/
def encshim2 : FrameEncoding → Byte
  | .latin1 => 0
  | .utf16Bom => 1
  | .utf16Be => 2
  | .utf8 => 3

/-- `id3v2_4_text_frame(id, text, src, dst, add_bom, rsp)`: scribbu/framesv24.hh L479-497, L517-531. -/
def new4 (lib : IconvLib) (mem : Nat) (text : Bytes) (src : Encoding) (dst : FrameEncoding) (bom : Bool) (rsp : OnNo) : Res Text :=
  (Charset.toBytes lib mem src (encshim dst) bom rsp text).bind fun b => .ok ⟨encshim2 dst, b⟩

/-- `id3v2_4_text_frame::set(text, src, dst, add_bom, rsp)`: scribbu/framesv24.cc L323-335. What was there is not looked at. -/
def set4 (lib : IconvLib) (mem : Nat) (text : Bytes) (src : Encoding) (dst : FrameEncoding) (bom : Bool) (rsp : OnNo) :
    Res Text :=
  (Charset.toBytes lib mem src (encshim dst) bom rsp text).bind fun b => .ok ⟨encshim2 dst, b⟩

/-- `id3v2_2_text_frame(id, text, src, add_bom, rsp, ucs2)` and that of ID3v2.3: scribbu/framesv22.hh L378-387, L395-402,
scribbu/framesv23.hh L715-738, L753-766. -/
def new3 (lib : IconvLib) (mem : Nat) (text : Bytes) (src : Encoding) (bom : Bool) (rsp : OnNo) (ucs2 : Bool) : Res Text :=
  (Charset.toBytes lib mem src (if ucs2 then .UCS_2LE else .ISO_8859_1) bom rsp text).bind fun b => .ok ⟨if ucs2 then 1 else 0, b⟩

/-- `id3v2_2_text_frame::set(text, src, add_bom, rsp)` and that of ID3v2.3: scribbu/framesv22.cc L324-350, scribbu/framesv23.cc L543-568.
What was there is not looked at. -/
def set3 (lib : IconvLib) (mem : Nat) (text : Bytes) (src : Encoding) (bom : Bool) (rsp : OnNo) : Res Text :=
  match Charset.toBytes lib mem src .ISO_8859_1 bom rsp text with
  | .ok b => .ok ⟨0, b⟩
  | .throw _ => (Charset.toBytes lib mem src .UCS_2 bom rsp text).bind fun b => .ok ⟨1, b⟩
  | .ub u => .ub u

/-- `as_str<string>(dst, rsp)` of a text frame: scribbu/framesv22.hh L432-441, scribbu/framesv23.hh, scribbu/framesv24.hh; the encoding
of the text by `Json.source`. -/
def asStr (lib : IconvLib) (mem : Nat) (v : Ver) (t : Text) (dst : Encoding) (rsp : OnNo) : Res Bytes :=
  if t.text = [] then .ok []
  else (Json.source v t.unicode t.text).bind fun src => Charset.toText lib mem src dst rsp t.text

/-- The text that `set_text_frame(id, text, src, add_bom, rsp)` leaves in the frame, given whether there is one already:
scribbu/id3v22.cc L1030-1048, scribbu/id3v23.cc L1606-1624, scribbu/id3v24.cc L1653-1672 (with `DST`, scribbu/id3v24.hh L346-347). -/
def put (lib : IconvLib) (mem : Nat) (v : Ver) (present : Bool) (text : Bytes) (src : Encoding) (bom : Bool) (rsp : OnNo) : Res Text :=
  match v, present with
  | .v4, true => set4 lib mem text src .utf8 bom rsp
  | .v4, false => new4 lib mem text src .utf8 bom rsp
  | _, true => set3 lib mem text src bom rsp
  | _, false => new3 lib mem text src bom rsp false

/-- What a text frame holds, out of the byte string that stands for it in `Model/Lookup.lean`. -/
def Text.ofData : Bytes → Option Text
  | [] => none
  | u :: b => some ⟨u, b⟩

/-- The byte string that stands for it there. -/
def Text.data (t : Text) : Bytes := t.unicode :: t.text

/-- `set_text_frame(id, text, src, add_bom, rsp)`, on the tag: scribbu/id3v22.cc L1030-1048, scribbu/id3v23.cc L1606-1624,
scribbu/id3v24.cc L1653-1672. -/
def setTextFrame (lib : IconvLib) (mem : Nat) (c : Cfg) (t : LTag) (id text : Bytes) (src : Encoding) (bom : Bool) (rsp : OnNo) :
    Res LTag :=
  match LTag.mfind c t.textMap id with
  | some p =>
    (t.deref p).bind fun _ => (put lib mem c.ver true text src bom rsp).bind fun x =>
    .ok { t with frames := t.frames.map fun f => if f.ptr = p then { f with data := x.data } else f }
  | none => (put lib mem c.ver false text src bom rsp).bind fun x => .ok (t.pushBack ⟨.text, .text, id, x.data⟩)

/-- `text_frame_as_str(id, dst, rsp)`: scribbu/id3v22.cc L1015-1028, scribbu/id3v23.cc L1590-1605, scribbu/id3v24.cc L1637-1651.
(The empty byte string stands for no text frame; its encoding would be uninitialised.) -/
def textFrameAsStr (lib : IconvLib) (mem : Nat) (c : Cfg) (t : LTag) (id : Bytes) (dst : Encoding) (rsp : OnNo) : Res Bytes :=
  (t.textOf c id).bind fun d =>
  match Text.ofData d with
  | none => .ub .uninit
  | some x => asStr lib mem c.ver x dst rsp

end TextSet
end Scribbu
