import Verif.Model.TextSet
import Verif.Model.Bodies

/-!
# Comments and user-defined text made from texts (scribbu/framesv2.cc, scribbu/framesv22.hh, scribbu/framesv23.hh, scribbu/framesv24.hh)

`Model/Bodies.lean` has these made from texts already encoded; here is how they come to be, and how they are read.
-/

namespace Scribbu
namespace CommentSet

/-- `dst`, in the constructors from texts: scribbu/framesv2.cc L760-803, L907-950. -/
def dst (v : Ver) (u : UseUnicode) : Encoding :=
  match v, u with
  | _, .no => .ISO_8859_1
  | .v4, _ => .UTF_8
  | _, _ => .UCS_2

/-- `add_bom`, there. -/
def bom (u : UseUnicode) : Bool :=
  match u with
  | .withBom => true
  | _ => false

/-- The description, which is converted only if there is one: scribbu/framesv2.cc L807-809, L954-956. -/
def description (lib : IconvLib) (mem : Nat) (v : Ver) (u : UseUnicode) (src : Encoding) (dsc : Bytes) : Res Bytes :=
  if dsc = [] then .ok [] else Charset.toBytes lib mem src (dst v u) (bom u) .fail dsc

/-- `user_defined_text(ver, text, src, unicode, dsc)`: scribbu/framesv2.cc L754-811; `TXX`, `TXXX` and `TXXX_2_4`: scribbu/framesv22.hh
L512-519, scribbu/framesv23.hh L892-903, scribbu/framesv24.hh L618-631. -/
def newTxxx (lib : IconvLib) (mem : Nat) (v : Ver) (text : Bytes) (src : Encoding) (u : UseUnicode) (dsc : Bytes) : Res Txxx :=
  (Charset.toBytes lib mem src (dst v u) (bom u) .fail text).bind fun t =>
  (description lib mem v u src dsc).bind fun d => .ok (Txxx.make v u t d)

/-- `lang_`: scribbu/framesv2.cc L900-904. `env` has the variables of `language_from_locale()`. (All codes have three letters.) -/
def code (env : List Bytes) (lang : Language) : Res (Byte × Byte × Byte) :=
  (if lang = .fromLocale then Language.ofEnv env else .ok lang).bind fun l => (Language.toIso2 env l).bind fun c =>
  match c with
  | [a, b, c] => .ok (a, b, c)
  | _ => .ub .oobRead

/-- `comments(ver, lang, text, src, unicode, dsc)`: scribbu/framesv2.cc L893-958; `COM`, `COMM` and `COMM_2_4`: scribbu/framesv22.hh
L577-584, scribbu/framesv23.hh L979-991 (which has version 2, for which there is the same), scribbu/framesv24.hh L709-724. -/
def newComm (env : List Bytes) (lib : IconvLib) (mem : Nat) (v : Ver) (lang : Language) (text : Bytes) (src : Encoding) (u : UseUnicode)
    (dsc : Bytes) : Res Comm :=
  (code env lang).bind fun l =>
  (Charset.toBytes lib mem src (dst v u) (bom u) .fail text).bind fun t =>
  (description lib mem v u src dsc).bind fun d => .ok (Comm.make v u l t d)

/-- The bytes of a part of such a frame as a string, `description<string>(dst, rsp)` and `text<string>(dst, rsp)`: scribbu/framesv22.hh
L527-555, L594-622, scribbu/framesv23.hh L926-953, L1008-1035, scribbu/framesv24.hh L654-682, L748-774. -/
def part (lib : IconvLib) (mem : Nat) (v : Ver) (unicode : Option Byte) (b : Bytes) (dst : Encoding) (rsp : OnNo) : Res Bytes :=
  if b = [] then .ok []
  else match unicode with
    | none => .ub .uninit
    | some u => TextSet.asStr lib mem v ⟨u, b⟩ dst rsp

/-- The members of `enum class encoding` that comments know. -/
def ofEnc : Enc → Encoding
  | .iso88591 => .ISO_8859_1
  | .ucs2 => .UCS_2
  | .utf16 => .UTF_16
  | .utf16be => .UTF_16BE
  | .utf8 => .UTF_8

/-- `comments::text(text, src)`: scribbu/framesv2.cc L966-970. -/
def setText (lib : IconvLib) (mem : Nat) (c : Comm) (text : Bytes) (src : Encoding) : Res Comm :=
  c.setText fun e bom => Charset.toBytes lib mem src (ofEnc e) bom .fail text

/-- `comments::description(text, src)`: scribbu/framesv2.cc L960-964. -/
def setDescription (lib : IconvLib) (mem : Nat) (c : Comm) (text : Bytes) (src : Encoding) : Res Comm :=
  c.setDescription fun e bom => Charset.toBytes lib mem src (ofEnc e) bom .fail text

/-- `add_comment(text, lang, src, unicode, description, rsp)`: scribbu/id3v22.cc L311-330, scribbu/id3v23.cc L686-707,
scribbu/id3v24.cc L757-779. `rsp` is not looked at. -/
def addComment (env : List Bytes) (lib : IconvLib) (mem : Nat) (c : Cfg) (t : LTag) (text : Bytes) (lang : Language) (src : Encoding)
    (u : UseUnicode) (dsc : Bytes) (_rsp : OnNo) : Res LTag :=
  (newComm env lib mem c.ver lang text src u dsc).bind fun m => m.write.bind fun w => t.addComment c w

/-- `add_user_defined_text(text, src, unicode, description, rsp)`: scribbu/id3v22.cc L332-348, scribbu/id3v23.cc L709-727,
scribbu/id3v24.cc L782-800. `rsp` is not looked at. -/
def addUserText (lib : IconvLib) (mem : Nat) (c : Cfg) (t : LTag) (text : Bytes) (src : Encoding) (u : UseUnicode) (dsc : Bytes)
    (_rsp : OnNo) : Res LTag :=
  (newTxxx lib mem c.ver text src u dsc).bind fun m => t.addUserText c m.write

end CommentSet
end Scribbu
