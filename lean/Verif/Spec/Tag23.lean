import Verif.Model.Tag23
import Verif.Model.Tag24
import Verif.Spec.Tag22

/-! Independent specification of ID3v2.3 and ID3v2.4 frames and tags (id3v2.3.0, section 3.3, and
id3v2.4.0-structure, section 4). -/

namespace Scribbu.Spec

/-- Four bytes, most significant first. -/
def be32 (n : Nat) : Bytes :=
  [UInt8.ofNat (n / 16777216), UInt8.ofNat (n / 65536), UInt8.ofNat (n / 256), UInt8.ofNat n]

/-- Four bytes of seven bits each, most significant first. -/
def ss28 (n : Nat) : Bytes :=
  [UInt8.ofNat (n / 2097152 % 128), UInt8.ofNat (n / 16384 % 128), UInt8.ofNat (n / 128 % 128), UInt8.ofNat (n % 128)]

/-- How the size of a frame is written: plainly in ID3v2.3, sync-safe in ID3v2.4. -/
def size4 : Ver → Nat → Bytes
  | .v4, n => ss28 n
  | _, n => be32 n

/-- The sizes that can be written. -/
def maxSize4 : Ver → Nat
  | .v4 => 2 ^ 28
  | _ => 2 ^ 32

/-- The bytes of a frame: identifier, size, two flag bytes, payload. -/
def frame4 (ver : Ver) (id : Id4) (f0 f1 : Byte) (payload : Bytes) : Bytes :=
  [id.a, id.b, id.c, id.d] ++ size4 ver payload.length ++ [f0, f1] ++ payload

/-- The first flag byte as the standards define it: %abc00000 in ID3v2.3, %0abc0000 in ID3v2.4. -/
def flags0 : Ver → Bool → Bool → Bool → Byte
  | .v4, a, b, c => (if a then 0x40 else 0) + (if b then 0x20 else 0) + (if c then 0x10 else 0)
  | _, a, b, c => (if a then 0x80 else 0) + (if b then 0x40 else 0) + (if c then 0x20 else 0)

/-- A frame that is neither compressed nor encrypted nor grouped and has no data length indicator. -/
def PlainFrame (f : Frame4) : Prop := f.compressed = false ∧ f.enc = none ∧ f.gid = none ∧ f.dli = none

/-- The bytes of an extended header of ID3v2.3: its size, excluding those four bytes, two flag bytes, the
size of the padding and, maybe, a checksum. -/
def ext23 (cbpad : Nat) : Option Nat → Bytes
  | none => be32 6 ++ [0, 0] ++ be32 cbpad
  | some crc => be32 10 ++ [0x80, 0] ++ be32 cbpad ++ be32 crc

/-- The first flag byte as the library writes it: every attribute one place further down than `flags0`. -/
def flagsWritten (ver : Ver) (f : Frame4) : Byte := flags0 ver false f.tap f.fap + (if f.ro then
  (match ver with | .v4 => 8 | _ => 16) else 0)

/-- Nothing has been done to the frame since its caches were filled, or they are to be filled yet. -/
def Current4 (z : Zlib) (ver : Ver) (f : Frame4) : Prop :=
  f.dirty = true ∨ ∃ f0 last, f0.dirty = true ∧ Frame4.fresh z ver f0 last = .ok f

/-- The same for extended headers. -/
def CurrentExt (e : Ext23) : Prop := e.dirty = true ∨ ∃ e0 : Ext23, e0.dirty = true ∧ e = e0.fresh

/-- What a frame is in the tag, for a payload. -/
def frameOf (ver : Ver) (f : Frame4) (w : Bytes) : Bytes :=
  frame4 ver f.id (flagsWritten ver f) (match ver with | .v4 => if f.unsynch then 2 else 0 | _ => 0) w

/-- The extended header that is written for a tag: the size of the padding and, if it is to have one, the
checksum of the frames. -/
def extOf (z : Zlib) (t : Tag23) (w : Frame4 → Bytes) : Option (Nat × Option Nat) :=
  t.ext.map fun e => (e.cbpad, e.crc.map fun _ => (t.frames.map fun f => frameOf .v3 f (w f)).foldl z.crc32 0)

/-- Its bytes. -/
def extBytes : Option (Nat × Option Nat) → Bytes
  | none => []
  | some x => ext23 x.1 x.2

/-- Frames that can be stored and read back: not compressed, encrypted or grouped, with a nonempty payload `w f`
that has an unambiguous encoding, and with caches, if any, that hold that. -/
def StorableFrames (z : Zlib) (ver : Ver) (fs : List Frame4) (w : Frame4 → Bytes) : Prop := ∀ f ∈ fs,
  Current4 z ver f ∧ PlainFrame f ∧ WFBody ver (kind4 f.id) f.body ∧ f.body.serialize = .ok (w f) ∧
    f.id ≠ ⟨0, 0, 0, 0⟩ ∧ w f ≠ [] ∧ (w f).length < maxSize4 ver

/-- Tags of ID3v2.3 that survive being written with `unsync` = `u` and read back. -/
structure Storable23 (z : Zlib) (t : Tag23) (u : Bool) (w : Frame4 → Bytes) : Prop where
  frames : StorableFrames z .v3 t.frames w
  ext : ∀ e, t.ext = some e → CurrentExt e ∧ e.cbpad < 2 ^ 32
  crc : ∀ c b, z.crc32 c b < 2 ^ 32
  /-- Either the tag is not marked as unsynchronised at all, or it is and nothing in it needs
  unsynchronisation, or it is written unsynchronised. -/
  stuffing : (u = false ∧ t.unsync ≠ some true ∧ ¬ NeedsStuffing (extBytes (extOf z t w))) ∨
    (u = false ∧ t.unsync = some true ∧ ¬ NeedsStuffing (extBytes (extOf z t w) ++
      (t.frames.map fun f => frameOf .v3 f (w f)).flatten ++ List.replicate t.padding 0)) ∨
    (u = true ∧ ¬ NeedsStuffing (extBytes (extOf z t w)) ∧ (extBytes (extOf z t w)).getLast? ≠ some 0xff ∧
      ∀ f ∈ t.frames, f.id.a ≠ 0)

/-- The text information frames of ID3v2.3: section 4.2.1. -/
def textFrames23 : List String :=
  ["TALB", "TBPM", "TCOM", "TCON", "TCOP", "TDAT", "TDLY", "TENC", "TEXT", "TFLT", "TIME", "TIT1", "TIT2", "TIT3", "TKEY",
   "TLAN", "TLEN", "TMED", "TOAL", "TOFN", "TOLY", "TOPE", "TORY", "TOWN", "TPE1", "TPE2", "TPE3", "TPE4", "TPOS", "TPUB",
   "TRCK", "TRDA", "TRSN", "TRSO", "TSIZ", "TSRC", "TSSE", "TYER"]

/-- The text information frames of ID3v2.4: id3v2.4.0-frames, section 4.2. -/
def textFrames24 : List String :=
  ["TALB", "TBPM", "TCOM", "TCON", "TCOP", "TDEN", "TDLY", "TDOR", "TDRC", "TDRL", "TDTG", "TENC", "TEXT", "TFLT", "TIPL",
   "TIT1", "TIT2", "TIT3", "TKEY", "TLAN", "TLEN", "TMCL", "TMED", "TMOO", "TOAL", "TOFN", "TOLY", "TOPE", "TOWN", "TPE1",
   "TPE2", "TPE3", "TPE4", "TPOS", "TPRO", "TPUB", "TRCK", "TRSN", "TRSO", "TSOA", "TSOP", "TSOT", "TSRC", "TSSE", "TSST"]

end Scribbu.Spec
