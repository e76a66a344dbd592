import Verif.Model.Frame22
import Verif.Model.Header

/-! # ID3v2.2 tags: reading and writing

`class id3v2_2_tag` (scribbu/id3v22.hh, id3v22.cc) without its lookup tables, for which see
`Model/Lookup`. -/

namespace Scribbu

/-- Data members of `id3v2_2_tag`, and of `id3v2_tag` (scribbu/id3v2.hh L1168-1172). `compression`
and `padding` are `none` while uninitialised. -/
structure Tag22 where
  /-- `unsync_` -/
  unsync : Option Bool
  /-- `compression_` -/
  compression : Option Bool
  /-- `padding_` -/
  padding : Option Nat
  /-- `frames_` -/
  frames : List Frame22
  deriving DecidableEq, Repr

namespace Tag22

/-- `id3v2_2_tag(cbpad, fexp)`: scribbu/id3v22.hh L98-99. Neither argument is used. -/
def scratch (_cbpad : Nat) (_fexp : Bool) : Tag22 := ⟨none, none, none, []⟩

/-- Use of an object that may be uninitialised. -/
def use (o : Option α) : Res α :=
  match o with
  | some a => .ok a
  | none => .ub .uninit

/-- `flags()`: scribbu/id3v22.cc L237-249. -/
def flags (t : Tag22) : Res Byte :=
  (use t.compression).bind fun c =>
  .ok ((if t.unsync = some true then 0x80 else 0) ||| (if c then 0x40 else 0))

/-- The accumulation of the frames' sizes in `size`: scribbu/id3v22.cc L259-261; the sum, and
the frames with their caches filled. -/
def framesSize (unsync : Bool) : List Frame22 → Res (Nat × List Frame22)
  | [] => .ok (0, [])
  | f :: fs =>
    (f.serializedSize unsync).bind fun (n, f) =>
    (framesSize unsync fs).bind fun (m, fs) => .ok (n + m, f :: fs)

/-- `size(unsync)`: scribbu/id3v22.cc L255-262. -/
def size (t : Tag22) (unsync : Bool) : Res (Nat × Tag22) :=
  (use t.padding).bind fun pad =>
  (framesSize unsync t.frames).bind fun (n, fs) => .ok (pad + n, { t with frames := fs })

/-- `needs_unsynchronisation()`: scribbu/id3v22.cc L264-269. -/
def needsUnsync : List Frame22 → Res (Bool × List Frame22)
  | [] => .ok (false, [])
  | f :: fs =>
    f.needsUnsync.bind fun (n, f) =>
    if n ≠ 0 then .ok (true, f :: fs)
    else (needsUnsync fs).bind fun (b, fs) => .ok (b, f :: fs)

/-- `write_header(os, flags, cb)`: scribbu/id3v22.cc L674-684. -/
def writeHeader (flags : Byte) (cb : Nat) : Res Bytes :=
  (syncSafeFromUnsigned cb).bind fun (a, b, c, d) => .ok [0x49, 0x44, 0x33, 2, 0, flags, a, b, c, d]

/-- Writing the frames: scribbu/id3v22.cc L284-286. -/
def framesWrite (unsync : Bool) : List Frame22 → Res (Bytes × List Frame22)
  | [] => .ok ([], [])
  | f :: fs =>
    (f.write unsync).bind fun (n, f) =>
    (framesWrite unsync fs).bind fun (m, fs) => .ok (n ++ m, f :: fs)

/-- `write(os, unsync)`: scribbu/id3v22.cc L271-296: the bytes written, the number returned, and
the tag with the caches of its frames filled. Simplified: what was written before an exception
is not returned; the loop writing the padding in chunks is one step. -/
def write (t : Tag22) (unsync : Bool) : Res (Bytes × Nat × Tag22) :=
  t.flags.bind fun f =>
  let f := if unsync then f ||| 0x80 else f
  (t.size unsync).bind fun (cb, t) =>
  (writeHeader f cb).bind fun hdr =>
  (framesWrite unsync t.frames).bind fun (b, fs) =>
  (use t.padding).bind fun pad =>
  .ok (hdr ++ b ++ List.replicate pad 0, 10 + b.length + pad, { t with frames := fs })

/-- The loop of `parse` over the frames: scribbu/id3v22.cc L876-932. `buf` is the buffer as
allocated, `cb` the size of the tag in it after resynchronisation, `p` the index of `p0`. Gives the
frames and the padding. -/
def parseFrames (buf : Bytes) (cb p : Nat) : Res (List Frame22 × Nat) :=
  if p < cb then
    let left := cb - p
    (rd buf p).bind fun b0 =>
    if left = 1 ∧ b0 = 0 then .ok ([], left)
    else
      (rd buf (p + 1)).bind fun b1 =>
      if left = 2 ∧ b0 = 0 ∧ b1 = 0 then .ok ([], left)
      else
        (rd buf (p + 2)).bind fun b2 =>
        let id : Id3 := ⟨b0, b1, b2⟩
        if id = ⟨0, 0, 0⟩ then .ok ([], left)
        else if cb < p + 7 then .throw .invalidTag
        else
          (rd buf (p + 3)).bind fun s0 => (rd buf (p + 4)).bind fun s1 => (rd buf (p + 5)).bind fun s2 =>
          let cbFrame := unsignedFromNonSyncSafe3 s0 s1 s2
          if cb ≤ cbFrame then .throw .invalidTag
          else
            (Body.parse .v2 (kind22 id) (buf.drop (p + 6)) cbFrame).bind fun body =>
            (parseFrames buf cb (p + cbFrame + 6)).bind fun (fs, pad) => .ok (Frame22.new id body :: fs, pad)
  else .ok ([], 0)
termination_by cb - p

/-- Resynchronising, if need be, and walking the buffer: scribbu/id3v22.cc L866-932. `resynchronise` never
runs out of fuel (C05). -/
def parseBuf (unsync : Bool) (buf : Bytes) : Res (List Frame22 × Nat) :=
  if unsync then
    match resynchronise buf with
    | some r => r.bind fun (buf', cb) => parseFrames buf' cb 0
    | none => .ub .oobRead
  else parseFrames buf buf.length 0

/-- `parse(is, size)`: scribbu/id3v22.cc L836-949. -/
def parse (unsync : Bool) (size : Nat) : SM (List Frame22 × Nat) := do
  let excMask ← SM.exceptions
  SM.setExceptions IoBits.all
  let here ← SM.tellg
  let r ← SM.onThrow
    (do
      let buf ← SM.read size
      SM.lift (parseBuf unsync buf))
    (do
      SM.seekBeg here
      SM.setExceptions excMask)
  SM.setExceptions excMask
  pure r

/-- `id3v2_2_tag(is, H)`: scribbu/id3v22.cc L188-199 and the base class constructor
scribbu/id3v2.cc L454-462, for a header that is present. -/
def read (h : Id3v2Info) : SM Tag22 := do
  let unsync := h.flags &&& 0x80 ≠ 0
  let (fs, pad) ← parse unsync h.size
  pure ⟨some unsync, some (h.flags &&& 0x40 ≠ 0), some pad, fs⟩

end Tag22
end Scribbu
