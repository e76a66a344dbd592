import Verif.Model.Frame23
import Verif.Model.Header

/-! # ID3v2.4 tags: reading and writing

`class id3v2_4_tag` (scribbu/id3v24.hh, id3v24.cc) without its lookup tables. -/

namespace Scribbu

/-- The restrictions in an extended header: scribbu/id3v24.hh L216-220; the enumerations are their
values. -/
structure Restrictions where
  tagSize : Nat
  textEnc : Bool
  textSize : Nat
  imageEnc : Bool
  imageSize : Nat
  deriving DecidableEq, Repr

/-- Data members of `id3v2_4_tag::ext_header`: scribbu/id3v24.hh L210-220. `size_dirty_` and `crc_dirty_`
are false from the only constructor on and never set. `crc` and `restrictions` are `none` while
uninitialised. -/
structure Ext24 where
  size : Nat
  update : Bool
  fcrc : Bool
  restricted : Bool
  crc : Option Nat
  restrictions : Option Restrictions
  deriving DecidableEq, Repr

namespace Ext24

/-- Decoding the restrictions: scribbu/id3v24.cc L250-281. -/
def restrictionsOf (b : Byte) : Restrictions :=
  ⟨((0xc0 &&& b) >>> 6).toNat, 0x20 &&& b ≠ 0, ((0x18 &&& b) >>> 3).toNat, 0x04 &&& b ≠ 0, (0x03 &&& b).toNat⟩

/-- `ext_header(p0, p1)`: scribbu/id3v24.cc L184-286; `cb` is `p1 - p0`. `invalid_ext_header` is
`Exc.other`. -/
def parse (buf : Bytes) (cb : Nat) : Res Ext24 :=
  if cb < 6 then .throw .other
  else
    (rd buf 0).bind fun a => (rd buf 1).bind fun b => (rd buf 2).bind fun c => (rd buf 3).bind fun d =>
    (rd buf 4).bind fun nflags =>
    if nflags = 0 then .throw .other
    else
      (rd buf 5).bind fun fl =>
      let p := 5 + nflags.toNat
      -- tag is an update
      (if fl &&& 0x40 ≠ 0 then
        if cb < p + 1 then .throw .other
        else (rd buf p).bind fun x => if x ≠ 0 then .throw .other else .ok (p + 1)
       else .ok p).bind fun (p : Nat) =>
      -- checksum
      (if fl &&& 0x20 ≠ 0 then
        if cb < p + 6 then .throw .other
        else
          (rd buf p).bind fun n =>
          if n ≠ 5 then .throw .other
          else
            (rd buf (p + 1)).bind fun c0 => (rd buf (p + 2)).bind fun c1 => (rd buf (p + 3)).bind fun c2 =>
            (rd buf (p + 4)).bind fun c3 => (rd buf (p + 5)).bind fun c4 =>
            if 0x0f < c0 ∨ 0x7f < c1 ∨ 0x7f < c2 ∨ 0x7f < c3 ∨ 0x7f < c4 then .throw .other
            else .ok (some (unsignedFromSyncSafe5 c0 c1 c2 c3 c4), p + 6)
       else .ok (none, p)).bind fun ((crc, p) : Option Nat × Nat) =>
      -- restrictions
      (if fl &&& 0x10 ≠ 0 then
        if cb < p + 2 then .throw .other
        else
          (rd buf p).bind fun n =>
          if n ≠ 1 then .throw .other
          else (rd buf (p + 1)).bind fun r => .ok (some (restrictionsOf r))
       else .ok none).bind fun (r : Option Restrictions) =>
      .ok ⟨unsignedFromSyncSafe4 a b c d, fl &&& 0x40 ≠ 0, fl &&& 0x20 ≠ 0, fl &&& 0x10 ≠ 0, crc, r⟩

/-- Encoding the restrictions: scribbu/id3v24.cc L386-441. -/
def restrictionsByte (r : Restrictions) : Byte :=
  let ts : Byte := match r.tagSize with | 1 => 0x40 | 2 => 0x80 | 3 => 0xc0 | _ => 0
  let sz : Byte := match r.textSize with | 1 => 0x08 | 2 => 0x10 | 3 => 0x18 | _ => 0
  let is : Byte := match r.imageSize with | 1 => 1 | 2 => 2 | 3 => 3 | _ => 0
  ts ||| (if r.textEnc then 0x20 else 0) ||| sz ||| (if r.imageEnc then 0x04 else 0) ||| is

/-- The flag byte: scribbu/id3v24.cc L350-361. -/
def flagByte (e : Ext24) : Byte :=
  (if e.update then 64 else 0) ||| (if e.fcrc then 32 else 0) ||| (if e.restricted then 16 else 0)

/-- The checksum: scribbu/id3v24.cc L373-377. `sync_safe_from_unsigned` stores four bytes; the fifth
byte written is what `buf[4]` was set to before. -/
def crcBytes (e : Ext24) : Res Bytes :=
  if e.fcrc then
    match e.crc with
    | none => .ub .uninit
    | some n => (syncSafeFromUnsigned n).bind fun (a, b, c, d) => .ok [a, b, c, d, 1]
  else .ok []

/-- The restrictions: scribbu/id3v24.cc L379-446. -/
def restrBytes (e : Ext24) : Res Bytes :=
  if e.restricted then
    match e.restrictions with
    | none => .ub .uninit
    | some r => .ok [restrictionsByte r]
  else .ok []

/-- `write(os, tag)`: scribbu/id3v24.cc L336-449. -/
def write (e : Ext24) : Res Bytes :=
  (syncSafeFromUnsigned e.size).bind fun (a, b, c, d) =>
  e.crcBytes.bind fun crc => e.restrBytes.bind fun r =>
  .ok ([a, b, c, d, 1, e.flagByte] ++ (if e.update then [0] else []) ++ crc ++ r)

end Ext24

/-- Data members of `id3v2_4_tag` (scribbu/id3v24.hh L848-858) and of `id3v2_tag` (scribbu/id3v2.hh
L1168-1172). -/
structure Tag24 where
  /-- `unsync_` -/
  unsync : Option Bool
  /-- `experimental_` -/
  experimental : Bool
  /-- `footer_` -/
  footer : Bool
  /-- `pext_header_` -/
  ext : Option Ext24
  /-- `padding_` -/
  padding : Nat
  /-- `frames_` -/
  frames : List Frame4
  deriving DecidableEq, Repr

namespace Tag24

/-- `id3v2_4_tag(cbpad, fexp)`: scribbu/id3v24.cc L485-496. -/
def scratch (cbpad : Nat) (fexp : Bool) : Tag24 := ⟨none, fexp, false, none, cbpad, []⟩

/-- `flags()`: scribbu/id3v24.cc L547-565. -/
def flags (t : Tag24) : Byte :=
  (if t.unsync = some true then 0x80 else 0) ||| (if t.ext.isSome then 0x40 else 0) |||
    (if t.experimental then 0x20 else 0) ||| (if t.footer then 0x10 else 0)

/-- The size of the extended header, if there is one: scribbu/id3v24.cc L617-619. -/
def extSize (t : Tag24) : Nat := match t.ext with | none => 0 | some e => e.size

/-- `size(unsync)`: scribbu/id3v24.cc L607-640. -/
def size (z : Zlib) (t : Tag24) (unsync : Bool) : Res (Nat × Tag24) :=
  let cb := t.padding + (if t.footer then 10 else 0) + t.extSize
  (Frame4.sizeAll z .v4 unsync (t.padding == 0) t.frames).bind fun (m, fs) =>
  .ok (cb + m + t.padding, { t with frames := fs })

/-- `needs_unsynchronisation()`: scribbu/id3v24.cc L655-662. -/
def needsUnsync (z : Zlib) : List Frame4 → Res (Bool × List Frame4)
  | [] => .ok (true, [])
  | f :: fs =>
    (f.needsUnsync z .v4 false).bind fun (n, f) =>
    if n = 0 then .ok (false, f :: fs)
    else (needsUnsync z fs).bind fun (b, fs) => .ok (b, f :: fs)

/-- `write_header(os, flags, cb)` and `write_footer(os, flags, cb)`: scribbu/id3v24.cc L1126-1148. -/
def writeHeader (footer : Bool) (flags : Byte) (cb : Nat) : Res Bytes :=
  (syncSafeFromUnsigned cb).bind fun (a, b, c, d) =>
  .ok ((if footer then [0x33, 0x44, 0x49] else [0x49, 0x44, 0x33]) ++ [4, 0, flags, a, b, c, d])

/-- The extended header, if there is one: scribbu/id3v24.cc L722-725. -/
def extBytes : Option Ext24 → Res Bytes
  | none => .ok []
  | some e => e.write

/-- `write(os, unsync)`: scribbu/id3v24.cc L712-744: the bytes written, the number returned, and the tag
with the caches filled. Simplified as for ID3v2.3. -/
def write (z : Zlib) (t : Tag24) (unsync : Bool) : Res (Bytes × Nat × Tag24) :=
  (t.size z unsync).bind fun (cb, t) =>
  (writeHeader false t.flags cb).bind fun hdr =>
  (extBytes t.ext).bind fun x =>
  (Frame4.writeAll z .v4 unsync t.frames).bind fun (b, fs) =>
  let t := { t with frames := fs }
  (if t.footer then
    (t.size z unsync).bind fun (cb, t) => (writeHeader true t.flags cb).bind fun ftr => .ok (ftr, t)
   else .ok ([], t)).bind fun ((ftr, t) : Bytes × Tag24) =>
  .ok (hdr ++ x ++ b ++ List.replicate t.padding 0 ++ ftr, 10 + x.length + b.length + t.padding + ftr.length, t)

/-- The extended header, if there is one, the encryption methods and the frames: scribbu/id3v24.cc
L1292-1499. Gives the extended header, the padding and the frames. -/
def parseBuf (z : Zlib) (extended : Bool) (buf : Bytes) : Res (Option Ext24 × Nat × List Frame4) :=
  (if extended then (Ext24.parse buf buf.length).bind fun e => .ok (some e, e.size) else .ok (none, 0)).bind
    fun ((e, p) : Option Ext24 × Nat) =>
  (encrScan z .v4 buf buf.length p).bind fun (ms, pad) =>
  (framePass z .v4 ms buf buf.length p).bind fun fs =>
  .ok (e, pad, fs)

/-- `parse(is, size, extended)`: scribbu/id3v24.cc L1252-1515. Nothing is resynchronised. -/
def parse (z : Zlib) (extended : Bool) (size : Nat) : SM (Option Ext24 × Nat × List Frame4) := do
  let excMask ← SM.exceptions
  SM.setExceptions IoBits.all
  let here ← SM.tellg
  let r ← SM.onThrow
    (do
      let buf ← SM.read size
      SM.lift (parseBuf z extended buf))
    (do
      SM.seekBeg here
      SM.setExceptions excMask)
  SM.setExceptions excMask
  pure r

/-- `id3v2_4_tag(is, H)`: scribbu/id3v24.cc L471-483 and the base class constructor scribbu/id3v2.cc
L454-462, for a header that is present. -/
def read (z : Zlib) (h : Id3v2Info) : SM Tag24 := do
  let (ext, pad, fs) ← parse z (h.flags &&& 0x40 ≠ 0) h.size
  pure ⟨some (h.flags &&& 0x80 ≠ 0), h.flags &&& 0x20 ≠ 0, h.flags &&& 0x10 ≠ 0, ext, pad, fs⟩

end Tag24
end Scribbu
