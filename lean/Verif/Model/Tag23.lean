import Verif.Model.Frame23
import Verif.Model.Header

/-! # ID3v2.3 tags: reading and writing

`class id3v2_3_tag` (scribbu/id3v23.hh, id3v23.cc) without its lookup tables. -/

namespace Scribbu

/-- Data members of `id3v2_3_tag::ext_header`: scribbu/id3v23.hh L186-190. -/
structure Ext23 where
  /-- `cbpad_` -/
  cbpad : Nat
  /-- `crc_` -/
  crc : Option Nat
  /-- `dirty_` -/
  dirty : Bool
  /-- `num_false_syncs_` -/
  nfs : Nat
  /-- `cache_[SERIALIZED]` -/
  plain : Bytes
  /-- `cache_[SERIALIZED_WITH_UNSYNC]` -/
  unsynced : Bytes
  deriving DecidableEq, Repr

namespace Ext23

/-- A newly constructed extended header. -/
def new (cbpad : Nat) (crc : Option Nat) : Ext23 := ⟨cbpad, crc, true, 0, [], []⟩

/-- `ext_header(p0, p1)`: scribbu/id3v23.cc L185-205. `p1` is not used. `invalid_ext_header` is
`Exc.other`. -/
def parse (buf : Bytes) : Res Ext23 :=
  (rd buf 0).bind fun a => (rd buf 1).bind fun b => (rd buf 2).bind fun c => (rd buf 3).bind fun d =>
  let cb := unsignedFromNonSyncSafe4 a b c d
  (rd buf 4).bind fun fl =>
  let fcrc := fl &&& 0x80 ≠ 0
  if (fcrc ∧ cb ≠ 10) ∨ (¬ fcrc ∧ cb ≠ 6) then .throw .other
  else
    (rd buf 6).bind fun a => (rd buf 7).bind fun b => (rd buf 8).bind fun c => (rd buf 9).bind fun d =>
    let cbpad := unsignedFromNonSyncSafe4 a b c d
    if fcrc then
      (rd buf 10).bind fun a => (rd buf 11).bind fun b => (rd buf 12).bind fun c => (rd buf 13).bind fun d =>
      .ok (new cbpad (some (unsignedFromNonSyncSafe4 a b c d)))
    else .ok (new cbpad none)

/-- `size()`: scribbu/id3v23.hh L160-161. -/
def size (e : Ext23) : Nat := if e.crc.isSome then 10 else 6

/-- `n = htonl(n); stm.write((char*)&n, 4)`. -/
def htonl (n : Nat) : Bytes :=
  [UInt8.ofNat (n >>> 24), UInt8.ofNat (n >>> 16), UInt8.ofNat (n >>> 8), UInt8.ofNat n]

/-- `ensure_cached_data_is_fresh()`: scribbu/id3v23.cc L258-308. -/
def fresh (e : Ext23) : Ext23 :=
  if e.dirty then
    let plain := htonl e.size ++ [if e.crc.isSome then 0x80 else 0, 0] ++ htonl e.cbpad ++
      (match e.crc with | some c => htonl c | none => [])
    { e with dirty := false, nfs := countSyncs true plain, plain := plain, unsynced := unsynchronise false plain }
  else e

/-- `serialized_size(unsync)`: scribbu/id3v23.cc L219-224. -/
def serializedSize (e : Ext23) (unsync : Bool) : Nat × Ext23 :=
  let e := e.fresh
  ((if unsync then e.unsynced else e.plain).length, e)

/-- `write(os, unsync)`: scribbu/id3v23.cc L248-256. -/
def write (e : Ext23) (unsync : Bool) : Bytes × Ext23 :=
  let e := e.fresh
  (if unsync then e.plain else e.unsynced, e)

/-- The update in `crc(tag)`, for the checksum `c` of the tag's frames: scribbu/id3v23.cc L241-245. -/
def setCrc (e : Ext23) (c : Nat) : Ext23 :=
  if e.crc = some c then e else { e with dirty := true, crc := some c }

end Ext23

/-- Data members of `id3v2_3_tag` (scribbu/id3v23.hh L793-802) and of `id3v2_tag` (scribbu/id3v2.hh
L1168-1172). -/
structure Tag23 where
  /-- `unsync_` -/
  unsync : Option Bool
  /-- `experimental_` -/
  experimental : Bool
  /-- `pext_header_` -/
  ext : Option Ext23
  /-- `padding_` -/
  padding : Nat
  /-- `frames_` -/
  frames : List Frame4
  deriving DecidableEq, Repr

namespace Tag23

/-- `id3v2_3_tag(cbpad, fexp, ext)`: scribbu/id3v23.cc L396-409; `ext` says whether there is to be an
extended header, and whether it has a checksum. -/
def scratch (cbpad : Nat) (fexp : Bool) (ext : Option Bool) : Tag23 :=
  ⟨none, fexp, ext.map fun crc => .new cbpad (if crc then some 0 else none), cbpad, []⟩

/-- `flags()`: scribbu/id3v23.cc L411-427. -/
def flags (t : Tag23) : Byte :=
  (if t.unsync = some true then 0x80 else 0) ||| (if t.ext.isSome then 0x40 else 0) |||
    (if t.experimental then 0x20 else 0)

/-- `if (has_crc()) crc(*this)`: scribbu/id3v23.cc L503-505 and L648-650, with `crc`, L234-246. The
checksum starts from `crc32(0L, Z_NULL, 0)`, which is 0. -/
def updateCrc (z : Zlib) (t : Tag23) : Res Tag23 :=
  match t.ext with
  | none => .ok t
  | some e =>
    if e.crc.isSome then
      (Frame4.crcAll z .v3 0 t.frames).bind fun (c, fs) => .ok { t with ext := some (e.setCrc c), frames := fs }
    else .ok t

/-- `size(unsync)`: scribbu/id3v23.cc L492-529. -/
def size (z : Zlib) (t : Tag23) (unsync : Bool) : Res (Nat × Tag23) :=
  (t.updateCrc z).bind fun t =>
  let (n, ext) : Nat × Option Ext23 :=
    match t.ext with
    | none => (0, none)
    | some e => ((e.serializedSize unsync).1, some (e.serializedSize unsync).2)
  (Frame4.sizeAll z .v3 unsync (t.padding == 0) t.frames).bind fun (m, fs) =>
  .ok (n + m + t.padding, { t with ext := ext, frames := fs })

/-- The test of the frames in `needs_unsynchronisation`: scribbu/id3v23.cc L577-590. -/
def framesNeedUnsync (z : Zlib) (noPad : Bool) : List Frame4 → Res (Bool × List Frame4)
  | [] => .ok (false, [])
  | f :: fs =>
    (f.needsUnsync z .v3 (noPad && fs.isEmpty)).bind fun (n, f) =>
    if n ≠ 0 then .ok (true, f :: fs)
    else (framesNeedUnsync z noPad fs).bind fun (b, fs) => .ok (b, f :: fs)

/-- `needs_unsynchronisation()`: scribbu/id3v23.cc L560-593. -/
def needsUnsync (z : Zlib) (t : Tag23) : Res (Bool × Tag23) :=
  (t.updateCrc z).bind fun t =>
  let (n, ext) : Nat × Option Ext23 :=
    match t.ext with
    | none => (0, none)
    | some e => (e.fresh.nfs, some e.fresh)
  if n ≠ 0 then .ok (true, { t with ext := ext })
  else
    (framesNeedUnsync z (t.padding == 0) t.frames).bind fun (b, fs) => .ok (b, { t with ext := ext, frames := fs })

/-- `write_header(os, flags, cb)`: scribbu/id3v23.cc L1052-1063. -/
def writeHeader (flags : Byte) (cb : Nat) : Res Bytes :=
  (syncSafeFromUnsigned cb).bind fun (a, b, c, d) => .ok [0x49, 0x44, 0x33, 3, 0, flags, a, b, c, d]

/-- `write(os, unsync)`: scribbu/id3v23.cc L636-667: the bytes written, the number returned, and the tag
with the caches filled. Simplified: what was written before an exception is not returned; the
loop writing the padding in chunks is one step. -/
def write (z : Zlib) (t : Tag23) (unsync : Bool) : Res (Bytes × Nat × Tag23) :=
  let f := if unsync then t.flags ||| 0x80 else t.flags
  (t.size z unsync).bind fun (cb, t) =>
  (writeHeader f cb).bind fun hdr =>
  (t.updateCrc z).bind fun t =>
  let (x, ext) : Bytes × Option Ext23 :=
    match t.ext with
    | none => ([], none)
    | some e => ((e.write unsync).1, some (e.write unsync).2)
  (Frame4.writeAll z .v3 unsync t.frames).bind fun (b, fs) =>
  .ok (hdr ++ x ++ b ++ List.replicate t.padding 0, 10 + x.length + b.length + t.padding,
    { t with ext := ext, frames := fs })

/-- The extended header, if there is one, the encryption methods and the frames, in a buffer of which
the first `cb` bytes are the tag: scribbu/id3v23.cc L1223-1465. Gives the extended header, the padding and the
frames. -/
def parseAll (z : Zlib) (extended : Bool) (buf : Bytes) (cb : Nat) : Res (Option Ext23 × Nat × List Frame4) :=
  (if extended then (Ext23.parse buf).bind fun e => .ok (some e, e.size + 4) else .ok (none, 0)).bind
    fun ((e, p) : Option Ext23 × Nat) =>
  (encrScan z .v3 buf cb p).bind fun (ms, pad) =>
  (framePass z .v3 ms buf cb p).bind fun fs =>
  .ok (e, pad, fs)

/-- Resynchronising, if need be, and parsing: scribbu/id3v23.cc L1214-1465. `resynchronise` never
runs out of fuel (C05). -/
def parseBuf (z : Zlib) (unsync extended : Bool) (buf : Bytes) : Res (Option Ext23 × Nat × List Frame4) :=
  if unsync then
    match resynchronise buf with
    | some r => r.bind fun (buf', cb) => parseAll z extended buf' cb
    | none => .ub .oobRead
  else parseAll z extended buf buf.length

/-- `parse(is, size, extended)`: scribbu/id3v23.cc L1187-1478. -/
def parse (z : Zlib) (unsync extended : Bool) (size : Nat) : SM (Option Ext23 × Nat × List Frame4) := do
  let excMask ← SM.exceptions
  SM.setExceptions IoBits.all
  let here ← SM.tellg
  let r ← SM.onThrow
    (do
      let buf ← SM.read size
      SM.lift (parseBuf z unsync extended buf))
    (do
      SM.seekBeg here
      SM.setExceptions excMask)
  SM.setExceptions excMask
  pure r

/-- `id3v2_3_tag(is, H)`: scribbu/id3v23.cc L335-346 and the base class constructor scribbu/id3v2.cc
L454-462, for a header that is present. -/
def read (z : Zlib) (h : Id3v2Info) : SM Tag23 := do
  let unsync := h.flags &&& 0x80 ≠ 0
  let (ext, pad, fs) ← parse z unsync (h.flags &&& 0x40 ≠ 0) h.size
  pure ⟨some unsync, h.flags &&& 0x20 ≠ 0, ext, pad, fs⟩

end Tag23
end Scribbu
