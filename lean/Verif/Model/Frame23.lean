import Verif.Model.Frame22
import Verif.Model.SyncSafe

/-! # ID3v2.3 and ID3v2.4 frames

`id3v2_3_plus_frame`, `id3v2_3_frame`, `id3v2_4_frame` and the classes derived from them:
scribbu/framesv23.hh, framesv23.cc, framesv24.hh, framesv24.cc. The two versions share this model;
where they differ there is a case distinction on the version. -/

namespace Scribbu

/-- zlib, which is not part of the library: `compress`, `uncompress` (given the size of the destination)
and `crc32`. Nothing is assumed about them unless a theorem says so. -/
structure Zlib where
  compress : Bytes → Res Bytes
  uncompress : Bytes → Nat → Res Bytes
  crc32 : Nat → Bytes → Nat

/-- `class frame_id4`: scribbu/framesv2.hh L302-351. -/
structure Id4 where
  a : Byte
  b : Byte
  c : Byte
  d : Byte
  deriving DecidableEq, Repr

/-- `frame_id4(const char id[4])`. -/
def mkId4 (x y z w : Char) : Id4 :=
  ⟨UInt8.ofNat x.toNat, UInt8.ofNat y.toNat, UInt8.ofNat z.toNat, UInt8.ofNat w.toNat⟩

/-- The frames registered as text frames: scribbu/id3v23.cc L115-152, id3v24.cc L113-150 (the two lists
are the same). -/
def textIds4 : List Id4 :=
  [mkId4 'T' 'A' 'L' 'B', mkId4 'T' 'B' 'P' 'M', mkId4 'T' 'C' 'O' 'M', mkId4 'T' 'C' 'O' 'N',
   mkId4 'T' 'C' 'O' 'P', mkId4 'T' 'D' 'A' 'T', mkId4 'T' 'D' 'L' 'Y', mkId4 'T' 'E' 'N' 'C',
   mkId4 'T' 'E' 'X' 'T', mkId4 'T' 'F' 'L' 'T', mkId4 'T' 'I' 'M' 'E', mkId4 'T' 'I' 'T' '1',
   mkId4 'T' 'I' 'T' '2', mkId4 'T' 'I' 'T' '3', mkId4 'T' 'K' 'E' 'Y', mkId4 'T' 'L' 'A' 'N',
   mkId4 'T' 'L' 'E' 'N', mkId4 'T' 'M' 'E' 'D', mkId4 'T' 'O' 'A' 'L', mkId4 'T' 'O' 'F' 'N',
   mkId4 'T' 'O' 'L' 'Y', mkId4 'T' 'O' 'P' 'E', mkId4 'T' 'O' 'R' 'Y', mkId4 'T' 'O' 'W' 'N',
   mkId4 'T' 'P' 'E' '1', mkId4 'T' 'P' 'E' '2', mkId4 'T' 'P' 'E' '3', mkId4 'T' 'P' 'E' '4',
   mkId4 'T' 'P' 'O' 'S', mkId4 'T' 'P' 'U' 'B', mkId4 'T' 'R' 'C' 'K', mkId4 'T' 'R' 'D' 'A',
   mkId4 'T' 'R' 'S' 'N', mkId4 'T' 'R' 'S' 'O', mkId4 'T' 'S' 'I' 'Z', mkId4 'T' 'S' 'R' 'C',
   mkId4 'T' 'S' 'S' 'E', mkId4 'T' 'Y' 'E' 'R']

/-- Which class `parse_frame` instantiates: scribbu/id3v23.cc L1480-1568, id3v24.cc L1517-1615, with the
default parsers registered in id3v23.cc L114-158, id3v24.cc L112-156. Parsers that the program registers
itself are not modelled. -/
def kind4 (id : Id4) : Kind :=
  if id = mkId4 'C' 'O' 'M' 'M' then .comm
  else if id = mkId4 'P' 'C' 'N' 'T' then .pcnt
  else if id = mkId4 'P' 'O' 'P' 'M' then .popm
  else if id = mkId4 'P' 'R' 'I' 'V' then .priv
  else if id ∈ textIds4 then .text
  else if id = mkId4 'U' 'F' 'I' 'D' then .ufid
  else if id = mkId4 'E' 'N' 'C' 'R' then .encr
  else if id = mkId4 'T' 'X' 'X' 'X' then .txxx
  else if id = mkId4 'X' 'T' 'A' 'G' then .xtag
  else .unknown

/-- Data members of `id3v2_3_plus_frame` (scribbu/framesv23.hh L304-313), of `id3v2_4_frame`
(scribbu/framesv24.hh L153-155; `compressed_` is in both classes with the same value), of the derived
class, and `id3v2_frame::dirty_` (framesv2.hh L434). `unsynch` and `dli` mean nothing in ID3v2.3. -/
structure Frame4 where
  id : Id4
  body : Body
  /-- `tap_` is `discard` -/
  tap : Bool
  /-- `fap_` is `discard` -/
  fap : Bool
  /-- `read_only_` is `set` -/
  ro : Bool
  /-- `compressed_` -/
  compressed : Bool
  /-- `enc_method_` -/
  enc : Option Byte
  /-- `group_id_` -/
  gid : Option Byte
  /-- `unsynchronised_` -/
  unsynch : Bool
  /-- `data_len_indicator_` -/
  dli : Option Nat
  /-- `dirty_` -/
  dirty : Bool
  /-- `num_false_syncs_` -/
  nfs : Nat
  /-- `cache_[SERIALIZED_WITH_CE]` -/
  plain : Bytes
  /-- `cache_[SERIALIZED_WITH_CEU]` -/
  unsynced : Bytes
  deriving DecidableEq, Repr

namespace Frame4

/-- A newly constructed frame: scribbu/framesv23.hh L173-190, L405-413, framesv24.hh L90-103, framesv2.hh
L401. -/
def new (id : Id4) (body : Body) (tap fap ro compressed : Bool) (enc gid : Option Byte) (unsynch : Bool)
    (dli : Option Nat) : Frame4 :=
  ⟨id, body, tap, fap, ro, compressed, enc, gid, unsynch, dli, true, 0, [], []⟩

/-- Copying a frame, as `clone()` does: scribbu/framesv23.hh L217-226. The caches are not copied and
the copy is dirty. -/
def copy (f : Frame4) : Frame4 := { f with dirty := true, nfs := 0, plain := [], unsynced := [] }

/-- `n` when a condition holds, else zero: for `flags |= n`. -/
def bit (b : Bool) (n : Byte) : Byte := if b then n else 0

/-- `os.write((char*)&dlind, 4)`: four bytes in the order of the machine, taken to be
little-endian. -/
def hostOrder4 (n : Nat) : Bytes :=
  [UInt8.ofNat n, UInt8.ofNat (n >>> 8), UInt8.ofNat (n >>> 16), UInt8.ofNat (n >>> 24)]

/-- The bytes of an optional byte. -/
def optByte : Option Byte → Bytes
  | none => []
  | some b => [b]

/-- `id3v2_3_frame::write_header(os, cb_payload, dlind)`: scribbu/framesv23.cc L351-420. -/
def header23 (f : Frame4) (cb dlind : Nat) : Res Bytes :=
  let f0 := bit f.tap 64 ||| bit f.fap 32 ||| bit f.ro 16
  let f1 := bit f.compressed 64 ||| bit f.enc.isSome 32 ||| bit f.gid.isSome 16
  let sz := cb + (if f.compressed then 4 else 0) + (if f.enc.isSome then 1 else 0) + (if f.gid.isSome then 1 else 0)
  if 0xffffffff < cb then .throw .runtimeError
  else .ok ([f.id.a, f.id.b, f.id.c, f.id.d] ++
    [UInt8.ofNat ((sz &&& 0xff000000) >>> 24), UInt8.ofNat ((sz &&& 0x00ff0000) >>> 16),
     UInt8.ofNat ((sz &&& 0x0000ff00) >>> 8), UInt8.ofNat (sz &&& 0x000000ff)] ++ [f0, f1] ++
    (if f.compressed then hostOrder4 dlind else []) ++ optByte f.enc ++ optByte f.gid)

/-- `id3v2_4_frame::write_header(os, cb_payload, dlind)`: scribbu/framesv24.cc L86-151. The size written
is `size()`, not computed from `cb_payload`. -/
def header24 (f : Frame4) (dlind : Nat) : Res Bytes :=
  let f0 := bit f.tap 32 ||| bit f.fap 16 ||| bit f.ro 8
  let f1 := bit f.gid.isSome 32 ||| bit f.compressed 8 ||| bit f.enc.isSome 4 ||| bit f.unsynch 2 |||
    bit f.dli.isSome 1
  (syncSafeFromUnsigned f.body.size).bind fun (s0, s1, s2, s3) =>
  .ok ([f.id.a, f.id.b, f.id.c, f.id.d] ++ [s0, s1, s2, s3] ++ [f0, f1] ++ optByte f.enc ++ optByte f.gid ++
    (if f.dli.isSome then hostOrder4 dlind else []))

/-- `write_header`, a virtual function. -/
def header (ver : Ver) (f : Frame4) (cb dlind : Nat) : Res Bytes :=
  match ver with
  | .v4 => header24 f dlind
  | _ => header23 f cb dlind

/-- `ensure_cached_data_is_fresh(last_no_pad)`: scribbu/framesv23.cc L149-250. Simplified: when it throws,
the frame (which stays dirty, with an empty cache) is not returned. -/
def fresh (z : Zlib) (ver : Ver) (f : Frame4) (last : Bool) : Res Frame4 :=
  if f.dirty then
    f.body.serialize.bind fun buf =>
    if f.enc.isSome then .throw .logicError
    else
      (if f.compressed then z.compress buf else .ok buf).bind fun payload =>
      (header ver f payload.length buf.length).bind fun hdr =>
      let plain := hdr ++ payload
      .ok { f with dirty := false, plain := plain, unsynced := unsynchronise last plain,
                   nfs := countSyncs true plain + (if last ∧ plain.getLast? = some 0xff then 1 else 0) }
  else .ok f

/-- `crc(crc)`: scribbu/framesv23.cc L55-61. -/
def crc (z : Zlib) (ver : Ver) (f : Frame4) (c : Nat) : Res (Nat × Frame4) :=
  (f.fresh z ver false).bind fun f => .ok (z.crc32 c f.plain, f)

/-- `serialized_size(unsync, last_no_pad)`: scribbu/framesv23.cc L78-85. -/
def serializedSize (z : Zlib) (ver : Ver) (f : Frame4) (unsync last : Bool) : Res (Nat × Frame4) :=
  (f.fresh z ver last).bind fun f => .ok ((if unsync then f.unsynced else f.plain).length, f)

/-- `needs_unsynchronisation(last_no_pad)`: scribbu/framesv23.cc L97-103. -/
def needsUnsync (z : Zlib) (ver : Ver) (f : Frame4) (last : Bool) : Res (Nat × Frame4) :=
  (f.fresh z ver last).bind fun f => .ok (f.nfs, f)

/-- `write(os, unsync)`: scribbu/framesv23.cc L121-129. -/
def write (z : Zlib) (ver : Ver) (f : Frame4) (unsync : Bool) : Res (Bytes × Frame4) :=
  (f.fresh z ver false).bind fun f => .ok (if unsync then f.unsynced else f.plain, f)

/-- Any of the calls that change the data of a frame: `id3v2_3_text_frame::set` (scribbu/framesv23.cc
L546-590), `id3v2_4_text_frame::set` (framesv24.cc L324-335) and those inherited from `comments`,
`play_count`, `popularimeter` and `tag_cloud`. None of them calls `dirty(true)`; there is no such call in
the library. -/
def edit (f : Frame4) (g : Body → Body) : Frame4 := { f with body := g f.body }

/-- Writing several frames one after the other: scribbu/id3v23.cc L654-656, id3v24.cc L725-727. -/
def writeAll (z : Zlib) (ver : Ver) (unsync : Bool) : List Frame4 → Res (Bytes × List Frame4)
  | [] => .ok ([], [])
  | f :: fs =>
    (f.write z ver unsync).bind fun (n, f) =>
    (writeAll z ver unsync fs).bind fun (m, fs) => .ok (n ++ m, f :: fs)

/-- The sum of the sizes of the frames, of which the last is treated specially if there is no
padding: scribbu/id3v23.cc L515-523, id3v24.cc L626-634. -/
def sizeAll (z : Zlib) (ver : Ver) (unsync noPad : Bool) : List Frame4 → Res (Nat × List Frame4)
  | [] => .ok (0, [])
  | f :: fs =>
    (f.serializedSize z ver unsync (noPad && fs.isEmpty)).bind fun (n, f) =>
    (sizeAll z ver unsync noPad fs).bind fun (m, fs) => .ok (n + m, f :: fs)

/-- The checksum over the frames: scribbu/id3v23.cc L238-240. -/
def crcAll (z : Zlib) (ver : Ver) (c : Nat) : List Frame4 → Res (Nat × List Frame4)
  | [] => .ok (c, [])
  | f :: fs =>
    (f.crc z ver c).bind fun (c, f) =>
    (crcAll z ver c fs).bind fun (c, fs) => .ok (c, f :: fs)

end Frame4

/-! ## Walking the frames of a tag -/

/-- The size of a frame: scribbu/id3v23.cc L1281 and L1391, id3v24.cc L1325 and L1423. -/
def frameSize4 (ver : Ver) (a b c d : Byte) : Nat :=
  match ver with
  | .v4 => unsignedFromSyncSafe4 a b c d
  | _ => unsignedFromNonSyncSafe4 a b c d

/-- What the second flag byte says comes before the payload. -/
structure Extras where
  gid : Option Byte
  compressed : Bool
  enc : Option Byte
  unsynch : Bool
  /-- decompressed size (ID3v2.3) or data length indicator (ID3v2.4) -/
  size : Option Nat
  /-- how many bytes were read -/
  used : Nat
  deriving DecidableEq, Repr

/-- `if (f) { x = *pread++; cb_read -= 1; }`. -/
def optRead (buf : Bytes) (p : Nat) (f : Bool) : Res (Option Byte × Nat) :=
  if f then (rd buf p).bind fun b => .ok (some b, p + 1) else .ok (none, p)

/-- Reading a size that takes four bytes, if there is one. -/
def optSize (dec : Byte → Byte → Byte → Byte → Nat) (buf : Bytes) (p : Nat) (f : Bool) : Res (Option Nat × Nat) :=
  if f then
    (rd buf p).bind fun a => (rd buf (p + 1)).bind fun b => (rd buf (p + 2)).bind fun c => (rd buf (p + 3)).bind fun d =>
    .ok (some (dec a b c d), p + 4)
  else .ok (none, p)

/-- The bytes before the payload: scribbu/id3v23.cc L1300-1324 and L1421-1443, id3v24.cc L1353-1376 and
L1452-1475. -/
def extras (ver : Ver) (buf : Bytes) (p : Nat) (f1 : Byte) : Res Extras :=
  match ver with
  | .v4 =>
    (optRead buf p (f1 &&& 0x40 ≠ 0)).bind fun (gid, q) =>
    (optRead buf q (f1 &&& 0x04 ≠ 0)).bind fun (enc, q) =>
    (optSize unsignedFromSyncSafe4 buf q (f1 &&& 0x01 ≠ 0)).bind fun (size, q) =>
    .ok ⟨gid, f1 &&& 0x80 ≠ 0, enc, f1 &&& 0x02 ≠ 0, size, q - p⟩
  | _ =>
    (optSize unsignedFromNonSyncSafe4 buf p (f1 &&& 0x80 ≠ 0)).bind fun (size, q) =>
    (optRead buf q (f1 &&& 0x40 ≠ 0)).bind fun (enc, q) =>
    (optRead buf q (f1 &&& 0x20 ≠ 0)).bind fun (gid, q) =>
    .ok ⟨gid, size.isSome, enc, false, size, q - p⟩

/-- The first flag byte: tag alter preservation, file alter preservation, read only:
scribbu/id3v23.cc L1409-1419, id3v24.cc L1440-1450. -/
def attrs (ver : Ver) (f0 : Byte) : Bool × Bool × Bool :=
  match ver with
  | .v4 => (f0 &&& 0x40 ≠ 0, f0 &&& 0x20 ≠ 0, f0 &&& 0x10 ≠ 0)
  | _ => (f0 &&& 0x80 ≠ 0, f0 &&& 0x40 ≠ 0, f0 &&& 0x20 ≠ 0)

/-- The memory that holds the payload, from its beginning to the end of the buffer, and its length:
scribbu/id3v23.cc L1341-1344 and L1455-1458, id3v24.cc L1389-1392 and L1488-1491, with `decompress`
id3v23.cc L1165-1177, id3v24.cc L1231-1242. `size` says what size to decompress to, if at all. `cb_read`, which
is unsigned, wraps around if the frame is shorter than what precedes its payload; the range that
results is invalid. Simplified: `uncompress` is taken to read all of its source. -/
def payloadOf (z : Zlib) (buf : Bytes) (p cb used : Nat) (size : Option Nat) : Res (Bytes × Nat) :=
  if cb < used then .ub .oobRead
  else
    match size with
    | none => .ok (buf.drop (p + used), cb - used)
    | some n =>
      (slice buf (p + used) (cb - used)).bind fun src =>
      (z.uncompress src n).bind fun out => .ok (out, out.length)

/-- Handling of an ENCR frame in the first pass, at index `p`: scribbu/id3v23.cc L1287-1348, id3v24.cc
L1331-1397, with `register_encryption_method`, id3v23.cc L1580-1588, id3v24.cc L1627-1636. `ms` are the
methods that are registered; gives those registered afterwards, and whether the frame was skipped
because it is itself encrypted. Taking the value of an optional that has none is UB. -/
def encrFrame (z : Zlib) (ver : Ver) (buf : Bytes) (p cbFrame : Nat) (ms : List Byte) : Res (List Byte × Bool) :=
  (rd buf (p + 9)).bind fun f1 =>
  (extras ver buf (p + 10) f1).bind fun x =>
  match x.enc with
  | some m => if m ∈ ms then .throw .logicError else .ok (ms, true)
  | none =>
    (match ver, x.compressed, x.size with
     | .v4, true, none => (.ub .uninit : Res (Bytes × Nat))
     | .v4, true, some n => payloadOf z buf (p + 10) cbFrame x.used (some n)
     | .v4, false, _ => payloadOf z buf (p + 10) cbFrame x.used none
     | _, _, o => payloadOf z buf (p + 10) cbFrame x.used o).bind fun (mem, n) =>
    (slice mem 0 n).bind fun b =>
    match (Encr.parse b).method with
    | none => .ub .uninit
    | some m =>
      if m ∈ ms then .throw (match ver with | .v4 => .runtimeError | _ => .invalidArgument)
      else .ok (m :: ms, false)

/-- One pass over the frames to find encryption methods: scribbu/id3v23.cc L1244-1350, id3v24.cc
L1305-1397. Gives the registered methods, whether an encrypted ENCR frame was found, and the padding (zero if
not assigned). -/
def encrPass (z : Zlib) (ver : Ver) (buf : Bytes) (cb p : Nat) (ms : List Byte) (found : Bool) :
    Res (List Byte × Bool × Nat) :=
  if p < cb then
    let left := cb - p
    (rd buf p).bind fun b0 =>
    if left = 1 ∧ b0 = 0 then .ok (ms, found, left)
    else
      (rd buf (p + 1)).bind fun b1 =>
      if left = 2 ∧ b0 = 0 ∧ b1 = 0 then .ok (ms, found, left)
      else
        (rd buf (p + 2)).bind fun b2 =>
        if left = 3 ∧ b0 = 0 ∧ b1 = 0 ∧ b2 = 0 then .ok (ms, found, left)
        else
          (rd buf (p + 3)).bind fun b3 =>
          let id : Id4 := ⟨b0, b1, b2, b3⟩
          if id = ⟨0, 0, 0, 0⟩ then .ok (ms, found, left)
          else if ver ≠ .v4 ∧ cb < p + 11 then .throw .invalidTag
          else
            (rd buf (p + 4)).bind fun s0 => (rd buf (p + 5)).bind fun s1 =>
            (rd buf (p + 6)).bind fun s2 => (rd buf (p + 7)).bind fun s3 =>
            let cbFrame := frameSize4 ver s0 s1 s2 s3
            if id ≠ mkId4 'E' 'N' 'C' 'R' then encrPass z ver buf cb (p + cbFrame + 10) ms found
            else if cb < p + 11 then .throw .invalidTag
            else
              (encrFrame z ver buf p cbFrame ms).bind fun (ms, skipped) =>
              encrPass z ver buf cb (p + cbFrame + 10) ms (found || skipped)
  else .ok (ms, found, 0)
termination_by cb - p

/-- `do ... while (found_encrypted)`: scribbu/id3v23.cc L1240-1352, id3v24.cc L1301-1399: the methods and
the padding; `none` means that the loop has not ended after `fuel` passes. `found_encrypted` is never set to
false. -/
def encrLoop (z : Zlib) (ver : Ver) (buf : Bytes) (cb p : Nat) : Nat → List Byte → Bool → Option (Res (List Byte × Nat))
  | 0, _, _ => none
  | fuel + 1, ms, found =>
    match encrPass z ver buf cb p ms found with
    | .ok (ms, found, pad) => if found then encrLoop z ver buf cb p fuel ms found else some (.ok (ms, pad))
    | .throw e => some (.throw e)
    | .ub u => some (.ub u)

/-- The loop as a whole: if it does not end within two passes it never ends (C30), and a loop without
side effects that never ends is undefined behaviour. -/
def encrScan (z : Zlib) (ver : Ver) (buf : Bytes) (cb p : Nat) : Res (List Byte × Nat) :=
  match encrLoop z ver buf cb p 2 [] false with
  | some r => r
  | none => .ub .noProgress

/-- The frame at index `p`, whose header has been checked: scribbu/id3v23.cc L1407-1463, id3v24.cc
L1438-1497. -/
def readFrame4 (z : Zlib) (ver : Ver) (ms : List Byte) (buf : Bytes) (p cbFrame : Nat) (id : Id4) : Res Frame4 :=
  (rd buf (p + 8)).bind fun f0 => (rd buf (p + 9)).bind fun f1 =>
  (extras ver buf (p + 10) f1).bind fun x =>
  match x.enc with
  | some m => .throw (if ver = .v4 ∧ m ∉ ms then .invalidArgument else .logicError)
  | none =>
    (payloadOf z buf (p + 10) cbFrame x.used x.size).bind fun (mem, n) =>
    (Body.parse ver (kind4 id) mem n).bind fun body =>
    .ok (Frame4.new id body (attrs ver f0).1 (attrs ver f0).2.1 (attrs ver f0).2.2 x.compressed none x.gid x.unsynch
      (match ver with | .v4 => x.size | _ => none))

/-- The last pass over the frames: scribbu/id3v23.cc L1354-1465, id3v24.cc L1403-1499. `cb` is the size
of the tag, `p` the index of `p0`. -/
def framePass (z : Zlib) (ver : Ver) (ms : List Byte) (buf : Bytes) (cb p : Nat) : Res (List Frame4) :=
  if p < cb then
    let left := cb - p
    (rd buf p).bind fun b0 =>
    if left = 1 ∧ b0 = 0 then .ok []
    else
      (rd buf (p + 1)).bind fun b1 =>
      if left = 2 ∧ b0 = 0 ∧ b1 = 0 then .ok []
      else
        (rd buf (p + 2)).bind fun b2 =>
        if left = 3 ∧ b0 = 0 ∧ b1 = 0 ∧ b2 = 0 then .ok []
        else
          (rd buf (p + 3)).bind fun b3 =>
          let id : Id4 := ⟨b0, b1, b2, b3⟩
          if id = ⟨0, 0, 0, 0⟩ then .ok []
          else if cb < p + 11 then .throw .invalidTag
          else
            (rd buf (p + 4)).bind fun s0 => (rd buf (p + 5)).bind fun s1 =>
            (rd buf (p + 6)).bind fun s2 => (rd buf (p + 7)).bind fun s3 =>
            let cbFrame := frameSize4 ver s0 s1 s2 s3
            if cb ≤ cbFrame then .throw .invalidTag
            else
              (readFrame4 z ver ms buf p cbFrame id).bind fun f =>
              (framePass z ver ms buf cb (p + cbFrame + 10)).bind fun fs => .ok (f :: fs)
  else .ok []
termination_by cb - p

end Scribbu
