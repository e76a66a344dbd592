import Verif.Model.Bodies
import Verif.Model.TagCloud

/-! # ID3v2.2 frames

`id3v2_2_frame` and the classes derived from it: scribbu/framesv22.hh, framesv22.cc; the union of
frame bodies is shared with ID3v2.3 and ID3v2.4. -/

namespace Scribbu

/-- The kinds of frame body the library tells apart. -/
inductive Kind | unknown | ufid | encr | text | txxx | comm | pcnt | popm | xtag | priv
  deriving DecidableEq, Repr

/-- A frame body: the data members of the class a frame is an instance of. -/
inductive Body
  /-- `unknown_id3v2_2_frame::data_` and its counterparts for ID3v2.3/2.4:
  scribbu/framesv22.hh L245. -/
  | unknown (data : Bytes)
  | ufid (u : Ufid)
  | encr (e : Encr)
  /-- `id3v2_2_text_frame::unicode_`, `text_` and its counterparts: scribbu/framesv22.hh L464-465. -/
  | text (unicode : Byte) (text : Bytes)
  | txxx (t : Txxx)
  | comm (c : Comm)
  /-- `play_count::counter_`: scribbu/framesv2.hh L878. -/
  | pcnt (counter : Bytes)
  | popm (p : Popm)
  | xtag (t : TagCloud)
  | priv (p : Priv)
  deriving DecidableEq, Repr

namespace Body

/-- `serialize(os)` of the frame classes: scribbu/framesv22.cc L269-279 (unknown), L303-310
(UFI), L361-372 (text), L394-401 (TXX), L423-430 (COM), L452-459 (CNT), L481-488 (POP), L510-516
(XTG); for ID3v2.3 scribbu/framesv23.cc L437-444 (unknown), L476-483 (UFID), L512-519 (ENCR),
L533-544 (text), L621-628 (TXXX), L658-665 (COMM), L695-702 (PCNT), L732-739 (POPM), L768-775 (XTAG),
L804-811 (PRIV); for ID3v2.4 scribbu/framesv24.cc L168-174, L213-220, L256-263, L277-285, L391-398,
L431-438, L471-478, L511-518, L550-557, L589-596. -/
def serialize : Body → Res Bytes
  | unknown d => .ok d
  | ufid u => .ok u.write
  | encr e => e.write
  | text u t => .ok (u :: t)
  | txxx t => .ok t.write
  | comm c => c.write
  | pcnt c => .ok c
  | popm p => .ok p.write
  | xtag t => .ok t.write
  | priv p => .ok p.write

/-- `size()` of the frame classes: scribbu/framesv22.cc L260-267, L294-301, L317-322, L387-392, L416-421,
L445-450, L474-479, L503-508; scribbu/framesv23.cc L430-435, L469-474, L505-510, L526-531, L614-619,
L651-656, L688-693, L725-730, L761-766, L797-802; scribbu/framesv24.cc L161-166, L206-211, L249-254,
L270-275, L384-389, L424-429, L464-469, L504-509, L543-548, L582-587. -/
def size : Body → Nat
  | unknown d => d.length
  | ufid u => u.size
  | encr e => e.size
  | text _ t => 1 + t.length
  | txxx t => t.size
  | comm c => c.size
  | pcnt c => c.length
  | popm p => p.size
  | xtag t => t.size
  | priv p => p.size

/-- The parsing constructors of the frame classes, for a frame of kind `k` whose payload is the
first `n` bytes of `mem`, the memory up to the end of the buffer that holds the tag:
scribbu/framesv22.hh L201-207, L253-257, L335-343, L506-511, L570-575, L639-643, L674-678,
L723-727; for ID3v2.3 scribbu/framesv23.hh L453-465, L523-535, L579-591, L679-694, L879-890, L966-977,
L1050-1061, L1107-1118, L1179-1190, L1268-1279; ID3v2.4 has the same ones. Simplified: reading beyond the payload is UB for popularimeters and tag clouds even where
the buffer goes on (for text it is UB only at the end of the buffer). `TagCloud.parse` never
gives `none`. -/
def parse (ver : Ver) (k : Kind) (mem : Bytes) (n : Nat) : Res Body :=
  match k with
  | .unknown => (slice mem 0 n).bind fun b => .ok (unknown b)
  | .ufid => (slice mem 0 n).bind fun b => .ok (ufid (Ufid.parse b))
  | .encr => (slice mem 0 n).bind fun b => .ok (encr (Encr.parse b))
  | .text =>
    (slice mem 0 n).bind fun b =>
    match b with
    | [] => .ub .oobRead
    | u :: t => .ok (text u t)
  | .txxx => (Txxx.parse ver mem n).bind fun t => .ok (txxx t)
  | .comm => (Comm.parse ver mem n).bind fun c => .ok (comm c)
  | .pcnt => (slice mem 0 n).bind fun b => .ok (pcnt b)
  | .popm => (slice mem 0 n).bind fun b => (Popm.parse b).bind fun p => .ok (popm p)
  | .xtag =>
    (slice mem 0 n).bind fun b =>
    match TagCloud.parse b with
    | some r => r.bind fun t => .ok (xtag t)
    | none => .ub .oobRead
  | .priv => (slice mem 0 n).bind fun b => (Priv.parse b).bind fun p => .ok (priv p)

end Body

/-- `class frame_id3`: scribbu/framesv2.hh L262-299. -/
structure Id3 where
  a : Byte
  b : Byte
  c : Byte
  deriving DecidableEq, Repr

/-- `frame_id3(const char id[3])`. -/
def mkId3 (x y z : Char) : Id3 := ⟨UInt8.ofNat x.toNat, UInt8.ofNat y.toNat, UInt8.ofNat z.toNat⟩

/-- The frames registered as text frames: scribbu/id3v22.cc L109-143. -/
def textIds22 : List Id3 :=
  [mkId3 'T' 'T' '1', mkId3 'T' 'T' '2', mkId3 'T' 'T' '3', mkId3 'T' 'P' '1', mkId3 'T' 'P' '2',
   mkId3 'T' 'P' '3', mkId3 'T' 'P' '4', mkId3 'T' 'C' 'M', mkId3 'T' 'X' 'T', mkId3 'T' 'L' 'A',
   mkId3 'T' 'C' 'O', mkId3 'T' 'A' 'L', mkId3 'T' 'P' 'A', mkId3 'T' 'R' 'K', mkId3 'T' 'R' 'C',
   mkId3 'T' 'Y' 'E', mkId3 'T' 'D' 'A', mkId3 'T' 'I' 'M', mkId3 'T' 'R' 'D', mkId3 'T' 'M' 'T',
   mkId3 'T' 'F' 'T', mkId3 'T' 'B' 'P', mkId3 'T' 'C' 'R', mkId3 'T' 'P' 'B', mkId3 'T' 'E' 'N',
   mkId3 'T' 'S' 'S', mkId3 'T' 'O' 'F', mkId3 'T' 'L' 'E', mkId3 'T' 'S' 'I', mkId3 'T' 'D' 'Y',
   mkId3 'T' 'K' 'E', mkId3 'T' 'O' 'T', mkId3 'T' 'O' 'A', mkId3 'T' 'O' 'L', mkId3 'T' 'O' 'R']

/-- Which class `parse_frame` instantiates: scribbu/id3v22.cc L951-1012, with the default parsers
registered in L108-148. Parsers that the program registers itself are not modelled. -/
def kind22 (id : Id3) : Kind :=
  if id = mkId3 'C' 'O' 'M' then .comm
  else if id = mkId3 'C' 'N' 'T' then .pcnt
  else if id = mkId3 'P' 'O' 'P' then .popm
  else if id ∈ textIds22 then .text
  else if id = mkId3 'U' 'F' 'I' then .ufid
  else if id = mkId3 'T' 'X' 'X' then .txxx
  else if id = mkId3 'X' 'T' 'G' then .xtag
  else .unknown

/-- Data members of `id3v2_2_frame` and its derived class: scribbu/framesv22.hh L191-193 and
`id3v2_frame::dirty_`, framesv2.hh L434. -/
structure Frame22 where
  id : Id3
  body : Body
  /-- `dirty_` -/
  dirty : Bool
  /-- `num_false_syncs_` -/
  nfs : Nat
  /-- `cache_[SERIALIZED]` -/
  plain : Bytes
  /-- `cache_[SERIALIZED_WITH_UNSYNC]` -/
  unsynced : Bytes
  deriving DecidableEq, Repr

namespace Frame22

/-- A newly constructed frame: scribbu/framesv22.hh L78-90, framesv2.hh L401. `num_false_syncs_` is
uninitialised but not used before the cache is filled. -/
def new (id : Id3) (body : Body) : Frame22 := ⟨id, body, true, 0, [], []⟩

/-- `write_header(os, cb_payload)`: scribbu/framesv22.cc L148-175. -/
def header (id : Id3) (cb : Nat) : Res Bytes :=
  if 0xffffff < cb then .throw .runtimeError
  else .ok [id.a, id.b, id.c, UInt8.ofNat ((cb &&& 0xff0000) >>> 16), UInt8.ofNat ((cb &&& 0x00ff00) >>> 8),
    UInt8.ofNat (cb &&& 0x0000ff)]

/-- `ensure_cached_data_is_fresh()`: scribbu/framesv22.cc L187-226. Simplified: when it throws,
the frame (which stays dirty, with an empty cache) is not returned. -/
def fresh (f : Frame22) : Res Frame22 :=
  if f.dirty then
    f.body.serialize.bind fun payload =>
    (header f.id payload.length).bind fun hdr =>
    let plain := hdr ++ payload
    .ok { f with dirty := false, nfs := countSyncs true plain, plain := plain,
                 unsynced := unsynchronise false plain }
  else .ok f

/-- `serialized_size(unsync)`: scribbu/framesv22.cc L78-85. -/
def serializedSize (f : Frame22) (unsync : Bool) : Res (Nat × Frame22) :=
  f.fresh.bind fun f => .ok ((if unsync then f.plain else f.unsynced).length, f)

/-- `needs_unsynchronisation()`: scribbu/framesv22.cc L92-97. -/
def needsUnsync (f : Frame22) : Res (Nat × Frame22) := f.fresh.bind fun f => .ok (f.nfs, f)

/-- `write(os, unsync)`: scribbu/framesv22.cc L102-109. -/
def write (f : Frame22) (unsync : Bool) : Res (Bytes × Frame22) :=
  f.fresh.bind fun f => .ok (if unsync then f.plain else f.unsynced, f)

/-- Any of the calls that change the data of a frame: `id3v2_2_text_frame::set` (scribbu/framesv22.cc
L324-350), and those inherited from `comments`, `play_count`, `popularimeter` and `tag_cloud`. None
of them calls `dirty(true)`; there is no such call in the library. -/
def edit (f : Frame22) (g : Body → Body) : Frame22 := { f with body := g f.body }

end Frame22
end Scribbu
