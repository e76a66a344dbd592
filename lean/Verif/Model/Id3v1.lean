import Verif.Model.Stream

/-!
# ID3v1 tags (scribbu/id3v1.cc, scribbu/id3v1.hh)

Character-set conversion is outside the model: setters take the already
converted bytes (the result of `convert_encoding`).
-/

namespace Scribbu

/-- Copying `n` elements starting at index `off` of an object with the given
elements; UB when the range is not inside the object. -/
def slice (p : Bytes) (off n : Nat) : Res Bytes :=
  if off + n ≤ p.length then .ok ((p.drop off).take n) else .ub .oobRead

/-- `std::vector<unsigned char>::resize(n, 0)`. -/
def resize (v : Bytes) (n : Nat) : Bytes :=
  if n ≤ v.length then v.take n else v ++ List.replicate (n - v.length) 0

/-- Reading a member that may be uninitialised. -/
def initd (o : Option α) : Res α :=
  match o with
  | some a => .ok a
  | none => .ub .uninit

/-- Data members of `class id3v1_tag`: scribbu/id3v1.hh (private section, after
L600). `std::array`/scalar members that no constructor initialises are `Option`
(`none` = indeterminate). -/
structure V1Tag where
  extended : Bool
  v11 : Bool
  album : Bytes
  artist : Bytes
  comment : Bytes
  genre : Byte
  extGenre : Bytes
  startTime : Option Bytes
  endTime : Option Bytes
  speed : Option Byte
  title : Bytes
  track : Option Byte
  year : Bytes
  deriving DecidableEq, Repr

namespace V1Tag

/-- "From scratch" constructor: scribbu/id3v1.hh L269-286. `speed_` and
`track_number_` are left indeterminate. -/
def scratch (v11 enh : Bool) : V1Tag where
  extended := enh
  v11 := v11
  album := List.replicate (if enh then 90 else 30) 0
  artist := List.replicate (if enh then 90 else 30) 0
  comment := List.replicate (if v11 then 28 else 30) 0
  genre := 0
  extGenre := List.replicate (if enh then 30 else 0) 0
  startTime := some (List.replicate 6 0)
  endTime := some (List.replicate 6 0)
  speed := none
  title := List.replicate (if enh then 90 else 30) 0
  track := none
  year := List.replicate 4 0

/-- `size()`: scribbu/id3v1.hh (`ID3V1_EXT_TAG_SIZE`/`ID3V1_TAG_SIZE`). -/
def size (t : V1Tag) : Nat := if t.extended then 355 else 128

/-- `write(os)`: scribbu/id3v1.cc L304-340. The bytes written; each
`os.write(&(v_[a]), n)` reads `n` elements of `v_`. -/
def write (t : V1Tag) : Res Bytes :=
  (if t.extended then
    (slice t.title 30 60).bind fun ti =>
    (slice t.artist 30 60).bind fun ar =>
    (slice t.album 30 60).bind fun al =>
    (initd t.speed).bind fun sp =>
    (slice t.extGenre 0 30).bind fun g =>
    (initd t.startTime).bind fun st =>
    (initd t.endTime).bind fun en =>
    .ok ([0x54, 0x41, 0x47, 0x2b] ++ ti ++ ar ++ al ++ [sp] ++ g ++ st ++ en)
   else .ok []).bind fun pre =>
  (slice t.title 0 30).bind fun ti =>
  (slice t.artist 0 30).bind fun ar =>
  (slice t.album 0 30).bind fun al =>
  (if t.v11 then
    (slice t.comment 0 28).bind fun c =>
    (initd t.track).bind fun n => .ok (c ++ [0x00] ++ [n])
   else slice t.comment 0 30).bind fun c =>
  .ok (pre ++ [0x54, 0x41, 0x47] ++ ti ++ ar ++ al ++ t.year ++ c ++ [t.genre])

/-- Comment/track part common to `init_standard` and `init_extended`:
scribbu/id3v1.cc L366-381 and L431-446; `p` points at the comment field. -/
def readComment (p : Bytes) (off : Nat) : Res (Bool × Bytes × Option Byte) :=
  (rd p (off + 28)).bind fun b28 =>
  (if b28 = 0 then (rd p (off + 29)).bind fun b29 => .ok (decide (b29 ≠ 0)) else .ok false).bind fun is11 =>
  if is11 then
    (slice p off 28).bind fun c => (rd p (off + 29)).bind fun n => .ok (true, c, some n)
  else (slice p off 30).bind fun c => .ok (false, c, none)

/-- `init_standard(p)`: scribbu/id3v1.cc L342-382. Members it does not assign
stay indeterminate (the constructors that call it initialise nothing). -/
def initStandard (p : Bytes) : Res V1Tag :=
  (slice p 0 3).bind fun m =>
  if m ≠ [0x54, 0x41, 0x47] then .throw .invalidTag
  else
    (slice p 3 30).bind fun ti =>
    (slice p 33 30).bind fun ar =>
    (slice p 63 30).bind fun al =>
    (slice p 93 4).bind fun y =>
    (readComment p 97).bind fun (v11, c, n) =>
    (rd p 127).bind fun g =>
    .ok { extended := false, v11 := v11, album := al, artist := ar, comment := c, genre := g,
          extGenre := [], startTime := none, endTime := none, speed := none, title := ti,
          track := n, year := y }

/-- `init_extended(p)`: scribbu/id3v1.cc L384-447. -/
def initExtended (p : Bytes) : Res V1Tag :=
  (slice p 0 4).bind fun m =>
  if m ≠ [0x54, 0x41, 0x47, 0x2b] then .throw .invalidTag
  else
    (slice p (4 + 226) 30).bind fun ti0 =>
    (slice p 4 60).bind fun ti1 =>
    (slice p (64 + 196) 30).bind fun ar0 =>
    (slice p 64 60).bind fun ar1 =>
    (slice p (124 + 166) 30).bind fun al0 =>
    (slice p 124 60).bind fun al1 =>
    (rd p 184).bind fun sp =>
    (slice p 185 30).bind fun eg =>
    (slice p 215 6).bind fun st =>
    (slice p 221 6).bind fun en =>
    (slice p 227 3).bind fun m2 =>
    if m2 ≠ [0x54, 0x41, 0x47] then .throw .invalidTag
    else
      (slice p 320 4).bind fun y =>
      (readComment p 324).bind fun (v11, c, n) =>
      (rd p 354).bind fun g =>
      .ok { extended := true, v11 := v11, album := al0 ++ al1, artist := ar0 ++ ar1,
            comment := c, genre := g, extGenre := eg, startTime := some st, endTime := some en,
            speed := some sp, title := ti0 ++ ti1, track := n, year := y }

/-- What the handler `catch (const std::istream::failure&)` of both stream
constructors does: scribbu/id3v1.cc L116-121 and L150-155. Note there is no
`clear()` before the `seekg`. -/
def onFailure (here : Int) (excMask : IoBits) : SM V1Tag := do
  SM.setExceptions IoBits.none
  SM.seekBeg here
  SM.setExceptions excMask
  SM.throw .invalidTag

/-- `id3v1_tag(std::istream&)`: scribbu/id3v1.cc L83-123. -/
def ofStream : SM V1Tag := do
  let excMask ← SM.exceptions
  SM.setExceptions IoBits.all
  let here ← SM.tellg
  let r ← SM.attempt (do
    SM.seekEnd 0
    let there ← SM.tellg
    SM.seekBeg here
    let cb := there - here
    let t ←
      if cb = 128 then do
        let buf ← SM.read 128
        SM.lift (initStandard buf)
      else if cb = 355 then do
        let buf ← SM.read 355
        SM.lift (initExtended buf)
      else SM.throw .invalidTag
    SM.setExceptions excMask
    pure t)
  match r with
  | some t => pure t
  | none => onFailure here excMask

/-- `id3v1_tag(std::istream&, bool enhanced)`: scribbu/id3v1.cc L125-157. -/
def ofStreamKnown (enhanced : Bool) : SM V1Tag := do
  let excMask ← SM.exceptions
  SM.setExceptions IoBits.all
  let here ← SM.tellg
  let r ← SM.attempt (
    if enhanced then do
      let buf ← SM.read 355
      SM.lift (initExtended buf)
    else do
      let buf ← SM.read 128
      SM.lift (initStandard buf))
  match r with
  | some t => pure t
  | none => onFailure here excMask

/-! ## Setters -/

/-- The public setters. Text arguments are the bytes after conversion;
`setStart`/`setEnd`/`setYear` take C strings (bytes before the NUL). -/
inductive Op where
  | setAlbum (b : Bytes)
  | setArtist (b : Bytes)
  | setComment (b : Bytes)
  | setGenre (g : Byte)
  | setEnhGenre (b : Bytes)
  | setSpeed (s : Byte)
  | setStart (b : Bytes)
  | setEnd (b : Bytes)
  | setTitle (b : Bytes)
  | setTrack (n : Byte)
  | setYear (b : Bytes)
  deriving DecidableEq, Repr

/-- Width used by `set_album`/`set_artist`/`set_comment`/`set_title`
(`enhanced() ? TEXT_SZ_ENH : TEXT_SZ`): scribbu/id3v1.hh L291-292, L325. -/
def textSz (t : V1Tag) : Nat := if t.extended then 90 else 30

/-- The copy loops of `set_start_time`/`set_end_time`/`set_year`:
scribbu/id3v1.hh L457-468, L488-499, L564-573: up to `n` characters of the C
string, then NULs. -/
def cstrField : Nat → Bytes → Bytes
  | 0, _ => []
  | n + 1, [] => 0 :: cstrField n []
  | n + 1, c :: cs => if c = 0 then 0 :: cstrField n [] else c :: cstrField n cs

/-- The setters: scribbu/id3v1.hh L316-326 (album), L347-357 (artist), L378-388
(comment), L401-404 (genre), L423-435 (enhanced genre), L445-449 (speed),
L457-469 (start), L488-500 (end), L517-527 (title), L537-541 (track), L562-573
(year). -/
def apply (t : V1Tag) : Op → V1Tag
  | .setAlbum b => { t with album := resize b t.textSz }
  | .setArtist b => { t with artist := resize b t.textSz }
  | .setComment b => { t with comment := resize b t.textSz }
  | .setGenre g => { t with genre := g }
  | .setEnhGenre b => { t with extGenre := resize b 30, extended := true }
  | .setSpeed s => { t with speed := some s, extended := true }
  | .setStart b => { t with startTime := some (cstrField 6 b), extended := true }
  | .setEnd b => { t with endTime := some (cstrField 6 b), extended := true }
  | .setTitle b => { t with title := resize b t.textSz }
  | .setTrack n => { t with track := some n, v11 := true }
  | .setYear b => { t with year := cstrField 4 b }

/-- A sequence of setter calls. -/
def applyAll (t : V1Tag) (ops : List Op) : V1Tag := ops.foldl apply t

end V1Tag

/-- `enum class id3_v1_tag_type`: scribbu/id3v1.hh. -/
inductive V1Type where
  | none | v1 | v1Extended
  deriving DecidableEq, Repr

/-- `struct id3v1_info`: scribbu/id3v1.hh. -/
structure V1Info where
  type : V1Type
  start : Int
  stop : Int
  deriving DecidableEq, Repr

/-- `ends_in_id3v1(is)`: scribbu/id3v1.cc L454-520. `start_`/`end_` are
indeterminate in C++ until the first `tellg`; here they start out as 0, and the
results below show that value never escapes for a good stream. -/
def endsInId3v1 : SM V1Info := do
  let excMask ← SM.exceptions
  SM.setExceptions IoBits.failBad
  let here ← SM.tellg
  let r ← SM.attempt (do
    SM.seekEnd 0
    let e ← SM.tellg
    if 355 ≤ e then do
      SM.seekEnd (-355)
      let buf ← SM.read 4
      if buf.length ≠ 4 then SM.ub .uninit
      else if buf = [0x54, 0x41, 0x47, 0x2b] then do
        let t ← SM.tellg
        pure (V1Info.mk .v1Extended (t - 4) e)
      else pure (V1Info.mk .none e e)
    else pure (V1Info.mk .none e e))
  let i ← (match r with
    | some i => pure i
    | none => do
      SM.setExceptions IoBits.none
      SM.clear
      SM.setExceptions IoBits.failBad
      pure (V1Info.mk .none 0 0))
  let i ←
    if i.type = .none then do
      let r ← SM.attempt (do
        SM.seekEnd (-128)
        let buf ← SM.read 3
        if buf.length ≠ 3 then SM.ub .uninit
        else if buf = [0x54, 0x41, 0x47] then do
          let t ← SM.tellg
          pure (V1Info.mk .v1 (t - 3) i.stop)
        else pure i)
      match r with
      | some i' => pure i'
      | none => do
        SM.setExceptions IoBits.none
        SM.clear
        pure i
    else pure i
  SM.seekBeg here
  SM.setExceptions excMask
  pure i

/-- `process_id3v1(is)`: scribbu/id3v1.cc L522-532. -/
def processId3v1 : SM (Option V1Tag) := do
  let i ← endsInId3v1
  if i.type ≠ .none then do
    SM.seekBeg i.start
    let t ← V1Tag.ofStream
    pure (some t)
  else pure none

/-- `maybe_remove_id3v1(pth)` on an existing, readable file with the given
content: scribbu/id3v1.cc L534-559. Returns the new content; on an exception the
file is as before. `resize_file` to `file_size - size()` keeps a prefix; were
`size()` larger than the file, the subtraction would wrap and the resize fail. -/
def maybeRemoveId3v1 (f : Bytes) : Res Bytes :=
  match (processId3v1 ⟨f, 0, IoBits.all, IoBits.none⟩).1 with
  | .ok none => .ok f
  | .ok (some t) => if t.size ≤ f.length then .ok (f.take (f.length - t.size)) else .throw .other
  | .throw e => .throw e
  | .ub u => .ub u

/-- `replace_id3v1(pth, tag)`: scribbu/id3v1.cc L561-572. -/
def replaceId3v1 (f : Bytes) (t : V1Tag) : Res Bytes :=
  (maybeRemoveId3v1 f).bind fun body => t.write.bind fun w => .ok (body ++ w)

end Scribbu
