import Verif.Model.Header

/-! # Reading ID3v2 tags of whatever version (scribbu/id3v2-utils.hh, id3v2-utils.cc)

The constructors of the three tag classes from a stream and a header are parameters: `mk2`, `mk3`
and `mk4` stand for `id3v2_2_tag(is, H)`, `id3v2_3_tag(is, H)` and `id3v2_4_tag(is, H)`. -/

namespace Scribbu

variable (mk2 mk3 mk4 : Id3v2Info → SM α)

/-- The choice of class: scribbu/id3v2-utils.cc L51-60, L80-88. -/
def mkId3v2 (h : Id3v2Info) : SM α :=
  if h.version = 2 then mk2 h
  else if h.version = 3 then mk3 h
  else if h.version = 4 then mk4 h
  else SM.throw .unknownVersion

/-- `maybe_read_id3v2(is)`: scribbu/id3v2-utils.cc L43-61. -/
def maybeReadId3v2 : SM (Option α) := do
  let o ← lookingAtId3v2 false
  match o with
  | none => pure none
  | some h => do
    let t ← mkId3v2 mk2 mk3 mk4 h
    pure (some t)

/-- The loop `for (i = 0; i < idx; ++i)` of `read_id3v2`: scribbu/id3v2-utils.cc L67-73. -/
def skipId3v2 : Nat → SM Unit
  | 0 => pure ()
  | n + 1 => do
    let o ← lookingAtId3v2 true
    match o with
    | none => SM.throw .invalidArgument
    | some h => do
      SM.seekCur (h.size + 10)
      skipId3v2 n

/-- `read_id3v2(is, idx)`: scribbu/id3v2-utils.cc L63-90. -/
def readId3v2 (idx : Nat) : SM α := do
  skipId3v2 idx
  let o ← lookingAtId3v2 true
  match o with
  | none => SM.throw .invalidArgument
  | some h => mkId3v2 mk2 mk3 mk4 h

/-- `read_all_id3v2(is, p)`: scribbu/id3v2-utils.hh L102-113: the tags stored through `p`. `none` means
that the loop has not ended after `fuel` calls of `maybe_read_id3v2`. -/
def readAllId3v2 : Nat → SM (Option (List α))
  | 0 => pure none
  | fuel + 1 => do
    let t ← maybeReadId3v2 mk2 mk3 mk4
    match t with
    | none => pure (some [])
    | some t => do
      let ts ← readAllId3v2 fuel
      pure (ts.map (t :: ·))

end Scribbu
