import Verif.Model.Header

/-! # Replacing the ID3v2 tags of a file (scribbu/tagset.hh)

The functions of `scribbu/tagset.hh` are templates over iterators to pointers to tags, of which they use only the
virtual members of `id3v2_tag`; here they are functions of an interface `TagI`. Members that fill the caches of
the frames return the changed tag. Sums of sizes are natural numbers: `std::size_t` wrap-around is modelled only
where the code relies on it (the paddings computed by `adjust_padding_to`). -/

namespace Scribbu

/-- The virtual members of `id3v2_tag` used by scribbu/tagset.hh: `needs_unsynchronisation`, `size`, `padding`
(both overloads) and `write` (the bytes put into the stream): scribbu/id3v2.hh L699-714. -/
structure TagI (τ : Type) where
  needs : τ → Res (Bool × τ)
  size : τ → Bool → Res (Nat × τ)
  padding : τ → Res Nat
  setPadding : τ → Nat → τ
  write : τ → Bool → Res (Bytes × τ)

/-- `enum class apply_unsync`: scribbu/tagset.hh L183-187. -/
inductive ApplyUnsync where
  | never | always | asNeeded
  deriving DecidableEq, Repr

/-- `enum class emplace_strategy`: scribbu/tagset.hh L607-615. -/
inductive EmplaceStrategy where
  | onlyWithFullPadding | reducePaddingEvenly
  deriving DecidableEq, Repr

namespace Tagset

variable {τ : Type} (I : TagI τ)

/-- `detail::compute_apply_unsync(unsync, tag)`: scribbu/tagset.hh L282-293. -/
def computeApplyUnsync (au : ApplyUnsync) (t : τ) : Res (Bool × τ) :=
  match au with
  | .never => .ok (false, t)
  | .always => .ok (true, t)
  | .asNeeded => I.needs t

/-- `tagset_sizes(p0, p1, unsync)`: scribbu/tagset.hh L493-506: total size, total padding. -/
def sizes (au : ApplyUnsync) : List τ → Res (Nat × Nat × List τ)
  | [] => .ok (0, 0, [])
  | t :: ts =>
    (computeApplyUnsync I au t).bind fun (u, t1) =>
    (I.size t1 u).bind fun (n, t2) =>
    (I.padding t2).bind fun p =>
    (sizes au ts).bind fun (a, b, ts') => .ok (n + 10 + a, p + b, t2 :: ts')

/-- The loops that write the tags, one after the other: scribbu/tagset.hh L374-378, L599-602 and L737-739. -/
def writeAll (au : ApplyUnsync) : List τ → Res (Bytes × List τ)
  | [] => .ok ([], [])
  | t :: ts =>
    (computeApplyUnsync I au t).bind fun (u, t1) =>
    (I.write t1 u).bind fun (b, t2) =>
    (writeAll au ts).bind fun (c, ts') => .ok (b ++ c, t2 :: ts')

/-- The loop of `tagset_size`: scribbu/tagset.hh L539-544. More iterations than `fuel`: `noProgress`. -/
def sizeLoop : Nat → SM Nat
  | 0 => SM.lift (.ub .noProgress)
  | fuel + 1 => do
    let o ← lookingAtId3v2 false
    match o with
    | none => pure 0
    | some i => do
      SM.seekCur i.size
      let n ← sizeLoop fuel
      pure (10 + i.size + n)

/-- `tagset_size(pth)`: scribbu/tagset.hh L519-547. `file`: the contents of the file, if it exists and can be
opened. The stream throws on every failure; the exception `open` is guarded against is that of a missing file. -/
def tagsetSize (file : Option Bytes) : Res Nat :=
  match file with
  | none => .ok 0
  | some d => (sizeLoop (d.length + 1) ⟨d, 0, IoBits.all, IoBits.none⟩).1

/-- The second half of `adjust_padding_to`, for the tags after the first: scribbu/tagset.hh L671-678. The tags
after the call, and how it ended. -/
def adjustRest (adj : Int) : List τ → List τ × Res Unit
  | [] => ([], .ok ())
  | t :: ts =>
    match I.padding t with
    | .ok pad =>
      if adj < 0 ∧ -adj > pad then (t :: ts, .throw .tagsetRequest)
      else
        let r := adjustRest adj ts
        (I.setPadding t (((pad : Int) + adj) % 2 ^ 64).toNat :: r.1, r.2)
    | .throw e => (t :: ts, .throw e)
    | .ub u => (t :: ts, .ub u)

/-- `adjust_padding_to(p0, p1, cb_new, cb_curr, adjust_padding_evenly)`: scribbu/tagset.hh L648-679. The tags after
the call, and how it ended. `ptrdiff_t` arithmetic is exact (sizes below 2^63), the new padding is a
`std::size_t`, i.e. taken modulo 2^64. -/
def adjustPaddingTo (ts : List τ) (cbNew cbCurr : Nat) : List τ × Res Unit :=
  match ts with
  | [] => ([], .ub .divZero)
  | t :: rest =>
    let total : Int := (cbNew : Int) - cbCurr
    let adj := total.tdiv (ts.length : Int)
    let mu := total.tmod (ts.length : Int)
    match I.padding t with
    | .ok pad =>
      if adj < 0 ∧ -(adj + mu) > pad then (t :: rest, .throw .tagsetRequest)
      else
        let r := adjustRest I adj rest
        (I.setPadding t (((pad : Int) + adj + mu) % 2 ^ 64).toNat :: r.1, r.2)
    | .throw e => (ts, .throw e)
    | .ub u => (ts, .ub u)

/-- Writing `new` over the start of a memory-mapped file: what does not fit is dropped. -/
def overlay (old new : Bytes) : Bytes := (new ++ old.drop new.length).take old.length

/-- `replace_tagset_emplace(pth, p0, p1, unsync)`: scribbu/tagset.hh L575-605: the new contents of the file. A
missing or empty file cannot be mapped (`boost::iostreams::mapped_file` throws). -/
def replaceEmplace (file : Option Bytes) (au : ApplyUnsync) (ts : List τ) : Res (Bytes × List τ) :=
  (tagsetSize file).bind fun extant =>
  (sizes I au ts).bind fun (cb, _, ts1) =>
  if extant ≠ cb then .throw .tagsetRequest
  else match file with
    | none => .throw .streamFailure
    | some [] => .throw .streamFailure
    | some (x :: xs) =>
      (writeAll I au ts1).bind fun (b, ts2) => .ok (overlay (x :: xs) b, ts2)

/-- The loop of `replace_tagset_copy` that passes over the ID3v2 tags: scribbu/tagset.hh L384-388. -/
def skipLoop : Nat → SM Unit
  | 0 => SM.lift (.ub .noProgress)
  | fuel + 1 => do
    let o ← lookingAtId3v2 true
    match o with
    | none => pure ()
    | some i => do
      SM.seekCur (10 + i.size)
      skipLoop fuel

/-- The reading half of `replace_tagset_copy`: scribbu/tagset.hh L381-404: what follows the ID3v2 tags. If the
last tag claims to end beyond the end of the file, `cb` is negative, converted to `size_t`, and the
`vector` cannot be allocated. -/
def readRest (fuel : Nat) : SM Bytes := do
  skipLoop fuel
  let here ← SM.tellg
  SM.seekEnd 0
  let there ← SM.tellg
  SM.seekBeg here
  if there - here = 0 then pure []
  else if there - here < 0 then SM.throw .other
  else SM.read (there - here).toNat

/-- What `replace_tagset_copy` puts into its temporary file: scribbu/tagset.hh L370-404. `open_ifstream` throws
if there is no file. -/
def copyContents (file : Option Bytes) (au : ApplyUnsync) (ts : List τ) : Res (Bytes × List τ) :=
  (writeAll I au ts).bind fun (b, ts') =>
  match file with
  | none => .throw .fsError
  | some d =>
    (readRest (d.length + 1) ⟨d, 0, IoBits.all, IoBits.none⟩).1.bind fun rest => .ok (b ++ rest, ts')

/-- How `maybe_emplace_tagset` has changed the file. -/
inductive How where
  | emplaced   -- by `replace_tagset_emplace`
  | created    -- the file did not exist
  | copied     -- by `replace_tagset_copy`
  deriving DecidableEq, Repr

/-- `maybe_emplace_tagset(pth, p0, p1, unsync, estrat, adjust_padding_evenly)`: scribbu/tagset.hh L705-747: the
contents of the file afterwards. The steps by which `replace_tagset_copy` moves the new contents into place
are in `Model/Replace.lean`. -/
def maybeEmplace (file : Option Bytes) (au : ApplyUnsync) (st : EmplaceStrategy) (ts : List τ) :
    Res (How × Bytes × List τ) :=
  (tagsetSize file).bind fun curr =>
  (sizes I au ts).bind fun (subs, pad, ts1) =>
  if subs ≤ curr then
    if subs < curr then
      let r := adjustPaddingTo I ts1 curr subs
      r.2.bind fun _ => (replaceEmplace I file au r.1).bind fun (b, ts2) => .ok (.emplaced, b, ts2)
    else (replaceEmplace I file au ts1).bind fun (b, ts2) => .ok (.emplaced, b, ts2)
  else if curr ≥ subs - pad ∧ st ≠ .onlyWithFullPadding then
    let r := adjustPaddingTo I ts1 curr subs
    r.2.bind fun _ => (replaceEmplace I file au r.1).bind fun (b, ts2) => .ok (.emplaced, b, ts2)
  else match file with
    | none => (writeAll I au ts1).bind fun (b, ts2) => .ok (.created, b, ts2)
    | some d => (copyContents I (some d) au ts1).bind fun (b, ts2) => .ok (.copied, b, ts2)

end Tagset
end Scribbu
