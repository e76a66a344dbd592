import Verif.Model.Basic

/-!
# The unsynchronisation scheme

`unsynchronise`, `count_syncs` (scribbu/framesv2.hh, framesv2.cc) and the
in-place `resynchronise` (scribbu/id3v2.cc).
-/

namespace Scribbu

/-- The test on the byte following an FF in `unsynchronise`:
scribbu/framesv2.hh L166 `0x00 == *q || (*q & 0xe0) == 0xe0`. -/
def unsyncTest (b : Byte) : Bool := b == 0x00 || (b &&& 0xe0) == 0xe0

/-- `detail::unsynchronise`: scribbu/framesv2.hh L147-174. The output bytes;
the C++ `find`/`copy_n` block copy up to the next FF is the element-by-element
recursion here (the two iterate over the same bytes in the same order). The
returned count `cb` is incremented once per byte stored, i.e. the length. -/
def unsynchronise (last : Bool) : Bytes → Bytes
  | [] => []
  | b :: rest =>
    if b = 0xff then
      match rest with
      | [] => if last then [0xff, 0x00] else [0xff]
      | c :: _ =>
        if unsyncTest c then 0xff :: 0x00 :: unsynchronise last rest
        else 0xff :: unsynchronise last rest
    else b :: unsynchronise last rest

/-- `detail::is_false_sync`: scribbu/framesv2.cc L36-40. -/
def isFalseSync (x y : Byte) : Bool := x == 255 && decide (233 < y)

/-- `detail::needs_unsync`: scribbu/framesv2.cc L42-46. -/
def needsUnsync (x y : Byte) : Bool := x == 255 && (decide (233 < y) || y == 0)

/-- `detail::count_syncs(p0, p1, false_only)`: scribbu/framesv2.hh L121-136. -/
def countSyncs (falseOnly : Bool) : Bytes → Nat
  | [] => 0
  | [_] => 0
  | x :: y :: rest =>
    (if (if falseOnly then isFalseSync x y else needsUnsync x y) then 1 else 0)
      + countSyncs falseOnly (y :: rest)

/-- The search loop `for (i = i; i < cb - 1; ++i) if (0xff == p[i] && 0x00 == p[i+1]) break;`
of `resynchronise`: scribbu/id3v2.cc L249-254 (start 0) and L268-273 (start
`i0 + 1`). `cb ≥ 1` whenever it is reached, so `cb - 1` does not wrap. -/
def findFalseSync (p : Bytes) (cb i : Nat) : Res Nat :=
  if i < cb - 1 then
    (rd p i).bind fun x =>
    if x = 0xff then
      (rd p (i + 1)).bind fun y => if y = 0x00 then .ok i else findFalseSync p cb (i + 1)
    else findFalseSync p cb (i + 1)
  else .ok i
termination_by cb - 1 - i

/-- The move loop `for (i = i0 + 1; i < i1; ++i) p[i - sync_no] = p[i];` of
`resynchronise`: scribbu/id3v2.cc L280-282. A negative index would be an
out-of-bounds write. -/
def moveBack (p : Bytes) (syncNo i i1 : Nat) : Res Bytes :=
  if i < i1 then
    (rd p i).bind fun x =>
    if i < syncNo then .ub .oobWrite
    else (wr p (i - syncNo) x).bind fun p' => moveBack p' syncNo (i + 1) i1
  else .ok p
termination_by i1 - i

/-- The main loop of `resynchronise`: scribbu/id3v2.cc L263-291
`for (sync_no = 1; i0 < cb; ++sync_no) { ... }`, returning the buffer and the
value returned. `fuel` bounds the number of iterations; running out is reported
as `none` and is shown not to happen. -/
def resyncLoop (fuel : Nat) (p : Bytes) (cb syncNo i0 : Nat) : Option (Res (Bytes × Nat)) :=
  match fuel with
  | 0 => none
  | fuel + 1 =>
    if i0 < cb then
      match findFalseSync p cb (i0 + 1) with
      | .ok i1 =>
        let i1 := if i1 < cb then i1 + 1 else i1
        match moveBack p syncNo (i0 + 1) i1 with
        | .ok p' =>
          if i1 = cb then some (.ok (p', cb - syncNo))
          else resyncLoop fuel p' cb (syncNo + 1) i1
        | .throw e => some (.throw e)
        | .ub u => some (.ub u)
      | .throw e => some (.throw e)
      | .ub u => some (.ub u)
    else some (.ok (p, cb - syncNo))

/-- `resynchronise(p, cb)`: scribbu/id3v2.cc L221-292 where `cb = p.length`:
any access outside the `cb` bytes handed in is UB. Returns the final buffer (all
`cb` bytes of it) and the returned length. `none` = did not finish within the
iteration allowance (`cb + 1` iterations, more than can be needed). -/
def resynchronise (p : Bytes) : Option (Res (Bytes × Nat)) :=
  let cb := p.length
  if cb = 0 then some (.ok (p, 0))
  else
    match findFalseSync p cb 0 with
    | .ok i0 =>
      let i0 := i0 + 1
      if i0 = cb then some (.ok (p, cb)) else resyncLoop (cb + 1) p cb 1 i0
    | .throw e => some (.throw e)
    | .ub u => some (.ub u)

end Scribbu
