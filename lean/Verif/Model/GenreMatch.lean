import Verif.Model.Genres

/-!
# Matching a text against the genres (scribbu/winamp-genres.cc L227-315, L525-596; scribbu/winamp-genres.hh L218-241)
-/

namespace Scribbu.Genres

/-- `enum class id3v1_genre_generation`: scribbu/winamp-genres.hh L207-216. -/
inductive Generation where
  | standard | winamp | winamp_1_91 | winamp_5_6
  deriving DecidableEq, Repr

/-- The loop of `get_id3v1_genre_list`: scribbu/winamp-genres.hh L236-238. The subscript is not checked in C++. -/
def listUpTo : Nat → Res (List (Nat × Bytes))
  | 0 => .ok []
  | i + 1 =>
    (listUpTo i).bind fun l =>
    match names[i]? with
    | some s => .ok (l ++ [(i, s)])
    | none => .ub .oobRead

/-- `get_id3v1_genre_list(gen, pout)`: scribbu/winamp-genres.hh L218-241. -/
def genreList (gen : Generation) : Res (List (Nat × Bytes)) :=
  let count := match gen with
    | .winamp_5_6 => 192
    | .winamp_1_91 => 148
    | .winamp => 142
    | .standard => 80
  listUpTo count

/-- Numbers by index. Stands for an array; a tree, so that the model can be run. -/
inductive Mem where
  | nil
  | node (v : Option Int) (l r : Mem)

namespace Mem

/-- What is at index `i`, if it has been written. -/
def get : Mem → Nat → Option Int
  | nil, _ => none
  | node v l r, i => if i = 0 then v else if i % 2 = 1 then l.get (i / 2) else r.get (i / 2 - 1)

/-- Write at index `i` (which is less than the first argument). -/
def setAux : Nat → Mem → Nat → Int → Mem
  | 0, m, _, _ => m
  | f + 1, nil, i, x =>
    if i = 0 then node (some x) nil nil
    else if i % 2 = 1 then node none (setAux f nil (i / 2) x) nil
    else node none nil (setAux f nil (i / 2 - 1) x)
  | f + 1, node v l r, i, x =>
    if i = 0 then node (some x) l r
    else if i % 2 = 1 then node v (setAux f l (i / 2) x) r
    else node v l (setAux f r (i / 2 - 1) x)

end Mem

/-- The array `FKP`: scribbu/winamp-genres.cc L562-565. Not modelled: it is on the stack, which is too small for it if the text is
very long. -/
structure Fkp where
  size : Nat
  /-- the value of all that has not been written to -/
  fill : Int
  mem : Mem

namespace Fkp

/-- `fkp[i]`. -/
def rd (F : Fkp) (i : Int) : Res Int :=
  if 0 ≤ i ∧ i < F.size then
    match F.mem.get i.toNat with
    | some x => .ok x
    | none => .ok F.fill
  else .ub .oobRead

/-- `fkp[i] = x`. -/
def wr (F : Fkp) (i x : Int) : Res Fkp :=
  if 0 ≤ i ∧ i < F.size then .ok { F with mem := F.mem.setAux (i.toNat + 1) i.toNat x }
  else .ub .oobWrite

end Fkp

/-- What does not change during a call of `match_winamp_genre`: `n`, `inf`, `max_p`, `zero_k`, `wtext`. -/
structure Ctx where
  B : List Nat
  inf : Nat

namespace Ctx

/-- The length of the text. -/
def n (c : Ctx) : Nat := c.B.length

/-- `max_p`: scribbu/winamp-genres.cc L550. -/
def maxP (c : Ctx) : Int := c.inf + 2

/-- The index of `FKP[k + zero_k][q]`. -/
def idx (c : Ctx) (k q : Int) : Int := (k + c.inf) * c.maxP + q

end Ctx

/-- A character of a `u32string`. -/
def charAt (s : List Nat) (i : Int) : Res Nat :=
  if 0 ≤ i then
    match s[i.toNat]? with
    | some x => .ok x
    | none => .ub .oobRead
  else .ub .oobRead

/-- The loop in `f`: scribbu/winamp-genres.cc L271. -/
def slide (A B : List Nat) (k L : Int) : Nat → Int → Res Int
  | 0, t => .ok t
  | fuel + 1, t =>
    if t ≥ 0 ∧ t ≥ -k ∧ t < L then
      (charAt A t).bind fun a => (charAt B (t + k)).bind fun b =>
      if a = b then slide A B k L fuel (t + 1) else .ok t
    else .ok t

/-- `f(k, p, ...)`: scribbu/winamp-genres.cc L233-276. `min(m, n - k)` is of unsigned numbers. The result is not used by the
caller. -/
def f (c : Ctx) (A : List Nat) (k p : Int) (F : Fkp) : Res Fkp :=
  let inf : Int := c.inf
  let m : Int := A.length
  let n : Int := c.n
  (if p ≥ 0 then (F.rd (c.idx k p)).bind fun v => .ok (v + 1) else .ok (-inf)).bind fun t =>
  (if t > 0 ∧ t < m ∧ k + t - 1 ≥ 0 ∧ k + t < n then
    (charAt A (t - 1)).bind fun a0 => (charAt c.B (k + t)).bind fun b1 =>
    (charAt A t).bind fun a1 => (charAt c.B (k + t - 1)).bind fun b0 =>
    .ok (if a0 = b1 ∧ a1 = b0 then t + 1 else t)
   else .ok t).bind fun t2 =>
  (if p ≥ 0 then F.rd (c.idx (k - 1) p) else .ok (-inf)).bind fun ta =>
  (if p ≥ 0 then (F.rd (c.idx (k + 1) p)).bind fun v => .ok (v + 1) else .ok (-inf)).bind fun tb =>
  let t := if ta > t then ta else t
  let t := if tb > t then tb else t
  let t := if t2 > t then t2 else t
  let L := if n - k < 0 then m else min m (n - k)
  (slide A c.B k L (A.length + 1) t).bind fun t =>
  if k + inf ≥ 0 ∧ p > -2 then F.wr (c.idx k (p + 1)) t else .ok F

/-- One round of the inner loop of `damerau_levenshtein`, for `temp_p`: scribbu/winamp-genres.cc L297-307. -/
def round (c : Ctx) (A : List Nat) (p : Int) (F : Fkp) (tp : Nat) : Res Fkp :=
  let inc := p - tp
  let x : Int := c.n - A.length - inc
  (if x.natAbs ≤ tp then f c A x tp F else .ok F).bind fun F =>
  let x : Int := c.n - A.length + inc
  if x.natAbs ≤ tp then f c A x tp F else .ok F

/-- The inner loop of `damerau_levenshtein`, up to `temp_p` being the first number: scribbu/winamp-genres.cc L297-308. -/
def rounds (c : Ctx) (A : List Nat) (p : Int) (F : Fkp) : Nat → Res Fkp
  | 0 => .ok F
  | tp + 1 => (rounds c A p F tp).bind fun F => round c A p F tp

/-- The loop of `damerau_levenshtein`: scribbu/winamp-genres.cc L295-312. With the size of the array as fuel, it is not the
fuel that ends it. -/
def dlLoop (c : Ctx) (A : List Nat) : Nat → Int → Fkp → Res (Int × Fkp)
  | 0, _, _ => .ub .noProgress
  | fuel + 1, p, F =>
    (rounds c A p F p.toNat).bind fun F =>
    (f c A (c.n - A.length) p F).bind fun F =>
    (F.rd (c.idx (c.n - A.length) (p + 1))).bind fun v =>
    if v ≠ A.length then dlLoop c A fuel (p + 1) F else .ok (p, F)

/-- `damerau_levenshtein(A, B, ...)`: scribbu/winamp-genres.cc L278-313. The result is a `size_t`. -/
def damerauLevenshtein (c : Ctx) (A : List Nat) (F : Fkp) : Res (Nat × Fkp) :=
  (dlLoop c A (F.size + A.length + 2) (c.n - A.length) F).bind fun r =>
  .ok (if r.1 < 0 then (r.1 + 2 ^ 64).toNat else r.1.toNat, r.2)

/-- Filling `FKP`, for the first so many diagonals: scribbu/winamp-genres.cc L567-580. The inner loop has an effect once only. -/
def initAux (c : Ctx) : Nat → Res Fkp
  | 0 => .ok { size := (2 * c.inf + 1) * (c.inf + 2), fill := -(c.inf : Int), mem := .nil }
  | i + 1 =>
    (initAux c i).bind fun F =>
    let k : Int := (i : Int) - c.inf
    F.wr (c.idx k k.natAbs) (if k < 0 then k.natAbs - 1 else -1)

/-- Filling `FKP`: scribbu/winamp-genres.cc L562-580. -/
def initFkp (c : Ctx) : Res Fkp := initAux c (2 * c.inf + 1)

/-- The loop over the genres: scribbu/winamp-genres.cc L584-593. `best_genre` is not initialised. -/
def bestOf (c : Ctx) : List (List Nat) → Nat → Nat → Option Nat → Fkp → Res (Nat × Option Nat)
  | [], _, least, best, _ => .ok (least, best)
  | A :: rest, i, least, best, F =>
    (damerauLevenshtein c A F).bind fun r =>
    if r.1 < least then bestOf c rest (i + 1) r.1 (some i) r.2 else bestOf c rest (i + 1) least best r.2

/-- `match_winamp_genre(text)`: scribbu/winamp-genres.cc L525-596, given what `from_bytes` (throws `range_error` if it fails) and
`tolower` do in the locale. -/
def matchGenre (dec : Bytes → Option (List Nat)) (lower : Nat → Nat) (text : Bytes) : Res (Bytes × Nat × Nat) :=
  match dec text with
  | none => .throw .rangeError
  | some w =>
    let B := w.map lower
    let c : Ctx := ⟨B, max 22 B.length⟩
    (initFkp c).bind fun F =>
    (bestOf c keys 0 c.inf none F).bind fun r =>
    match r.2 with
    | none => .ub .uninit
    | some g =>
      match textForGenre (UInt8.ofNat g) with
      | none => .throw .other
      | some s => .ok (s, g, r.1)

end Scribbu.Genres
