import Verif.Model.Basic

/-!
# `std::istream`

A model of the parts of `std::basic_istream` the library uses: a fixed byte
sequence, a get position, the exception mask and the error state. It follows
the C++11 standard library contract ([istream.unformatted], [iostate.flags]):

* `read(n)` on a non-good stream sets failbit and transfers nothing; if fewer
  than `n` bytes are left it transfers those and sets eofbit|failbit;
* `seekg` first clears eofbit; it has no effect (beyond setting failbit) on a
  failed stream; seeking before the beginning sets failbit;
* setting a state bit that is in the mask throws `ios_base::failure`;
  `exceptions(m)` throws if a bit of `m` is already set.

Simplifications: positions beyond the end are accepted by `seekg` (as
`std::filebuf` does); badbit is never raised by the medium.
-/

namespace Scribbu

/-- `std::ios_base::iostate`. -/
structure IoBits where
  eof : Bool
  fail : Bool
  bad : Bool
  deriving DecidableEq, Repr

namespace IoBits
/-- `std::ios_base::goodbit`, as in scribbu/id3v1.cc and scribbu/mp3.cc. -/
def none : IoBits := ⟨false, false, false⟩
/-- `EXC_MASK`: all three bits, scribbu/id3v2.cc L410-451. -/
def all : IoBits := ⟨true, true, true⟩
/-- `failbit | badbit`, without `eofbit`: scribbu/id3v1.cc L457. -/
def failBad : IoBits := ⟨false, true, true⟩
/-- `|` on `std::ios_base::iostate`. -/
def or (a b : IoBits) : IoBits := ⟨a.eof || b.eof, a.fail || b.fail, a.bad || b.bad⟩
/-- some bit set in both -/
def meets (a b : IoBits) : Bool := (a.eof && b.eof) || (a.fail && b.fail) || (a.bad && b.bad)
end IoBits

/-- An input stream. -/
structure IStream where
  data : Bytes
  pos : Nat
  mask : IoBits
  st : IoBits
  deriving DecidableEq, Repr

/-- `good()`. -/
def IStream.Good (s : IStream) : Prop := s.st = IoBits.none

/-- Computations on a stream; the stream's state survives exceptions. -/
def SM (α : Type) := IStream → Res α × IStream

namespace SM

/-- A computation that leaves the stream alone. -/
def pure (a : α) : SM α := fun s => (.ok a, s)

/-- One computation after another; an exception or undefined behaviour ends it (C++ semantics, no particular place in /repo). -/
def bind (x : SM α) (f : α → SM β) : SM β := fun s =>
  match x s with
  | (.ok a, s') => f a s'
  | (.throw e, s') => (.throw e, s')
  | (.ub u, s') => (.ub u, s')

instance : Monad SM where
  pure := SM.pure
  bind := SM.bind

/-- `throw`. -/
def throw (e : Exc) : SM α := fun s => (.throw e, s)
/-- Undefined behaviour; what comes after is not modelled. -/
def ub (u : UB) : SM α := fun s => (.ub u, s)
/-- A computation that does not use the stream. -/
def lift (r : Res α) : SM α := fun s => (r, s)

/-- `try { x } catch (const std::ios_base::failure&) {}`: `none` if caught. -/
def attempt (x : SM α) : SM (Option α) := fun s =>
  match x s with
  | (.ok a, s') => (.ok (some a), s')
  | (.throw .streamFailure, s') => (.ok Option.none, s')
  | (.throw e, s') => (.throw e, s')
  | (.ub u, s') => (.ub u, s')

/-- `try { x } catch (const std::exception&) { h; throw; }`. -/
def onThrow (x : SM α) (h : SM Unit) : SM α := fun s =>
  match x s with
  | (.throw e, s') =>
    match h s' with
    | (.ok (), s'') => (.throw e, s'')
    | (.throw e', s'') => (.throw e', s'')
    | (.ub u, s'') => (.ub u, s'')
  | r => r

/-- `try { x } catch (const std::exception&) {}`: `none` if caught. -/
def catchAll (x : SM α) : SM (Option α) := fun s =>
  match x s with
  | (.ok a, s') => (.ok (some a), s')
  | (.throw _, s') => (.ok Option.none, s')
  | (.ub u, s') => (.ub u, s')

/-- `is.rdstate()`. -/
def state : SM IoBits := fun s => (.ok s.st, s)

/-- `(bool) is`, i.e. `!is.fail()`. -/
def isOk : SM Bool := fun s => (.ok (!(s.st.fail || s.st.bad)), s)

/-- `is.exceptions()`. -/
def exceptions : SM IoBits := fun s => (.ok s.mask, s)

/-- `is.exceptions(m)`. -/
def setExceptions (m : IoBits) : SM Unit := fun s =>
  let s' := { s with mask := m }
  if s'.st.meets m then (.throw .streamFailure, s') else (.ok (), s')

/-- `is.clear()`. -/
def clear : SM Unit := fun s => (.ok (), { s with st := IoBits.none })

/-- `is.setstate(b)`. -/
def setState (b : IoBits) : SM Unit := fun s =>
  let s' := { s with st := s.st.or b }
  if s'.st.meets s'.mask then (.throw .streamFailure, s') else (.ok (), s')

/-- `is.tellg()`: -1 on a stream that is not good. -/
def tellg : SM Int := fun s =>
  if s.st = IoBits.none then (.ok (s.pos : Int), s)
  else
    match setState ⟨false, true, false⟩ s with
    | (.ok (), s') => (.ok (-1), s')
    | (.throw e, s') => (.throw e, s')
    | (.ub u, s') => (.ub u, s')

/-- `is.seekg(target)` for an absolute target. -/
def seekAbs (target : Int) : SM Unit := fun s =>
  let s1 := { s with st := { s.st with eof := false } }
  if s1.st = IoBits.none then
    if target < 0 then setState ⟨false, true, false⟩ s1
    else (.ok (), { s1 with pos := target.toNat })
  else setState ⟨false, true, false⟩ s1

/-- `is.seekg(n, std::ios_base::beg)` and `is.seekg(n)`. -/
def seekBeg (n : Int) : SM Unit := seekAbs n
/-- `is.seekg(off, std::ios_base::end)`. -/
def seekEnd (off : Int) : SM Unit := fun s => seekAbs ((s.data.length : Int) + off) s
/-- `is.seekg(off, std::ios_base::cur)`. -/
def seekCur (off : Int) : SM Unit := fun s => seekAbs ((s.pos : Int) + off) s

/-- `is.read(buf, n)`: the bytes actually transferred. Buffer bytes beyond those
keep whatever they held, so using them is a read of an uninitialised object in
the callers modelled here. -/
def read (n : Nat) : SM Bytes := fun s =>
  if s.st = IoBits.none then
    let got := (s.data.drop s.pos).take n
    let s1 := { s with pos := s.pos + got.length }
    if got.length = n then (.ok got, s1)
    else
      match setState ⟨true, true, false⟩ s1 with
      | (.ok (), s') => (.ok got, s')
      | (.throw e, s') => (.throw e, s')
      | (.ub u, s') => (.ub u, s')
  else
    match setState ⟨false, true, false⟩ s with
    | (.ok (), s') => (.ok [], s')
    | (.throw e, s') => (.throw e, s')
    | (.ub u, s') => (.ub u, s')

end SM
end Scribbu
