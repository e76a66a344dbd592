import Verif.Model.GenreMatch
import Verif.Model.Backup

/-!
# Listing the genres (src/genre.cc L398-506, L922-930, L968-977)
-/

namespace Scribbu.Pager

/-- `os << setw(3) << setfill(' ') << n`: src/genre.cc L409. -/
def width3 (n : Nat) : Bytes := List.replicate (3 - (Backup.dec n).length) 32 ++ Backup.dec n

/-- The loop of `print_winamp_genres`: src/genre.cc L407-410. -/
def printAll : List (Nat × Bytes) → Bytes
  | [] => []
  | (n, t) :: l => width3 n ++ [58, 32] ++ t ++ [10] ++ printAll l

/-- `print_winamp_genres(os)`: src/genre.cc L400-411. -/
def printGenres : Res Bytes := (Genres.genreList .winamp_5_6).bind fun l => .ok (printAll l)

/-- The value of `--winamp`: src/genre.cc L922-930. -/
def winampValue (n : Nat) : Res Byte := if 192 > n then .ok (UInt8.ofNat n) else .throw .invalidArgument

/-- `boost::algorithm::split(args, s, is_any_of(" \t"))`, without compression: src/genre.cc L459. -/
def split : Bytes → List Bytes
  | [] => [[]]
  | b :: r =>
    if b = 32 ∨ b = 9 then [] :: split r
    else match split r with
      | [] => [[b]]
      | w :: ws => (b :: w) :: ws

/-- The pager: src/genre.cc L446-452. -/
def pager (env : Bytes → Option Bytes) : Bytes :=
  match env /- SCRIBBU_PAGER -/ [83, 67, 82, 73, 66, 66, 85, 95, 80, 65, 71, 69, 82] with
  | some p => p
  | none =>
    match env /- PAGER -/ [80, 65, 71, 69, 82] with
    | some p => p
    | none => /- less -/ [108, 101, 115, 115]

/-- What becomes of the process. -/
inductive Fate where
  | printed (b : Bytes)
  | became (argv : List Bytes)
  deriving DecidableEq, Repr

/-- What is asked of the system: the environment, `temp_directory_path()`, what `tmpnam` makes up, how writing the file goes, and which programs there are. -/
structure Sys where
  env : Bytes → Option Bytes
  temp : Res Path
  tmpnam : Path
  fault : Fault
  there : Bytes → Bool

/-- `execvp(argv[0], argv)`: src/genre.cc L500-505. There is no program with an empty name. -/
def exec (S : Sys) (argv : List Bytes) : FM Fate :=
  FM.lift (match argv with
    | [] => .throw .runtimeError
    | p :: _ => if p ≠ [] ∧ S.there p then .ok (.became argv) else .throw .runtimeError)

/-- `winamp_genres(no_pager)`: src/genre.cc L433-506. -/
def winampGenres (S : Sys) (noPager : Bool) : FM Fate :=
  if noPager then FM.lift (printGenres.bind fun b => .ok (.printed b))
  else
    FM.bind (FM.lift S.temp) fun dir =>
    FM.bind (FM.lift printGenres) fun b =>
    FM.bind (FM.create .streamFailure (Path.join dir S.tmpnam) b S.fault) fun _ =>
    exec S (split (pager S.env) ++ [Path.join dir S.tmpnam])

end Scribbu.Pager
