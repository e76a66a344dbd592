import Verif.Model.FileSys

/-! # Names of backups

`get_backup_name` of scribbu/tagset.hh, with the members of `std::filesystem::path` that it uses (POSIX). -/

namespace Scribbu
namespace Path

/-- '/' -/
def slash : Byte := 47
/-- '.' -/
def dot : Byte := 46

/-- `is_absolute()`. -/
def isAbs (p : Path) : Bool := p.head? = some slash

/-- `a / b`. -/
def join (a b : Path) : Path :=
  if isAbs b then b else if a = [] ∨ a.getLast? = some slash then a ++ b else a ++ slash :: b

/-- `absolute(p)`, in the directory `cwd`. -/
def absolute (cwd p : Path) : Path := join cwd p

/-- `p.parent_path()`: without the file name and the separators before it. -/
def parent (p : Path) : Path :=
  let d := p.reverse.dropWhile (· ≠ slash)
  let e := d.dropWhile (· = slash)
  if e = [] then (if d = [] then [] else [slash]) else e.reverse

/-- `p.filename()`. -/
def fileName (p : Path) : Bytes := (p.reverse.takeWhile (· ≠ slash)).reverse

/-- `p.extension()`: from the last dot on, unless that is where the name begins. -/
def extension (p : Path) : Bytes :=
  let n := fileName p
  if n = [dot] ∨ n = [dot, dot] then []
  else if (n.reverse.dropWhile (· ≠ dot)).length ≤ 1 then []
  else dot :: (n.reverse.takeWhile (· ≠ dot)).reverse

/-- `p.stem()`: the file name without the extension. -/
def stem (p : Path) : Bytes := (fileName p).take ((fileName p).length - (extension p).length)

end Path

namespace Backup
open Path

/-- A digit. -/
def isDigit (b : Byte) : Bool := 48 ≤ b && b ≤ 57

/-- The value of a string of digits. -/
def digits (b : Bytes) : Nat := b.foldl (fun n c => 10 * n + (c.toNat - 48)) 0

/-- `atoi` of a string of digits: undefined if `int` cannot hold the value. -/
def atoi (b : Bytes) : Res Nat := if digits b < 2 ^ 31 then .ok (digits b) else .ub .overflow

/-- `stm << n`. -/
def dec (n : Nat) : Bytes := if n < 10 then [UInt8.ofNat (48 + n)] else dec (n / 10) ++ [UInt8.ofNat (48 + n % 10)]

/-- Is the directory entry `s` of the form `<prefix>.NNN`? scribbu/tagset.hh L228-252. -/
def matchesName (pre s : Bytes) : Bool :=
  s.take pre.length = pre && decide (pre.length + 1 < s.length) && decide (s[pre.length]? = some dot) &&
    (s.drop (pre.length + 1)).all isDigit

/-- `atoi(p.extension().string().substr(1).c_str())`: scribbu/tagset.hh L265-266, L270-271. `substr(1)` of an empty
string throws. -/
def suffix (p : Path) : Res Nat :=
  match extension p with
  | [] => .throw .outOfRange
  | _ :: ds => atoi ds

/-- The number of the last entry once the entries are sorted by their numbers: scribbu/tagset.hh L263-271. Simplified: the
numbers are compared as they come; the last one after sorting is a largest one. -/
def largest : List Path → Res Nat
  | [] => .ok 0
  | p :: ps => (suffix p).bind fun n => (largest ps).bind fun m => .ok (max n m)

/-- `get_backup_name(pth)`: scribbu/tagset.hh L214-280. The directory holds the files of `fs` in that
directory, in any order. -/
def backupName (fs : FS) (cwd pth : Path) : Res Path :=
  let here := parent (absolute cwd pth)
  let entries := (fs.map (·.1)).filter fun q => parent q = here && matchesName pth q
  if entries = [] then .ok (join here (stem pth ++ (extension pth ++ [dot, 49])))
  else (largest entries).bind fun n =>
    if n + 1 < 2 ^ 31 then .ok (pth ++ dot :: dec (n + 1)) else .ub .overflow

end Backup
end Scribbu
