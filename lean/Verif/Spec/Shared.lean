import Verif.Model.Shared

/-! What is expected of threads that share a tag. -/

namespace Scribbu.Spec.Shared
open Scribbu.Shared

/-- A data race ([intro.races]): two threads touch the same object, at least one of them changes it, and (as here nothing orders what different threads do)
neither happens before the other. -/
def Race (log : List Access) : Prop := ∃ a ∈ log, ∃ b ∈ log, a.thread ≠ b.thread ∧ a.frame = b.frame ∧ a.obj = b.obj ∧ (a.write = true ∨ b.write = true)

/-- One call made by a thread that has the tag to itself: what comes back, and the frame afterwards. -/
def single (z : Zlib) (ver : Ver) (f : Frame4) : Ask → Res (Out × Frame4)
  | .size u l => (f.serializedSize z ver u l).bind fun r => .ok (.num r.1, r.2)
  | .needs l => (f.needsUnsync z ver l).bind fun r => .ok (.num r.1, r.2)
  | .write u => (f.write z ver u).bind fun r => .ok (.bytes r.1, r.2)
  | .crc c => (f.crc z ver c).bind fun r => .ok (.num r.1, r.2)

/-- What comes back from a sequence of calls made by a thread that has the tag to itself. -/
def alone (z : Zlib) (ver : Ver) : List Call → (Nat → Option Frame4) → List (Res Out)
  | [], _ => []
  | c :: cs, fs =>
    match fs c.frame with
    | none => [.ub .oobRead]
    | some f =>
      match single z ver f c.ask with
      | .ok (o, g) => .ok o :: alone z ver cs (fun k => if k = c.frame then some g else fs k)
      | .throw e => [.throw e]
      | .ub u => [.ub u]

/-- A program makes calls of a frame. -/
def Uses (p : List Call) (k : Nat) : Prop := ∃ c ∈ p, c.frame = k

/-- Every frame is up to date, or else only one of the threads uses it. -/
def Prepared (fs : List Frame4) (progs : Nat → List Call) : Prop :=
  ∀ k f, fs[k]? = some f → f.dirty = false ∨ ∀ i j, Uses (progs i) k → Uses (progs j) k → i = j

end Scribbu.Spec.Shared
