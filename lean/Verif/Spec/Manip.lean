import Verif.Model.Manip

/-! What streams are to use, as a user of manipulators sees it. -/

namespace Scribbu.Spec.Manip
open Scribbu.Manip (Op Ans)

variable {α : Type}

/-- What manipulators are for: the `m`th tells a stream to use `val m`, if that is acceptable; a stream that has not been told uses `dflt`. -/
structure Told (α : Type) where
  val : Nat → α
  ok : α → Bool
  dflt : α

/-- Streams: `none` if destroyed; otherwise what it has been told to use, if it has, and whether that has come from another stream. -/
abbrev World (α : Type) := List (Option (Option (α × Bool)))

/-- What an operation does and answers. -/
def next (T : Told α) (w : World α) : Op → World α × List (Ans α)
  | .new => (w ++ [some none], [])
  | .put i m =>
    match w[i]? with
    | some (some _) => if T.ok (T.val m) then (w.set i (some (some (T.val m, false))), []) else (w, [.refused])
    | _ => (w, [])
  | .get i =>
    match w[i]? with
    | some (some (some v)) => (w, [.uses v.1])
    | some (some none) => (w, [.uses T.dflt])
    | _ => (w, [])
  | .copyfmt i j =>
    if i = j then (w, []) else
    match w[i]?, w[j]? with
    | some (some _), some (some v) => (w.set i (some (v.map fun x => (x.1, true))), [])
    | _, _ => (w, [])
  | .close i =>
    match w[i]? with
    | some (some _) => (w.set i none, [])
    | _ => (w, [])

/-- The same for histories. -/
def play (T : Told α) : List Op → World α → World α × List (Ans α)
  | [], w => (w, [])
  | o :: os, w => ((play T os (next T w o).1).1, (next T w o).2 ++ (play T os (next T w o).1).2)

/-- No stream is asked what it uses while it uses what has been copied from another. -/
def AsksNoCopy (T : Told α) : List Op → World α → Prop
  | [], _ => True
  | o :: os, w => (∀ i a, o = .get i → w[i]? ≠ some (some (some (a, true)))) ∧ AsksNoCopy T os (next T w o).1

/-- The manipulators used, in order. -/
def used : List Op → List Nat
  | [] => []
  | .put _ m :: os => m :: used os
  | _ :: os => used os

/-- All streams have been destroyed. -/
def Over (w : World α) : Prop := ∀ s ∈ w, s = none

end Scribbu.Spec.Manip
