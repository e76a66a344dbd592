import Verif.Model.EncodingsCmd
import Verif.Props.Tables

/-! Property C146: the list of encodings. -/

namespace Scribbu.Props
open Scribbu

/-- The name under which an encoding is listed: what is printed for it. -/
def listed (x : Encoding) : Bytes :=
  match x.print with
  | .ok n => n
  | _ => []

/-- **C146** `scribbu encodings` succeeds and writes lines, no two of them the same; every line is accepted as the name of an encoding, and every
encoding there is has a line that is accepted as its name. -/
theorem C146_list : ∃ ls : List Bytes, EncodingsCmd.run = (0, ls.flatMap (· ++ [10])) ∧ (∀ l ∈ ls, (10 : Byte) ∉ l) ∧ ls.Nodup ∧
    (∀ l ∈ ls, ∃ x, Encoding.parse l = .ok x) ∧ ∀ x, ∃ l ∈ ls, Encoding.parse l = .ok x := by
  have hp : (Encoding.all.all fun x => !(listed x).contains 10 && decide (Encoding.parse (listed x) = .ok x)) = true := by decide +kernel
  rw [List.all_eq_true] at hp
  have hp : ∀ x, (10 : Byte) ∉ listed x ∧ Encoding.parse (listed x) = .ok x := by
    intro x
    have := hp x (Encoding.mem_all x)
    rw [Bool.and_eq_true, decide_eq_true_eq, Bool.not_eq_true'] at this
    exact ⟨by simpa using this.1, this.2⟩
  refine ⟨Encoding.all.map listed, by decide +kernel, ?_, ?_, ?_, ?_⟩
  · intro l hl
    obtain ⟨x, _, rfl⟩ := List.mem_map.1 hl
    exact (hp x).1
  · have hn : Encoding.all.Nodup := by decide +kernel
    unfold List.Nodup
    rw [List.pairwise_map]
    refine hn.imp fun {a b} hab h => hab ?_
    have h1 := (hp a).2
    rw [h, (hp b).2] at h1
    exact (Res.ok.inj h1).symm
  · intro l hl
    obtain ⟨x, _, rfl⟩ := List.mem_map.1 hl
    exact ⟨x, (hp x).2⟩
  · intro x
    exact ⟨listed x, List.mem_map.2 ⟨x, Encoding.mem_all x, rfl⟩, (hp x).2⟩

/-- The list begins with "ASCII". -/
example : EncodingsCmd.run.2.take 6 = [65, 83, 67, 73, 73, 10] := by decide +kernel

end Scribbu.Props
