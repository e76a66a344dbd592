import Verif.Proofs.RenameProcs

/-! **C189**: processes that rename files at the same time. -/

namespace Scribbu.Props
open Scribbu Path Scribbu.Procs Scribbu.Spec.Procs

/-- The state after the steps of a schedule. -/
def renamed (file : Path → Path) (rs : Nat → Renamer) (s0 : FS) (sched : List Nat) : Sys := run sched ⟨fun i => (rs i).proc file, s0⟩

/-- **C189**, in full: however many processes run `scribbu rename` at the same time, whatever the templates come to, whatever fails and whenever one is stopped,
nothing is lost. For one process that is `C44_nothing_lost`. -/
def C189_claim : Prop := ∀ (file : Path → Path) (rs : Nat → Renamer) (s0 : FS) (sched : List Nat), NothingLost s0 (renamed file rs s0 sched).fs

/-- Two processes: one moves `/a` to `/b`, the other `/b`, which it has come upon in the directory, to `/c`. -/
def onTheHeels : Nat → Renamer
  | 0 => ⟨fun _ _ => .ok [98], ⟨[], false, true⟩, [⟨[47, 97], .none, false⟩]⟩
  | 1 => ⟨fun _ _ => .ok [99], ⟨[], false, true⟩, [⟨[47, 98], .none, false⟩]⟩
  | _ => ⟨fun _ _ => .ok [], ⟨[], false, true⟩, []⟩

/-- What has come of a process. -/
def renamedWell : Proc Unit → Bool
  | .ret (.ok _) => true
  | _ => false

/-- Both end well, and of the two bytes of the only file there was one is left. -/
theorem follow_loses : let y := renamed id onTheHeels [([47, 97], [1, 2])] [0, 0, 0, 1, 1, 1, 1, 0, 0]
    renamedWell (y.procs 0) = true ∧ renamedWell (y.procs 1) = true ∧ y.fs = [([47, 99], [1])] := by decide +kernel

theorem not_C189 : ¬ C189_claim := by
  intro h
  obtain ⟨b, hb⟩ := h id onTheHeels [([47, 97], [1, 2])] [0, 0, 0, 1, 1, 1, 1, 0, 0] [47, 97] [1, 2] rfl
  rw [follow_loses.2.2] at hb
  unfold FS.get at hb
  simp only [List.find?_cons, List.find?_nil] at hb
  split at hb <;> simp at hb

/-- **Finding** (C189). With `--rename`, one process that comes upon a file that another is still writing, because it looks through the same directory, copies
the part that is there and removes the file. The other goes on writing to a file that has no name any more, is told of no error, and removes the original. Both
end well, and the rest of the file is gone. -/
theorem C189_refuted : ¬ C189_claim := not_C189

/-- Two processes that are to move the same file to different names. -/
def twoMoves : Nat → Renamer
  | 0 => ⟨fun _ _ => .ok [98], ⟨[], false, true⟩, [⟨[47, 97], .none, false⟩]⟩
  | 1 => ⟨fun _ _ => .ok [99], ⟨[], false, true⟩, [⟨[47, 97], .none, false⟩]⟩
  | _ => ⟨fun _ _ => .ok [], ⟨[], false, true⟩, []⟩

/-- **Finding** (C189). Two processes that move the same file may both end well: nobody looks at whether it was there to be removed. Then there are two of it. -/
theorem C189_refuted_twice : let y := renamed id twoMoves [([47, 97], [7])] [0, 0, 0, 1, 1, 1, 0, 1]
    renamedWell (y.procs 0) = true ∧ renamedWell (y.procs 1) = true ∧ y.fs.get [47, 97] = none ∧ y.fs.get [47, 98] = some [7] ∧ y.fs.get [47, 99] = some [7] := by
  decide +kernel

/-- **C189**, if nothing that a process is to rename may be something that one makes, whatever is in the files: at every moment of every schedule of however many
processes, with the same files or different ones, whatever fails, nothing is lost; files that none is to rename are as they were, and those that one is to rename are as
they were or else they are gone and there is a new file, none of those to be renamed, with all that was in them.

Missing: files that a process comes upon while they are being made (`C189_refuted`). -/
theorem C189_partial (file : Path → Path) (rs : Nat → Renamer) (s0 : FS) (sched : List Nat) (hd : ∀ q, Source file rs q → ¬ Target file rs q) :
    NothingLost s0 (renamed file rs s0 sched).fs ∧
    (∀ q d, ¬ Source file rs q → s0.get q = some d → (renamed file rs s0 sched).fs.get q = some d) ∧
    ∀ q d, Source file rs q → s0.get q = some d → (renamed file rs s0 sched).fs.get q = some d ∨
      (renamed file rs s0 sched).fs.get q = none ∧ ∃ b, ¬ Source file rs b ∧ s0.get b = none ∧ (renamed file rs s0 sched).fs.get b = some d := by
  obtain ⟨w, h⟩ := Renaming.Inv.run (s0 := s0) hd sched
  have hs : ∀ q d, Source file rs q → s0.get q = some d → (renamed file rs s0 sched).fs.get q = some d ∨
      (renamed file rs s0 sched).fs.get q = none ∧ ∃ b, ¬ Source file rs b ∧ s0.get b = none ∧ (renamed file rs s0 sched).fs.get b = some d := by
    intro q d hq h0
    rcases h.sources q d hq h0 with h1 | ⟨h1, b, h2⟩
    · exact .inl h1
    · exact .inr ⟨h1, b, fun hb => hd b hb h2.target, h2.fresh, h2.now⟩
  refine ⟨fun q d h0 => ?_, h.others, hs⟩
  by_cases hq : Source file rs q
  · rcases hs q d hq h0 with h1 | ⟨_, b, _, _, h1⟩
    · exact ⟨q, h1⟩
    · exact ⟨b, h1⟩
  · exact ⟨q, h.others q d hq h0⟩

/-- **C189**, when a process has ended well, on the same condition: whatever the others do, before or after, all of its files were there at first, and each that
the template gave another name is at that name, which was free, with all that was in it; for the rest, the template had no name, the name is the one it has, or
nothing was to be done.

Missing: as for `C189_partial`. -/
theorem C189_done_partial (file : Path → Path) (rs : Nat → Renamer) (s0 : FS) (sched : List Nat) (hd : ∀ q, Source file rs q → ¬ Target file rs q)
    (i : Nat) (hi : (renamed file rs s0 sched).procs i = .ret (.ok ())) (v : Rename.Visit) (hv : v ∈ (rs i).visits) :
    ∃ d, s0.get (file v.pth) = some d ∧ ((rs i).tpl v.pth d = .throw .missing ∨ ∃ name, (rs i).tpl v.pth d = .ok name ∧
      ((rs i).opts.dryRun = true ∨ elems v.pth = elems (Rename.destination (rs i).opts v.pth name) ∨
        s0.get (file (Rename.destination (rs i).opts v.pth name)) = none ∧
        (renamed file rs s0 sched).fs.get (file (Rename.destination (rs i).opts v.pth name)) = some d)) := by
  obtain ⟨w, h⟩ := Renaming.Inv.run (s0 := s0) hd sched
  obtain ⟨ds, h1, h2⟩ := (h.ok i).done hi
  rw [List.append_nil] at h1
  obtain ⟨d, h3, h4⟩ := h2 v (h1 ▸ hv)
  refine ⟨d, h3, h4.imp_right ?_⟩
  rintro ⟨name, h5, h6⟩
  exact ⟨name, h5, h6.imp_right fun h => h.imp_right fun k => ⟨k.fresh, k.now⟩⟩

/-- **C189**, if no process removes what it has copied: whatever is a source and whatever a destination, every file there was is as it was.

Missing: processes with `--rename` (`C189_refuted`). -/
theorem C189_copies_partial (file : Path → Path) (rs : Nat → Renamer) (s0 : FS) (sched : List Nat)
    (hr : ∀ i, (rs i).opts.rename = false ∨ (rs i).opts.dryRun = true) (q : Path) (d : Bytes) (h0 : s0.get q = some d) :
    (renamed file rs s0 sched).fs.get q = some d :=
  Renaming.Leaves.run sched _ (fun i => Renaming.Leaves.proc s0 file (rs i) (hr i)) (fun _ _ h => h) q d h0

/-- The processes of `C189_refuted`, if both only copy: the second still makes a copy of a part, and the first goes on. -/
example : let rs := fun i => { onTheHeels i with opts := ⟨[], false, false⟩ }
    (∀ i, (rs i).opts.rename = false ∨ (rs i).opts.dryRun = true) ∧
    (renamed id rs [([47, 97], [1, 2])] [0, 0, 0, 1, 1, 1, 0]).fs = [([47, 98], [1, 2]), ([47, 99], [1]), ([47, 97], [1, 2])] :=
  ⟨fun _ => .inl rfl, by decide +kernel⟩

/-- Alone, a process is the run of `C44_nothing_lost`. -/
theorem C189_alone_partial (file : Path → Path) (r : Renamer) (s : FS) :
    (exec (r.proc file) s).1 = (Rename.run file r.tpl r.opts r.visits s).res ∧ (exec (r.proc file) s).2 = (Rename.run file r.tpl r.opts r.visits s).fs := by
  rw [exec_rename]; exact ⟨rfl, rfl⟩

/-- The processes of `C189_refuted_twice` meet the condition. -/
example : ∀ q, Source id twoMoves q → ¬ Target id twoMoves q := by
  have hv : ∀ i, ∀ v ∈ (twoMoves i).visits, v.pth = [47, 97] := by
    intro i v hv
    match i with
    | 0 => simp [twoMoves] at hv; rw [hv]
    | 1 => simp [twoMoves] at hv; rw [hv]
    | n + 2 => simp [twoMoves] at hv
  rintro q ⟨i, v, h1, rfl⟩ ⟨j, u, h2, d, name, h3, h4⟩
  rw [hv i v h1] at h4
  rw [hv j u h2] at h3 h4
  match j with
  | 0 => simp [twoMoves] at h3; subst h3; revert h4; decide
  | 1 => simp [twoMoves] at h3; subst h3; revert h4; decide
  | n + 2 => simp [twoMoves] at h2

end Scribbu.Props
