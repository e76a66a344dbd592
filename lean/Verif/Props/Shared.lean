import Verif.Proofs.Shared

/-! **C178**: threads that share a tag. -/

namespace Scribbu.Props
open Scribbu.Shared Scribbu.Spec.Shared

/-- **C178**, in full: whatever the threads ask of the frames of a tag, and in whatever order they take turns, there is no data race, and every thread has got
what it would have got had it been alone. -/
def C178_claim : Prop :=
  ∀ (z : Zlib) (ver : Ver) (fs : List Frame4) (progs : Nat → List Call) (sched : List Nat),
    ¬ Race (run z ver sched (start fs progs)).log ∧
    ∀ i, ((run z ver sched (start fs progs)).threads i).done <+: alone z ver (progs i) fun k => fs[k]?

/-- **Finding** (C178). Once two threads have each made a call of a frame that was not up to date at first (as is any that has been read or made, until its size
is asked for), there has been a data race, whatever the order of their turns: though all the functions are `const`, both touch the caches and one of them has
changed them. -/
theorem C178_refuted_always (z : Zlib) (ver : Ver) (fs : List Frame4) (progs : Nat → List Call) (sched : List Nat) (k : Nat) (f : Frame4)
    (hk : fs[k]? = some f) (hd : f.dirty = true) (i j : Nat) (hij : i ≠ j)
    (hi : Uses ((progs i).take ((run z ver sched (start fs progs)).threads i).done.length) k)
    (hj : Uses ((progs j).take ((run z ver sched (start fs progs)).threads j).done.length) k) :
    Race (run z ver sched (start fs progs)).log := by
  have h := hot_run z ver sched (hot_start (progs := progs) hk hd)
  obtain ⟨wi, hwi⟩ := h.did i hi
  obtain ⟨wj, hwj⟩ := h.did j hj
  rcases h.wrote with ⟨x, hx⟩ | ⟨_, _, h3⟩
  · by_cases e : x = i
    · exact ⟨_, hx, _, hwj, by rw [e]; exact hij, rfl, rfl, .inl rfl⟩
    · exact ⟨_, hx, _, hwi, e, rfl, rfl, .inl rfl⟩
  · exact absurd hwi (h3 i wi)

/-- A title, "A", as it is when it has been read. -/
def sharedTitle : Frame4 := .new ⟨0x54, 0x49, 0x54, 0x32⟩ (.text 0 [0x41]) false false false false none none false none

/-- No compression; a checksum that is always nought. -/
def sharedZlib : Zlib := ⟨fun _ => .throw .runtimeError, fun _ _ => .throw .runtimeError, fun _ _ => 0⟩

/-- Two threads that each ask for the size of the title. -/
def sharedProgs : Nat → List Call := fun i => if i < 2 then [⟨0, .size false false⟩] else []

/-- A schedule by which both get an answer; the hypotheses of the theorem are met. -/
example : Uses ((sharedProgs 0).take ((run sharedZlib .v3 [0, 1, 0, 0, 0, 1, 0, 1, 1, 1] (start [sharedTitle] sharedProgs)).threads 0).done.length) 0 ∧
    Uses ((sharedProgs 1).take ((run sharedZlib .v3 [0, 1, 0, 0, 0, 1, 0, 1, 1, 1] (start [sharedTitle] sharedProgs)).threads 1).done.length) 0 ∧
    sharedTitle.dirty = true := by
  refine ⟨⟨⟨0, .size false false⟩, ?_, rfl⟩, ⟨⟨0, .size false false⟩, ?_, rfl⟩, rfl⟩ <;> decide +kernel

/-- **Finding** (C178). One thread empties the caches after the other has filled them and before it looks: the size of a frame of twelve bytes is reported
as nought. -/
theorem C178_refuted_size :
    ((run sharedZlib .v3 [0, 1, 0, 0, 0, 1, 0] (start [sharedTitle] sharedProgs)).threads 0).done = [.ok (.num 0)] ∧
    alone sharedZlib .v3 (sharedProgs 0) (fun k => [sharedTitle][k]?) = [.ok (.num 12)] := by
  constructor <;> decide +kernel

theorem not_C178 : ¬ C178_claim := by
  intro h
  have h1 := (h sharedZlib .v3 [sharedTitle] sharedProgs [0, 1, 0, 0, 0, 1, 0]).2 0
  rw [C178_refuted_size.1, C178_refuted_size.2] at h1
  revert h1
  decide

/-- **Finding** (C178). The claim fails even when memory is sequentially consistent. -/
theorem C178_refuted : ¬ C178_claim := not_C178

/-- **C178**, when each frame is up to date or used by one thread only: in no order of turns is there a data race; what a thread has got is the beginning of
what it would have got alone, and all of it when it is done; and it is done when it has had five turns for each call.

Missing: frames that are not up to date and are shared (`C178_refuted_always`, `C178_refuted_size`); the caches of extended headers. -/
theorem C178_partial (z : Zlib) (ver : Ver) (fs : List Frame4) (progs : Nat → List Call) (sched : List Nat) (hp : Prepared fs progs) :
    ¬ Race (run z ver sched (start fs progs)).log ∧
    ∀ i, ((run z ver sched (start fs progs)).threads i).done <+: alone z ver (progs i) (fun k => fs[k]?) ∧
      (5 * (progs i).length ≤ sched.count i →
        ((run z ver sched (start fs progs)).threads i).done = alone z ver (progs i) fun k => fs[k]?) := by
  have h := inv_run hp sched (inv_start z ver fs progs)
  refine ⟨?_, ?_⟩
  · rintro ⟨a, ha, b, hb, h1, h2, _, h4⟩
    obtain ⟨ua, wa⟩ := h.log a ha
    obtain ⟨ub, wb⟩ := h.log b hb
    rw [← h2] at ub wb
    have : ∃ f, fs[a.frame]? = some f ∧ f.dirty = true := by
      rcases h4 with h4 | h4
      · exact wa h4
      · exact wb h4
    obtain ⟨f, h5, h6⟩ := this
    rcases hp _ f h5 with h7 | h7
    · rw [h6] at h7; cases h7
    · exact h1 (h7 _ _ ua ub)
  · intro i
    refine ⟨⟨_, (h.good i).same.symm⟩, ?_⟩
    intro hc
    have hl := left_run z ver i sched (start fs progs)
    have hs : Shared.left ((start fs progs).threads i) = 5 * (progs i).length := by
      simp only [start, Shared.left]
      cases progs i <;> simp [Nat.mul_add]
    have h0 : ((run z ver sched (start fs progs)).threads i).todo = [] := by
      have : Shared.left ((run z ver sched (start fs progs)).threads i) = 0 := by omega
      revert this
      unfold Shared.left
      split
      · intro _; assumption
      · split <;> intro hx <;> omega
    rw [(h.good i).same, h0]
    simp [alone]

/-- When every thread has had its turns and met no exception, there has been no data race exactly if each frame was up to date at first or used by one thread
only. -/
theorem C178_exact (z : Zlib) (ver : Ver) (fs : List Frame4) (progs : Nat → List Call) (sched : List Nat)
    (hd : ∀ i, ((run z ver sched (start fs progs)).threads i).done.length = (progs i).length) :
    ¬ Race (run z ver sched (start fs progs)).log ↔ Prepared fs progs := by
  constructor
  · intro h k f hk
    cases hf : f.dirty with
    | false => exact .inl rfl
    | true =>
      right
      intro i j hi hj
      apply Decidable.byContradiction
      intro hij
      apply h
      refine C178_refuted_always z ver fs progs sched k f hk hf i j hij ?_ ?_
      · rw [hd i, List.take_length]; exact hi
      · rw [hd j, List.take_length]; exact hj
  · intro h; exact (C178_partial z ver fs progs sched h).1

/-- Once one thread has asked for the size of the tag, and before any other is begun, the frames may be shared by as many as like. -/
theorem C178_after_size (z : Zlib) (ver : Ver) (u np : Bool) (fs gs : List Frame4) (n : Nat) (h : Frame4.sizeAll z ver u np fs = .ok (n, gs))
    (progs : Nat → List Call) (sched : List Nat) :
    ¬ Race (run z ver sched (start gs progs)).log ∧
    ∀ i, ((run z ver sched (start gs progs)).threads i).done <+: alone z ver (progs i) (fun k => gs[k]?) := by
  have h1 := (sizeAll_clean h).1
  have hp : Prepared gs progs := fun k f hk => .inl (h1 f (List.mem_of_getElem? hk))
  exact ⟨(C178_partial z ver gs progs sched hp).1, fun i => ((C178_partial z ver gs progs sched hp).2 i).1⟩

/-- The title, after its size has been asked for, shared by two threads that write it and ask for its size: both get their answers, whoever is first. -/
example : (match Frame4.sizeAll sharedZlib .v3 false true [sharedTitle] with
    | .ok (n, gs) => decide (n = 12 ∧
        ((run sharedZlib .v3 [0, 1, 0, 1, 1] (start gs sharedProgs)).threads 0).done = [.ok (.num 12)] ∧
        ((run sharedZlib .v3 [0, 1, 0, 1, 1] (start gs sharedProgs)).threads 1).done = [.ok (.num 12)])
    | _ => false) = true := by decide +kernel

/-- Frames that are not up to date, each used by one thread only. -/
example : Prepared [sharedTitle, sharedTitle] (fun i => if i < 2 then [⟨i, .size false false⟩, ⟨i, .write true⟩] else []) := by
  intro k f hk
  right
  have aux : ∀ i, Uses (if i < 2 then [⟨i, .size false false⟩, ⟨i, .write true⟩] else []) k → i = k := by
    rintro i ⟨c, hc, rfl⟩
    split at hc
    · simp only [List.mem_cons, List.not_mem_nil, or_false] at hc
      rcases hc with rfl | rfl <;> rfl
    · cases hc
  intro i j hi hj
  rw [aux i hi, aux j hj]

end Scribbu.Props
