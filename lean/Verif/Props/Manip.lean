import Verif.Proofs.Manip

/-! Properties C147 and C148: what streams are told to use. -/

namespace Scribbu.Props
open Scribbu Scribbu.Spec.Manip Scribbu.Manip

/-- Memory is used as it should be, whatever the history: nothing goes wrong, every answer is as it is to be, and once all streams have been destroyed
all objects have been deleted. -/
def TellsAll {α : Type} (I : Impl α) (ops : List Op) : Prop :=
  ∃ st, Manip.run I ops start = .ok (st, (play ⟨I.val, I.ok, I.dflt⟩ ops []).2) ∧
    (Over (play ⟨I.val, I.ok, I.dflt⟩ ops []).1 → ∀ c ∈ st.heap, c = .freed)

/-! ## C147: encodings -/

/-- The full claim. -/
def C147_claim : Prop := ∀ (val : Nat → Encoding × OnNo) (strict : Bool) (ops : List Op), TellsAll (encodings val strict) ops

/-- ISO-8859-1, or fail. -/
def latin : Nat → Encoding × OnNo := fun _ => (.ISO_8859_1, .fail)

/-- An outcome of the history is bad in this way. -/
def endsBad {α : Type} [DecidableEq α] (I : Impl α) (ops : List Op) (e : Bad) : Bool := decide (Manip.run I ops start = .bad e)

/-- **Finding** (C147) `copyfmt` copies the encoding of a stream by `strdup`, as if it were a string: it copies up to two of its eight bytes. To ask the
stream for its encoding, as printing a tag to it does, then reads outside of the copy. -/
theorem C147_refuted : ¬ C147_claim := by
  intro h
  obtain ⟨st, h, _⟩ := h latin false [.new, .new, .put 0 0, .copyfmt 1 0, .get 1]
  have : endsBad (encodings latin false) [.new, .new, .put 0 0, .copyfmt 1 0, .get 1] .outOfBounds = true := by decide +kernel
  rw [endsBad, decide_eq_true_eq] at this
  rw [this] at h
  cases h

/-- **Finding** (C147) Whatever the encoding, a stream that has been told one deletes it, when it is destroyed, as if it were a `char`, which is undefined. -/
theorem C147_refuted_delete (val : Nat → Encoding × OnNo) (m : Nat) (h : (val m).1.isChar = true) :
    Manip.run (encodings val true) [.new, .put 0 m, .close 0] start = .bad .wrongType := by
  simp only [Manip.run, step, start, List.nil_append, Out.bind, List.getElem?_cons_zero]
  rw [if_pos (by exact h)]
  rfl

/-- **Finding** (C147) What `strdup` makes of an encoding never has the eight bytes that are read of it. -/
theorem C147_refuted_copy (x : Encoding × OnNo) : (strdup (iencBytes x)).length ≤ 2 := by
  unfold strdup iencBytes
  generalize UInt8.ofNat (Encoding.all.idxOf x.1) = b
  by_cases h : b = 0
  · subst h; simp
  · simp [h]

/-- **C147** (partial) Where deleting as `char` only gives the memory back: for every history, with any number of streams, in which no stream is asked
for an encoding that has been copied to it. Missing: those, and the undefined deletions as such. -/
theorem C147_partial (val : Nat → Encoding × OnNo) (ops : List Op) (h : AsksNoCopy ⟨val, fun x => x.1.isChar, (.UTF_8, .fail)⟩ ops []) :
    TellsAll (encodings val false) ops := by
  obtain ⟨st, h1, h2⟩ := run_ok (I := encodings val false) (.inl rfl) ops (inv_start _) (.inr h) (.inl rfl)
  exact ⟨st, h1, fun ho => inv_over h2 ho⟩

/-- Two streams are told, one is told again, one gets the format of the other and is then told what to use. -/
def tellOps : List Op :=
  [.new, .put 0 1, .new, .put 1 2, .get 1, .put 0 2, .copyfmt 1 0, .put 1 1, .get 0, .get 1, .put 0 3, .close 1, .close 0]
/-- Three encodings; the last is not one of `char`s. -/
def tellEnc : Nat → Encoding × OnNo
  | 1 => (.ISO_8859_1, .fail)
  | 2 => (.CP1252, .ignore)
  | _ => (.UTF_16, .fail)
example : AsksNoCopy ⟨tellEnc, fun x => x.1.isChar, (.UTF_8, .fail)⟩ tellOps [] := by
  refine ⟨?_, ?_, ?_, ?_, ?_, ?_, ?_, ?_, ?_, ?_, ?_, ?_, ?_, trivial⟩ <;> rintro i a ⟨⟩ <;>
    (intro h; have h := congrArg (fun x => x.map (Option.map (Option.map Prod.snd))) h; revert h; dsimp only [Option.map]; decide +kernel)
/-- What is answered. -/
example : (play ⟨tellEnc, fun x => x.1.isChar, (.UTF_8, .fail)⟩ tellOps []).2 =
    [.uses (.CP1252, .ignore), .uses (.CP1252, .ignore), .uses (.ISO_8859_1, .fail), .refused] := by decide +kernel
example : (match Manip.run (encodings tellEnc false) tellOps start with
    | .ok r => r.1.heap.all (· = .freed) && r.2 == [.uses (.CP1252, .ignore), .uses (.CP1252, .ignore), .uses (.ISO_8859_1, .fail), .refused]
    | .bad _ => false) = true := by decide +kernel

/-! ## C148: printers -/

/-- The full claim. -/
def C148_claim : Prop := ∀ (val : Nat → Nat) (std : Nat) (strict : Bool) (ops : List Op), TellsAll (printers val std strict) ops

/-- **Finding** (C148) A manipulator can be used only once: inserted again, into the same stream or another, it makes the stream use the standard printer,
without a word. -/
theorem C148_refuted : ¬ C148_claim := by
  intro h
  obtain ⟨st, h, _⟩ := h (fun m => m) 0 false [.new, .new, .put 0 7, .put 1 7, .get 1]
  have : (match Manip.run (printers (fun m => m) 0 false) [.new, .new, .put 0 7, .put 1 7, .get 1] start with
    | .ok r => decide (r.2 = [Ans.uses 0])
    | .bad _ => false) = true := by decide +kernel
  rw [h] at this
  have e : (play ⟨(printers (fun m => m) 0 false).val, (printers (fun m => m) 0 false).ok, (printers (fun m => m) 0 false).dflt⟩
    [.new, .new, .put 0 7, .put 1 7, .get 1] []).2 = [.uses 7] := by decide +kernel
  simp only [e] at this
  cases this

/-- **Finding** (C148) If a manipulator is inserted twice into a stream and then another is, the callback is registered twice, and the printer is deleted
twice when the stream is destroyed. -/
theorem C148_refuted_twice {α : Type} (val : Nat → α) (std : α) (strict : Bool) (m n : Nat) (h : m ≠ n) :
    Manip.run (printers val std strict) [.new, .put 0 m, .put 0 m, .put 0 n, .close 0] start = .bad .deletedTwice := by
  have hn : n ≠ m := fun e => h e.symm
  simp [Manip.run, step, start, printers, Manip.insert, del, erase, Out.bind, hn]

/-- **C148** (partial) For every history, with any number of streams, in which no manipulator is used twice: a stream uses the printer last inserted, also if it
has come from another stream by `copyfmt`; every printer is deleted once. Missing: manipulators that are used again. -/
theorem C148_partial {α : Type} (val : Nat → α) (std : α) (strict : Bool) (ops : List Op) (h : (used ops).Nodup) :
    TellsAll (printers val std strict) ops := by
  obtain ⟨st, h1, h2⟩ := run_ok (I := printers val std strict) (.inr rfl) ops (inv_start _) (.inl rfl) (.inr ⟨h, by simp [start]⟩)
  exact ⟨st, h1, fun ho => inv_over h2 ho⟩

/-- A history in which formats are copied back and forth. -/
def prnOps : List Op := [.new, .put 0 1, .new, .copyfmt 1 0, .put 0 2, .get 1, .copyfmt 0 1, .get 0, .close 1, .get 0, .close 0]
example : (used prnOps).Nodup := by decide +kernel
example : (play (⟨fun m => m, fun _ => true, 0⟩ : Told Nat) prnOps []).2 = [.uses 1, .uses 1, .uses 1] := by decide +kernel

end Scribbu.Props
