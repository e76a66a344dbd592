import Verif.Props.Bodies

/-!
# C22, C48, C49, C51 for private frames

The body of PRIV: a contact, a terminator and arbitrary data.
-/

namespace Scribbu.Props
open Scribbu Scribbu.Spec

/-- **C22** Private frames: a contact without a NUL in it and any data, written, are as many bytes as
`size()` says and read back as the same contact and data; and whatever was read is written as the very bytes
it was read from. -/
theorem C22_priv (e c : Bytes) (h : (0 : Byte) ∉ e) :
    Priv.parse (Priv.write ⟨e, c⟩) = .ok ⟨e, c⟩ ∧ (Priv.write ⟨e, c⟩).length = Priv.size ⟨e, c⟩ ∧
    ∀ (b : Bytes) (p : Priv), Priv.parse b = .ok p → p.write = b ∧ (0 : Byte) ∉ p.email := by
  refine ⟨?_, ?_, ?_⟩
  · unfold Priv.parse Priv.write
    rw [show e ++ [0] ++ c = e ++ 0 :: c by simp]
    simp only [takeWhile_nul h]
    simp
  · simp [Priv.write, Priv.size]; omega
  · intro b p hp
    unfold Priv.parse at hp
    simp only at hp
    rw [drop_takeWhile] at hp
    have h0 : (0 : Byte) ∉ b.takeWhile (· ≠ 0) := by
      intro hm
      have := List.all_takeWhile (p := fun x : Byte => decide (x ≠ 0)) (l := b)
      rw [List.all_eq_true] at this
      have := this 0 hm
      simp at this
    cases hd : b.dropWhile (· ≠ 0) with
    | nil => rw [hd] at hp; cases hp
    | cons z r =>
      rw [hd] at hp
      cases hp
      have hz : z = 0 := by
        have := List.head?_dropWhile_not (p := fun x : Byte => decide (x ≠ 0)) (l := b)
        rw [hd] at this
        simpa using this
      have := List.takeWhile_append_dropWhile (p := fun x : Byte => decide (x ≠ 0)) (l := b)
      rw [hd, hz] at this
      exact ⟨by simpa [Priv.write] using this, h0⟩

example : Priv.parse [0x61, 0x40, 0, 0xff, 0, 0x62] = .ok ⟨[0x61, 0x40], [0xff, 0, 0x62]⟩ := by decide

/-- C48 for private frames, in full. -/
def C48_priv_claim : Prop := ∀ b : Bytes, (Priv.parse b).safe

/-- **Finding**: a private frame without a NUL makes the library step over the end of its data and copy from
there. -/
theorem C48_priv_refuted : ¬ C48_priv_claim := by
  intro h
  have := h [0x61]
  revert this
  decide

/-- **C48** Private frames are read within their bounds exactly if there is a NUL among their bytes. -/
theorem C48_priv_partial (b : Bytes) : (Priv.parse b).safe ↔ (0 : Byte) ∈ b := by
  unfold Priv.parse
  simp only
  rw [drop_takeWhile]
  have hb := List.takeWhile_append_dropWhile (p := fun x : Byte => decide (x ≠ 0)) (l := b)
  cases hd : b.dropWhile (· ≠ 0) with
  | nil =>
    rw [hd, List.append_nil] at hb
    constructor
    · intro h; exact absurd h (by simp [Res.safe])
    · intro h
      have := List.all_takeWhile (p := fun x : Byte => decide (x ≠ 0)) (l := b)
      rw [hb, List.all_eq_true] at this
      have := this 0 h
      simp at this
  | cons z r =>
    have hz : z = 0 := by
      have := List.head?_dropWhile_not (p := fun x : Byte => decide (x ≠ 0)) (l := b)
      rw [hd] at this
      simpa using this
    constructor
    · intro _
      rw [← hb, hd, hz]
      simp
    · intro _; simp [Res.safe]

example : (Priv.parse [0]).safe ∧ ¬ (Priv.parse []).safe := by decide

/-- **C49** Private frames report the number of false syncs among the bytes they write, as C06 counts
them. -/
theorem C49_priv_partial (p : Priv) : p.countSyncs true = countSyncs true p.write := by
  unfold Priv.countSyncs Priv.write
  exact (C49_counts_partial ⟨p.email, p.contents⟩ ⟨[], 0, []⟩ ⟨1, 0, [], []⟩).1

example : (⟨[0x61, 0xff], [0xff, 0xee]⟩ : Priv).countSyncs true = 1 := by decide +kernel

/-- C51 for private frames, in full. -/
def C51_priv_claim : Prop := ∀ p : Priv, p.serializedSize true = (unsynchronise false p.write).length

/-- **Finding**: for private frames, too, an FF directly in front of the terminator is overlooked. -/
theorem C51_priv_refuted : ¬ C51_priv_claim := by
  intro h
  have := h ⟨[0xff], []⟩
  revert this
  decide

/-- **C51** For private frames as for unique file identifiers: the prediction is short of C06's count by that FF
alone, and never exceeds the true length. Without unsynchronisation it is the number of bytes written. -/
theorem C51_priv_partial (p : Priv) :
    (p.serializedSize true + (if p.email.getLast? = some 0xff then 1 else 0) =
        p.write.length + countSyncs false p.write ∧
      p.serializedSize true ≤ (unsynchronise false p.write).length) ∧
    p.serializedSize false = p.write.length := by
  refine ⟨(C51_partial ⟨p.email, p.contents⟩ ⟨[], 0, []⟩ ⟨1, 0, [], []⟩ []).1, ?_⟩
  simp [Priv.serializedSize, Priv.size, Priv.write]; omega

example : (⟨[0x61], [0xff, 0xf0, 0xff, 0]⟩ : Priv).serializedSize true =
    (unsynchronise false (⟨[0x61], [0xff, 0xf0, 0xff, 0]⟩ : Priv).write).length := by decide

end Scribbu.Props
