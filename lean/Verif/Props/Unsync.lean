import Verif.Proofs.Unsync

/-! Properties C03–C06: the unsynchronisation scheme. -/

namespace Scribbu.Props
open Scribbu Scribbu.Spec

/-- **C05** `resynchronise` always finishes, stays inside its buffer, and leaves
in the returned prefix exactly the input with every 00 following an FF removed. -/
theorem C05_resynchronise_exact (p : Bytes) :
    ∃ p' n, resynchronise p = some (.ok (p', n)) ∧ n ≤ p.length ∧ p'.length = p.length ∧
      p'.take n = dropStuffing p := by
  obtain ⟨p', n, h1, h2, h3, h4⟩ := resynchronise_spec p
  exact ⟨p', n, h1, h2, h3, by rw [h4, dropStuffing_eq_rs]⟩

/-- The documented example of id3v2.cc L225-226. -/
example : resynchronise
    [0x01, 0xff, 0x00, 0x02, 0x03, 0x04, 0xff, 0x00, 0x05, 0x06, 0xff, 0x00, 0x07, 0xff, 0x00] =
    some (.ok ([0x01, 0xff, 0x02, 0x03, 0x04, 0xff, 0x05, 0x06, 0xff, 0x07, 0xff, 0x00, 0x07, 0xff,
      0x00], 11)) := by
  rw [resynchronise]; decide +kernel
example : dropStuffing [0xff, 0x00, 0x00, 0xff, 0xff, 0x00] = [0xff, 0x00, 0xff, 0xff] := by decide

/-- **C03** Resynchronising an unsynchronised byte string gives back the original
bytes and length, with or without the end-of-tag rule. -/
theorem C03_resync_unsync (last : Bool) (bs : Bytes) :
    ∃ p' n, resynchronise (unsynchronise last bs) = some (.ok (p', n)) ∧
      n = bs.length ∧ p'.take n = bs := by
  obtain ⟨p', n, h1, h2, h3, h4⟩ := resynchronise_spec (unsynchronise last bs)
  refine ⟨p', n, h1, ?_, by rw [h4, rs_unsync]⟩
  have := congrArg List.length h4
  rw [rs_unsync, List.length_take] at this
  omega

example : unsynchronise true [0xff, 0x00, 0xff, 0xe0, 0xff] =
    [0xff, 0x00, 0x00, 0xff, 0x00, 0xe0, 0xff, 0x00] := by decide

/-- **C04** The output of `unsynchronise` never contains FF followed by a byte
`≥ E0`. -/
theorem C04_no_false_sync (last : Bool) (bs : Bytes) : ¬ HasFalseSync (unsynchronise last bs) :=
  unsync_no_false_sync last bs

/-- **C04** With the end-of-tag rule the output never ends in FF. -/
theorem C04_not_trailing_ff (bs : Bytes) : (unsynchronise true bs).getLast? ≠ some 0xff :=
  unsync_last_not_ff bs

example : HasFalseSync [0x41, 0xff, 0xfb, 0x42] := ⟨[0x41], 0xfb, [0x42], rfl, by decide⟩
example : unsynchronise false [0x41, 0xff, 0xfb, 0x42] = [0x41, 0xff, 0x00, 0xfb, 0x42] := by decide

/-- **C06** as claimed: the count the library predicts is the growth caused by
unsynchronising. -/
def C06_claim : Prop := ∀ bs : Bytes, (unsynchronise false bs).length = bs.length + countSyncs false bs

/-- **C06** is false of the code: `unsynchronise` protects FF E0 (as it must) but
`count_syncs` only counts second bytes above E9. -/
theorem C06_refuted : ¬ C06_claim := by
  intro h
  have := h [0xff, 0xe0]
  revert this
  decide

/-- **C06** (partial) The prediction is exact on every byte string in which no FF
is followed by a byte in `E0..E9`, and on all byte strings it never exceeds the
true growth. Missing: the strings containing such a pair, where it is too small. -/
theorem C06_count_partial (bs : Bytes) :
    (¬ HasPair 0xff (fun c => 0xe0 ≤ c.toNat ∧ c.toNat < 0xea) bs →
      (unsynchronise false bs).length = bs.length + countSyncs false bs) ∧
    bs.length + countSyncs false bs ≤ (unsynchronise false bs).length := by
  rw [unsync_length]
  refine ⟨fun h => by rw [countSyncs_eq_growth bs h], ?_⟩
  have := countSyncs_le_growth false bs
  omega

/-- **C06** (partial) Unsynchronising leaves the bytes unchanged exactly when no
FF is followed by 00 or a byte `≥ E0`; in particular a zero count certifies
nothing unless the `E0..E9` pairs are also excluded. -/
theorem C06_unchanged_iff_partial (bs : Bytes) :
    unsynchronise false bs = bs ↔ ¬ HasPair 0xff (fun c => c = 0 ∨ 0xe0 ≤ c.toNat) bs := by
  rw [← growth_eq_zero_iff]
  constructor
  · intro h
    have := congrArg List.length h
    rw [unsync_length] at this
    omega
  · intro h
    -- equal length plus the round trip: no byte was inserted
    have hl : (unsynchronise false bs).length = bs.length := by rw [unsync_length]; omega
    induction bs with
    | nil => rfl
    | cons b r ih =>
      cases r with
      | nil => unfold unsynchronise; split <;> simp_all [unsynchronise]
      | cons d r =>
        unfold growth at h
        have hr : growth (d :: r) = 0 := by omega
        have ih := ih hr (by rw [unsync_length]; omega)
        have hc : ¬ (b = 0xff ∧ unsyncTest d = true) := by
          intro hc; rw [if_pos hc] at h; omega
        unfold unsynchronise
        by_cases hb : b = 0xff
        · have hd : unsyncTest d = false := by
            cases hd : unsyncTest d
            · rfl
            · exact absurd ⟨hb, hd⟩ hc
          simp [hb, hd, ih]
        · simp [hb, ih]

example : countSyncs false [0xff, 0x00, 0xff, 0xea] = 2 ∧
    (unsynchronise false [0xff, 0x00, 0xff, 0xea]).length = 6 := by decide
example : countSyncs false [0xff, 0xe9] = 0 ∧ (unsynchronise false [0xff, 0xe9]).length = 3 := by decide

end Scribbu.Props
