import Verif.Proofs.V1Locality

/-! Property C198: what comes before the last 355 bytes of a file has no say in its ID3v1 tag. -/

namespace Scribbu.Props
open Scribbu Scribbu.Spec Scribbu.V1Locality

/-- **C198** Reading: two files that end in the same 355 bytes, or more, have the same ID3v1 tag, or none, or the same failure; wherever the streams are and
whatever their masks. -/
theorem C198_read (pre pre' tail : Bytes) (h : 355 ≤ tail.length) (p p' : Nat) (m m' : IoBits) :
    (processId3v1 ⟨pre ++ tail, p, m, IoBits.none⟩).1 = (processId3v1 ⟨pre' ++ tail, p', m', IoBits.none⟩).1 :=
  (process_tail pre tail h p 0 m m).trans (process_tail pre' tail h p' 0 m' m).symm

/-- **C198** Finding: the tag is found in the same place, as seen from the end. -/
theorem C198_found (pre tail : Bytes) (h : 355 ≤ tail.length) (p p' : Nat) (m m' : IoBits) :
    ∃ i j, (endsInId3v1 ⟨pre ++ tail, p, m, IoBits.none⟩).1 = .ok i ∧ (endsInId3v1 ⟨tail, p', m', IoBits.none⟩).1 = .ok j ∧
      i.type = j.type ∧ i.start = pre.length + j.start ∧ i.stop = pre.length + j.stop := by
  refine ⟨findV1 (pre ++ tail), findV1 tail, by rw [endsInId3v1_spec], by rw [endsInId3v1_spec], ?_⟩
  have e : ∀ k, k ≤ 355 → (pre ++ tail).drop ((pre ++ tail).length - k) = tail.drop (tail.length - k) := by
    intro k hk
    rw [show (pre ++ tail).length - k = pre.length + (tail.length - k) by simp; omega, ← List.drop_drop, List.drop_left]
  have l : ∀ k, k ≤ 355 → (k ≤ (pre ++ tail).length ↔ k ≤ tail.length) := by
    intro k hk
    simp; omega
  unfold findV1
  simp only [extAt_iff, stdAt_iff, e 355 (by omega), e 128 (by omega), l 355 (by omega), l 128 (by omega)]
  simp only [List.length_append]
  split
  · exact ⟨rfl, by simp; omega, by simp⟩
  · split
    · exact ⟨rfl, by simp; omega, by simp⟩
    · exact ⟨rfl, by simp, by simp⟩

theorem v1_at_most (t : V1Tag) : t.size ≤ 355 := by
  unfold V1Tag.size
  split <;> omega

/-- **C198** Removing: what comes before stays, and what becomes of the rest does not depend on it. -/
theorem C198_removed (pre tail : Bytes) (h : 355 ≤ tail.length) :
    maybeRemoveId3v1 (pre ++ tail) = (maybeRemoveId3v1 tail).bind fun b => .ok (pre ++ b) := by
  unfold maybeRemoveId3v1
  rw [process_tail pre tail h 0 0 IoBits.all IoBits.all]
  cases (processId3v1 ⟨tail, 0, IoBits.all, IoBits.none⟩).1 with
  | ok o =>
    cases o with
    | none => rfl
    | some t =>
      have := v1_at_most t
      simp only [List.length_append]
      rw [if_pos (by omega), if_pos (by omega), Res.ok_bind, show pre.length + tail.length - t.size = pre.length + (tail.length - t.size) by omega,
        List.take_length_add_append]
  | throw e => rfl
  | ub u => rfl

/-- **C198** Replacing, likewise. -/
theorem C198_replaced (pre tail : Bytes) (t : V1Tag) (h : 355 ≤ tail.length) :
    replaceId3v1 (pre ++ tail) t = (replaceId3v1 tail t).bind fun b => .ok (pre ++ b) := by
  unfold replaceId3v1
  rw [C198_removed pre tail h]
  cases maybeRemoveId3v1 tail with
  | ok b =>
    simp only [Res.ok_bind]
    cases t.write with
    | ok w => simp only [Res.ok_bind, List.append_assoc]
    | throw e => rfl
    | ub u => rfl
  | throw e => rfl
  | ub u => rfl

/-- 354 bytes that end in an ID3v1 tag, and could be most of an enhanced one. -/
def almost : Bytes := [0x41, 0x47, 0x2b] ++ List.replicate 223 0x20 ++ [0x54, 0x41, 0x47] ++ List.replicate 125 0x41

/-- **C198** There is no smaller number: with 354 bytes the byte before them decides what the artist is. -/
theorem C198_no_fewer : almost.length = 354 ∧ ∃ a b : V1Tag,
    (processId3v1 ⟨[0x54] ++ almost, 0, IoBits.all, IoBits.none⟩).1 = .ok (some a) ∧
    (processId3v1 ⟨[0x55] ++ almost, 0, IoBits.all, IoBits.none⟩).1 = .ok (some b) ∧ a.artist ≠ b.artist := by
  refine ⟨by decide +kernel, ?_⟩
  have h1 : ((processId3v1 ⟨[0x54] ++ almost, 0, IoBits.all, IoBits.none⟩).1.bind fun o => .ok (o.map (·.artist))) =
    .ok (some (List.replicate 30 0x41 ++ List.replicate 60 0x20)) := by decide +kernel
  have h2 : ((processId3v1 ⟨[0x55] ++ almost, 0, IoBits.all, IoBits.none⟩).1.bind fun o => .ok (o.map (·.artist))) =
    .ok (some (List.replicate 30 0x41)) := by decide +kernel
  rw [Res.bind_eq_ok] at h1 h2
  obtain ⟨o1, h1, k1⟩ := h1
  obtain ⟨o2, h2, k2⟩ := h2
  simp only [Res.ok.injEq, Option.map_eq_some_iff] at k1 k2
  obtain ⟨a, rfl, ka⟩ := k1
  obtain ⟨b, rfl, kb⟩ := k2
  refine ⟨a, b, h1, h2, ?_⟩
  rw [ka, kb]
  decide +kernel

/-- A file of any length that ends in these and one byte more: the enhanced tag is taken off, and the rest stays. -/
example (pre : Bytes) : maybeRemoveId3v1 (pre ++ ([0x54] ++ almost)) = .ok (pre ++ []) := by
  rw [C198_removed pre _ (by decide +kernel)]
  have : maybeRemoveId3v1 ([0x54] ++ almost) = .ok [] := by decide +kernel
  rw [this]
  rfl

end Scribbu.Props
