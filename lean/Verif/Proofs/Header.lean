import Verif.Model.Header
import Verif.Spec.Header
import Verif.Proofs.Stream
import Verif.Proofs.SyncSafe

namespace Scribbu
open Spec

theorem lt80_iff (b : Byte) : b < 0x80 ↔ b.toNat < 0x80 := by
  rw [UInt8.lt_iff_toNat_lt]; exact Iff.rfl

theorem ss4_spec (a b c d : Byte) : unsignedFromSyncSafe4 a b c d = syncSafe [a, b, c, d] := by
  simp only [ss4_eq, syncSafe, ofDigits, List.map, List.foldl]
  omega

theorem isHeader_length {bs : Bytes} {v r f : Byte} {n : Nat} (h : IsHeader bs v r f n) :
    10 ≤ bs.length := by
  obtain ⟨_, _, _, _, _, h, _⟩ := h
  simp [h]

/-- `checkHeader` decides the specification. -/
theorem checkHeader_spec (bs : Bytes) (h : 10 ≤ bs.length) :
    ∃ o, checkHeader (bs.take 10) = .ok o ∧
      (∀ v r f n, o = some ⟨v, r, f, n⟩ ↔ IsHeader bs v r f n) := by
  match bs, h with
  | b0 :: b1 :: b2 :: b3 :: b4 :: b5 :: b6 :: b7 :: b8 :: b9 :: rest, _ =>
    refine ⟨_, by simp only [List.take]; rfl, ?_⟩
    intro v r f n
    constructor
    · intro ho
      split at ho
      · next h1 =>
        split at ho
        · next h2 =>
          split at ho
          · next h3 =>
            simp only [Option.some.injEq, Id3v2Info.mk.injEq] at ho
            obtain ⟨rfl, rfl, rfl, rfl⟩ := ho
            obtain ⟨rfl, rfl, rfl⟩ := h1
            refine ⟨b6, b7, b8, b9, rest, rfl, h2.1, h2.2, ?_, ss4_spec ..⟩
            intro b hb
            simp only [lt80_iff] at h3
            simp only [List.mem_cons, List.not_mem_nil, or_false] at hb
            rcases hb with rfl | rfl | rfl | rfl
            · exact h3.1
            · exact h3.2.1
            · exact h3.2.2.1
            · exact h3.2.2.2
          · simp at ho
        · simp at ho
      · simp at ho
    · rintro ⟨s0, s1, s2, s3, rest', he, hv, hr, hs, hn⟩
      simp only [List.cons_append, List.nil_append, List.cons.injEq] at he
      obtain ⟨rfl, rfl, rfl, rfl, rfl, rfl, rfl, rfl, rfl, rfl, rfl⟩ := he
      have h6 := hs b6 (by simp); have h7 := hs b7 (by simp)
      have h8 := hs b8 (by simp); have h9 := hs b9 (by simp)
      simp only [lt80_iff]
      rw [if_pos (by simp), if_pos ⟨hv, hr⟩, if_pos ⟨h6, h7, h8, h9⟩]
      simp [hn, ss4_spec]

theorem lookingAt_spec (d : Bytes) (p : Nat) (m : IoBits) (restore : Bool) :
    ∃ o, lookingAtId3v2 restore ⟨d, p, m, IoBits.none⟩ =
      (.ok o, ⟨d, if o.isSome && !restore then p + 10 else p, m, IoBits.none⟩) ∧
      (∀ v r f n, o = some ⟨v, r, f, n⟩ ↔ IsHeader (d.drop p) v r f n) := by
  unfold lookingAtId3v2
  by_cases h : p + 10 ≤ d.length
  · have hr := SM.read_full 10 d p IoBits.all h
    have ha := SM.attempt_ok hr
    obtain ⟨o, ho, hspec⟩ := checkHeader_spec (d.drop p) (by simp; omega)
    refine ⟨o, ?_, hspec⟩
    simp only [SM.bind_apply, SM.exceptions_apply, SM.setExceptions_good, SM.tellg_good, ha, ho,
      SM.lift_apply]
    cases o <;> cases restore <;> simp
  · obtain ⟨p', hr⟩ := SM.read_short 10 d p IoBits.all (by omega) (by omega) rfl
    have ha := SM.attempt_fail hr
    refine ⟨none, ?_, ?_⟩
    · simp [ha]
    · intro v r f n
      constructor
      · intro h'; simp at h'
      · intro h'
        have := isHeader_length h'
        simp at this
        omega

end Scribbu
