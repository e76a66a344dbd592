import Verif.Proofs.Id3v1Find

/-! The ID3v1 tag of a file depends on the last 355 bytes only: lemmas. -/

namespace Scribbu.V1Locality
open Scribbu Scribbu.Spec

/-- What the constructor makes of what comes of the bytes. -/
def made : Res V1Tag → Res (Option V1Tag)
  | .ok t => .ok (some t)
  | .throw .streamFailure => .throw .invalidTag
  | .throw e => .throw e
  | .ub u => .ub u

theorem onFailure_fst (n : Nat) (m : IoBits) (d : Bytes) (p : Nat) (m' : IoBits) :
    (V1Tag.onFailure n m ⟨d, p, m', IoBits.none⟩).1 = .throw .invalidTag := by
  unfold V1Tag.onFailure
  simp only [SM.bind_apply, SM.setExceptions_good, SM.seekBeg_nat]
  rfl

theorem some_ext (body img : Bytes) (m : IoBits) (hi : img.length = 355) :
    ((V1Tag.ofStream >>= fun t => pure (some t)) ⟨body ++ img, body.length, m, IoBits.none⟩ : Res (Option V1Tag) × IStream).1 =
      made (V1Tag.initExtended img) := by
  rw [SM.bind_apply, ofStream_355 body img m hi]
  cases V1Tag.initExtended img with
  | ok t => rfl
  | ub u => rfl
  | throw e =>
    cases e with
    | streamFailure =>
      dsimp only
      have := onFailure_fst body.length m (body ++ img) (body.length + 355) IoBits.all
      rcases hx : V1Tag.onFailure body.length m ⟨body ++ img, body.length + 355, IoBits.all, IoBits.none⟩ with ⟨x, s⟩
      rw [hx] at this
      cases this
      rfl
    | _ => rfl

theorem some_std (body img : Bytes) (m : IoBits) (hi : img.length = 128) :
    ((V1Tag.ofStream >>= fun t => pure (some t)) ⟨body ++ img, body.length, m, IoBits.none⟩ : Res (Option V1Tag) × IStream).1 =
      made (V1Tag.initStandard img) := by
  rw [SM.bind_apply, ofStream_128 body img m hi]
  cases V1Tag.initStandard img with
  | ok t => rfl
  | ub u => rfl
  | throw e =>
    cases e with
    | streamFailure =>
      dsimp only
      have := onFailure_fst body.length m (body ++ img) (body.length + 128) IoBits.all
      rcases hx : V1Tag.onFailure body.length m ⟨body ++ img, body.length + 128, IoBits.all, IoBits.none⟩ with ⟨x, s⟩
      rw [hx] at this
      cases this
      rfl
    | _ => rfl

open Classical in
theorem process_fst (f : Bytes) (p : Nat) (m : IoBits) :
    (processId3v1 ⟨f, p, m, IoBits.none⟩).1 =
      if 355 ≤ f.length ∧ (f.drop (f.length - 355)).take 4 = TAGP then made (V1Tag.initExtended (f.drop (f.length - 355)))
      else if 128 ≤ f.length ∧ (f.drop (f.length - 128)).take 3 = TAG then made (V1Tag.initStandard (f.drop (f.length - 128)))
      else .ok none := by
  unfold processId3v1
  rw [SM.bind_ok (endsInId3v1_spec f p m)]
  unfold findV1
  simp only [extAt_iff, stdAt_iff]
  by_cases h1 : 355 ≤ f.length ∧ (f.drop (f.length - 355)).take 4 = TAGP
  · have hc : ((f.length : Int) - 355) = ((f.length - 355 : Nat) : Int) := by omega
    have hb : (f.take (f.length - 355)).length = f.length - 355 := by simp
    have k := some_ext (f.take (f.length - 355)) (f.drop (f.length - 355)) m (by simp; omega)
    rw [List.take_append_drop, hb] at k
    rw [if_pos h1, if_pos h1, ← k]
    simp [hc]
  · rw [if_neg h1, if_neg h1]
    by_cases h2 : 128 ≤ f.length ∧ (f.drop (f.length - 128)).take 3 = TAG
    · have hc : ((f.length : Int) - 128) = ((f.length - 128 : Nat) : Int) := by omega
      have hb : (f.take (f.length - 128)).length = f.length - 128 := by simp
      have k := some_std (f.take (f.length - 128)) (f.drop (f.length - 128)) m (by simp; omega)
      rw [List.take_append_drop, hb] at k
      rw [if_pos h2, if_pos h2, ← k]
      simp [hc]
    · rw [if_neg h2, if_neg h2]
      rfl

theorem process_tail (pre tail : Bytes) (h : 355 ≤ tail.length) (p p' : Nat) (m m' : IoBits) :
    (processId3v1 ⟨pre ++ tail, p, m, IoBits.none⟩).1 = (processId3v1 ⟨tail, p', m', IoBits.none⟩).1 := by
  have e : ∀ k, k ≤ 355 → (pre ++ tail).drop ((pre ++ tail).length - k) = tail.drop (tail.length - k) := by
    intro k hk
    rw [show (pre ++ tail).length - k = pre.length + (tail.length - k) by simp; omega, ← List.drop_drop, List.drop_left]
  have l : ∀ k, k ≤ 355 → (k ≤ (pre ++ tail).length ↔ k ≤ tail.length) := by
    intro k hk
    simp; omega
  rw [process_fst, process_fst]
  simp only [e 355 (by omega), e 128 (by omega), l 355 (by omega), l 128 (by omega)]

end Scribbu.V1Locality
