import Verif.Proofs.Shift
import Verif.Model.Read
import Verif.Model.Tag22
import Verif.Model.Tag23
import Verif.Model.Tag24

/-! # Reading ID3v2 tags behind a prefix

As Proofs/Shift.lean, for the functions that read tags: used in Props/Anywhere.lean. -/

namespace Scribbu.Shift
open Scribbu

variable {pre : Bytes}

theorem sim_attempt {P : IStream → Prop} {x y : SM α} {n : Int} (h : Sim pre P x y (Same (K n))) :
    Sim pre P (SM.attempt x) (SM.attempt y) (Same fun o s => o ≠ none → At n s) := by
  intro s hs
  have hx := h s hs
  unfold SM.attempt
  rcases e : x s with ⟨r, s1⟩
  rcases e' : y (sh pre s) with ⟨r', s2⟩
  rw [e, e'] at hx
  cases r <;> cases r' <;> simp only [Rel] at hx ⊢
  · obtain ⟨rfl, rfl, h⟩ := hx
    exact ⟨rfl, rfl, fun _ => h⟩
  · obtain ⟨rfl, rfl⟩ := hx
    rename_i ex; clear e e'
    cases ex <;> first | exact ⟨rfl, rfl, fun h => absurd rfl h⟩ | exact ⟨rfl, rfl⟩
  · exact hx

theorem sim_lookingAt (restore : Bool) : Sim pre (At 0) (lookingAtId3v2 restore) (lookingAtId3v2 restore) (Same (K 0)) := by
  unfold lookingAtId3v2
  refine sim_exceptions.bindE fun mask => (sim_setExceptions _).bindE fun _ => sim_tellg.bind fun h h' => ?_
  by_cases hh : Pos pre h h' ∨ (h = -1 ∧ h' = -1)
  · refine Sim.mono (P := At 0) ?_ (fun s hs => hs.1) (fun _ _ _ h => h)
    refine (sim_attempt (sim_read' 10)).bindE fun o => ?_
    cases o with
    | none => exact sim_clear.bindE fun _ => (sim_setExceptions _).bindE fun _ => (sim_seekAbs hh 0 fun hp => hp.1).bindE fun _ => sim_pure _ fun _ h => h
    | some buf =>
      refine Sim.mono (P := At 0) ?_ (fun _ h => h (by simp)) (fun _ _ _ h => h)
      refine (sim_lift _).bindE fun o => ?_
      dsimp only
      split
      · exact (sim_seekAbs hh 0 fun hp => hp.1).bindE fun _ => (sim_setExceptions _).bindE fun _ => sim_pure _ fun _ h => h
      · exact (sim_setExceptions _).bindE fun _ => sim_pure _ fun _ h => h
  · intro s hs
    exact absurd (hs.2.imp (·.1) (fun h => ⟨h.1, h.2.1⟩)) hh

/-- The common shape of the three functions `parse`. -/
theorem sim_parse (size : Nat) (f : Bytes → Res α) : Sim pre (At 0)
    (do
      let excMask ← SM.exceptions
      SM.setExceptions IoBits.all
      let here ← SM.tellg
      let r ← SM.onThrow (do let buf ← SM.read size; SM.lift (f buf)) (do SM.seekBeg here; SM.setExceptions excMask)
      SM.setExceptions excMask
      pure r)
    (do
      let excMask ← SM.exceptions
      SM.setExceptions IoBits.all
      let here ← SM.tellg
      let r ← SM.onThrow (do let buf ← SM.read size; SM.lift (f buf)) (do SM.seekBeg here; SM.setExceptions excMask)
      SM.setExceptions excMask
      pure r) (Same (K 0)) := by
  refine sim_exceptions.bindE fun mask => (sim_setExceptions _).bindE fun _ => sim_tellg.bind fun h h' => ?_
  by_cases hh : Pos pre h h' ∨ (h = -1 ∧ h' = -1)
  · refine Sim.mono (P := At 0) ?_ (fun s hs => hs.1) (fun _ _ _ h => h)
    refine Sim.bindE (T := K 0) (sim_onThrow (R := Same (K 0)) ((sim_read' size).bindE fun buf => sim_lift _)
      ((sim_seekAbs hh 0 fun hp => hp.1).bindE fun _ => sim_setExceptions _)) fun r => (sim_setExceptions _).bindE fun _ => sim_pure _ fun _ h => h
  · intro s hs
    exact absurd (hs.2.imp (·.1) (fun h => ⟨h.1, h.2.1⟩)) hh

theorem sim_read22 (h : Id3v2Info) : Sim pre (At 0) (Tag22.read h) (Tag22.read h) (Same (K 0)) := by
  unfold Tag22.read Tag22.parse
  exact (sim_parse _ _).bindE fun _ => sim_pure _ fun _ h => h

theorem sim_read23 (z : Zlib) (h : Id3v2Info) : Sim pre (At 0) (Tag23.read z h) (Tag23.read z h) (Same (K 0)) := by
  unfold Tag23.read Tag23.parse
  exact (sim_parse _ _).bindE fun _ => sim_pure _ fun _ h => h

theorem sim_read24 (z : Zlib) (h : Id3v2Info) : Sim pre (At 0) (Tag24.read z h) (Tag24.read z h) (Same (K 0)) := by
  unfold Tag24.read Tag24.parse
  exact (sim_parse _ _).bindE fun _ => sim_pure _ fun _ h => h

variable {mk2 mk3 mk4 : Id3v2Info → SM α}

/-- A constructor that reads the same behind a prefix. -/
def Simple (pre : Bytes) (mk : Id3v2Info → SM α) : Prop := ∀ h, Sim pre (At 0) (mk h) (mk h) (Same (K 0))

theorem sim_mk (h2 : Simple pre mk2) (h3 : Simple pre mk3) (h4 : Simple pre mk4) : Simple pre (mkId3v2 mk2 mk3 mk4) := by
  intro h
  unfold mkId3v2
  split
  · exact h2 h
  split
  · exact h3 h
  split
  · exact h4 h
  exact sim_throw _

theorem sim_maybe (h2 : Simple pre mk2) (h3 : Simple pre mk3) (h4 : Simple pre mk4) :
    Sim pre (At 0) (maybeReadId3v2 mk2 mk3 mk4) (maybeReadId3v2 mk2 mk3 mk4) (Same (K 0)) := by
  unfold maybeReadId3v2
  refine (sim_lookingAt false).bindE fun o => ?_
  cases o with
  | none => exact sim_pure _ fun _ h => h
  | some h => exact (sim_mk h2 h3 h4 h).bindE fun t => sim_pure _ fun _ h => h

theorem sim_skipTags (n : Nat) : Sim pre (At 0) (skipId3v2 n) (skipId3v2 n) (Same (K 0)) := by
  induction n with
  | zero => unfold skipId3v2; exact sim_pure _ fun _ h => h
  | succ n ih =>
    unfold skipId3v2
    refine (sim_lookingAt true).bindE fun o => ?_
    cases o with
    | none => exact sim_throw _
    | some h => exact (sim_skip _ (by omega) (by omega)).bindE fun _ => ih

theorem sim_readNth (h2 : Simple pre mk2) (h3 : Simple pre mk3) (h4 : Simple pre mk4) (n : Nat) :
    Sim pre (At 0) (readId3v2 mk2 mk3 mk4 n) (readId3v2 mk2 mk3 mk4 n) (Same (K 0)) := by
  unfold readId3v2
  refine (sim_skipTags n).bindE fun _ => (sim_lookingAt true).bindE fun o => ?_
  cases o with
  | none => exact sim_throw _
  | some h => exact sim_mk h2 h3 h4 h

theorem sim_readAll (h2 : Simple pre mk2) (h3 : Simple pre mk3) (h4 : Simple pre mk4) (fuel : Nat) :
    Sim pre (At 0) (readAllId3v2 mk2 mk3 mk4 fuel) (readAllId3v2 mk2 mk3 mk4 fuel) (Same (K 0)) := by
  induction fuel with
  | zero => unfold readAllId3v2; exact sim_pure _ fun _ h => h
  | succ fuel ih =>
    unfold readAllId3v2
    refine (sim_maybe h2 h3 h4).bindE fun o => ?_
    cases o with
    | none => exact sim_pure _ fun _ h => h
    | some t => exact ih.bindE fun ts => sim_pure _ fun _ h => h

end Scribbu.Shift
