import Verif.Spec.PowerLoss
import Verif.Proofs.Replace

/-! Lemmas about what is left after a power failure. -/

namespace Scribbu.Replace
open Scribbu Path Backup FM Props

/-- On one file system the file is there all the time, with the old contents or with the new. -/
theorem replace_there (I : TagI τ) (e : Env) (pth : Path) (ts : List τ) (au : ApplyUnsync) (keep : Bool)
    (hP : PlainPath (absolute e.cwd pth)) (ht : e.tmp ≠ absolute e.cwd pth) (hb : ¬ Bk (absolute e.cwd pth) e.tmp) (hd : e.rename ≠ .crossDevice)
    (old : Bytes) (s0 : FS) (h0 : s0.get (absolute e.cwd pth) = some old) :
    Holds (replaceTagsetCopy I e pth ts au keep) (· = s0)
      (fun x => x.get (absolute e.cwd pth) = some old ∨
        ∃ new ts', Tagset.copyContents I (some old) au ts = .ok (new, ts') ∧ x.get (absolute e.cwd pth) = some new)
      (fun _ x => x.get (absolute e.cwd pth) = some old ∨
        ∃ new ts', Tagset.copyContents I (some old) au ts = .ok (new, ts') ∧ x.get (absolute e.cwd pth) = some new) := by
  unfold replaceTagsetCopy
  generalize hPe : absolute e.cwd pth = P at *
  have hput : ∀ b, (s0.put e.tmp b).get P = some old := fun b => by rw [FS.get_put_ne _ _ ht.symm]; exact h0
  have hPn : ¬ Bk P P := fun h => bk_ne h rfl
  refine Holds.bind (mid := fun o s => o = some old ∧ s = s0) (Holds.look _ ?_) ?_
  · rintro s rfl
    exact ⟨h0, rfl⟩
  intro o
  by_cases ho : o = some old
  case neg => rintro s ⟨h, -⟩; exact absurd h ho
  subst ho
  cases hc : Tagset.copyContents I (some old) au ts with
  | ok r =>
    obtain ⟨new, ts'⟩ := r
    refine Holds.bind (mid := fun _ s => s = s0.put e.tmp new) (Holds.create _ _ _ _ ?_ ?_ ?_ ?_) ?_
    · rintro s c ⟨-, rfl⟩; exact .inl (hput c)
    · rintro s ⟨-, rfl⟩; rfl
    · rintro s ⟨-, rfl⟩; exact .inl h0
    · rintro s k ⟨-, rfl⟩; exact .inl (hput _)
    intro _
    unfold shuffle
    rw [hPe]
    refine Holds.bind (mid := fun _ s => s.get P = some old ∧ s.get e.tmp = some new) ?_ ?_
    · cases keep with
      | false =>
        refine Holds.pure _ ?_
        rintro s rfl
        exact ⟨hput _, FS.get_put_same _ _ _⟩
      | true =>
        refine Holds.bind (mid := fun _ s => s.get P = some old ∧ s.get e.tmp = some new) ?_ fun c => Holds.pure _ fun s h => h
        have hh := makeBackup_holds e.cwd pth e.rmBackup e.backup (by rw [hPe]; exact hP) (s0.put e.tmp new)
        rw [hPe] at hh
        refine hh.weaken (fun s h => h) ?_ ?_
        · intro s h
          exact .inl (by rw [h P hPn, hput])
        · intro r s h
          cases r with
          | ok c =>
            have h1 : P ≠ c := (bk_ne h.1).symm
            have h2 : e.tmp ≠ c := by rintro rfl; exact hb h.1
            exact ⟨by rw [h.2.2.2 P h1, hput], by rw [h.2.2.2 _ h2, FS.get_put_same]⟩
          | throw x => exact .inl (by rw [h P hPn, hput])
          | ub u => cases h; exact .inl (hput _)
    intro c
    refine Holds.bind (mid := fun r s => r ≠ .crossDevice ∧ (s.get P = some old ∨
        ∃ new' ts'', Res.ok (new, ts') = Res.ok (new', ts'') ∧ s.get P = some new')) (Holds.rename _ _ _ ?_ ?_ ?_) ?_
    · rintro s d ⟨-, h⟩ h1 _
      rw [h] at h1
      cases h1
      exact ⟨.inr ⟨new, ts', rfl, FS.get_put_same _ _ _⟩, by simp, .inr ⟨new, ts', rfl, FS.get_put_same _ _ _⟩⟩
    · intro s _ h
      exact absurd h hd
    · rintro s ⟨h, -⟩ _
      exact ⟨by simp, .inl h⟩
    intro r
    cases r with
    | done => exact Holds.pure _ fun s h => h.2
    | crossDevice => rintro s ⟨h, -⟩; exact absurd rfl h
    | failed => exact Holds.lift _ fun s h => h.2
  | throw x =>
    refine Holds.bind (mid := fun _ s => s = s0.put e.tmp e.junk) (Holds.create _ _ _ _ ?_ ?_ ?_ ?_) ?_
    · rintro s c ⟨-, rfl⟩; exact .inl (hput c)
    · rintro s ⟨-, rfl⟩; rfl
    · rintro s ⟨-, rfl⟩; exact .inl h0
    · rintro s k ⟨-, rfl⟩; exact .inl (hput _)
    intro _
    refine Holds.lift _ ?_
    rintro s rfl
    exact .inl (hput _)
  | ub u =>
    refine Holds.lift _ ?_
    rintro s ⟨-, rfl⟩
    exact .inl h0

end Scribbu.Replace
