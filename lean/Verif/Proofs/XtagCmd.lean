import Verif.Spec.XtagCmd
import Verif.Proofs.TagCloud
import Verif.Proofs.TagCloudBin

/-! Lemmas about the sub-command `xtag`. -/

namespace Scribbu.TagCloud
open Scribbu

theorem takeWhile_noNul (b : Bytes) : (0 : Byte) ∉ b.takeWhile (· ≠ 0) := by
  induction b with
  | nil => simp
  | cons a b ih =>
    rw [List.takeWhile_cons]
    split
    · rename_i h
      intro h'
      rcases List.mem_cons.1 h' with h' | h'
      · rw [← h'] at h; simp at h
      · exact ih h'
    · simp

theorem findNul_noNul {b : Bytes} {i : Nat} {s : Bytes} {p : Nat} (h : findNul b i = .ok (s, p)) : (0 : Byte) ∉ s := by
  unfold findNul at h
  split at h
  · simp only [Res.ok.injEq, Prod.mk.injEq] at h
    rw [← h.1]
    exact takeWhile_noNul _
  · cases h

/-- What a parser of values gives has no NULs and is in order. -/
theorem parseVals_inv {b : Bytes} : ∀ (fuel i cb : Nat) (vals r : List Bytes) (j : Nat), SetOk vals → (∀ v ∈ vals, (0 : Byte) ∉ v) →
    parseVals b fuel i cb vals = some (.ok (r, j)) → SetOk r ∧ ∀ v ∈ r, (0 : Byte) ∉ v := by
  intro fuel
  induction fuel with
  | zero =>
    intro i cb vals r j h1 h2 h
    rw [parseVals_unfold] at h
    split at h
    · cases h; exact ⟨h1, h2⟩
    · cases h
  | succ fuel ih =>
    intro i cb vals r j h1 h2 h
    rw [parseVals_unfold] at h
    split at h
    · cases h; exact ⟨h1, h2⟩
    · simp only at h
      split at h
      · rename_i v p hf
        refine ih _ _ _ _ _ (setOk_insert h1) ?_ h
        intro w hw
        rcases mem_setInsert.1 hw with rfl | hw
        · exact findNul_noNul hf
        · exact h2 w hw
      · cases h
      · cases h

/-- Entries without NULs. -/
def Clean (M : TagMap) : Prop := ∀ e ∈ M, (0 : Byte) ∉ e.1 ∧ ∀ v ∈ e.2, (0 : Byte) ∉ v

theorem parseEntries_inv {b : Bytes} : ∀ (fuel i : Nat) (M r : TagMap), MapOk M → Clean M →
    parseEntries b fuel i M = some (.ok r) → MapOk r ∧ Clean r := by
  intro fuel
  induction fuel with
  | zero =>
    intro i M r h1 h2 h
    rw [parseEntries_unfold] at h
    split at h
    · cases h; exact ⟨h1, h2⟩
    · cases h
  | succ fuel ih =>
    intro i M r h1 h2 h
    rw [parseEntries_unfold] at h
    split at h
    · cases h; exact ⟨h1, h2⟩
    · simp only at h
      split at h
      · rename_i key p hf
        split at h
        · rename_i cb hcb
          split at h
          · rename_i vals i' hv
            obtain ⟨g1, g2⟩ := parseVals_inv _ _ _ _ _ _ (by simp [SetOk]) (by simp) hv
            refine ih _ _ _ (mapOk_upd h1 (fun _ => g1) (fun _ _ => g1)) ?_ h
            rintro ⟨x, s⟩ he
            rcases (mem_mapUpd h1).1 he with ⟨-, he⟩ | ⟨rfl, rfl⟩
            · exact h2 _ he
            · exact ⟨findNul_noNul hf, g2⟩
          · cases h
          · cases h
          · cases h
        · cases h
        · cases h
      · cases h
      · cases h

theorem parse_inv {b : Bytes} {t : TagCloud} (h : parse b = some (.ok t)) : MapOk t.tags ∧ Clean t.tags ∧ (0 : Byte) ∉ t.own := by
  unfold parse at h
  split at h
  · rename_i own p hf
    split at h
    · rename_i M hM
      cases h
      obtain ⟨h1, h2⟩ := parseEntries_inv _ _ _ _ MapOk.nil (by intro e he; cases he) hM
      exact ⟨h1, h2, findNul_noNul hf⟩
    · cases h
    · cases h
    · cases h
  · cases h
  · cases h

end Scribbu.TagCloud

namespace Scribbu.Commands
open Scribbu TagCloud

theorem cloudOf_inv {d : Bytes} {t : TagCloud} (h : cloudOf d = .ok t) : MapOk t.tags ∧ Clean t.tags ∧ (0 : Byte) ∉ t.own := by
  unfold cloudOf at h
  split at h
  · rename_i r hr
    subst h
    exact parse_inv hr
  · cases h

end Scribbu.Commands
