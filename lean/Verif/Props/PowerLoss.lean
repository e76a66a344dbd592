import Verif.Proofs.PowerLoss
import Verif.Props.Replace
import Verif.Props.Rename

/-! **C190**: what is left after a power failure. -/

namespace Scribbu.Props
open Scribbu Path Backup Replace FM Scribbu.Spec

/-- **C190**, in full, for the replacing of tags: what C34 has of a process that dies is so after a power failure. -/
def C190_claim : Prop := ∀ (z : Zlib) (e : Env) (pth : Path) (ts : List AnyTag) (au : ApplyUnsync) (keep : Bool) (s0 : FS) (old : Bytes),
  Fit e pth → s0.get (absolute e.cwd pth) = some old →
  ∀ s, s ∈ (replaceTagsetCopy (anyI z) e pth ts au keep s0).seen ∨ s = (replaceTagsetCopy (anyI z) e pth ts au keep s0).fs →
  ∀ c, AfterPowerLoss s0 s c → c.get (absolute e.cwd pth) = some old ∨
    (∃ new ts', Tagset.copyContents (anyI z) (some old) au ts = .ok (new, ts') ∧ c.get (absolute e.cwd pth) = some new) ∨
    ∃ n, c.get (absolute e.cwd pth ++ dot :: dec n) = some old

/-- A file and its backup. -/
def lostBoth : FS := [(fileF, [0x49, 0x44]), (fileF ++ [dot, 49], [])]

theorem not_C190 : ¬ C190_claim := by
  intro h
  have hfs : (replaceTagsetCopy (anyI zId) (calm .done) fileF [bare 0] .never true [(fileF, [1, 2])]).fs =
    [(fileF, [0x49, 0x44, 0x33, 3, 0, 0, 0, 0, 0, 0, 1, 2]), (fileF ++ [dot, 49], [1, 2])] := by decide +kernel
  have hc : (match Tagset.copyContents (anyI zId) (some [1, 2]) .never [bare 0] with
      | .ok r => r.1.length
      | _ => 12) = 12 := by decide +kernel
  have hl : ∀ q d, lostBoth.get q = some d → d.length ≠ 12 ∧ d ≠ [1, 2] := by
    intro q d hq
    unfold lostBoth FS.get at hq
    simp only [List.find?_cons, List.find?_nil] at hq
    split at hq
    · cases hq; decide
    · split at hq
      · cases hq; decide
      · cases hq
  have := h zId (calm .done) fileF [bare 0] .never true [(fileF, [1, 2])] [1, 2] (calm_fit .done .none) (by decide) _ (.inr rfl) lostBoth (by
    rw [hfs]
    intro q
    by_cases h1 : q = fileF
    · subst h1
      exact .inr ⟨[0x49, 0x44, 0x33, 3, 0, 0, 0, 0, 0, 0, 1, 2], 2, by decide, by decide, by decide⟩
    · by_cases h2 : q = fileF ++ [dot, 49]
      · subst h2
        exact .inr ⟨[1, 2], 0, by decide, by decide, by decide⟩
      · refine .inl ?_
        simp [lostBoth, FS.get, Ne.symm h1, Ne.symm h2])
  rcases this with h1 | ⟨new, ts', h1, h2⟩ | ⟨n, h1⟩
  · exact (hl _ _ h1).2 rfl
  · rw [h1] at hc
    exact (hl _ _ h2).1 hc
  · exact (hl _ _ h1).2 rfl

/-- **Finding** (C190). Nothing is ever done to have what has been written reach the disk before the file is replaced by it, nor before the backup is relied on. A power
failure after the command has ended can leave a beginning of the new file, and of the backup that was asked for nothing at all. -/
theorem C190_refuted : ¬ C190_claim := not_C190

/-- **C190**, in full, for `rename`: after a power failure everything there was is in some file. -/
def C190_rename_claim : Prop := ∀ (file : Path → Path) (P : Path → Bytes → Res Bytes) (o : Rename.Options) (vs : List Rename.Visit) (before : FS),
  ∀ s, s ∈ (Rename.run file P o vs before).seen ∨ s = (Rename.run file P o vs before).fs →
  ∀ c, AfterPowerLoss before s c → ∀ p d, before.get p = some d → ∃ q, c.get q = some d

theorem not_C190_rename : ¬ C190_rename_claim := by
  intro h
  have hfs : (Rename.run id (fun _ _ => .ok [98]) ⟨[], false, true⟩ [⟨[47, 97], .none, false⟩] [([47, 97], [7])]).fs = [([47, 98], [7])] := by decide +kernel
  obtain ⟨q, hq⟩ := h id (fun _ _ => .ok [98]) ⟨[], false, true⟩ [⟨[47, 97], .none, false⟩] [([47, 97], [7])] _ (.inr rfl) [([47, 98], [])] (by
    rw [hfs]
    intro q
    by_cases h1 : q = [47, 98]
    · subst h1
      exact .inr ⟨[7], 0, by decide, by decide, by decide⟩
    · exact .inl (by simp [FS.get, Ne.symm h1])) [47, 97] [7] (by decide)
  unfold FS.get at hq
  simp only [List.find?_cons, List.find?_nil] at hq
  split at hq <;> simp at hq

/-- **Finding** (C190). `rename --rename` removes the original as soon as the copy has been written, but not when it has reached the disk: after a power failure the name may
stand for an empty file, and the original is gone. -/
theorem C190_refuted_rename : ¬ C190_rename_claim := not_C190_rename

/-- When the call has ended, as `C59_others` has it until then. -/
theorem others_at_end (I : TagI τ) (e : Env) (pth : Path) (ts : List τ) (au : ApplyUnsync) (keep : Bool) (s0 : FS) (old : Bytes)
    (hf : Fit e pth) (h0 : s0.get (absolute e.cwd pth) = some old) (q : Path) (h2 : q ≠ absolute e.cwd pth) (h3 : q ≠ e.tmp)
    (h4 : ∀ n, q ≠ absolute e.cwd pth ++ dot :: dec n) : (replaceTagsetCopy I e pth ts au keep s0).fs.get q = s0.get q := by
  have key : ∃ new, ∀ b ts', Tagset.copyContents I (some old) au ts = .ok (b, ts') → new = b := by
    cases hc : Tagset.copyContents I (some old) au ts with
    | ok r => exact ⟨r.1, by rintro b ts' h; cases h; rfl⟩
    | throw x => exact ⟨old, by simp⟩
    | ub u => exact ⟨old, by simp⟩
  obtain ⟨new, hn⟩ := key
  obtain ⟨-, h1⟩ := replace_holds I e pth ts au keep hf.1 hf.2.1 (fit_bk hf) old s0 h0 new hn s0 rfl
  have hb : ¬ Bk (absolute e.cwd pth) q := by rintro ⟨n, rfl⟩; exact h4 n rfl
  cases hr : (replaceTagsetCopy I e pth ts au keep s0).res with
  | ok u => rw [hr] at h1; exact h1.2.2.1 q h2 h3 hb
  | throw x => rw [hr] at h1; exact h1.2.1 q h2 h3 hb
  | ub u => rw [hr] at h1; exact h1.2.1 q h2 h3 hb

/-- **C190**, as far as it holds for the replacing of tags: on one file system, whenever the power fails the file has all of the old contents or a beginning of the new, and all of the
old as long as it has not been replaced; and files other than it, its backups and the temporary one are as they were.

Missing: that all of the new contents are there, and the backups (`C190_refuted`). -/
theorem C190_partial (I : TagI τ) (e : Env) (pth : Path) (ts : List τ) (au : ApplyUnsync) (keep : Bool) (s0 : FS) (old : Bytes)
    (hf : Fit e pth) (h0 : s0.get (absolute e.cwd pth) = some old) (hd : e.rename ≠ .crossDevice) :
    ∀ s, s ∈ (replaceTagsetCopy I e pth ts au keep s0).seen ∨ s = (replaceTagsetCopy I e pth ts au keep s0).fs → ∀ c, AfterPowerLoss s0 s c →
      (c.get (absolute e.cwd pth) = some old ∨ ∃ new ts' k, Tagset.copyContents I (some old) au ts = .ok (new, ts') ∧
        s.get (absolute e.cwd pth) = some new ∧ c.get (absolute e.cwd pth) = some (new.take k)) ∧
      (s.get (absolute e.cwd pth) = some old → c.get (absolute e.cwd pth) = some old) ∧
      ∀ q, q ≠ absolute e.cwd pth → q ≠ e.tmp → (∀ n, q ≠ absolute e.cwd pth ++ dot :: dec n) → c.get q = s0.get q := by
  intro s hs c hc
  have there := replace_there I e pth ts au keep hf.1 hf.2.1 (fit_bk hf) hd old s0 h0 s0 rfl
  have hst : s.get (absolute e.cwd pth) = some old ∨
      ∃ new ts', Tagset.copyContents I (some old) au ts = .ok (new, ts') ∧ s.get (absolute e.cwd pth) = some new := by
    rcases hs with hs | rfl
    · exact there.1 s hs
    · exact there.2
  have hold : s.get (absolute e.cwd pth) = some old → c.get (absolute e.cwd pth) = some old := by
    intro h1
    rcases hc (absolute e.cwd pth) with h2 | ⟨d, k, h2, h3, _⟩
    · rw [h2, h1]
    · rw [h1] at h2; cases h2; exact absurd h0 h3
  refine ⟨?_, hold, fun q h1 h2 h3 => ?_⟩
  · rcases hst with h1 | ⟨new, ts', h1, h2⟩
    · exact .inl (hold h1)
    · refine .inr ?_
      rcases hc (absolute e.cwd pth) with h3 | ⟨d, k, h3, _, h4⟩
      · exact ⟨new, ts', new.length, h1, h2, by rw [h3, h2, List.take_length]⟩
      · rw [h2] at h3; cases h3; exact ⟨new, ts', k, h1, h2, h4⟩
  · have hsame : s.get q = s0.get q := by
      rcases hs with hs | rfl
      · exact C59_others I e pth ts au keep s0 old hf h0 s hs q h1 h2 h3
      · exact others_at_end I e pth ts au keep s0 old hf h0 q h1 h2 h3
    rcases hc q with h4 | ⟨d, k, h4, h5, _⟩
    · rw [h4, hsame]
    · rw [hsame] at h4; exact absurd h4 h5

/-- **C190**, as far as it holds for the replacing of tags that fails: on one file system, when it has thrown, the file has the old contents whenever the power fails after.

Missing: as for `C190_partial`. -/
theorem C190_failed_partial (I : TagI τ) (e : Env) (pth : Path) (ts : List τ) (au : ApplyUnsync) (keep : Bool) (s0 : FS) (old : Bytes) (x : Exc)
    (hf : Fit e pth) (h0 : s0.get (absolute e.cwd pth) = some old) (hd : e.rename ≠ .crossDevice)
    (hr : (replaceTagsetCopy I e pth ts au keep s0).res = .throw x) (c : FS) (hc : AfterPowerLoss s0 (replaceTagsetCopy I e pth ts au keep s0).fs c) :
    c.get (absolute e.cwd pth) = some old :=
  (C190_partial I e pth ts au keep s0 old hf h0 hd _ (.inr rfl) c hc).2.1 (C58_partial I e pth ts au keep s0 old x hf h0 hd hr)

/-- **C190**, as far as it holds for `rename`: files that are not to be renamed, and all files unless `--rename` is given, are as they were after a power failure.

Missing: files that `--rename` removes (`C190_refuted_rename`). -/
theorem C190_rename_partial (file : Path → Path) (P : Path → Bytes → Res Bytes) (o : Rename.Options) (vs : List Rename.Visit) (before : FS)
    (p : Path) (d : Bytes) (hp : before.get p = some d) (hk : o.rename = false ∨ ∀ v ∈ vs, file v.pth ≠ p) :
    ∀ s, s ∈ (Rename.run file P o vs before).seen ∨ s = (Rename.run file P o vs before).fs → ∀ c, AfterPowerLoss before s c → c.get p = some d := by
  intro s hs c hc
  have h1 := C44_others_kept file P o vs before p d hp hk s hs
  rcases hc p with h2 | ⟨d', k, h2, h3, _⟩
  · rw [h2, h1]
  · rw [h1] at h2; cases h2; exact absurd hp h3

/-- The state of `C190_refuted` meets the hypotheses of `C190_partial`. -/
example : Fit (calm .done) fileF ∧ FS.get [(fileF, [1, 2])] (absolute (calm .done).cwd fileF) = some [1, 2] ∧ (calm .done).rename ≠ .crossDevice ∧
    AfterPowerLoss [(fileF, [1, 2])] [(fileF, [3, 1, 2])] [(fileF, [3])] := by
  refine ⟨calm_fit .done .none, by decide, by decide, fun q => ?_⟩
  by_cases h : q = fileF
  · subst h; exact .inr ⟨[3, 1, 2], 1, by decide, by decide, by decide⟩
  · exact .inl (by simp [FS.get, Ne.symm h])

end Scribbu.Props
