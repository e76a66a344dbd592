import Verif.Proofs.Replace
import Verif.Props.Padding
import Verif.Props.Tag23

/-! # C34, C58, C59 and C60: the files `replace_tagset_copy` goes through -/

namespace Scribbu.Props
open Scribbu Path Backup Replace FM

/-- The situation: the path of the file is an ordinary one, and `tmpnam` has come up with a name that is neither the file's nor
one of a backup of the file. -/
def Fit (e : Env) (pth : Path) : Prop :=
  PlainPath (absolute e.cwd pth) ∧ e.tmp ≠ absolute e.cwd pth ∧ ∀ n, e.tmp ≠ absolute e.cwd pth ++ dot :: dec n

theorem fit_bk {e : Env} {pth : Path} (h : Fit e pth) : ¬ Bk (absolute e.cwd pth) e.tmp := by
  rintro ⟨n, hn⟩; exact h.2.2 n hn

/-- **C34**: whatever fails and wherever the process dies, the file is complete, with the old or with the new
contents, or there is a complete copy of the old one beside it. -/
theorem C34_crash (I : TagI τ) (e : Env) (pth : Path) (ts : List τ) (au : ApplyUnsync) (keep : Bool) (s0 : FS) (old : Bytes)
    (hf : Fit e pth) (h0 : s0.get (absolute e.cwd pth) = some old) :
    ∀ s, s ∈ (replaceTagsetCopy I e pth ts au keep s0).seen ∨ s = (replaceTagsetCopy I e pth ts au keep s0).fs →
      s.get (absolute e.cwd pth) = some old ∨
      (∃ new ts', Tagset.copyContents I (some old) au ts = .ok (new, ts') ∧ s.get (absolute e.cwd pth) = some new) ∨
      ∃ n, s.get (absolute e.cwd pth ++ dot :: dec n) = some old := by
  have key : ∃ new, (∀ b ts', Tagset.copyContents I (some old) au ts = .ok (b, ts') → new = b) ∧
      ((∃ ts', Tagset.copyContents I (some old) au ts = .ok (new, ts')) ∨ new = old) := by
    cases hc : Tagset.copyContents I (some old) au ts with
    | ok r => exact ⟨r.1, by rintro b ts' h; cases h; rfl, .inl ⟨r.2, rfl⟩⟩
    | throw x => exact ⟨old, by simp, .inr rfl⟩
    | ub u => exact ⟨old, by simp, .inr rfl⟩
  obtain ⟨new, hn, hnew⟩ := key
  obtain ⟨h1, h2⟩ := replace_holds I e pth ts au keep hf.1 hf.2.1 (fit_bk hf) old s0 h0 new hn s0 rfl
  have hk : ∀ s, Kept (absolute e.cwd pth) old new s → s.get (absolute e.cwd pth) = some old ∨
      (∃ new ts', Tagset.copyContents I (some old) au ts = .ok (new, ts') ∧ s.get (absolute e.cwd pth) = some new) ∨
      ∃ n, s.get (absolute e.cwd pth ++ dot :: dec n) = some old := by
    rintro s (h | h | ⟨q, ⟨n, rfl⟩, h⟩)
    · exact .inl h
    · rcases hnew with ⟨ts', hx⟩ | rfl
      · exact .inr (.inl ⟨new, ts', hx, h⟩)
      · exact .inl h
    · exact .inr (.inr ⟨n, h⟩)
  rintro s (hs | rfl)
  · exact hk s (h1 s hs).1
  · revert h2
    cases (replaceTagsetCopy I e pth ts au keep s0).res with
    | ok u => intro h2; exact hk _ (.inr (.inl h2.2.1))
    | throw x => intro h2; exact hk _ h2.1
    | ub u => intro h2; exact hk _ h2.1

/-- What a call that returns has done: the file has the new contents and, if a backup was asked for, the backup the old ones. -/
theorem C34_done (I : TagI τ) (e : Env) (pth : Path) (ts : List τ) (au : ApplyUnsync) (keep : Bool) (s0 : FS) (old : Bytes)
    (hf : Fit e pth) (h0 : s0.get (absolute e.cwd pth) = some old)
    (hr : (replaceTagsetCopy I e pth ts au keep s0).res = .ok ()) :
    ∃ new ts', Tagset.copyContents I (some old) au ts = .ok (new, ts') ∧
      (replaceTagsetCopy I e pth ts au keep s0).fs.get (absolute e.cwd pth) = some new := by
  cases hc : Tagset.copyContents I (some old) au ts with
  | ok r =>
    obtain ⟨-, h2⟩ := replace_holds I e pth ts au keep hf.1 hf.2.1 (fit_bk hf) old s0 h0 r.1 (by rintro b ts' h; rw [hc] at h; cases h; rfl) s0 rfl
    rw [hr] at h2
    exact ⟨r.1, r.2, rfl, h2.2.1⟩
  | throw x =>
    obtain ⟨-, h2⟩ := replace_holds I e pth ts au keep hf.1 hf.2.1 (fit_bk hf) old s0 h0 old (by rintro b ts' h; rw [hc] at h; cases h) s0 rfl
    rw [hr] at h2
    obtain ⟨⟨ts', h3⟩, -⟩ := h2
    rw [hc] at h3
    cases h3
  | ub u =>
    obtain ⟨-, h2⟩ := replace_holds I e pth ts au keep hf.1 hf.2.1 (fit_bk hf) old s0 h0 old (by rintro b ts' h; rw [hc] at h; cases h) s0 rfl
    rw [hr] at h2
    obtain ⟨⟨ts', h3⟩, -⟩ := h2
    rw [hc] at h3
    cases h3

/-- **C60**: if a backup is asked for and the call returns, there is a backup and it is complete. -/
theorem C60_backup (I : TagI τ) (e : Env) (pth : Path) (ts : List τ) (au : ApplyUnsync) (s0 : FS) (old : Bytes)
    (hf : Fit e pth) (h0 : s0.get (absolute e.cwd pth) = some old)
    (hr : (replaceTagsetCopy I e pth ts au true s0).res = .ok ()) :
    ∃ n, (replaceTagsetCopy I e pth ts au true s0).fs.get (absolute e.cwd pth ++ dot :: dec n) = some old := by
  obtain ⟨new, ts', hc, -⟩ := C34_done I e pth ts au true s0 old hf h0 hr
  obtain ⟨-, h2⟩ := replace_holds I e pth ts au true hf.1 hf.2.1 (fit_bk hf) old s0 h0 new (by rintro b ts' h; rw [hc] at h; cases h; rfl) s0 rfl
  rw [hr] at h2
  obtain ⟨q, ⟨n, rfl⟩, -, h3⟩ := h2.2.2.2.1 rfl
  exact ⟨n, h3⟩

/-- If moreover the path is absolute and no backup has too large a number, the backup is a new file, numbered after all others,
and every earlier backup is still there, as long as the temporary file can be moved into place. -/
theorem C60_new (I : TagI τ) (e : Env) (pth : Path) (ts : List τ) (au : ApplyUnsync) (s0 : FS) (old : Bytes)
    (hf : Fit e pth) (ha : isAbs pth = true) (h0 : s0.get pth = some old) (hd : e.rename = .done)
    (htd : ∀ ds, ds.all isDigit = true → e.tmp ≠ pth ++ dot :: ds)
    (hb : ∀ ds, ds ≠ [] → ds.all isDigit = true → s0.get (pth ++ dot :: ds) ≠ none → digits ds < 2 ^ 31 - 1)
    (hr : (replaceTagsetCopy I e pth ts au true s0).res = .ok ()) :
    ∃ n, s0.get (pth ++ dot :: dec n) = none ∧
      (replaceTagsetCopy I e pth ts au true s0).fs.get (pth ++ dot :: dec n) = some old ∧
      (∀ ds, ds ≠ [] → ds.all isDigit = true → s0.get (pth ++ dot :: ds) ≠ none → digits ds < n) ∧
      ∀ m, m ≠ n → (replaceTagsetCopy I e pth ts au true s0).fs.get (pth ++ dot :: dec m) = s0.get (pth ++ dot :: dec m) := by
  have habs : absolute e.cwd pth = pth := absolute_abs ha
  rw [← habs] at h0
  obtain ⟨new, ts', hc, -⟩ := C34_done I e pth ts au true s0 old hf h0 hr
  obtain ⟨-, h2⟩ := replace_holds I e pth ts au true hf.1 hf.2.1 (fit_bk hf) old s0 h0 new (by rintro b ts' h; rw [hc] at h; cases h; rfl) s0 rfl
  rw [hr] at h2
  rw [habs] at h2
  obtain ⟨q, -, hq, hq2⟩ := h2.2.2.2.1 rfl
  have hput : ∀ ds, ds.all isDigit = true → (s0.put e.tmp new).get (pth ++ dot :: ds) = s0.get (pth ++ dot :: ds) :=
    fun ds h => FS.get_put_ne _ _ (Ne.symm (htd ds h))
  obtain ⟨n, k1, k2, k3, -⟩ := C35_partial (s0.put e.tmp new) e.cwd pth (by have := hf.1; rwa [habs] at this) (by
    intro ds h1 h3 h4
    rw [hput ds h3] at h4
    exact hb ds h1 h3 h4)
  rw [hq] at k1
  cases k1
  refine ⟨n, by rw [← hput _ (dec_digits n).1]; exact k2, hq2, ?_, ?_⟩
  · intro ds h1 h3 h4
    exact k3 ds h1 h3 (by rw [hput ds h3]; exact h4)
  · intro m hm
    refine (h2.2.2.2.2 hd).2 _ (bk_ne ⟨m, rfl⟩) (fun h => htd _ (dec_digits m).1 h.symm) ?_
    intro _ h
    rw [hq] at h
    have h3 : dec n = dec m := by simpa using h
    have h4 := (dec_digits n).2.2
    rw [h3, (dec_digits m).2.2] at h4
    exact hm h4

/-- **C58** as claimed: a call that throws leaves the file as it was. -/
def C58_claim : Prop := ∀ (z : Zlib) (e : Env) (pth : Path) (ts : List AnyTag) (au : ApplyUnsync) (keep : Bool) (s0 : FS)
  (old : Bytes) (x : Exc), Fit e pth → s0.get (absolute e.cwd pth) = some old →
  (replaceTagsetCopy (anyI z) e pth ts au keep s0).res = .throw x →
  (replaceTagsetCopy (anyI z) e pth ts au keep s0).fs.get (absolute e.cwd pth) = some old

/-- `/d/f`. -/
def fileF : Path := str ['/', 'd', '/', 'f']

/-- The temporary file is `/t`; nothing fails. -/
def calm (r : FM.Rename) : Env := ⟨[], str ['/', 't'], [], .none, .none, false, r, .none, false, false, .none, false, .none⟩

theorem calm_fit (r : FM.Rename) (x : Fault) : Fit { calm r with copyNew := x } fileF := by
  refine ⟨⟨str ['/', 'd'], str ['f'], rfl, by decide, by decide, by decide⟩, by simp [calm]; decide, ?_⟩
  intro n h
  have := congrArg List.length h
  have h2 : 0 < (dec n).length := List.length_pos_iff.2 (dec_digits n).2.1
  simp [calm, fileF, str, absolute, join, isAbs, slash] at this

/-- The new contents have to be copied to another file system, and after three bytes the disk is full. The
file now consists of these three bytes; the attempt to put the old contents back fails because there is a file. -/
theorem C58_refuted : ¬ C58_claim := by
  intro h
  have := h zId { calm .crossDevice with copyNew := .after 3 } fileF [bare 0] .never false [(fileF, [1, 2])] [1, 2] .fsError
    (calm_fit _ _) (by decide) (by decide +kernel)
  revert this
  decide +kernel

/-- What is left of the file in that case. -/
example : (replaceTagsetCopy (anyI zId) { calm .crossDevice with copyNew := .after 3 } fileF [bare 0] .never false [(fileF, [1, 2])]).fs.get
    fileF = some [0x49, 0x44, 0x33] := by decide +kernel

/-- The part of C58 that holds: the temporary file is on the file system of the file. -/
theorem C58_partial (I : TagI τ) (e : Env) (pth : Path) (ts : List τ) (au : ApplyUnsync) (keep : Bool) (s0 : FS) (old : Bytes) (x : Exc)
    (hf : Fit e pth) (h0 : s0.get (absolute e.cwd pth) = some old) (hd : e.rename ≠ .crossDevice)
    (hr : (replaceTagsetCopy I e pth ts au keep s0).res = .throw x) :
    (replaceTagsetCopy I e pth ts au keep s0).fs.get (absolute e.cwd pth) = some old := by
  have key : ∃ new, ∀ b ts', Tagset.copyContents I (some old) au ts = .ok (b, ts') → new = b := by
    cases hc : Tagset.copyContents I (some old) au ts with
    | ok r => exact ⟨r.1, by rintro b ts' h; cases h; rfl⟩
    | throw x => exact ⟨old, by simp⟩
    | ub u => exact ⟨old, by simp⟩
  obtain ⟨new, hn⟩ := key
  obtain ⟨-, h2⟩ := replace_holds I e pth ts au keep hf.1 hf.2.1 (fit_bk hf) old s0 h0 new hn s0 rfl
  rw [hr] at h2
  exact h2.2.2 hd

example : (replaceTagsetCopy (anyI zId) (calm .failed) fileF [bare 0] .never true [(fileF, [1, 2])]).res = .throw .fsError := by
  decide +kernel

/-- **C59** as claimed: a call that returns has changed no file but the one it was given and, if a backup was asked for, one backup. -/
def C59_claim : Prop := ∀ (z : Zlib) (e : Env) (pth : Path) (ts : List AnyTag) (au : ApplyUnsync) (keep : Bool) (s0 : FS)
  (old : Bytes), Fit e pth → s0.get (absolute e.cwd pth) = some old → s0.get e.tmp = none →
  (replaceTagsetCopy (anyI z) e pth ts au keep s0).res = .ok () →
  ∃ n, ∀ q, q ≠ absolute e.cwd pth → (keep = true → q ≠ absolute e.cwd pth ++ dot :: dec n) →
    (replaceTagsetCopy (anyI z) e pth ts au keep s0).fs.get q = s0.get q

/-- Between file systems, a backup is left behind that was not asked for. -/
theorem C59_refuted : ¬ C59_claim := by
  intro h
  obtain ⟨n, h1⟩ := h zId (calm .crossDevice) fileF [bare 0] .never false [(fileF, [1, 2])] [1, 2]
    (calm_fit .crossDevice .none) (by decide) (by decide) (by decide +kernel)
  have := h1 (fileF ++ [dot, 49]) (by decide) (by simp)
  revert this
  decide +kernel

/-- And if one was asked for, the temporary file stays. -/
theorem C59_refuted_tmp : (replaceTagsetCopy (anyI zId) (calm .crossDevice) fileF [bare 0] .never true [(fileF, [1, 2])]).res = .ok () ∧
    (replaceTagsetCopy (anyI zId) (calm .crossDevice) fileF [bare 0] .never true [(fileF, [1, 2])]).fs.get (str ['/', 't']) =
      some [0x49, 0x44, 0x33, 3, 0, 0, 0, 0, 0, 0, 1, 2] := by
  decide +kernel

/-- The part of C59 that holds: the temporary file is on the file system of the file. -/
theorem C59_partial (I : TagI τ) (e : Env) (pth : Path) (ts : List τ) (au : ApplyUnsync) (keep : Bool) (s0 : FS) (old : Bytes)
    (hf : Fit e pth) (h0 : s0.get (absolute e.cwd pth) = some old) (ht : s0.get e.tmp = none) (hd : e.rename = .done)
    (hr : (replaceTagsetCopy I e pth ts au keep s0).res = .ok ()) :
    ∃ n, ∀ q, q ≠ absolute e.cwd pth → (keep = true → q ≠ absolute e.cwd pth ++ dot :: dec n) →
      (replaceTagsetCopy I e pth ts au keep s0).fs.get q = s0.get q := by
  obtain ⟨new, ts', hc, -⟩ := C34_done I e pth ts au keep s0 old hf h0 hr
  obtain ⟨-, h2⟩ := replace_holds I e pth ts au keep hf.1 hf.2.1 (fit_bk hf) old s0 h0 new (by rintro b ts' h; rw [hc] at h; cases h; rfl) s0 rfl
  rw [hr] at h2
  obtain ⟨-, -, -, h3, h4⟩ := h2
  obtain ⟨h5, h6⟩ := h4 hd
  have hn : ∃ n, keep = true → backupName (s0.put e.tmp new) e.cwd pth = .ok (absolute e.cwd pth ++ dot :: dec n) := by
    cases keep with
    | false => exact ⟨0, by simp⟩
    | true =>
      obtain ⟨q, ⟨n, rfl⟩, h7, -⟩ := h3 rfl
      exact ⟨n, fun _ => h7⟩
  obtain ⟨n, hn⟩ := hn
  refine ⟨n, ?_⟩
  intro q h7 h8
  by_cases hq : q = e.tmp
  · rw [hq, h5, ht]
  · refine h6 q h7 hq ?_
    intro hk h9
    rw [hn hk] at h9
    cases h9
    exact h8 hk rfl

/-- Wherever the process dies, files that are neither the file, nor a backup of it, nor the temporary file are as they were. -/
theorem C59_others (I : TagI τ) (e : Env) (pth : Path) (ts : List τ) (au : ApplyUnsync) (keep : Bool) (s0 : FS) (old : Bytes)
    (hf : Fit e pth) (h0 : s0.get (absolute e.cwd pth) = some old) :
    ∀ s ∈ (replaceTagsetCopy I e pth ts au keep s0).seen, ∀ q, q ≠ absolute e.cwd pth → q ≠ e.tmp →
      (∀ n, q ≠ absolute e.cwd pth ++ dot :: dec n) → s.get q = s0.get q := by
  have key : ∃ new, ∀ b ts', Tagset.copyContents I (some old) au ts = .ok (b, ts') → new = b := by
    cases hc : Tagset.copyContents I (some old) au ts with
    | ok r => exact ⟨r.1, by rintro b ts' h; cases h; rfl⟩
    | throw x => exact ⟨old, by simp⟩
    | ub u => exact ⟨old, by simp⟩
  obtain ⟨new, hn⟩ := key
  obtain ⟨h1, -⟩ := replace_holds I e pth ts au keep hf.1 hf.2.1 (fit_bk hf) old s0 h0 new hn s0 rfl
  intro s hs q h2 h3 h4
  exact (h1 s hs).2 q h2 h3 (by rintro ⟨n, rfl⟩; exact h4 n rfl)

/-- With a path that is not absolute, the backup made before is destroyed: `f.1` held the contents before the last change. -/
theorem C35_refuted_destroyed :
    (replaceTagsetCopy (anyI zId) { calm .done with cwd := str ['/', 'd'] } (str ['f']) [bare 0] .never true
      [(fileF, [1, 2]), (fileF ++ [dot, 49], [7])]).res = .ok () ∧
    (replaceTagsetCopy (anyI zId) { calm .done with cwd := str ['/', 'd'] } (str ['f']) [bare 0] .never true
      [(fileF, [1, 2]), (fileF ++ [dot, 49], [7])]).fs = [(fileF, [0x49, 0x44, 0x33, 3, 0, 0, 0, 0, 0, 0, 1, 2]), (fileF ++ [dot, 49], [1, 2])] := by
  decide +kernel

/-- The hypotheses of the theorems are met, and the states passed through are many: the new file and the backup grow byte by byte. -/
example : (replaceTagsetCopy (anyI zId) (calm .done) fileF [bare 0] .never true [(fileF, [1, 2]), (fileF ++ [dot, 49], [7])]).res = .ok () ∧
    (replaceTagsetCopy (anyI zId) (calm .done) fileF [bare 0] .never true [(fileF, [1, 2]), (fileF ++ [dot, 49], [7])]).seen.length = 17 ∧
    (replaceTagsetCopy (anyI zId) (calm .done) fileF [bare 0] .never true [(fileF, [1, 2]), (fileF ++ [dot, 49], [7])]).fs =
      [(fileF, [0x49, 0x44, 0x33, 3, 0, 0, 0, 0, 0, 0, 1, 2]), (fileF ++ [dot, 50], [1, 2]), (fileF ++ [dot, 49], [7])] := by
  decide +kernel

end Scribbu.Props
