import Verif.Proofs.Backup
import Verif.Proofs.FileSys

/-! # C35: names of backups -/

namespace Scribbu.Props
open Scribbu Path Backup

/-- An absolute path of a file: a directory (without a trailing separator; the root is empty), one separator, and a name. -/
def PlainPath (p : Path) : Prop :=
  ∃ d n, p = d ++ slash :: n ∧ n ≠ [] ∧ (∀ b ∈ n, b ≠ slash) ∧ (d = [] ∨ (d.head? = some slash ∧ d.getLast? ≠ some slash))

/-- **C35** as claimed: whatever there is in the directory, the backup of an existing file gets a name that is not in use. -/
def C35_claim : Prop := ∀ (fs : FS) (cwd pth : Path), PlainPath (absolute cwd pth) → fs.get (absolute cwd pth) ≠ none →
  (backupName fs cwd pth).safe ∧ ∀ cp, backupName fs cwd pth = .ok cp → fs.get (absolute cwd cp) = none

/-- The bytes of a string. -/
def str (s : List Char) : Bytes := s.map fun c => UInt8.ofNat c.toNat

/-- In the directory `/d`, which holds `f` and `f.1`, the backup of `f` is to be `f.1`. -/
theorem C35_refuted : ¬ C35_claim := by
  intro h
  have h1 := (h [(str ['/', 'd', '/', 'f'], []), (str ['/', 'd', '/', 'f', '.', '1'], [])] (str ['/', 'd']) (str ['f'])
    ⟨str ['/', 'd'], str ['f'], by decide, by decide, by decide, by decide⟩ (by decide)).2
    (str ['/', 'd', '/', 'f', '.', '1']) (by decide)
  revert h1
  decide

/-- Next to a file called `f.2147483647`, naming the backup of `/d/f` overflows. -/
theorem C35_refuted_overflow :
    backupName [(str ['/', 'd', '/', 'f'], []),
      (str ['/', 'd', '/', 'f', '.', '2', '1', '4', '7', '4', '8', '3', '6', '4', '7'], [])] [] (str ['/', 'd', '/', 'f']) =
      .ub .overflow := by
  decide

theorem plain_fileName {d n : Path} (hn : ∀ b ∈ n, b ≠ slash) : fileName (d ++ slash :: n) = n := by
  rw [fileName_slash]
  have := fileName_append [] n hn
  simpa [fileName] using this

theorem plain_parent {d n : Path} (hn : ∀ b ∈ n, b ≠ slash) (hd : d.getLast? ≠ some slash) :
    parent (d ++ slash :: n) = if d = [] then [slash] else d := by
  rw [show d ++ slash :: n = (d ++ [slash]) ++ n by simp, parent_append _ _ hn]
  unfold parent
  simp only [List.reverse_append, List.reverse_cons, List.reverse_nil, List.nil_append, List.singleton_append]
  rw [List.dropWhile_cons_of_neg (by simp), List.dropWhile_cons_of_pos (by simp)]
  have hx : d.reverse.dropWhile (fun x : Byte => decide (x = slash)) = d.reverse := by
    cases hr : d.reverse with
    | nil => rfl
    | cons y ys =>
      rw [List.dropWhile_cons_of_neg]
      rw [List.getLast?_eq_head?_reverse, hr] at hd
      simpa using hd
  rw [hx]
  by_cases h : d = []
  · subst h; simp
  · rw [if_neg (by simpa using h), if_neg h, List.reverse_reverse]

/-- The form of the path. -/
theorem plain_facts {p : Path} (h : PlainPath p) (s : Bytes) :
    isAbs p = true ∧ fileName p ≠ [] ∧ isAbs (parent p) = true ∧ join (parent p) (fileName p ++ s) = p ++ s := by
  obtain ⟨d, n, rfl, h1, h2, h3⟩ := h
  have hl : d.getLast? ≠ some slash := by
    rcases h3 with rfl | h3
    · simp
    · exact h3.2
  rw [plain_fileName h2, plain_parent h2 hl]
  have hna : isAbs (n ++ s) = false := by
    cases n with
    | nil => exact absurd rfl h1
    | cons x xs =>
      have := h2 x (by simp)
      simp [isAbs, this]
  rcases h3 with rfl | ⟨h3, h4⟩
  · refine ⟨by simp [isAbs], h1, by simp [isAbs], ?_⟩
    simp [join, hna]
  · have hd : d ≠ [] := by rintro rfl; simp at h3
    refine ⟨?_, h1, by simp [isAbs, hd, h3], ?_⟩
    · cases d with
      | nil => exact absurd rfl hd
      | cons x xs => simpa [isAbs] using h3
    · simp [join, hna, hd, h4]

/-- A path that is not absolute always gets the suffix 1, whatever there is in the directory. -/
theorem C35_relative (fs : FS) (cwd pth : Path) (hp : PlainPath (absolute cwd pth)) (hr : isAbs pth = false) :
    backupName fs cwd pth = .ok (absolute cwd pth ++ dot :: dec 1) := by
  obtain ⟨h1, h2, h3, h4⟩ := plain_facts hp [dot, 49]
  have hne : pth ≠ [] := by
    rintro rfl
    rw [fileName_absolute] at h2
    exact h2 rfl
  unfold backupName
  dsimp only
  rw [if_pos, ← List.append_assoc, stem_extension, ← fileName_absolute cwd pth, h4]
  · rw [show dec 1 = [49] by decide +kernel]
  · rw [List.filter_eq_nil_iff]
    intro q _ hq
    simp only [Bool.and_eq_true, decide_eq_true_eq] at hq
    have ha : isAbs q = true := isAbs_parent (by rw [hq.1]; exact h3)
    obtain ⟨ds, rfl, -⟩ := (matches_iff _ _).1 hq.2
    cases pth with
    | nil => exact hne rfl
    | cons x xs => simp only [isAbs, List.cons_append, List.head?_cons] at ha hr; simp_all

/-- The part of C35 that holds: the path is absolute, and no number in use is too large. The name is the path, a dot and a number
larger than all numbers in use. -/
theorem C35_partial (fs : FS) (cwd pth : Path) (hp : PlainPath pth)
    (hb : ∀ ds, ds ≠ [] → ds.all isDigit = true → fs.get (pth ++ dot :: ds) ≠ none → digits ds < 2 ^ 31 - 1) :
    ∃ n, backupName fs cwd pth = .ok (pth ++ dot :: dec n) ∧ fs.get (pth ++ dot :: dec n) = none ∧
      (∀ ds, ds ≠ [] → ds.all isDigit = true → fs.get (pth ++ dot :: ds) ≠ none → digits ds < n) ∧
      (n = 1 ∨ ∃ ds, ds ≠ [] ∧ ds.all isDigit = true ∧ fs.get (pth ++ dot :: ds) ≠ none ∧ digits ds + 1 = n) := by
  obtain ⟨h1, h2, h3, h4⟩ := plain_facts hp [dot, 49]
  have key : ∃ n, backupName fs cwd pth = .ok (pth ++ dot :: dec n) ∧
      (∀ ds, ds ≠ [] → ds.all isDigit = true → fs.get (pth ++ dot :: ds) ≠ none → digits ds < n) ∧
      (n = 1 ∨ ∃ ds, ds ≠ [] ∧ ds.all isDigit = true ∧ fs.get (pth ++ dot :: ds) ≠ none ∧ digits ds + 1 = n) := by
    unfold backupName
    dsimp only
    rw [absolute_abs h1]
    generalize he : (fs.map (·.1)).filter (fun q => decide (parent q = parent pth) && matchesName pth q) = es
    have hmem : ∀ ds, ds ≠ [] → ds.all isDigit = true → fs.get (pth ++ dot :: ds) ≠ none → pth ++ dot :: ds ∈ es := by
      intro ds hd1 hd2 hd3
      rw [← he, List.mem_filter]
      refine ⟨FS.get_mem hd3, ?_⟩
      simp only [Bool.and_eq_true, decide_eq_true_eq]
      exact ⟨parent_append _ _ (suffix_noslash hd2), (matches_iff _ _).2 ⟨ds, rfl, hd1, hd2⟩⟩
    have hes : ∀ q ∈ es, ∃ ds, q = pth ++ dot :: ds ∧ ds ≠ [] ∧ ds.all isDigit = true ∧ fs.get q ≠ none := by
      intro q hq
      rw [← he, List.mem_filter] at hq
      obtain ⟨hq1, hq2⟩ := hq
      simp only [Bool.and_eq_true] at hq2
      obtain ⟨ds, e1, e2, e3⟩ := (matches_iff _ _).1 hq2.2
      exact ⟨ds, e1, e2, e3, FS.mem_get hq1⟩
    by_cases hnil : es = []
    · refine ⟨1, ?_, ?_, .inl rfl⟩
      · rw [if_pos hnil, ← List.append_assoc, stem_extension, h4, show dec 1 = [49] by decide +kernel]
      · intro ds hd1 hd2 hd3
        have := hmem ds hd1 hd2 hd3
        rw [hnil] at this
        simp at this
    · rw [if_neg hnil]
      have hs : ∀ q ∈ es, ∃ ds, q = pth ++ dot :: ds ∧ suffix q = .ok (digits ds) ∧ ds ≠ [] ∧ ds.all isDigit = true ∧
          fs.get (pth ++ dot :: ds) ≠ none ∧ digits ds < 2 ^ 31 - 1 := by
        intro q hq
        obtain ⟨ds, rfl, e2, e3, e4⟩ := hes q hq
        have hlt := hb ds e2 e3 e4
        refine ⟨ds, rfl, ?_, e2, e3, e4, hlt⟩
        rw [suffix_eq pth ds h2 e3 e2]
        unfold atoi
        rw [if_pos (by omega)]
      obtain ⟨m, hm⟩ := largest_ok (ps := es) fun q hq => let ⟨ds, _, e, _⟩ := hs q hq; ⟨_, e⟩
      obtain ⟨q, hq, hqm⟩ := largest_mem hnil hm
      obtain ⟨ds, rfl, e1, e2, e3, e4, e5⟩ := hs q hq
      rw [e1] at hqm
      cases hqm
      refine ⟨digits ds + 1, ?_, ?_, .inr ⟨ds, e2, e3, e4, rfl⟩⟩
      · rw [hm]
        simp only [Res.ok_bind]
        rw [if_pos (by omega)]
      · intro ds' hd1 hd2 hd3
        obtain ⟨n, hn1, hn2⟩ := largest_le hm _ (hmem ds' hd1 hd2 hd3)
        rw [suffix_eq pth ds' h2 hd2 hd1] at hn1
        unfold atoi at hn1
        split at hn1
        · cases hn1; omega
        · cases hn1
  obtain ⟨n, k1, k2, k3⟩ := key
  refine ⟨n, k1, ?_, k2, k3⟩
  obtain ⟨d1, d2, d3⟩ := dec_digits n
  by_cases hg : fs.get (pth ++ dot :: dec n) = none
  · exact hg
  · have := k2 (dec n) d2 d1 hg
    omega

/-- The hypotheses are met: next to `/d/f` there are `f.9` and `f.10`; the name is `f.11`. -/
example : backupName [(str ['/', 'd', '/', 'f', '.', '9'], []), (str ['/', 'd', '/', 'f'], [1]), (str ['/', 'd', '/', 'f', '.', '1', '0'], []),
    (str ['/', 'd', '/', 'f', '.', 'x'], [])] [] (str ['/', 'd', '/', 'f']) = .ok (str ['/', 'd', '/', 'f', '.', '1', '1']) := by
  decide +kernel
example : PlainPath (str ['/', 'd', '/', 'f']) := ⟨str ['/', 'd'], str ['f'], by decide, by decide, by decide, by decide⟩
example : PlainPath (absolute (str ['/', 'd']) (str ['e', '/', 'f'])) :=
  ⟨str ['/', 'd', '/', 'e'], str ['f'], by decide, by decide, by decide, by decide⟩

/-- Whatever the path, the name is that of the file, a dot and a number. -/
theorem backupName_form {fs : FS} {cwd pth cp : Path} (hp : PlainPath (absolute cwd pth)) (h : backupName fs cwd pth = .ok cp) :
    ∃ n, cp = absolute cwd pth ++ dot :: dec n := by
  cases ha : isAbs pth with
  | false =>
    rw [C35_relative fs cwd pth hp ha] at h
    cases h
    exact ⟨1, rfl⟩
  | true =>
    rw [absolute_abs ha] at hp ⊢
    obtain ⟨h1, h2, h3, h4⟩ := plain_facts hp [dot, 49]
    unfold backupName at h
    dsimp only at h
    rw [absolute_abs ha] at h
    split at h
    · rw [← List.append_assoc, stem_extension, h4] at h
      cases h
      exact ⟨1, by rw [show dec 1 = [49] by decide +kernel]⟩
    · rw [Res.bind_eq_ok] at h
      obtain ⟨n, -, h5⟩ := h
      split at h5
      · cases h5; exact ⟨_, rfl⟩
      · cases h5

end Scribbu.Props
