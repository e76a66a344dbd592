import Verif.Proofs.Rename

/-! # `scribbu rename`: C44, C66-C70 -/

namespace Scribbu.Props
open Rename Path

/-! Samples: `/m/a` holds 1 2 3, `/m/b` holds 4, `/m/c` holds 5. -/

def fileA : Path := [47, 109, 47, 97]
def fileB : Path := [47, 109, 47, 98]
def fileC : Path := [47, 109, 47, 99]
def fileZ : Path := [47, 109, 47, 122]
def music : FS := [(fileA, [1, 2, 3]), (fileB, [4]), (fileC, [5])]
/-- Visited, and nothing fails. -/
def fair (p : Path) : Visit := ⟨p, .none, false⟩
/-- In place, removing the source. -/
def inPlace : Options := ⟨[], false, true⟩

/-! ## C44: nothing is lost -/

/-- Every file there was is still there in full, files that were different are different, and a file is under its old name or,
if sources are to be removed, under the name that the template gave it. -/
def NothingLost (file : Path → Path) (P : Path → Bytes → Res Bytes) (o : Options) (vs : List Visit) (before now : FS) : Prop :=
  ∃ f : Path → Path,
    (∀ p q, before.get p ≠ none → before.get q ≠ none → f p = f q → p = q) ∧
    ∀ p d, before.get p = some d → now.get (f p) = some d ∧
      (f p = p ∨ (o.rename = true ∧ o.dryRun = false ∧
        ∃ v ∈ vs, ∃ name, P v.pth d = .ok name ∧ f p = file (destination o v.pth name)))

/-- C44. At every point of every run, however calls fail, whatever the template comes to and however paths are linked. -/
theorem C44_nothing_lost (file : Path → Path) (P : Path → Bytes → Res Bytes) (o : Options) (vs : List Visit) (before : FS) :
    ∀ now, now ∈ (run file P o vs before).seen ∨ now = (run file P o vs before).fs → NothingLost file P o vs before now := by
  have h : FM.Holds (run file P o vs) (NothingLost file P o vs before) (NothingLost file P o vs before)
      fun _ s => NothingLost file P o vs before s := by
    refine run_holds fun v hv => processFile_holds ?_ ?_
    · rintro s d name c ⟨f, hinj, hf⟩ _ _ _ hb
      refine ⟨f, hinj, fun p e hp => ⟨?_, (hf p e hp).2⟩⟩
      rw [FS.get_put_ne]
      · exact (hf p e hp).1
      · intro hc
        rw [← hc, (hf p e hp).1] at hb
        simp at hb
    · rintro s d name ⟨f, hinj, hf⟩ ha hP hdry hr hb
      have hab : file (destination o v.pth name) ≠ file v.pth := by
        intro hc
        rw [hc, ha] at hb
        simp at hb
      have hfb : ∀ p, before.get p ≠ none → f p ≠ file (destination o v.pth name) := by
        intro p hp hc
        cases hg : before.get p with
        | none => exact hp hg
        | some e =>
          rw [← hc, (hf p e hg).1] at hb
          simp at hb
      refine ⟨fun p => if f p = file v.pth then file (destination o v.pth name) else f p, ?_, ?_⟩
      · intro p q hp hq h
        simp only at h
        split at h <;> split at h
        · rename_i h1 h2
          exact hinj p q hp hq (h1.trans h2.symm)
        · exact absurd h.symm (hfb q hq)
        · exact absurd h (hfb p hp)
        · exact hinj p q hp hq h
      · intro p e hp
        obtain ⟨h1, h2⟩ := hf p e hp
        simp only
        split
        · rename_i hpa
          rw [FS.get_del_ne _ hab, FS.get_put_same]
          rw [hpa, ha] at h1
          cases h1
          exact ⟨rfl, .inr ⟨hr, by simpa using hdry, v, hv, name, hP, rfl⟩⟩
        · rename_i hpa
          rw [FS.get_del_ne _ hpa, FS.get_put_ne _ _ (hfb p (by rw [hp]; simp))]
          exact ⟨h1, h2⟩
  have := h before ⟨id, fun _ _ _ _ h => h, fun p d hp => ⟨hp, .inl rfl⟩⟩
  rintro now (hn | rfl)
  · exact this.1 now hn
  · exact this.2

/-- C44. Files that are not processed, and all files unless sources are to be removed, are under the same name all the time. -/
theorem C44_others_kept (file : Path → Path) (P : Path → Bytes → Res Bytes) (o : Options) (vs : List Visit) (before : FS)
    (p : Path) (d : Bytes) (hp : before.get p = some d) (hk : o.rename = false ∨ ∀ v ∈ vs, file v.pth ≠ p) :
    ∀ now, now ∈ (run file P o vs before).seen ∨ now = (run file P o vs before).fs → now.get p = some d := by
  have h : FM.Holds (run file P o vs) (fun s => s.get p = some d) (fun s => s.get p = some d)
      fun _ s => s.get p = some d := by
    refine run_holds fun v hv => processFile_holds ?_ ?_
    · intro s _ name c hs _ _ _ hb
      rw [FS.get_put_ne]
      · exact hs
      · intro hc
        rw [← hc, hs] at hb
        simp at hb
    · intro s e name hs _ _ _ hr hb
      have hne : p ≠ file v.pth := by
        rcases hk with hk | hk
        · rw [hk] at hr
          simp at hr
        · exact (hk v hv).symm
      rw [FS.get_del_ne _ hne, FS.get_put_ne]
      · exact hs
      · intro hc
        rw [← hc, hs] at hb
        simp at hb
  have := h before hp
  rintro now (hn | rfl)
  · exact this.1 now hn
  · exact this.2

/-- C44. A dry run changes nothing. -/
theorem C44_dry_run (file : Path → Path) (P : Path → Bytes → Res Bytes) (o : Options) (vs : List Visit) (before : FS)
    (h : o.dryRun = true) :
    ∀ now, now ∈ (run file P o vs before).seen ∨ now = (run file P o vs before).fs → now = before := by
  have h : FM.Holds (run file P o vs) (fun s => s = before) (fun s => s = before) fun _ s => s = before := by
    refine run_holds fun v hv => processFile_holds ?_ ?_
    · intro s _ name c _ _ _ hd
      rw [h] at hd
      simp at hd
    · intro s e name _ _ _ hd
      rw [h] at hd
      simp at hd
  have := h before rfl
  rintro now (hn | rfl)
  · exact this.1 now hn
  · exact this.2

/-- Three files; the second is renamed to `z`, through a state where both names exist, and the third collides with the first. -/
example : ∃ s1 s2, (run id (fun p _ => .ok (if p = fileB then [122] else [97])) inPlace [fair fileB, fair fileC] music).seen = [s1, s2, s2.del fileB]
    ∧ s1.get fileZ = some [] ∧ s2.get fileZ = some [4] ∧ s2.get fileB = some [4]
    ∧ (run id (fun p _ => .ok (if p = fileB then [122] else [97])) inPlace [fair fileB, fair fileC] music).res = .throw .fsError
    ∧ (run id (fun p _ => .ok (if p = fileB then [122] else [97])) inPlace [fair fileB, fair fileC] music).fs.get fileA = some [1, 2, 3] := by
  refine ⟨music.put fileZ [], music.put fileZ [4], ?_, ?_, ?_, ?_, ?_, ?_⟩ <;> decide +kernel

/-! ## C66: in place is in the same directory -/

/-- C66. "If specified, copy the output files to this directory, rather than renaming in-place": without `--output`, whatever
the tags say, a file stays in its directory. -/
def C66_claim : Prop := ∀ (o : Options) (pth : Path) (name : Bytes), o.output = [] → parent (destination o pth name) = parent pth

/-- C66 does not hold: for `/m/a`, the artist AC/DC, and the template `%A`. -/
theorem C66_refuted : ¬ C66_claim := by
  intro h
  exact absurd (h inPlace fileA [65, 67, 47, 68, 67] rfl) (by decide +kernel)

/-- C66 does not hold: a tag can name any file there is, as in `/etc/x` or `../../x`, with and without `--output`. -/
theorem C66_refuted_absolute (o : Options) (pth : Path) (target : Path) (h : isAbs target = true) :
    destination o pth target = target := by
  unfold destination join
  rw [if_pos h]

example : destination ⟨fileB, false, true⟩ fileA [47, 101, 116, 99, 47, 120] = [47, 101, 116, 99, 47, 120] := by decide +kernel

/-- C66, where the template comes to a name without '/': the new name has exactly the directory of the old, or the one asked
for, and exactly the file name that the template came to. -/
theorem C66_partial (o : Options) (pth : Path) (name : Bytes) (hn : name ≠ []) (hs : ∀ b ∈ name, b ≠ slash) :
    (o.output = [] → parent (destination o pth name) = parent pth) ∧ fileName (destination o pth name) = name ∧
    (o.output ≠ [] → destination o pth name = join o.output name) := by
  have habs : isAbs name = false := by
    cases name with
    | nil => simp [isAbs]
    | cons c r => simpa [isAbs] using hs c (by simp)
  refine ⟨fun ho => ?_, ?_, fun ho => ?_⟩
  · unfold destination
    rw [if_pos ho]
    exact parent_join pth name hn hs
  · unfold destination
    rw [fileName_join _ _ habs]
    have h := fileName_append [] name hs
    have h0 : fileName [] = [] := rfl
    rwa [h0, List.nil_append] at h
  · unfold destination
    rw [if_neg ho]

example : destination inPlace fileA [122] = fileZ := by decide +kernel

/-! ## C67: one file does not hinder another -/

/-- C67. If nothing fails, a file whose new name is free and wanted by no other file ends up there, whatever the other files
are. -/
def C67_claim : Prop :=
  ∀ (file : Path → Path) (P : Path → Bytes → Res Bytes) (o : Options) (a b : List Visit) (v : Visit) (s : FS) (d name : Bytes),
    (∀ w ∈ a ++ v :: b, w.copy = .none ∧ w.rm = false) →
    (∀ w ∈ a ++ v :: b, s.get (file w.pth) ≠ none) →
    o.dryRun = false → s.get (file v.pth) = some d → P v.pth d = .ok name → elems v.pth ≠ elems (destination o v.pth name) →
    s.get (file (destination o v.pth name)) = none →
    (∀ w ∈ a ++ b, file w.pth ≠ file v.pth ∧ file w.pth ≠ file (destination o v.pth name) ∧
      ∀ e n, P w.pth e = .ok n → file (destination o w.pth n) ≠ file (destination o v.pth name)) →
    (run file P o (a ++ v :: b) s).fs.get (file (destination o v.pth name)) = some d

/-- C67 does not hold: `/m/b` is to be called `a`, but there is an `/m/a`, so `/m/c` is not renamed either. -/
theorem C67_refuted : ¬ C67_claim := by
  intro h
  have := h id (fun p _ => .ok (if p = fileC then [122] else [97])) inPlace [fair fileB] [] (fair fileC) music [5] [122]
    (by decide) (by decide +kernel) rfl (by decide +kernel) (by decide +kernel) (by decide +kernel) (by decide +kernel)
    (by
      intro w hw
      have : w = fair fileB := by simpa using hw
      subst this
      refine ⟨by decide +kernel, by decide +kernel, ?_⟩
      intro e n hn
      have : n = [97] := by
        have h : (Res.ok [97] : Res Bytes) = .ok n := by
          rw [← hn]
          decide +kernel
        injection h with h
        exact h.symm
      subst this
      decide +kernel)
  exact absurd this (by decide +kernel)

/-- C67, where the command ends well: then each file that the template has a name for is under that name, and not under the old
one if sources are to be removed and no other file is put there. A file without the tags that the template needs does not
hinder any. -/
theorem C67_partial (file : Path → Path) (P : Path → Bytes → Res Bytes) (o : Options) (a b : List Visit) (v : Visit) (s : FS)
    (d name : Bytes) (hok : (run file P o (a ++ v :: b) s).res = .ok ()) (hdry : o.dryRun = false)
    (hd : s.get (file v.pth) = some d) (hP : P v.pth d = .ok name) (hne : elems v.pth ≠ elems (destination o v.pth name))
    (hoth : ∀ w ∈ a ++ b, file w.pth ≠ file v.pth ∧ file w.pth ≠ file (destination o v.pth name)) :
    (run file P o (a ++ v :: b) s).fs.get (file (destination o v.pth name)) = some d ∧
    (o.rename = true → (∀ w ∈ b, ∀ e n, P w.pth e = .ok n → file (destination o w.pth n) ≠ file v.pth) →
      (run file P o (a ++ v :: b) s).fs.get (file v.pth) = none) := by
  induction a generalizing s with
  | cons w a ih =>
    rw [List.cons_append] at hok ⊢
    obtain ⟨h1, h2, h3⟩ := run_cons_ok hok
    rw [h3]
    exact ih _ h2 (processFile_keeps h1 hd (hoth w (by simp)).1) fun x hx => hoth x (by simp at hx ⊢; exact .inr hx)
  | nil =>
    obtain ⟨h1, h2, h3⟩ := run_cons_ok hok
    simp only [List.nil_append]
    rw [h3]
    obtain ⟨d', hd', h | ⟨name', hP', h | ⟨_, _, hb, hs⟩⟩⟩ := processFile_ok h1
    · rw [hd] at hd'
      cases hd'
      rw [hP] at h
      exact absurd h.1 (by simp)
    · rw [hd] at hd'
      cases hd'
      rw [hP] at hP'
      cases hP'
      rcases h.1 with hc | hc
      · rw [hdry] at hc
        simp at hc
      · exact absurd hc hne
    · rw [hd] at hd'
      cases hd'
      rw [hP] at hP'
      cases hP'
      have hab : file (destination o v.pth name) ≠ file v.pth := by
        intro hc
        rw [hc, hd] at hb
        simp at hb
      refine ⟨run_keeps h2 ?_ fun w hw => (hoth w (by simpa using hw)).2, fun hr hfree => ?_⟩
      · rw [hs]
        split
        · rw [FS.get_del_ne _ hab, FS.get_put_same]
        · rw [FS.get_put_same]
      · have hnone : (processFile file P o v s).fs.get (file v.pth) = none := by
          rw [hs, if_pos hr, FS.get_del_same]
        refine run_absent h2 hnone hfree

example : (run id (fun p _ => if p = fileC then .ok [122] else .throw .missing) inPlace [fair fileA, fair fileB, fair fileC] music).res = .ok ()
    ∧ (run id (fun p _ => if p = fileC then .ok [122] else .throw .missing) inPlace [fair fileA, fair fileB, fair fileC] music).fs
      = [(fileZ, [5]), (fileA, [1, 2, 3]), (fileB, [4])] := by decide +kernel

/-! ## C68: a second time -/

/-- C68. Renaming in place by a template that depends on the contents only: a file that has been renamed is left alone when
processed again. -/
def C68_claim : Prop :=
  ∀ (file : Path → Path) (P : Bytes → Res Bytes) (o : Options) (v w : Visit) (s : FS) (name : Bytes) (d : Bytes),
    o.output = [] → s.get (file v.pth) = some d → P d = .ok name → w.pth = destination o v.pth name →
    (processFile file (fun _ => P) o v s).res = .ok () → s.get (file w.pth) = none → o.dryRun = false →
    (processFile file (fun _ => P) o w (processFile file (fun _ => P) o v s).fs).fs = (processFile file (fun _ => P) o v s).fs

/-- C68 does not hold: AC/DC again. `/m/a` becomes `/m/A/D`, and then `/m/A/A/D`. -/
theorem C68_refuted : ¬ C68_claim := by
  intro h
  have := h id (fun _ => .ok [65, 47, 68]) inPlace (fair fileA) (fair [47, 109, 47, 65, 47, 68]) music [65, 47, 68] [1, 2, 3]
    rfl (by decide +kernel) rfl (by decide +kernel) (by decide +kernel) (by decide +kernel) rfl
  exact absurd this (by decide +kernel)

/-- C68, where the template comes to a name without '/': nothing is done, whatever would have failed. -/
theorem C68_partial (file : Path → Path) (P : Bytes → Res Bytes) (o : Options) (v w : Visit) (s : FS) (name : Bytes) (d : Bytes)
    (hout : o.output = []) (hd : s.get (file w.pth) = some d) (hP : P d = .ok name) (hw : w.pth = destination o v.pth name)
    (hn : name ≠ []) (hs : ∀ b ∈ name, b ≠ slash) :
    processFile file (fun _ => P) o w s = ⟨[], .ok (), s⟩ := by
  have hdest : destination o w.pth name = w.pth := by
    conv => lhs; unfold destination
    rw [if_pos hout]
    have := (C66_partial o v.pth name hn hs).1 hout
    rw [hw, this]
    unfold destination
    rw [if_pos hout]
  unfold processFile catchError FM.tryCatch
  simp only [Bind.bind, bind_apply, FM.look, hd, lift_apply, hP]
  rw [hdest]
  simp [lift_apply]

example : processFile id (fun _ _ => .ok [122]) inPlace (fair fileZ) [(fileZ, [5])] = ⟨[], .ok (), [(fileZ, [5])]⟩ :=
  C68_partial id (fun _ => .ok [122]) inPlace (fair fileA) (fair fileZ) [(fileZ, [5])] [122] [5] rfl (by decide +kernel) rfl
    (by decide +kernel) (by decide) (by decide)

/-! ## C69: after an interruption -/

/-- C69. When the command was interrupted at any point, giving it again, with nothing failing, leaves the file under its new
name. -/
def C69_claim : Prop :=
  ∀ (file : Path → Path) (P : Path → Bytes → Res Bytes) (o : Options) (v : Visit) (s now : FS) (d name : Bytes),
    o.dryRun = false → s.get (file v.pth) = some d → P v.pth d = .ok name → elems v.pth ≠ elems (destination o v.pth name) →
    s.get (file (destination o v.pth name)) = none → now ∈ (processFile file P o v s).seen →
    (processFile file P o ⟨v.pth, .none, false⟩ now).fs.get (file (destination o v.pth name)) = some d

/-- C69 does not hold: what had been written under the new name so far is taken for another file, now and whenever the command is
given again. -/
theorem C69_refuted : ¬ C69_claim := by
  intro h
  have := h id (fun _ _ => .ok [122]) inPlace (fair fileA) music (music.put fileZ [1]) [1, 2, 3] [122] rfl (by decide +kernel) rfl
    (by decide +kernel) (by decide +kernel) (by decide +kernel)
  exact absurd this (by decide +kernel)

/-- C69, what holds: if the copy had not been begun, the file ends up under its new name; if anything is under the new name,
nothing at all is changed. -/
theorem C69_partial (file : Path → Path) (P : Path → Bytes → Res Bytes) (o : Options) (v : Visit) (now : FS) (d name : Bytes)
    (hP : P v.pth d = .ok name) (hsrc : now.get (file v.pth) = some d) :
    (now.get (file (destination o v.pth name)) = none → o.dryRun = false → elems v.pth ≠ elems (destination o v.pth name) →
      (processFile file P o ⟨v.pth, .none, false⟩ now).fs.get (file (destination o v.pth name)) = some d) ∧
    (now.get (file (destination o v.pth name)) ≠ none →
      (processFile file P o v now).fs = now ∧ (processFile file P o v now).seen = []) := by
  constructor
  · intro hx hdry hne
    have hab : file (destination o v.pth name) ≠ file v.pth := by
      intro hc
      rw [hc, hsrc] at hx
      simp at hx
    unfold processFile catchError FM.tryCatch
    simp only [Bind.bind, bind_apply, FM.look, hsrc, lift_apply, hP]
    rw [if_pos ⟨by simp [hdry], hne⟩]
    simp only [bind_apply, FM.copy, hsrc, hx, FM.create]
    by_cases hr : o.rename = true
    · simp only [hr, if_true, FM.remove]
      simp only [Bool.false_eq_true, if_false]
      rw [FS.get_del_ne _ hab, FS.get_put_same]
    · rw [if_neg hr]
      simp [lift_apply, FS.get_put_same]
  · intro hx
    cases hg : now.get (file (destination o v.pth name)) with
    | none => exact absurd hg hx
    | some x =>
      unfold processFile catchError FM.tryCatch
      simp only [Bind.bind, bind_apply, FM.look, hsrc, lift_apply, hP]
      by_cases hc : !o.dryRun ∧ elems v.pth ≠ elems (destination o v.pth name)
      · rw [if_pos hc]
        simp [bind_apply, FM.copy, hsrc, hg, lift_apply]
      · rw [if_neg hc]
        simp [lift_apply]

example : (processFile id (fun _ _ => .ok [122]) inPlace (fair fileA) (music.put fileZ [1])).res = .throw .fsError := by decide +kernel

/-! ## C70: renaming renames -/

/-- C70. "scribbu rename will [...] rename each ID3-tagged file found": a file that it ends well for is no longer under the old
name. -/
def C70_claim : Prop :=
  ∀ (file : Path → Path) (P : Path → Bytes → Res Bytes) (o : Options) (v : Visit) (s : FS) (d name : Bytes),
    o.dryRun = false → o.output = [] → s.get (file v.pth) = some d → P v.pth d = .ok name →
    elems v.pth ≠ elems (destination o v.pth name) → (processFile file P o v s).res = .ok () →
    (processFile file P o v s).fs.get (file v.pth) = none

/-- C70 does not hold: unless `--rename` is given, the file is copied. -/
theorem C70_refuted : ¬ C70_claim := by
  intro h
  have := h id (fun _ _ => .ok [122]) ⟨[], false, false⟩ (fair fileA) music [1, 2, 3] [122] rfl rfl (by decide +kernel) rfl
    (by decide +kernel) (by decide +kernel)
  exact absurd this (by decide +kernel)

/-- C70, with `--rename`: exactly one file has changed its name, and all others are as they were. -/
theorem C70_partial (file : Path → Path) (P : Path → Bytes → Res Bytes) (o : Options) (v : Visit) (s : FS) (d name : Bytes)
    (hdry : o.dryRun = false) (hr : o.rename = true) (hd : s.get (file v.pth) = some d) (hP : P v.pth d = .ok name)
    (hne : elems v.pth ≠ elems (destination o v.pth name)) (hok : (processFile file P o v s).res = .ok ()) (p : Path) :
    (processFile file P o v s).fs.get p =
      if p = file v.pth then none else if p = file (destination o v.pth name) then some d else s.get p := by
  obtain ⟨d', hd', h | ⟨name', hP', h | ⟨_, _, hb, hs⟩⟩⟩ := processFile_ok hok
  · rw [hd] at hd'
    cases hd'
    rw [hP] at h
    exact absurd h.1 (by simp)
  · rw [hd] at hd'
    cases hd'
    rw [hP] at hP'
    cases hP'
    rcases h.1 with hc | hc
    · rw [hdry] at hc
      simp at hc
    · exact absurd hc hne
  · rw [hd] at hd'
    cases hd'
    rw [hP] at hP'
    cases hP'
    rw [hs, if_pos hr]
    split
    · rename_i h
      rw [h, FS.get_del_same]
    · rename_i h
      rw [FS.get_del_ne _ h]
      split
      · rename_i h'
        rw [h', FS.get_put_same]
      · rename_i h'
        rw [FS.get_put_ne _ _ h']

example : (processFile id (fun _ _ => .ok [122]) inPlace (fair fileA) music).res = .ok ()
    ∧ (processFile id (fun _ _ => .ok [122]) inPlace (fair fileA) music).fs = [(fileZ, [1, 2, 3]), (fileB, [4]), (fileC, [5])] := by
  decide +kernel

end Scribbu.Props
