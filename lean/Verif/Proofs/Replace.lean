import Verif.Model.Replace
import Verif.Props.Backup

/-! Lemmas about `replace_tagset_copy` and the files it goes through. -/

namespace Scribbu.Replace
open Scribbu Path Backup FM Props

/-- The name of a backup of `P`. -/
def Bk (P q : Path) : Prop := ∃ n, q = P ++ dot :: dec n

theorem bk_ne {P q : Path} (h : Bk P q) : q ≠ P := by
  obtain ⟨n, rfl⟩ := h
  intro h
  have := congrArg List.length h
  simp at this

theorem bk_abs {cwd P cp : Path} (hP : PlainPath P) (h : Bk P cp) : absolute cwd cp = cp := by
  obtain ⟨n, rfl⟩ := h
  refine absolute_abs ?_
  have := (plain_facts hP []).1
  cases P with
  | nil => simp [isAbs] at this
  | cons x xs => simpa [isAbs] using this

/-- Making a backup touches no file but the backup. -/
theorem makeBackup_holds (cwd pth : Path) (rm : Bool) (f : Fault) (hP : PlainPath (absolute cwd pth)) (sA : FS) :
    Holds (makeBackup cwd pth rm f) (· = sA) (fun x => ∀ q, ¬ Bk (absolute cwd pth) q → x.get q = sA.get q)
      (fun r s => match r with
        | .ok cp => Bk (absolute cwd pth) cp ∧ backupName sA cwd pth = .ok cp ∧ s.get cp = sA.get (absolute cwd pth) ∧
            (∀ q, q ≠ cp → s.get q = sA.get q)
        | .throw _ => ∀ q, ¬ Bk (absolute cwd pth) q → s.get q = sA.get q
        | .ub _ => s = sA) := by
  unfold makeBackup
  refine Holds.bind (mid := fun a s => a = sA ∧ s = sA) (Holds.state ?_) ?_
  · rintro s rfl; exact ⟨rfl, rfl⟩
  intro s0
  refine Holds.bind (mid := fun cp s => s = sA ∧ backupName sA cwd pth = .ok cp) (Holds.lift _ ?_) ?_
  · rintro s ⟨rfl, rfl⟩
    cases h : backupName s cwd pth with
    | ok cp => exact ⟨rfl, rfl⟩
    | throw e => exact fun q _ => rfl
    | ub u => rfl
  intro cp
  refine Holds.bind (mid := fun o s => (s = sA ∧ backupName sA cwd pth = .ok cp) ∧ o = sA.get (absolute cwd cp)) (Holds.look _ ?_) ?_
  · rintro s ⟨rfl, h⟩; exact ⟨⟨rfl, h⟩, rfl⟩
  intro o
  by_cases hc : backupName sA cwd pth = .ok cp
  case neg => rintro s ⟨⟨-, h⟩, -⟩; exact absurd h hc
  have hbk := backupName_form hP hc
  have habs : absolute cwd cp = cp := bk_abs hP hbk
  have hne : cp ≠ absolute cwd pth := bk_ne hbk
  have hbk' : ∀ q, ¬ Bk (absolute cwd pth) q → q ≠ cp := by rintro q hq rfl; exact hq hbk
  rw [habs]
  -- a state that differs from `sA` at `cp` only
  refine Holds.bind (mid := fun _ s => ∀ q, q ≠ cp → s.get q = sA.get q) ?_ ?_
  · split
    · refine Holds.remove _ _ ?_ ?_
      · rintro s ⟨⟨rfl, -⟩, -⟩
        exact ⟨fun q hq => FS.get_del_ne _ (hbk' q hq), fun q hq => FS.get_del_ne _ hq⟩
      · rintro s ⟨⟨rfl, -⟩, -⟩
        exact fun q _ => rfl
    · refine Holds.pure _ ?_
      rintro s ⟨⟨rfl, -⟩, -⟩
      exact fun q _ => rfl
  intro _
  refine Holds.bind (mid := fun _ s => s.get cp = sA.get (absolute cwd pth) ∧ ∀ q, q ≠ cp → s.get q = sA.get q) (Holds.copy _ _ _ ?_ ?_ ?_ ?_) ?_
  · intro s c h q hq
    rw [FS.get_put_ne _ _ (hbk' q hq), h q (hbk' q hq)]
  · intro s d h h1 _
    refine ⟨?_, fun q hq => by rw [FS.get_put_ne _ _ hq, h q hq]⟩
    rw [FS.get_put_same, ← h _ hne.symm, h1]
  · intro s h q hq
    exact h q (hbk' q hq)
  · intro s c h _ q hq
    rw [FS.get_put_ne _ _ (hbk' q hq), h q (hbk' q hq)]
  intro _
  refine Holds.pure _ ?_
  rintro s ⟨h1, h2⟩
  exact ⟨hbk, hc, h1, h2⟩

/-- The tags have been written to `tmp`; `P` still holds the old contents. -/
structure Ready (e : Env) (P : Path) (old new : Bytes) (s : FS) : Prop where
  old : s.get P = some old
  new : s.get e.tmp = some new

/-- Whenever the process dies, nothing is lost. -/
def Kept (P : Path) (old new : Bytes) (s : FS) : Prop :=
  s.get P = some old ∨ s.get P = some new ∨ ∃ q, Bk P q ∧ s.get q = some old

/-- Files that have nothing to do with it. -/
def Others (e : Env) (P : Path) (s0 s : FS) : Prop := ∀ q, q ≠ P → q ≠ e.tmp → ¬ Bk P q → s.get q = s0.get q

/-- Between file systems. -/
theorem crossDevice_holds (e : Env) (pth : Path) (keep : Bool) (hP : PlainPath (absolute e.cwd pth)) (ht : e.tmp ≠ absolute e.cwd pth)
    (hb : ¬ Bk (absolute e.cwd pth) e.tmp) (cp : Option Path) (old new : Bytes) (sA : FS) (hA : Ready e (absolute e.cwd pth) old new sA)
    (hc : ∀ c, cp = some c → Bk (absolute e.cwd pth) c ∧ sA.get c = some old) :
    Holds (crossDevice e pth keep cp) (· = sA) (fun x => Kept (absolute e.cwd pth) old new x ∧ Others e (absolute e.cwd pth) sA x)
      (fun r s => match r with
        | .ok _ => s.get (absolute e.cwd pth) = some new ∧ s.get e.tmp = (if keep then some new else none) ∧
            (∃ q, Bk (absolute e.cwd pth) q ∧ s.get q = some old ∧ (cp = some q ∨ (cp = none ∧ backupName sA e.cwd pth = .ok q)) ∧
              ∀ p, p ≠ absolute e.cwd pth → p ≠ e.tmp → p ≠ q → s.get p = sA.get p)
        | _ => Kept (absolute e.cwd pth) old new s ∧ Others e (absolute e.cwd pth) sA s) := by
  unfold crossDevice
  generalize hPe : absolute e.cwd pth = P at *
  -- a complete backup at `c`, everything else as before
  refine Holds.bind (mid := fun c s => Bk P c ∧ s.get c = some old ∧ (∀ q, q ≠ c → s.get q = sA.get q) ∧
      (cp = some c ∨ (cp = none ∧ backupName sA e.cwd pth = .ok c))) ?_ ?_
  · cases cp with
    | some c =>
      refine Holds.pure _ ?_
      rintro s rfl
      exact ⟨(hc c rfl).1, (hc c rfl).2, fun q _ => rfl, .inl rfl⟩
    | none =>
      have hh := makeBackup_holds e.cwd pth e.rmBackup2 e.backup2 (by rw [hPe]; exact hP) sA
      rw [hPe] at hh
      refine hh.weaken (fun s h => h) ?_ ?_
      · intro s h
        have hPn : ¬ Bk P P := fun h => bk_ne h rfl
        exact ⟨.inl (by rw [h P hPn, hA.old]), fun q _ _ hq => h q hq⟩
      · intro r s h
        have hPn : ¬ Bk P P := fun h => bk_ne h rfl
        cases r with
        | ok c => exact ⟨h.1, by rw [h.2.2.1, hA.old], h.2.2.2, .inr ⟨rfl, h.2.1⟩⟩
        | throw x => exact ⟨.inl (by rw [h P hPn, hA.old]), fun q _ _ hq => h q hq⟩
        | ub u => cases h; exact ⟨.inl hA.old, fun q _ _ _ => rfl⟩
  intro c
  by_cases hbc : Bk P c
  case neg => rintro s ⟨h, -⟩; exact absurd h hbc
  have hcP : c ≠ P := bk_ne hbc
  have hct : c ≠ e.tmp := by rintro rfl; exact hb hbc
  have hbq : ∀ q, ¬ Bk P q → q ≠ c := by rintro q hq rfl; exact hq hbc
  -- what holds from now on
  let M : FS → Prop := fun s => s.get c = some old ∧ (∀ q, q ≠ P → q ≠ e.tmp → q ≠ c → s.get q = sA.get q) ∧
      (cp = some c ∨ (cp = none ∧ backupName sA e.cwd pth = .ok c))
  have hMK : ∀ s, M s → Kept P old new s ∧ Others e P sA s := fun s h =>
    ⟨.inr (.inr ⟨c, hbc, h.1⟩), fun q h1 h2 h3 => h.2.1 q h1 h2 (hbq q h3)⟩
  have hput : ∀ s b, M s → M (s.put P b) := fun s b h =>
    ⟨by rw [FS.get_put_ne _ _ hcP]; exact h.1, fun q h1 h2 h3 => by rw [FS.get_put_ne _ _ h1]; exact h.2.1 q h1 h2 h3, h.2.2⟩
  refine Holds.bind (mid := fun _ s => M s ∧ s.get P = none ∧ s.get e.tmp = some new) ?_ ?_
  · refine Holds.remove _ _ ?_ ?_
    · rintro s ⟨-, h1, h2, h3⟩
      have hM : M (s.del P) := ⟨by rw [FS.get_del_ne _ hcP]; exact h1,
        fun q h4 _ h5 => by rw [FS.get_del_ne _ h4]; exact h2 q h5, h3⟩
      exact ⟨hMK _ hM, hM, FS.get_del_same _ _, by rw [FS.get_del_ne _ ht, h2 _ (Ne.symm hct)]; exact hA.new⟩
    · rintro s ⟨-, h1, h2, h3⟩
      exact hMK _ ⟨h1, fun q _ _ h5 => h2 q h5, h3⟩
  intro _
  refine Holds.tryCatch (mid := fun _ s => M s) ?_ ?_
  · refine Holds.bind (mid := fun _ s => M s ∧ s.get P = some new ∧ s.get e.tmp = some new) (Holds.copy _ _ _ ?_ ?_ ?_ ?_) ?_
    · rintro s b ⟨h, -⟩; exact hMK _ (hput _ _ h)
    · rintro s d ⟨h, h1, h2⟩ h3 _
      rw [h2] at h3
      cases h3
      exact ⟨hput _ _ h, FS.get_put_same _ _ _, by rw [FS.get_put_ne _ _ ht]; exact h2⟩
    · rintro s ⟨h, -⟩; exact h
    · rintro s b ⟨h, -⟩ _; exact hput _ _ h
    intro _
    cases keep with
    | true =>
      refine Holds.pure _ ?_
      rintro s ⟨h, h1, h2⟩
      exact ⟨h1, by simpa using h2, c, hbc, h.1, h.2.2, h.2.1⟩
    | false =>
      refine Holds.remove _ _ ?_ ?_
      · rintro s ⟨h, h1, h2⟩
        have hM : M (s.del e.tmp) := ⟨by rw [FS.get_del_ne _ hct]; exact h.1,
          fun q h3 h4 h5 => by rw [FS.get_del_ne _ h4]; exact h.2.1 q h3 h4 h5, h.2.2⟩
        refine ⟨hMK _ hM, ?_, by simpa using FS.get_del_same _ _, c, hbc, hM.1, hM.2.2, hM.2.1⟩
        rw [FS.get_del_ne _ ht.symm]; exact h1
      · rintro s ⟨h, -⟩; exact h
  · intro x
    refine Holds.bind (mid := fun _ s => M s) (Holds.tryCatch (mid := fun _ s => M s) (Holds.copy _ _ _ ?_ ?_ ?_ ?_) ?_) ?_
    · intro s b h; exact hMK _ (hput _ _ h)
    · intro s d h _ _; exact hput _ _ h
    · intro s h; exact h
    · intro s b h _; exact hput _ _ h
    · intro y
      exact Holds.pure _ fun s h => h
    · intro _
      refine Holds.lift _ ?_
      intro s h
      exact hMK _ h

/-- After the backup, if one was asked for. -/
def Backed (e : Env) (pth P : Path) (keep : Bool) (old : Bytes) (sA : FS) (c : Option Path) (s : FS) : Prop :=
  match c with
  | some c => keep = true ∧ Bk P c ∧ s.get c = some old ∧ (∀ q, q ≠ c → s.get q = sA.get q) ∧ backupName sA e.cwd pth = .ok c
  | none => keep = false ∧ s = sA

theorem shuffle_holds (e : Env) (pth : Path) (keep : Bool) (hP : PlainPath (absolute e.cwd pth)) (ht : e.tmp ≠ absolute e.cwd pth)
    (hb : ¬ Bk (absolute e.cwd pth) e.tmp) (old new : Bytes) (sA : FS) (hA : Ready e (absolute e.cwd pth) old new sA) :
    Holds (shuffle e pth keep) (· = sA) (fun x => Kept (absolute e.cwd pth) old new x ∧ Others e (absolute e.cwd pth) sA x)
      (fun r s => match r with
        | .ok _ => s.get (absolute e.cwd pth) = some new ∧ Others e (absolute e.cwd pth) sA s ∧
            (keep = true → ∃ q, Bk (absolute e.cwd pth) q ∧ backupName sA e.cwd pth = .ok q ∧ s.get q = some old) ∧
            (e.rename = .done → s.get e.tmp = none ∧ ∀ p, p ≠ absolute e.cwd pth → p ≠ e.tmp →
              (keep = true → backupName sA e.cwd pth ≠ .ok p) → s.get p = sA.get p)
        | _ => Kept (absolute e.cwd pth) old new s ∧ Others e (absolute e.cwd pth) sA s ∧
            (e.rename ≠ .crossDevice → s.get (absolute e.cwd pth) = some old)) := by
  unfold shuffle
  generalize hPe : absolute e.cwd pth = P at *
  have hPn : ¬ Bk P P := fun h => bk_ne h rfl
  -- after the backup, if any
  refine Holds.bind (mid := Backed e pth P keep old sA) ?_ ?_
  · cases keep with
    | false =>
      refine Holds.pure _ ?_
      rintro s rfl
      exact ⟨rfl, rfl⟩
    | true =>
      refine Holds.bind (mid := fun c s => Bk P c ∧ s.get c = some old ∧ (∀ q, q ≠ c → s.get q = sA.get q) ∧
        backupName sA e.cwd pth = .ok c) ?_ ?_
      · have hh := makeBackup_holds e.cwd pth e.rmBackup e.backup (by rw [hPe]; exact hP) sA
        rw [hPe] at hh
        refine hh.weaken (fun s h => h) ?_ ?_
        · intro s h
          exact ⟨.inl (by rw [h P hPn, hA.old]), fun q _ _ hq => h q hq⟩
        · intro r s h
          cases r with
          | ok c => exact ⟨h.1, by rw [h.2.2.1, hA.old], h.2.2.2, h.2.1⟩
          | throw x => exact ⟨.inl (by rw [h P hPn, hA.old]), fun q _ _ hq => h q hq, fun _ => by rw [h P hPn, hA.old]⟩
          | ub u => cases h; exact ⟨.inl hA.old, fun q _ _ _ => rfl, fun _ => hA.old⟩
      · intro c
        refine Holds.pure _ ?_
        rintro s ⟨h1, h2, h3, h4⟩
        exact ⟨rfl, h1, h2, h3, h4⟩
  intro c
  -- what is common to both cases
  let N : FS → Prop := fun s => Ready e P old new s ∧ (∀ q, q ≠ P → q ≠ e.tmp → ¬ Bk P q → s.get q = sA.get q) ∧
    (keep = true → ∃ q, c = some q ∧ Bk P q ∧ backupName sA e.cwd pth = .ok q ∧ s.get q = some old) ∧
    (keep = false → c = none) ∧
    (∀ p, p ≠ P → p ≠ e.tmp → (keep = true → backupName sA e.cwd pth ≠ .ok p) → s.get p = sA.get p)
  have hN : ∀ s, Backed e pth P keep old sA c s → N s := by
    intro s h
    cases c with
    | none =>
      obtain ⟨h1, rfl⟩ := h
      refine ⟨hA, fun _ _ _ _ => rfl, by simp [h1], fun _ => rfl, fun _ _ _ _ => rfl⟩
    | some c =>
      obtain ⟨h1, h2, h3, h4, h5⟩ := h
      have hct : e.tmp ≠ c := by rintro rfl; exact hb h2
      refine ⟨⟨by rw [h4 P (bk_ne h2).symm]; exact hA.old, by rw [h4 _ hct]; exact hA.new⟩, ?_, fun _ => ⟨c, rfl, h2, h5, h3⟩,
        by simp [h1], ?_⟩
      · rintro q _ _ hq
        exact h4 q (by rintro rfl; exact hq h2)
      · intro p _ _ hp
        exact h4 p (by rintro rfl; exact hp h1 h5)
  refine Holds.each ?_
  intro s hs
  have hNs := hN s hs
  refine Holds.bind (mid := fun r s' => (r = .done ∧ e.rename = .done ∧ s' = (s.del e.tmp).put P new) ∨
      (r = .crossDevice ∧ e.rename = .crossDevice ∧ s' = s) ∨ (r = .failed ∧ e.rename ≠ .crossDevice ∧ s' = s))
    (Holds.rename _ _ _ ?_ ?_ ?_) ?_
  · rintro s' d rfl h1 h2
    rw [hNs.1.new] at h1
    cases h1
    refine ⟨⟨.inr (.inl (FS.get_put_same _ _ _)), ?_⟩, .inl ⟨rfl, h2, rfl⟩⟩
    intro q h3 h4 h5
    rw [FS.get_put_ne _ _ h3, FS.get_del_ne _ h4]
    exact hNs.2.1 q h3 h4 h5
  · rintro s' rfl h2
    exact .inr (.inl ⟨rfl, h2, rfl⟩)
  · rintro s' rfl h2
    refine .inr (.inr ⟨rfl, ?_, rfl⟩)
    rcases h2 with h2 | h2
    · simp [h2]
    · rw [hNs.1.new] at h2; cases h2
  intro r
  refine Holds.each ?_
  intro s' hr
  rcases hr with ⟨rfl, hr, rfl⟩ | ⟨rfl, hr, rfl⟩ | ⟨rfl, hr, rfl⟩
  · refine Holds.pure _ ?_
    rintro x rfl
    refine ⟨FS.get_put_same _ _ _, ?_, ?_, ?_⟩
    · intro q h3 h4 h5
      rw [FS.get_put_ne _ _ h3, FS.get_del_ne _ h4]
      exact hNs.2.1 q h3 h4 h5
    · intro hk
      obtain ⟨q, _, h1, h2, h3⟩ := hNs.2.2.1 hk
      refine ⟨q, h1, h2, ?_⟩
      rw [FS.get_put_ne _ _ (bk_ne h1), FS.get_del_ne _ (by rintro rfl; exact hb h1)]
      exact h3
    · intro _
      refine ⟨by rw [FS.get_put_ne _ _ ht]; exact FS.get_del_same _ _, ?_⟩
      intro p h1 h2 h3
      rw [FS.get_put_ne _ _ h1, FS.get_del_ne _ h2]
      exact hNs.2.2.2.2 p h1 h2 h3
  · have hx := crossDevice_holds e pth keep (by rw [hPe]; exact hP) (by rw [hPe]; exact ht) (by rw [hPe]; exact hb) c old new s'
      (by rw [hPe]; exact hNs.1) (by
        intro q hq
        rw [hPe]
        cases hk : keep with
        | false => rw [hNs.2.2.2.1 hk] at hq; cases hq
        | true =>
          obtain ⟨q', h1, h2, h3, h4⟩ := hNs.2.2.1 hk
          rw [hq] at h1
          cases h1
          exact ⟨h2, h4⟩)
    rw [hPe] at hx
    refine hx.weaken (fun s h => h) ?_ ?_
    · rintro x ⟨h1, h2⟩
      exact ⟨h1, fun q h3 h4 h5 => by rw [h2 q h3 h4 h5]; exact hNs.2.1 q h3 h4 h5⟩
    · intro r x h
      have hoth : Others e P s' x → Others e P sA x := fun h2 q h3 h4 h5 => by rw [h2 q h3 h4 h5]; exact hNs.2.1 q h3 h4 h5
      cases r with
      | ok u =>
        obtain ⟨h1, h2, q, h3, h4, h5, h6⟩ := h
        refine ⟨h1, hoth (fun p h7 h8 h9 => h6 p h7 h8 (by rintro rfl; exact h9 h3)), ?_, by simp [hr]⟩
        intro hk
        obtain ⟨q', k1, k2, k3, k4⟩ := hNs.2.2.1 hk
        rcases h5 with h5 | ⟨h5, -⟩
        · rw [k1] at h5; cases h5; exact ⟨q, h3, k3, h4⟩
        · rw [k1] at h5; cases h5
      | throw y => exact ⟨h.1, hoth h.2, by simp [hr]⟩
      | ub u => exact ⟨h.1, hoth h.2, by simp [hr]⟩
  · refine Holds.lift _ ?_
    rintro x rfl
    exact ⟨.inl hNs.1.old, hNs.2.1, fun _ => hNs.1.old⟩

/-- The whole function, from a state in which `P` holds `old`. -/
theorem replace_holds (I : TagI τ) (e : Env) (pth : Path) (ts : List τ) (au : ApplyUnsync) (keep : Bool)
    (hP : PlainPath (absolute e.cwd pth)) (ht : e.tmp ≠ absolute e.cwd pth) (hb : ¬ Bk (absolute e.cwd pth) e.tmp)
    (old : Bytes) (s0 : FS) (h0 : s0.get (absolute e.cwd pth) = some old) (new : Bytes)
    (hn : ∀ b ts', Tagset.copyContents I (some old) au ts = .ok (b, ts') → new = b) :
    Holds (replaceTagsetCopy I e pth ts au keep) (· = s0)
      (fun x => Kept (absolute e.cwd pth) old new x ∧ Others e (absolute e.cwd pth) s0 x)
      (fun r s => match r with
        | .ok _ => (∃ ts', Tagset.copyContents I (some old) au ts = .ok (new, ts')) ∧
            s.get (absolute e.cwd pth) = some new ∧ Others e (absolute e.cwd pth) s0 s ∧
            (keep = true → ∃ q, Bk (absolute e.cwd pth) q ∧ backupName (s0.put e.tmp new) e.cwd pth = .ok q ∧ s.get q = some old) ∧
            (e.rename = .done → s.get e.tmp = none ∧ ∀ p, p ≠ absolute e.cwd pth → p ≠ e.tmp →
              (keep = true → backupName (s0.put e.tmp new) e.cwd pth ≠ .ok p) → s.get p = s0.get p)
        | _ => Kept (absolute e.cwd pth) old new s ∧ Others e (absolute e.cwd pth) s0 s ∧
            (e.rename ≠ .crossDevice → s.get (absolute e.cwd pth) = some old)) := by
  unfold replaceTagsetCopy
  generalize hPe : absolute e.cwd pth = P at *
  have hput : ∀ b, (s0.put e.tmp b).get P = some old := fun b => by rw [FS.get_put_ne _ _ ht.symm]; exact h0
  have hoth : ∀ b, Others e P s0 (s0.put e.tmp b) := fun b q _ h _ => FS.get_put_ne _ _ h
  refine Holds.bind (mid := fun o s => o = some old ∧ s = s0) (Holds.look _ ?_) ?_
  · rintro s rfl
    exact ⟨h0, rfl⟩
  intro o
  by_cases ho : o = some old
  case neg => rintro s ⟨h, -⟩; exact absurd h ho
  subst ho
  cases hc : Tagset.copyContents I (some old) au ts with
  | ok r =>
    obtain ⟨b, ts'⟩ := r
    have := hn b ts' hc
    subst this
    refine Holds.bind (mid := fun _ s => s = s0.put e.tmp new) (Holds.create _ _ _ _ ?_ ?_ ?_ ?_) ?_
    · rintro s c ⟨-, rfl⟩; exact ⟨.inl (hput c), hoth c⟩
    · rintro s ⟨-, rfl⟩; rfl
    · rintro s ⟨-, rfl⟩; exact ⟨.inl h0, fun _ _ _ _ => rfl, fun _ => h0⟩
    · rintro s k ⟨-, rfl⟩; exact ⟨.inl (hput _), hoth _, fun _ => hput _⟩
    intro _
    have hx := shuffle_holds e pth keep (by rw [hPe]; exact hP) (by rw [hPe]; exact ht) (by rw [hPe]; exact hb) old new (s0.put e.tmp new)
      (by rw [hPe]; exact ⟨hput _, FS.get_put_same _ _ _⟩)
    rw [hPe] at hx
    have htr : ∀ x, Others e P (s0.put e.tmp new) x → Others e P s0 x := fun x h q h1 h2 h3 => by
      rw [h q h1 h2 h3]; exact hoth _ q h1 h2 h3
    refine hx.weaken (fun s h => h) ?_ ?_
    · rintro x ⟨h1, h2⟩; exact ⟨h1, htr x h2⟩
    · intro r x h
      cases r with
      | ok u =>
        refine ⟨⟨ts', rfl⟩, h.1, htr x h.2.1, h.2.2.1, fun hd => ⟨(h.2.2.2 hd).1, ?_⟩⟩
        intro p h1 h2 h3
        rw [(h.2.2.2 hd).2 p h1 h2 h3, FS.get_put_ne _ _ h2]
      | throw y => exact ⟨h.1, htr x h.2.1, h.2.2⟩
      | ub u => exact ⟨h.1, htr x h.2.1, h.2.2⟩
  | throw x =>
    refine Holds.bind (mid := fun _ s => s = s0.put e.tmp e.junk) (Holds.create _ _ _ _ ?_ ?_ ?_ ?_) ?_
    · rintro s c ⟨-, rfl⟩; exact ⟨.inl (hput c), hoth c⟩
    · rintro s ⟨-, rfl⟩; rfl
    · rintro s ⟨-, rfl⟩; exact ⟨.inl h0, fun _ _ _ _ => rfl, fun _ => h0⟩
    · rintro s k ⟨-, rfl⟩; exact ⟨.inl (hput _), hoth _, fun _ => hput _⟩
    intro _
    refine Holds.lift _ ?_
    rintro s rfl
    exact ⟨.inl (hput _), hoth _, fun _ => hput _⟩
  | ub u =>
    refine Holds.lift _ ?_
    rintro s ⟨-, rfl⟩
    exact ⟨.inl h0, fun _ _ _ _ => rfl, fun _ => h0⟩

end Scribbu.Replace
