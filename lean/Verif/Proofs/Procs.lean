import Verif.Spec.Procs
import Verif.Proofs.Replace

/-! Lemmas about processes that change files at the same time. -/

namespace Scribbu.Procs
open Scribbu.Spec.Procs Path Backup Scribbu.Props

/-! ## One process alone is what the sequential model has -/

/-- A process does what a piece of code does. -/
def Does {α : Type} (p : Proc α) (m : FM α) : Prop := ∀ s, exec p s = ((m s).res, (m s).fs)

theorem exec_bind {α β : Type} (p : Proc α) (f : α → Proc β) (s : FS) :
    exec (p.bind f) s = match exec p s with
      | (.ok a, s') => exec (f a) s'
      | (.throw e, s') => (.throw e, s')
      | (.ub u, s') => (.ub u, s') := by
  induction p generalizing s with
  | ret r => cases r <;> rfl
  | act eff next ih => exact ih s (eff s)

theorem exec_tryCatch {α : Type} (p : Proc α) (f : Exc → Proc α) (s : FS) :
    exec (p.tryCatch f) s = match exec p s with
      | (.throw e, s') => exec (f e) s'
      | r => r := by
  induction p generalizing s with
  | ret r => cases r <;> rfl
  | act eff next ih => exact ih s (eff s)

theorem Does.bind {α β : Type} {p : Proc α} {m : FM α} {f : α → Proc β} {g : α → FM β} (h : Does p m) (hf : ∀ a, Does (f a) (g a)) :
    Does (p.bind f) (FM.bind m g) := by
  intro s
  rw [exec_bind, h s]
  unfold FM.bind
  cases e : (m s).res with
  | ok a => simp only; exact hf a _
  | throw e => rfl
  | ub u => rfl

theorem Does.tryCatch {α : Type} {p : Proc α} {m : FM α} {f : Exc → Proc α} {g : Exc → FM α} (h : Does p m) (hf : ∀ e, Does (f e) (g e)) :
    Does (p.tryCatch f) (FM.tryCatch m g) := by
  intro s
  rw [exec_tryCatch, h s]
  unfold FM.tryCatch
  cases e : (m s).res with
  | ok a => simp only [e]
  | throw x => simp only; exact hf x _
  | ub u => simp only [e]

theorem Does.ret {α : Type} (r : Res α) : Does (.ret r) (FM.lift r) := fun _ => rfl
theorem Does.look (p : Path) : Does (Proc.look p) (FM.look p) := fun _ => rfl
theorem Does.name (cwd pth : Path) : Does (Proc.name cwd pth) (FM.bind FM.state fun s => FM.lift (backupName s cwd pth)) := fun _ => rfl

theorem del_del (s : FS) (p : Path) : (s.del p).del p = s.del p := by simp [FS.del]
theorem put_put (s : FS) (p : Path) (a b : Bytes) : (s.put p a).put p b = s.put p b := by
  simp only [FS.put]
  congr 1
  show FS.del ((p, a) :: s.del p) p = s.del p
  have : FS.del ((p, a) :: s.del p) p = (s.del p).del p := by simp [FS.del]
  rw [this, del_del]

theorem exec_append (p : Path) (r : Res Unit) (b d : Bytes) (s : FS) : exec (Proc.append p r b) (s.put p d) = (r, s.put p (d ++ b)) := by
  induction b generalizing d with
  | nil => simp [Proc.append, exec]
  | cons x xs ih =>
    simp only [Proc.append, exec, Proc.grow, FS.get_put_same, put_put]
    rw [ih]; simp

theorem Does.create (e : Exc) (p : Path) (b : Bytes) (f : Fault) : Does (Proc.create e p b f) (FM.create e p b f) := by
  intro s
  cases f <;> simp [Proc.create, FM.create, exec, exec_append]

theorem Does.remove (p : Path) (b : Bool) : Does (Proc.remove p b) (FM.remove p b) := by
  intro s
  cases b <;> rfl

theorem Does.copy (a b : Path) (f : Fault) : Does (Proc.copy a b f) (FM.copy a b f) := by
  intro s
  simp only [Proc.copy, FM.copy, exec]
  cases s.get a <;> cases s.get b <;> cases f <;> simp [FM.create, exec, exec_append]

theorem Does.rename (a b : Path) (r : FM.Rename) : Does (Proc.rename a b r) (FM.rename a b r) := by
  intro s
  simp only [Proc.rename, FM.rename, exec]
  cases r <;> cases s.get a <;> rfl

theorem fm_bind_assoc {α β γ : Type} (m : FM α) (f : α → FM β) (g : β → FM γ) :
    FM.bind (FM.bind m f) g = FM.bind m fun a => FM.bind (f a) g := by
  funext s
  simp only [FM.bind]
  cases (m s).res with
  | ok a => simp only; cases (f a (m s).fs).res <;> simp
  | throw e => rfl
  | ub u => rfl

theorem does_makeBackup (j : Job) (rm : Bool) (f : Fault) : Does (makeBackup j rm f) (Replace.makeBackup j.env.cwd j.pth rm f) := by
  have h : Replace.makeBackup j.env.cwd j.pth rm f = FM.bind (FM.bind FM.state fun s => FM.lift (backupName s j.env.cwd j.pth)) (fun cp =>
      FM.bind (FM.look (absolute j.env.cwd cp)) fun there =>
      FM.bind (if there.isSome then FM.remove (absolute j.env.cwd cp) rm else FM.lift (.ok ())) fun _ =>
      FM.bind (FM.copy (absolute j.env.cwd j.pth) (absolute j.env.cwd cp) f) fun _ => FM.lift (.ok cp)) := by
    rw [fm_bind_assoc]; rfl
  rw [h]
  unfold makeBackup
  refine (Does.name _ _).bind fun cp => (Does.look _).bind fun there => Does.bind ?_ fun _ => (Does.copy _ _ _).bind fun _ => Does.ret _
  split
  · exact Does.remove _ _
  · exact Does.ret _

theorem does_crossDevice (j : Job) (cp : Option Path) : Does (crossDevice j cp) (Replace.crossDevice j.env j.pth j.keep cp) := by
  unfold crossDevice Replace.crossDevice
  refine Does.bind ?_ fun cp => (Does.remove _ _).bind fun _ => Does.tryCatch ((Does.copy _ _ _).bind fun _ => ?_) fun x =>
    (Does.tryCatch (Does.copy _ _ _) fun _ => Does.ret _).bind fun _ => Does.ret _
  · cases cp with
    | some cp => exact Does.ret _
    | none => exact does_makeBackup j _ _
  · split
    · exact Does.ret _
    · exact Does.remove _ _

theorem does_shuffle (j : Job) : Does (shuffle j) (Replace.shuffle j.env j.pth j.keep) := by
  unfold shuffle Replace.shuffle
  refine Does.bind ?_ fun cp => (Does.rename _ _ _).bind fun r => ?_
  · split
    · exact (does_makeBackup j _ _).bind fun cp => Does.ret _
    · exact Does.ret _
  · cases r with
    | done => exact Does.ret _
    | crossDevice => exact does_crossDevice j cp
    | failed => exact Does.ret _

/-- Alone, a process does what the sequential model says. -/
theorem exec_replace (I : TagI τ) (e : Replace.Env) (pth : Path) (ts : List τ) (au : ApplyUnsync) (keep : Bool) (s : FS) :
    exec (replace (Job.tags I e pth ts au keep)) s =
      ((Replace.replaceTagsetCopy I e pth ts au keep s).res, (Replace.replaceTagsetCopy I e pth ts au keep s).fs) := by
  refine (show Does _ _ from ?_) s
  unfold replace Replace.replaceTagsetCopy
  refine (Does.look _).bind fun old => ?_
  simp only [Job.tags]
  cases Tagset.copyContents I old au ts with
  | ok r => exact (Does.create _ _ _ _).bind fun _ => does_shuffle (Job.tags I e pth ts au keep)
  | throw x => exact (Does.create _ _ _ _).bind fun _ => Does.ret _
  | ub u => exact Does.ret _

/-! ## Processes that keep to files of their own -/

/-- States that agree on some files. -/
def Agree (F : Path → Prop) (s s' : FS) : Prop := ∀ q, F q → s.get q = s'.get q

/-- A process neither changes nor depends on files other than `F`. -/
def Confined {α : Type} (F : Path → Prop) : Proc α → Prop
  | .ret _ => True
  | .act eff next => (∀ s q, ¬ F q → (eff s).get q = s.get q) ∧ (∀ s s', Agree F s s' → Agree F (eff s) (eff s') ∧ next s = next s') ∧
      ∀ s, Confined F (next s)

theorem Confined.bind {α β : Type} {F : Path → Prop} {p : Proc α} {f : α → Proc β} (h : Confined F p) (hf : ∀ a, Confined F (f a)) :
    Confined F (p.bind f) := by
  induction p with
  | ret r => cases r with
    | ok a => exact hf a
    | throw e => trivial
    | ub u => trivial
  | act eff next ih =>
    refine ⟨h.1, fun s s' hs => ⟨(h.2.1 s s' hs).1, by simp only [(h.2.1 s s' hs).2]⟩, fun s => ih s (h.2.2 s)⟩

theorem Confined.tryCatch {α : Type} {F : Path → Prop} {p : Proc α} {f : Exc → Proc α} (h : Confined F p) (hf : ∀ a, Confined F (f a)) :
    Confined F (p.tryCatch f) := by
  induction p with
  | ret r => cases r with
    | ok a => trivial
    | throw e => exact hf e
    | ub u => trivial
  | act eff next ih =>
    refine ⟨h.1, fun s s' hs => ⟨(h.2.1 s s' hs).1, by simp only [(h.2.1 s s' hs).2]⟩, fun s => ih s (h.2.2 s)⟩

theorem get_put (s : FS) (p q : Path) (b : Bytes) : (s.put p b).get q = if q = p then some b else s.get q := by
  split
  · rename_i h; rw [h]; exact FS.get_put_same _ _ _
  · rename_i h; exact FS.get_put_ne _ _ h

theorem get_del (s : FS) (p q : Path) : (s.del p).get q = if q = p then none else s.get q := by
  split
  · rename_i h; rw [h]; exact FS.get_del_same _ _
  · rename_i h; exact FS.get_del_ne _ h

theorem Agree.put {F : Path → Prop} {s s' : FS} (h : Agree F s s') (p : Path) (b : Bytes) : Agree F (s.put p b) (s'.put p b) := by
  intro q hq
  rw [get_put, get_put, h q hq]

theorem Agree.del {F : Path → Prop} {s s' : FS} (h : Agree F s s') (p : Path) : Agree F (s.del p) (s'.del p) := by
  intro q hq
  rw [get_del, get_del, h q hq]

variable {F : Path → Prop}

theorem Confined.look {p : Path} (h : F p) : Confined F (Proc.look p) :=
  ⟨fun _ _ _ => rfl, fun _ _ hs => ⟨hs, by simp only [hs p h]⟩, fun _ => trivial⟩

theorem grow_get (p q : Path) (x : Byte) (s : FS) : (Proc.grow p x s).get q = if q = p then (s.get p).map (· ++ [x]) else s.get q := by
  unfold Proc.grow
  split
  · rename_i d hd; rw [get_put, hd]; rfl
  · rename_i hd
    split
    · rename_i e; rw [e, hd]; rfl
    · rfl

theorem Confined.append {p : Path} (h : F p) (r : Res Unit) (b : Bytes) : Confined F (Proc.append p r b) := by
  induction b with
  | nil => trivial
  | cons x xs ih =>
    refine ⟨fun s q hq => ?_, fun s s' hs => ⟨fun q hq => ?_, rfl⟩, fun _ => ih⟩
    · rw [grow_get, if_neg]; rintro rfl; exact hq h
    · rw [grow_get, grow_get, hs p h, hs q hq]

theorem Confined.opened {p : Path} (h : F p) {q : Proc Unit} (hq : Confined F q) : Confined F (.act (fun s => s.put p []) fun _ => q) := by
  refine ⟨fun s q hq => ?_, fun s s' hs => ⟨hs.put _ _, rfl⟩, fun _ => hq⟩
  rw [get_put, if_neg]; rintro rfl; exact hq h

theorem Confined.create {p : Path} (h : F p) (e : Exc) (b : Bytes) (f : Fault) : Confined F (Proc.create e p b f) := by
  cases f with
  | none => exact .opened h (.append h _ _)
  | atOnce => trivial
  | after k => exact .opened h (.append h _ _)

theorem Confined.remove {p : Path} (h : F p) (b : Bool) : Confined F (Proc.remove p b) := by
  unfold Proc.remove
  split
  · trivial
  · refine ⟨fun s q hq => ?_, fun s s' hs => ⟨hs.del _, rfl⟩, fun _ => trivial⟩
    rw [get_del, if_neg]; rintro rfl; exact hq h

theorem Confined.copy {a b : Path} (ha : F a) (hb : F b) (f : Fault) : Confined F (Proc.copy a b f) := by
  unfold Proc.copy
  refine ⟨fun s q hq => ?_, fun s s' hs => ⟨?_, ?_⟩, fun s => ?_⟩
  · have : q ≠ b := by rintro rfl; exact hq hb
    dsimp only
    split <;> first | rfl | (rw [get_put, if_neg this])
  · simp only [hs a ha, hs b hb]
    split <;> first | exact hs | exact hs.put _ _
  · simp only [hs a ha, hs b hb]
  · dsimp only
    split <;> first | exact .append hb _ _ | trivial

theorem Confined.rename {a b : Path} (ha : F a) (hb : F b) (r : FM.Rename) : Confined F (Proc.rename a b r) := by
  unfold Proc.rename
  refine ⟨fun s q hq => ?_, fun s s' hs => ⟨?_, ?_⟩, fun s => ?_⟩
  · have h1 : q ≠ b := by rintro rfl; exact hq hb
    have h2 : q ≠ a := by rintro rfl; exact hq ha
    dsimp only
    split
    · rw [get_put, if_neg h1, get_del, if_neg h2]
    · rfl
  · simp only [hs a ha]
    split
    · exact (hs.del _).put _ _
    · exact hs
  · simp only [hs a ha]
  · dsimp only
    split <;> trivial

/-- The largest number depends on which names there are, not on their order. -/
theorem largest_congr {es es' : List Path} (h : ∀ q, q ∈ es ↔ q ∈ es') (hs : ∀ q ∈ es, suffix q = .ub .overflow ∨ ∃ n, suffix q = .ok n) :
    largest es = largest es' := by
  have bad : ∀ l : List Path, (∀ q ∈ l, suffix q = .ub .overflow ∨ ∃ n, suffix q = .ok n) → (∃ q ∈ l, suffix q = .ub .overflow) →
      largest l = .ub .overflow := by
    intro l
    induction l with
    | nil => intro _ h; obtain ⟨q, hq, _⟩ := h; cases hq
    | cons p ps ih =>
      intro h1 h2
      unfold largest
      rcases h1 p (by simp) with hp | ⟨n, hp⟩
      · rw [hp]; rfl
      · rw [hp, Res.ok_bind, ih (fun q hq => h1 q (by simp [hq])) ?_]
        · rfl
        · obtain ⟨q, hq, hq2⟩ := h2
          simp only [List.mem_cons] at hq
          rcases hq with rfl | hq
          · rw [hp] at hq2; cases hq2
          · exact ⟨q, hq, hq2⟩
  have hs' : ∀ q ∈ es', suffix q = .ub .overflow ∨ ∃ n, suffix q = .ok n := fun q hq => hs q ((h q).2 hq)
  by_cases hb : ∃ q ∈ es, suffix q = .ub .overflow
  · obtain ⟨q, h1, h2⟩ := hb
    rw [bad es hs ⟨q, h1, h2⟩, bad es' hs' ⟨q, (h q).1 h1, h2⟩]
  · have g : ∀ q ∈ es, ∃ n, suffix q = .ok n := fun q hq => (hs q hq).resolve_left fun hx => hb ⟨q, hq, hx⟩
    obtain ⟨m, hm⟩ := largest_ok g
    obtain ⟨m', hm'⟩ := largest_ok fun q hq => g q ((h q).2 hq)
    rw [hm, hm']
    by_cases hn : es = []
    · subst hn
      have : es' = [] := List.eq_nil_iff_forall_not_mem.2 fun q hq => by simpa using (h q).2 hq
      subst this
      rw [hm] at hm'; exact hm'
    · have hn' : es' ≠ [] := by
        intro e; subst e
        exact hn (List.eq_nil_iff_forall_not_mem.2 fun q hq => by simpa using (h q).1 hq)
      obtain ⟨q, hq, hq2⟩ := largest_mem hn hm
      obtain ⟨q', hq', hq2'⟩ := largest_mem hn' hm'
      obtain ⟨n, e1, e2⟩ := largest_le hm' q ((h q).1 hq)
      obtain ⟨n', e1', e2'⟩ := largest_le hm q' ((h q').2 hq')
      rw [hq2] at e1; cases e1
      rw [hq2'] at e1'; cases e1'
      congr 1; omega

theorem digit_iff (c : Byte) : isDigit c = true ↔ 48 ≤ c ∧ c ≤ 57 := by simp [isDigit]

theorem own_name {j : Job} (hp : PlainPath j.file) {q : Path} (h : parent q = parent j.file) (hm : matchesName j.pth q = true) :
    ∃ ds, q = j.file ++ dot :: ds ∧ ds ≠ [] ∧ ds.all isDigit = true ∧ j.file = j.pth := by
  obtain ⟨ds, rfl, h1, h2⟩ := (matches_iff _ _).1 hm
  have h3 : isAbs j.pth = true := by
    have ha : isAbs (j.pth ++ dot :: ds) = true := isAbs_parent (by rw [h]; exact (plain_facts hp []).2.2.1)
    cases hx : j.pth with
    | nil => rw [hx] at ha; simp [isAbs, dot, slash] at ha
    | cons x xs => rw [hx] at ha; simpa [isAbs] using ha
  have e : j.file = j.pth := absolute_abs h3
  exact ⟨ds, by rw [e], h1, h2, e⟩

theorem backupName_congr {j : Job} (hp : PlainPath j.file) {s s' : FS} (h : Agree (Own j) s s') :
    backupName s j.env.cwd j.pth = backupName s' j.env.cwd j.pth := by
  have hm : ∀ (s s' : FS), Agree (Own j) s s' → ∀ q,
      q ∈ (s.map (·.1)).filter (fun q => parent q = parent (absolute j.env.cwd j.pth) && matchesName j.pth q) →
      q ∈ (s'.map (·.1)).filter (fun q => parent q = parent (absolute j.env.cwd j.pth) && matchesName j.pth q) := by
    intro s s' h q hq
    rw [List.mem_filter] at hq ⊢
    refine ⟨?_, hq.2⟩
    obtain ⟨h1, h2⟩ := hq
    simp only [Bool.and_eq_true, decide_eq_true_eq] at h2
    obtain ⟨ds, e1, e2, e3, -⟩ := own_name hp h2.1 h2.2
    have : Own j q := .inr (.inr ⟨ds, e2, fun c hc => (digit_iff c).1 (List.all_eq_true.1 e3 c hc), e1⟩)
    exact FS.get_mem (by rw [← h q this]; exact FS.mem_get h1)
  have hm2 : ∀ q, q ∈ (s.map (·.1)).filter (fun q => parent q = parent (absolute j.env.cwd j.pth) && matchesName j.pth q) ↔
      q ∈ (s'.map (·.1)).filter (fun q => parent q = parent (absolute j.env.cwd j.pth) && matchesName j.pth q) :=
    fun q => ⟨hm s s' h q, hm s' s (fun q hq => (h q hq).symm) q⟩
  have hl : largest ((s.map (·.1)).filter (fun q => parent q = parent (absolute j.env.cwd j.pth) && matchesName j.pth q)) =
      largest ((s'.map (·.1)).filter (fun q => parent q = parent (absolute j.env.cwd j.pth) && matchesName j.pth q)) := by
    apply largest_congr hm2
    intro q hq
    rw [List.mem_filter] at hq
    simp only [Bool.and_eq_true, decide_eq_true_eq] at hq
    obtain ⟨ds, e1, e2, e3, -⟩ := own_name hp hq.2.1 hq.2.2
    rw [e1, suffix_eq j.file ds (plain_facts hp []).2.1 e3 e2]
    unfold atoi
    split
    · exact .inr ⟨_, rfl⟩
    · exact .inl rfl
  have hn : ((s.map (·.1)).filter (fun q => parent q = parent (absolute j.env.cwd j.pth) && matchesName j.pth q) = []) ↔
      ((s'.map (·.1)).filter (fun q => parent q = parent (absolute j.env.cwd j.pth) && matchesName j.pth q) = []) := by
    simp only [List.eq_nil_iff_forall_not_mem, hm2]
  unfold backupName
  simp only [hl]
  by_cases hx : (s'.map (·.1)).filter (fun q => parent q = parent (absolute j.env.cwd j.pth) && matchesName j.pth q) = []
  · rw [if_pos hx, if_pos (hn.2 hx)]
  · rw [if_neg hx, if_neg (fun h => hx (hn.1 h))]

/-- A backup belongs to the process that makes it. -/
theorem own_backup {j : Job} (hp : PlainPath j.file) {s : FS} {cp : Path} (h : backupName s j.env.cwd j.pth = .ok cp) :
    Own j (absolute j.env.cwd cp) := by
  obtain ⟨n, rfl⟩ := backupName_form hp h
  obtain ⟨d1, d2, d3⟩ := dec_digits n
  refine .inr (.inr ⟨dec n, d2, fun c hc => (digit_iff c).1 (List.all_eq_true.1 d1 c hc), ?_⟩)
  exact Replace.bk_abs hp ⟨n, rfl⟩

theorem confined_makeBackup {j : Job} (hp : PlainPath j.file) (rm : Bool) (f : Fault) {α : Type} {k : Path → Proc α}
    (hk : ∀ cp, Own j (absolute j.env.cwd cp) → Confined (Own j) (k cp)) : Confined (Own j) ((makeBackup j rm f).bind k) := by
  refine ⟨fun _ _ _ => rfl, fun s s' hs => ⟨hs, ?_⟩, fun s => ?_⟩
  · show Proc.bind (Proc.bind (Proc.ret (backupName s _ _)) _) k = _
    rw [backupName_congr hp hs]
  · show Confined (Own j) (Proc.bind (Proc.bind (Proc.ret (backupName s j.env.cwd j.pth)) _) k)
    cases hb : backupName s j.env.cwd j.pth with
    | throw e => trivial
    | ub u => trivial
    | ok cp =>
      have ho := own_backup hp hb
      have hc : Confined (Own j) (((Proc.look (absolute j.env.cwd cp)).bind fun there =>
          (if there.isSome then Proc.remove (absolute j.env.cwd cp) rm else .ret (.ok ())).bind fun _ =>
          Proc.copy j.file (absolute j.env.cwd cp) f).bind fun _ => k cp) := by
        refine Confined.bind (Confined.bind (Confined.look ho) fun there => Confined.bind ?_ fun _ => Confined.copy (.inl rfl) ho _) fun _ => hk cp ho
        split
        · exact Confined.remove ho _
        · trivial
      have assoc : ∀ {α β γ : Type} (p : Proc α) (f : α → Proc β) (g : β → Proc γ), (p.bind f).bind g = p.bind fun a => (f a).bind g := by
        intro α β γ p f g
        induction p with
        | ret r => cases r <;> rfl
        | act eff next ih => simp only [Proc.bind, ih]
      simp only [Proc.bind, assoc] at hc ⊢
      exact hc

theorem confined_replace {j : Job} (hp : PlainPath j.file) : Confined (Own j) (replace j) := by
  have hf : Own j j.file := .inl rfl
  have ht : Own j j.env.tmp := .inr (.inl rfl)
  have cross : ∀ cp : Option Path, (∀ c, cp = some c → Own j (absolute j.env.cwd c)) → Confined (Own j) (crossDevice j cp) := by
    intro cp hcp
    have rest : ∀ c, Own j (absolute j.env.cwd c) → Confined (Own j) ((Proc.remove j.file j.env.rmOld).bind fun _ =>
        ((Proc.copy j.env.tmp j.file j.env.copyNew).bind fun _ =>
          if j.keep then .ret (.ok ()) else Proc.remove j.env.tmp j.env.rmTmp).tryCatch fun x =>
        ((Proc.copy (absolute j.env.cwd c) j.file j.env.restore).tryCatch fun _ => .ret (.ok ())).bind fun _ => .ret (.throw x)) := by
      intro c hc
      refine (Confined.remove hf _).bind fun _ => Confined.tryCatch ((Confined.copy ht hf _).bind fun _ => ?_) fun x =>
        (Confined.tryCatch (f := fun _ => .ret (.ok ())) (Confined.copy hc hf _) fun _ => trivial).bind fun _ => trivial
      split
      · trivial
      · exact Confined.remove ht _
    unfold crossDevice
    cases cp with
    | some c => exact rest c (hcp c rfl)
    | none => exact confined_makeBackup hp _ _ rest
  have after : ∀ cp : Option Path, (∀ c, cp = some c → Own j (absolute j.env.cwd c)) →
      Confined (Own j) ((Proc.rename j.env.tmp j.file j.env.rename).bind fun
        | .done => .ret (.ok ())
        | .crossDevice => crossDevice j cp
        | .failed => .ret (.throw .fsError)) := by
    intro cp hcp
    refine (Confined.rename ht hf _).bind fun r => ?_
    cases r with
    | done => trivial
    | crossDevice => exact cross cp hcp
    | failed => trivial
  have shuf : Confined (Own j) (shuffle j) := by
    unfold shuffle
    split
    · have assoc : ∀ {α β γ : Type} (p : Proc α) (f : α → Proc β) (g : β → Proc γ), (p.bind f).bind g = p.bind fun a => (f a).bind g := by
        intro α β γ p f g
        induction p with
        | ret r => cases r <;> rfl
        | act eff next ih => simp only [Proc.bind, ih]
      rw [assoc]
      exact confined_makeBackup hp _ _ fun cp hcp => after (some cp) fun c hc => by cases hc; exact hcp
    · exact after none fun c hc => by cases hc
  unfold replace
  refine (Confined.look hf).bind fun old => ?_
  cases j.contents old with
  | ok new => exact (Confined.create ht _ _ _).bind fun _ => shuf
  | throw x => exact (Confined.create ht _ _ _).bind fun _ => trivial
  | ub u => trivial

/-- A process after some steps of its own. -/
def ahead {α : Type} : Nat → Proc α → FS → Proc α × FS
  | 0, p, s => (p, s)
  | _ + 1, .ret r, s => (.ret r, s)
  | n + 1, .act eff next, s => ahead n (next s) (eff s)

theorem ahead_step {α : Type} (n : Nat) (p : Proc α) (s : FS) :
    ahead (n + 1) p s = match ahead n p s with
      | (.ret r, s') => (.ret r, s')
      | (.act eff next, s') => (next s', eff s') := by
  induction n generalizing p s with
  | zero => cases p <;> rfl
  | succ n ih =>
    cases p with
    | ret r => rfl
    | act eff next => exact ih (next s) (eff s)

theorem ahead_exec {α : Type} (n : Nat) (p : Proc α) (s : FS) : exec (ahead n p s).1 (ahead n p s).2 = exec p s := by
  induction n generalizing p s with
  | zero => rfl
  | succ n ih =>
    cases p with
    | ret r => rfl
    | act eff next => exact ih (next s) (eff s)

theorem ahead_ends {α : Type} (p : Proc α) (s : FS) : ∃ n, ∀ m, n ≤ m → ∃ r s', ahead m p s = (.ret r, s') := by
  induction p generalizing s with
  | ret r => exact ⟨0, fun m _ => ⟨r, s, by cases m <;> rfl⟩⟩
  | act eff next ih =>
    obtain ⟨n, hn⟩ := ih s (eff s)
    refine ⟨n + 1, fun m hm => ?_⟩
    obtain ⟨k, rfl⟩ : ∃ k, m = k + 1 := ⟨m - 1, by omega⟩
    exact hn k (by omega)

/-- What holds of processes that keep to files of their own. -/
theorem apart_run {F : Nat → Path → Prop} (hF : ∀ i k q, F i q → F k q → i = k) (procs : Nat → Proc Unit) (hc : ∀ i, Confined (F i) (procs i)) (s0 : FS)
    (sched : List Nat) :
    (∀ i, Confined (F i) ((run sched ⟨procs, s0⟩).procs i) ∧ (run sched ⟨procs, s0⟩).procs i = (ahead (sched.count i) (procs i) s0).1 ∧
      Agree (F i) (run sched ⟨procs, s0⟩).fs (ahead (sched.count i) (procs i) s0).2) ∧
    ∀ q, (∀ i, ¬ F i q) → (run sched ⟨procs, s0⟩).fs.get q = s0.get q := by
  have key : ∀ (sched : List Nat) (done : Nat → Nat) (s : Sys), (∀ i, Confined (F i) (s.procs i) ∧ s.procs i = (ahead (done i) (procs i) s0).1 ∧
        Agree (F i) s.fs (ahead (done i) (procs i) s0).2) → (∀ q, (∀ i, ¬ F i q) → s.fs.get q = s0.get q) →
      (∀ i, Confined (F i) ((run sched s).procs i) ∧ (run sched s).procs i = (ahead (done i + sched.count i) (procs i) s0).1 ∧
        Agree (F i) (run sched s).fs (ahead (done i + sched.count i) (procs i) s0).2) ∧
      ∀ q, (∀ i, ¬ F i q) → (run sched s).fs.get q = s0.get q := by
    intro sched
    induction sched with
    | nil => intro done s h1 h2; exact ⟨by simpa [run] using h1, h2⟩
    | cons j js ih =>
      intro done s h1 h2
      have e : run (j :: js) s = run js (step j s) := rfl
      rw [e]
      have h3 := ih (fun i => if i = j then done i + 1 else done i) (step j s) ?_ ?_
      · refine ⟨fun i => ?_, h3.2⟩
        have h4 := h3.1 i
        by_cases hij : i = j
        · subst hij
          simp only [if_true] at h4
          rw [List.count_cons_self, show done i + (js.count i + 1) = done i + 1 + js.count i by omega]
          exact h4
        · simp only [hij, if_false] at h4
          rw [List.count_cons_of_ne (by simpa using fun h => hij h.symm)]
          exact h4
      · intro i
        obtain ⟨a1, a2, a3⟩ := h1 j
        unfold step
        cases hp : s.procs j with
        | ret r =>
          simp only
          by_cases hij : i = j
          · subst hij
            simp only [if_true]
            rw [hp] at a2
            have : ahead (done i + 1) (procs i) s0 = ahead (done i) (procs i) s0 := by
              rw [ahead_step]
              cases hh : ahead (done i) (procs i) s0 with
              | mk p s' => rw [hh] at a2; simp only at a2; subst a2; rfl
            rw [this]; exact h1 i
          · simp only [hij, if_false]; exact h1 i
        | act eff next =>
          simp only
          rw [hp] at a1 a2
          by_cases hij : i = j
          · subst hij
            simp only [if_true]
            cases hh : ahead (done i) (procs i) s0 with
            | mk p s' =>
              rw [hh] at a2 a3
              simp only at a2 a3
              subst a2
              rw [ahead_step, hh]
              simp only
              obtain ⟨b1, b2⟩ := a1.2.1 s.fs s' a3
              exact ⟨a1.2.2 _, b2, b1⟩
          · simp only [hij, if_false]
            obtain ⟨c1, c2, c3⟩ := h1 i
            refine ⟨c1, c2, fun q hq => ?_⟩
            rw [a1.1 s.fs q fun h => hij (hF i j q hq h)]
            exact c3 q hq
      · intro q hq
        unfold step
        cases hp : s.procs j with
        | ret r => exact h2 q hq
        | act eff next =>
          have a1 := (h1 j).1
          rw [hp] at a1
          simp only
          rw [a1.1 s.fs q (hq j)]
          exact h2 q hq
  have := key sched (fun _ => 0) ⟨procs, s0⟩ (fun i => ⟨hc i, rfl, fun _ _ => rfl⟩) fun _ _ => rfl
  simpa using this

/-! ## Processes that share a file -/

/-- What a process does to a state with the property `A`, as long as no other touches its temporary file, which holds `t`: it keeps `A`, changes files in `O` only,
and if it ends well then with `Q`. -/
def Sat {α : Type} (A : FS → Prop) (O : Path → Prop) (tmp : Path) : Proc α → Option Bytes → (α → Option Bytes → Prop) → Prop
  | .ret r, t, Q => ∀ a, r = .ok a → Q a t
  | .act eff next, t, Q => ∀ s, A s → s.get tmp = t → A (eff s) ∧ (∀ q, ¬ O q → (eff s).get q = s.get q) ∧ Sat A O tmp (next s) ((eff s).get tmp) Q

/-- A file that a property does not depend on. -/
def Free (A : FS → Prop) (p : Path) : Prop := ∀ s s' : FS, (∀ q, q ≠ p → s'.get q = s.get q) → A s → A s'

variable {A : FS → Prop} {O : Path → Prop} {tmp : Path}

theorem Sat.bind {α β : Type} {p : Proc α} {f : α → Proc β} {t : Option Bytes} {Q : α → Option Bytes → Prop} {R : β → Option Bytes → Prop}
    (h : Sat A O tmp p t Q) (hf : ∀ a t', Q a t' → Sat A O tmp (f a) t' R) : Sat A O tmp (p.bind f) t R := by
  induction p generalizing t with
  | ret r => cases r with
    | ok a => exact hf a t (h a rfl)
    | throw e => intro a ha; cases ha
    | ub u => intro a ha; cases ha
  | act eff next ih =>
    intro s hs ht
    obtain ⟨h1, h2, h3⟩ := h s hs ht
    exact ⟨h1, h2, ih s h3⟩

theorem Sat.tryCatch {α : Type} {p : Proc α} {f : Exc → Proc α} {t : Option Bytes} {Q : α → Option Bytes → Prop}
    (h : Sat A O tmp p t Q) (hf : ∀ e t', Sat A O tmp (f e) t' Q) : Sat A O tmp (p.tryCatch f) t Q := by
  induction p generalizing t with
  | ret r => cases r with
    | ok a => exact h
    | throw e => exact hf e t
    | ub u => intro a ha; cases ha
  | act eff next ih =>
    intro s hs ht
    obtain ⟨h1, h2, h3⟩ := h s hs ht
    exact ⟨h1, h2, ih s h3⟩

theorem Sat.ret {α : Type} {r : Res α} {t : Option Bytes} {Q : α → Option Bytes → Prop} (h : ∀ a, r = .ok a → Q a t) : Sat A O tmp (.ret r) t Q := h

theorem Sat.look {p : Path} {t : Option Bytes} {Q : Option Bytes → Option Bytes → Prop} (h : ∀ s, A s → s.get tmp = t → Q (s.get p) t) :
    Sat A O tmp (Proc.look p) t Q := fun s hs ht => ⟨hs, fun _ _ => rfl, fun a ha => by cases ha; rw [ht]; exact h s hs ht⟩

theorem Sat.name {cwd pth : Path} {t : Option Bytes} {Q : Path → Option Bytes → Prop} (h : ∀ s cp, A s → backupName s cwd pth = .ok cp → Q cp t) :
    Sat A O tmp (Proc.name cwd pth) t Q := fun s hs ht => ⟨hs, fun _ _ => rfl, fun a ha => by rw [ht]; exact h s a hs ha⟩

theorem Sat.append {p : Path} {r : Res Unit} {t : Option Bytes} {Q : Unit → Option Bytes → Prop} (hf : Free A p) (ho : O p) (hp : p ≠ tmp) (b : Bytes)
    (h : r = .ok () → Q () t) : Sat A O tmp (Proc.append p r b) t Q := by
  induction b generalizing t with
  | nil => intro a ha; exact h ha
  | cons x xs ih =>
    intro s hs ht
    refine ⟨hf s _ (fun q hq => by rw [grow_get, if_neg hq]) hs, fun q hq => ?_, ?_⟩
    · rw [grow_get, if_neg]; rintro rfl; exact hq ho
    · apply ih
      rw [grow_get, if_neg (fun h => hp h.symm), ht]
      exact h

theorem Sat.appendTmp {r : Res Unit} {Q : Unit → Option Bytes → Prop} (hf : Free A tmp) (ho : O tmp) (b d : Bytes)
    (h : r = .ok () → Q () (some (d ++ b))) : Sat A O tmp (Proc.append tmp r b) (some d) Q := by
  induction b generalizing d with
  | nil => intro a ha; simpa using h ha
  | cons x xs ih =>
    intro s hs ht
    refine ⟨hf s _ (fun q hq => by rw [grow_get, if_neg hq]) hs, fun q hq => ?_, ?_⟩
    · rw [grow_get, if_neg]; rintro rfl; exact hq ho
    · rw [grow_get, if_pos rfl, ht]
      apply ih
      simpa using h

theorem Sat.createTmp {e : Exc} {b : Bytes} {f : Fault} {t : Option Bytes} {Q : Unit → Option Bytes → Prop} (hf : Free A tmp) (ho : O tmp)
    (h : Q () (some b)) : Sat A O tmp (Proc.create e tmp b f) t Q := by
  have first : ∀ (p : Proc Unit), Sat A O tmp p (some []) Q → Sat A O tmp (.act (fun s => s.put tmp []) fun _ => p) t Q := by
    intro p hp s hs ht
    refine ⟨hf s _ (fun q hq => by rw [get_put, if_neg hq]) hs, fun q hq => ?_, ?_⟩
    · rw [get_put, if_neg]; rintro rfl; exact hq ho
    · rw [FS.get_put_same]; exact hp
  cases f with
  | none => exact first _ (Sat.appendTmp hf ho b [] fun _ => by simpa using h)
  | atOnce => intro a ha; cases ha
  | after k => exact first _ (Sat.appendTmp hf ho _ [] fun h => by cases h)

theorem Sat.remove {p : Path} {b : Bool} {t : Option Bytes} {Q : Unit → Option Bytes → Prop} (hf : Free A p) (ho : O p)
    (h : ∀ t', (p ≠ tmp → t' = t) → Q () t') : Sat A O tmp (Proc.remove p b) t Q := by
  unfold Proc.remove
  split
  · intro a ha; cases ha
  · intro s hs ht
    refine ⟨hf s _ (fun q hq => by rw [get_del, if_neg hq]) hs, fun q hq => ?_, fun a _ => h _ fun hp => ?_⟩
    · rw [get_del, if_neg]; rintro rfl; exact hq ho
    · rw [get_del, if_neg (fun h => hp h.symm), ht]

theorem Sat.copy {a b : Path} {f : Fault} {t : Option Bytes} {Q : Unit → Option Bytes → Prop} (hf : Free A b) (ho : O b) (hb : b ≠ tmp) (h : Q () t) :
    Sat A O tmp (Proc.copy a b f) t Q := by
  intro s hs ht
  have put : A (s.put b []) ∧ (∀ q, ¬ O q → (s.put b []).get q = s.get q) ∧ (s.put b []).get tmp = t := by
    refine ⟨hf s _ (fun q hq => by rw [get_put, if_neg hq]) hs, fun q hq => ?_, by rw [get_put, if_neg (fun h => hb h.symm), ht]⟩
    rw [get_put, if_neg]; rintro rfl; exact hq ho
  dsimp only
  split
  · refine ⟨put.1, put.2.1, ?_⟩
    rw [put.2.2]
    exact Sat.append hf ho hb _ fun _ => h
  · refine ⟨put.1, put.2.1, ?_⟩
    rw [put.2.2]
    exact Sat.append hf ho hb _ fun h => by cases h
  · exact ⟨hs, fun _ _ => rfl, fun a ha => by cases ha⟩

/-- What is to be known of a property that replacing tags keeps. -/
structure Kept (A : FS → Prop) (j : Job) (V : Option Bytes → Prop) : Prop where
  plain : PlainPath j.file
  tmp : j.env.tmp ≠ j.file ∧ ∀ ds, ds ≠ [] → (∀ c ∈ ds, 48 ≤ c ∧ c ≤ 57) → j.env.tmp ≠ j.file ++ dot :: ds
  freeTmp : Free A j.env.tmp
  freeBackup : ∀ s cp, A s → backupName s j.env.cwd j.pth = .ok cp → Free A (absolute j.env.cwd cp)
  freeFile : j.env.rename = .crossDevice → Free A j.file
  look : ∀ s, A s → V (s.get j.file)
  move : ∀ s d old, A s → V old → j.contents old = .ok d → s.get j.env.tmp = some d → A ((s.del j.env.tmp).put j.file d)

theorem Kept.tmpOwn {j : Job} {V : Option Bytes → Prop} (k : Kept A j V) {s : FS} {cp : Path} (h : backupName s j.env.cwd j.pth = .ok cp) :
    absolute j.env.cwd cp ≠ j.env.tmp := by
  obtain ⟨n, rfl⟩ := backupName_form k.plain h
  obtain ⟨d1, d2, d3⟩ := dec_digits n
  intro e
  have e2 : absolute j.env.cwd (absolute j.env.cwd j.pth ++ dot :: dec n) = j.file ++ dot :: dec n := Replace.bk_abs k.plain ⟨n, rfl⟩
  rw [e2] at e
  exact k.tmp.2 (dec n) d2 (fun c hc => (digit_iff c).1 (List.all_eq_true.1 d1 c hc)) e.symm

theorem sat_makeBackup {j : Job} {V : Option Bytes → Prop} (k : Kept A j V) (rm : Bool) (f : Fault) (t : Option Bytes) :
    Sat A (Own j) j.env.tmp (makeBackup j rm f) t fun cp t' =>
      t' = t ∧ Own j (absolute j.env.cwd cp) ∧ Free A (absolute j.env.cwd cp) ∧ absolute j.env.cwd cp ≠ j.env.tmp := by
  unfold makeBackup
  refine Sat.bind (Q := fun cp t' => t' = t ∧ Own j (absolute j.env.cwd cp) ∧ Free A (absolute j.env.cwd cp) ∧ absolute j.env.cwd cp ≠ j.env.tmp)
    (Sat.name fun s cp hs h => ⟨rfl, own_backup k.plain h, k.freeBackup s cp hs h, k.tmpOwn h⟩) ?_
  rintro cp t1 ⟨e1, h1, h2, h3⟩
  rw [e1]
  refine Sat.bind (Q := fun _ t' => t' = t) (Sat.look fun s _ _ => rfl) ?_
  intro there t2 e2
  rw [e2]
  refine Sat.bind (Q := fun _ t' => t' = t) ?_ ?_
  · split
    · exact Sat.remove h2 h1 fun t' h => h h3
    · exact Sat.ret fun _ _ => rfl
  · intro _ t3 e3
    rw [e3]
    exact Sat.bind (Q := fun _ t' => t' = t) (Sat.copy h2 h1 h3 rfl) fun _ _ e => Sat.ret fun a ha => by cases ha; exact ⟨e, h1, h2, h3⟩

theorem sat_replace {j : Job} {V : Option Bytes → Prop} (k : Kept A j V) (t : Option Bytes) :
    Sat A (Own j) j.env.tmp (replace j) t fun _ _ => True := by
  have hf : Own j j.file := .inl rfl
  have ht : Own j j.env.tmp := .inr (.inl rfl)
  have hne : j.file ≠ j.env.tmp := fun h => k.tmp.1 h.symm
  have cross : j.env.rename = .crossDevice → ∀ (cp : Option Path) t', Sat A (Own j) j.env.tmp (crossDevice j cp) t' fun _ _ => True := by
    intro hr cp t'
    have hfree := k.freeFile hr
    unfold crossDevice
    refine Sat.bind (Q := fun _ _ => True) ?_ ?_
    · cases cp with
      | some c => exact Sat.ret fun _ _ => trivial
      | none =>
        refine (show Sat A (Own j) j.env.tmp ((makeBackup j j.env.rmBackup2 j.env.backup2).bind fun cp => .ret (.ok cp)) t' _ from
          Sat.bind (sat_makeBackup k _ _ t') fun a t' _ => Sat.ret fun _ _ => trivial) |> fun h => ?_
        have e : (makeBackup j j.env.rmBackup2 j.env.backup2).bind (fun cp => .ret (.ok cp)) = makeBackup j j.env.rmBackup2 j.env.backup2 := by
          generalize makeBackup j j.env.rmBackup2 j.env.backup2 = p
          induction p with
          | ret r => cases r <;> rfl
          | act eff next ih => simp only [Proc.bind, ih]
        rw [e] at h
        exact h
    · intro c t2 _
      refine Sat.bind (Q := fun _ _ => True) (Sat.remove hfree hf fun _ _ => trivial) ?_
      intro _ t3 _
      refine Sat.tryCatch (Sat.bind (Q := fun _ _ => True) (Sat.copy hfree hf hne trivial) fun _ t4 _ => ?_) fun x t4 =>
        Sat.bind (Q := fun _ _ => True) (Sat.tryCatch (Sat.copy hfree hf hne trivial) fun _ _ => Sat.ret fun _ _ => trivial) fun _ _ _ =>
          Sat.ret fun _ _ => trivial
      split
      · exact Sat.ret fun _ _ => trivial
      · exact Sat.remove k.freeTmp ht fun _ _ => trivial
  unfold replace
  refine Sat.bind (Q := fun old _ => V old) (Sat.look fun s hs _ => k.look s hs) ?_
  intro old t1 hv
  cases hc : j.contents old with
  | ub u => exact Sat.ret fun _ h => by cases h
  | throw x => exact Sat.bind (Q := fun _ _ => True) (Sat.createTmp k.freeTmp ht trivial) fun _ _ _ => Sat.ret fun _ h => by cases h
  | ok new =>
    refine Sat.bind (Q := fun _ t' => t' = some new) (Sat.createTmp k.freeTmp ht rfl) ?_
    rintro _ _ rfl
    unfold shuffle
    refine Sat.bind (Q := fun _ t' => t' = some new) ?_ ?_
    · split
      · exact Sat.bind (sat_makeBackup k _ _ _) fun a t' h => Sat.ret fun _ _ => h.1
      · exact Sat.ret fun _ _ => rfl
    · rintro cp _ rfl
      refine Sat.bind (Q := fun r _ => r = .crossDevice → j.env.rename = .crossDevice) ?_ ?_
      · intro s hs hs2
        dsimp only
        cases hr : j.env.rename with
        | done =>
          rw [hs2]
          refine ⟨k.move s new old hs hv hc hs2, fun q hq => ?_, fun a ha => ?_⟩
          · rw [get_put, if_neg (by rintro rfl; exact hq hf), get_del, if_neg (by rintro rfl; exact hq ht)]
          · cases ha; intro h; cases h
        | crossDevice => exact ⟨hs, fun _ _ => rfl, fun a ha => fun _ => rfl⟩
        | failed => exact ⟨hs, fun _ _ => rfl, fun a ha => by cases ha; intro h; cases h⟩
      · intro r t' hr
        cases r with
        | done => exact Sat.ret fun _ _ => trivial
        | crossDevice => exact cross (hr rfl) cp t'
        | failed => exact Sat.ret fun _ h => by cases h

/-- A property that every process keeps, if they leave the temporary files of others alone. -/
theorem sat_run {O : Nat → Path → Prop} {tmp : Nat → Path} (h : ∀ i k, i ≠ k → ¬ O i (tmp k)) (sched : List Nat) (s : Sys) (hs : A s.fs)
    (hp : ∀ i, Sat A (O i) (tmp i) (s.procs i) (s.fs.get (tmp i)) fun _ _ => True) : A (run sched s).fs := by
  induction sched generalizing s with
  | nil => exact hs
  | cons i is ih =>
    have e : run (i :: is) s = run is (step i s) := rfl
    rw [e]
    have hi := hp i
    unfold step
    cases hx : s.procs i with
    | ret r => exact ih s hs hp
    | act eff next =>
      rw [hx] at hi
      obtain ⟨h1, h2, h3⟩ := hi s.fs hs rfl
      apply ih
      · exact h1
      · intro k
        by_cases hk : k = i
        · subst hk; simpa using h3
        · simp only [hk, if_false]
          rw [h2 _ (h i k (fun h => hk h.symm))]
          exact hp k

/-- The name of a backup is followed by a number that is larger than all in use. -/
theorem backupName_above {s : FS} {j : Job} {cp : Path} (hp : PlainPath j.file) (ha : j.file = j.pth) (h : backupName s j.env.cwd j.pth = .ok cp) :
    ∃ n, absolute j.env.cwd cp = j.file ++ dot :: dec n ∧ ∀ ds, ds ≠ [] → ds.all isDigit = true → s.get (j.file ++ dot :: ds) ≠ none → digits ds < n := by
  obtain ⟨n, hn⟩ := backupName_form hp h
  refine ⟨n, by rw [hn]; exact Replace.bk_abs hp ⟨n, rfl⟩, ?_⟩
  intro ds hd1 hd2 hd3
  have hmem : j.file ++ dot :: ds ∈ (s.map (·.1)).filter (fun q => parent q = parent (absolute j.env.cwd j.pth) && matchesName j.pth q) := by
    rw [List.mem_filter]
    refine ⟨FS.get_mem hd3, ?_⟩
    simp only [Bool.and_eq_true, decide_eq_true_eq]
    exact ⟨parent_append _ _ (suffix_noslash hd2), (matches_iff _ _).2 ⟨ds, by rw [ha], hd1, hd2⟩⟩
  unfold backupName at h
  dsimp only at h
  rw [if_neg (fun e => by rw [e] at hmem; cases hmem), Res.bind_eq_ok] at h
  obtain ⟨m, h1, h2⟩ := h
  split at h2
  · cases h2
    obtain ⟨x, h3, h4⟩ := largest_le h1 _ hmem
    rw [suffix_eq j.file ds (plain_facts hp []).2.1 hd2 hd1] at h3
    unfold atoi at h3
    split at h3
    · cases h3
      have e : dec (m + 1) = dec n := by
        have : j.pth ++ dot :: dec (m + 1) = j.pth ++ dot :: dec n := by rw [hn]; congr 1
        simpa using this
      have := congrArg digits e
      rw [(dec_digits _).2.2, (dec_digits _).2.2] at this
      omega
    · cases h3
  · cases h2

end Scribbu.Procs
