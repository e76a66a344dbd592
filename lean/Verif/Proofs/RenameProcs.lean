import Verif.Spec.RenameProcs
import Verif.Proofs.Procs

/-! Lemmas about processes that rename files at the same time. -/

namespace Scribbu.Procs
open Path Backup Scribbu.Spec.Procs

/-! ## If no other process takes a step -/

theorem does_file (file : Path → Path) (P : Path → Bytes → Res Bytes) (o : Rename.Options) (v : Rename.Visit) :
    Does (renameFile file P o v) (Rename.processFile file P o v) := by
  unfold renameFile Rename.processFile Rename.catchError
  refine Does.tryCatch ((Does.look _).bind fun d => ?_) fun e => ?_
  · cases d with
    | none => exact Does.ret _
    | some d =>
      refine (Does.ret _).bind fun name => ?_
      dsimp only
      split
      · refine (Does.copy _ _ _).bind fun _ => ?_
        split
        · exact Does.remove _ _
        · exact Does.ret _
      · exact Does.ret _
  · unfold caught
    split <;> exact Does.ret _

theorem does_renames (file : Path → Path) (P : Path → Bytes → Res Bytes) (o : Rename.Options) (vs : List Rename.Visit) :
    Does (renameAll file P o vs) (Rename.run file P o vs) := by
  induction vs with
  | nil => exact Does.ret _
  | cons v vs ih => exact (does_file file P o v).bind fun _ => ih

/-- Alone, a process does what the sequential model says. -/
theorem exec_rename (file : Path → Path) (r : Renamer) (s : FS) :
    exec (r.proc file) s = ((Rename.run file r.tpl r.opts r.visits s).res, (Rename.run file r.tpl r.opts r.visits s).fs) :=
  does_renames file r.tpl r.opts r.visits s

/-! ## Many processes -/

namespace Renaming

section
variable (file : Path → Path) (rs : Nat → Renamer) (s0 : FS)

/-- What follows a piece of `process_file`. -/
def after (i : Nat) (vs : List Rename.Visit) (p : Proc Unit) : Proc Unit :=
  (p.tryCatch caught).bind fun _ => renameAll file (rs i).tpl (rs i).opts vs

/-- The second half of `process_file`. -/
def tidy (i : Nat) (v : Rename.Visit) : Proc Unit := if (rs i).opts.rename then Proc.remove (file v.pth) v.rm else .ret (.ok ())

/-- A file with all of `d` that nobody will touch; `w i` is the file that process `i` is writing. -/
structure Kept (w : Nat → Option Path) (s : FS) (b : Path) (d : Bytes) : Prop where
  target : Target file rs b
  fresh : s0.get b = none
  now : s.get b = some d
  quiet : ∀ j, w j ≠ some b

/-- Where a process is to put a file. -/
def Dest (i : Nat) (v : Rename.Visit) (out : Path) : Prop :=
  ∃ d name, s0.get (file v.pth) = some d ∧ (rs i).tpl v.pth d = .ok name ∧ out = Rename.destination (rs i).opts v.pth name

/-- A file has been dealt with. -/
def Dealt (w : Nat → Option Path) (s : FS) (i : Nat) (v : Rename.Visit) : Prop :=
  ∃ d, s0.get (file v.pth) = some d ∧ ((rs i).tpl v.pth d = .throw .missing ∨ ∃ name, (rs i).tpl v.pth d = .ok name ∧
    ((rs i).opts.dryRun = true ∨ elems v.pth = elems (Rename.destination (rs i).opts v.pth name) ∨
      Kept file rs s0 w s (file (Rename.destination (rs i).opts v.pth name)) d))

/-- What is left to do. -/
def Left (w : Nat → Option Path) (s : FS) (i : Nat) (vs : List Rename.Visit) : Prop :=
  ∃ ds, (rs i).visits = ds ++ vs ∧ ∀ v ∈ ds, Dealt file rs s0 w s i v

/-- Where a process may be. -/
inductive Ok (w : Nat → Option Path) (s : FS) (i : Nat) : Proc Unit → Prop
  | visit (vs : List Rename.Visit) : Left file rs s0 w s i vs → w i = none → Ok w s i (renameAll file (rs i).tpl (rs i).opts vs)
  | placing (v : Rename.Visit) (out : Path) (vs : List Rename.Visit) : Dest file rs s0 i v out → Left file rs s0 w s i (v :: vs) → w i = none →
      Target file rs (file out) → Ok w s i (after file rs i vs (place file (rs i).opts v out))
  | writing (v : Rename.Visit) (out : Path) (vs : List Rename.Visit) (r : Res Unit) (pre : Bytes) (x : Byte) (rest : Bytes) : Dest file rs s0 i v out →
      Left file rs s0 w s i (v :: vs) → w i = some (file out) → Target file rs (file out) → s0.get (file out) = none → s.get (file out) = some pre →
      (r = .ok () ∧ s0.get (file v.pth) = some (pre ++ x :: rest) ∨ r = .throw .fsError) →
      Ok w s i (after file rs i vs ((Proc.append (file out) r (x :: rest)).bind fun _ => tidy file rs i v))
  | removing (v : Rename.Visit) (out : Path) (vs : List Rename.Visit) (d : Bytes) : Dest file rs s0 i v out → Left file rs s0 w s i (v :: vs) → w i = none →
      s0.get (file v.pth) = some d → Kept file rs s0 w s (file out) d → Ok w s i (after file rs i vs (Proc.remove (file v.pth) v.rm))
  | ended (r : Res Unit) : (r = .ok () → Left file rs s0 w s i []) → w i = none → Ok w s i (.ret r)

/-- What holds all the time. -/
structure Inv (w : Nat → Option Path) (y : Sys) : Prop where
  ok : ∀ i, Ok file rs s0 w y.fs i (y.procs i)
  one : ∀ i j b, w i = some b → w j = some b → i = j
  others : ∀ q d, ¬ Source file rs q → s0.get q = some d → y.fs.get q = some d
  absent : ∀ q, Source file rs q → s0.get q = none → y.fs.get q = none
  sources : ∀ q d, Source file rs q → s0.get q = some d → y.fs.get q = some d ∨ y.fs.get q = none ∧ ∃ b, Kept file rs s0 w y.fs b d

variable {file rs s0}

theorem Left.mono {w w' : Nat → Option Path} {s s' : FS} {i : Nat} {vs : List Rename.Visit} (h : Left file rs s0 w s i vs)
    (hk : ∀ b d, Kept file rs s0 w s b d → Kept file rs s0 w' s' b d) : Left file rs s0 w' s' i vs := by
  obtain ⟨ds, h1, h2⟩ := h
  refine ⟨ds, h1, fun v hv => ?_⟩
  obtain ⟨d, h3, h4⟩ := h2 v hv
  refine ⟨d, h3, h4.imp_right ?_⟩
  rintro ⟨name, h5, h6⟩
  exact ⟨name, h5, h6.imp_right fun h => h.imp_right (hk _ _)⟩

theorem Left.next {w : Nat → Option Path} {s : FS} {i : Nat} {v : Rename.Visit} {vs : List Rename.Visit} (h : Left file rs s0 w s i (v :: vs))
    (hv : Dealt file rs s0 w s i v) : Left file rs s0 w s i vs := by
  obtain ⟨ds, h1, h2⟩ := h
  refine ⟨ds ++ [v], by simp [h1], fun u hu => ?_⟩
  simp only [List.mem_append, List.mem_singleton] at hu
  rcases hu with hu | rfl
  · exact h2 u hu
  · exact hv

theorem Left.mem {w : Nat → Option Path} {s : FS} {i : Nat} {v : Rename.Visit} {vs : List Rename.Visit} (h : Left file rs s0 w s i (v :: vs)) :
    v ∈ (rs i).visits := by
  obtain ⟨ds, h1, _⟩ := h
  rw [h1]; simp

theorem Dest.dealt {w : Nat → Option Path} {s : FS} {i : Nat} {v : Rename.Visit} {out : Path} {d : Bytes} (h : Dest file rs s0 i v out)
    (h0 : s0.get (file v.pth) = some d) (hk : Kept file rs s0 w s (file out) d) : Dealt file rs s0 w s i v := by
  obtain ⟨d', name, h1, h2, rfl⟩ := h
  rw [h0] at h1; cases h1
  exact ⟨d, h0, .inr ⟨name, h2, .inr (.inr hk)⟩⟩

theorem Ok.mono {w w' : Nat → Option Path} {s s' : FS} {i : Nat} {p : Proc Unit} (h : Ok file rs s0 w s i p) (hw : w' i = w i)
    (hs : ∀ b, w i = some b → s'.get b = s.get b) (hk : ∀ b d, Kept file rs s0 w s b d → Kept file rs s0 w' s' b d) : Ok file rs s0 w' s' i p := by
  cases h with
  | visit vs h1 h2 => exact .visit vs (h1.mono hk) (hw.trans h2)
  | placing v out vs h1 h2 h3 h4 => exact .placing v out vs h1 (h2.mono hk) (hw.trans h3) h4
  | writing v out vs r pre x rest h1 h2 h3 h4 h5 h6 h7 =>
    exact .writing v out vs r pre x rest h1 (h2.mono hk) (hw.trans h3) h4 h5 ((hs _ h3).trans h6) h7
  | removing v out vs d h1 h2 h3 h4 h5 => exact .removing v out vs d h1 (h2.mono hk) (hw.trans h3) h4 (hk _ d h5)
  | ended r h0 h1 => exact .ended r (fun e => (h0 e).mono hk) (hw.trans h1)

theorem Ok.writes {w : Nat → Option Path} {s : FS} {i : Nat} {p : Proc Unit} (h : Ok file rs s0 w s i p) {b : Path} (hw : w i = some b) :
    Target file rs b ∧ s0.get b = none ∧ ∃ pre, s.get b = some pre := by
  cases h with
  | visit vs h1 h2 => rw [h2] at hw; cases hw
  | placing v out vs h1 h2 h3 h4 => rw [h3] at hw; cases hw
  | writing v out vs r pre x rest h1 h2 h3 h4 h5 h6 h7 => rw [h3] at hw; cases hw; exact ⟨h4, h5, pre, h6⟩
  | removing v out vs d h1 h2 h3 h4 h5 => rw [h3] at hw; cases hw
  | ended r h0 h1 => rw [h1] at hw; cases hw

/-- A piece that has ended. -/
theorem Ok.over {w : Nat → Option Path} {s : FS} {i : Nat} {vs : List Rename.Visit} (r : Res Unit) (h1 : r = .ok () ∨ r = .throw .missing → Left file rs s0 w s i vs)
    (h2 : w i = none) : Ok file rs s0 w s i (after file rs i vs (.ret r)) := by
  cases r with
  | ok a => exact .visit vs (h1 (.inl rfl)) h2
  | ub u => exact .ended _ (by simp) h2
  | throw e =>
    show Ok file rs s0 w s i ((caught e).bind fun _ => renameAll file (rs i).tpl (rs i).opts vs)
    unfold caught
    split
    · rename_i e; exact .visit vs (h1 (.inr (by rw [e]))) h2
    · exact .ended _ (by simp) h2

/-- What follows when the copy is complete. -/
theorem Ok.tidied {w : Nat → Option Path} {s : FS} {i : Nat} {v : Rename.Visit} {vs : List Rename.Visit} {out : Path} {d : Bytes} (h0 : Dest file rs s0 i v out)
    (h1 : Left file rs s0 w s i (v :: vs)) (h2 : w i = none) (h3 : s0.get (file v.pth) = some d) (h4 : Kept file rs s0 w s (file out) d) :
    Ok file rs s0 w s i (after file rs i vs (tidy file rs i v)) := by
  unfold tidy
  split
  · exact .removing v out vs d h0 h1 h2 h3 h4
  · exact .over _ (fun _ => h1.next (h0.dealt h3 h4)) h2

/-- A step that changes nothing but the process that takes it. -/
theorem Inv.same {w : Nat → Option Path} {y : Sys} (h : Inv file rs s0 w y) (i : Nat) {p : Proc Unit} (hp : Ok file rs s0 w y.fs i p) :
    Inv file rs s0 w ⟨fun k => if k = i then p else y.procs k, y.fs⟩ := by
  refine ⟨fun k => ?_, h.one, h.others, h.absent, h.sources⟩
  dsimp only
  split
  · rename_i e; subst e; exact hp
  · exact h.ok k

/-- What a process writes now. -/
def setW (w : Nat → Option Path) (i : Nat) (b : Option Path) : Nat → Option Path := fun k => if k = i then b else w k

theorem setW_same (w : Nat → Option Path) (i : Nat) (b : Option Path) : setW w i b i = b := by simp [setW]
theorem setW_ne (w : Nat → Option Path) {i k : Nat} (b : Option Path) (h : k ≠ i) : setW w i b k = w k := by simp [setW, h]

variable (hd : ∀ q, Source file rs q → ¬ Target file rs q)

include hd in
/-- A file is made. -/
theorem Inv.made {w : Nat → Option Path} {y : Sys} (h : Inv file rs s0 w y) (i : Nat) {out : Path} {p : Proc Unit} {nw : Option Path} (ht : Target file rs out)
    (hn : y.fs.get out = none) (hi : w i = none) (hnw : nw = some out ∨ nw = none)
    (hp : s0.get out = none → (∀ b d, Kept file rs s0 w y.fs b d → Kept file rs s0 (setW w i nw) (y.fs.put out []) b d) → 
      Ok file rs s0 (setW w i nw) (y.fs.put out []) i p) :
    Inv file rs s0 (setW w i nw) ⟨fun k => if k = i then p else y.procs k, y.fs.put out []⟩ := by
  have hns : ¬ Source file rs out := fun hs => hd _ hs ht
  have fresh : s0.get out = none := by
    cases e : s0.get out with
    | none => rfl
    | some d => rw [h.others _ _ hns e] at hn; cases hn
  have busy : ∀ j b, w j = some b → b ≠ out := by
    intro j b hj e
    subst e
    obtain ⟨_, _, pre, hpre⟩ := (h.ok j).writes hj
    rw [hn] at hpre; cases hpre
  have kept : ∀ b d, Kept file rs s0 w y.fs b d → Kept file rs s0 (setW w i nw) (y.fs.put out []) b d := by
    intro b d hb
    have hne : b ≠ out := by rintro rfl; have := hb.now; rw [hn] at this; cases this
    refine ⟨hb.target, hb.fresh, ?_, fun j => ?_⟩
    · rw [get_put, if_neg hne]; exact hb.now
    · by_cases hj : j = i
      · subst hj; rw [setW_same]
        rcases hnw with e | e <;> rw [e]
        · intro e; exact hne (Option.some.inj e).symm
        · simp
      · rw [setW_ne _ _ hj]; exact hb.quiet j
  refine ⟨fun k => ?_, fun a b q ha hb => ?_, fun q d hq hg => ?_, fun q hq hg => ?_, fun q d hq hg => ?_⟩
  · dsimp only
    split
    · rename_i e; subst e; exact hp fresh kept
    · rename_i e
      exact (h.ok k).mono (setW_ne _ _ e) (fun b hb => by rw [get_put, if_neg (busy k b hb)]) kept
  · by_cases ea : a = i <;> by_cases eb : b = i
    · rw [ea, eb]
    · subst ea; rw [setW_same] at ha; rw [setW_ne _ _ eb] at hb
      rcases hnw with e | e
      · rw [e] at ha; exact absurd (Option.some.inj ha).symm (busy b q hb)
      · rw [e] at ha; cases ha
    · subst eb; rw [setW_same] at hb; rw [setW_ne _ _ ea] at ha
      rcases hnw with e | e
      · rw [e] at hb; exact absurd (Option.some.inj hb).symm (busy a q ha)
      · rw [e] at hb; cases hb
    · rw [setW_ne _ _ ea] at ha; rw [setW_ne _ _ eb] at hb; exact h.one a b q ha hb
  · dsimp only
    rw [get_put, if_neg]
    · exact h.others q d hq hg
    · rintro rfl; rw [fresh] at hg; cases hg
  · dsimp only
    rw [get_put, if_neg (by rintro rfl; exact hns hq)]; exact h.absent q hq hg
  · dsimp only
    rw [get_put, if_neg (by rintro rfl; exact hns hq)]
    rcases h.sources q d hq hg with e | ⟨e, b, hb⟩
    · exact .inl e
    · exact .inr ⟨e, b, kept b d hb⟩

include hd in
/-- A byte is written. -/
theorem Inv.grown {w : Nat → Option Path} {y : Sys} (h : Inv file rs s0 w y) (i : Nat) {out : Path} {pre : Bytes} {x : Byte} {p : Proc Unit} {nw : Option Path}
    (ht : Target file rs out) (fresh : s0.get out = none) (hg : y.fs.get out = some pre) (hi : w i = some out) (hnw : nw = some out ∨ nw = none)
    (hp : (Proc.grow out x y.fs).get out = some (pre ++ [x]) → (∀ j, nw = none → setW w i nw j ≠ some out) → (∀ b d, Kept file rs s0 w y.fs b d → Kept file rs s0 (setW w i nw) (Proc.grow out x y.fs) b d) → 
      Ok file rs s0 (setW w i nw) (Proc.grow out x y.fs) i p) :
    Inv file rs s0 (setW w i nw) ⟨fun k => if k = i then p else y.procs k, Proc.grow out x y.fs⟩ := by
  have hns : ¬ Source file rs out := fun hs => hd _ hs ht
  have busy : ∀ j b, j ≠ i → w j = some b → b ≠ out := by
    intro j b hj hb e; subst e
    exact hj (h.one j i _ hb hi)
  have kept : ∀ b d, Kept file rs s0 w y.fs b d → Kept file rs s0 (setW w i nw) (Proc.grow out x y.fs) b d := by
    intro b d hb
    have hne : b ≠ out := by rintro rfl; exact hb.quiet i hi
    refine ⟨hb.target, hb.fresh, ?_, fun j => ?_⟩
    · rw [grow_get, if_neg hne]; exact hb.now
    · by_cases hj : j = i
      · subst hj; rw [setW_same]
        rcases hnw with e | e <;> rw [e]
        · intro e; exact hne (Option.some.inj e).symm
        · simp
      · rw [setW_ne _ _ hj]; exact hb.quiet j
  refine ⟨fun k => ?_, fun a b q ha hb => ?_, fun q d hq hz => ?_, fun q hq hg => ?_, fun q d hq hg => ?_⟩
  · dsimp only
    split
    · rename_i e; subst e
      refine hp (by rw [grow_get, if_pos rfl, hg]; rfl) (fun j hn => ?_) kept
      by_cases hj : j = k
      · subst hj; rw [setW_same, hn]; simp
      · rw [setW_ne _ _ hj]; intro e; exact busy j out hj e rfl
    · rename_i e
      exact (h.ok k).mono (setW_ne _ _ e) (fun b hb => by rw [grow_get, if_neg (busy k b e hb)]) kept
  · by_cases ea : a = i <;> by_cases eb : b = i
    · rw [ea, eb]
    · subst ea; rw [setW_same] at ha; rw [setW_ne _ _ eb] at hb
      rcases hnw with e | e
      · rw [e] at ha; exact absurd (Option.some.inj ha).symm (busy b q eb hb)
      · rw [e] at ha; cases ha
    · subst eb; rw [setW_same] at hb; rw [setW_ne _ _ ea] at ha
      rcases hnw with e | e
      · rw [e] at hb; exact absurd (Option.some.inj hb).symm (busy a q ea ha)
      · rw [e] at hb; cases hb
    · rw [setW_ne _ _ ea] at ha; rw [setW_ne _ _ eb] at hb; exact h.one a b q ha hb
  · dsimp only
    rw [grow_get, if_neg]
    · exact h.others q d hq hz
    · rintro rfl; rw [fresh] at hz; cases hz
  · dsimp only
    rw [grow_get, if_neg (by rintro rfl; exact hns hq)]; exact h.absent q hq hg
  · dsimp only
    rw [grow_get, if_neg (by rintro rfl; exact hns hq)]
    rcases h.sources q d hq hg with e | ⟨e, b, hb⟩
    · exact .inl e
    · exact .inr ⟨e, b, kept b d hb⟩

include hd in
/-- A source is removed. -/
theorem Inv.removed {w : Nat → Option Path} {y : Sys} (h : Inv file rs s0 w y) (i : Nat) {q : Path} {b : Path} {d : Bytes} {p : Proc Unit}
    (hq : Source file rs q) (h0 : s0.get q = some d) (hb : Kept file rs s0 w y.fs b d)
    (hp : (∀ b d, Kept file rs s0 w y.fs b d → Kept file rs s0 w (y.fs.del q) b d) → Ok file rs s0 w (y.fs.del q) i p) :
    Inv file rs s0 w ⟨fun k => if k = i then p else y.procs k, y.fs.del q⟩ := by
  have kept : ∀ b d, Kept file rs s0 w y.fs b d → Kept file rs s0 w (y.fs.del q) b d := by
    intro b d hb
    refine ⟨hb.target, hb.fresh, ?_, hb.quiet⟩
    rw [get_del, if_neg]
    · exact hb.now
    · rintro rfl; exact hd _ hq hb.target
  have busy : ∀ j b, w j = some b → b ≠ q := by
    intro j b hj e
    subst e
    exact hd _ hq ((h.ok j).writes hj).1
  refine ⟨fun k => ?_, h.one, fun p d hs hg => ?_, fun p hs hg => ?_, fun p d' hs hg => ?_⟩
  · dsimp only
    split
    · rename_i e; subst e; exact hp kept
    · exact (h.ok k).mono rfl (fun b hb => by rw [get_del, if_neg (busy k b hb)]) kept
  · dsimp only
    rw [get_del, if_neg (by rintro rfl; exact hs hq)]; exact h.others p d hs hg
  · dsimp only
    rw [get_del]; split
    · rfl
    · exact h.absent p hs hg
  · dsimp only
    rw [get_del]
    split
    · rename_i e; subst e
      rw [h0] at hg; cases hg
      exact .inr ⟨rfl, b, kept b d hb⟩
    · rcases h.sources p d' hs hg with e | ⟨e, b, hb⟩
      · exact .inl e
      · exact .inr ⟨e, b, kept b d' hb⟩

/-- What is in a source has been in it from the first. -/
theorem Inv.source {w : Nat → Option Path} {y : Sys} (h : Inv file rs s0 w y) {q : Path} {d : Bytes} (hq : Source file rs q) (ha : y.fs.get q = some d) :
    s0.get q = some d := by
  cases e : s0.get q with
  | none => rw [h.absent _ hq e] at ha; cases ha
  | some d' =>
    rcases h.sources _ _ hq e with hx | ⟨hx, _⟩
    · rw [← hx, ha]
    · rw [ha] at hx; cases hx

include hd in
/-- Any step of any process. -/
theorem Inv.step {w : Nat → Option Path} {y : Sys} (h : Inv file rs s0 w y) (i : Nat) : ∃ w', Inv file rs s0 w' (step i y) := by
  have hi := h.ok i
  generalize hp : y.procs i = p at hi
  unfold Procs.step
  cases hi with
  | ended r h0 h1 => rw [hp]; exact ⟨w, h⟩
  | visit vs h1 h2 =>
    cases vs with
    | nil => rw [hp]; exact ⟨w, h⟩
    | cons v vs =>
      rw [hp]
      refine ⟨w, ?_⟩
      have hv : v ∈ (rs i).visits := h1.mem
      refine Inv.same h i (p := after file rs i vs _) ?_
      dsimp only [Proc.bind]
      cases ha : y.fs.get (file v.pth) with
      | none => exact .over _ (by simp) h2
      | some d =>
        have h0 := h.source ⟨i, v, hv, rfl⟩ ha
        dsimp only
        cases e : (rs i).tpl v.pth d with
        | throw x => exact .over _ (fun hx => h1.next ⟨d, h0, .inl (by rcases hx with hx | hx <;> cases hx; exact e)⟩) h2
        | ub u => exact .over _ (by simp) h2
        | ok name =>
          dsimp only [Proc.bind]
          split
          · exact .placing v _ vs ⟨d, name, h0, e, rfl⟩ h1 h2 ⟨i, v, hv, d, name, e, rfl⟩
          · rename_i hc
            refine .over _ (fun _ => h1.next ⟨d, h0, .inr ⟨name, e, ?_⟩⟩) h2
            by_cases hd : (rs i).opts.dryRun = true
            · exact .inl hd
            · refine .inr (.inl (Decidable.byContradiction fun hn => hc ⟨by simp [hd], hn⟩))
  | placing v out vs h1 h2 h3 h4 =>
    rw [hp]
    have hsrc : Source file rs (file v.pth) := ⟨i, v, h2.mem, rfl⟩
    have same : ∀ q : Proc Unit, Ok file rs s0 w y.fs i q → ∃ w', Inv file rs s0 w' ⟨fun k => if k = i then q else y.procs k, y.fs⟩ :=
      fun q hq => ⟨w, Inv.same h i hq⟩
    show ∃ w', Inv file rs s0 w' ⟨fun k => if k = i then after file rs i vs (Proc.bind (match y.fs.get (file v.pth), y.fs.get (file out), v.copy with
        | some d, .none, .none => Proc.append (file out) (.ok ()) d
        | some d, .none, .after k => Proc.append (file out) (.throw .fsError) (d.take k)
        | _, _, _ => .ret (.throw .fsError)) fun _ => tidy file rs i v) else y.procs k, match y.fs.get (file v.pth), y.fs.get (file out), v.copy with
        | some _, .none, .none => y.fs.put (file out) []
        | some _, .none, .after _ => y.fs.put (file out) []
        | _, _, _ => y.fs⟩
    cases ha : y.fs.get (file v.pth) with
    | none => exact same _ (.over _ (by simp) h3)
    | some d =>
      have h0 := h.source hsrc ha
      cases hb : y.fs.get (file out) with
      | some b => exact same _ (.over _ (by simp) h3)
      | none =>
        cases v.copy with
        | atOnce => exact same _ (.over _ (by simp) h3)
        | none =>
          dsimp only
          cases d with
          | nil =>
            refine ⟨setW w i none, Inv.made hd h i h4 hb h3 (.inr rfl) fun fresh hk => ?_⟩
            refine .tidied h1 (h2.mono hk) (setW_same _ _ _) h0 ⟨h4, fresh, FS.get_put_same _ _ _, fun j => ?_⟩
            by_cases hj : j = i
            · subst hj; rw [setW_same]; simp
            · rw [setW_ne _ _ hj]; intro e
              obtain ⟨_, _, pre, hpre⟩ := (h.ok j).writes e
              rw [hb] at hpre; cases hpre
          | cons x rest =>
            refine ⟨setW w i (some (file out)), Inv.made hd h i h4 hb h3 (.inl rfl) fun fresh hk => ?_⟩
            exact .writing v out vs _ [] x rest h1 (h2.mono hk) (setW_same _ _ _) h4 fresh (FS.get_put_same _ _ _) (.inl ⟨rfl, h0⟩)
        | after k =>
          dsimp only
          cases d.take k with
          | nil => exact ⟨setW w i none, Inv.made hd h i h4 hb h3 (.inr rfl) fun fresh hk => .over _ (by simp) (setW_same _ _ _)⟩
          | cons x rest =>
            refine ⟨setW w i (some (file out)), Inv.made hd h i h4 hb h3 (.inl rfl) fun fresh hk => ?_⟩
            exact .writing v out vs _ [] x rest h1 (h2.mono hk) (setW_same _ _ _) h4 fresh (FS.get_put_same _ _ _) (.inr rfl)
  | writing v out vs r pre x rest h1 h2 h3 h4 h5 h6 h7 =>
    rw [hp]
    cases rest with
    | cons x2 rest =>
      refine ⟨setW w i (some (file out)), Inv.grown hd h i h4 h5 h6 h3 (.inl rfl) fun hg _ hk => ?_⟩
      refine .writing v out vs r (pre ++ [x]) x2 rest h1 (h2.mono hk) (setW_same _ _ _) h4 h5 hg ?_
      simpa using h7
    | nil =>
      refine ⟨setW w i none, Inv.grown hd h i h4 h5 h6 h3 (.inr rfl) fun hg hq hk => ?_⟩
      rcases h7 with ⟨rfl, h7⟩ | rfl
      · exact .tidied h1 (h2.mono hk) (setW_same _ _ _) h7 ⟨h4, h5, hg, fun j => hq j rfl⟩
      · exact .over _ (by simp) (setW_same _ _ _)
  | removing v out vs d h1 h2 h3 h4 h5 =>
    rw [hp]
    unfold Proc.remove
    cases hr : v.rm with
    | true => exact ⟨w, h⟩
    | false => exact ⟨w, Inv.removed hd h i ⟨i, v, h2.mem, rfl⟩ h4 h5 fun hk => .over (.ok ()) (fun _ => (h2.mono hk).next (h1.dealt h4 (hk _ _ h5))) h3⟩

theorem Inv.first : Inv file rs s0 (fun _ => none) ⟨fun i => (rs i).proc file, s0⟩ :=
  ⟨fun i => .visit _ ⟨[], rfl, by simp⟩ rfl, (fun _ _ _ h => by cases h), fun _ _ _ h => h, fun _ _ h => h, fun _ _ _ h => .inl h⟩

include hd in
theorem Inv.run (sched : List Nat) : ∃ w, Inv file rs s0 w (Procs.run sched ⟨fun i => (rs i).proc file, s0⟩) := by
  suffices ∀ y w, Inv file rs s0 w y → ∃ w', Inv file rs s0 w' (Procs.run sched y) from this _ _ Inv.first
  induction sched with
  | nil => exact fun y w h => ⟨w, h⟩
  | cons i is ih => exact fun y w h => let ⟨w', h'⟩ := Inv.step hd h i; ih _ w' h'

/-- When a process has ended well. -/
theorem Ok.done {w : Nat → Option Path} {s : FS} {i : Nat} {p : Proc Unit} (h : Ok file rs s0 w s i p) (hp : p = .ret (.ok ())) : Left file rs s0 w s i [] := by
  cases h with
  | visit vs h1 h2 =>
    cases vs with
    | nil => exact h1
    | cons v vs => cases hp
  | placing v out vs h1 h2 h3 h4 => cases hp
  | writing v out vs r pre x rest h1 h2 h3 h4 h5 h6 h7 => cases hp
  | removing v out vs d h1 h2 h3 h4 h5 =>
    unfold Proc.remove at hp
    cases hr : v.rm <;> rw [hr] at hp <;> cases hp
  | ended r h0 h1 => exact h0 (Proc.ret.inj hp)

end
end Renaming
/-! ## Processes that remove nothing -/

namespace Renaming

/-- All files there were at first are as they were. -/
def Still (s0 s : FS) : Prop := ∀ q d, s0.get q = some d → s.get q = some d

/-- A process that leaves the files there were at first alone, if others do. -/
def Leaves {α : Type} (s0 : FS) : Proc α → Prop
  | .ret _ => True
  | .act eff next => ∀ s, Still s0 s → Still s0 (eff s) ∧ Leaves s0 (next s)

theorem Leaves.bind {α β : Type} {s0 : FS} {p : Proc α} {f : α → Proc β} (h : Leaves s0 p) (hf : ∀ a, Leaves s0 (f a)) : Leaves s0 (p.bind f) := by
  induction p with
  | ret r => cases r with
    | ok a => exact hf a
    | throw e => trivial
    | ub u => trivial
  | act eff next ih => exact fun s hs => ⟨(h s hs).1, ih s (h s hs).2⟩

theorem Leaves.tryCatch {α : Type} {s0 : FS} {p : Proc α} {f : Exc → Proc α} (h : Leaves s0 p) (hf : ∀ a, Leaves s0 (f a)) : Leaves s0 (p.tryCatch f) := by
  induction p with
  | ret r => cases r with
    | ok a => trivial
    | throw e => exact hf e
    | ub u => trivial
  | act eff next ih => exact fun s hs => ⟨(h s hs).1, ih s (h s hs).2⟩

theorem Leaves.append {s0 : FS} {p : Path} (h : s0.get p = none) (r : Res Unit) (b : Bytes) : Leaves s0 (Proc.append p r b) := by
  induction b with
  | nil => trivial
  | cons x xs ih =>
    refine fun s hs => ⟨fun q d hq => ?_, ih⟩
    rw [grow_get, if_neg]
    · exact hs q d hq
    · rintro rfl; rw [h] at hq; cases hq

theorem Leaves.copy (s0 : FS) (a b : Path) (f : Fault) : Leaves s0 (Proc.copy a b f) := by
  intro s hs
  cases hb : s.get b with
  | some d => dsimp only; rw [hb]; cases s.get a <;> cases f <;> exact ⟨hs, trivial⟩
  | none =>
    have h0 : s0.get b = none := by
      cases e : s0.get b with
      | none => rfl
      | some d => rw [hs b d e] at hb; cases hb
    have hp : Still s0 (s.put b []) := by
      intro q d hq
      rw [get_put, if_neg]
      · exact hs q d hq
      · rintro rfl; rw [h0] at hq; cases hq
    dsimp only
    rw [hb]
    cases s.get a <;> cases f <;> first | exact ⟨hs, trivial⟩ | exact ⟨hp, .append h0 _ _⟩

theorem Leaves.proc (s0 : FS) (file : Path → Path) (r : Renamer) (hr : r.opts.rename = false ∨ r.opts.dryRun = true) : Leaves s0 (r.proc file) := by
  have : ∀ vs, Leaves s0 (renameAll file r.tpl r.opts vs) := by
    intro vs
    induction vs with
    | nil => trivial
    | cons v vs ih =>
      refine Leaves.bind (Leaves.tryCatch (Leaves.bind (fun s hs => ⟨hs, trivial⟩) fun d => ?_) fun e => ?_) fun _ => ih
      · cases d with
        | none => trivial
        | some d =>
          refine Leaves.bind trivial fun name => ?_
          split
          · rename_i hc
            refine (Leaves.copy s0 _ _ _).bind fun _ => ?_
            rcases hr with hr | hr
            · rw [hr]; trivial
            · rw [hr] at hc; simp at hc
          · trivial
      · unfold caught; split <;> trivial
  exact this _

theorem Leaves.run {s0 : FS} (sched : List Nat) (y : Sys) (hp : ∀ i, Leaves s0 (y.procs i)) (hs : Still s0 y.fs) : Still s0 (Procs.run sched y).fs := by
  induction sched generalizing y with
  | nil => exact hs
  | cons i is ih =>
    suffices (∀ k, Leaves s0 ((Procs.step i y).procs k)) ∧ Still s0 (Procs.step i y).fs from ih _ this.1 this.2
    unfold Procs.step
    have := hp i
    cases e : y.procs i with
    | ret r => exact ⟨hp, hs⟩
    | act eff next =>
      rw [e] at this
      refine ⟨fun k => ?_, (this _ hs).1⟩
      dsimp only
      split
      · exact (this _ hs).2
      · exact hp k

end Renaming
end Scribbu.Procs
