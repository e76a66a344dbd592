import Verif.Model.Rename
import Verif.Proofs.FileSys
import Verif.Proofs.Backup

/-! # Lemmas on renaming -/

namespace Scribbu
namespace FM

/-- Like `Holds.copy`, but what is copied to is known not to be there. -/
theorem Holds.copyNew (a b : Path) (f : Fault) {pre inv : FS → Prop} {post : Res Unit → FS → Prop}
    (h1 : ∀ s c, pre s → s.get b = none → inv (s.put b c))
    (h2 : ∀ s d, pre s → s.get a = some d → s.get b = none → post (.ok ()) (s.put b d))
    (h3 : ∀ s, pre s → post (.throw .fsError) s) (h4 : ∀ s c, pre s → s.get b = none → post (.throw .fsError) (s.put b c)) :
    Holds (FM.copy a b f) pre inv post := by
  intro s hs
  unfold FM.copy
  split
  · rename_i d ha hb
    exact Holds.create .fsError b d f (pre := fun x => x = s) (by rintro _ c rfl; exact h1 _ c hs hb)
      (by rintro _ rfl; exact h2 _ d hs ha hb) (by rintro _ rfl; exact h3 _ hs)
      (by rintro _ k rfl; exact h4 _ _ hs hb) s rfl
  · exact ⟨by simp, h3 s hs⟩

end FM

namespace Rename
open Path FM

/-- A rule for `process_file`. -/
theorem processFile_holds {file : Path → Path} {P : Path → Bytes → Res Bytes} {o : Options} {v : Visit} {I : FS → Prop}
    (hcopy : ∀ s d name c, I s → s.get (file v.pth) = some d → P v.pth d = .ok name → !o.dryRun →
      s.get (file (destination o v.pth name)) = none → I (s.put (file (destination o v.pth name)) c))
    (hmove : ∀ s d name, I s → s.get (file v.pth) = some d → P v.pth d = .ok name → !o.dryRun → o.rename →
      s.get (file (destination o v.pth name)) = none →
      I ((s.put (file (destination o v.pth name)) d).del (file v.pth))) :
    Holds (processFile file P o v) I I fun _ s => I s := by
  have hret : ∀ r : Res Unit, Holds (FM.lift r) I I fun _ s => I s := fun r => Holds.lift r fun s hs => hs
  unfold processFile catchError
  refine Holds.tryCatch (mid := fun _ s => I s) ?_ ?_
  · refine Holds.weaken (post := fun _ s => I s) ?_ (fun _ h => h) (fun _ h => h) ?_
    · refine Holds.bind (mid := fun d s => I s ∧ s.get (file v.pth) = d) (Holds.look _ fun s hs => ⟨hs, rfl⟩) ?_
      intro d
      cases d with
      | none => exact Holds.lift _ fun s hs => hs.1
      | some d =>
        refine Holds.bind (mid := fun name s => (I s ∧ s.get (file v.pth) = some d) ∧ P v.pth d = .ok name)
          (Holds.lift _ fun s hs => ?_) ?_
        · cases hP : P v.pth d with
          | ok name => exact ⟨hs, rfl⟩
          | throw e => exact hs.1
          | ub u => exact hs.1
        · intro name
          refine Holds.each ?_
          rintro s0 ⟨⟨h1, h2⟩, h3⟩
          simp only
          split
          · rename_i hc
            refine Holds.bind (mid := fun _ s => s0.get (file (destination o v.pth name)) = none ∧
                s = s0.put (file (destination o v.pth name)) d) ?_ ?_
            · refine Holds.copyNew _ _ _ ?_ ?_ ?_ ?_
              · rintro s c rfl hb
                exact hcopy _ d name c h1 h2 h3 hc.1 hb
              · rintro s d' rfl ha hb
                rw [h2] at ha
                cases ha
                exact ⟨hb, rfl⟩
              · rintro s rfl
                exact h1
              · rintro s c rfl hb
                exact hcopy _ d name c h1 h2 h3 hc.1 hb
            · intro _
              split
              · rename_i hr
                refine Holds.remove _ _ ?_ ?_
                · rintro s ⟨hb, rfl⟩
                  exact ⟨hmove _ d name h1 h2 h3 hc.1 hr hb, hmove _ d name h1 h2 h3 hc.1 hr hb⟩
                · rintro s ⟨hb, rfl⟩
                  exact hcopy _ d name d h1 h2 h3 hc.1 hb
              · refine Holds.lift _ ?_
                rintro s ⟨hb, rfl⟩
                exact hcopy _ d name d h1 h2 h3 hc.1 hb
          · refine Holds.lift _ ?_
            rintro s rfl
            exact h1
    · intro r s h
      cases r <;> exact h
  · intro e
    split
    · exact hret _
    · exact hret _

/-- A rule for all files. -/
theorem run_holds {file : Path → Path} {P : Path → Bytes → Res Bytes} {o : Options} {vs : List Visit} {I : FS → Prop}
    (h : ∀ v ∈ vs, Holds (processFile file P o v) I I fun _ s => I s) :
    Holds (run file P o vs) I I fun _ s => I s := by
  induction vs with
  | nil => exact Holds.lift _ fun s hs => hs
  | cons v vs ih =>
    refine Holds.bind (mid := fun _ s => I s) ?_ fun _ => ih fun x hx => h x (List.mem_cons_of_mem _ hx)
    refine Holds.weaken (h v List.mem_cons_self) (fun _ h => h) (fun _ h => h) ?_
    intro r s h
    cases r <;> exact h

end Rename
end Scribbu

namespace Scribbu
namespace Path

/-- A name without separators names a file in the directory it is joined to. -/
theorem parent_join (p n : Bytes) (hn : n ≠ []) (hs : ∀ b ∈ n, b ≠ slash) : parent (join (parent p) n) = parent p := by
  have habs : isAbs n = false := by
    cases n with
    | nil => simp [isAbs]
    | cons c r => simpa [isAbs] using hs c (by simp)
  have hroot : parent [slash] = [slash] := by decide
  unfold join
  rw [habs]
  simp only [Bool.false_eq_true, if_false]
  split
  · rw [parent_append _ _ hs]
    rename_i h
    rcases h with h | h
    · rw [h]
      rfl
    · revert h
      unfold parent
      simp only
      split
      · split
        · intro h
          simp at h
        · intro _
          exact hroot
      · rename_i he
        intro h
        cases hd : List.dropWhile (fun x => decide (x = slash)) (List.dropWhile (fun x => decide (x ≠ slash)) p.reverse) with
        | nil => exact absurd hd he
        | cons c r =>
          have hc : c ≠ slash := by
            have := List.head?_dropWhile_not (fun x => decide (x = slash)) (List.dropWhile (fun x => decide (x ≠ slash)) p.reverse)
            rw [hd] at this
            simpa using this
          rw [hd] at h
          simp at h
          exact absurd h hc
  · rename_i h
    have : parent p ++ slash :: n = (parent p ++ [slash]) ++ n := by simp
    rw [this, parent_append _ _ hs]
    generalize parent p = q at h ⊢
    unfold parent
    simp only [List.reverse_append, List.reverse_cons, List.reverse_nil, List.nil_append, List.cons_append]
    rw [List.dropWhile_cons_of_neg (by simp), List.dropWhile_cons_of_pos (by simp)]
    have hd : List.dropWhile (fun x => decide (x = slash)) q.reverse = q.reverse := by
      cases hr : q.reverse with
      | nil => rfl
      | cons c r =>
        refine List.dropWhile_cons_of_neg ?_
        intro hc
        apply h
        right
        have : q = r.reverse ++ [c] := by
          have := congrArg List.reverse hr
          simpa using this
        rw [this]
        simpa using hc
    rw [hd]
    have hne : q.reverse ≠ [] := by
      intro hc
      apply h
      left
      simpa using hc
    simp [hne]

end Path

namespace Rename
open Path FM

theorem lift_apply {α : Type} (r : Res α) (s : FS) : FM.lift r s = ⟨[], r, s⟩ := rfl

theorem bind_apply {α β : Type} (m : FM α) (f : α → FM β) (s : FS) : FM.bind m f s =
    match (m s).res with
    | .ok a => ⟨(m s).seen ++ (f a (m s).fs).seen, (f a (m s).fs).res, (f a (m s).fs).fs⟩
    | .throw e => ⟨(m s).seen, .throw e, (m s).fs⟩
    | .ub u => ⟨(m s).seen, .ub u, (m s).fs⟩ := rfl

/-- What a call of `process_file` that returns has done. -/
theorem processFile_ok {file : Path → Path} {P : Path → Bytes → Res Bytes} {o : Options} {v : Visit} {s : FS}
    (h : (processFile file P o v s).res = .ok ()) :
    ∃ d, s.get (file v.pth) = some d ∧
      ((P v.pth d = .throw .missing ∧ (processFile file P o v s).fs = s) ∨
       ∃ name, P v.pth d = .ok name ∧
        (((o.dryRun = true ∨ elems v.pth = elems (destination o v.pth name)) ∧ (processFile file P o v s).fs = s) ∨
         (o.dryRun = false ∧ elems v.pth ≠ elems (destination o v.pth name) ∧ s.get (file (destination o v.pth name)) = none ∧
          (processFile file P o v s).fs = if o.rename then (s.put (file (destination o v.pth name)) d).del (file v.pth)
            else s.put (file (destination o v.pth name)) d))) := by
  revert h
  unfold processFile catchError FM.tryCatch
  simp only [Bind.bind, bind_apply, FM.look]
  cases hd : s.get (file v.pth) with
  | none => simp [lift_apply]
  | some d =>
    simp only [bind_apply, lift_apply]
    cases hP : P v.pth d with
    | throw e =>
      simp only
      by_cases he : e = .missing
      · subst he
        intro _
        exact ⟨d, rfl, .inl ⟨hP, rfl⟩⟩
      · simp [he, lift_apply]
    | ub u => simp
    | ok name =>
      simp only
      by_cases hc : !o.dryRun ∧ elems v.pth ≠ elems (destination o v.pth name)
      · simp only [if_pos hc, bind_apply]
        unfold FM.copy
        rw [hd]
        cases hb : s.get (file (destination o v.pth name)) with
        | some x => simp [lift_apply]
        | none =>
          simp only
          cases v.copy with
          | atOnce => simp [FM.create, lift_apply]
          | after k => simp [FM.create, lift_apply]
          | none =>
            simp only [FM.create]
            by_cases hr : o.rename = true
            · simp only [if_pos hr]
              unfold FM.remove
              by_cases hf : v.rm = true
              · simp [hf, lift_apply]
              · intro _
                refine ⟨d, rfl, .inr ⟨name, hP, .inr ⟨by simpa using hc.1, hc.2, hb, ?_⟩⟩⟩
                simp [hf]
            · intro _
              refine ⟨d, rfl, .inr ⟨name, hP, .inr ⟨by simpa using hc.1, hc.2, hb, ?_⟩⟩⟩
              simp [hr, lift_apply]
      · simp only [if_neg hc, lift_apply]
        intro _
        refine ⟨d, rfl, .inr ⟨name, hP, .inl ⟨?_, trivial⟩⟩⟩
        by_cases hdry : o.dryRun = true
        · exact .inl hdry
        · refine .inr (Classical.byContradiction fun hn => hc ⟨by simpa using hdry, hn⟩)

theorem run_cons_ok {file : Path → Path} {P : Path → Bytes → Res Bytes} {o : Options} {v : Visit} {vs : List Visit} {s : FS}
    (h : (run file P o (v :: vs) s).res = .ok ()) :
    (processFile file P o v s).res = .ok () ∧ (run file P o vs (processFile file P o v s).fs).res = .ok () ∧
      (run file P o (v :: vs) s).fs = (run file P o vs (processFile file P o v s).fs).fs := by
  revert h
  simp only [run, FM.bind]
  cases hp : (processFile file P o v s).res with
  | ok u =>
    intro h
    exact ⟨rfl, h, rfl⟩
  | throw e => simp
  | ub u => simp

/-- A file that no call looks at stays. -/
theorem processFile_keeps {file : Path → Path} {P : Path → Bytes → Res Bytes} {o : Options} {v : Visit} {s : FS}
    (h : (processFile file P o v s).res = .ok ()) {p : Path} {d : Bytes} (hp : s.get p = some d) (hne : file v.pth ≠ p) :
    (processFile file P o v s).fs.get p = some d := by
  obtain ⟨d', _, h | ⟨name, _, h | ⟨_, _, hb, hs⟩⟩⟩ := processFile_ok h
  · rw [h.2]; exact hp
  · rw [h.2]; exact hp
  · have hb' : p ≠ file (destination o v.pth name) := by
      intro hc
      rw [← hc, hp] at hb
      simp at hb
    rw [hs]
    split
    · rw [FS.get_del_ne _ (Ne.symm hne), FS.get_put_ne _ _ hb']
      exact hp
    · rw [FS.get_put_ne _ _ hb']
      exact hp

theorem run_keeps {file : Path → Path} {P : Path → Bytes → Res Bytes} {o : Options} {vs : List Visit} {s : FS}
    (h : (run file P o vs s).res = .ok ()) {p : Path} {d : Bytes} (hp : s.get p = some d) (hne : ∀ v ∈ vs, file v.pth ≠ p) :
    (run file P o vs s).fs.get p = some d := by
  induction vs generalizing s with
  | nil => exact hp
  | cons v vs ih =>
    obtain ⟨h1, h2, h3⟩ := run_cons_ok h
    rw [h3]
    exact ih h2 (processFile_keeps h1 hp (hne v List.mem_cons_self)) fun w hw => hne w (List.mem_cons_of_mem _ hw)

end Rename
end Scribbu

namespace Scribbu.Rename
open Path FM

/-- A file that is not there, and that no call puts there, is not there afterwards. -/
theorem run_absent {file : Path → Path} {P : Path → Bytes → Res Bytes} {o : Options} {vs : List Visit} {s : FS} {p : Path}
    (h : (run file P o vs s).res = .ok ()) (hp : s.get p = none)
    (hne : ∀ v ∈ vs, ∀ e n, P v.pth e = .ok n → file (destination o v.pth n) ≠ p) :
    (run file P o vs s).fs.get p = none := by
  induction vs generalizing s with
  | nil => exact hp
  | cons v vs ih =>
    obtain ⟨h1, h2, h3⟩ := run_cons_ok h
    rw [h3]
    refine ih h2 ?_ fun w hw => hne w (List.mem_cons_of_mem _ hw)
    obtain ⟨d', _, h | ⟨name, hP, h | ⟨_, _, hb, hs⟩⟩⟩ := processFile_ok h1
    · rw [h.2]; exact hp
    · rw [h.2]; exact hp
    · have hb' := (hne v List.mem_cons_self _ _ hP).symm
      rw [hs]
      split
      · by_cases hc : p = file v.pth
        · rw [hc, FS.get_del_same]
        · rw [FS.get_del_ne _ hc, FS.get_put_ne _ _ hb']
          exact hp
      · rw [FS.get_put_ne _ _ hb']
        exact hp

end Scribbu.Rename
