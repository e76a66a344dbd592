import Verif.Model.FileSys

/-! Lemmas about files, and a logic of states passed through. -/

namespace Scribbu
namespace FS

theorem get_del_same (s : FS) (p : Path) : (s.del p).get p = none := by
  unfold get del
  rw [Option.map_eq_none_iff, List.find?_eq_none]
  intro e he
  simpa using (List.mem_filter.1 he).2

theorem get_del_ne (s : FS) {p q : Path} (h : q ≠ p) : (s.del p).get q = s.get q := by
  unfold get del
  congr 1
  induction s with
  | nil => rfl
  | cons e s ih =>
    by_cases hp : e.1 = p
    · have hq : e.1 ≠ q := by rw [hp]; exact fun x => h x.symm
      rw [List.filter_cons_of_neg (by simp [hp]), List.find?_cons_of_neg (by simp [hq]), ih]
    · rw [List.filter_cons_of_pos (by simp [hp])]
      by_cases hq : e.1 = q
      · rw [List.find?_cons_of_pos (by simp [hq]), List.find?_cons_of_pos (by simp [hq])]
      · rw [List.find?_cons_of_neg (by simp [hq]), List.find?_cons_of_neg (by simp [hq]), ih]

theorem get_put_same (s : FS) (p : Path) (b : Bytes) : (s.put p b).get p = some b := by
  simp [get, put]

theorem get_put_ne (s : FS) {p q : Path} (b : Bytes) (h : q ≠ p) : (s.put p b).get q = s.get q := by
  rw [← get_del_ne s h]
  unfold get put
  rw [List.find?_cons_of_neg (by simp; exact fun x => h x.symm)]

theorem get_mem {s : FS} {p : Path} (h : s.get p ≠ none) : p ∈ s.map (·.1) := by
  unfold get at h
  cases hf : s.find? (fun e => decide (e.1 = p)) with
  | none => rw [hf] at h; simp at h
  | some e =>
    have h1 := List.mem_of_find?_eq_some hf
    have h2 := List.find?_some hf
    simp only [decide_eq_true_eq] at h2
    exact List.mem_map.2 ⟨e, h1, h2⟩

theorem mem_get {s : FS} {p : Path} (h : p ∈ s.map (·.1)) : s.get p ≠ none := by
  obtain ⟨e, h1, rfl⟩ := List.mem_map.1 h
  unfold get
  intro h2
  rw [Option.map_eq_none_iff, List.find?_eq_none] at h2
  simpa using h2 e h1

end FS
end Scribbu

namespace Scribbu
namespace FM

/-- From states with `pre`, only states with `inv` are passed through, and the end is as `post` says. -/
def Holds (m : FM α) (pre inv : FS → Prop) (post : Res α → FS → Prop) : Prop :=
  ∀ s, pre s → (∀ x ∈ (m s).seen, inv x) ∧ post (m s).res (m s).fs

theorem Holds.weaken {m : FM α} {pre pre' inv inv' : FS → Prop} {post post' : Res α → FS → Prop} (h : Holds m pre inv post)
    (h1 : ∀ s, pre' s → pre s) (h2 : ∀ s, inv s → inv' s) (h3 : ∀ r s, post r s → post' r s) : Holds m pre' inv' post' :=
  fun s hs => ⟨fun x hx => h2 x ((h s (h1 s hs)).1 x hx), h3 _ _ (h s (h1 s hs)).2⟩

theorem Holds.each {m : FM α} {pre inv : FS → Prop} {post : Res α → FS → Prop} (h : ∀ s, pre s → Holds m (· = s) inv post) :
    Holds m pre inv post := fun s hs => h s hs s rfl

/-- Sequencing: `mid` describes the state after `m` has returned. -/
theorem Holds.bind {m : FM α} {f : α → FM β} {pre inv : FS → Prop} {mid : α → FS → Prop} {post : Res β → FS → Prop}
    (h1 : Holds m pre inv fun r s => match r with | .ok a => mid a s | .throw e => post (.throw e) s | .ub u => post (.ub u) s)
    (h2 : ∀ a, Holds (f a) (mid a) inv post) : Holds (m >>= f) pre inv post := by
  intro s hs
  obtain ⟨h3, h4⟩ := h1 s hs
  show (∀ x ∈ (FM.bind m f s).seen, inv x) ∧ post (FM.bind m f s).res (FM.bind m f s).fs
  unfold FM.bind
  split
  · rename_i a ha
    rw [ha] at h4
    obtain ⟨h5, h6⟩ := h2 a _ h4
    refine ⟨?_, h6⟩
    intro x hx
    rcases List.mem_append.1 hx with hx | hx
    · exact h3 x hx
    · exact h5 x hx
  · rename_i e he
    rw [he] at h4
    exact ⟨h3, h4⟩
  · rename_i u hu
    rw [hu] at h4
    exact ⟨h3, h4⟩

theorem Holds.tryCatch {m : FM α} {f : Exc → FM α} {pre inv : FS → Prop} {mid : Exc → FS → Prop} {post : Res α → FS → Prop}
    (h1 : Holds m pre inv fun r s => match r with | .throw e => mid e s | r => post r s)
    (h2 : ∀ e, Holds (f e) (mid e) inv post) : Holds (FM.tryCatch m f) pre inv post := by
  intro s hs
  obtain ⟨h3, h4⟩ := h1 s hs
  unfold FM.tryCatch
  split
  · rename_i a ha
    rw [ha] at h4
    obtain ⟨h5, h6⟩ := h2 a _ h4
    refine ⟨?_, h6⟩
    intro x hx
    rcases List.mem_append.1 hx with hx | hx
    · exact h3 x hx
    · exact h5 x hx
  · rename_i hne
    refine ⟨h3, ?_⟩
    cases hr : (m s).res with
    | ok a => rw [hr] at h4; exact h4
    | throw e => exact absurd hr (hne e)
    | ub u => rw [hr] at h4; exact h4

theorem Holds.lift (r : Res α) {pre inv : FS → Prop} {post : Res α → FS → Prop} (h : ∀ s, pre s → post r s) :
    Holds (FM.lift r) pre inv post := fun s hs => ⟨by simp [FM.lift], h s hs⟩

theorem Holds.pure (a : α) {pre inv : FS → Prop} {post : Res α → FS → Prop} (h : ∀ s, pre s → post (.ok a) s) :
    Holds (Pure.pure a : FM α) pre inv post := Holds.lift (.ok a) h

theorem Holds.look (p : Path) {pre inv : FS → Prop} {post : Res (Option Bytes) → FS → Prop} (h : ∀ s, pre s → post (.ok (s.get p)) s) :
    Holds (FM.look p) pre inv post := fun s hs => ⟨by simp [FM.look], h s hs⟩

theorem Holds.state {pre inv : FS → Prop} {post : Res FS → FS → Prop} (h : ∀ s, pre s → post (.ok s) s) :
    Holds FM.state pre inv post := fun s hs => ⟨by simp [FM.state], h s hs⟩

theorem Holds.remove (p : Path) (b : Bool) {pre inv : FS → Prop} {post : Res Unit → FS → Prop}
    (h1 : ∀ s, pre s → inv (s.del p) ∧ post (.ok ()) (s.del p)) (h2 : ∀ s, pre s → post (.throw .fsError) s) :
    Holds (FM.remove p b) pre inv post := by
  intro s hs
  unfold FM.remove
  split
  · exact ⟨by simp, h2 s hs⟩
  · refine ⟨?_, (h1 s hs).2⟩
    intro x hx
    simp only [List.mem_singleton] at hx
    subst hx
    exact (h1 s hs).1

theorem Holds.create (e : Exc) (p : Path) (b : Bytes) (f : Fault) {pre inv : FS → Prop} {post : Res Unit → FS → Prop}
    (h1 : ∀ s c, pre s → inv (s.put p c)) (h2 : ∀ s, pre s → post (.ok ()) (s.put p b))
    (h3 : ∀ s, pre s → post (.throw e) s) (h4 : ∀ s k, pre s → post (.throw e) (s.put p (b.take k))) :
    Holds (FM.create e p b f) pre inv post := by
  intro s hs
  unfold FM.create
  have hg : ∀ k, ∀ x ∈ growing s p b k, inv x := by
    intro k x hx
    obtain ⟨i, -, rfl⟩ := List.mem_map.1 hx
    exact h1 s _ hs
  cases f with
  | none => exact ⟨hg _, h2 s hs⟩
  | atOnce => exact ⟨by simp, h3 s hs⟩
  | after k => exact ⟨hg _, h4 s k hs⟩

theorem Holds.copy (a b : Path) (f : Fault) {pre inv : FS → Prop} {post : Res Unit → FS → Prop}
    (h1 : ∀ s c, pre s → inv (s.put b c)) (h2 : ∀ s d, pre s → s.get a = some d → s.get b = none → post (.ok ()) (s.put b d))
    (h3 : ∀ s, pre s → post (.throw .fsError) s) (h4 : ∀ s c, pre s → s.get b = none → post (.throw .fsError) (s.put b c)) :
    Holds (FM.copy a b f) pre inv post := by
  intro s hs
  unfold FM.copy
  split
  · rename_i d ha hb
    exact Holds.create .fsError b d f (pre := fun x => x = s) (by rintro _ c rfl; exact h1 _ c hs)
      (by rintro _ rfl; exact h2 _ d hs ha hb) (by rintro _ rfl; exact h3 _ hs)
      (by rintro _ k rfl; exact h4 _ _ hs hb) s rfl
  · exact ⟨by simp, h3 s hs⟩

theorem Holds.rename (a b : Path) (r : Rename) {pre inv : FS → Prop} {post : Res Rename → FS → Prop}
    (h1 : ∀ s d, pre s → s.get a = some d → r = .done → inv ((s.del a).put b d) ∧ post (.ok .done) ((s.del a).put b d))
    (h2 : ∀ s, pre s → r = .crossDevice → post (.ok .crossDevice) s)
    (h3 : ∀ s, pre s → (r = .failed ∨ s.get a = none) → post (.ok .failed) s) :
    Holds (FM.rename a b r) pre inv post := by
  intro s hs
  unfold FM.rename
  cases r with
  | done =>
    cases ha : s.get a with
    | none => exact ⟨by simp, h3 s hs (.inr ha)⟩
    | some d =>
      refine ⟨?_, (h1 s d hs ha rfl).2⟩
      intro x hx
      simp only [List.mem_singleton] at hx
      subst hx
      exact (h1 s d hs ha rfl).1
  | crossDevice => exact ⟨by simp, h2 s hs rfl⟩
  | failed => exact ⟨by simp, h3 s hs (.inl rfl)⟩

end FM
end Scribbu
