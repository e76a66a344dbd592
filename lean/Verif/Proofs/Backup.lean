import Verif.Model.Backup

/-! Lemmas about paths and names of backups. -/

namespace Scribbu
namespace Path

theorem mem_takeWhile_imp {α : Type} {p : α → Bool} {l : List α} {x : α} (h : x ∈ l.takeWhile p) : p x = true := by
  induction l with
  | nil => simp at h
  | cons a l ih =>
    rw [List.takeWhile_cons] at h
    split at h
    · rename_i ha
      rcases List.mem_cons.1 h with rfl | h
      · exact ha
      · exact ih h
    · simp at h

theorem all_ne {s : Bytes} (h : ∀ b ∈ s, b ≠ slash) : ∀ b ∈ s.reverse, (decide (b ≠ slash)) = true := by
  intro b hb
  simpa using h b (List.mem_reverse.1 hb)

theorem parent_append (p s : Bytes) (h : ∀ b ∈ s, b ≠ slash) : parent (p ++ s) = parent p := by
  unfold parent
  rw [List.reverse_append, List.dropWhile_append_of_pos (all_ne h)]

theorem fileName_append (p s : Bytes) (h : ∀ b ∈ s, b ≠ slash) : fileName (p ++ s) = fileName p ++ s := by
  unfold fileName
  rw [List.reverse_append, List.takeWhile_append_of_pos (all_ne h), List.reverse_append, List.reverse_reverse]

theorem fileName_noslash (p : Path) : ∀ b ∈ fileName p, b ≠ slash := by
  intro b hb
  have := mem_takeWhile_imp (List.mem_reverse.1 hb)
  simpa using this

theorem fileName_slash (a b : Bytes) : fileName (a ++ slash :: b) = fileName b := by
  have h := List.takeWhile_append_dropWhile (p := fun x : Byte => decide (x ≠ slash)) (l := b.reverse)
  have hx : b = (b.reverse.dropWhile fun x : Byte => decide (x ≠ slash)).reverse ++ fileName b := by
    have := congrArg List.reverse h
    rw [List.reverse_append, List.reverse_reverse] at this
    exact this.symm
  cases hd : b.reverse.dropWhile (fun x : Byte => decide (x ≠ slash)) with
  | nil =>
    rw [hd] at hx
    have hb : ∀ x ∈ b, x ≠ slash := by
      intro x hm
      rw [hx] at hm
      exact fileName_noslash b x (by simpa using hm)
    rw [show a ++ slash :: b = (a ++ [slash]) ++ b by simp, fileName_append _ _ hb]
    have : fileName b = b := by simpa using hx.symm
    rw [this]
    simp [fileName]
  | cons y ys =>
    have hy : y = slash := by
      have := List.head?_dropWhile_not (fun x : Byte => decide (x ≠ slash)) b.reverse
      rw [hd] at this
      simpa using this
    subst hy
    rw [hd] at hx
    conv => lhs; rw [hx]
    rw [show a ++ slash :: ((slash :: ys).reverse ++ fileName b) = (a ++ slash :: (slash :: ys).reverse) ++ fileName b by simp,
      fileName_append _ _ (fileName_noslash b)]
    simp [fileName]

theorem fileName_join (a b : Path) (h : isAbs b = false) : fileName (join a b) = fileName b := by
  unfold join
  rw [h, if_neg (by simp)]
  split
  · rename_i h1
    rcases h1 with rfl | h1
    · rfl
    · obtain ⟨x, rfl⟩ := List.getLast?_eq_some_iff.1 h1
      rw [show x ++ [slash] ++ b = x ++ slash :: b by simp, fileName_slash]
  · exact fileName_slash a b

theorem fileName_absolute (cwd p : Path) : fileName (absolute cwd p) = fileName p := by
  unfold absolute
  cases h : isAbs p with
  | false => exact fileName_join cwd p h
  | true => unfold join; rw [if_pos h]

theorem absolute_abs {cwd p : Path} (h : isAbs p = true) : absolute cwd p = p := by
  unfold absolute join; rw [if_pos h]

theorem isAbs_parent {p : Path} (h : isAbs (parent p) = true) : isAbs p = true := by
  unfold parent at h
  have hp : p = (p.reverse.dropWhile fun x : Byte => decide (x ≠ slash)).reverse ++ fileName p := by
    have := congrArg List.reverse (List.takeWhile_append_dropWhile (p := fun x : Byte => decide (x ≠ slash)) (l := p.reverse))
    rw [List.reverse_append, List.reverse_reverse] at this
    exact this.symm
  revert h
  generalize p.reverse.dropWhile (fun x : Byte => decide (x ≠ slash)) = d at hp ⊢
  have hd : d.reverse = (d.dropWhile fun x : Byte => decide (x = slash)).reverse ++ (d.takeWhile fun x : Byte => decide (x = slash)).reverse := by
    have := congrArg List.reverse (List.takeWhile_append_dropWhile (p := fun x : Byte => decide (x = slash)) (l := d))
    rw [List.reverse_append] at this
    exact this.symm
  intro h
  dsimp only at h
  split at h
  · rename_i he
    split at h
    · simp [isAbs] at h
    · rename_i hne
      have hall : ∀ x ∈ d, x = slash := by
        intro x hx
        have h2 : d = d.takeWhile fun x : Byte => decide (x = slash) := by
          have := List.takeWhile_append_dropWhile (p := fun x : Byte => decide (x = slash)) (l := d)
          rw [he, List.append_nil] at this
          exact this.symm
        rw [h2] at hx
        simpa using mem_takeWhile_imp hx
      rw [hp]
      cases hr : d.reverse with
      | nil => simp at hr; exact absurd hr hne
      | cons y ys =>
        have : y ∈ d := List.mem_reverse.1 (by rw [hr]; simp)
        simp [isAbs, hall y this]
  · rename_i he
    rw [hp, hd]
    cases hr : (d.dropWhile fun x : Byte => decide (x = slash)).reverse with
    | nil => simp at hr; exact absurd (by simpa using hr) he
    | cons y ys =>
      rw [hr] at h
      simpa [isAbs] using h

theorem stem_extension (p : Path) : stem p ++ extension p = fileName p := by
  unfold stem
  have : ∃ n, extension p = (fileName p).drop n ∧ n ≤ (fileName p).length := by
    unfold extension
    dsimp only
    split
    · exact ⟨(fileName p).length, by simp, Nat.le_refl _⟩
    · split
      · exact ⟨(fileName p).length, by simp, Nat.le_refl _⟩
      · rename_i h1
        generalize fileName p = n at h1
        have hx := congrArg List.reverse (List.takeWhile_append_dropWhile (p := fun x : Byte => decide (x ≠ dot)) (l := n.reverse))
        rw [List.reverse_append, List.reverse_reverse] at hx
        cases hd : n.reverse.dropWhile (fun x : Byte => decide (x ≠ dot)) with
        | nil => rw [hd] at h1; simp at h1
        | cons y ys =>
          have hy : y = dot := by
            have := List.head?_dropWhile_not (fun x : Byte => decide (x ≠ dot)) n.reverse
            rw [hd] at this
            simpa using this
          subst hy
          rw [hd] at hx
          refine ⟨ys.length, ?_, ?_⟩
          · conv => rhs; rw [← hx]
            simp
          · rw [← hx]; simp
  obtain ⟨n, h1, h2⟩ := this
  rw [h1, List.length_drop, show (fileName p).length - ((fileName p).length - n) = n by omega, List.take_append_drop]

end Path

namespace Backup
open Path

theorem digit_facts {b : Byte} (h : isDigit b = true) : b ≠ slash ∧ b ≠ dot := by
  refine ⟨?_, ?_⟩ <;> rintro rfl <;> revert h <;> decide

theorem dec_digits (n : Nat) : (dec n).all isDigit = true ∧ dec n ≠ [] ∧ digits (dec n) = n := by
  induction n using Nat.strongRecOn with
  | _ n ih =>
    have hd : ∀ k, k < 10 → isDigit (UInt8.ofNat (48 + k)) = true ∧ (UInt8.ofNat (48 + k)).toNat - 48 = k := by
      intro k hk
      have : k = 0 ∨ k = 1 ∨ k = 2 ∨ k = 3 ∨ k = 4 ∨ k = 5 ∨ k = 6 ∨ k = 7 ∨ k = 8 ∨ k = 9 := by omega
      rcases this with rfl | rfl | rfl | rfl | rfl | rfl | rfl | rfl | rfl | rfl <;> decide
    unfold dec
    split
    · rename_i h
      refine ⟨by simp only [List.all_cons, List.all_nil, (hd n h).1, Bool.and_self], by simp, ?_⟩
      simp only [digits, List.foldl_cons, List.foldl_nil, (hd n h).2]
      omega
    · rename_i h
      obtain ⟨h1, h2, h3⟩ := ih (n / 10) (by omega)
      have h4 := hd (n % 10) (Nat.mod_lt _ (by omega))
      refine ⟨by simp only [List.all_append, List.all_cons, List.all_nil, h1, h4.1, Bool.and_self], by simp, ?_⟩
      unfold digits at h3 ⊢
      rw [List.foldl_append, h3]
      simp only [List.foldl_cons, List.foldl_nil, h4.2]
      omega

theorem matches_iff (pre s : Bytes) : matchesName pre s = true ↔ ∃ ds, s = pre ++ dot :: ds ∧ ds ≠ [] ∧ ds.all isDigit = true := by
  unfold matchesName
  constructor
  · intro h
    simp only [Bool.and_eq_true, decide_eq_true_eq] at h
    obtain ⟨⟨⟨h1, h2⟩, h3⟩, h4⟩ := h
    refine ⟨s.drop (pre.length + 1), ?_, ?_, h4⟩
    · conv => lhs; rw [← List.take_append_drop pre.length s, h1]
      congr 1
      obtain ⟨hl, he⟩ := List.getElem?_eq_some_iff.1 h3
      rw [List.drop_eq_getElem_cons hl, he]
    · intro h5
      have := congrArg List.length h5
      simp at this
      omega
  · rintro ⟨ds, rfl, h1, h2⟩
    have : 0 < ds.length := List.length_pos_iff.2 h1
    simp only [Bool.and_eq_true, decide_eq_true_eq]
    refine ⟨⟨⟨by simp, ?_⟩, by simp⟩, ?_⟩
    · rw [List.length_append, List.length_cons]; omega
    · rw [show pre ++ dot :: ds = (pre ++ [dot]) ++ ds by simp, List.drop_left' (by simp)]
      exact h2

theorem suffix_noslash {ds : Bytes} (h : ds.all isDigit = true) : ∀ b ∈ dot :: ds, b ≠ slash := by
  intro b hb
  rcases List.mem_cons.1 hb with rfl | hb
  · decide
  · exact (digit_facts (List.all_eq_true.1 h b hb)).1

theorem suffix_eq (p : Path) (ds : Bytes) (hp : fileName p ≠ []) (h : ds.all isDigit = true) (hne : ds ≠ []) :
    suffix (p ++ dot :: ds) = atoi ds := by
  have hn : fileName (p ++ dot :: ds) = fileName p ++ dot :: ds := fileName_append _ _ (suffix_noslash h)
  have hdot : ∀ b ∈ ds.reverse, decide (b ≠ dot) = true := by
    intro b hb
    simpa using (digit_facts (List.all_eq_true.1 h b (List.mem_reverse.1 hb))).2
  have he : extension (p ++ dot :: ds) = dot :: ds := by
    unfold extension
    rw [hn]
    dsimp only
    rw [if_neg, if_neg]
    · simp only [List.reverse_append, List.reverse_cons, List.append_assoc]
      rw [List.takeWhile_append_of_pos hdot]
      simp
    · simp only [List.reverse_append, List.reverse_cons, List.append_assoc]
      rw [List.dropWhile_append_of_pos hdot]
      have : 0 < (fileName p).length := List.length_pos_iff.2 hp
      simp
      omega
    · have h1 : 0 < (fileName p).length := List.length_pos_iff.2 hp
      have h2 : 0 < ds.length := List.length_pos_iff.2 hne
      rintro (h3 | h3) <;> have := congrArg List.length h3 <;> simp at this <;> omega
  unfold suffix
  rw [he]

/-- Every entry has a number, and the largest is one of them. -/
theorem largest_le {ps : List Path} {m : Nat} (h : largest ps = .ok m) : ∀ p ∈ ps, ∃ n, suffix p = .ok n ∧ n ≤ m := by
  induction ps generalizing m with
  | nil => simp
  | cons p ps ih =>
    simp only [largest, Res.bind_eq_ok] at h
    obtain ⟨n, h1, m', h2, h3⟩ := h
    cases h3
    intro q hq
    rcases List.mem_cons.1 hq with rfl | hq
    · exact ⟨n, h1, by omega⟩
    · obtain ⟨k, h4, h5⟩ := ih h2 q hq
      exact ⟨k, h4, by omega⟩

theorem largest_mem {ps : List Path} {m : Nat} (hne : ps ≠ []) (h : largest ps = .ok m) : ∃ p ∈ ps, suffix p = .ok m := by
  induction ps generalizing m with
  | nil => simp at hne
  | cons p ps ih =>
    simp only [largest, Res.bind_eq_ok] at h
    obtain ⟨n, h1, m', h2, h3⟩ := h
    cases h3
    by_cases hp : ps = []
    · subst hp
      cases h2
      exact ⟨p, by simp, by simpa using h1⟩
    · obtain ⟨q, h4, h5⟩ := ih hp h2
      rcases Nat.le_total n m' with h6 | h6
      · exact ⟨q, by simp [h4], by rw [Nat.max_eq_right h6]; exact h5⟩
      · exact ⟨p, by simp, by rw [Nat.max_eq_left h6]; exact h1⟩

theorem largest_ok {ps : List Path} (h : ∀ p ∈ ps, ∃ n, suffix p = .ok n) : ∃ m, largest ps = .ok m := by
  induction ps with
  | nil => exact ⟨0, rfl⟩
  | cons p ps ih =>
    obtain ⟨n, h1⟩ := h p (by simp)
    obtain ⟨m, h2⟩ := ih fun q hq => h q (by simp [hq])
    exact ⟨max n m, by simp only [largest, h1, h2, Res.ok_bind]⟩

end Backup
end Scribbu
