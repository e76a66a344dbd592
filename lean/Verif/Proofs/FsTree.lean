import Verif.Spec.FsTree

namespace Scribbu.Proofs.FsTree
open Scribbu Scribbu.FsTree Scribbu.Spec.FsTree

/-! ## Paths -/

theorem split_join {p : Bytes} (h : 0x2f ∈ p) : join (splitPath p).1 (splitPath p).2 = p := by
  unfold join splitPath
  simp only
  have h1 : (p.reverse.dropWhile (· ≠ 0x2f)) = 0x2f :: (p.reverse.dropWhile (· ≠ 0x2f)).tail := by
    have : ∀ r : Bytes, 0x2f ∈ r → r.dropWhile (· ≠ 0x2f) = 0x2f :: (r.dropWhile (· ≠ 0x2f)).tail := by
      intro r
      induction r with
      | nil => simp
      | cons x r ih =>
        intro hx
        by_cases hx' : x = 0x2f
        · subst hx'
          rw [List.dropWhile_cons_of_neg (by decide)]
          rfl
        · rw [List.dropWhile_cons_of_pos (by simpa using hx')]
          refine ih ?_
          rcases List.mem_cons.1 hx with h | h
          · exact absurd h.symm hx'
          · exact h
    exact this _ (by simpa using h)
  have h2 := List.takeWhile_append_dropWhile (p := (· ≠ 0x2f)) (l := p.reverse)
  rw [h1] at h2
  have h3 := congrArg List.reverse h2
  simpa using h3

theorem name_unique {n n' r r' : Bytes} (hn : 0x2f ∉ n) (hn' : 0x2f ∉ n') (hr : r = [] ∨ r.head? = some 0x2f) (hr' : r' = [] ∨ r'.head? = some 0x2f)
    (h : n ++ r = n' ++ r') : n = n' := by
  have : ∀ n r : Bytes, 0x2f ∉ n → (r = [] ∨ r.head? = some 0x2f) → (n ++ r).takeWhile (· ≠ 0x2f) = n := by
    intro n r hn hr
    rw [List.takeWhile_append_of_pos (by intro x hx; simp only [decide_eq_true_eq]; rintro rfl; exact hn hx)]
    rcases hr with rfl | hr
    · simp
    · cases r with
      | nil => simp
      | cons x r =>
        simp only [List.head?_cons, Option.some.injEq] at hr
        subst hr
        rw [List.takeWhile_cons_of_neg (by decide)]
        simp
  rw [← this n r hn hr, h, this n' r' hn' hr']

/-! ## `flat-file-system-tree` -/

mutual
theorem strip_leaf (parent name : Bytes) : ∀ (t : Node) (p : Bytes),
    p ∈ flatten (strip parent (tree name t)) ↔ ∃ rel, LeafAt t rel ∧ p = join parent name ++ rel
  | .file, p => by
    simp only [tree, strip, flatten, List.mem_singleton]
    exact ⟨fun h => ⟨[], .file, by simp [h]⟩, fun ⟨_, h, h'⟩ => by cases h; simpa using h'⟩
  | .other, p => by
    simp only [tree, strip, flatten, List.mem_singleton]
    exact ⟨fun h => ⟨[], .other, by simp [h]⟩, fun ⟨_, h, h'⟩ => by cases h; simpa using h'⟩
  | .dangling, p => by
    simp only [tree, strip, flatten, List.mem_singleton]
    exact ⟨fun h => ⟨[], .dangling, by simp [h]⟩, fun ⟨_, h, h'⟩ => by cases h; simpa using h'⟩
  | .link _, p => by
    simp only [tree, strip, flatten, List.mem_singleton]
    exact ⟨fun h => ⟨[], .link _, by simp [h]⟩, fun ⟨_, h, h'⟩ => by cases h; simpa using h'⟩
  | .dir .nil, p => by
    simp only [tree, trees, strip, flatten, List.mem_singleton]
    refine ⟨fun h => ⟨[], .empty, by simp [h]⟩, fun ⟨_, h, h'⟩ => ?_⟩
    cases h with
    | empty => simpa using h'
    | dir _ _ _ _ hi _ => cases hi
  | .dir (.cons n t rest), p => by
    have h1 := strip_leaf (join parent name) n t p
    have h2 := stripAll_leaf (join parent name) rest p
    simp only [tree, trees, strip, flatten, List.mem_append, h1, h2]
    constructor
    · rintro (⟨rel, h3, rfl⟩ | ⟨m, u, rel, h3, h4, rfl⟩)
      · exact ⟨_, .dir _ n t rel (.here _ _ _) h3, by simp [join]⟩
      · exact ⟨_, .dir _ m u rel (.there _ _ _ _ _ h3) h4, by simp [join]⟩
    · rintro ⟨rel, h3, rfl⟩
      cases h3 with
      | dir _ m u rel hi hl =>
        cases hi with
        | here => exact .inl ⟨rel, hl, by simp [join]⟩
        | there _ _ _ _ _ hi => exact .inr ⟨m, u, rel, hi, hl, by simp [join]⟩

theorem stripAll_leaf (parent : Bytes) : ∀ (f : Forest) (p : Bytes),
    p ∈ flatten (stripAll parent (trees f)) ↔ ∃ n t rel, In f n t ∧ LeafAt t rel ∧ p = join parent n ++ rel
  | .nil, p => by
    simp only [trees, stripAll, flatten, List.not_mem_nil, false_iff]
    rintro ⟨_, _, _, h, -⟩
    cases h
  | .cons n t rest, p => by
    have h1 := strip_leaf parent n t p
    have h2 := stripAll_leaf parent rest p
    simp only [trees, stripAll, flatten, List.mem_append, h1, h2]
    constructor
    · rintro (⟨rel, h3, rfl⟩ | ⟨m, u, rel, h3, h4, rfl⟩)
      · exact ⟨n, t, rel, .here _ _ _, h3, rfl⟩
      · exact ⟨m, u, rel, .there _ _ _ _ _ h3, h4, rfl⟩
    · rintro ⟨m, u, rel, h3, h4, rfl⟩
      cases h3 with
      | here => exact .inl ⟨rel, h4, rfl⟩
      | there _ _ _ _ _ hi => exact .inr ⟨m, u, rel, hi, h4, rfl⟩
end

theorem leaf_rel {t : Node} {rel : Bytes} (h : LeafAt t rel) : rel = [] ∨ rel.head? = some 0x2f := by
  cases h <;> simp

theorem named_in {f : Forest} (h : NamedAll f) {n : Bytes} {t : Node} (hi : In f n t) : 0x2f ∉ n := by
  induction hi with
  | here => exact h.1
  | there _ _ _ _ _ _ ih => exact ih h.2.2.2

theorem rel_unique {pth n n' r r' : Bytes} (hn : 0x2f ∉ n) (hn' : 0x2f ∉ n') (hr : r = [] ∨ r.head? = some 0x2f) (hr' : r' = [] ∨ r'.head? = some 0x2f)
    (h : join pth n ++ r = join pth n' ++ r') : n = n' := by
  unfold join at h
  rw [List.append_assoc, List.append_assoc] at h
  have := List.append_cancel_left h
  simp only [List.cons_append, List.cons.injEq, true_and] at this
  exact name_unique hn hn' hr hr' this

mutual
theorem strip_nodup (parent name : Bytes) : ∀ (t : Node), Named t → (flatten (strip parent (tree name t))).Nodup
  | .file, _ => by simp [tree, strip, flatten]
  | .other, _ => by simp [tree, strip, flatten]
  | .dangling, _ => by simp [tree, strip, flatten]
  | .link _, _ => by simp [tree, strip, flatten]
  | .dir .nil, _ => by simp [tree, trees, strip, flatten]
  | .dir (.cons n t rest), h => by
    have h1 := stripAll_nodup (join parent name) (.cons n t rest) h
    simpa only [tree, trees, strip, stripAll, flatten] using h1

theorem stripAll_nodup (parent : Bytes) : ∀ (f : Forest), NamedAll f → (flatten (stripAll parent (trees f))).Nodup
  | .nil, _ => by simp [trees, stripAll, flatten]
  | .cons n t rest, h => by
    obtain ⟨k1, k2, k3, k4⟩ := h
    have h1 := strip_nodup parent n t k3
    have h2 := stripAll_nodup parent rest k4
    simp only [trees, stripAll, flatten]
    rw [List.nodup_append]
    refine ⟨h1, h2, ?_⟩
    rintro a ha b hb rfl
    obtain ⟨rel, h3, h4⟩ := (strip_leaf parent n t a).1 ha
    obtain ⟨m, u, rel', h5, h6, h7⟩ := (stripAll_leaf parent rest a).1 hb
    have := rel_unique k1 (named_in k4 h5) (leaf_rel h3) (leaf_rel h6) (h4.symm.trans h7)
    subst this
    exact k2 _ h5
end

/-! ## `fs-tree-generator` -/

mutual
/-- What the calls are to give for a node: depth first. -/
def outsNode (full : Bytes) : Node → List Out
  | .file => [.path full]
  | .other => []
  | .dangling => [.error]
  | .link t => outsNode full t
  | .dir f => outs full f

/-- The same, for the entries of a directory. -/
def outs (pth : Bytes) : Forest → List Out
  | .nil => []
  | .cons name t rest => outsNode (join pth name) t ++ outs pth rest
end

def pending (st : Stack) : List Out := st.flatMap fun e => outs e.1 e.2

/-- Directories open and to be opened. -/
def load (st : Stack) : Nat := (st.map fun e => dirsIn e.2 + 1).sum

theorem stat_outs (full : Bytes) : ∀ t : Node, outsNode full t = (match stat t with | none => [.error] | some u => outsNode full u) ∧
      dirs t = (match stat t with | none => 0 | some u => dirs u) ∧ (∀ u, stat t = some u → u.size ≤ t.size ∧ ∀ v, u ≠ .link v ∧ u ≠ .dangling)
  | .file => by simp [stat]
  | .other => by simp [stat]
  | .dangling => by simp [stat, outsNode, dirs]
  | .link t => by
    have ⟨h1, h2, h3⟩ := stat_outs full t
    refine ⟨h1, h2, fun u hu => ?_⟩
    have := h3 u hu
    simp only [Node.size]
    exact ⟨by omega, this.2⟩
  | .dir f => by simp [stat]

theorem scan_spec (lim : Nat) (pth : Bytes) : ∀ (f : Forest) (st : Stack), load ((pth, f) :: st) ≤ lim →
    ∃ o f' st', scan lim pth f st = (o, f', st') ∧ load ((pth, f') :: st') ≤ lim ∧ fuelFor ((pth, f') :: st') ≤ fuelFor ((pth, f) :: st) ∧
      (match o with
       | some o => o ≠ .eof ∧ (pending ((pth, f) :: st)).Perm (o :: pending ((pth, f') :: st'))
       | none => f' = .nil ∧ (pending ((pth, f) :: st)).Perm (pending st'))
  | .nil, st, h => ⟨none, .nil, st, rfl, h, Nat.le_refl _, rfl, by simp [pending, outs]⟩
  | .cons name t rest, st, h => by
    obtain ⟨k1, k2, k3⟩ := stat_outs (join pth name) t
    unfold scan
    cases hs : stat t with
    | none =>
      rw [hs] at k1 k2
      simp only at k1 k2
      refine ⟨_, _, _, rfl, ?_, ?_, nofun, ?_⟩
      · simp only [load, List.map_cons, List.sum_cons, dirsIn] at h ⊢
        omega
      · simp only [fuelFor, List.map_cons, List.sum_cons, Forest.size]
        omega
      · simp [pending, outs, k1]
    | some u =>
      rw [hs] at k1 k2
      obtain ⟨k4, k5⟩ := k3 u hs
      simp only at k1 k2
      cases u with
      | file =>
        refine ⟨_, _, _, rfl, ?_, ?_, nofun, ?_⟩
        · simp only [load, List.map_cons, List.sum_cons, dirsIn] at h ⊢
          omega
        · simp only [fuelFor, List.map_cons, List.sum_cons, Forest.size]
          omega
        · simp [pending, outs, outsNode, k1]
      | other =>
        obtain ⟨o, f', st', h1, h2, h3, h4⟩ := scan_spec lim pth rest st (by
          simp only [load, List.map_cons, List.sum_cons, dirsIn] at h ⊢
          omega)
        refine ⟨o, f', st', h1, h2, Nat.le_trans h3 ?_, ?_⟩
        · simp only [fuelFor, List.map_cons, List.sum_cons, Forest.size]
          omega
        · have : pending ((pth, .cons name t rest) :: st) = pending ((pth, rest) :: st) := by simp [pending, outs, outsNode, k1]
          rw [this]
          exact h4
      | dangling => exact absurd rfl (k5 .file).2
      | link v => exact absurd rfl (k5 v).1
      | dir g =>
        have hl : st.length + 1 < lim := by
          have : st.length ≤ (st.map fun e => dirsIn e.2 + 1).sum := by
            clear h
            induction st with
            | nil => simp
            | cons e st ih => simp only [List.length_cons, List.map_cons, List.sum_cons]; omega
          simp only [load, List.map_cons, List.sum_cons, dirsIn, k2, dirs] at h
          omega
        simp only [if_pos hl]
        obtain ⟨o, f', st', h1, h2, h3, h4⟩ := scan_spec lim pth rest (st ++ [(join pth name, g)]) (by
          simp only [load, List.map_cons, List.sum_cons, dirsIn, k2, dirs, List.map_append, List.sum_append, List.map_nil, List.sum_nil] at h ⊢
          omega)
        refine ⟨o, f', st', h1, h2, Nat.le_trans h3 ?_, ?_⟩
        · simp only [fuelFor, List.map_cons, List.sum_cons, Forest.size, List.map_append, List.sum_append, List.map_nil, List.sum_nil]
          simp only [Node.size] at k4
          omega
        · have : (pending ((pth, .cons name t rest) :: st)).Perm (pending ((pth, rest) :: (st ++ [(join pth name, g)]))) := by
            simp only [pending, List.flatMap_cons, List.flatMap_append, List.flatMap_nil, outs, k1, outsNode, List.append_nil]
            rw [List.append_assoc, ← List.append_assoc (outs pth rest)]
            exact List.perm_append_comm
          cases o with
          | some o => exact ⟨h4.1, this.trans h4.2⟩
          | none => exact ⟨h4.1, this.trans h4.2⟩

theorem next_spec (lim : Nat) : ∀ (fuel : Nat) (st : Stack), load st ≤ lim → fuelFor st ≤ fuel →
    ∃ o st', next lim fuel st = some (o, st') ∧ load st' ≤ lim ∧
      ((o = .eof ∧ st' = [] ∧ pending st = []) ∨ (o ≠ .eof ∧ (pending st).Perm (o :: pending st')))
  | 0, st, _, hf => by simp [fuelFor] at hf
  | fuel + 1, [], h, _ => ⟨.eof, [], rfl, h, .inl ⟨rfl, rfl, rfl⟩⟩
  | fuel + 1, (pth, f) :: st, h, hf => by
    obtain ⟨o, f', st', h1, h2, h3, h4⟩ := scan_spec lim pth f st h
    unfold next
    rw [h1]
    cases o with
    | some o => exact ⟨o, _, rfl, h2, .inr h4⟩
    | none =>
      obtain ⟨rfl, h5⟩ := h4
      obtain ⟨o, st2, k1, k2, k3⟩ := next_spec lim fuel st' (by
          simp only [load, List.map_cons, List.sum_cons] at h2 ⊢
          omega) (by
          simp only [fuelFor, List.map_cons, List.sum_cons, Forest.size] at h3 hf ⊢
          omega)
      refine ⟨o, st2, k1, k2, ?_⟩
      rcases k3 with ⟨k3, k4, k5⟩ | ⟨k3, k4⟩
      · rw [k5] at h5
        exact .inl ⟨k3, k4, h5.eq_nil⟩
      · exact .inr ⟨k3, h5.trans k4⟩

theorem calls_eof (lim k : Nat) : calls lim k [] = List.replicate k (some .eof) := by
  induction k with
  | zero => rfl
  | succ k ih =>
    have : next lim (fuelFor []) [] = some (.eof, []) := rfl
    simp only [calls, this, ih, List.replicate_succ]

theorem calls_spec (lim : Nat) : ∀ (n : Nat) (st : Stack), load st ≤ lim → (pending st).length = n →
    ∃ os : List Out, os.Perm (pending st) ∧ .eof ∉ os ∧ ∀ k, calls lim (os.length + k) st = os.map some ++ List.replicate k (some .eof)
  | n, st, h, hn => by
    obtain ⟨o, st', h1, h2, h3⟩ := next_spec lim (fuelFor st) st h (Nat.le_refl _)
    rcases h3 with ⟨rfl, rfl, h3⟩ | ⟨h3, h4⟩
    · refine ⟨[], by rw [h3], by simp, fun k => ?_⟩
      cases k with
      | zero => rfl
      | succ k =>
        rw [List.length_nil, Nat.zero_add]
        simp only [calls, h1, calls_eof, List.replicate_succ]
        rfl
    · have hl := h4.length_eq
      simp only [List.length_cons] at hl
      cases n with
      | zero => omega
      | succ n =>
        obtain ⟨os, k1, k2, k3⟩ := calls_spec lim n st' h2 (by omega)
        refine ⟨o :: os, (k1.cons o).trans h4.symm, ?_, fun k => ?_⟩
        · simp only [List.mem_cons, not_or]
          exact ⟨fun h => h3 h.symm, k2⟩
        · rw [List.length_cons, show os.length + 1 + k = (os.length + k) + 1 by omega]
          simp only [calls, h1, k3, List.map_cons, List.cons_append]

/-- The path of a result. -/
def pathOf : Out → Option Bytes
  | .path p => some p
  | _ => none

mutual
theorem outs_node (full : Bytes) : ∀ (t : Node) (p : Bytes), Out.path p ∈ outsNode full t ↔ ∃ rel, FileAt true t rel ∧ p = full ++ rel
  | .file, p => by
    simp only [outsNode, List.mem_singleton, Out.path.injEq]
    exact ⟨fun h => ⟨[], .file, by simp [h]⟩, fun ⟨_, h, h'⟩ => by cases h; simpa using h'⟩
  | .other, p => by
    simp only [outsNode, List.not_mem_nil, false_iff]
    rintro ⟨_, h, -⟩
    cases h
  | .dangling, p => by
    simp only [outsNode, List.mem_singleton, reduceCtorEq, false_iff]
    rintro ⟨_, h, -⟩
    cases h
  | .link t, p => by
    simp only [outsNode, outs_node full t p]
    constructor
    · rintro ⟨rel, h, rfl⟩
      exact ⟨rel, .link _ _ rfl h, rfl⟩
    · rintro ⟨rel, h, rfl⟩
      cases h with
      | link _ _ _ h => exact ⟨rel, h, rfl⟩
  | .dir f, p => by
    simp only [outsNode, outs_mem full f p]
    constructor
    · rintro ⟨n, t, rel, h1, h2, rfl⟩
      exact ⟨_, .dir _ n t rel h1 h2, by simp [join]⟩
    · rintro ⟨rel, h, rfl⟩
      cases h with
      | dir _ n t rel h1 h2 => exact ⟨n, t, rel, h1, h2, by simp [join]⟩

theorem outs_mem (pth : Bytes) : ∀ (f : Forest) (p : Bytes),
    Out.path p ∈ outs pth f ↔ ∃ n t rel, In f n t ∧ FileAt true t rel ∧ p = join pth n ++ rel
  | .nil, p => by
    simp only [outs, List.not_mem_nil, false_iff]
    rintro ⟨_, _, _, h, -⟩
    cases h
  | .cons n t rest, p => by
    simp only [outs, List.mem_append, outs_node (join pth n) t p, outs_mem pth rest p]
    constructor
    · rintro (⟨rel, h3, rfl⟩ | ⟨m, u, rel, h3, h4, rfl⟩)
      · exact ⟨n, t, rel, .here _ _ _, h3, rfl⟩
      · exact ⟨m, u, rel, .there _ _ _ _ _ h3, h4, rfl⟩
    · rintro ⟨m, u, rel, h3, h4, rfl⟩
      cases h3 with
      | here => exact .inl ⟨rel, h4, rfl⟩
      | there _ _ _ _ _ hi => exact .inr ⟨m, u, rel, hi, h4, rfl⟩
end

theorem file_rel {b : Bool} {t : Node} {rel : Bytes} (h : FileAt b t rel) : rel = [] ∨ rel.head? = some 0x2f := by
  induction h with
  | file => simp
  | link _ _ _ _ ih => exact ih
  | dir => simp

theorem mem_pathOf {l : List Out} {p : Bytes} : p ∈ l.filterMap pathOf ↔ .path p ∈ l := by
  simp only [List.mem_filterMap]
  constructor
  · rintro ⟨a, h1, h2⟩
    cases a <;> simp only [pathOf, Option.some.injEq, reduceCtorEq] at h2
    subst h2
    exact h1
  · exact fun h => ⟨_, h, rfl⟩

mutual
theorem outs_node_nodup (full : Bytes) : ∀ (t : Node), Named t → ((outsNode full t).filterMap pathOf).Nodup
  | .file, _ => by simp [outsNode, pathOf]
  | .other, _ => by simp [outsNode]
  | .dangling, _ => List.nodup_nil
  | .link t, h => outs_node_nodup full t h
  | .dir f, h => outs_nodup full f h

theorem outs_nodup (pth : Bytes) : ∀ (f : Forest), NamedAll f → ((outs pth f).filterMap pathOf).Nodup
  | .nil, _ => by simp [outs]
  | .cons n t rest, h => by
    obtain ⟨k1, k2, k3, k4⟩ := h
    have h1 := outs_node_nodup (join pth n) t k3
    have h2 := outs_nodup pth rest k4
    simp only [outs, List.filterMap_append]
    rw [List.nodup_append]
    refine ⟨h1, h2, ?_⟩
    rintro a ha b hb rfl
    obtain ⟨rel, h3, h4⟩ := (outs_node (join pth n) t a).1 (mem_pathOf.1 ha)
    obtain ⟨m, u, rel', h5, h6, h7⟩ := (outs_mem pth rest a).1 (mem_pathOf.1 hb)
    have := rel_unique k1 (named_in k4 h5) (file_rel h3) (file_rel h6) (h4.symm.trans h7)
    subst this
    exact k2 _ h5
end

mutual
theorem outs_node_errors (full : Bytes) : ∀ (t : Node), (outsNode full t).count .error = broken t
  | .file => by simp [outsNode, broken]
  | .other => by simp [outsNode, broken]
  | .dangling => by simp [outsNode, broken]
  | .link t => outs_node_errors full t
  | .dir f => outs_errors full f

theorem outs_errors (pth : Bytes) : ∀ (f : Forest), (outs pth f).count .error = brokenIn f
  | .nil => by simp [outs, brokenIn]
  | .cons n t rest => by simp only [outs, List.count_append, outs_node_errors, outs_errors, brokenIn]
end

end Scribbu.Proofs.FsTree
