import Verif.Props.CloudOrder

/-! Property C206: tags can be merged into a tag cloud together or one after the other. -/

namespace Scribbu.CloudPieces
open Scribbu Scribbu.Spec Scribbu.Props TagCloud

theorem splitOn_join (sep : Byte) (a b : Bytes) : splitOn sep (a ++ sep :: b) = splitOn sep a ++ splitOn sep b := by
  induction a with
  | nil =>
    obtain ⟨h, r, e⟩ := List.exists_cons_of_ne_nil (splitOn_ne_nil sep b)
    rw [List.nil_append, splitOn_cons sep sep b h r e, if_pos rfl, e]
    rfl
  | cons c a ih =>
    obtain ⟨h, r, e⟩ := List.exists_cons_of_ne_nil (splitOn_ne_nil sep a)
    have e' : splitOn sep (a ++ sep :: b) = h :: (r ++ splitOn sep b) := by rw [ih, e]; rfl
    rw [List.cons_append, splitOn_cons sep c _ _ _ e', splitOn_cons sep c _ _ _ e]
    split <;> rfl

theorem procPieces_append (ps qs : List Bytes) (M : TagMap) : procPieces (ps ++ qs) M = andThen (procPieces ps M) (procPieces qs) := by
  induction ps generalizing M with
  | nil => rfl
  | cons p ps ih =>
    rw [List.cons_append, procPieces_cons, procPieces_cons, andThen_assoc]
    congr 1
    funext M
    exact ih M

/-- Whether values are accepted does not depend on the map. -/
theorem procVals_fst (key : Bytes) (ws : List Bytes) (M N : TagMap) : (procVals key ws M).1 = (procVals key ws N).1 := by
  induction ws generalizing M N with
  | nil => rfl
  | cons w ws ih =>
    rw [procVals, procVals, tokVal, tokVal]
    cases urldecode w with
    | ok v => exact ih _ _
    | throw e => rfl
    | ub u => rfl

theorem procPiece_fst {p : Bytes} (hp : 0x3d ∈ p) (M N : TagMap) : (procPiece p M).1 = (procPiece p N).1 := by
  rcases split_eq p with h | ⟨a, b, rfl, ha⟩
  · exact absurd hp h
  · rw [procPiece, procPiece, (takeWhile_app ha).1, (takeWhile_app ha).2]
    simp only
    cases urldecode a with
    | ok k => exact procVals_fst _ _ _ _
    | throw e => rfl
    | ub u => rfl

theorem procPiece_fewer {p : Bytes} {M N : TagMap} (hM : MapOk M) (hN : MapOk N) (hs : ∀ k, KeyIn N k → KeyIn M k) (h : (procPiece p M).1 = .ok ()) :
    (procPiece p N).1 = .ok () := by
  by_cases hp : 0x3d ∈ p
  · rw [procPiece_fst hp N M]; exact h
  · rw [procPiece, (takeWhile_all hp).1, (takeWhile_all hp).2] at h ⊢
    simp only [tokKey] at h ⊢
    cases hu : urldecode p with
    | ok k =>
      simp only [hu] at h ⊢
      have hk : ¬ (mapFind k M).isSome := by
        intro hx
        rw [if_pos hx] at h
        cases h
      have : ¬ (mapFind k N).isSome := by
        intro hx
        exact hk ((mapFind_isSome hM).2 (hs k ((mapFind_isSome hN).1 hx)))
      rw [if_neg this]
    | throw e => rw [hu] at h; cases h
    | ub u => rw [hu] at h; cases h

theorem procPieces_fewer (ps : List Bytes) {M N : TagMap} (hM : MapOk M) (hN : MapOk N) (hs : ∀ k, KeyIn N k → KeyIn M k)
    (h : (procPieces ps M).1 = .ok ()) : (procPieces ps N).1 = .ok () := by
  induction ps generalizing M N with
  | nil => rfl
  | cons p ps ih =>
    rw [procPieces_cons] at h ⊢
    rcases procPiece_spec p M hM with ⟨M', e, m1, m2, -⟩ | ⟨M', e⟩
    · have hn := procPiece_fewer (p := p) hM hN hs (by rw [e])
      rcases procPiece_spec p N hN with ⟨N', f, n1, n2, -⟩ | ⟨N', f⟩
      · rw [e] at h
        rw [f]
        refine ih m1 n1 ?_ h
        intro k hk
        rw [n2] at hk
        rw [m2]
        exact hk.imp id (hs k)
      · rw [f] at hn; cases hn
    · rw [e] at h; cases h

theorem procPieces_free (ps : List Bytes) (hp : ∀ p ∈ ps, 0x3d ∈ p) (M N : TagMap) (h : (procPieces ps M).1 = .ok ()) : (procPieces ps N).1 = .ok () := by
  induction ps generalizing M N with
  | nil => rfl
  | cons p ps ih =>
    rw [procPieces_cons] at h ⊢
    have hn := procPiece_fst (hp p (by simp)) M N
    rcases e : procPiece p M with ⟨r, M'⟩
    rcases f : procPiece p N with ⟨q, N'⟩
    rw [e, f] at hn
    simp only at hn
    subst hn
    rw [e] at h
    cases r with
    | ok u => exact ih (fun q hq => hp q (by simp [hq])) _ _ h
    | throw x => cases h
    | ub x => cases h

theorem mapOk_nil : MapOk [] := ⟨.nil, by simp⟩

theorem procPieces_ok (ps : List Bytes) {M : TagMap} (hM : MapOk M) : MapOk (procPieces ps M).2 ∨ (procPieces ps M).1 ≠ .ok () := by
  induction ps generalizing M with
  | nil => exact .inl hM
  | cons p ps ih =>
    rw [procPieces_cons]
    rcases procPiece_spec p M hM with ⟨M', e, m1, -⟩ | ⟨M', e⟩
    · rw [e]; exact ih m1
    · rw [e]; exact .inr (by simp [andThen])

theorem merge_fst (text : Bytes) (t : TagCloud) : (t.merge text).1 = (procPieces (splitOn 0x26 text) []).1 := by
  rw [TagCloud.merge, parseToMap_eq]
  rcases procPieces (splitOn 0x26 text) [] with ⟨_ | _ | _, _⟩ <;> rfl

end Scribbu.CloudPieces

namespace Scribbu.Props
open Scribbu Scribbu.Spec Scribbu.CloudPieces TagCloud

/-- **C206** as claimed: merging two texts with `&` between them is merging the one, then the other. -/
def C206_claim : Prop := ∀ (t : TagCloud) (a b : Bytes), MapOk t.tags → (t.merge a).1 = .ok () → ((t.merge a).2.merge b).1 = .ok () →
  t.merge (a ++ 0x26 :: b) = (t.merge a).2.merge b

/-- **Finding** (C206) A tag without values can be merged again and again, but not twice in one text: `x&x` is refused. -/
theorem C206_refuted : ¬ C206_claim := by
  intro h
  have := h ⟨[], []⟩ [0x78] [0x78] mapOk_nil (by decide) (by decide)
  revert this
  decide

theorem merged_same (t : TagCloud) (ht : MapOk t.tags) (a b : Bytes) (hab : (t.merge (a ++ 0x26 :: b)).1 = .ok ()) (ha : (t.merge a).1 = .ok ())
    (hb : ((t.merge a).2.merge b).1 = .ok ()) : t.merge (a ++ 0x26 :: b) = (t.merge a).2.merge b := by
  have r : Represents t.tags ⟨fun k => ∃ s, (k, s) ∈ t.tags, fun k v => ∃ s, (k, s) ∈ t.tags ∧ v ∈ s⟩ := ⟨fun _ => Iff.rfl, fun _ _ => Iff.rfl⟩
  have adds : ∀ x, Adds (.merge x) := by intro x y h; cases h
  obtain ⟨a1, a2, a3⟩ := after_adds [.merge (a ++ 0x26 :: b)] t _ (by simpa using adds _) ht r
  obtain ⟨b1, b2, b3⟩ := after_adds [.merge a, .merge b] t _ (by simpa using ⟨adds a, adds b⟩) ht r
  have hok : ∀ x (u : TagCloud), (u.merge x).1 = .ok () → ((CloudOp.merge x).run ⟨[], []⟩).1 = .ok () := by
    intro x u h
    show (TagCloud.merge x ⟨[], []⟩).1 = _
    rw [merge_fst] at h ⊢
    exact h
  have s1 : afterOps [.merge (a ++ 0x26 :: b)] t = (t.merge (a ++ 0x26 :: b)).2 := rfl
  have s2 : afterOps [.merge a, .merge b] t = ((t.merge a).2.merge b).2 := rfl
  have hk : ∀ k, (MentionsKey (a ++ 0x26 :: b) k ↔ MentionsKey a k ∨ MentionsKey b k) := by
    intro k
    simp only [MentionsKey, splitOn_join, List.mem_append, or_and_right, exists_or]
  have hv : ∀ k v, (MentionsVal (a ++ 0x26 :: b) k v ↔ MentionsVal a k v ∨ MentionsVal b k v) := by
    intro k v
    simp only [MentionsVal, splitOn_join, List.mem_append, or_and_right, exists_or]
  rw [s1] at a1 a2 a3
  rw [s2] at b1 b2 b3
  have e : (t.merge (a ++ 0x26 :: b)).2.tags = ((t.merge a).2.merge b).2.tags := by
    apply mapOk_ext a1 b1
    · intro k
      rw [a3.1 k, b3.1 k]
      simp only [List.mem_cons, List.not_mem_nil, or_false, exists_eq_left, exists_eq_or_imp, CloudOp.key, hok _ _ hab, hok _ _ ha, hok _ _ hb, true_and, hk]
    · intro k v
      rw [a3.2 k v, b3.2 k v]
      simp only [List.mem_cons, List.not_mem_nil, or_false, exists_eq_left, exists_eq_or_imp, CloudOp.val, hok _ _ hab, hok _ _ ha, hok _ _ hb, true_and, hv]
  have o := a2.trans b2.symm
  apply Prod.ext
  · rw [hab, hb]
  · cases hx : (t.merge (a ++ 0x26 :: b)).2
    cases hy : ((t.merge a).2.merge b).2
    rw [hx, hy] at e o
    simp only at e o
    rw [e, o]

/-- **C206** If the two can be merged together, they can be merged one after the other, and the cloud becomes the same. Missing: that they can be merged together if they can be merged
one after the other. -/
theorem C206_together_partial (t : TagCloud) (ht : MapOk t.tags) (a b : Bytes) (h : (t.merge (a ++ 0x26 :: b)).1 = .ok ()) :
    (t.merge a).1 = .ok () ∧ t.merge (a ++ 0x26 :: b) = (t.merge a).2.merge b := by
  have h' := h
  rw [merge_fst, splitOn_join, procPieces_append] at h
  have hx := procPieces_ok (splitOn 0x26 a) mapOk_nil
  rcases e : procPieces (splitOn 0x26 a) [] with ⟨r, M⟩
  rw [e] at h hx
  cases r with
  | ok u =>
    have ha : (t.merge a).1 = .ok () := by rw [merge_fst, e]
    refine ⟨ha, merged_same t ht a b h' ha ?_⟩
    rw [merge_fst]
    refine procPieces_fewer _ (hx.resolve_right (by simp)) mapOk_nil ?_ h
    rintro k ⟨s, hs⟩
    cases hs
  | throw x => cases h
  | ub x => cases h

/-- **C206** If every tag in the second has values (or at least a `=`), they can be merged together exactly if they can be merged one after the other. Missing: tags without values that were
mentioned before in the same text. -/
theorem C206_values_partial (t : TagCloud) (ht : MapOk t.tags) (a b : Bytes) (hb : ∀ p ∈ splitOn 0x26 b, 0x3d ∈ p) (h1 : (t.merge a).1 = .ok ())
    (h2 : ((t.merge a).2.merge b).1 = .ok ()) : t.merge (a ++ 0x26 :: b) = (t.merge a).2.merge b := by
  refine merged_same t ht a b ?_ h1 h2
  rw [merge_fst] at h1 h2
  rw [merge_fst, splitOn_join, procPieces_append]
  rcases e : procPieces (splitOn 0x26 a) [] with ⟨r, M⟩
  rw [e] at h1
  simp only at h1
  subst h1
  exact procPieces_free _ hb _ _ h2

/-- `x=1&y` and `x=2`, on a cloud that is not empty. -/
example : (∀ p ∈ splitOn 0x26 [0x78, 0x3d, 0x32], (0x3d : Byte) ∈ p) ∧ (tc1.merge [0x78, 0x3d, 0x31, 0x26, 0x79]).1 = .ok () ∧
    tc1.merge [0x78, 0x3d, 0x31, 0x26, 0x79, 0x26, 0x78, 0x3d, 0x32] = (tc1.merge [0x78, 0x3d, 0x31, 0x26, 0x79]).2.merge [0x78, 0x3d, 0x32] ∧
    (tc1.merge [0x78, 0x3d, 0x31, 0x26, 0x79, 0x26, 0x78, 0x3d, 0x32]).2 ≠ tc1 := by decide

end Scribbu.Props
