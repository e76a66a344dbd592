import Verif.Proofs.GenreMatch
import Verif.Spec.Genres

/-! # Genres: C42 and C78 -/

namespace Scribbu.Props

open Spec Genres

/-- The table of names is as documented. -/
theorem names_documented : Genres.names = Spec.genres := by decide +kernel

/-- The table that texts are compared with is the same, in lower case. -/
theorem keys_documented : Genres.keys = Spec.genres.map Spec.folded := by decide +kernel

theorem genres_length : Spec.genres.length = 192 := by decide +kernel

/-- C42: a number has a text if and only if it is one of the documented ones, and then the text is the documented one. -/
theorem C42_text (n : Byte) : textForGenre n = Spec.genres[n.toNat]? := by
  unfold textForGenre
  rw [names_documented]
  split
  · rename_i h
    rw [List.getElem?_eq_none h]
  · rfl

example : textForGenre 9 = some [77, 101, 116, 97, 108] ∧ textForGenre 191 ≠ none ∧ textForGenre 192 = none := by decide +kernel

/-- C42: exactly the numbers below 192 have a text. -/
theorem C42_defined (n : Byte) : (textForGenre n).isSome ↔ n.toNat < 192 := by
  rw [C42_text, ← genres_length]
  simp

theorem listUpTo_eq : ∀ i, i ≤ 192 → listUpTo i = .ok ((Spec.genres.take i).zipIdx.map fun x => (x.2, x.1)) := by
  intro i
  induction i with
  | zero => intro _; simp [listUpTo]
  | succ i ih =>
    intro h
    have hl : i < Spec.genres.length := by rw [genres_length]; omega
    rw [listUpTo, ih (by omega), names_documented]
    simp only [Res.ok_bind]
    rw [List.getElem?_eq_getElem hl]
    simp only
    rw [List.take_succ_eq_append_getElem hl, List.zipIdx_append]
    simp [genres_length]
    omega

/-- How many genres there were. -/
def countOf : Generation → Nat
  | .standard => genresV1.length
  | .winamp => (genresV1 ++ genresWinamp).length
  | .winamp_1_91 => (genresV1 ++ genresWinamp ++ genres191).length
  | .winamp_5_6 => (genresV1 ++ genresWinamp ++ genres191 ++ genres56).length

/-- C42: the list for a generation has the genres there were, each with its number. -/
theorem C42_lists (g : Generation) : ∃ l, genreList g = .ok l ∧ l.length = countOf g ∧
    ∀ i, i < countOf g → ∃ s, l[i]? = some (i, s) ∧ Spec.genres[i]? = some s := by
  have key : ∀ i, i ≤ 192 → ∃ l, listUpTo i = .ok l ∧ l.length = i ∧ ∀ j, j < i → ∃ s, l[j]? = some (j, s) ∧ Spec.genres[j]? = some s := by
    intro i hi
    refine ⟨_, listUpTo_eq i hi, ?_, ?_⟩
    · simp [genres_length]; omega
    · intro j hj
      have hl : j < Spec.genres.length := by rw [genres_length]; omega
      refine ⟨Spec.genres[j], ?_, List.getElem?_eq_getElem hl⟩
      simp [hj, hl]
  unfold genreList
  cases g
  · have e : countOf .standard = 80 := by decide +kernel
    rw [e]; exact key 80 (by omega)
  · have e : countOf .winamp = 142 := by decide +kernel
    rw [e]; exact key 142 (by omega)
  · have e : countOf .winamp_1_91 = 148 := by decide +kernel
    rw [e]; exact key 148 (by omega)
  · have e : countOf .winamp_5_6 = 192 := by decide +kernel
    rw [e]; exact key 192 (by omega)

/-- C42: the list for a generation is the beginning of the next one. -/
theorem C42_prefixes : ∃ l1 l2 l3 l4, genreList .standard = .ok l1 ∧ genreList .winamp = .ok l2 ∧ genreList .winamp_1_91 = .ok l3 ∧
    genreList .winamp_5_6 = .ok l4 ∧ l1 <+: l2 ∧ l2 <+: l3 ∧ l3 <+: l4 := by
  refine ⟨_, _, _, _, listUpTo_eq 80 (by omega), listUpTo_eq 142 (by omega), listUpTo_eq 148 (by omega), listUpTo_eq 192 (by omega), ?_⟩
  have h : ∀ i j : Nat, i ≤ j → ((Spec.genres.take i).zipIdx.map fun x => (x.2, x.1)) <+:
      ((Spec.genres.take j).zipIdx.map fun x => (x.2, x.1)) := by
    intro i j hij
    refine ⟨(((Spec.genres.take j).drop i).zipIdx ((Spec.genres.take i).length)).map fun x => (x.2, x.1), ?_⟩
    rw [← List.map_append]
    congr 1
    have : (Spec.genres.take j) = Spec.genres.take i ++ (Spec.genres.take j).drop i := by
      have := List.take_append_drop i (Spec.genres.take j)
      rw [List.take_take, Nat.min_eq_left hij] at this
      exact this.symm
    rw [this, List.zipIdx_append]
    simp [← this, Nat.zero_add]
  exact ⟨h _ _ (by omega), h _ _ (by omega), h _ _ (by omega)⟩

/-! ## Matching -/

theorem keys_sizes : ∀ A ∈ Genres.keys, 1 ≤ A.length ∧ A.length ≤ 22 := by decide +kernel

theorem matchGenre_spec {dec : Bytes → Option (List Nat)} {lower : Nat → Nat} {text : Bytes} {w : List Nat} (hd : dec text = some w)
    (h1 : 1 ≤ w.length) (h2 : w.length < 2 ^ 63) :
    (matchGenre dec lower text = .ub .uninit ∧ 22 ≤ w.length ∧
      ∀ A ∈ Spec.genres.map Spec.folded, ∀ d, Distance A (w.map lower) d → w.length ≤ d) ∨
    ∃ name g d, matchGenre dec lower text = .ok (name, g, d) ∧ Spec.genres[g]? = some name ∧ Distance (folded name) (w.map lower) d ∧
      d < max 22 w.length ∧
      (∀ A ∈ Spec.genres.map Spec.folded, A.length ≤ w.length → ∀ d', Distance A (w.map lower) d' → d ≤ d') ∧
      ∀ g' name' d', g' < g → Spec.genres[g']? = some name' → name'.length ≤ w.length → Distance (folded name') (w.map lower) d' → d < d' := by
  unfold matchGenre
  rw [hd]
  simp only
  have hlen : (w.map lower).length = w.length := by simp
  generalize w.map lower = B at *
  obtain ⟨F, r, hI, hfresh⟩ := initFkp_spec ⟨B, max 22 B.length⟩
  rw [r]
  simp only [Res.ok_bind]
  have hs : ∀ A ∈ Genres.keys, Sizes ⟨B, max 22 B.length⟩ A ∧ A.length < 2 ^ 63 := by
    intro A hA
    have := keys_sizes A hA
    exact ⟨⟨this.1, by simp only; omega, by simp only; omega, by simp only; omega⟩, by omega⟩
  obtain ⟨l, b, e1, e2, e3, e4⟩ := bestOf_spec (c := ⟨B, max 22 B.length⟩) (by simp only; omega) Genres.keys 0 (max 22 B.length) none F hs
    (by omega) hI
  rw [e1]
  simp only [Res.ok_bind]
  rcases e3 with ⟨e3, e3'⟩ | ⟨g, A, g1, g2, g3, g4, g5⟩
  · -- nothing was close enough
    left
    subst e3'
    have hbig : 22 ≤ w.length := by
      -- the first genre is never overlooked
      refine Classical.byContradiction fun hlt => ?_
      cases hk : Genres.keys with
      | nil => exact absurd hk (by decide +kernel)
      | cons A rest =>
        obtain ⟨hsA, hA63⟩ := hs A (by rw [hk]; simp)
        obtain ⟨d, F', r', hI', hD⟩ := damerauLevenshtein_fresh hsA (by simp only; omega) hA63 hI hfresh
        have hA5 : A.length = 5 := by
          have : (Genres.keys[0]?).map List.length = some 5 := by decide +kernel
          rw [hk] at this
          simpa using this
        have hd21 : d < max 22 B.length := by
          have := hD.2 _ ((Edits.turns_iff A B _).2 (Edits.E.all A B))
          omega
        rw [hk, bestOf, r'] at e1
        simp only [Res.ok_bind] at e1
        rw [if_pos hd21] at e1
        obtain ⟨l', b', f1, f2, f3, f4⟩ := bestOf_spec (c := ⟨B, max 22 B.length⟩) (by simp only; omega) rest 1 d (some 0) F'
          (fun A' h => hs A' (by rw [hk]; simp [h])) (by omega) hI'
        rw [Nat.zero_add, f1] at e1
        injection e1 with e1
        injection e1 with e5 e6
        rcases f3 with ⟨f3, f3'⟩ | ⟨j, A', q1, q2, _⟩
        · rw [f3'] at e6; cases e6
        · rw [q2] at e6; cases e6
    refine ⟨rfl, hbig, ?_⟩
    intro A hA d hD
    rw [← keys_documented] at hA
    have := keys_sizes A hA
    have := e4 A hA (by simp only; omega) d hD
    omega
  · right
    rw [Nat.zero_add] at g2
    subst g2
    have hg : g < 192 := by
      have := (List.getElem?_eq_some_iff.1 g1).1
      have e : Genres.keys.length = 192 := by decide +kernel
      omega
    have hl : g < Spec.genres.length := by rw [genres_length]; exact hg
    have hb : (UInt8.ofNat g).toNat = g := by simp; omega
    have ht : textForGenre (UInt8.ofNat g) = some Spec.genres[g] := by
      rw [C42_text, hb, List.getElem?_eq_getElem hl]
    have hfold : ∀ g' : Nat, Genres.keys[g']? = (Spec.genres[g']?).map folded := by
      intro g'
      rw [keys_documented, List.getElem?_map]
    simp only
    rw [ht]
    refine ⟨_, _, _, rfl, List.getElem?_eq_getElem hl, ?_, by omega, ?_, ?_⟩
    · rw [hfold, List.getElem?_eq_getElem hl] at g1
      simp only [Option.map_some, Option.some.injEq] at g1
      rw [g1]
      exact g4
    · intro A' hA' hle d' hD
      rw [← keys_documented] at hA'
      exact e4 A' hA' (by simp only; omega) d' hD
    · intro g' name' d' hlt hget hle hD
      refine g5 g' (folded name') d' hlt ?_ (by simp only [folded, List.length_map]; omega) hD
      rw [hfold, hget]
      rfl

theorem distance_zero {A B : List Nat} : Distance A B 0 ↔ A = B := by
  constructor
  · rintro ⟨⟨s, h1, h2, h3⟩, _⟩
    have : s.flatMap Change.before = s.flatMap Change.after := by
      clear h1 h2
      induction s with
      | nil => rfl
      | cons x s ih =>
        simp only [List.map_cons, List.sum_cons] at h3
        cases x with
        | keep a => simp [Change.before, Change.after, ih (by omega)]
        | replace => simp [Change.cost] at h3
        | insert => simp [Change.cost] at h3
        | delete => simp [Change.cost] at h3
        | exchange => simp [Change.cost] at h3
    rw [← h1, ← h2, this]
  · rintro rfl
    refine ⟨⟨A.map .keep, ?_, ?_, ?_⟩, fun _ _ => Nat.zero_le _⟩
    · induction A with
      | nil => rfl
      | cons a A ih => simp [Change.before, ih]
    · induction A with
      | nil => rfl
      | cons a A ih => simp [Change.after, ih]
    · induction A with
      | nil => rfl
      | cons a A ih => simpa [Change.cost] using ih

theorem folded_distinct : (Spec.genres.map Spec.folded).Nodup := by
  have : (Spec.genres.map Spec.folded).Pairwise (· ≠ ·) := by decide +kernel
  exact this

/-- C42: a text that is the name of a genre but for the case of its letters is matched with this genre, and the distance is nothing. -/
theorem C42_match {dec : Bytes → Option (List Nat)} {lower : Nat → Nat} {text : Bytes} {w : List Nat} {g : Nat} {name : Bytes}
    (hd : dec text = some w) (hg : Spec.genres[g]? = some name) (hw : w.map lower = folded name) :
    matchGenre dec lower text = .ok (name, g, 0) := by
  have hmem : folded name ∈ Spec.genres.map Spec.folded := List.mem_map.2 ⟨name, List.mem_of_getElem? hg, rfl⟩
  have hkey := keys_sizes (folded name) (by rw [keys_documented]; exact hmem)
  have hlen : w.length = (folded name).length := by rw [← hw]; simp
  rcases matchGenre_spec (lower := lower) hd (by omega) (by omega) with ⟨_, h22, hall⟩ | ⟨name', g', d, r, hg', hD, _, hmin, _⟩
  · have := hall _ hmem 0 (distance_zero.2 hw.symm)
    omega
  · have := hmin _ hmem (by omega) 0 (distance_zero.2 hw.symm)
    have e : d = 0 := by omega
    subst e
    have e1 : folded name' = folded name := by rw [distance_zero.1 hD, hw]
    have e2 : g' = g := by
      have h1 : (Spec.genres.map Spec.folded)[g']? = some (folded name) := by rw [List.getElem?_map, hg', ← e1]; rfl
      have h2 : (Spec.genres.map Spec.folded)[g]? = some (folded name) := by rw [List.getElem?_map, hg]; rfl
      have b1 := (List.getElem?_eq_some_iff.1 h1)
      have b2 := (List.getElem?_eq_some_iff.1 h2)
      exact (List.getElem_inj folded_distinct).1 (b1.2.trans b2.2.symm)
    subst e2
    rw [hg] at hg'
    injection hg' with hg'
    rw [r, ← hg']

/-- The case of plain text. -/
def asciiLower (c : Nat) : Nat := if 65 ≤ c ∧ c ≤ 90 then c + 32 else c

/-- "jPoP" is genre 146. -/
example : matchGenre (fun b => some (b.map (·.toNat))) asciiLower [106, 80, 111, 80] = .ok ([74, 112, 111, 112], 146, 0) :=
  C42_match (w := [106, 80, 111, 80]) rfl (by decide +kernel) (by decide +kernel)

/-- C78: what is returned is the genre closest to the text, for every text. -/
def C78_claim : Prop :=
  ∀ (dec : Bytes → Option (List Nat)) (lower : Nat → Nat) (text : Bytes) (w : List Nat), dec text = some w → w.length < 2 ^ 63 →
    ∃ name g d, matchGenre dec lower text = .ok (name, g, d) ∧ Spec.genres[g]? = some name ∧ Distance (folded name) (w.map lower) d ∧
      ∀ A ∈ Spec.genres.map Spec.folded, ∀ d', Distance A (w.map lower) d' → d ≤ d'

/-- C78: what is returned is a genre and its distance from the text, and no genre that is not longer than the text is closer; of those,
it is the first. Missing: genres that are longer than the text may be overlooked; texts that are empty or far from every genre. -/
theorem C78_closest_partial {dec : Bytes → Option (List Nat)} {lower : Nat → Nat} {text : Bytes} {w : List Nat} (hd : dec text = some w)
    (h1 : 1 ≤ w.length) (h2 : w.length < 2 ^ 63)
    (h3 : w.length < 22 ∨ ∃ A ∈ Spec.genres.map Spec.folded, ∃ d, Distance A (w.map lower) d ∧ d < w.length) :
    ∃ name g d, matchGenre dec lower text = .ok (name, g, d) ∧ Spec.genres[g]? = some name ∧ Distance (folded name) (w.map lower) d ∧
      (∀ A ∈ Spec.genres.map Spec.folded, A.length ≤ w.length → ∀ d', Distance A (w.map lower) d' → d ≤ d') ∧
      ∀ g' name' d', g' < g → Spec.genres[g']? = some name' → name'.length ≤ w.length → Distance (folded name') (w.map lower) d' → d < d' := by
  rcases matchGenre_spec (lower := lower) hd h1 h2 with ⟨_, h22, hall⟩ | h
  · rcases h3 with h3 | ⟨A, hA, d, hD, hlt⟩
    · omega
    · have := hall A hA d hD
      omega
  · obtain ⟨name, g, d, r, hg, hD, _, hmin, hfirst⟩ := h
    exact ⟨name, g, d, r, hg, hD, hmin, hfirst⟩

/-- "progresiev rock" is closest to genre 92. -/
example : ∃ A ∈ Spec.genres.map Spec.folded, Turns A [112, 114, 111, 103, 114, 101, 115, 105, 101, 118, 32, 114, 111, 99, 107] 2 :=
  ⟨folded [80, 114, 111, 103, 114, 101, 115, 115, 105, 118, 101, 32, 82, 111, 99, 107], by decide +kernel,
    [.keep 112, .keep 114, .keep 111, .keep 103, .keep 114, .keep 101, .keep 115, .delete 115, .keep 105, .exchange 118 101, .keep 32,
     .keep 114, .keep 111, .keep 99, .keep 107], by decide, by decide, by decide⟩

/-- C78: for a text of 22 characters or more, it is the closest of all, if one is closer than the text is long. -/
theorem C78_long_partial {dec : Bytes → Option (List Nat)} {lower : Nat → Nat} {text : Bytes} {w : List Nat} (hd : dec text = some w)
    (h1 : 22 ≤ w.length) (h2 : w.length < 2 ^ 63)
    (h3 : ∃ A ∈ Spec.genres.map Spec.folded, ∃ d, Distance A (w.map lower) d ∧ d < w.length) :
    ∃ name g d, matchGenre dec lower text = .ok (name, g, d) ∧ Spec.genres[g]? = some name ∧ Distance (folded name) (w.map lower) d ∧
      ∀ A ∈ Spec.genres.map Spec.folded, ∀ d', Distance A (w.map lower) d' → d ≤ d' := by
  obtain ⟨name, g, d, r, hg, hD, hmin, _⟩ := C78_closest_partial (lower := lower) hd (by omega) h2 (.inr h3)
  refine ⟨name, g, d, r, hg, hD, ?_⟩
  intro A hA d' hD'
  have := keys_sizes A (by rw [keys_documented]; exact hA)
  exact hmin A hA (by omega) d' hD'

/-- Without a character in common, every character has to be replaced or inserted. -/
theorem nothing_in_common {A B : List Nat} (h : ∀ a ∈ A, a ∉ B) {d : Nat} (ht : Turns A B d) : B.length ≤ d := by
  rw [Edits.turns_iff] at ht
  have key : ∀ i j e, Edits.E A B i j e → j ≤ e := by
    intro i j e hE
    induction hE with
    | nil => omega
    | keep _ hi hj heq _ => exact absurd (heq ▸ List.getElem_mem hj) (h _ (List.getElem_mem hi))
    | replace => omega
    | insert => omega
    | delete => omega
    | @exchange i j e _ hi hj e1 e2 ih => exact absurd (e2 ▸ List.getElem_mem (by omega)) (h _ (List.getElem_mem hi))
  exact key _ _ _ ht

/-- C78: for a text that is at least as long as every genre and has nothing in common with any, what is returned depends on a variable that
was not initialised. -/
theorem C78_refuted_far {dec : Bytes → Option (List Nat)} {lower : Nat → Nat} {text : Bytes} {w : List Nat} (hd : dec text = some w)
    (h1 : 22 ≤ w.length) (h2 : w.length < 2 ^ 63) (h3 : ∀ A ∈ Spec.genres.map Spec.folded, ∀ a ∈ A, a ∉ w.map lower) :
    matchGenre dec lower text = .ub .uninit := by
  rcases matchGenre_spec (lower := lower) hd (by omega) h2 with h | ⟨name, g, d, r, hg, hD, hlt, hmin, _⟩
  · exact h.1
  · exfalso
    have hmem : folded name ∈ Spec.genres.map Spec.folded := List.mem_map.2 ⟨name, List.mem_of_getElem? hg, rfl⟩
    have := nothing_in_common (h3 _ hmem) hD.1
    simp at this
    omega

/-- Twenty-two times '?'. -/
example : matchGenre (fun b => some (b.map (·.toNat))) asciiLower (List.replicate 22 63) = .ub .uninit :=
  C78_refuted_far (w := List.replicate 22 63) (by decide +kernel) (by decide) (by decide) (by decide +kernel)

/-- C78 does not hold. -/
theorem C78_refuted : ¬ C78_claim := by
  intro h
  obtain ⟨name, g, d, r, _⟩ := h (fun b => some (b.map (·.toNat))) asciiLower (List.replicate 22 63) (List.replicate 22 63)
    (by decide +kernel) (by decide)
  rw [C78_refuted_far (w := List.replicate 22 63) (by decide +kernel) (by decide) (by decide) (by decide +kernel)] at r
  cases r

end Scribbu.Props
