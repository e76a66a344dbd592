import Verif.Model.TagCloud
import Verif.Spec.TagCloud
import Verif.Proofs.Url

namespace Scribbu
open Spec

theorem strLt_irrefl (a : Bytes) : strLt a a = false := by
  induction a with
  | nil => rfl
  | cons x xs ih => simp [strLt, ih]

theorem strLt_trans : ∀ {a b c : Bytes}, strLt a b = true → strLt b c = true → strLt a c = true := by
  intro a
  induction a with
  | nil =>
    intro b c h1 h2
    cases b with
    | nil => simp [strLt] at h1
    | cons y ys => cases c with
      | nil => simp [strLt] at h2
      | cons => rfl
  | cons x xs ih =>
    intro b c h1 h2
    cases b with
    | nil => simp [strLt] at h1
    | cons y ys =>
      cases c with
      | nil => simp [strLt] at h2
      | cons z zs =>
        simp only [strLt] at h1 h2 ⊢
        by_cases e1 : x < y
        · by_cases e2 : y < z
          · have : x < z := by rw [UInt8.lt_iff_toNat_lt] at *; omega
            simp [this]
          · simp only [e2, if_false] at h2
            by_cases e3 : y = z
            · subst e3; simp [e1]
            · simp [e3] at h2
        · simp only [e1, if_false] at h1
          by_cases e3 : x = y
          · subst e3
            simp only [if_true] at h1
            by_cases e2 : x < z
            · simp [e2]
            · simp only [e2, if_false] at h2 ⊢
              by_cases e4 : x = z
              · subst e4; simp only [if_true] at h2 ⊢; exact ih h1 h2
              · simp [e4] at h2
          · simp [e3] at h1

theorem strLt_ne {a b : Bytes} (h : strLt a b = true) : a ≠ b := by
  rintro rfl; rw [strLt_irrefl] at h; cases h

theorem strLt_asymm {a b : Bytes} (h : strLt a b = true) : strLt b a = false := by
  cases h' : strLt b a
  · rfl
  · have := strLt_trans h h'
    rw [strLt_irrefl] at this; cases this

theorem strLt_tri : ∀ {a b : Bytes}, a ≠ b → strLt a b = false → strLt b a = true := by
  intro a
  induction a with
  | nil => intro b h1 h2; cases b <;> simp_all [strLt]
  | cons x xs ih =>
    intro b h1 h2
    cases b with
    | nil => rfl
    | cons y ys =>
      simp only [strLt] at h2 ⊢
      by_cases e1 : x < y
      · simp [e1] at h2
      · simp only [e1, if_false] at h2
        by_cases e3 : x = y
        · subst e3
          simp only [if_true] at h2
          have := ih (fun h => h1 (by rw [h])) h2
          simp [this]
        · have : y < x := by
            rw [UInt8.lt_iff_toNat_lt] at *
            have : x.toNat ≠ y.toNat := fun h => e3 (UInt8.toNat_inj.1 h)
            omega
          simp [this]

theorem MapOk.nil : MapOk [] := ⟨.nil, fun _ h => by cases h⟩

theorem mem_setInsert {v w : Bytes} {s : List Bytes} : w ∈ setInsert v s ↔ w = v ∨ w ∈ s := by
  induction s with
  | nil => simp [setInsert]
  | cons x xs ih =>
    unfold setInsert
    split
    · rename_i h; subst h; simp
    · split
      · simp
      · simp only [List.mem_cons, ih]
        constructor <;> (rintro (h | h | h) <;> simp [h])

theorem setOk_insert {v : Bytes} {s : List Bytes} (h : SetOk s) : SetOk (setInsert v s) := by
  induction s with
  | nil => simp [setInsert, SetOk]
  | cons x xs ih =>
    unfold setInsert
    obtain ⟨h1, h2⟩ := List.pairwise_cons.1 h
    split
    · exact h
    · rename_i hne
      split
      · rename_i hlt
        refine List.pairwise_cons.2 ⟨?_, h⟩
        intro y hy
        rcases List.mem_cons.1 hy with rfl | hy
        · exact hlt
        · exact strLt_trans hlt (h1 y hy)
      · rename_i hlt
        refine List.pairwise_cons.2 ⟨?_, ih h2⟩
        intro y hy
        rcases mem_setInsert.1 hy with rfl | hy
        · exact strLt_tri hne (by simpa using hlt)
        · exact h1 y hy

theorem setInsert_last {v : Bytes} {s : List Bytes} (h : ∀ w ∈ s, strLt w v = true) :
    setInsert v s = s ++ [v] := by
  induction s with
  | nil => rfl
  | cons x xs ih =>
    have hx := h x (List.mem_cons_self ..)
    unfold setInsert
    rw [if_neg (strLt_ne hx).symm, if_neg (by simp [strLt_asymm hx]),
      ih fun w hw => h w (List.mem_cons_of_mem _ hw)]
    rfl

theorem foldl_setInsert {vs s : List Bytes} (h : SetOk (s ++ vs)) :
    vs.foldl (fun s v => setInsert v s) s = s ++ vs := by
  induction vs generalizing s with
  | nil => simp
  | cons v vs ih =>
    have h' := List.pairwise_append.1 h
    rw [List.foldl_cons, setInsert_last fun w hw => h'.2.2 w hw v (List.mem_cons_self ..)]
    rw [ih (by simpa [SetOk] using h)]
    simp

theorem mem_foldl_setInsert {vs s : List Bytes} {w : Bytes} :
    w ∈ vs.foldl (fun s v => setInsert v s) s ↔ w ∈ vs ∨ w ∈ s := by
  induction vs generalizing s with
  | nil => simp
  | cons v vs ih =>
    rw [List.foldl_cons, ih, mem_setInsert, List.mem_cons]
    constructor
    · rintro (h | h | h) <;> simp [h]
    · rintro ((h | h) | h) <;> simp [h]

theorem setOk_foldl {vs s : List Bytes} (h : SetOk s) :
    SetOk (vs.foldl (fun s v => setInsert v s) s) := by
  induction vs generalizing s with
  | nil => exact h
  | cons v vs ih => exact ih (setOk_insert h)

theorem mapFind_none_of_lt {k : Bytes} {m : TagMap} (h : ∀ e ∈ m, strLt k e.1 = true) :
    mapFind k m = none := by
  induction m with
  | nil => rfl
  | cons e r ih =>
    obtain ⟨k', s⟩ := e
    have hx := h (k', s) (List.mem_cons_self ..)
    unfold mapFind
    rw [if_neg (strLt_ne hx)]
    exact ih fun e he => h e (List.mem_cons_of_mem _ he)

theorem mapFind_mem {k : Bytes} {s : List Bytes} {m : TagMap} (h : MapOk m) :
    mapFind k m = some s ↔ (k, s) ∈ m := by
  induction m with
  | nil => simp [mapFind]
  | cons e r ih =>
    obtain ⟨k', s'⟩ := e
    obtain ⟨h1, h2⟩ := List.pairwise_cons.1 h.1
    have hr : MapOk r := ⟨h2, fun e he => h.2 e (List.mem_cons_of_mem _ he)⟩
    unfold mapFind
    by_cases hk : k = k'
    · subst hk
      rw [if_pos rfl]
      constructor
      · intro hh; cases hh; exact List.mem_cons_self ..
      · intro hh
        rcases List.mem_cons.1 hh with hh | hh
        · cases hh; rfl
        · exact absurd rfl (strLt_ne (h1 (k, s) hh))
    · rw [if_neg hk, ih hr]
      constructor
      · exact List.mem_cons_of_mem _
      · intro hh
        rcases List.mem_cons.1 hh with hh | hh
        · cases hh; exact absurd rfl hk
        · exact hh

theorem mapFind_isSome {k : Bytes} {m : TagMap} (h : MapOk m) :
    (mapFind k m).isSome = true ↔ ∃ s, (k, s) ∈ m := by
  rw [Option.isSome_iff_exists]
  exact exists_congr fun s => mapFind_mem h

theorem keys_mapUpd {k : Bytes} {f : List Bytes → List Bytes} {m : TagMap} {x : Bytes} :
    (∃ s, (x, s) ∈ mapUpd k f m) ↔ x = k ∨ ∃ s, (x, s) ∈ m := by
  induction m with
  | nil => simp [mapUpd]
  | cons e r ih =>
    obtain ⟨k', s'⟩ := e
    unfold mapUpd
    split
    · rename_i h; subst h
      constructor
      · rintro ⟨s, hs⟩
        rcases List.mem_cons.1 hs with hs | hs
        · cases hs; exact .inl rfl
        · exact .inr ⟨s, List.mem_cons_of_mem _ hs⟩
      · rintro (rfl | ⟨s, hs⟩)
        · exact ⟨_, List.mem_cons_self ..⟩
        · rcases List.mem_cons.1 hs with hs | hs
          · cases hs; exact ⟨_, List.mem_cons_self ..⟩
          · exact ⟨s, List.mem_cons_of_mem _ hs⟩
    · split
      · constructor
        · rintro ⟨s, hs⟩
          rcases List.mem_cons.1 hs with hs | hs
          · cases hs; exact .inl rfl
          · exact .inr ⟨s, hs⟩
        · rintro (rfl | ⟨s, hs⟩)
          · exact ⟨_, List.mem_cons_self ..⟩
          · exact ⟨s, List.mem_cons_of_mem _ hs⟩
      · have : (∃ s, (x, s) ∈ (k', s') :: mapUpd k f r) ↔ x = k' ∨ ∃ s, (x, s) ∈ mapUpd k f r := by
          simp only [List.mem_cons, Prod.mk.injEq]
          constructor
          · rintro ⟨s, ⟨h, -⟩ | h⟩
            · exact .inl h
            · exact .inr ⟨s, h⟩
          · rintro (h | ⟨s, h⟩)
            · exact ⟨s', .inl ⟨h, rfl⟩⟩
            · exact ⟨s, .inr h⟩
        rw [this, ih]
        simp only [List.mem_cons, Prod.mk.injEq]
        constructor
        · rintro (h | h | ⟨s, h⟩)
          · exact .inr ⟨s', .inl ⟨h, rfl⟩⟩
          · exact .inl h
          · exact .inr ⟨s, .inr h⟩
        · rintro (h | ⟨s, ⟨h, -⟩ | h⟩)
          · exact .inr (.inl h)
          · exact .inl h
          · exact .inr (.inr ⟨s, h⟩)

theorem mapOk_upd {k : Bytes} {f : List Bytes → List Bytes} {m : TagMap} (h : MapOk m)
    (h0 : mapFind k m = none → SetOk (f [])) (h1 : ∀ s, (k, s) ∈ m → SetOk (f s)) :
    MapOk (mapUpd k f m) := by
  induction m with
  | nil =>
    refine ⟨by simp [mapUpd], ?_⟩
    intro e he
    simp only [mapUpd, List.mem_singleton] at he
    subst he; exact h0 rfl
  | cons e r ih =>
    obtain ⟨k', s'⟩ := e
    obtain ⟨hp1, hp2⟩ := List.pairwise_cons.1 h.1
    have hr : MapOk r := ⟨hp2, fun e he => h.2 e (List.mem_cons_of_mem _ he)⟩
    unfold mapUpd
    split
    · rename_i hk; subst hk
      refine ⟨List.pairwise_cons.2 ⟨hp1, hp2⟩, ?_⟩
      intro e he
      rcases List.mem_cons.1 he with rfl | he
      · exact h1 s' (List.mem_cons_self ..)
      · exact hr.2 e he
    · rename_i hk
      split
      · rename_i hlt
        have hall : ∀ e ∈ (k', s') :: r, strLt k e.1 = true := by
          intro e he
          rcases List.mem_cons.1 he with rfl | he
          · exact hlt
          · exact strLt_trans hlt (hp1 e he)
        refine ⟨List.pairwise_cons.2 ⟨hall, h.1⟩, ?_⟩
        intro e he
        rcases List.mem_cons.1 he with rfl | he
        · exact h0 (mapFind_none_of_lt hall)
        · exact h.2 e he
      · rename_i hlt
        have := ih hr (fun hn => h0 (by simp only [mapFind, if_neg hk]; exact hn))
          (fun s hs => h1 s (List.mem_cons_of_mem _ hs))
        refine ⟨List.pairwise_cons.2 ⟨?_, this.1⟩, ?_⟩
        · intro e he
          obtain ⟨x, s⟩ := e
          rcases keys_mapUpd.1 ⟨s, he⟩ with rfl | ⟨s2, hs2⟩
          · exact strLt_tri hk (by simpa using hlt)
          · exact hp1 (x, s2) hs2
        · intro e he
          rcases List.mem_cons.1 he with rfl | he
          · exact h.2 _ (List.mem_cons_self ..)
          · exact this.2 e he

/-- Entries after `M[k]` was modified by `f`. -/
theorem mem_mapUpd {k : Bytes} {f : List Bytes → List Bytes} {m : TagMap} (h : MapOk m)
    {x : Bytes} {s : List Bytes} :
    (x, s) ∈ mapUpd k f m ↔
      (x ≠ k ∧ (x, s) ∈ m) ∨ (x = k ∧ s = f ((mapFind k m).getD [])) := by
  induction m with
  | nil => simp [mapUpd, mapFind]
  | cons e r ih =>
    obtain ⟨k', s'⟩ := e
    obtain ⟨hp1, hp2⟩ := List.pairwise_cons.1 h.1
    have hr : MapOk r := ⟨hp2, fun e he => h.2 e (List.mem_cons_of_mem _ he)⟩
    by_cases hk : k = k'
    · subst hk
      simp only [mapUpd, mapFind, if_true, Option.getD_some, List.mem_cons, Prod.mk.injEq]
      constructor
      · rintro (⟨rfl, rfl⟩ | hh)
        · exact .inr ⟨rfl, rfl⟩
        · exact .inl ⟨(strLt_ne (hp1 _ hh)).symm, .inr hh⟩
      · rintro (⟨hne, ⟨h1, -⟩ | hh⟩ | ⟨rfl, rfl⟩)
        · exact absurd h1 hne
        · exact .inr hh
        · exact .inl ⟨rfl, rfl⟩
    · simp only [mapUpd, mapFind, if_neg hk]
      split
      · rename_i hlt
        have hall : ∀ e ∈ (k', s') :: r, strLt k e.1 = true := by
          intro e he
          rcases List.mem_cons.1 he with rfl | he
          · exact hlt
          · exact strLt_trans hlt (hp1 e he)
        have hn : mapFind k r = none :=
          mapFind_none_of_lt fun e he => hall e (List.mem_cons_of_mem _ he)
        rw [hn]
        constructor
        · intro hh
          rcases List.mem_cons.1 hh with hh | hh
          · cases hh; exact .inr ⟨rfl, rfl⟩
          · exact .inl ⟨(strLt_ne (hall _ hh)).symm, hh⟩
        · rintro (⟨-, hh⟩ | ⟨rfl, rfl⟩)
          · exact List.mem_cons_of_mem _ hh
          · exact List.mem_cons_self ..
      · rw [List.mem_cons, ih hr, List.mem_cons]
        constructor
        · rintro (hh | ⟨h1, h2⟩ | hh)
          · cases hh; exact .inl ⟨Ne.symm hk, .inl rfl⟩
          · exact .inl ⟨h1, .inr h2⟩
          · exact .inr hh
        · rintro (⟨h1, h2 | h2⟩ | hh)
          · exact .inl h2
          · exact .inr (.inl ⟨h1, h2⟩)
          · exact .inr (.inr hh)

theorem mapUpd_last {k : Bytes} {f : List Bytes → List Bytes} {m : TagMap}
    (h : ∀ e ∈ m, strLt e.1 k = true) : mapUpd k f m = m ++ [(k, f [])] := by
  induction m with
  | nil => rfl
  | cons e r ih =>
    obtain ⟨k', s⟩ := e
    have hx := h (k', s) (List.mem_cons_self ..)
    unfold mapUpd
    rw [if_neg (strLt_ne hx).symm, if_neg (by simp [strLt_asymm hx]),
      ih fun e he => h e (List.mem_cons_of_mem _ he)]
    rfl

/-- Sorted sets are determined by their elements. -/
theorem setOk_ext {s t : List Bytes} (hs : SetOk s) (ht : SetOk t) (h : ∀ v, v ∈ s ↔ v ∈ t) :
    s = t := by
  induction s generalizing t with
  | nil =>
    cases t with
    | nil => rfl
    | cons y ys => exact absurd ((h y).2 (List.mem_cons_self ..)) (by simp)
  | cons x xs ih =>
    cases t with
    | nil => exact absurd ((h x).1 (List.mem_cons_self ..)) (by simp)
    | cons y ys =>
      obtain ⟨a1, a2⟩ := List.pairwise_cons.1 hs
      obtain ⟨b1, b2⟩ := List.pairwise_cons.1 ht
      have hxy : x = y := by
        rcases List.mem_cons.1 ((h x).1 (List.mem_cons_self ..)) with e | e
        · exact e
        · rcases List.mem_cons.1 ((h y).2 (List.mem_cons_self ..)) with e' | e'
          · exact e'.symm
          · have := strLt_trans (b1 x e) (a1 y e')
            rw [strLt_irrefl] at this; cases this
      subst hxy
      congr 1
      refine ih a2 b2 fun v => ?_
      have := h v
      simp only [List.mem_cons] at this
      constructor
      · intro hv
        rcases this.1 (.inr hv) with rfl | h'
        · exact absurd rfl (strLt_ne (a1 _ hv))
        · exact h'
      · intro hv
        rcases this.2 (.inr hv) with rfl | h'
        · exact absurd rfl (strLt_ne (b1 _ hv))
        · exact h'

theorem mapOk_ext {m n : TagMap} (hm : MapOk m) (hn : MapOk n)
    (h1 : ∀ k, (∃ s, (k, s) ∈ m) ↔ ∃ s, (k, s) ∈ n)
    (h2 : ∀ k v, (∃ s, (k, s) ∈ m ∧ v ∈ s) ↔ ∃ s, (k, s) ∈ n ∧ v ∈ s) : m = n := by
  induction m generalizing n with
  | nil =>
    cases n with
    | nil => rfl
    | cons y ys => obtain ⟨s, hs⟩ := (h1 y.1).2 ⟨y.2, List.mem_cons_self ..⟩; cases hs
  | cons x xs ih =>
    cases n with
    | nil => obtain ⟨s, hs⟩ := (h1 x.1).1 ⟨x.2, List.mem_cons_self ..⟩; cases hs
    | cons y ys =>
      obtain ⟨kx, sx⟩ := x
      obtain ⟨ky, sy⟩ := y
      obtain ⟨a1, a2⟩ := List.pairwise_cons.1 hm.1
      obtain ⟨b1, b2⟩ := List.pairwise_cons.1 hn.1
      have hxy : kx = ky := by
        obtain ⟨s, hs⟩ := (h1 kx).1 ⟨sx, List.mem_cons_self ..⟩
        obtain ⟨s', hs'⟩ := (h1 ky).2 ⟨sy, List.mem_cons_self ..⟩
        rcases List.mem_cons.1 hs with e | e
        · exact congrArg Prod.fst e
        · rcases List.mem_cons.1 hs' with e' | e'
          · exact (congrArg Prod.fst e').symm
          · have := strLt_trans (b1 _ e) (a1 _ e')
            rw [strLt_irrefl] at this; cases this
      subst hxy
      have ux : ∀ s, (kx, s) ∈ (kx, sx) :: xs → s = sx := by
        intro s hs
        rcases List.mem_cons.1 hs with e | e
        · exact congrArg Prod.snd e
        · exact absurd rfl (strLt_ne (a1 (kx, s) e))
      have uy : ∀ s, (kx, s) ∈ (kx, sy) :: ys → s = sy := by
        intro s hs
        rcases List.mem_cons.1 hs with e | e
        · exact congrArg Prod.snd e
        · exact absurd rfl (strLt_ne (b1 (kx, s) e))
      have hs : sx = sy := by
        refine setOk_ext (hm.2 _ (List.mem_cons_self ..)) (hn.2 _ (List.mem_cons_self ..)) fun v => ?_
        constructor
        · intro hv
          obtain ⟨s, e1, e2⟩ := (h2 kx v).1 ⟨sx, List.mem_cons_self .., hv⟩
          exact uy s e1 ▸ e2
        · intro hv
          obtain ⟨s, e1, e2⟩ := (h2 kx v).2 ⟨sy, List.mem_cons_self .., hv⟩
          exact ux s e1 ▸ e2
      subst hs
      congr 1
      have tail : ∀ {zs : TagMap}, (∀ e ∈ zs, strLt kx e.1 = true) → ∀ k s,
          (k, s) ∈ zs ↔ k ≠ kx ∧ (k, s) ∈ (kx, sx) :: zs := by
        intro zs hz k s
        constructor
        · intro hh; exact ⟨(strLt_ne (hz _ hh)).symm, List.mem_cons_of_mem _ hh⟩
        · rintro ⟨hne, hh⟩
          rcases List.mem_cons.1 hh with e | e
          · exact absurd (congrArg Prod.fst e) hne
          · exact e
      refine ih ⟨a2, fun e he => hm.2 e (List.mem_cons_of_mem _ he)⟩
        ⟨b2, fun e he => hn.2 e (List.mem_cons_of_mem _ he)⟩ ?_ ?_
      · intro k
        simp only [tail a1, tail b1]
        have := h1 k
        constructor
        · rintro ⟨s, e1, e2⟩
          obtain ⟨s', e3⟩ := this.1 ⟨s, e2⟩
          exact ⟨s', e1, e3⟩
        · rintro ⟨s, e1, e2⟩
          obtain ⟨s', e3⟩ := this.2 ⟨s, e2⟩
          exact ⟨s', e1, e3⟩
      · intro k v
        simp only [tail a1, tail b1]
        have := h2 k v
        constructor
        · rintro ⟨s, ⟨e1, e2⟩, e4⟩
          obtain ⟨s', e3, e5⟩ := this.1 ⟨s, e2, e4⟩
          exact ⟨s', ⟨e1, e3⟩, e5⟩
        · rintro ⟨s, ⟨e1, e2⟩, e4⟩
          obtain ⟨s', e3, e5⟩ := this.2 ⟨s, e2, e4⟩
          exact ⟨s', ⟨e1, e3⟩, e5⟩

end Scribbu
