import Verif.Props.Copies

/-! C80, the genre: an ID3v1 tag made from ID3v2 tags gets the genre that one of them comes nearest to. -/

namespace Scribbu.Spec
open Scribbu Commands Process

/-- The tag says something about the genre; the name nearest to that is the `g`th, at the distance `d`. -/
def Nears (C : Conv) (t : Tg) (g d : Nat) : Prop :=
  ∃ s n, t.text C .tcon = .ok s ∧ s ≠ [] ∧ Genres.matchGenre C.chars C.lower s = .ok (n, g, d)

/-- Of the tags that say something about the genre, the first of those that come nearest to a name decides. -/
def NearestGenre (C : Conv) (v2 : List Tg) (field : Byte) : Prop :=
  ((∀ t ∈ v2, t.text C .tcon = .ok []) ∧ field = 0) ∨
  ∃ a t b g d, v2 = a ++ t :: b ∧ Nears C t g d ∧ field = UInt8.ofNat g ∧ (∀ t' ∈ a, ∀ g' d', Nears C t' g' d' → d < d') ∧
    ∀ t' ∈ b, ∀ g' d', Nears C t' g' d' → d ≤ d'

end Scribbu.Spec

namespace Scribbu.Props
open Scribbu Commands Process Spec LTag Lookup

/-- A tag says one thing about the genre. -/
theorem nears_one {C : Conv} {t : Tg} {g d g' d' : Nat} (h : Nears C t g d) (h' : Nears C t g' d') : d = d' ∧ g = g' := by
  obtain ⟨s, n, h1, -, h2⟩ := h
  obtain ⟨s', n', h1', -, h2'⟩ := h'
  rw [h1] at h1'
  cases h1'
  rw [h2] at h2'
  cases h2'
  exact ⟨rfl, rfl⟩

theorem not_nears {C : Conv} {t : Tg} {g d : Nat} (h : t.text C .tcon = .ok []) : ¬ Nears C t g d := by
  rintro ⟨s, n, h1, h2, -⟩
  rw [h] at h1
  cases h1
  exact h2 rfl

/-- What the loop ends with, whatever it begins with. -/
theorem findGenre_from {C : Conv} : ∀ {v2 : List Tg} {best r : Option (Nat × Nat)}, findGenre C v2 best = .ok r →
    (r = best ∧ (best = none → ∀ t ∈ v2, t.text C .tcon = .ok []) ∧
      ∀ x, best = some x → ∀ t ∈ v2, ∀ g d, Nears C t g d → x.1 ≤ d) ∨
    ∃ a t b g d, v2 = a ++ t :: b ∧ r = some (d, g) ∧ Nears C t g d ∧ (∀ x, best = some x → d < x.1) ∧
      (∀ t' ∈ a, ∀ g' d', Nears C t' g' d' → d < d') ∧ ∀ t' ∈ b, ∀ g' d', Nears C t' g' d' → d ≤ d'
  | [], best, r, h => by
    cases h
    exact .inl ⟨rfl, by simp, by simp⟩
  | t :: ts, best, r, h => by
    obtain ⟨s, hs, h⟩ := res_bind_ok h
    by_cases hse : s = []
    · subst hse
      have h : findGenre C ts best = .ok r := h
      rcases findGenre_from h with ⟨h1, h2, h3⟩ | ⟨a, t', b, g, d, h1, h2, h3, h4, h5, h6⟩
      · refine .inl ⟨h1, ?_, ?_⟩
        · intro hb x hx
          rcases List.mem_cons.1 hx with rfl | hx
          · exact hs
          · exact h2 hb x hx
        · intro y hy x hx g d hn
          rcases List.mem_cons.1 hx with rfl | hx
          · exact absurd hn (not_nears hs)
          · exact h3 y hy x hx g d hn
      · refine .inr ⟨t :: a, t', b, g, d, by rw [h1]; rfl, h2, h3, h4, ?_, h6⟩
        intro x hx g' d' hn
        rcases List.mem_cons.1 hx with rfl | hx
        · exact absurd hn (not_nears hs)
        · exact h5 x hx g' d' hn
    · rw [if_pos (by simpa using hse)] at h
      obtain ⟨⟨n, g, d⟩, hm, h⟩ := res_bind_ok h
      have hn : Nears C t g d := ⟨s, n, hs, hse, hm⟩
      -- The tag is the best so far.
      have new : ∀ {r}, findGenre C ts (some (d, g)) = .ok r → (∀ x, best = some x → d < x.1) →
          ∃ a t' b g' d', t :: ts = a ++ t' :: b ∧ r = some (d', g') ∧ Nears C t' g' d' ∧ (∀ x, best = some x → d' < x.1) ∧
            (∀ t'' ∈ a, ∀ g'' d'', Nears C t'' g'' d'' → d' < d'') ∧ ∀ t'' ∈ b, ∀ g'' d'', Nears C t'' g'' d'' → d' ≤ d'' := by
        intro r h hb
        rcases findGenre_from h with ⟨h1, -, h3⟩ | ⟨a, t', b, g', d', h1, h2, h3, h4, h5, h6⟩
        · exact ⟨[], t, ts, g, d, rfl, h1, hn, hb, by simp, h3 _ rfl⟩
        · have hd : d' < d := h4 _ rfl
          refine ⟨t :: a, t', b, g', d', by rw [h1]; rfl, h2, h3, fun x hx => Nat.lt_trans hd (hb x hx), ?_, h6⟩
          intro x hx g'' d'' hn'
          rcases List.mem_cons.1 hx with rfl | hx
          · rw [← (nears_one hn hn').1]
            exact hd
          · exact h5 x hx g'' d'' hn'
      cases best with
      | none => exact .inr (new h (by simp))
      | some x =>
        by_cases hd : d < x.1
        · have h : findGenre C ts (if d < x.1 then some (d, g) else some x) = .ok r := h
          rw [if_pos hd] at h
          exact .inr (new h (by rintro y ⟨⟩; exact hd))
        · have h : findGenre C ts (if d < x.1 then some (d, g) else some x) = .ok r := h
          rw [if_neg hd] at h
          rcases findGenre_from h with ⟨h1, h2, h3⟩ | ⟨a, t', b, g', d', h1, h2, h3, h4, h5, h6⟩
          · refine .inl ⟨h1, by simp, ?_⟩
            rintro y ⟨⟩ t' ht' g' d' hn'
            rcases List.mem_cons.1 ht' with rfl | ht'
            · rw [← (nears_one hn hn').1]
              exact Nat.le_of_not_lt hd
            · exact h3 _ rfl t' ht' g' d' hn'
          · have hx : d' < x.1 := h4 _ rfl
            refine .inr ⟨t :: a, t', b, g', d', by rw [h1]; rfl, h2, h3, ?_, ?_, h6⟩
            · rintro y ⟨⟩; exact hx
            · intro y hy g'' d'' hn'
              rcases List.mem_cons.1 hy with rfl | hy
              · rw [← (nears_one hn hn').1]
                exact Nat.lt_of_lt_of_le hx (Nat.le_of_not_lt hd)
              · exact h5 y hy g'' d'' hn'

/-- C80, the genre: an ID3v1 tag that is made from ID3v2 tags has the genre whose name is nearest to what one of them says, the first of
them if several come as near. Missing: that there is no genre if none of them says anything. -/
theorem C80_genre_partial (C : Conv) (v2 : List Tg) (t : V1Tag) (h : copyV2 C v2 = .ok t) : NearestGenre C v2 t.genre := by
  unfold copyV2 at h
  obtain ⟨al, -, h⟩ := res_bind_ok h
  obtain ⟨t1, e1, h⟩ := res_bind_ok h
  obtain ⟨ar, -, h⟩ := res_bind_ok h
  obtain ⟨t2, e2, h⟩ := res_bind_ok h
  obtain ⟨ti, -, h⟩ := res_bind_ok h
  obtain ⟨t3, e3, h⟩ := res_bind_ok h
  obtain ⟨y, -, h⟩ := res_bind_ok h
  obtain ⟨t4, e4, h⟩ := res_bind_ok h
  obtain ⟨g, hg, h⟩ := res_bind_ok h
  have keep : ∀ {t t' : V1Tag} {o : Option Bytes} {conv : Bytes → Res Bytes} {op : Bytes → V1Tag.Op},
      setIf t o conv op = .ok t' → (∀ b, (t.apply (op b)).genre = t.genre) → t'.genre = t.genre := by
    intro t t' o conv op e ho
    cases o with
    | none => cases e; rfl
    | some s =>
      obtain ⟨b, -, e⟩ := res_bind_ok e
      cases e
      exact ho b
  have g0 : t4.genre = 0 :=
    (keep e4 fun _ => rfl).trans ((keep e3 fun _ => rfl).trans ((keep e2 fun _ => rfl).trans (keep e1 fun _ => rfl)))
  rcases findGenre_from hg with ⟨rfl, h2, -⟩ | ⟨a, t', b, g', d, h1, rfl, h3, -, h5, h6⟩
  · cases h
    exact .inl ⟨h2 rfl, g0⟩
  · cases h
    exact .inr ⟨a, t', b, g', d, h1, h3, rfl, h5, h6⟩

/-- A tag with the genre `rock`, and one with the genre `Jazz`. -/
def rocks : Tg := tagOf (cfg .v2) [([84, 84, 50], [65]), ([84, 80, 49], [66]), ([84, 65, 76], [67]), ([84, 67, 79], [114, 111, 99, 107]), ([84, 89, 69], [57])]
@[inherit_doc rocks]
def jazzes : Tg := tagOf (cfg .v3) [([84, 73, 84, 50], [65]), ([84, 80, 69, 49], [66]), ([84, 65, 76, 66], [67]), ([84, 67, 79, 78], [74, 97, 122, 122]),
    ([84, 89, 69, 82], [50, 48, 48, 52])]

theorem findGenre_two {C : Conv} {t t' : Tg} {s s' n n' : Bytes} {g g' d d' : Nat} (e : t.text C .tcon = .ok s) (e' : t'.text C .tcon = .ok s')
    (h : s ≠ []) (h' : s' ≠ []) (m : Genres.matchGenre C.chars C.lower s = .ok (n, g, d))
    (m' : Genres.matchGenre C.chars C.lower s' = .ok (n', g', d')) (hd : d ≤ d') : findGenre C [t, t'] none = .ok (some (d, g)) := by
  simp [findGenre, e, e', Res.ok_bind, h, h', m, m', Nat.not_lt.2 hd]

theorem copyV2_of {C : Conv} {v2 : List Tg} {al ar ti y : Option Bytes} {t1 t2 t3 t4 : V1Tag} {d g : Nat} (h1 : findFrame C .talb v2 = .ok al)
    (e1 : setIf (V1Tag.scratch false false) al C.v1Data .setAlbum = .ok t1) (h2 : findFrame C .tpe1 v2 = .ok ar)
    (e2 : setIf t1 ar C.v1Data .setArtist = .ok t2) (h3 : findFrame C .tit2 v2 = .ok ti) (e3 : setIf t2 ti C.v1Data .setTitle = .ok t3)
    (h4 : findYear C v2 = .ok y) (e4 : setIf t3 y .ok .setYear = .ok t4) (h5 : findGenre C v2 none = .ok (some (d, g))) :
    copyV2 C v2 = .ok (t4.apply (.setGenre (UInt8.ofNat g))) := by
  simp only [copyV2, h1, e1, h2, e2, h3, e3, h4, e4, h5, Res.ok_bind]

example : ∃ t, copyV2 plainConv [rocks, jazzes] = .ok t ∧ t.genre = 17 :=
  ⟨_, copyV2_of (al := some [67]) (ar := some [66]) (ti := some [65]) (y := some [50, 48, 48, 52]) rfl rfl rfl rfl rfl rfl rfl rfl
    (findGenre_two (t := rocks) (t' := jazzes) (s := [114, 111, 99, 107]) (s' := [74, 97, 122, 122]) rfl rfl (by simp) (by simp)
      (C42_match (w := [114, 111, 99, 107]) (name := [82, 111, 99, 107]) (g := 17) rfl (by decide +kernel) (by decide +kernel))
      (C42_match (w := [74, 97, 122, 122]) (name := [74, 97, 122, 122]) (g := 8) rfl (by decide +kernel) (by decide +kernel)) (Nat.le_refl _)), rfl⟩

/-- **Finding**: an ID3v1 tag made from tags none of which says anything about the genre does not have the genre 255, that stands for none,
but 0: it says that the genre is Blues. -/
theorem C80_refuted_blues : ∃ t, copyV2 plainConv tags5 = .ok t ∧ t.genre = 0 ∧ Genres.textForGenre t.genre = some [66, 108, 117, 101, 115] :=
  ⟨_, rfl, by decide +kernel⟩

end Scribbu.Props
