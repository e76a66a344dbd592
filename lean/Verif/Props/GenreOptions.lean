import Verif.Props.Copies

/-! C82: the options of `genre`. C83: running `genre` twice. -/

namespace Scribbu.Props
open Scribbu Commands Process Spec LTag Lookup

/-! ## C82: options -/

/-- The ways of saying the genre that are among the options. -/
def ways (o : GenreOpts) : Nat := (if o.winamp ≠ 255 then 1 else 0) + (if o.genre ≠ [] then 1 else 0) + (if o.freeForm ≠ [] then 1 else 0)

/-- What options may be given together, by the documentation: the genre in exactly one way; not both of `-1` and `-2`; no indices of
ID3v2 tags with `-1`; not both of `-c` and `-a`, or of `-C` and `-A`. -/
structure Together (o : GenreOpts) : Prop where
  way : ways o = 1
  only : ¬ (o.v1Only = true ∧ o.v2Only = true)
  tags : ¬ (o.v1Only = true ∧ o.tags ≠ [])
  v2 : ¬ (o.createV2 = true ∧ o.alwaysV2 = true)
  v1 : ¬ (o.createV1 = true ∧ o.alwaysV1 = true)

/-- What else the help says: `--v1-only` is incompatible with `--Genre`, and `--v2-only` with `--v1` (src/genre.cc L843-846). -/
def Compatible (o : GenreOpts) : Prop := ¬ (o.v1Only = true ∧ o.freeForm ≠ []) ∧ ¬ (o.v2Only = true ∧ o.v1 ≠ 255)

/-- How the options are documented to limit and extend what is done. -/
structure Obeys (o : GenreOpts) (P : Processor Tg) : Prop where
  v2Scope : P.v2Scope = if o.v1Only then .none else if o.tags = [] then .all else .some o.tags
  v1Scope : P.v1Scope = !o.v2Only
  v2Create : P.v2Create = if o.alwaysV2 then .always else if o.createV2 then .whenOther else .never
  v1Create : P.v1Create = if o.alwaysV1 then .always else if o.createV1 then .whenOther else .never
  dryRun : P.dryRun = o.dryRun
  unsync : P.adjustUnsync = o.adjustUnsync
  backups : P.createBackups = o.createBackups

/-- The genre as the options say it: by number; by the closest name; or as it is, with the number given or else that of the closest
name. -/
def Says (C : Conv) (o : GenreOpts) (g : Byte) (text : Bytes) : Prop :=
  (o.winamp ≠ 255 ∧ g = o.winamp ∧ genres[o.winamp.toNat]? = some text) ∨
  (o.genre ≠ [] ∧ ∃ n d, Genres.matchGenre C.chars C.lower o.genre = .ok (text, n, d) ∧ g = UInt8.ofNat n) ∨
  (o.freeForm ≠ [] ∧ text = o.freeForm ∧ ∃ name n d, Genres.matchGenre C.chars C.lower o.freeForm = .ok (name, n, d) ∧
    g = if o.v1 = 255 then UInt8.ofNat n else o.v1)

/-- The options can be made sense of: the number is that of a genre, the text can be compared to those of the genres. -/
def Sensible (C : Conv) (o : GenreOpts) : Prop :=
  (o.winamp ≠ 255 → o.winamp.toNat < 192) ∧ (o.genre ≠ [] → ∃ r, Genres.matchGenre C.chars C.lower o.genre = .ok r) ∧
  (o.freeForm ≠ [] → ∃ r, Genres.matchGenre C.chars C.lower o.freeForm = .ok r)

/-- C82 in full: options are accepted if and only if they may be given together and make sense, and then they are obeyed. -/
def C82_claim : Prop :=
  ∀ (C : Conv) (c : Cfg) (o : GenreOpts),
    ((∃ P, genreCmd C c o = .ok P) ↔ Together o ∧ Compatible o ∧ Sensible C o) ∧
    ∀ P, genreCmd C c o = .ok P → Obeys o P ∧ ∃ p g text, P = setGenre C c p g text ∧ Says C o g text

theorem genreCmd_v1Only {C : Conv} (c : Cfg) {text n : Bytes} {g d : Nat} (ht : text ≠ [])
    (hm : Genres.matchGenre C.chars C.lower text = .ok (n, g, d)) : ∃ P, genreCmd C c { freeForm := text, v1Only := true } = .ok P := by
  cases text with
  | nil => exact absurd rfl ht
  | cons a b => exact ⟨_, by
      simp only [genreCmd, textualGenre, scopePolicies, creationPolicies, genreOf]
      simp [Res.bind, hm]
      rfl⟩

theorem C82_refuted : ¬ C82_claim := by
  intro h
  have := ((h plainConv (cfg .v3) { freeForm := [82, 111, 99, 107], v1Only := true }).1.1 (genreCmd_v1Only _ (by simp)
    (C42_match (w := [82, 111, 99, 107]) (g := 17) (name := [82, 111, 99, 107]) rfl (by decide +kernel) (by decide +kernel)))).2.1.1
  exact this ⟨rfl, by decide⟩

theorem textualGenre_ok (o : GenreOpts) : (∃ r, textualGenre o.winamp o.genre o.freeForm = .ok r) ↔ ways o = 1 := by
  unfold textualGenre ways
  by_cases h1 : o.winamp = 255 <;> cases h2 : o.genre <;> cases h3 : o.freeForm <;> simp [h1, h2, h3, eq_comm]

/-- What `scopePolicies` answers. -/
theorem scopePolicies_spec (v2 v1 : Bool) (tags : List Nat) :
    (¬ (v1 = true ∧ v2 = true) ∧ ¬ (v1 = true ∧ tags ≠ []) ∧
      scopePolicies v2 v1 tags = .ok (if v1 then .none else if tags = [] then .all else .some tags, !v2)) ∨
    (((v1 = true ∧ v2 = true) ∨ (v1 = true ∧ tags ≠ [])) ∧ scopePolicies v2 v1 tags = .throw .invalidArgument) := by
  cases v2 <;> cases v1 <;> cases tags <;> simp [scopePolicies]

/-- What `creationPolicies` answers. -/
theorem creationPolicies_spec (c2 a2 c1 a1 : Bool) :
    (¬ (c2 = true ∧ a2 = true) ∧ ¬ (c1 = true ∧ a1 = true) ∧ creationPolicies c2 a2 c1 a1 =
      .ok (if a2 then .always else if c2 then .whenOther else .never, if a1 then .always else if c1 then .whenOther else .never)) ∨
    (((c2 = true ∧ a2 = true) ∨ (c1 = true ∧ a1 = true)) ∧ creationPolicies c2 a2 c1 a1 = .throw .invalidArgument) := by
  cases c2 <;> cases a2 <;> cases c1 <;> cases a1 <;> simp [creationPolicies]

section

attribute [local irreducible] Genres.matchGenre Genres.textForGenre

/-- What the genre is. -/
theorem genre_spec (C : Conv) (o : GenreOpts) (hw : ways o = 1) :
    ∃ text best, textualGenre o.winamp o.genre o.freeForm = .ok (text, best) ∧
      ((∃ g s, genreOf C o text best = .ok (g, s)) ↔ Sensible C o) ∧
      ∀ g s, genreOf C o text best = .ok (g, s) → Says C o g s := by
  unfold ways at hw
  by_cases h1 : o.winamp = 255
  · by_cases h2 : o.genre = []
    · by_cases h3 : o.freeForm = []
      · simp [h1, h2, h3] at hw
      · refine ⟨o.freeForm, some false, by simp [textualGenre, h1, h2, show o.freeForm.isEmpty = false by simpa using h3], ?_, ?_⟩
        · simp only [genreOf, h1, ne_eq, not_true_eq_false, if_false, Sensible, h2, h3]
          constructor
          · rintro ⟨g, s, h⟩
            obtain ⟨r, hr, -⟩ := res_bind_ok h
            exact ⟨by simp, by simp, fun _ => ⟨r, hr⟩⟩
          · rintro ⟨-, -, h⟩
            obtain ⟨⟨n, g, d⟩, hr⟩ := h (by simp)
            rw [hr]
            exact ⟨_, _, rfl⟩
        · intro g s h
          simp only [genreOf, h1, ne_eq, not_true_eq_false, if_false] at h
          obtain ⟨⟨n, g', d⟩, hr, h⟩ := res_bind_ok h
          cases h
          exact .inr (.inr ⟨h3, rfl, n, g', d, hr, rfl⟩)
    · have h3 : o.freeForm = [] := by
        by_cases h3 : o.freeForm = []
        · exact h3
        · simp [h1, h2, h3] at hw
      refine ⟨o.genre, some true, by simp [textualGenre, h1, h3, show o.genre.isEmpty = false by simpa using h2], ?_, ?_⟩
      · simp only [genreOf, h1, ne_eq, not_true_eq_false, if_false, Sensible, h2, h3]
        constructor
        · rintro ⟨g, s, h⟩
          obtain ⟨r, hr, -⟩ := res_bind_ok h
          exact ⟨by simp, fun _ => ⟨r, hr⟩, by simp⟩
        · rintro ⟨-, h, -⟩
          obtain ⟨⟨n, g, d⟩, hr⟩ := h (by simp)
          rw [hr]
          exact ⟨_, _, rfl⟩
      · intro g s h
        simp only [genreOf, h1, ne_eq, not_true_eq_false, if_false] at h
        obtain ⟨⟨n, g', d⟩, hr, h⟩ := res_bind_ok h
        cases h
        exact .inr (.inl ⟨h2, g', d, hr, rfl⟩)
  · have h2 : o.genre = [] := by
      by_cases h2 : o.genre = []
      · exact h2
      · simp [h1, h2] at hw
        split at hw <;> omega
    have h3 : o.freeForm = [] := by
      by_cases h3 : o.freeForm = []
      · exact h3
      · simp [h1, h3] at hw
    have h1' : ¬ (255 = o.winamp) := fun e => h1 e.symm
    refine ⟨[], none, by simp [textualGenre, h1', h2, h3], ?_, ?_⟩
    · simp only [genreOf, h1, ne_eq, not_false_eq_true, if_true, Sensible, h2, h3]
      constructor
      · rintro ⟨g, s, h⟩
        refine ⟨fun _ => ?_, by simp, by simp⟩
        rw [← C42_defined]
        cases hx : Genres.textForGenre o.winamp with
        | none => rw [hx] at h; cases h
        | some x => rfl
      · rintro ⟨h, -, -⟩
        obtain ⟨name, hn⟩ := Option.isSome_iff_exists.1 ((C42_defined o.winamp).2 (h trivial))
        rw [hn]
        exact ⟨_, _, rfl⟩
    · intro g s h
      simp only [genreOf, h1, ne_eq, not_false_eq_true, if_true] at h
      cases hx : Genres.textForGenre o.winamp with
      | none => rw [hx] at h; cases h
      | some x =>
        rw [hx] at h
        cases h
        exact .inl ⟨h1, rfl, by rw [← C42_text, hx]⟩

end

/-- What holds of C82: options are accepted if and only if they may be given together and make sense (but for two that are documented
as incompatible and accepted), and then they are obeyed. -/
theorem C82_partial (C : Conv) (c : Cfg) (o : GenreOpts) :
    ((∃ P, genreCmd C c o = .ok P) ↔ Together o ∧ Sensible C o) ∧
    ∀ P, genreCmd C c o = .ok P → Obeys o P ∧ ∃ p g text, P = setGenre C c p g text ∧ Says C o g text := by
  have key : ∀ P, genreCmd C c o = .ok P → (Together o ∧ Sensible C o) ∧ Obeys o P ∧ ∃ p g text, P = setGenre C c p g text ∧ Says C o g text := by
    intro P h
    obtain ⟨⟨text, best⟩, h1, h⟩ := res_bind_ok h
    obtain ⟨⟨s2, s1⟩, h2, h⟩ := res_bind_ok h
    obtain ⟨⟨c2, c1⟩, h3, h⟩ := res_bind_ok h
    obtain ⟨⟨g, s⟩, h4, h⟩ := res_bind_ok h
    cases h
    have hw := (textualGenre_ok o).1 ⟨_, h1⟩
    obtain ⟨text', best', h5, h6, h7⟩ := genre_spec C o hw
    rw [h1] at h5
    cases h5
    rcases scopePolicies_spec o.v2Only o.v1Only o.tags with ⟨a1, a2, a3⟩ | ⟨-, a3⟩
    · rcases creationPolicies_spec o.createV2 o.alwaysV2 o.createV1 o.alwaysV1 with ⟨b1, b2, b3⟩ | ⟨-, b3⟩
      · rw [a3] at h2
        rw [b3] at h3
        cases h2
        cases h3
        exact ⟨⟨⟨hw, a1, a2, b1, b2⟩, h6.1 ⟨g, s, h4⟩⟩, ⟨rfl, rfl, rfl, rfl, rfl, rfl, rfl⟩, _, g, s, rfl, h7 g s h4⟩
      · rw [b3] at h3; cases h3
    · rw [a3] at h2; cases h2
  refine ⟨⟨fun ⟨P, h⟩ => (key P h).1, ?_⟩, fun P h => (key P h).2⟩
  rintro ⟨⟨hw, a1, a2, b1, b2⟩, hs⟩
  obtain ⟨text, best, h5, h6, -⟩ := genre_spec C o hw
  obtain ⟨g, s, h4⟩ := h6.2 hs
  rcases scopePolicies_spec o.v2Only o.v1Only o.tags with ⟨-, -, a3⟩ | ⟨a3, -⟩
  · rcases creationPolicies_spec o.createV2 o.alwaysV2 o.createV1 o.alwaysV1 with ⟨-, -, b3⟩ | ⟨b3, -⟩
    · unfold genreCmd
      rw [h5]
      simp only [Res.ok_bind]
      rw [a3]
      simp only [Res.ok_bind]
      rw [b3]
      simp only [Res.ok_bind, h4]
      exact ⟨_, rfl⟩
    · rcases b3 with b3 | b3
      · exact absurd b3 b1
      · exact absurd b3 b2
  · rcases a3 with a3 | a3
    · exact absurd a3 a1
    · exact absurd a3 a2

/-- By number, for the second ID3v2 tag only, with tags to be made. -/
example : Together { winamp := 17, v2Only := true, tags := [1], createV2 := true, alwaysV1 := true } ∧
    Sensible plainConv { winamp := 17, v2Only := true, tags := [1], createV2 := true, alwaysV1 := true } :=
  ⟨⟨by decide, by decide, by decide, by decide, by decide⟩, fun _ => by decide, fun h => absurd rfl h, fun h => absurd rfl h⟩

/-- Both of what is documented as incompatible is accepted. -/
theorem C82_refuted_compatible (C : Conv) (c : Cfg) (o : GenreOpts) (ht : Together o) (hs : Sensible C o) (_ : ¬ Compatible o) :
    ∃ P, genreCmd C c o = .ok P := (C82_partial C c o).1.2 ⟨ht, hs⟩
example : ¬ Compatible { freeForm := [65], v1Only := true } ∧ ¬ Compatible { freeForm := [65], v2Only := true, v1 := 3 } := by
  constructor
  · rintro ⟨h, -⟩; exact h ⟨rfl, by decide⟩
  · rintro ⟨-, h⟩; exact h ⟨rfl, by decide⟩

/-- The documented way of giving the genre of ID3v1 tags, `--v1 17`, is not understood, nor is any other number: one of several digits is
an error, and one of a single digit taken to be another. -/
theorem C82_refuted_number (n : Nat) (h : n < 256) : v1Value (decimal3 n) ≠ .ok (UInt8.ofNat n) := by
  have : ∀ n : Fin 256, v1Value (decimal3 n.val) ≠ .ok (UInt8.ofNat n.val) := by decide +kernel
  exact this ⟨n, h⟩

example : v1Value (decimal3 17) = .throw .invalidArgument ∧ v1Value (decimal3 7) = .ok 55 := by decide +kernel

/-! ## C83: twice -/

/-- C83 in full: having been run, `genre` finds nothing to do when run again. -/
def C83_claim : Prop :=
  ∀ (C : Conv) (c : Cfg) (p : Policy) (g : Byte) (text : Bytes) (v2 : List Tg) (v1 : Option V1Tag), Able C text → (∀ t ∈ v2, ReadTag t) →
    ∀ d v2' v1', edit (setGenre C c p g text) v2 v1 = .ok (d, v2', v1') →
      edit (setGenre C c p g text) v2' v1' = .ok (false, v2', v1')

/-- An ID3v1 tag is always taken to have been changed, so that the file is written again. -/
theorem C83_refuted_v1 (C : Conv) (c : Cfg) (p : Policy) (g : Byte) (text : Bytes) (v2 : List Tg) (t : V1Tag) (hp : p.v1Scope = true)
    {d : Bool} {v2' : List Tg} {v1' : Option V1Tag} (h : edit (setGenre C c p g text) v2 (some t) = .ok (d, v2', v1')) : d = true := by
  obtain ⟨⟨d2, w2, new⟩, e2, h⟩ := res_bind_ok h
  obtain ⟨⟨d1, w1⟩, e1, h⟩ := res_bind_ok h
  cases h
  simp only [editV1] at e1
  rw [if_pos (show (setGenre C c p g text).v1Scope = true from hp)] at e1
  obtain ⟨⟨b, t'⟩, e3, e1⟩ := res_bind_ok e1
  cases e1
  have : b = true := by
    change genreV1 C g t = _ at e3
    unfold genreV1 at e3
    simp only at e3
    split at e3
    · split at e3
      · cases e3; rfl
      · obtain ⟨b, -, e3⟩ := res_bind_ok e3; cases e3; rfl
    · cases e3; rfl
  simp [this]

example : ∃ d v2' v1', edit (setGenre plainConv (cfg .v3) everywhere 17 [82, 111, 99, 107]) [] (some { V1Tag.scratch false false with genre := 17 })
    = .ok (d, v2', v1') := ⟨_, _, _, rfl⟩

theorem C83_refuted : ¬ C83_claim := by
  intro h
  have h1 := h plainConv (cfg .v3) everywhere 17 [82, 111, 99, 107] [] (some (V1Tag.scratch false false)) (plainConv_able _) (by simp) _ _ _ rfl
  have := C83_refuted_v1 _ _ _ _ _ _ _ rfl h1
  cases this

/-- With `-a -C` a file without tags is given an ID3v2 tag by the first run, and an ID3v1 tag only by the second. -/
theorem C83_refuted_create : ∃ t2, edit (setGenre plainConv (cfg .v3) { everywhere with v2Create := .always, v1Create := .whenOther } 17 [82, 111, 99, 107]) [] none
    = .ok (true, [t2], none) ∧ (∀ v1, (setGenre plainConv (cfg .v3) { everywhere with v2Create := .always, v1Create := .whenOther } 17 [82, 111, 99, 107]).createV1From [t2] = v1 →
      edit (setGenre plainConv (cfg .v3) { everywhere with v2Create := .always, v1Create := .whenOther } 17 [82, 111, 99, 107]) [t2] none = v1.bind fun n => .ok (true, [t2], some n)) := by
  refine ⟨_, rfl, ?_⟩
  rintro v1 rfl
  rfl

theorem scopeLoop_idle {τ : Type} {F : τ → Res (Bool × τ)} : ∀ {ts : List τ} (_ : ∀ t ∈ ts, F t = .ok (false, t)),
    scopeLoop F 0 (indices ts.length .all) ts = .ok (false, ts) := by
  have key : ∀ (ts : List τ) (i : Nat), (∀ t ∈ ts, F t = .ok (false, t)) → scopeLoop F i (List.range' i ts.length) ts = .ok (false, ts) := by
    intro ts
    induction ts with
    | nil => intro i _; rfl
    | cons t ts ih =>
      intro i h
      simp only [List.length_cons, List.range'_succ, scopeLoop, if_true, h t List.mem_cons_self, Res.ok_bind,
        ih (i + 1) (fun t ht => h t (List.mem_cons_of_mem _ ht)), Bool.or_self]
  intro ts h
  simp only [indices, List.range_eq_range']
  exact key ts 0 h

theorem scopeLoop_every {τ : Type} {F : τ → Res (Bool × τ)} {ts ts' : List τ} {b : Bool}
    (h : scopeLoop F 0 (indices ts.length .all) ts = .ok (b, ts')) :
    ts'.length = ts.length ∧ ∀ t' ∈ ts', ∃ t b, t ∈ ts ∧ F t = .ok (b, t') := by
  have key : ∀ (ts : List τ) (i : Nat) (b : Bool) (ts' : List τ), scopeLoop F i (List.range' i ts.length) ts = .ok (b, ts') →
      ts'.length = ts.length ∧ ∀ t' ∈ ts', ∃ t b, t ∈ ts ∧ F t = .ok (b, t') := by
    intro ts
    induction ts with
    | nil => intro i b ts' h; simp only [scopeLoop] at h; cases h; simp
    | cons t ts ih =>
      intro i b ts' h
      simp only [List.length_cons, List.range'_succ, scopeLoop, if_true] at h
      obtain ⟨⟨u, t'⟩, h1, h⟩ := res_bind_ok h
      obtain ⟨⟨r, us⟩, h2, h⟩ := res_bind_ok h
      cases h
      obtain ⟨hl, hu⟩ := ih (i + 1) r us h2
      refine ⟨by simp [hl], ?_⟩
      intro x hx
      rcases List.mem_cons.1 hx with rfl | hx
      · exact ⟨t, u, List.mem_cons_self, h1⟩
      · obtain ⟨t0, b0, e1, e2⟩ := hu x hx
        exact ⟨t0, b0, List.mem_cons_of_mem _ e1, e2⟩
  simp only [indices, List.range_eq_range'] at h
  exact key ts 0 b ts' h

theorem genreV2_again {C : Conv} {text : Bytes} {t : Tg} (h : t.text C .tcon = .ok text) : genreV2 C text t = .ok (false, t) := by
  simp [genreV2, h, Res.bind]

theorem genreV1_again {C : Conv} {g : Byte} {t t' : V1Tag} {b : Bool} (h : genreV1 C g t = .ok (b, t')) : genreV1 C g t' = .ok (true, t') := by
  unfold genreV1 at h ⊢
  simp only at h ⊢
  by_cases he : t.extended = true
  · rw [if_pos (by simpa [V1Tag.apply] using he)] at h
    cases hx : Genres.textForGenre g with
    | none =>
      rw [hx] at h
      cases h
      rw [if_pos (by simpa [V1Tag.apply] using he)]
      rfl
    | some s =>
      rw [hx] at h
      obtain ⟨d, hd, h⟩ := res_bind_ok h
      cases h
      rw [if_pos (by simp [V1Tag.apply])]
      simp only [hd, Res.ok_bind]
      rfl
  · rw [if_neg (by simpa [V1Tag.apply] using he)] at h
    cases h
    rw [if_neg (by simpa [V1Tag.apply] using he)]
    rfl

theorem genreV1_made {C : Conv} {g : Byte} {t : V1Tag} (h : t.genre = g) (he : t.extended = false) : genreV1 C g t = .ok (true, t) := by
  unfold genreV1
  simp only
  rw [if_neg (by simp [V1Tag.apply, he])]
  subst h
  rfl

theorem setIf_plain {t : V1Tag} {o : Option Bytes} {conv : Bytes → Res Bytes} {op : Bytes → V1Tag.Op} {t' : V1Tag}
    (hop : ∀ (t : V1Tag) (b : Bytes), (t.apply (op b)).extended = t.extended) (h : setIf t o conv op = .ok t') : t'.extended = t.extended := by
  unfold setIf at h
  split at h
  · cases h; rfl
  · obtain ⟨b, -, h⟩ := res_bind_ok h
    cases h
    exact hop _ _

theorem copyV2_plain {C : Conv} {v2 : List Tg} {t : V1Tag} (h : copyV2 C v2 = .ok t) : t.extended = false := by
  obtain ⟨x1, -, h⟩ := res_bind_ok h
  obtain ⟨y1, e1, h⟩ := res_bind_ok h
  obtain ⟨x2, -, h⟩ := res_bind_ok h
  obtain ⟨y2, e2, h⟩ := res_bind_ok h
  obtain ⟨x3, -, h⟩ := res_bind_ok h
  obtain ⟨y3, e3, h⟩ := res_bind_ok h
  obtain ⟨x4, -, h⟩ := res_bind_ok h
  obtain ⟨y4, e4, h⟩ := res_bind_ok h
  obtain ⟨x5, -, h⟩ := res_bind_ok h
  have h4 : y4.extended = false := by
    rw [setIf_plain (fun _ _ => rfl) e4, setIf_plain (fun _ _ => rfl) e3, setIf_plain (fun _ _ => rfl) e2, setIf_plain (fun _ _ => rfl) e1]
    rfl
  cases x5 with
  | none => cases h; exact h4
  | some x => cases h; exact h4

/-- What holds of C83: having been run, `genre` changes no tag when run again, and if there is no ID3v1 tag or that is not to be processed,
finds nothing to do. Left out are the case that a file without any tags is given a tag of one kind, and in the second run a tag of the other
kind because there is one of the first; and indices (which are for the tags of a file, that may have become more). -/
theorem C83_partial (C : Conv) (c : Cfg) (p : Policy) (g : Byte) (text : Bytes) (v2 : List Tg) (v1 : Option V1Tag) (hA : Able C text)
    (hr : ∀ t ∈ v2, ReadTag t) (h1 : ∀ t, v1 = some t → Readable C t) (hs : p.v2Scope = .all ∨ p.v2Scope = .none)
    (hx : v2 = [] → v1 = none → p.v2Create = .always → p.v1Create = .whenOther → False)
    (hy : v2 = [] → v1 = none → p.v2Create = .whenOther → p.v1Create = .always → False)
    {d : Bool} {v2' : List Tg} {v1' : Option V1Tag} (h : edit (setGenre C c p g text) v2 v1 = .ok (d, v2', v1')) :
    edit (setGenre C c p g text) v2' v1' = .ok (decide (v1' ≠ none) && p.v1Scope, v2', v1') := by
  have hcr := C79_created C c p g text hA v2 v1 h1 h
  obtain ⟨⟨d2, w2, new⟩, e2, h⟩ := res_bind_ok h
  obtain ⟨⟨d1, w1⟩, e1, h⟩ := res_bind_ok h
  cases h
  -- the ID3v1 tag
  have k1 : ∀ w, v1' = some w → genreV1 C g w = .ok (true, w) ∨ p.v1Scope = false := by
    rintro w rfl
    cases v1 with
    | none =>
      left
      have hg := hcr.2 rfl w rfl
      refine genreV1_made hg ?_
      simp only [editV1] at e1
      split at e1
      · obtain ⟨n, hn, e1⟩ := res_bind_ok e1
        cases e1
        obtain ⟨m, hm, hn⟩ := res_bind_ok hn
        cases hn
        exact (copyV2_plain hm : m.extended = false)
      · split at e1
        · obtain ⟨n, hn, e1⟩ := res_bind_ok e1
          cases e1
          cases hn
          rfl
        · cases e1
    | some t =>
      cases hp : p.v1Scope with
      | false => exact .inr rfl
      | true =>
        left
        simp only [editV1] at e1
        rw [if_pos (show (setGenre C c p g text).v1Scope = true from hp)] at e1
        obtain ⟨⟨b, t'⟩, e3, e1⟩ := res_bind_ok e1
        cases e1
        exact genreV1_again (C := C) (g := g) (t := t) (b := b) e3
  -- the ID3v2 tags
  have hnv : ∀ l : List Tg, l ≠ [] → (∀ t ∈ l, p.v2Scope = .all → t.text C .tcon = .ok text) →
      editV2 (setGenre C c p g text) l v1' = .ok (false, l, none) := by
    intro l hne hl
    cases l with
    | nil => exact absurd rfl hne
    | cons t ts =>
      simp only [editV2]
      rcases hs with hs | hs
      · rw [if_neg (by rw [show (setGenre C c p g text).v2Scope = .all from hs]; simp)]
        have : scopeLoop (setGenre C c p g text).processV2 0 (indices (t :: ts).length (setGenre C c p g text).v2Scope) (t :: ts) =
            .ok (false, t :: ts) := by
          rw [show (setGenre C c p g text).v2Scope = .all from hs]
          exact scopeLoop_idle (fun t ht => genreV2_again (hl t ht hs))
        rw [this]
        rfl
      · rw [if_pos (show (setGenre C c p g text).v2Scope = .none from hs)]
  have hnil : ∀ w : Option V1Tag, (w = none → p.v2Create ≠ .always) → (w ≠ none → p.v2Create = .never) →
      editV2 (setGenre C c p g text) [] w = .ok (false, [], none) := by
    intro w ha hn
    cases w with
    | none => simp only [editV2]; rw [if_neg (show (setGenre C c p g text).v2Create ≠ .always from ha rfl)]
    | some w => simp only [editV2]; rw [if_neg (by rw [show (setGenre C c p g text).v2Create = .never from hn (by simp)]; simp)]
  have k2 : editV2 (setGenre C c p g text) (w2 ++ new.toList) v1' = .ok (false, w2 ++ new.toList, none) := by
    cases v2 with
    | nil =>
      have hcr1 := hcr.1 rfl
      cases v1 with
      | none =>
        simp only [editV2] at e2
        split at e2
        · obtain ⟨n, hn, e2⟩ := res_bind_ok e2
          cases e2
          exact hnv _ (by simp) (fun t ht _ => (hcr1 t ht).2.2)
        · rename_i hna
          cases e2
          refine hnil v1' (fun _ => hna) ?_
          intro hw
          have hc1 : p.v1Create = .always := by
            simp only [editV1] at e1
            rw [if_neg (by simp)] at e1
            split at e1
            · rename_i hc; exact hc.2
            · cases e1; exact absurd rfl hw
          cases hv : p.v2Create with
          | never => rfl
          | whenOther => exact absurd (hy rfl rfl hv hc1) id
          | always => exact absurd hv hna
      | some t1 =>
        have hw1 : v1' ≠ none := by
          simp only [editV1] at e1
          split at e1
          · obtain ⟨⟨b, t'⟩, -, e1⟩ := res_bind_ok e1; cases e1; simp
          · cases e1; simp
        simp only [editV2] at e2
        split at e2
        · obtain ⟨n, hn, e2⟩ := res_bind_ok e2
          cases e2
          exact hnv _ (by simp) (fun t ht _ => (hcr1 t ht).2.2)
        · rename_i hna
          cases e2
          exact hnil v1' (fun e => absurd e hw1) (fun _ => Classical.not_not.1 hna)
    | cons t ts =>
      simp only [editV2] at e2
      split at e2
      · rename_i hsn
        cases e2
        simp only [Option.toList_none, List.append_nil]
        exact hnv _ (by simp) (fun t _ ha => by rw [show p.v2Scope = .none from hsn] at ha; cases ha)
      · rename_i hsn
        obtain ⟨⟨b, us⟩, h3, e2⟩ := res_bind_ok e2
        cases e2
        simp only [Option.toList_none, List.append_nil]
        have hall : p.v2Scope = .all := by
          rcases hs with hs | hs
          · exact hs
          · exact absurd hs hsn
        rw [show (setGenre C c p g text).v2Scope = .all from hall] at h3
        obtain ⟨hl, htx⟩ := scopeLoop_every h3
        refine hnv _ (by intro e; rw [e] at hl; simp at hl) (fun u hu _ => ?_)
        obtain ⟨t0, b0, ht0, hf⟩ := htx u hu
        exact (genreV2_spec hA (read_tinv (hr t0 ht0)) hf).2.2.1
  have k3 : editV1 (setGenre C c p g text) (w2 ++ new.toList) v1' = .ok (decide (v1' ≠ none) && p.v1Scope, v1') := by
    cases v1' with
    | some w =>
      simp only [editV1]
      cases hp : p.v1Scope with
      | true =>
        rw [if_pos (show (setGenre C c p g text).v1Scope = true from hp)]
        rcases k1 w rfl with k1 | k1
        · rw [show (setGenre C c p g text).processV1 w = .ok (true, w) from k1]
          simp [Res.bind]
        · rw [hp] at k1; cases k1
      | false =>
        rw [if_neg (by rw [show (setGenre C c p g text).v1Scope = false from hp]; simp)]
        simp
    | none =>
      cases v1 with
      | some t1 =>
        simp only [editV1] at e1
        split at e1
        · obtain ⟨⟨b, t'⟩, -, e1⟩ := res_bind_ok e1; cases e1
        · cases e1
      | none =>
        simp only [editV1] at e1
        split at e1
        · obtain ⟨n, -, e1⟩ := res_bind_ok e1; cases e1
        · rename_i q1
          split at e1
          · obtain ⟨n, -, e1⟩ := res_bind_ok e1; cases e1
          · rename_i q2
            simp only [editV1]
            have q1' : w2 ≠ [] → p.v1Create = .never := fun hw => Classical.byContradiction fun hc => q1 ⟨by simpa using hw, hc⟩
            have q2' : w2 = [] → p.v1Create ≠ .always := fun hw hc => q2 ⟨by simpa using hw, hc⟩
            have hnew : new ≠ none → w2 = [] ∧ p.v1Create = .never := by
              intro hn
              cases v2 with
              | nil =>
                simp only [editV2] at e2
                split at e2
                · rename_i ha
                  obtain ⟨n, -, e2⟩ := res_bind_ok e2
                  cases e2
                  refine ⟨rfl, ?_⟩
                  cases hv : p.v1Create with
                  | never => rfl
                  | whenOther => exact absurd (hx rfl rfl ha hv) id
                  | always => exact absurd hv (q2' rfl)
                · cases e2; exact absurd rfl hn
              | cons t ts =>
                simp only [editV2] at e2
                split at e2
                · cases e2; exact absurd rfl hn
                · obtain ⟨⟨b, us⟩, -, e2⟩ := res_bind_ok e2; cases e2; exact absurd rfl hn
            rw [if_neg, if_neg]
            · rfl
            · rintro ⟨hl, hc⟩
              have : w2 = [] := by
                cases w2 with
                | nil => rfl
                | cons x xs => simp at hl
              exact q2' this hc
            · rintro ⟨hl, hc⟩
              by_cases hn : new = none
              · subst hn
                exact hc (q1' (by simpa using hl))
              · exact hc (hnew hn).2
  unfold edit
  rw [k2]
  simp only [Res.ok_bind, k3, Bool.false_or, Option.toList_none, List.append_nil]

set_option maxRecDepth 10000 in
/-- The hypotheses are met, with tags to be made as needed, by a file with an ID3v1 tag only. -/
example : ∃ v2' v1', edit (setGenre plainConv (cfg .v3) { everywhere with v2Create := .always, v1Create := .always } 17 [82, 111, 99, 107])
    [] (some v1sample) = .ok (true, v2', v1') ∧ v2'.length = 1 := ⟨_, _, rfl, rfl⟩

/-! ## C84: files and directories -/

/-- C84 in full: each file named, or beneath a directory named, is processed, whether or not others fail. -/
def C84_claim : Prop :=
  ∀ (F : Path → FM Unit) (l : Entries) (s : FS), (processEntries F l s).fs = regardless F (filesIn l) s

/-- Writes a mark into each file, but fails for the file `a`. -/
def markBut (p : Path) : FM Unit := fun s => if p = [97] then ⟨[], .throw .streamFailure, s⟩ else ⟨[], .ok (), s.put p [1]⟩

theorem C84_refuted : ¬ C84_claim := by
  intro h
  have := h markBut (.cons (.file [97]) (.cons (.file [98]) .nil)) []
  revert this
  decide

mutual
theorem processEntry_spec (F : Path → FM Unit) : ∀ (e : Entry) (s : FS),
    ((processEntry F e s).res, (processEntry F e s).fs) = untilFailure F (filesOf e) s
  | .file p, s => by
    simp only [processEntry, filesOf, untilFailure]
    cases hr : (F p s).res <;> simp
  | .dir _ l, s => by
    simp only [processEntry, filesOf]
    exact processEntries_spec F l s
  | .other _, s => by simp [processEntry, filesOf, untilFailure, FM.lift]

theorem processEntries_spec (F : Path → FM Unit) : ∀ (l : Entries) (s : FS),
    ((processEntries F l s).res, (processEntries F l s).fs) = untilFailure F (filesIn l) s
  | .nil, s => by simp [processEntries, filesIn, untilFailure, FM.lift]
  | .cons e l, s => by
    have h1 := processEntry_spec F e s
    have app : ∀ (ps qs : List Path) (s : FS), untilFailure F (ps ++ qs) s =
        match untilFailure F ps s with
        | (.ok _, s') => untilFailure F qs s'
        | (.throw e, s') => (.throw e, s')
        | (.ub u, s') => (.ub u, s') := by
      intro ps qs
      induction ps with
      | nil => intro s; rfl
      | cons p ps ih =>
        intro s
        simp only [List.cons_append, untilFailure]
        cases (F p s).res with
        | ok _ => exact ih _
        | throw _ => rfl
        | ub _ => rfl
    simp only [processEntries, filesIn, app, ← h1, FM.bind]
    cases hr : (processEntry F e s).res with
    | ok _ => exact processEntries_spec F l _
    | throw _ => rfl
    | ub _ => rfl
end

/-- What holds of C84: the files named or beneath directories named are processed in order, each once, nothing else is, and the first
failure is reported; but the files after that are left out. -/
theorem C84_partial (F : Path → FM Unit) (l : Entries) (s : FS) :
    ((processEntries F l s).res, (processEntries F l s).fs) = untilFailure F (filesIn l) s := processEntries_spec F l s

/-- In particular, each is processed if none fails. -/
theorem C84_all (F : Path → FM Unit) (l : Entries) (s : FS) (h : ∀ p ∈ filesIn l, ∀ s, (F p s).res = .ok ()) :
    (processEntries F l s).res = .ok () ∧ (processEntries F l s).fs = regardless F (filesIn l) s := by
  have h1 := processEntries_spec F l s
  have : ∀ (ps : List Path) (s : FS), (∀ p ∈ ps, ∀ s, (F p s).res = .ok ()) → untilFailure F ps s = (.ok (), regardless F ps s) := by
    intro ps
    induction ps with
    | nil => intro s _; rfl
    | cons p ps ih =>
      intro s hp
      simp only [untilFailure, regardless, hp p List.mem_cons_self s]
      exact ih _ (fun q hq => hp q (List.mem_cons_of_mem _ hq))
  rw [this _ s h] at h1
  exact ⟨congrArg Prod.fst h1, congrArg Prod.snd h1⟩

/-- A directory with a directory in it, and a file. -/
example : filesIn (.cons (.dir [100] (.cons (.file [98]) (.cons (.dir [101] (.cons (.file [99]) .nil)) (.cons (.other [120]) .nil)))) (.cons (.file [98]) .nil))
    = [[98], [99], [98]] := rfl
example : ∀ p ∈ filesIn (.cons (.dir [100] (.cons (.file [98]) .nil)) (.cons (.file [99]) .nil)), ∀ s, (markBut p s).res = .ok () := by
  intro p hp s
  simp only [filesIn, filesOf, List.append_nil, List.cons_append, List.nil_append, List.mem_cons, List.not_mem_nil, or_false] at hp
  rcases hp with rfl | rfl <;> rfl

end Scribbu.Props
