import Verif.Proofs.Options

/-! # Options of sub-commands (C169-C174) -/

namespace Scribbu.Props

open Scribbu.Options Scribbu.Spec.Options

/-- A library that takes every text for everything. -/
def lenient : Boost := ⟨fun _ _ => true⟩

/-! ## C169: every way to write an option -/

/-- C169 in full: an option put in front of a command line, in any of the ways to write it, makes that option what is meant, whatever the environment, and changes
nothing else; if the command line did not have it before. -/
def C169_claim : Prop :=
  ∀ (B : Boost), ∀ c ∈ commands, ∀ o ∈ c.opts, ∀ (env : List (Bytes × Bytes)) (words : List Bytes) (v : Bytes) (f : List Bytes) (m0 m : Vars),
    Written o v f → Takes B o v → options B c [] words = .ok m0 → Untouched m0 o → options B c env words = .ok m →
    options B c env (f ++ words) = .ok (m.set o.long (meant o v, false))

/-- `genre` has two options for which `-v` stands. -/
theorem genre_v (words : List Bytes) : run genre ([45, 118] :: words) = .throw .invalidArgument := by
  unfold run
  have : parseWord genre.all [45, 118] = .throw .invalidArgument := by decide +kernel
  show (items genre.all (words.length + 1) ([45, 118] :: words)).bind _ = _
  unfold items
  rw [this]
  rfl

/-- **Finding** `scribbu genre` can not be given `-v`: the letter stands for both `--v1` and `--verbose`, and Boost takes it to be ambiguous whatever else there is on the
command line or in the environment. -/
theorem C169_refuted_always (B : Boost) (env : List (Bytes × Bytes)) (words : List Bytes) :
    options B genre env ([45, 118] :: words) = .throw .invalidArgument := by
  unfold options
  rw [genre_v words]
  rfl

/-- The options of `scribbu genre a`. -/
theorem genre_a : (match options lenient genre [] [[97]] with
    | .ok m => decide (m /- verbose -/ [118, 101, 114, 98, 111, 115, 101] = some (.flag false, true))
    | _ => false) = true := by
  decide +kernel

/-- **Finding** The claim fails for `-v` of `genre`. -/
theorem C169_refuted : ¬ C169_claim := by
  intro h
  have h1 := genre_a
  cases h2 : options lenient genre [] [[97]] with
  | throw e => rw [h2] at h1; exact absurd h1 nofun
  | ub u => rw [h2] at h1; exact absurd h1 nofun
  | ok m =>
    rw [h2] at h1
    have h1 : m /- verbose -/ [118, 101, 114, 98, 111, 115, 101] = some (.flag false, true) := of_decide_eq_true h1
    have hc : genre ∈ commands := by decide +kernel
    have ho : switch /- verbose -/ [118, 101, 114, 98, 111, 115, 101] (some 118) ∈ genre.opts := by decide +kernel
    have : options lenient genre [] ([45, 118] :: [[97]]) = _ :=
      h lenient genre hc _ ho [] [[97]] [] [[45, 118]] m m (.short 118 rfl rfl) trivial h2 h1 h2
    rw [C169_refuted_always] at this
    exact absurd this nofun

/-- C169 but for the letter `v` of `genre`. -/
theorem C169_partial (B : Boost) (c : Cmd) (hc : c ∈ commands) (o : Opt) (ho : o ∈ c.opts) (env : List (Bytes × Bytes)) (words : List Bytes) (v : Bytes)
    (f : List Bytes) (m0 m : Vars) (hw : Written o v f) (hx : c = genre → ∀ r, f.head? ≠ some (45 :: 118 :: r)) (ht : Takes B o v)
    (h0 : options B c [] words = .ok m0) (hu : Untouched m0 o) (h : options B c env words = .ok m) :
    options B c env (f ++ words) = .ok (m.set o.long (meant o v, false)) := by
  obtain ⟨l, m1, hl, hm1, he, hr⟩ := options_ok h
  have hng := not_given hc ho h0 hu hl
  obtain ⟨toks, hrun⟩ := run_written hc ho hw hx hl
  obtain ⟨-, hff, -, hne⟩ := table_long c hc o (opts_all ho)
  have hput : put B c.all (fun _ => false) (⟨o.long, valuesOf o v, toks⟩ :: l) (fun _ => none) = .ok (m1.set o.long (meant o v, false)) := by
    rw [put_go (i := ⟨o.long, valuesOf o v, toks⟩) (d := o) (v := meant o v) hne rfl hff (parse_meant ht)]
    exact (put_other hng hm1).2 _
  refine options_of hrun hput ?_ ?_
  · rcases he with ⟨h1, h2⟩ | ⟨h1, m2, h2, h3⟩
    · exact .inl ⟨h1, by rw [h2, presets_set]⟩
    · refine .inr ⟨h1, m2.set o.long (meant o v, false), ?_, by rw [h3, presets_set]⟩
      rw [presets_set]
      refine put_final (fin := fun k => l.any (·.key = k)) (fun j => ?_) _ h2
      simp [List.any_cons]
  · intro p hp hq
    have := hr p hp hq
    by_cases hk : p.long = o.long
    · rw [hk, set_same]; rfl
    · rw [set_other _ _ hk]; exact this

/-- Not vacuous: `scribbu popm a` with `SCRIBBU_OWNER` set, to which `--owner=me` is added. -/
example : ∃ m0 m, options lenient popm [] [[97]] = .ok m0 ∧ m0 /- owner -/ [111, 119, 110, 101, 114] = none ∧ options lenient popm [(/- SCRIBBU_OWNER -/ [83, 67, 82, 73, 66, 66, 85, 95, 79, 87, 78, 69, 82], /- you -/ [121, 111, 117])] [[97]] = .ok m ∧
    options lenient popm [(/- SCRIBBU_OWNER -/ [83, 67, 82, 73, 66, 66, 85, 95, 79, 87, 78, 69, 82], /- you -/ [121, 111, 117])] [/- --owner=me -/ [45, 45, 111, 119, 110, 101, 114, 61, 109, 101], [97]] = .ok (m.set /- owner -/ [111, 119, 110, 101, 114] (.one /- me -/ [109, 101], false)) := by
  have h1 : (match options lenient popm [] [[97]] with
    | .ok m => decide (m /- owner -/ [111, 119, 110, 101, 114] = none)
    | _ => false) = true := by decide +kernel
  have h2 : (match options lenient popm [(/- SCRIBBU_OWNER -/ [83, 67, 82, 73, 66, 66, 85, 95, 79, 87, 78, 69, 82], /- you -/ [121, 111, 117])] [[97]] with
    | .ok m => decide (m /- owner -/ [111, 119, 110, 101, 114] = some (.one /- you -/ [121, 111, 117], false))
    | _ => false) = true := by decide +kernel
  cases h3 : options lenient popm [] [[97]] with
  | throw e => rw [h3] at h1; exact absurd h1 nofun
  | ub u => rw [h3] at h1; exact absurd h1 nofun
  | ok m0 =>
    cases h4 : options lenient popm [(/- SCRIBBU_OWNER -/ [83, 67, 82, 73, 66, 66, 85, 95, 79, 87, 78, 69, 82], /- you -/ [121, 111, 117])] [[97]] with
    | throw e => rw [h4] at h2; exact absurd h2 nofun
    | ub u => rw [h4] at h2; exact absurd h2 nofun
    | ok m =>
      rw [h3] at h1
      have h1 : m0 /- owner -/ [111, 119, 110, 101, 114] = none := of_decide_eq_true h1
      refine ⟨m0, m, rfl, h1, rfl, ?_⟩
      exact C169_partial lenient popm (by decide +kernel) ⟨/- owner -/ [111, 119, 110, 101, 114], some 111, .value .text, false, none⟩ (by decide +kernel) _ [[97]] /- me -/ [109, 101] _ m0 m
        (.longIs (by decide) (by decide)) (by intro h; exact absurd h (by decide +kernel)) rfl h3 h1 h4

/-! ## C170: variables for options -/

/-- C170 in full: each variable a sub-command looks for stands for one of its options: set, it makes that option what its value stands for, and nothing else
changes; unless the command line has the option. -/
def C170_claim : Prop :=
  ∀ (B : Boost), ∀ c ∈ commands, ∀ x k, (x, k) ∈ c.env → ∃ o ∈ c.opts, o.long = k ∧
    ∀ (env : List (Bytes × Bytes)) (words : List Bytes) (v : Bytes) (val : Val) (m0 m : Vars),
      Stands B o v val → (∀ y ∈ env, y.1 ≠ x) → options B c [] words = .ok m0 → Untouched m0 o → options B c env words = .ok m →
      options B c ((x, v) :: env) words = .ok (m.set k (val, false))

/-- **Finding** `popm` and `xtag` take the variable `SCRIBBU_CREATE` to stand for an option `create`, which they do not have: there is no command line at all that
they accept while it is set, to whatever value. -/
theorem C170_refuted_always (B : Boost) (c : Cmd) (hc : c = popm ∨ c = xtag) (env : List (Bytes × Bytes)) (v : Bytes) (h : (/- SCRIBBU_CREATE -/ [83, 67, 82, 73, 66, 66, 85, 95, 67, 82, 69, 65, 84, 69], v) ∈ env)
    (words : List Bytes) (m : Vars) : options B c env words ≠ .ok m := by
  intro ho
  obtain ⟨l, m1, hl, hm1, he, -⟩ := options_ok ho
  have hnf : find c.opts /- create -/ [99, 114, 101, 97, 116, 101] false = .ok none := by rcases hc with rfl | rfl <;> decide +kernel
  have hlk : c.env.lookup /- SCRIBBU_CREATE -/ [83, 67, 82, 73, 66, 66, 85, 95, 67, 82, 69, 65, 84, 69] = some /- create -/ [99, 114, 101, 97, 116, 101] := by rcases hc with rfl | rfl <;> decide +kernel
  have hnl : ∀ i ∈ l, i.key ≠ /- create -/ [99, 114, 101, 97, 116, 101] := by
    intro i hi hk
    have : ∃ i ∈ l, i.key = /- create -/ [99, 114, 101, 97, 116, 101] := ⟨i, hi, hk⟩
    exact put_unknown (by rcases hc with rfl | rfl <;> decide +kernel) (by decide) rfl this hm1
  have hin : (⟨/- create -/ [99, 114, 101, 97, 116, 101], [v], []⟩ : Item) ∈ fromEnv c env := by
    unfold fromEnv
    exact List.mem_filterMap.2 ⟨_, h, by simp only [hlk, Option.map_some]⟩
  rcases he with ⟨h1, -⟩ | ⟨-, m2, h2, -⟩
  · rcases hc with rfl | rfl <;> exact absurd h1 (by decide)
  · refine put_unknown hnf (by decide) ?_ ⟨_, hin, rfl⟩ h2
    simpa [List.any_eq_false] using hnl

/-- **Finding** The claim fails for `SCRIBBU_CREATE`. -/
theorem C170_refuted : ¬ C170_claim := by
  intro h
  obtain ⟨o, ho, hk, -⟩ := h lenient popm (by decide +kernel) /- SCRIBBU_CREATE -/ [83, 67, 82, 73, 66, 66, 85, 95, 67, 82, 69, 65, 84, 69] /- create -/ [99, 114, 101, 97, 116, 101] (by decide +kernel)
  have : ∀ o ∈ popm.opts, o.long ≠ /- create -/ [99, 114, 101, 97, 116, 101] := by decide +kernel
  exact this o ho hk

/-- C170 but for `SCRIBBU_CREATE`. -/
theorem C170_partial (B : Boost) (c : Cmd) (hc : c ∈ commands) (x k : Bytes) (hx : (x, k) ∈ c.env) (hne : x ≠ CREATE) :
    ∃ o ∈ c.opts, o.long = k ∧ ∀ (env : List (Bytes × Bytes)) (words : List Bytes) (v : Bytes) (val : Val) (m0 m : Vars),
      Stands B o v val → (∀ y ∈ env, y.1 ≠ x) → options B c [] words = .ok m0 → Untouched m0 o → options B c env words = .ok m →
      options B c ((x, v) :: env) words = .ok (m.set k (val, false)) := by
  obtain ⟨o, ho, hok, hlk, hinj⟩ := table_env c hc x k hx hne
  refine ⟨o, ho, hok, ?_⟩
  intro env words v val m0 m hs hy h0 hu h
  subst hok
  obtain ⟨l, m1, hl, hm1, he, hr⟩ := options_ok h
  have hng := not_given hc ho h0 hu hl
  have hne' := (table_long c hc o (opts_all ho)).2.2.2
  rcases he with ⟨h1, -⟩ | ⟨h1, m2, h2, h3⟩
  · rw [h1] at hx; exact absurd hx (by simp)
  · have hes : ∀ i ∈ fromEnv c env, i.key ≠ o.long := by
      intro i hi hk
      unfold fromEnv at hi
      obtain ⟨⟨y, w⟩, hyw, hyi⟩ := List.mem_filterMap.1 hi
      obtain ⟨k', hk', rfl⟩ := Option.map_eq_some_iff.1 hyi
      cases hk
      exact hy _ hyw (hinj y hk')
    have hm1k : m1 o.long = none := (put_other hng hm1).1
    have hgiven : (presets c.all m1).given o.long = none := by
      unfold Vars.given
      rw [presets_none _ _ _ hm1k, table_preset c hc o ho]
      cases o.preset <;> rfl
    have hcons := fromEnv_some hlk v env
    refine options_of hl hm1 (.inr ⟨h1, m2.set o.long (val, false), ?_, by rw [h3, presets_set]⟩) ?_
    · rw [hcons, put_go (i := ⟨o.long, [v], []⟩) (d := o) (v := val) hne' ?_ (table_opts c hc o ho) ?_]
      · exact (put_other hes h2).2 _
      · simpa [List.any_eq_false] using hng
      · show B.parse o ((presets c.all m1).given o.long) [v] = .ok val
        rw [hgiven]; exact parse_stands hs
    · intro p hp hq
      have := hr p hp hq
      by_cases hk : p.long = o.long
      · rw [hk, set_same]; rfl
      · rw [set_other _ _ hk]; exact this

/-- Not vacuous: `scribbu rename a` with `SCRIBBU_DRY_RUN=no` added to `SCRIBBU_VERBOSE=1`. -/
example : (match options lenient rename [(/- SCRIBBU_DRY_RUN -/ [83, 67, 82, 73, 66, 66, 85, 95, 68, 82, 89, 95, 82, 85, 78], /- no -/ [110, 111]), (/- SCRIBBU_VERBOSE -/ [83, 67, 82, 73, 66, 66, 85, 95, 86, 69, 82, 66, 79, 83, 69], /- 1 -/ [49])] [[97]] with
    | .ok m => decide (m /- dry-run -/ [100, 114, 121, 45, 114, 117, 110] = some (.flag false, false) ∧ m /- verbose -/ [118, 101, 114, 98, 111, 115, 101] = some (.flag true, false) ∧ m /- template -/ [116, 101, 109, 112, 108, 97, 116, 101] = some (.one /- %A - %T.mp3 -/ [37, 65, 32, 45, 32, 37, 84, 46, 109, 112, 51], true))
    | _ => false) = true := by decide +kernel

example : (/- SCRIBBU_DRY_RUN -/ [83, 67, 82, 73, 66, 66, 85, 95, 68, 82, 89, 95, 82, 85, 78], /- dry-run -/ [100, 114, 121, 45, 114, 117, 110]) ∈ rename.env ∧ Stands lenient (switch /- dry-run -/ [100, 114, 121, 45, 114, 117, 110] (some 110)) /- No -/ [78, 111] (.flag false) :=
  ⟨by decide, .no rfl (by decide)⟩

/-! ## C171: other variables -/

/-- C171 in full: a variable that is not named after an option of the sub-command makes no difference. -/
def C171_claim : Prop :=
  ∀ (B : Boost), ∀ c ∈ commands, ∀ (x v : Bytes) (env : List (Bytes × Bytes)) (words : List Bytes), (∀ o ∈ c.opts, variableFor o.long ≠ x) →
    options B c ((x, v) :: env) words = options B c env words

/-- **Finding** `scribbu xtag a` fails if `SCRIBBU_CREATE` is set, and does not otherwise; there is no option of that name. -/
theorem C171_refuted : ¬ C171_claim := by
  intro h
  have := h lenient xtag (by decide +kernel) /- SCRIBBU_CREATE -/ [83, 67, 82, 73, 66, 66, 85, 95, 67, 82, 69, 65, 84, 69] /- 1 -/ [49] [] [[97]] (by decide +kernel)
  have h1 : (match options lenient xtag [] [[97]] with
    | .ok _ => true
    | _ => false) = true := by decide +kernel
  cases h2 : options lenient xtag [] [[97]] with
  | ok m => exact C170_refuted_always lenient xtag (.inr rfl) [(/- SCRIBBU_CREATE -/ [83, 67, 82, 73, 66, 66, 85, 95, 67, 82, 69, 65, 84, 69], /- 1 -/ [49])] /- 1 -/ [49] (by simp) [[97]] m (this.trans h2)
  | throw e => rw [h2] at h1; exact absurd h1 nofun
  | ub u => rw [h2] at h1; exact absurd h1 nofun

/-- C171 but for `SCRIBBU_CREATE`. -/
theorem C171_partial (B : Boost) (c : Cmd) (hc : c ∈ commands) (x v : Bytes) (env : List (Bytes × Bytes)) (words : List Bytes) (hx : x ≠ CREATE)
    (h : ∀ o ∈ c.opts, variableFor o.long ≠ x) : options B c ((x, v) :: env) words = options B c env words := by
  have hn : c.env.lookup x = none := by
    cases hl : c.env.lookup x with
    | none => rfl
    | some k =>
      obtain ⟨o, ho, hv⟩ := table_named c hc x k (lookup_mem hl) hx
      exact absurd hv (h o ho)
  unfold options
  rw [fromEnv_none hn]

/-- Not vacuous: the variable NEWS is about. -/
example : /- SCRIBBU_PAGER -/ [83, 67, 82, 73, 66, 66, 85, 95, 80, 65, 71, 69, 82] ≠ /- SCRIBBU_CREATE -/ [83, 67, 82, 73, 66, 66, 85, 95, 67, 82, 69, 65, 84, 69] ∧ ∀ o ∈ rename.opts, variableFor o.long ≠ /- SCRIBBU_PAGER -/ [83, 67, 82, 73, 66, 66, 85, 95, 80, 65, 71, 69, 82] := by decide +kernel

/-! ## C172: the command line before the environment before what is preset -/

/-- C172, first half: what the command line makes of an option the environment does not change. -/
theorem C172_command_line (B : Boost) (c : Cmd) (hc : c ∈ commands) (o : Opt) (ho : o ∈ c.opts) (env : List (Bytes × Bytes)) (words : List Bytes) (m0 m : Vars)
    (v : Val) (h0 : options B c [] words = .ok m0) (hv : m0 o.long = some (v, false)) (h : options B c env words = .ok m) : m o.long = some (v, false) := by
  obtain ⟨l, m1, hl, hm1, he, -⟩ := options_ok h0
  obtain ⟨l', m1', hl', hm1', he', -⟩ := options_ok h
  rw [hl] at hl'; cases hl'
  rw [hm1] at hm1'; cases hm1'
  have hm1v : m1 o.long = some (v, false) := by
    have hp : presets c.all m1 o.long = some (v, false) := by
      rcases he with ⟨-, rfl⟩ | ⟨-, m2, h2, rfl⟩
      · exact hv
      · cases h2
        cases hq : presets c.all m1 o.long with
        | some x => rw [presets_some _ _ _ _ hq] at hv; exact hv
        | none =>
          rw [presets_none _ _ _ hq, table_preset' c hc o ho] at hv
          cases hp : o.preset <;> rw [hp] at hv <;> cases hv
    cases hq : m1 o.long with
    | some x => rw [presets_some _ _ _ _ hq] at hp; exact hp
    | none =>
      rw [presets_none _ _ _ hq, table_preset c hc o ho] at hp
      cases hr : o.preset <;> rw [hr] at hp <;> cases hp
  have hgiven : l.any (·.key = o.long) = true := by
    cases hq : l.any (·.key = o.long) with
    | true => rfl
    | false =>
      have : ∀ i ∈ l, i.key ≠ o.long := by simpa [List.any_eq_false] using hq
      have := (put_other this hm1).1
      rw [hm1v] at this; cases this
  rcases he' with ⟨-, rfl⟩ | ⟨-, m2, h2, rfl⟩
  · exact presets_some _ _ _ _ hm1v
  · refine presets_some _ _ _ _ ?_
    rw [put_fixed hgiven h2]
    exact presets_some _ _ _ _ hm1v

/-- C172, second half: an option that neither the command line nor the environment has is as preset. -/
theorem C172_preset (B : Boost) (c : Cmd) (hc : c ∈ commands) (o : Opt) (ho : o ∈ c.opts) (env : List (Bytes × Bytes)) (words : List Bytes) (m0 m : Vars)
    (h0 : options B c [] words = .ok m0) (hu : Untouched m0 o) (hx : ∀ y ∈ env, y.1 ≠ variableFor o.long) (h : options B c env words = .ok m) : Untouched m o := by
  obtain ⟨l, m1, hl, hm1, he, -⟩ := options_ok h
  have hng := not_given hc ho h0 hu hl
  have hm1k : m1 o.long = none := (put_other hng hm1).1
  have hp : presets c.all m1 o.long = o.preset.map fun v => (v, true) := by rw [presets_none _ _ _ hm1k, table_preset c hc o ho]
  unfold Untouched
  rcases he with ⟨-, rfl⟩ | ⟨-, m2, h2, rfl⟩
  · exact hp
  · have hes : ∀ i ∈ fromEnv c env, i.key ≠ o.long := by
      intro i hi hk
      unfold fromEnv at hi
      obtain ⟨⟨y, w⟩, hyw, hyi⟩ := List.mem_filterMap.1 hi
      obtain ⟨k', hk', rfl⟩ := Option.map_eq_some_iff.1 hyi
      have hk : k' = o.long := hk
      exact hx _ hyw (table_var c hc o ho y (hk ▸ lookup_mem hk'))
    have := (put_other hes h2).1
    rw [hp] at this
    cases hq : o.preset with
    | none => rw [hq] at this; rw [presets_none _ _ _ this, table_preset' c hc o ho, hq]
    | some x => rw [hq] at this; exact presets_some _ _ _ _ this

/-- Not vacuous: `scribbu popm --owner=me a` with `SCRIBBU_OWNER` and `SCRIBBU_VERBOSE` set. -/
example : (match options lenient popm [(/- SCRIBBU_OWNER -/ [83, 67, 82, 73, 66, 66, 85, 95, 79, 87, 78, 69, 82], /- you -/ [121, 111, 117]), (/- SCRIBBU_VERBOSE -/ [83, 67, 82, 73, 66, 66, 85, 95, 86, 69, 82, 66, 79, 83, 69], [])] [/- --owner=me -/ [45, 45, 111, 119, 110, 101, 114, 61, 109, 101], [97]] with
    | .ok m => decide (m /- owner -/ [111, 119, 110, 101, 114] = some (.one /- me -/ [109, 101], false) ∧ m /- verbose -/ [118, 101, 114, 98, 111, 115, 101] = some (.flag true, false) ∧ m /- dry-run -/ [100, 114, 121, 45, 114, 117, 110] = some (.flag false, true))
    | _ => false) = true := by decide +kernel

/-! ## C173: the command line can say otherwise -/

/-- C173 in full: whatever the environment makes of an option, some command line makes it the contrary. Here for switches: if there is a command line that is
accepted, then for each of on and off there is one with which the option is that. -/
def C173_claim : Prop :=
  ∀ (B : Boost), ∀ c ∈ commands, ∀ o ∈ c.opts, o.kind = .switch → ∀ (env : List (Bytes × Bytes)), (∃ words m, options B c env words = .ok m) →
    ∀ b, ∃ words m, options B c env words = .ok m ∧ (m o.long).map (·.1) = some (.flag b)

/-- **Finding** With `SCRIBBU_DRY_RUN=yes` there is no command line with which `scribbu rename` renames anything: switches can be turned on but not off. -/
theorem C173_refuted_always (B : Boost) (words : List Bytes) (m : Vars) (h : options B rename [(/- SCRIBBU_DRY_RUN -/ [83, 67, 82, 73, 66, 66, 85, 95, 68, 82, 89, 95, 82, 85, 78], /- yes -/ [121, 101, 115])] words = .ok m) :
    m /- dry-run -/ [100, 114, 121, 45, 114, 117, 110] = some (.flag true, false) := by
  obtain ⟨l, m1, hl, hm1, he, -⟩ := options_ok h
  have hk : /- dry-run -/ [100, 114, 121, 45, 114, 117, 110] ≠ ([] : Bytes) := by decide
  rcases he with ⟨h1, -⟩ | ⟨-, m2, h2, rfl⟩
  · exact absurd h1 (by decide)
  · refine presets_some _ _ _ _ ?_
    have hev : fromEnv rename [(/- SCRIBBU_DRY_RUN -/ [83, 67, 82, 73, 66, 66, 85, 95, 68, 82, 89, 95, 82, 85, 78], /- yes -/ [121, 101, 115])] = [⟨/- dry-run -/ [100, 114, 121, 45, 114, 117, 110], [/- yes -/ [121, 101, 115]], []⟩] := by decide +kernel
    rw [hev] at h2
    have hsound := run_sound (c := rename) hl
    cases hg : l.any (·.key = /- dry-run -/ [100, 114, 121, 45, 114, 117, 110]) with
    | true =>
      rw [put_fixed hg h2]
      refine presets_some _ _ _ _ ?_
      have hg' : ∃ i ∈ l, i.key = /- dry-run -/ [100, 114, 121, 45, 114, 117, 110] := by simpa [List.any_eq_true] using hg
      obtain ⟨v, hv⟩ := put_given hk (.inr ⟨rfl, hg'⟩) hm1
      have : ∀ v b, m1 /- dry-run -/ [100, 114, 121, 45, 114, 117, 110] = some (v, b) → v = .flag true := by
        refine put_switch (os := rename.all) (o := switch /- dry-run -/ [100, 114, 121, 45, 114, 117, 110] (some 110)) rfl ?_ ?_ ?_ hm1
        · decide +kernel
        · intro i hi hik
          rcases hsound i hi with hp | ⟨d, hd, hdk, hdv⟩
          · rw [hp] at hik; exact absurd hik (by decide)
          · refine hdv ?_
            have : ∀ d ∈ rename.all, d.long = /- dry-run -/ [100, 114, 121, 45, 114, 117, 110] → d.kind = .switch := by decide +kernel
            exact this d hd (hdk ▸ hik)
        · intro v b hv; exact absurd hv nofun
      rw [hv, this v false hv]
    | false =>
      have hng : ∀ i ∈ l, i.key ≠ /- dry-run -/ [100, 114, 121, 45, 114, 117, 110] := by simpa [List.any_eq_false] using hg
      have hm1k : m1 /- dry-run -/ [100, 114, 121, 45, 114, 117, 110] = none := (put_other hng hm1).1
      have hgv : (presets rename.all m1).given /- dry-run -/ [100, 114, 121, 45, 114, 117, 110] = none := by
        unfold Vars.given
        rw [presets_none _ _ _ hm1k, show presetOf rename.all /- dry-run -/ [100, 114, 121, 45, 114, 117, 110] = some (.flag false, true) by decide +kernel]
      rcases put_cons h2 with ⟨h3 | h3, -⟩ | ⟨-, -, d, v, h3, h4, h5⟩
      · exact absurd h3 (by decide)
      · exact absurd h3 (by simp only [hg]; decide)
      · cases h5
        have : find rename.opts /- dry-run -/ [100, 114, 121, 45, 114, 117, 110] false = .ok (some (switch /- dry-run -/ [100, 114, 121, 45, 114, 117, 110] (some 110))) := by decide +kernel
        have h3 : find rename.opts /- dry-run -/ [100, 114, 121, 45, 114, 117, 110] false = .ok (some d) := h3
        rw [this] at h3; cases h3
        have h4 : B.parse (switch /- dry-run -/ [100, 114, 121, 45, 114, 117, 110] (some 110)) ((presets rename.all m1).given /- dry-run -/ [100, 114, 121, 45, 114, 117, 110]) [/- yes -/ [121, 101, 115]] = .ok v := h4
        rw [hgv] at h4
        cases h4
        exact set_same _ _ _

/-- **Finding** The claim fails for `--dry-run` of `rename`. -/
theorem C173_refuted : ¬ C173_claim := by
  intro h
  have h1 : (match options lenient rename [(/- SCRIBBU_DRY_RUN -/ [83, 67, 82, 73, 66, 66, 85, 95, 68, 82, 89, 95, 82, 85, 78], /- yes -/ [121, 101, 115])] [[97]] with
    | .ok _ => true
    | _ => false) = true := by decide +kernel
  obtain ⟨w, m, hm, hf⟩ := h lenient rename (by decide +kernel) (switch /- dry-run -/ [100, 114, 121, 45, 114, 117, 110] (some 110)) (by decide +kernel) rfl [(/- SCRIBBU_DRY_RUN -/ [83, 67, 82, 73, 66, 66, 85, 95, 68, 82, 89, 95, 82, 85, 78], /- yes -/ [121, 101, 115])] (by
      cases h2 : options lenient rename [(/- SCRIBBU_DRY_RUN -/ [83, 67, 82, 73, 66, 66, 85, 95, 68, 82, 89, 95, 82, 85, 78], /- yes -/ [121, 101, 115])] [[97]] with
      | ok m => exact ⟨_, m, h2⟩
      | throw e => rw [h2] at h1; exact absurd h1 nofun
      | ub u => rw [h2] at h1; exact absurd h1 nofun) false
  have := C173_refuted_always lenient w m hm
  rw [show (switch /- dry-run -/ [100, 114, 121, 45, 114, 117, 110] (some 110)).long = /- dry-run -/ [100, 114, 121, 45, 114, 117, 110] from rfl, this] at hf
  exact absurd hf (by decide)

/-- C173 for turning on, and for options with values: whatever the environment, the command line can make the option `v` by its long name (missing: turning off). -/
theorem C173_partial (B : Boost) (c : Cmd) (hc : c ∈ commands) (o : Opt) (ho : o ∈ c.opts) (env : List (Bytes × Bytes)) (words : List Bytes) (v : Bytes)
    (m0 m : Vars) (hv : o.kind ≠ .switch → v ≠ []) (ht : Takes B o v) (h0 : options B c [] words = .ok m0) (hu : Untouched m0 o)
    (h : options B c env words = .ok m) : ∃ words' m', options B c env words' = .ok m' ∧ m' o.long = some (meant o v, false) := by
  have hne := (table_long c hc o (opts_all ho)).2.2.2
  have hhead : ∀ s r : Bytes, [[45, 45] ++ o.long ++ s].head? ≠ some (45 :: 118 :: r) := by
    intro s r e
    simp at e
  by_cases hk : o.kind = .switch
  · have hx : c = genre → ∀ r, [[45, 45] ++ o.long].head? ≠ some (45 :: 118 :: r) := fun _ r => by
      have := hhead [] r
      rwa [List.append_nil] at this
    exact ⟨_, _, C169_partial B c hc o ho env words v _ m0 m (.long hk) hx ht h0 hu h, set_same _ _ _⟩
  · have hx : c = genre → ∀ r, [[45, 45] ++ o.long ++ [61] ++ v].head? ≠ some (45 :: 118 :: r) := fun _ r => by
      have := hhead ([61] ++ v) r
      rwa [← List.append_assoc] at this
    exact ⟨_, _, C169_partial B c hc o ho env words v _ m0 m (.longIs hk (hv hk)) hx ht h0 hu h, set_same _ _ _⟩

/-- Not vacuous: `scribbu popm a` with `SCRIBBU_OWNER=you`. -/
example : Takes lenient ⟨/- owner -/ [111, 119, 110, 101, 114], some 111, .value .text, false, none⟩ /- me -/ [109, 101] ∧ (match options lenient popm [(/- SCRIBBU_OWNER -/ [83, 67, 82, 73, 66, 66, 85, 95, 79, 87, 78, 69, 82], /- you -/ [121, 111, 117])] [[97]] with
    | .ok m => decide (m /- owner -/ [111, 119, 110, 101, 114] = some (.one /- you -/ [121, 111, 117], false))
    | _ => false) = true := ⟨rfl, by decide +kernel⟩

/-! ## C174: no files -/

/-- C174 in full: a sub-command gets files to work on, or says that it has been used wrongly (`po::error`: the usage message, and the exit status for that). -/
def C174_claim : Prop :=
  ∀ (B : Boost), ∀ c ∈ commands, ∀ (env : List (Bytes × Bytes)) (words : List Bytes),
    (∃ l, (options B c env words).bind (files c) = .ok l ∧ l ≠ []) ∨ (options B c env words).bind (files c) = .throw .invalidArgument

/-- **Finding** `scribbu m3u` without files fails with a message about a bad cast inside Boost, instead of how it is to be used: the files are not `required()`, and not
looked for before they are taken. -/
theorem C174_refuted : ¬ C174_claim := by
  intro h
  have h1 : (options lenient m3u [] []).bind (files m3u) = .throw .other := by decide +kernel
  rcases h lenient m3u (by decide +kernel) [] [] with ⟨l, h2, -⟩ | h2 <;> rw [h1] at h2 <;> cases h2

/-- C174 for all but `m3u`. -/
theorem C174_partial (B : Boost) (c : Cmd) (hc : c ∈ commands) (hm : c ≠ m3u) (env : List (Bytes × Bytes)) (words : List Bytes) :
    (∃ l, (options B c env words).bind (files c) = .ok l ∧ l ≠ []) ∨ (options B c env words).bind (files c) = .throw .invalidArgument := by
  rcases options_total B c hc env words with ⟨m, h⟩ | h
  · rw [h]
    show (∃ l, files c m = .ok l ∧ l ≠ []) ∨ files c m = .throw .invalidArgument
    have hty := options_typed hc h
    obtain ⟨l, m1, -, -, -, hr⟩ := options_ok h
    cases hp : m c.positional with
    | none =>
      by_cases hg : c = genre
      · refine .inr ?_
        unfold files
        rw [hp, if_pos hg]
      · obtain ⟨p, hpm, hpl, hpr⟩ := table_required c hc hg hm
        have := hr p hpm hpr
        rw [hpl, hp] at this
        exact absurd this nofun
    | some x =>
      refine .inl ?_
      obtain ⟨v, b⟩ := x
      obtain ⟨p, hpm, hpl, hpt⟩ := hty _ _ _ hp
      have hk := table_positional c hc p hpm hpl
      unfold files
      rw [hp]
      cases v with
      | flag f => exact absurd hpt.1 (by simpa [Fits] using hk)
      | one s => exact ⟨[s], rfl, by simp⟩
      | many l => exact ⟨l, rfl, hpt.2⟩
  · rw [h]; exact .inr rfl

/-- Not vacuous: both happen. -/
example : (options lenient text [] [/- --album=x -/ [45, 45, 97, 108, 98, 117, 109, 61, 120], [97], [98]]).bind (files text) = .ok [[97], [98]] ∧
    (options lenient text [] [/- --album=x -/ [45, 45, 97, 108, 98, 117, 109, 61, 120]]).bind (files text) = .throw .invalidArgument := by decide +kernel

end Scribbu.Props
