import Verif.Spec.Options

/-! # Lemmas about options -/

namespace Scribbu.Options

open Scribbu.Spec.Options

/-! ## The tables -/

theorem table_long : ∀ c ∈ commands, ∀ o ∈ c.all, find c.all o.long true = .ok (some o) ∧ find c.all o.long false = .ok (some o) ∧ 61 ∉ o.long ∧ o.long ≠ [] := by
  decide +kernel

theorem table_opts : ∀ c ∈ commands, ∀ o ∈ c.opts, find c.opts o.long false = .ok (some o) := by decide +kernel

theorem table_short : ∀ c ∈ commands, ∀ o ∈ c.opts, ∀ b ∈ o.short.toList,
    (c = genre ∧ b = 118) ∨ (find c.all [45, b] false = .ok (some o) ∧ find c.all [45, b] true = .ok (some o) ∧ b ≠ 45) := by
  decide +kernel

theorem opts_all {c : Cmd} {o : Opt} (h : o ∈ c.opts) : o ∈ c.all := by
  unfold Cmd.all; simp [h]

/-! ## Words -/

theorem parseWord_long (os : List Opt) (name : Bytes) (h0 : name ≠ []) (h : 61 ∉ name) :
    parseWord os ([45, 45] ++ name) = .ok [⟨name, [], [[45, 45] ++ name]⟩] := by
  obtain ⟨c, r, rfl⟩ := List.exists_cons_of_ne_nil h0
  simp [parseWord, parseLong, h]

theorem takeWhile_before (a : Bytes) (v : Bytes) (h : 61 ∉ a) : (a ++ 61 :: v).takeWhile (· ≠ 61) = a := by
  induction a with
  | nil => rfl
  | cons x a ih =>
    simp only [List.mem_cons, not_or] at h
    have : (x ≠ 61) := fun e => h.1 e.symm
    simp only [List.cons_append, List.takeWhile_cons]
    simp only [ne_eq, decide_not] at ih ⊢
    rw [ih h.2]; simp [this]

theorem dropWhile_before (a : Bytes) (v : Bytes) (h : 61 ∉ a) : (a ++ 61 :: v).dropWhile (· ≠ 61) = 61 :: v := by
  induction a with
  | nil => rfl
  | cons x a ih =>
    simp only [List.mem_cons, not_or] at h
    have : (x ≠ 61) := fun e => h.1 e.symm
    simp only [List.cons_append, List.dropWhile_cons]
    simp only [ne_eq, decide_not] at ih ⊢
    rw [ih h.2]; simp [this]

theorem parseWord_longIs (os : List Opt) (name v : Bytes) (h0 : name ≠ []) (h : 61 ∉ name) (hv : v ≠ []) :
    parseWord os ([45, 45] ++ name ++ [61] ++ v) = .ok [⟨name, [v], [[45, 45] ++ name ++ [61] ++ v]⟩] := by
  obtain ⟨c, r, rfl⟩ := List.exists_cons_of_ne_nil h0
  obtain ⟨x, y, rfl⟩ := List.exists_cons_of_ne_nil hv
  have h1 := takeWhile_before (c :: r) (x :: y) h
  have h2 := dropWhile_before (c :: r) (x :: y) h
  have h3 : (61 : Byte) ∈ c :: (r ++ 61 :: x :: y) := by simp
  simp only [List.cons_append, List.nil_append, List.append_assoc] at h1 h2 ⊢
  unfold parseWord
  have : parseLong (45 :: 45 :: c :: (r ++ 61 :: x :: y)) = .ok [⟨c :: r, [x :: y], [45 :: 45 :: c :: (r ++ 61 :: x :: y)]⟩] := by
    unfold parseLong
    simp only [if_pos h3, h1, h2, List.tail_cons]
  rw [this]; rfl

theorem parseWord_plain (os : List Opt) (w : Bytes) (h : Plain w) : parseWord os w = .ok [] := by
  unfold Plain at h
  match w, h with
  | [], _ => rfl
  | b :: r, h =>
    have hb : b ≠ 45 := fun e => h (by rw [e]; rfl)
    have h1 : parseLong (b :: r) = .ok [] := by
      unfold parseLong
      split
      · next heq => exact absurd (List.cons.inj heq).1 hb
      · rfl
    have h2 : parseShort os (b :: r) = .ok [] := by
      unfold parseShort
      split
      · next heq => exact absurd (List.cons.inj heq).1 hb
      · rfl
    unfold parseWord; rw [h1]; exact h2

theorem parseWord_short (os : List Opt) (b : Byte) (r : Bytes) (hb : b ≠ 45) : parseWord os (45 :: b :: r) = letters os (45 :: b :: r) b r := by
  have h1 : parseLong (45 :: b :: r) = .ok [] := by
    unfold parseLong
    split
    · next heq => exact absurd (List.cons.inj (List.cons.inj heq).2).1 hb
    · rfl
  unfold parseWord; rw [h1]
  show parseShort os (45 :: b :: r) = _
  unfold parseShort
  exact if_neg hb

theorem plain_not_end {w : Bytes} (h : Plain w) : w ≠ [45, 45] := by
  intro e; subst e; exact h rfl

/-! ## Rounds -/

theorem finish_shorter {os : List Opt} {i j : Item} {r r' : List Bytes} (h : finish os i r = .ok (j, r')) : r'.length ≤ r.length := by
  unfold finish at h
  split at h
  · cases h; exact Nat.le_refl _
  · cases hf : find os i.key true with
    | throw e => rw [hf] at h; exact absurd h nofun
    | ub u => rw [hf] at h; exact absurd h nofun
    | ok d =>
      rw [hf] at h
      cases d with
      | none => exact absurd h nofun
      | some d =>
        simp only [Res.ok_bind] at h
        split at h
        · split at h
          · cases h; exact Nat.le_refl _
          · exact absurd h nofun
        · split at h
          · cases h; exact Nat.le_refl _
          · cases r with
            | nil => exact absurd h nofun
            | cons w r =>
              simp only at h
              cases hp : parseWord os w with
              | throw e => rw [hp] at h; exact absurd h nofun
              | ub u => rw [hp] at h; exact absurd h nofun
              | ok l =>
                rw [hp] at h
                simp only [Res.ok_bind] at h
                split at h
                · cases h; simp
                · cases hg : find os w true with
                  | throw e => rw [hg] at h; exact absurd h nofun
                  | ub u => rw [hg] at h; exact absurd h nofun
                  | ok d =>
                    rw [hg] at h
                    cases d with
                    | none => cases h; simp
                    | some d => exact absurd h nofun

theorem finishAll_shorter {os : List Opt} : ∀ {l l' : List Item} {r r' : List Bytes}, finishAll os l r = .ok (l', r') → r'.length ≤ r.length
  | [], _, _, _, h => by cases h; exact Nat.le_refl _
  | [i], _, r, _, h => by
    unfold finishAll at h
    cases hf : finish os i r with
    | throw e => rw [hf] at h; exact absurd h nofun
    | ub u => rw [hf] at h; exact absurd h nofun
    | ok p => rw [hf] at h; cases h; exact finish_shorter hf
  | i :: j :: l, _, r, _, h => by
    unfold finishAll at h
    cases hf : finish os i [] with
    | throw e => rw [hf] at h; exact absurd h nofun
    | ub u => rw [hf] at h; exact absurd h nofun
    | ok p =>
      rw [hf] at h
      simp only [Res.ok_bind] at h
      cases hg : finishAll os (j :: l) r with
      | throw e => rw [hg] at h; exact absurd h nofun
      | ub u => rw [hg] at h; exact absurd h nofun
      | ok q => rw [hg] at h; cases h; exact finishAll_shorter hg

theorem items_enough (os : List Opt) : ∀ (n n' : Nat) (ws : List Bytes), ws.length ≤ n → ws.length ≤ n' → items os n ws = items os n' ws
  | n, n', [], _, _ => by cases n <;> cases n' <;> rfl
  | 0, _, _ :: _, h, _ => absurd h (by simp)
  | _, 0, _ :: _, _, h => absurd h (by simp)
  | n + 1, n' + 1, w :: rest, h, h' => by
    have h1 : rest.length ≤ n := by simpa using h
    have h2 : rest.length ≤ n' := by simpa using h'
    unfold items
    cases hp : parseWord os w with
    | throw e => rfl
    | ub u => rfl
    | ok l =>
      simp only [Res.ok_bind]
      split
      · rw [items_enough os n n' rest h1 h2]
      · cases hf : finishAll os l rest with
        | throw e => rfl
        | ub u => rfl
        | ok p =>
          have h3 := finishAll_shorter hf
          show (items os n p.2).bind _ = (items os n' p.2).bind _
          rw [items_enough os n n' p.2 (by omega) (by omega)]

/-! ## An option in front -/

/-- The values an option comes with. -/
def valuesOf (o : Opt) (v : Bytes) : List Bytes := if o.kind = .switch then [] else [v]

theorem items_one {os : List Opt} {w : Bytes} {words : List Bytes} {i j : Item} (hp : parseWord os w = .ok [i])
    (hf : finish os i words = .ok (j, words)) :
    items os (w :: words).length (w :: words) = (items os words.length words).bind fun l => .ok (j :: l) := by
  show items os (words.length + 1) (w :: words) = _
  conv => lhs; unfold items
  rw [hp]
  simp only [Res.ok_bind, List.isEmpty_cons, Bool.false_eq_true, if_false, finishAll, hf, List.cons_append, List.nil_append]

theorem items_two {os : List Opt} {w v : Bytes} {words : List Bytes} {i j : Item} (hp : parseWord os w = .ok [i])
    (hf : finish os i (v :: words) = .ok (j, words)) :
    items os (w :: v :: words).length (w :: v :: words) = (items os words.length words).bind fun l => .ok (j :: l) := by
  show items os (words.length + 1 + 1) (w :: v :: words) = _
  conv => lhs; unfold items
  rw [hp]
  simp only [Res.ok_bind, List.isEmpty_cons, Bool.false_eq_true, if_false, finishAll, hf, List.cons_append, List.nil_append]
  rw [items_enough os (words.length + 1) words.length words (by omega) (by omega)]

theorem finish_switch {os : List Opt} {i : Item} {o : Opt} (words : List Bytes) (h0 : i.key ≠ []) (hf : find os i.key true = .ok (some o))
    (hk : o.kind = .switch) (hv : i.value = []) : finish os i words = .ok ({ i with key := o.long }, words) := by
  unfold finish
  rw [if_neg (by simpa using h0), hf]
  simp [hk, hv]

theorem finish_adjacent {os : List Opt} {i : Item} {o : Opt} {v : Bytes} (words : List Bytes) (h0 : i.key ≠ []) (hf : find os i.key true = .ok (some o))
    (hk : o.kind ≠ .switch) (hv : i.value = [v]) : finish os i words = .ok ({ i with key := o.long }, words) := by
  unfold finish
  rw [if_neg (by simpa using h0), hf]
  simp [hk, hv]

theorem finish_next {os : List Opt} {i : Item} {o : Opt} {v : Bytes} (words : List Bytes) (h0 : i.key ≠ []) (hf : find os i.key true = .ok (some o))
    (hk : o.kind ≠ .switch) (hv : i.value = []) (hp : Plain v) : finish os i (v :: words) = .ok (⟨o.long, [v], i.tokens ++ [v]⟩, words) := by
  unfold finish
  rw [if_neg (by simpa using h0), hf]
  simp [hk, hv, parseWord_plain os v hp]

theorem items_written {c : Cmd} (hc : c ∈ commands) {o : Opt} (ho : o ∈ c.opts) {v : Bytes} {f : List Bytes} (hw : Written o v f)
    (hx : c = genre → ∀ r, f.head? ≠ some (45 :: 118 :: r)) (words : List Bytes) :
    ∃ toks, items c.all (f ++ words).length (f ++ words) = (items c.all words.length words).bind fun l => .ok (⟨o.long, valuesOf o v, toks⟩ :: l) := by
  obtain ⟨hl, -, h61, hne⟩ := table_long c hc o (opts_all ho)
  have hs : ∀ b, o.short = some b → (∃ r, f.head? = some (45 :: b :: r)) →
      find c.all [45, b] false = .ok (some o) ∧ find c.all [45, b] true = .ok (some o) ∧ b ≠ 45 := by
    intro b hb ⟨r, hr⟩
    rcases table_short c hc o ho b (by rw [hb]; simp) with ⟨h1, h2⟩ | h
    · exact absurd (h2 ▸ hr) (hx h1 r)
    · exact h
  cases hw with
  | long hk =>
    refine ⟨[[45, 45] ++ o.long], ?_⟩
    rw [show valuesOf o v = [] by unfold valuesOf; rw [if_pos hk]]
    exact items_one (parseWord_long _ _ hne h61) (finish_switch words hne hl hk rfl)
  | short b hk hb =>
    obtain ⟨h1, h2, h3⟩ := hs b hb ⟨[], rfl⟩
    refine ⟨[[45, b]], ?_⟩
    rw [show valuesOf o v = [] by unfold valuesOf; rw [if_pos hk]]
    have hp : parseWord c.all [45, b] = .ok [⟨[45, b], [], [[45, b]]⟩] := by
      rw [parseWord_short _ _ _ h3]; unfold letters; rw [h1]; rfl
    exact items_one hp (finish_switch words (by simp) h2 hk rfl)
  | longIs hk hv =>
    refine ⟨[[45, 45] ++ o.long ++ [61] ++ v], ?_⟩
    rw [show valuesOf o v = [v] by unfold valuesOf; rw [if_neg hk]]
    exact items_one (parseWord_longIs _ _ _ hne h61 hv) (finish_adjacent words hne hl hk rfl)
  | longNext hk hv =>
    refine ⟨[[45, 45] ++ o.long] ++ [v], ?_⟩
    rw [show valuesOf o v = [v] by unfold valuesOf; rw [if_neg hk]]
    exact items_two (parseWord_long _ _ hne h61) (finish_next words hne hl hk rfl hv)
  | shortIs b hk hb hv =>
    obtain ⟨h1, h2, h3⟩ := hs b hb ⟨v, rfl⟩
    refine ⟨[45 :: b :: v], ?_⟩
    rw [show valuesOf o v = [v] by unfold valuesOf; rw [if_neg hk]]
    obtain ⟨x, y, rfl⟩ := List.exists_cons_of_ne_nil hv
    have hp : parseWord c.all (45 :: b :: x :: y) = .ok [⟨[45, b], [x :: y], [45 :: b :: x :: y]⟩] := by
      rw [parseWord_short _ _ _ h3]; unfold letters; rw [h1]
      simp only [Res.ok_bind, Option.map_some, Option.some.injEq, if_neg hk]
    exact items_one hp (finish_adjacent words (by simp) h2 hk rfl)
  | shortNext b hk hb hv =>
    obtain ⟨h1, h2, h3⟩ := hs b hb ⟨[], rfl⟩
    refine ⟨[[45, b]] ++ [v], ?_⟩
    rw [show valuesOf o v = [v] by unfold valuesOf; rw [if_neg hk]]
    have hp : parseWord c.all [45, b] = .ok [⟨[45, b], [], [[45, b]]⟩] := by
      rw [parseWord_short _ _ _ h3]; unfold letters; rw [h1]; rfl
    exact items_two hp (finish_next words (by simp) h2 hk rfl hv)

theorem run_written {c : Cmd} (hc : c ∈ commands) {o : Opt} (ho : o ∈ c.opts) {v : Bytes} {f : List Bytes} (hw : Written o v f)
    (hx : c = genre → ∀ r, f.head? ≠ some (45 :: 118 :: r)) {words : List Bytes} {l : List Item} (hr : run c words = .ok l) :
    ∃ toks, run c (f ++ words) = .ok (⟨o.long, valuesOf o v, toks⟩ :: l) := by
  obtain ⟨toks, ht⟩ := items_written hc ho hw hx words
  refine ⟨toks, ?_⟩
  unfold run at hr ⊢
  rw [ht]
  cases hi : items c.all words.length words with
  | throw e => rw [hi] at hr; exact absurd hr nofun
  | ub u => rw [hi] at hr; exact absurd hr nofun
  | ok l' =>
    rw [hi] at hr
    have hp : place c 0 l' = .ok l := hr
    have hne := (table_long c hc o (opts_all ho)).2.2.2
    show place c 0 (⟨o.long, valuesOf o v, toks⟩ :: l') = _
    unfold place
    rw [if_neg (by simpa using hne), hp]
    rfl

/-! ## The map -/

theorem set_same (m : Vars) (k : Bytes) (x : Val × Bool) : m.set k x k = some x := if_pos rfl

theorem set_other (m : Vars) {k k' : Bytes} (x : Val × Bool) (h : k' ≠ k) : m.set k x k' = m k' := if_neg h

theorem set_set (m : Vars) (k : Bytes) (x y : Val × Bool) : (m.set k x).set k y = m.set k y := by
  funext k'
  unfold Vars.set
  split <;> rfl

theorem set_comm (m : Vars) {j k : Bytes} (x y : Val × Bool) (h : j ≠ k) : (m.set k x).set j y = (m.set j y).set k x := by
  funext k'
  unfold Vars.set
  split
  · next h1 => subst h1; rw [if_neg h]
  · split <;> rfl

theorem preset_other {o : Opt} (m : Vars) {k : Bytes} (h : k ≠ o.long) : preset o m k = m k := by
  unfold preset
  cases m o.long <;> cases o.preset <;> first | rfl | exact set_other _ _ h

theorem preset_some {o : Opt} {m : Vars} {k : Bytes} {x : Val × Bool} (h : m k = some x) : preset o m k = some x := by
  by_cases hk : k = o.long
  · subst hk; unfold preset; rw [h]; exact h
  · rw [preset_other m hk, h]

theorem preset_none {o : Opt} {m : Vars} (h : m o.long = none) : preset o m o.long = o.preset.map fun v => (v, true) := by
  unfold preset; rw [h]
  cases o.preset
  · exact h
  · exact set_same _ _ _

theorem presets_congr (os : List Opt) : ∀ (m m' : Vars) (k : Bytes), m k = m' k → presets os m k = presets os m' k := by
  induction os with
  | nil => intro m m' k h; exact h
  | cons o os ih =>
    intro m m' k h
    unfold presets
    apply ih
    by_cases hk : k = o.long
    · subst hk
      cases hm : m o.long with
      | none => rw [preset_none hm, preset_none (h ▸ hm)]
      | some x => rw [preset_some hm, preset_some (h ▸ hm)]
    · rw [preset_other m hk, preset_other m' hk, h]

theorem presets_some (os : List Opt) : ∀ (m : Vars) (k : Bytes) (x : Val × Bool), m k = some x → presets os m k = some x := by
  induction os with
  | nil => intro m k x h; exact h
  | cons o os ih => intro m k x h; exact ih _ _ _ (preset_some h)

theorem presets_set (os : List Opt) (m : Vars) (k : Bytes) (x : Val × Bool) : presets os (m.set k x) = (presets os m).set k x := by
  funext k'
  by_cases hk : k' = k
  · subst hk
    rw [set_same]; exact presets_some _ _ _ _ (set_same _ _ _)
  · rw [set_other _ _ hk]; exact presets_congr _ _ _ _ (set_other _ _ hk)

/-- What is preset for a name. -/
def presetOf (os : List Opt) (k : Bytes) : Option (Val × Bool) := ((os.find? fun o => o.long = k ∧ o.preset.isSome).bind (·.preset)).map fun v => (v, true)

theorem presets_none (os : List Opt) : ∀ (m : Vars) (k : Bytes), m k = none → presets os m k = presetOf os k := by
  induction os with
  | nil => intro m k h; exact h
  | cons o os ih =>
    intro m k h
    unfold presets presetOf
    by_cases hk : o.long = k
    · subst hk
      have := preset_none h
      cases hp : o.preset with
      | none =>
        rw [hp] at this
        rw [ih _ _ this]; unfold presetOf
        simp [hp]
      | some v =>
        rw [hp] at this
        rw [presets_some os _ _ _ this]
        simp [hp]
    · rw [ih _ k (by rw [preset_other m (fun e => hk e.symm), h])]; unfold presetOf
      simp [hk]

theorem table_preset : ∀ c ∈ commands, ∀ o ∈ c.opts, presetOf c.all o.long = o.preset.map fun v => (v, true) := by decide +kernel

theorem table_preset' : ∀ c ∈ commands, ∀ o ∈ c.opts, presetOf c.opts o.long = o.preset.map fun v => (v, true) := by decide +kernel

/-! ## Storing -/

theorem put_cons {B : Boost} {os : List Opt} {fin : Bytes → Bool} {i : Item} {l : List Item} {m m' : Vars} (h : put B os fin (i :: l) m = .ok m') :
    ((i.key = [] ∨ fin i.key = true) ∧ put B os fin l m = .ok m') ∨
    (i.key ≠ [] ∧ fin i.key = false ∧ ∃ d v, find os i.key false = .ok (some d) ∧
      B.parse d (m.given i.key) i.value = .ok v ∧ put B os fin l (m.set i.key (v, false)) = .ok m') := by
  unfold put at h
  split at h
  · next hc =>
    refine .inl ⟨?_, h⟩
    simpa using hc
  · next hc =>
    have hc' : i.key ≠ [] ∧ fin i.key = false := by simpa using hc
    refine .inr ⟨hc'.1, hc'.2, ?_⟩
    cases hf : find os i.key false with
    | throw e => rw [hf] at h; exact absurd h nofun
    | ub u => rw [hf] at h; exact absurd h nofun
    | ok d =>
      rw [hf] at h
      cases d with
      | none => exact absurd h nofun
      | some d =>
        simp only [Res.ok_bind] at h
        generalize hg : B.parse d _ i.value = r at h
        cases r with
        | throw e => exact absurd h nofun
        | ub u => exact absurd h nofun
        | ok v => exact ⟨d, v, rfl, hg, h⟩

theorem put_go {B : Boost} {os : List Opt} {fin : Bytes → Bool} {i : Item} {l : List Item} {m : Vars} {d : Opt} {v : Val} (h0 : i.key ≠ [])
    (hn : fin i.key = false) (hf : find os i.key false = .ok (some d))
    (hp : B.parse d (m.given i.key) i.value = .ok v) :
    put B os fin (i :: l) m = put B os fin l (m.set i.key (v, false)) := by
  conv => lhs; unfold put
  rw [if_neg (by simp [h0, hn]), hf]
  simp only [Res.ok_bind]
  rw [hp]
  rfl

theorem put_skip {B : Boost} {os : List Opt} {fin : Bytes → Bool} {i : Item} {l : List Item} {m : Vars} (h : i.key = [] ∨ fin i.key = true) :
    put B os fin (i :: l) m = put B os fin l m := by
  conv => lhs; unfold put
  rw [if_pos (by simpa using h)]

/-- A name that is not among those given is left alone. -/
theorem put_other {B : Boost} {os : List Opt} {fin : Bytes → Bool} {k : Bytes} : ∀ {l : List Item} {m m' : Vars}, (∀ i ∈ l, i.key ≠ k) →
    put B os fin l m = .ok m' → m' k = m k ∧ ∀ x, put B os fin l (m.set k x) = .ok (m'.set k x)
  | [], m, m', _, h => by cases h; exact ⟨rfl, fun _ => rfl⟩
  | i :: l, m, m', hk, h => by
    have hi : i.key ≠ k := hk i (by simp)
    have hl : ∀ j ∈ l, j.key ≠ k := fun j hj => hk j (by simp [hj])
    rcases put_cons h with ⟨h1, h2⟩ | ⟨h1, h2, d, v, h3, h4, h5⟩
    · have ih := put_other hl h2
      exact ⟨ih.1, fun x => by rw [put_skip h1]; exact ih.2 x⟩
    · have ih := put_other hl h5
      refine ⟨by rw [ih.1, set_other _ _ (fun e => hi e.symm)], fun x => ?_⟩
      have : (m.set k x).given i.key = m.given i.key := by unfold Vars.given; rw [set_other _ _ hi]
      rw [put_go h1 h2 h3 (by rw [this]; exact h4), set_comm _ _ _ hi]
      exact ih.2 x

/-- A name that is given is not preset any more. -/
theorem put_given {B : Boost} {os : List Opt} {fin : Bytes → Bool} {k : Bytes} (hk : k ≠ []) : ∀ {l : List Item} {m m' : Vars},
    ((∃ v, m k = some (v, false)) ∨ (fin k = false ∧ ∃ i ∈ l, i.key = k)) → put B os fin l m = .ok m' → ∃ v, m' k = some (v, false)
  | [], m, m', hg, h => by
    cases h
    rcases hg with h | ⟨_, i, hi, _⟩
    · exact h
    · exact absurd hi (by simp)
  | i :: l, m, m', hg, h => by
    rcases put_cons h with ⟨h1, h2⟩ | ⟨h1, h2, d, v, h3, h4, h5⟩
    · refine put_given hk ?_ h2
      rcases hg with hg | ⟨hf, j, hj, hjk⟩
      · exact .inl hg
      · rcases List.mem_cons.1 hj with rfl | hj
        · rcases h1 with h1 | h1
          · exact absurd (hjk ▸ h1) hk
          · rw [hjk, hf] at h1; cases h1
        · exact .inr ⟨hf, j, hj, hjk⟩
    · refine put_given hk ?_ h5
      by_cases hik : i.key = k
      · exact .inl ⟨v, by rw [hik]; exact set_same _ _ _⟩
      · rcases hg with ⟨w, hg⟩ | ⟨hf, j, hj, hjk⟩
        · exact .inl ⟨w, by rw [set_other _ _ (fun e => hik e.symm)]; exact hg⟩
        · rcases List.mem_cons.1 hj with rfl | hj
          · exact absurd hjk hik
          · exact .inr ⟨hf, j, hj, hjk⟩

/-- With one name more among those that are final. -/
theorem put_final {B : Boost} {os : List Opt} {fin fin' : Bytes → Bool} {k : Bytes} (hf : ∀ j, fin' j = (decide (k = j) || fin j)) (x : Val × Bool) :
    ∀ {l : List Item} {m m' : Vars}, put B os fin l m = .ok m' → put B os fin' l (m.set k x) = .ok (m'.set k x)
  | [], m, m', h => by cases h; rfl
  | i :: l, m, m', h => by
    rcases put_cons h with ⟨h1, h2⟩ | ⟨h1, h2, d, v, h3, h4, h5⟩
    · rw [put_skip (h1.imp id fun e => by rw [hf, e]; simp)]
      exact put_final hf x h2
    · by_cases hik : i.key = k
      · rw [put_skip (.inr (by rw [hf, hik]; simp))]
        have := put_final hf x h5
        rw [hik, set_set] at this
        exact this
      · have e : (m.set k x).given i.key = m.given i.key := by unfold Vars.given; rw [set_other _ _ hik]
        rw [put_go h1 (by rw [hf, h2]; simpa using fun e => hik e.symm) h3 (by rw [e]; exact h4), set_comm _ _ _ hik]
        exact put_final hf x h5

/-! ## All together -/

theorem bind_ok {α β : Type} {r : Res α} {f : α → Res β} {b : β} (h : r.bind f = .ok b) : ∃ a, r = .ok a ∧ f a = .ok b := by
  cases r with
  | ok a => exact ⟨a, rfl, h⟩
  | throw e => exact absurd h nofun
  | ub u => exact absurd h nofun

/-- The parts of an outcome: what the words are taken to be, the map after the command line, and after the environment. -/
theorem options_ok {B : Boost} {c : Cmd} {env : List (Bytes × Bytes)} {words : List Bytes} {m : Vars} (h : options B c env words = .ok m) :
    ∃ l m1, run c words = .ok l ∧ put B c.all (fun _ => false) l (fun _ => none) = .ok m1 ∧
      ((c.env = [] ∧ m = presets c.all m1) ∨
       (c.env ≠ [] ∧ ∃ m2, put B c.opts (fun k => l.any (·.key = k)) (fromEnv c env) (presets c.all m1) = .ok m2 ∧ m = presets c.opts m2)) ∧
      (∀ o ∈ c.all, o.required = true → (m o.long).isSome) := by
  unfold options at h
  obtain ⟨l, hl, h⟩ := bind_ok h
  obtain ⟨m1', hs, h⟩ := bind_ok h
  obtain ⟨m1, hm1, e1⟩ := bind_ok hs
  cases e1
  obtain ⟨m2', he, h⟩ := bind_ok h
  unfold notify at h
  split at h
  · next hn =>
    cases h
    refine ⟨l, m1, hl, hm1, ?_, fun o ho hr => ?_⟩
    · split at he
      · next hc => cases he; exact .inl ⟨by simpa using hc, rfl⟩
      · next hc =>
        obtain ⟨m2, hm2, e2⟩ := bind_ok he
        cases e2
        exact .inr ⟨by simpa using hc, m2, hm2, rfl⟩
    · have := List.all_eq_true.1 hn o ho
      simpa [hr] using this
  · exact absurd h nofun

theorem options_of {B : Boost} {c : Cmd} {env : List (Bytes × Bytes)} {words : List Bytes} {m m1 : Vars} {l : List Item} (hl : run c words = .ok l)
    (hm1 : put B c.all (fun _ => false) l (fun _ => none) = .ok m1)
    (he : (c.env = [] ∧ m = presets c.all m1) ∨
       (c.env ≠ [] ∧ ∃ m2, put B c.opts (fun k => l.any (·.key = k)) (fromEnv c env) (presets c.all m1) = .ok m2 ∧ m = presets c.opts m2))
    (hr : ∀ o ∈ c.all, o.required = true → (m o.long).isSome) : options B c env words = .ok m := by
  unfold options
  rw [hl]
  simp only [Res.ok_bind, store, hm1]
  have hn : notify c.all m = .ok m := by
    unfold notify
    rw [if_pos]
    refine List.all_eq_true.2 fun o ho => ?_
    cases hq : o.required
    · rfl
    · simpa using hr o ho hq
  rcases he with ⟨h1, h2⟩ | ⟨h1, m2, h2, h3⟩
  · rw [if_pos (by simp [h1])]
    subst h2
    exact hn
  · rw [if_neg (by simpa using h1), h2]
    subst h3
    exact hn

/-- Nothing given on the command line for an option that is as preset with nothing in the environment. -/
theorem not_given {B : Boost} {c : Cmd} (hc : c ∈ commands) {o : Opt} (ho : o ∈ c.opts) {words : List Bytes} {m0 : Vars}
    (h0 : options B c [] words = .ok m0) (hu : Untouched m0 o) {l : List Item} (hl : run c words = .ok l) : ∀ i ∈ l, i.key ≠ o.long := by
  intro i hi hk
  obtain ⟨l', m1, hl', hm1, he, -⟩ := options_ok h0
  rw [hl] at hl'; cases hl'
  have hne := (table_long c hc o (opts_all ho)).2.2.2
  obtain ⟨v, hv⟩ := put_given hne (.inr ⟨rfl, i, hi, hk⟩) hm1
  have : m0 o.long = some (v, false) := by
    rcases he with ⟨-, rfl⟩ | ⟨-, m2, h2, rfl⟩
    · exact presets_some _ _ _ _ hv
    · cases h2
      exact presets_some _ _ _ _ (presets_some _ _ _ _ hv)
  unfold Untouched at hu
  rw [this] at hu
  cases hp : o.preset <;> rw [hp] at hu <;> cases hu

theorem parse_meant {B : Boost} {o : Opt} {v : Bytes} (h : Takes B o v) : B.parse o none (valuesOf o v) = .ok (meant o v) := by
  unfold Takes at h
  unfold Boost.parse meant valuesOf
  cases hk : o.kind <;> rw [hk] at h <;> simp_all [truth]

/-- A name that stands for nothing. -/
theorem put_unknown {B : Boost} {os : List Opt} {fin : Bytes → Bool} {k : Bytes} (hn : find os k false = .ok none) (hk : k ≠ []) (hf : fin k = false) :
    ∀ {l : List Item} {m m' : Vars}, (∃ i ∈ l, i.key = k) → put B os fin l m ≠ .ok m'
  | [], _, _, ⟨i, hi, _⟩, _ => absurd hi (by simp)
  | i :: l, m, m', ⟨j, hj, hjk⟩, h => by
    rcases put_cons h with ⟨h1, h2⟩ | ⟨h1, h2, d, v, h3, h4, h5⟩
    · rcases List.mem_cons.1 hj with rfl | hj
      · rw [hjk] at h1
        rcases h1 with h1 | h1
        · exact hk h1
        · rw [hf] at h1; cases h1
      · exact put_unknown hn hk hf ⟨j, hj, hjk⟩ h2
    · rcases List.mem_cons.1 hj with rfl | hj
      · rw [hjk, hn] at h3; cases h3
      · exact put_unknown hn hk hf ⟨j, hj, hjk⟩ h5

/-- A name that is final. -/
theorem put_fixed {B : Boost} {os : List Opt} {fin : Bytes → Bool} {k : Bytes} (hf : fin k = true) :
    ∀ {l : List Item} {m m' : Vars}, put B os fin l m = .ok m' → m' k = m k
  | [], _, _, h => by cases h; rfl
  | i :: l, m, m', h => by
    rcases put_cons h with ⟨h1, h2⟩ | ⟨h1, h2, d, v, h3, h4, h5⟩
    · exact put_fixed hf h2
    · rw [put_fixed hf h5, set_other]
      intro e
      rw [← e, hf] at h2; cases h2

theorem lookup_mem {l : List (Bytes × Bytes)} {x k : Bytes} (h : l.lookup x = some k) : (x, k) ∈ l := by
  induction l with
  | nil => cases h
  | cons p l ih =>
    obtain ⟨y, w⟩ := p
    rw [List.lookup_cons] at h
    split at h
    · next he =>
      have : x = y := by simpa using he
      cases h; subst this; simp
    · exact List.mem_cons_of_mem _ (ih h)

theorem parse_stands {B : Boost} {o : Opt} {v : Bytes} {val : Val} (h : Stands B o v val) : B.parse o none [v] = .ok val := by
  cases h with
  | yes hk hv =>
    have : truth v = .ok true := by exact if_pos (show v.map lower ∈ yes from hv)
    unfold Boost.parse; simp only [hk, this, Res.ok_bind]
  | no hk hv =>
    have : truth v = .ok false := by
      have disj : ∀ t ∈ no, t ∉ yes := by decide +kernel
      exact (if_neg (show v.map lower ∉ yes from disj _ hv)).trans (if_pos (show v.map lower ∈ no from hv))
    unfold Boost.parse; simp only [hk, this, Res.ok_bind]
  | value t hk hv => unfold Boost.parse; simp only [hk, hv, if_true]
  | values t hk hv => unfold Boost.parse; simp only [hk, hv, if_true]

/-! ## The tables of variables -/

/-- The variable that stands for nothing. -/
abbrev CREATE : Bytes := [83, 67, 82, 73, 66, 66, 85, 95, 67, 82, 69, 65, 84, 69]

theorem table_env_all : ∀ c ∈ commands, ∀ p ∈ c.env, p.1 ≠ CREATE →
    (∃ o ∈ c.opts, o.long = p.2 ∧ variableFor o.long = p.1) ∧ c.env.lookup p.1 = some p.2 ∧ ∀ q ∈ c.env, q.2 = p.2 → q.1 = p.1 := by
  decide +kernel

theorem table_env (c : Cmd) (hc : c ∈ commands) (x k : Bytes) (hx : (x, k) ∈ c.env) (hne : x ≠ CREATE) :
    ∃ o ∈ c.opts, o.long = k ∧ c.env.lookup x = some k ∧ ∀ y, c.env.lookup y = some k → y = x := by
  obtain ⟨⟨o, ho, hk, -⟩, hl, hi⟩ := table_env_all c hc (x, k) hx hne
  exact ⟨o, ho, hk, hl, fun y hy => hi (y, k) (lookup_mem hy) rfl⟩

theorem table_named (c : Cmd) (hc : c ∈ commands) (x k : Bytes) (hx : (x, k) ∈ c.env) (hne : x ≠ CREATE) : ∃ o ∈ c.opts, variableFor o.long = x := by
  obtain ⟨⟨o, ho, -, hv⟩, -⟩ := table_env_all c hc (x, k) hx hne
  exact ⟨o, ho, hv⟩

theorem table_var_all : ∀ c ∈ commands, ∀ o ∈ c.opts, ∀ p ∈ c.env, p.2 = o.long → p.1 = variableFor o.long := by decide +kernel

theorem table_var (c : Cmd) (hc : c ∈ commands) (o : Opt) (ho : o ∈ c.opts) (y : Bytes) (h : (y, o.long) ∈ c.env) : y = variableFor o.long :=
  table_var_all c hc o ho (y, o.long) h rfl

/-! ## What the words are taken to be -/

theorem find_mem {os : List Opt} {name : Bytes} {a : Bool} {d : Opt} (h : find os name a = .ok (some d)) : d ∈ os := by
  unfold find at h
  split at h
  · next o _ hf => cases h; exact (List.mem_filter.1 (hf ▸ List.mem_singleton.2 rfl : d ∈ os.filter _)).1
  · cases h
  · next o _ hf => cases h; exact (List.mem_filter.1 (hf ▸ List.mem_singleton.2 rfl : d ∈ os.filter _)).1
  · cases h

/-- An item is a word, or an option of the table, without a value if it is a switch. -/
def Sound (os : List Opt) (i : Item) : Prop := i.key = [] ∨ ∃ d ∈ os, i.key = d.long ∧ (d.kind = .switch → i.value = [])

theorem finish_sound {os : List Opt} {i j : Item} {r r' : List Bytes} (h : finish os i r = .ok (j, r')) : Sound os j := by
  unfold finish at h
  split at h
  · next h0 => cases h; exact .inl (by simpa using h0)
  · obtain ⟨d, hd, h⟩ := bind_ok h
    cases d with
    | none => exact absurd h nofun
    | some d =>
      have hmem := find_mem hd
      simp only at h
      split at h
      · split at h
        · next hv => cases h; exact .inr ⟨d, hmem, rfl, fun _ => by simpa using hv⟩
        · exact absurd h nofun
      · next hk =>
        split at h
        · cases h; exact .inr ⟨d, hmem, rfl, fun e => absurd e hk⟩
        · cases r with
          | nil => exact absurd h nofun
          | cons w r =>
            simp only at h
            obtain ⟨l, -, h⟩ := bind_ok h
            split at h
            · cases h; exact .inr ⟨d, hmem, rfl, fun e => absurd e hk⟩
            · obtain ⟨d', -, h⟩ := bind_ok h
              cases d' with
              | none => cases h; exact .inr ⟨d, hmem, rfl, fun e => absurd e hk⟩
              | some d' => exact absurd h nofun

theorem finishAll_sound {os : List Opt} : ∀ {l l' : List Item} {r r' : List Bytes}, finishAll os l r = .ok (l', r') → ∀ j ∈ l', Sound os j
  | [], _, _, _, h, j, hj => by cases h; exact absurd hj (by simp)
  | [i], _, r, _, h, j, hj => by
    unfold finishAll at h
    obtain ⟨p, hp, h⟩ := bind_ok h
    cases h
    rw [List.mem_singleton.1 hj]
    exact finish_sound hp
  | i :: k :: l, _, r, _, h, j, hj => by
    unfold finishAll at h
    obtain ⟨p, hp, h⟩ := bind_ok h
    obtain ⟨q, hq, h⟩ := bind_ok h
    cases h
    rcases List.mem_cons.1 hj with rfl | hj
    · exact finish_sound hp
    · exact finishAll_sound hq j hj

theorem items_sound {os : List Opt} : ∀ {n : Nat} {ws : List Bytes} {l : List Item}, items os n ws = .ok l → ∀ j ∈ l, Sound os j
  | n, [], l, h, j, hj => by
    have : l = [] := by cases n <;> cases h <;> rfl
    subst this; exact absurd hj (by simp)
  | 0, _ :: _, _, h, _, _ => absurd h nofun
  | n + 1, w :: rest, l, h, j, hj => by
    unfold items at h
    obtain ⟨p, -, h⟩ := bind_ok h
    split at h
    · split at h
      · cases h
        obtain ⟨w', -, rfl⟩ := List.mem_map.1 hj
        exact .inl rfl
      · obtain ⟨q, hq, h⟩ := bind_ok h
        cases h
        rcases List.mem_cons.1 hj with rfl | hj
        · exact .inl rfl
        · exact items_sound hq j hj
    · obtain ⟨q, hq, h⟩ := bind_ok h
      obtain ⟨r, hr, h⟩ := bind_ok h
      cases h
      rcases List.mem_append.1 hj with hj | hj
      · exact finishAll_sound hq j hj
      · exact items_sound hr j hj

theorem place_sound {c : Cmd} : ∀ {n : Nat} {l l' : List Item}, place c n l = .ok l' → (∀ j ∈ l, Sound c.all j) →
    ∀ j ∈ l', j.key = c.positional ∨ ∃ d ∈ c.all, j.key = d.long ∧ (d.kind = .switch → j.value = [])
  | _, [], _, h, _, j, hj => by cases h; exact absurd hj (by simp)
  | n, i :: l, _, h, hs, j, hj => by
    unfold place at h
    split at h
    · split at h
      · obtain ⟨q, hq, h⟩ := bind_ok h
        cases h
        rcases List.mem_cons.1 hj with rfl | hj
        · exact .inl rfl
        · exact place_sound hq (fun k hk => hs k (by simp [hk])) j hj
      · exact absurd h nofun
    · next h0 =>
      obtain ⟨q, hq, h⟩ := bind_ok h
      cases h
      rcases List.mem_cons.1 hj with rfl | hj
      · rcases hs j (by simp) with h1 | h1
        · exact absurd h1 (by simpa using h0)
        · exact .inr h1
      · exact place_sound hq (fun k hk => hs k (by simp [hk])) j hj

theorem run_sound {c : Cmd} {words : List Bytes} {l : List Item} (h : run c words = .ok l) :
    ∀ j ∈ l, j.key = c.positional ∨ ∃ d ∈ c.all, j.key = d.long ∧ (d.kind = .switch → j.value = []) := by
  unfold run at h
  obtain ⟨q, hq, h⟩ := bind_ok h
  exact place_sound h (items_sound hq)

/-- Switches on the command line turn on. -/
theorem put_switch {B : Boost} {os : List Opt} {fin : Bytes → Bool} {o : Opt} (hk : o.kind = .switch) (hf : find os o.long false = .ok (some o)) :
    ∀ {l : List Item} {m m' : Vars}, (∀ i ∈ l, i.key = o.long → i.value = []) → (∀ v b, m o.long = some (v, b) → v = .flag true) →
    put B os fin l m = .ok m' → ∀ v b, m' o.long = some (v, b) → v = .flag true
  | [], _, _, _, hm, h => by cases h; exact hm
  | i :: l, m, m', hl, hm, h => by
    rcases put_cons h with ⟨h1, h2⟩ | ⟨h1, h2, d, v, h3, h4, h5⟩
    · exact put_switch hk hf (fun j hj => hl j (by simp [hj])) hm h2
    · refine put_switch hk hf (fun j hj => hl j (by simp [hj])) ?_ h5
      intro v' b' hv
      by_cases hik : i.key = o.long
      · rw [hik, set_same] at hv
        cases hv
        rw [hik, hf] at h3; cases h3
        rw [hl i (by simp) hik] at h4
        unfold Boost.parse at h4
        rw [hk] at h4
        generalize m.given i.key = g at h4
        cases g with
        | none => cases h4; rfl
        | some g => exact absurd h4 nofun
      · rw [set_other _ _ (fun e => hik e.symm)] at hv
        exact hm _ _ hv

/-! ## Outcomes -/

/-- The call returned, or threw an error of Boost.Program_options. -/
def Fine {α : Type} (r : Res α) : Prop := (∃ a, r = .ok a) ∨ r = .throw .invalidArgument

theorem fine_ok {α : Type} (a : α) : Fine (.ok a) := .inl ⟨a, rfl⟩

theorem fine_throw {α : Type} : Fine (.throw .invalidArgument : Res α) := .inr rfl

theorem fine_bind {α β : Type} {r : Res α} {f : α → Res β} (h : Fine r) (hf : ∀ a, r = .ok a → Fine (f a)) : Fine (r.bind f) := by
  rcases h with ⟨a, rfl⟩ | rfl
  · exact hf a rfl
  · exact fine_throw

theorem fine_ite {α : Type} {p : Prop} [Decidable p] {a b : Res α} (h1 : Fine a) (h2 : Fine b) : Fine (if p then a else b) := by
  split <;> assumption

theorem find_fine (os : List Opt) (name : Bytes) (a : Bool) : Fine (find os name a) := by
  unfold find
  split
  · exact fine_ok _
  · exact fine_ok _
  · exact fine_ok _
  · exact fine_throw

theorem parseLong_fine (w : Bytes) : Fine (parseLong w) := by
  unfold parseLong
  split
  · simp only
    split
    · split
      · exact fine_throw
      · exact fine_ok _
    · exact fine_ok _
  · exact fine_ok _

theorem letters_fine (os : List Opt) (w : Bytes) : ∀ (b : Byte) (r : Bytes), Fine (letters os w b r)
  | b, [] => by
    unfold letters
    exact fine_bind (find_fine _ _ _) fun _ _ => fine_ok _
  | b, a :: r => by
    unfold letters
    refine fine_bind (find_fine _ _ _) fun d _ => fine_ite ?_ (fine_ok _)
    exact fine_bind (letters_fine os w a r) fun _ _ => fine_ok _

theorem parseWord_fine (os : List Opt) (w : Bytes) : Fine (parseWord os w) := by
  unfold parseWord
  refine fine_bind (parseLong_fine w) fun l _ => fine_ite ?_ (fine_ok _)
  unfold parseShort
  split
  · exact fine_ite (fine_ok _) (letters_fine _ _ _ _)
  · exact fine_ok _

theorem finish_fine (os : List Opt) (i : Item) (r : List Bytes) : Fine (finish os i r) := by
  unfold finish
  refine fine_ite (fine_ok _) (fine_bind (find_fine _ _ _) fun d _ => ?_)
  cases d with
  | none => exact fine_throw
  | some d =>
    refine fine_ite (fine_ite (fine_ok _) fine_throw) (fine_ite (fine_ok _) ?_)
    cases r with
    | nil => exact fine_throw
    | cons w r =>
      refine fine_bind (parseWord_fine _ _) fun l _ => fine_ite (fine_ok _) (fine_bind (find_fine _ _ _) fun d _ => ?_)
      cases d
      · exact fine_ok _
      · exact fine_throw

theorem finishAll_fine (os : List Opt) : ∀ (l : List Item) (r : List Bytes), Fine (finishAll os l r)
  | [], _ => fine_ok _
  | [_], _ => fine_bind (finish_fine _ _ _) fun _ _ => fine_ok _
  | _ :: j :: l, r => fine_bind (finish_fine _ _ _) fun _ _ => fine_bind (finishAll_fine os (j :: l) r) fun _ _ => fine_ok _

theorem items_fine (os : List Opt) : ∀ (n : Nat) (ws : List Bytes), ws.length ≤ n → Fine (items os n ws)
  | n, [], _ => by cases n <;> exact fine_ok _
  | 0, _ :: _, h => absurd h (by simp)
  | n + 1, w :: rest, h => by
    have h1 : rest.length ≤ n := by simpa using h
    unfold items
    refine fine_bind (parseWord_fine _ _) fun l _ => fine_ite (fine_ite (fine_ok _) ?_) ?_
    · exact fine_bind (items_fine os n rest h1) fun _ _ => fine_ok _
    · refine fine_bind (finishAll_fine _ _ _) fun p hp => ?_
      have := finishAll_shorter (l' := p.1) (r' := p.2) hp
      exact fine_bind (items_fine os n p.2 (by omega)) fun _ _ => fine_ok _

theorem place_fine (c : Cmd) : ∀ (n : Nat) (l : List Item), Fine (place c n l)
  | _, [] => fine_ok _
  | n, i :: l => by
    unfold place
    exact fine_ite (fine_ite (fine_bind (place_fine c _ l) fun _ _ => fine_ok _) fine_throw) (fine_bind (place_fine c _ l) fun _ _ => fine_ok _)

theorem truth_fine (s : Bytes) : Fine (truth s) := fine_ite (fine_ok _) (fine_ite (fine_ok _) fine_throw)

theorem parse_fine (B : Boost) (o : Opt) (old : Option Val) (g : List Bytes) : Fine (B.parse o old g) := by
  unfold Boost.parse
  split
  · exact fine_bind (truth_fine _) fun _ _ => fine_ok _
  · exact fine_bind (truth_fine _) fun _ _ => fine_ok _
  · exact fine_ite (fine_ok _) fine_throw
  · exact fine_ite (fine_ok _) fine_throw
  · exact fine_ite (fine_ok _) fine_throw
  · exact fine_throw

theorem put_fine (B : Boost) (os : List Opt) (fin : Bytes → Bool) : ∀ (l : List Item) (m : Vars), Fine (put B os fin l m)
  | [], _ => fine_ok _
  | i :: l, m => by
    unfold put
    refine fine_ite (put_fine B os fin l m) (fine_bind (find_fine _ _ _) fun d _ => ?_)
    cases d with
    | none => exact fine_throw
    | some d => exact fine_bind (parse_fine _ _ _ _) fun v _ => put_fine B os fin l _

theorem options_total (B : Boost) (c : Cmd) (_ : c ∈ commands) (env : List (Bytes × Bytes)) (words : List Bytes) : Fine (options B c env words) := by
  unfold options run store notify
  refine fine_bind (fine_bind (items_fine _ _ _ (Nat.le_refl _)) fun _ _ => place_fine _ _ _) fun l _ => ?_
  refine fine_bind (fine_bind (put_fine _ _ _ _ _) fun _ _ => fine_ok _) fun m _ => ?_
  refine fine_bind (fine_ite (fine_ok _) (fine_bind (put_fine _ _ _ _ _) fun _ _ => fine_ok _)) fun m _ => ?_
  exact fine_ite (fine_ok _) fine_throw

/-! ## Types -/

/-- A value of the kind of the option. -/
def Fits (o : Opt) : Val → Prop
  | .flag _ => o.kind = .switch ∧ True
  | .one _ => (∃ t, o.kind = .value t) ∧ True
  | .many l => (∃ t, o.kind = .values t) ∧ l ≠ []

/-- All values are of the kinds of their options. -/
def Typed (os : List Opt) (m : Vars) : Prop := ∀ k v b, m k = some (v, b) → ∃ o ∈ os, o.long = k ∧ Fits o v

theorem parse_fits {B : Boost} {o : Opt} {old : Option Val} {g : List Bytes} {v : Val} (h : B.parse o old g = .ok v) : Fits o v := by
  unfold Boost.parse at h
  split at h
  · next hk => obtain ⟨b, -, h⟩ := bind_ok h; cases h; exact ⟨hk, trivial⟩
  · next hk => obtain ⟨b, -, h⟩ := bind_ok h; cases h; exact ⟨hk, trivial⟩
  · next hk =>
    split at h
    · cases h; exact ⟨⟨_, hk⟩, trivial⟩
    · exact absurd h nofun
  · next hk =>
    split at h
    · cases h; exact ⟨⟨_, hk⟩, by simp⟩
    · exact absurd h nofun
  · next hk =>
    split at h
    · cases h; exact ⟨⟨_, hk⟩, by simp⟩
    · exact absurd h nofun
  · exact absurd h nofun

theorem put_typed {B : Boost} {os os' : List Opt} {fin : Bytes → Bool} (hs : ∀ o ∈ os', o ∈ os) :
    ∀ {l : List Item} {m m' : Vars}, (∀ i ∈ l, ∀ d, find os' i.key false = .ok (some d) → d.long = i.key) → Typed os m → put B os' fin l m = .ok m' → Typed os m'
  | [], _, _, _, hm, h => by cases h; exact hm
  | i :: l, m, m', hl, hm, h => by
    rcases put_cons h with ⟨h1, h2⟩ | ⟨h1, h2, d, v, h3, h4, h5⟩
    · exact put_typed hs (fun j hj => hl j (by simp [hj])) hm h2
    · refine put_typed hs (fun j hj => hl j (by simp [hj])) ?_ h5
      intro k v' b' hv
      by_cases hik : k = i.key
      · rw [hik, set_same] at hv
        cases hv
        exact ⟨d, hs d (find_mem h3), by rw [hik]; exact hl i (by simp) d h3, parse_fits h4⟩
      · rw [set_other _ _ hik] at hv
        exact hm _ _ _ hv

theorem presets_typed {os : List Opt} : ∀ (os' : List Opt) (m : Vars), (∀ o ∈ os', o ∈ os) → (∀ o ∈ os', ∀ v, o.preset = some v → Fits o v) → Typed os m →
    Typed os (presets os' m)
  | [], _, _, _, hm => hm
  | o :: os', m, hs, hp, hm => by
    refine presets_typed os' _ (fun p h => hs p (by simp [h])) (fun p h => hp p (by simp [h])) ?_
    intro k v b hv
    unfold preset at hv
    cases h1 : m o.long with
    | some x => rw [h1] at hv; exact hm _ _ _ hv
    | none =>
      cases h2 : o.preset with
      | none => rw [h1, h2] at hv; exact hm _ _ _ hv
      | some w =>
        rw [h1, h2] at hv
        have hv : m.set o.long (w, true) k = some (v, b) := hv
        by_cases hk : k = o.long
        · rw [hk, set_same] at hv
          cases hv
          exact ⟨o, hs o (by simp), hk.symm, hp o (by simp) _ h2⟩
        · rw [set_other _ _ hk] at hv
          exact hm _ _ _ hv

theorem table_preset_fits : ∀ c ∈ commands, ∀ o ∈ c.all, ∀ v, o.preset = some v → Fits o v := by
  have h : ∀ c ∈ commands, ∀ o ∈ c.all, (match o.preset, o.kind with
      | none, _ => true
      | some (.flag _), .switch => true
      | some (.one _), .value _ => true
      | _, _ => false) = true := by decide +kernel
  intro c hc o ho v hv
  have := h c hc o ho
  rw [hv] at this
  cases v with
  | flag b =>
    cases hk : o.kind with
    | switch => exact ⟨hk, trivial⟩
    | value t => rw [hk] at this; exact absurd this nofun
    | values t => rw [hk] at this; exact absurd this nofun
  | one s =>
    cases hk : o.kind with
    | switch => rw [hk] at this; exact absurd this nofun
    | value t => exact ⟨⟨t, hk⟩, trivial⟩
    | values t => rw [hk] at this; exact absurd this nofun
  | many l => cases hk : o.kind <;> rw [hk] at this <;> exact absurd this nofun

/-- No name of an option, of a file, or of a variable is the letter of another. -/
theorem table_keys : ∀ c ∈ commands, (∀ k ∈ c.positional :: c.all.map (·.long), ∀ o ∈ c.all, o.fits k false = .full → o.long = k) ∧
    ∀ p ∈ c.env, ∀ o ∈ c.all, o.fits p.2 false = .full → o.long = p.2 := by decide +kernel

theorem find_full {os : List Opt} {name : Bytes} {d : Opt} (h : find os name false = .ok (some d)) : d.fits name false = .full := by
  have hn : os.filter (fun o => o.fits name false = .near) = [] := by
    refine List.filter_eq_nil_iff.2 fun o _ => ?_
    unfold Opt.fits
    split <;> simp
  unfold find at h
  rw [hn] at h
  split at h
  · next o _ hf => cases h; exact of_decide_eq_true (List.mem_filter.1 (hf ▸ List.mem_singleton.2 rfl : d ∈ os.filter _)).2
  · cases h
  · next hf => cases hf
  · cases h

theorem options_typed {B : Boost} {c : Cmd} (hc : c ∈ commands) {env : List (Bytes × Bytes)} {words : List Bytes} {m : Vars} (h : options B c env words = .ok m) :
    Typed c.all m := by
  obtain ⟨l, m1, hl, hm1, he, -⟩ := options_ok h
  have hkeys := table_keys c hc
  have hin : ∀ o ∈ c.opts, o ∈ c.all := fun o ho => opts_all ho
  have h0 : Typed c.all fun _ => none := fun _ _ _ h => absurd h nofun
  have h1 : Typed c.all (presets c.all m1) := by
    refine presets_typed _ _ (fun _ h => h) (table_preset_fits c hc) (put_typed (fun _ h => h) ?_ h0 hm1)
    intro i hi d hd
    refine hkeys.1 i.key ?_ d (find_mem hd) (find_full hd)
    rcases run_sound hl i hi with h | ⟨p, hp, hk, -⟩
    · rw [h]; simp
    · rw [hk]; exact List.mem_cons_of_mem _ (List.mem_map.2 ⟨p, hp, rfl⟩)
  rcases he with ⟨-, rfl⟩ | ⟨-, m2, h2, rfl⟩
  · exact h1
  · refine presets_typed _ _ hin (fun o ho => table_preset_fits c hc o (hin o ho)) (put_typed hin ?_ h1 h2)
    intro i hi d hd
    unfold fromEnv at hi
    obtain ⟨⟨y, w⟩, hyw, hyi⟩ := List.mem_filterMap.1 hi
    obtain ⟨k', hk', rfl⟩ := Option.map_eq_some_iff.1 hyi
    exact hkeys.2 _ (lookup_mem hk') d (hin d (find_mem hd)) (find_full hd)

theorem table_required : ∀ c ∈ commands, c ≠ genre → c ≠ m3u → ∃ p ∈ c.all, p.long = c.positional ∧ p.required = true := by decide +kernel

theorem table_positional : ∀ c ∈ commands, ∀ p ∈ c.all, p.long = c.positional → p.kind ≠ .switch := by decide +kernel

theorem fromEnv_some {c : Cmd} {x k : Bytes} (h : c.env.lookup x = some k) (v : Bytes) (env : List (Bytes × Bytes)) :
    fromEnv c ((x, v) :: env) = ⟨k, [v], []⟩ :: fromEnv c env := by
  unfold fromEnv; simp [h]

theorem fromEnv_none {c : Cmd} {x : Bytes} (h : c.env.lookup x = none) (v : Bytes) (env : List (Bytes × Bytes)) : fromEnv c ((x, v) :: env) = fromEnv c env := by
  unfold fromEnv; simp [h]

end Scribbu.Options
