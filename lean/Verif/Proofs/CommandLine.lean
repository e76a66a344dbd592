import Verif.Spec.CommandLine
import Verif.Proofs.Options

/-! Lemmas for C182 to C184. -/

namespace Scribbu.Options
open Scribbu.Spec.Options

/-! ## Names -/

theorem table_nodup : ∀ c ∈ commands, c.all.Nodup := by decide +kernel
theorem table_dash : ∀ c ∈ commands, ∀ o ∈ c.all, o.long.head? ≠ some 45 := by decide +kernel
theorem table_inj : ∀ c ∈ commands, ∀ o ∈ c.all, ∀ p ∈ c.all, o.long = p.long → o = p := by decide +kernel

theorem filter_only {os : List Opt} {o : Opt} (hn : os.Nodup) (ho : o ∈ os) (P : Opt → Bool) (h : ∀ p ∈ os, P p = true ↔ p = o) : os.filter P = [o] := by
  induction os with
  | nil => simp at ho
  | cons q os ih =>
    obtain ⟨hq, hn⟩ := List.nodup_cons.1 hn
    by_cases hqo : q = o
    · subst hqo
      rw [List.filter_cons_of_pos ((h q (by simp)).2 rfl)]
      congr 1
      rw [List.filter_eq_nil_iff]
      intro p hp hP
      have := (h p (by simp [hp])).1 hP
      subst this
      exact hq hp
    · rw [List.filter_cons_of_neg (fun hP => hqo ((h q (by simp)).1 hP))]
      refine ih hn ?_ fun p hp => h p (by simp [hp])
      simpa [Ne.symm hqo] using ho

theorem name_find {c : Cmd} (hc : c ∈ commands) {o : Opt} (ho : o ∈ c.opts) {n : Bytes} (hn : Name c o n) :
    find c.all n true = .ok (some o) ∧ n ≠ [] ∧ 61 ∉ n := by
  obtain ⟨h1, -, h2, h3⟩ := table_long c hc o (opts_all ho)
  by_cases e : n = o.long
  · subst e; exact ⟨h1, h3, h2⟩
  · rcases hn with hn | ⟨h4, h5, h6⟩
    · exact absurd hn e
    refine ⟨?_, h4, fun h => h2 (h5.subset h)⟩
    have hnd : ∀ b, n ≠ [45, b] := by
      rintro b rfl
      obtain ⟨t, ht⟩ := h5
      exact table_dash c hc o (opts_all ho) (by rw [← ht]; rfl)
    have hnl : ∀ p ∈ c.all, p.long ≠ n := by
      intro p hp hpn
      have := h6 p hp (by rw [hpn]; exact List.prefix_refl _)
      subst this
      exact e hpn.symm
    have hnf : ∀ p ∈ c.all, ¬ (p.long = n ∨ p.short.map (fun b => [45, b]) = some n) := by
      rintro p hp (h | h)
      · exact hnl p hp h
      · cases hs : p.short with
        | none => rw [hs] at h; cases h
        | some b => rw [hs] at h; exact hnd b (by simpa using h.symm)
    have hfull : c.all.filter (fun p => p.fits n true = .full) = [] := by
      rw [List.filter_eq_nil_iff]
      intro p hp h
      have h := of_decide_eq_true h
      unfold Opt.fits at h
      rw [if_neg (hnf p hp)] at h
      split at h <;> cases h
    have hnear : c.all.filter (fun p => p.fits n true = .near) = [o] := by
      refine filter_only (table_nodup c hc) (opts_all ho) _ fun p hp => ?_
      unfold Opt.fits
      rw [if_neg (hnf p hp)]
      constructor
      · intro h
        by_cases hpre : n.isPrefixOf p.long = true
        · exact h6 p hp (List.isPrefixOf_iff_prefix.1 hpre)
        · rw [if_neg (by simpa using hpre)] at h; cases of_decide_eq_true h
      · rintro rfl
        rw [if_pos (by simpa using h5)]; rfl
    unfold find
    rw [hfull, hnear]

/-! ## Items -/

/-- What matters of an item. -/
def kv (i : Item) : Bytes × List Bytes := (i.key, i.value)

theorem items_named {c : Cmd} (hc : c ∈ commands) {o : Opt} (ho : o ∈ c.opts) {n v : Bytes} {f : List Bytes} (hn : Name c o n)
    (hw : Written { o with long := n } v f) (hx : c = genre → ∀ r, f.head? ≠ some (45 :: 118 :: r)) (words : List Bytes) :
    ∃ toks, items c.all (f ++ words).length (f ++ words) = (items c.all words.length words).bind fun l => .ok (⟨o.long, valuesOf o v, toks⟩ :: l) := by
  obtain ⟨hl, hne, h61⟩ := name_find hc ho hn
  have hs : ∀ b, o.short = some b → (∃ r, f.head? = some (45 :: b :: r)) →
      find c.all [45, b] false = .ok (some o) ∧ find c.all [45, b] true = .ok (some o) ∧ b ≠ 45 := by
    intro b hb ⟨r, hr⟩
    rcases table_short c hc o ho b (by rw [hb]; simp) with ⟨h1, h2⟩ | h
    · exact absurd (h2 ▸ hr) (hx h1 r)
    · exact h
  cases hw with
  | long hk =>
    replace hk : o.kind = .switch := hk
    refine ⟨[[45, 45] ++ n], ?_⟩
    rw [show valuesOf o v = [] by unfold valuesOf; rw [if_pos hk]]
    exact items_one (parseWord_long _ _ hne h61) (finish_switch words hne hl hk rfl)
  | short b hk hb =>
    replace hk : o.kind = .switch := hk
    obtain ⟨h1, h2, h3⟩ := hs b hb ⟨[], rfl⟩
    refine ⟨[[45, b]], ?_⟩
    rw [show valuesOf o v = [] by unfold valuesOf; rw [if_pos hk]]
    have hp : parseWord c.all [45, b] = .ok [⟨[45, b], [], [[45, b]]⟩] := by
      rw [parseWord_short _ _ _ h3]; unfold letters; rw [h1]; rfl
    exact items_one hp (finish_switch words (by simp) h2 hk rfl)
  | longIs hk hv =>
    replace hk : o.kind ≠ .switch := hk
    refine ⟨[[45, 45] ++ n ++ [61] ++ v], ?_⟩
    rw [show valuesOf o v = [v] by unfold valuesOf; rw [if_neg hk]]
    exact items_one (parseWord_longIs _ _ _ hne h61 hv) (finish_adjacent words hne hl hk rfl)
  | longNext hk hv =>
    replace hk : o.kind ≠ .switch := hk
    refine ⟨[[45, 45] ++ n] ++ [v], ?_⟩
    rw [show valuesOf o v = [v] by unfold valuesOf; rw [if_neg hk]]
    exact items_two (parseWord_long _ _ hne h61) (finish_next words hne hl hk rfl hv)
  | shortIs b hk hb hv =>
    replace hk : o.kind ≠ .switch := hk
    obtain ⟨h1, h2, h3⟩ := hs b hb ⟨v, rfl⟩
    refine ⟨[45 :: b :: v], ?_⟩
    rw [show valuesOf o v = [v] by unfold valuesOf; rw [if_neg hk]]
    obtain ⟨x, y, rfl⟩ := List.exists_cons_of_ne_nil hv
    have hp : parseWord c.all (45 :: b :: x :: y) = .ok [⟨[45, b], [x :: y], [45 :: b :: x :: y]⟩] := by
      rw [parseWord_short _ _ _ h3]; unfold letters; rw [h1]
      simp only [Res.ok_bind, Option.map_some, Option.some.injEq, if_neg hk]
    exact items_one hp (finish_adjacent words (by simp) h2 hk rfl)
  | shortNext b hk hb hv =>
    replace hk : o.kind ≠ .switch := hk
    obtain ⟨h1, h2, h3⟩ := hs b hb ⟨[], rfl⟩
    refine ⟨[[45, b]] ++ [v], ?_⟩
    rw [show valuesOf o v = [v] by unfold valuesOf; rw [if_neg hk]]
    have hp : parseWord c.all [45, b] = .ok [⟨[45, b], [], [[45, b]]⟩] := by
      rw [parseWord_short _ _ _ h3]; unfold letters; rw [h1]; rfl
    exact items_two hp (finish_next words (by simp) h2 hk rfl hv)

/-- `-v` of `genre` is ambiguous. -/
theorem genre_v_word (r : Bytes) : parseWord genre.all (45 :: 118 :: r) = .throw .invalidArgument := by
  rw [parseWord_short _ _ _ (by decide)]
  have h : find genre.all [45, 118] false = .throw .invalidArgument := by decide +kernel
  cases r <;> unfold letters <;> rw [h] <;> rfl

theorem items_bad {os : List Opt} {w : Bytes} (ws : List Bytes) (h : parseWord os w = .throw .invalidArgument) :
    items os (w :: ws).length (w :: ws) = .throw .invalidArgument := by
  show items os (ws.length + 1) (w :: ws) = _
  unfold items; rw [h]; rfl

/-- The same, up to the words items are from. -/
def Alike (x y : Res (List Item)) : Prop :=
  match x, y with
  | .ok l, .ok l' => l.map kv = l'.map kv
  | .throw e, .throw e' => e = e'
  | .ub u, .ub u' => u = u'
  | _, _ => False

theorem letters_alike (os : List Opt) (w w' : Bytes) : ∀ (r : Bytes) (b : Byte), Alike (letters os w b r) (letters os w' b r)
  | [], b => by
    unfold letters
    cases find os [45, b] false <;> simp [Alike, Res.bind, kv]
  | a :: r, b => by
    unfold letters
    cases find os [45, b] false with
    | throw e => simp [Alike, Res.bind]
    | ub u => simp [Alike, Res.bind]
    | ok d =>
      simp only [Res.ok_bind]
      split
      · have ih := letters_alike os w w' r a
        cases h1 : letters os w a r <;> cases h2 : letters os w' a r <;> rw [h1, h2] at ih <;> simp_all [Alike, Res.bind, kv]
      · simp [Alike, kv]

/-- The same, up to the words items are from. -/
def Alike2 (x y : Res (List Item × List Bytes)) : Prop :=
  match x, y with
  | .ok l, .ok l' => l.1.map kv = l'.1.map kv ∧ l.2 = l'.2
  | .throw e, .throw e' => e = e'
  | .ub u, .ub u' => u = u'
  | _, _ => False

/-- The same, up to the words items are from. -/
def Alike1 (x y : Res (Item × List Bytes)) : Prop :=
  match x, y with
  | .ok l, .ok l' => kv l.1 = kv l'.1 ∧ l.2 = l'.2
  | .throw e, .throw e' => e = e'
  | .ub u, .ub u' => u = u'
  | _, _ => False

theorem Alike1.refl (x : Res (Item × List Bytes)) : Alike1 x x := by cases x <;> simp [Alike1]

theorem finish_alike (os : List Opt) {i j : Item} (h : kv i = kv j) (rest : List Bytes) : Alike1 (finish os i rest) (finish os j rest) := by
  obtain ⟨k, v, t⟩ := i
  obtain ⟨k', v', t'⟩ := j
  simp only [kv, Prod.mk.injEq] at h
  obtain ⟨rfl, rfl⟩ := h
  unfold finish
  split
  · simp [Alike1, kv]
  · cases find os k true with
    | throw e => simp [Alike1, Res.bind]
    | ub u => simp [Alike1, Res.bind]
    | ok d =>
      cases d with
      | none => simp [Alike1, Res.bind]
      | some d =>
        simp only [Res.ok_bind]
        split
        · split <;> simp [Alike1, kv]
        · split
          · simp [Alike1, kv]
          · cases rest with
            | nil => simp [Alike1]
            | cons w rest =>
              simp only
              cases parseWord os w with
              | throw e => simp [Alike1, Res.bind]
              | ub u => simp [Alike1, Res.bind]
              | ok l =>
                simp only [Res.ok_bind]
                split
                · simp [Alike1, kv]
                · cases find os w true with
                  | throw e => simp [Alike1, Res.bind]
                  | ub u => simp [Alike1, Res.bind]
                  | ok d => cases d <;> simp [Alike1, Res.bind, kv]

theorem finishAll_more (os : List Opt) (i j : Item) (l : List Item) (rest : List Bytes) : finishAll os (i :: j :: l) rest =
    (finish os i []).bind fun x => (finishAll os (j :: l) rest).bind fun y => .ok (x.1 :: y.1, y.2) := by
  conv => lhs; unfold finishAll

theorem finishAll_alike (os : List Opt) : ∀ {l l' : List Item} (_ : l.map kv = l'.map kv) (rest : List Bytes), Alike2 (finishAll os l rest) (finishAll os l' rest)
  | [], [], _, rest => by simp [finishAll, Alike2]
  | [], _ :: _, h, _ => by simp at h
  | _ :: _, [], h, _ => by simp at h
  | [i], [j], h, rest => by
    have := finish_alike os (i := i) (j := j) (by simpa using h) rest
    unfold finishAll
    cases h1 : finish os i rest <;> cases h2 : finish os j rest <;> rw [h1, h2] at this <;> simp_all [Alike1, Alike2, Res.bind]
  | [_], _ :: _ :: _, h, _ => by simp at h
  | _ :: _ :: _, [_], h, _ => by simp at h
  | i :: i2 :: l, j :: j2 :: l', h, rest => by
    simp only [List.map_cons, List.cons.injEq] at h
    have h1 := finish_alike os h.1 []
    have h2 := finishAll_alike os (l := i2 :: l) (l' := j2 :: l') (by simp [h.2.1, h.2.2]) rest
    rw [finishAll_more, finishAll_more]
    revert h1 h2
    generalize finish os i [] = x
    generalize finish os j [] = x'
    generalize finishAll os (i2 :: l) rest = y
    generalize finishAll os (j2 :: l') rest = y'
    intro h1 h2
    cases x <;> cases x' <;> try simp_all [Alike1, Alike2, Res.bind]
    cases y <;> cases y' <;> simp_all

/-- What is left of one word. -/
theorem items_cons (os : List Opt) (w : Bytes) (ws : List Bytes) : items os (w :: ws).length (w :: ws) =
    (parseWord os w).bind fun l =>
    if l.isEmpty then
      if w = [45, 45] then .ok (ws.map word)
      else (items os ws.length ws).bind fun l => .ok (word w :: l)
    else (finishAll os l ws).bind fun (l, rest) => (items os rest.length rest).bind fun l' => .ok (l ++ l') := by
  show items os (ws.length + 1) (w :: ws) = _
  conv => lhs; unfold items
  cases parseWord os w with
  | throw e => rfl
  | ub u => rfl
  | ok l =>
    simp only [Res.ok_bind]
    split
    · rfl
    · cases hf : finishAll os l ws with
      | throw e => rfl
      | ub u => rfl
      | ok x =>
        simp only [Res.ok_bind]
        rw [items_enough os ws.length x.2.length x.2 (finishAll_shorter hf) (Nat.le_refl _)]

theorem letters_ne {os : List Opt} {w : Bytes} : ∀ {r : Bytes} {b : Byte} {l : List Item}, letters os w b r = .ok l → l ≠ []
  | [], b, l, h => by
    unfold letters at h
    cases hf : find os [45, b] false <;> rw [hf] at h <;> simp_all [Res.bind]
    rw [← h]; simp
  | a :: r, b, l, h => by
    unfold letters at h
    cases hf : find os [45, b] false with
    | throw e => rw [hf] at h; cases h
    | ub u => rw [hf] at h; cases h
    | ok d =>
      rw [hf] at h
      simp only [Res.ok_bind] at h
      split at h
      · cases hl : letters os w a r <;> rw [hl] at h <;> simp [Res.bind] at h
        rw [← h]; simp
      · cases h; simp

/-- A letter before others. -/
theorem items_also {c : Cmd} (hc : c ∈ commands) {o : Opt} (ho : o ∈ c.opts) (hk : o.kind = .switch) {b a : Byte} (hb : o.short = some b) (ha : a ≠ 45)
    (r : Bytes) (ws : List Bytes) (hx : ¬ (c = genre ∧ b = 118)) {l : List Item}
    (h : items c.all ((45 :: a :: r) :: ws).length ((45 :: a :: r) :: ws) = .ok l) :
    ∃ l', items c.all ((45 :: b :: a :: r) :: ws).length ((45 :: b :: a :: r) :: ws) = .ok l' ∧ l'.map kv = (o.long, []) :: l.map kv := by
  obtain ⟨h1, h2, h3⟩ : find c.all [45, b] false = .ok (some o) ∧ find c.all [45, b] true = .ok (some o) ∧ b ≠ 45 := by
    rcases table_short c hc o ho b (by rw [hb]; simp) with h | h
    · exact absurd h hx
    · exact h
  rw [items_cons, parseWord_short _ _ _ ha] at h
  rw [items_cons, parseWord_short _ _ _ h3]
  have hl := letters_alike c.all (45 :: a :: r) (45 :: b :: a :: r) r a
  cases e1 : letters c.all (45 :: a :: r) a r with
  | throw e => rw [e1] at h; cases h
  | ub u => rw [e1] at h; cases h
  | ok l1 =>
    cases e2 : letters c.all (45 :: b :: a :: r) a r with
    | throw e => rw [e1, e2] at hl; cases hl
    | ub u => rw [e1, e2] at hl; cases hl
    | ok l2 =>
      rw [e1, e2] at hl
      have hl : l1.map kv = l2.map kv := hl
      rw [e1] at h
      have n1 := letters_ne e1
      have n2 := letters_ne e2
      have el : letters c.all (45 :: b :: a :: r) b (a :: r) = .ok (⟨[45, b], [], []⟩ :: l2) := by
        unfold letters
        rw [h1]
        simp only [Res.ok_bind, Option.map_some, hk, if_true, e2]
      rw [el]
      simp only [Res.ok_bind, List.isEmpty_cons] at h ⊢
      rw [if_neg (by simpa using n1)] at h
      have hfa : finishAll c.all (⟨[45, b], [], []⟩ :: l2) ws = (finishAll c.all l2 ws).bind fun (l, rest) => .ok (⟨o.long, [], []⟩ :: l, rest) := by
        obtain ⟨y, ys, rfl⟩ := List.exists_cons_of_ne_nil n2
        rw [finishAll]
        · rw [finish_switch [] (by simp) h2 hk rfl]; rfl
        · simp
      simp only [Bool.false_eq_true, if_false, hfa]
      have hf := finishAll_alike c.all hl ws
      cases e3 : finishAll c.all l1 ws with
      | throw e => rw [e3] at h; cases h
      | ub u => rw [e3] at h; cases h
      | ok x1 =>
        cases e4 : finishAll c.all l2 ws with
        | throw e => rw [e3, e4] at hf; cases hf
        | ub u => rw [e3, e4] at hf; cases hf
        | ok x2 =>
          rw [e3, e4] at hf
          have hf : x1.1.map kv = x2.1.map kv ∧ x1.2 = x2.2 := hf
          rw [e3] at h
          simp only [Res.ok_bind] at h ⊢
          rw [← hf.2]
          cases e5 : items c.all x1.2.length x1.2 with
          | throw e => rw [e5] at h; cases h
          | ub u => rw [e5] at h; cases h
          | ok l3 =>
            rw [e5] at h
            simp only [Res.ok_bind] at h ⊢
            cases h
            exact ⟨_, rfl, by simp [kv, hf.1]⟩

theorem items_also_bad {os : List Opt} {b a : Byte} {r : Bytes} {ws : List Bytes} (ha : a ≠ 45) (hb : b ≠ 45) {o : Opt}
    (h1 : find os [45, b] false = .ok (some o)) (hk : o.kind = .switch) (h2 : find os [45, b] true = .ok (some o))
    (h : items os ((45 :: a :: r) :: ws).length ((45 :: a :: r) :: ws) = .throw .invalidArgument) :
    items os ((45 :: b :: a :: r) :: ws).length ((45 :: b :: a :: r) :: ws) = .throw .invalidArgument := by
  rw [items_cons, parseWord_short _ _ _ ha] at h
  rw [items_cons, parseWord_short _ _ _ hb]
  have hl := letters_alike os (45 :: a :: r) (45 :: b :: a :: r) r a
  have el : letters os (45 :: b :: a :: r) b (a :: r) = (letters os (45 :: b :: a :: r) a r).bind fun l => .ok (⟨[45, b], [], []⟩ :: l) := by
    conv => lhs; unfold letters
    rw [h1]
    simp only [Res.ok_bind, Option.map_some, hk, if_true]
  rw [el]
  cases e1 : letters os (45 :: a :: r) a r with
  | throw e =>
    cases e2 : letters os (45 :: b :: a :: r) a r with
    | throw e' => rw [e1, e2] at hl; rw [e1] at h; have hl : e = e' := hl; cases h; rw [← hl]; rfl
    | ok l => rw [e1, e2] at hl; cases hl
    | ub u => rw [e1, e2] at hl; cases hl
  | ub u => rw [e1] at h; cases h
  | ok l1 =>
    cases e2 : letters os (45 :: b :: a :: r) a r with
    | throw e => rw [e1, e2] at hl; cases hl
    | ub u => rw [e1, e2] at hl; cases hl
    | ok l2 =>
      rw [e1, e2] at hl
      have hl : l1.map kv = l2.map kv := hl
      rw [e1] at h
      have n1 := letters_ne e1
      have n2 := letters_ne e2
      simp only [Res.ok_bind, List.isEmpty_cons] at h ⊢
      rw [if_neg (by simpa using n1)] at h
      have hfa : finishAll os (⟨[45, b], [], []⟩ :: l2) ws = (finishAll os l2 ws).bind fun (l, rest) => .ok (⟨o.long, [], []⟩ :: l, rest) := by
        obtain ⟨y, ys, rfl⟩ := List.exists_cons_of_ne_nil n2
        rw [finishAll]
        · rw [finish_switch [] (by simp) h2 hk rfl]; rfl
        · simp
      simp only [Bool.false_eq_true, if_false, hfa]
      have hf := finishAll_alike os hl ws
      cases e3 : finishAll os l1 ws with
      | ub u => rw [e3] at h; cases h
      | throw e =>
        cases e4 : finishAll os l2 ws with
        | throw e' => rw [e3, e4] at hf; rw [e3] at h; have hf : e = e' := hf; cases h; rw [← hf]; rfl
        | ok x => rw [e3, e4] at hf; cases hf
        | ub u => rw [e3, e4] at hf; cases hf
      | ok x1 =>
        cases e4 : finishAll os l2 ws with
        | throw e => rw [e3, e4] at hf; cases hf
        | ub u => rw [e3, e4] at hf; cases hf
        | ok x2 =>
          rw [e3, e4] at hf
          have hf : x1.1.map kv = x2.1.map kv ∧ x1.2 = x2.2 := hf
          rw [e3] at h
          simp only [Res.ok_bind] at h ⊢
          rw [← hf.2]
          cases e5 : items os x1.2.length x1.2 with
          | throw e => rw [e5] at h; cases h; rfl
          | ub u => rw [e5] at h; cases h
          | ok l3 => rw [e5] at h; cases h

theorem place_alike (c : Cmd) : ∀ {l l' : List Item} (n : Nat), l.map kv = l'.map kv → Alike (place c n l) (place c n l')
  | [], [], _, _ => by simp [place, Alike]
  | [], _ :: _, _, h => by simp at h
  | _ :: _, [], _, h => by simp at h
  | i :: l, j :: l', n, h => by
    simp only [List.map_cons, List.cons.injEq, kv, Prod.mk.injEq] at h
    unfold place
    rw [h.1.1]
    split
    · split
      · have ih := place_alike c (n + 1) h.2
        cases e1 : place c (n + 1) l <;> cases e2 : place c (n + 1) l' <;> rw [e1, e2] at ih <;> simp_all [Alike, Res.bind, kv]
      · simp [Alike]
    · have ih := place_alike c n h.2
      cases e1 : place c n l <;> cases e2 : place c n l' <;> rw [e1, e2] at ih <;> simp_all [Alike, Res.bind, kv]

theorem put_alike (B : Boost) (os : List Opt) (fin : Bytes → Bool) : ∀ {l l' : List Item} (m : Vars), l.map kv = l'.map kv → put B os fin l m = put B os fin l' m
  | [], [], _, _ => rfl
  | [], _ :: _, _, h => by simp at h
  | _ :: _, [], _, h => by simp at h
  | i :: l, j :: l', m, h => by
    simp only [List.map_cons, List.cons.injEq, kv, Prod.mk.injEq] at h
    unfold put
    rw [h.1.1, h.1.2, put_alike B os fin m h.2]
    split
    · rfl
    · congr 1
      funext d
      cases d with
      | none => rfl
      | some d =>
        simp only
        congr 1
        funext v
        exact put_alike B os fin _ h.2

theorem options_alike (B : Boost) (c : Cmd) (env : List (Bytes × Bytes)) {ws ws' : List Bytes} (h : Alike (run c ws) (run c ws')) :
    options B c env ws = options B c env ws' := by
  unfold options
  cases e1 : run c ws with
  | throw e => cases e2 : run c ws' <;> rw [e1, e2] at h <;> simp_all [Alike, Res.bind]
  | ub u => cases e2 : run c ws' <;> rw [e1, e2] at h <;> simp_all [Alike, Res.bind]
  | ok l =>
    cases e2 : run c ws' with
    | throw e => rw [e1, e2] at h; cases h
    | ub u => rw [e1, e2] at h; cases h
    | ok l' =>
      rw [e1, e2] at h
      have h : l.map kv = l'.map kv := h
      have hany : (fun k => l.any (·.key = k)) = fun k => l'.any (·.key = k) := by
        funext k
        have e : ∀ l : List Item, l.any (·.key = k) = (l.map kv).any (·.1 = k) := by intro l; rw [List.any_map]; rfl
        rw [e, e, h]
      simp only [Res.ok_bind, store, put_alike B c.all _ _ h, hany]

/-- A word with another name of the same option. -/
theorem finish_named {os : List Opt} {n n' : Bytes} {o : Opt} (h : find os n true = .ok (some o)) (h' : find os n' true = .ok (some o)) (hn : n ≠ []) (hn' : n' ≠ [])
    (v t t' rest : List Bytes) : Alike1 (finish os ⟨n, v, t⟩ rest) (finish os ⟨n', v, t'⟩ rest) := by
  have e : finish os ⟨n, v, t⟩ rest = finish os ⟨n', v, t⟩ rest := by
    unfold finish
    rw [if_neg (by simpa using hn), if_neg (by simpa using hn'), h, h']
  rw [e]
  exact finish_alike os (i := ⟨n', v, t⟩) (j := ⟨n', v, t'⟩) rfl rest

theorem items_finish {os : List Opt} {w w' : Bytes} {i i' : Item} (h : parseWord os w = .ok [i]) (h' : parseWord os w' = .ok [i']) {ws : List Bytes}
    (hf : Alike1 (finish os i ws) (finish os i' ws)) : Alike (items os (w :: ws).length (w :: ws)) (items os (w' :: ws).length (w' :: ws)) := by
  rw [items_cons, items_cons, h, h']
  simp only [Res.ok_bind, List.isEmpty_cons, Bool.false_eq_true, if_false, finishAll]
  revert hf
  generalize finish os i ws = x
  generalize finish os i' ws = x'
  intro hf
  cases x <;> cases x' <;> simp_all [Alike1, Alike, Res.bind]
  rename_i a a'
  cases items os a'.2.length a'.2 <;> simp_all

/-- What a command line is taken for: options and their values, and files, or it is refused. -/
def Taken (gs : List (Opt × Bytes)) (fs : List Bytes) (l : List Item) : Prop :=
  (l.filter (·.key ≠ [])).map kv = gs.map (fun g => (g.1.long, valuesOf g.1 g.2)) ∧ (l.filter (·.key = [])).map (·.value) = fs.map ([·])

theorem taken_words (ws : List Bytes) : Taken [] ws (ws.map word) := by
  constructor
  · rw [List.filter_eq_nil_iff.2 (by intro i hi; obtain ⟨w, _, rfl⟩ := List.mem_map.1 hi; simp [word])]; rfl
  · rw [List.filter_eq_self.2 (by intro i hi; obtain ⟨w, _, rfl⟩ := List.mem_map.1 hi; simp [word])]
    simp [word, Function.comp_def]

theorem taken_kv {gs : List (Opt × Bytes)} {fs : List Bytes} {l l' : List Item} {o : Opt} {v : Bytes} (ho : o.long ≠ []) (h : Taken gs fs l)
    (hl : l'.map kv = (o.long, valuesOf o v) :: l.map kv) : Taken ((o, v) :: gs) fs l' := by
  cases l' with
  | nil => simp at hl
  | cons i l' =>
    simp only [List.map_cons, List.cons.injEq] at hl
    obtain ⟨h1, h2⟩ := hl
    simp only [kv, Prod.mk.injEq] at h1
    have key : ∀ (P : Bytes × List Bytes → Bool) (l l' : List Item), l'.map kv = l.map kv → (l'.filter (P ∘ kv)).map kv = (l.filter (P ∘ kv)).map kv := by
      intro P l l' h
      rw [← List.filter_map, ← List.filter_map, h]
    have hn : (fun i : Item => decide (i.key ≠ [])) = (fun x : Bytes × List Bytes => decide (x.1 ≠ [])) ∘ kv := rfl
    have hn2 : (fun i : Item => decide (i.key = [])) = (fun x : Bytes × List Bytes => decide (x.1 = [])) ∘ kv := rfl
    have hv : ∀ l : List Item, l.map (·.value) = (l.map kv).map (·.2) := by intro l; simp [kv, Function.comp_def]
    obtain ⟨t1, t2⟩ := h
    constructor
    · rw [List.filter_cons_of_pos (by simp [h1.1, ho]), List.map_cons, hn, key _ _ _ h2, ← hn, t1]
      simp [kv, h1.1, h1.2]
    · rw [List.filter_cons_of_neg (by simp [h1.1, ho]), hv, hn2, key _ _ _ h2, ← hn2, ← hv, t2]

theorem reads_items {c : Cmd} (hc : c ∈ commands) {ws : List Bytes} {gs : List (Opt × Bytes)} {fs : List Bytes} (h : Reads c ws gs fs) :
    (∃ l, items c.all ws.length ws = .ok l ∧ Taken gs fs l) ∨ items c.all ws.length ws = .throw .invalidArgument := by
  induction h with
  | done => exact .inl ⟨[], rfl, rfl, rfl⟩
  | rest ws =>
    refine .inl ⟨ws.map word, ?_, taken_words ws⟩
    rw [items_cons]; rfl
  | file w hw _ ih =>
    have hp : parseWord c.all w = .ok [] ∧ w ≠ [45, 45] := by
      rcases hw with hw | rfl
      · exact ⟨parseWord_plain _ _ hw, plain_not_end hw⟩
      · exact ⟨rfl, by decide⟩
    rw [items_cons, hp.1]
    simp only [Res.ok_bind, List.isEmpty_nil, if_true, if_neg hp.2]
    rcases ih with ⟨l, h1, h2, h3⟩ | h1
    · rw [h1]
      refine .inl ⟨word w :: l, rfl, ?_, ?_⟩
      · rw [List.filter_cons_of_neg (by simp [word])]; exact h2
      · rw [List.filter_cons_of_pos (by simp [word]), List.map_cons, h3]; rfl
    · rw [h1]; exact .inr rfl
  | @opt ws gs fs o n v f ho hn hw _ ih =>
    by_cases hx : c = genre ∧ ∃ r, f.head? = some (45 :: 118 :: r)
    · obtain ⟨rfl, r, hr⟩ := hx
      cases f with
      | nil => simp at hr
      | cons w f =>
        simp only [List.head?_cons, Option.some.injEq] at hr
        subst hr
        exact .inr (items_bad _ (genre_v_word r))
    · obtain ⟨toks, ht⟩ := items_named hc ho hn hw (fun hg r hr => hx ⟨hg, r, hr⟩) ws
      rw [ht]
      rcases ih with ⟨l, h1, h2⟩ | h1
      · rw [h1]
        exact .inl ⟨_, rfl, taken_kv (table_long c hc o (opts_all ho)).2.2.2 h2 rfl⟩
      · rw [h1]; exact .inr rfl
  | @also ws gs fs o b a r ho hk hb ha _ ih =>
    by_cases hx : c = genre ∧ b = 118
    · obtain ⟨rfl, rfl⟩ := hx
      exact .inr (items_bad _ (genre_v_word _))
    · rcases ih with ⟨l, h1, h2⟩ | h1
      · obtain ⟨l', h3, h4⟩ := items_also hc ho hk hb ha r ws hx h1
        refine .inl ⟨l', h3, taken_kv (v := []) (table_long c hc o (opts_all ho)).2.2.2 h2 ?_⟩
        rw [h4, show valuesOf o [] = [] by unfold valuesOf; rw [if_pos hk]]
      · rcases table_short c hc o ho b (by rw [hb]; simp) with h | ⟨h2, h3, h4⟩
        · exact absurd h hx
        · exact .inr (items_also_bad ha h4 h2 hk h3 h1)

/-! ## Naming the files -/

/-- An item with the name for files, if it has none. -/
def placed (c : Cmd) (i : Item) : Item := if i.key = [] then { i with key := c.positional } else i

theorem place_ok {c : Cmd} : ∀ {l l' : List Item} {n : Nat}, (∀ k, c.most = some k → n ≤ k) → place c n l = .ok l' →
    l' = l.map (placed c) ∧ ∀ k, c.most = some k → n + (l.filter (·.key = [])).length ≤ k
  | [], _, n, hn, h => by cases h; exact ⟨rfl, hn⟩
  | i :: l, l', n, hn, h => by
    unfold place at h
    by_cases hk : i.key = []
    · rw [if_pos (by simpa using hk)] at h
      split at h
      · rename_i hm
        have hm' : ∀ k, c.most = some k → n + 1 ≤ k := by
          intro k e; rw [e] at hm; exact of_decide_eq_true hm
        cases hp : place c (n + 1) l with
        | throw e => rw [hp] at h; cases h
        | ub u => rw [hp] at h; cases h
        | ok l2 =>
          rw [hp] at h
          cases h
          obtain ⟨h1, h2⟩ := place_ok hm' hp
          refine ⟨by simp [placed, hk, h1], ?_⟩
          rw [List.filter_cons_of_pos (by simpa using hk), List.length_cons, show n + ((l.filter (·.key = [])).length + 1) = n + 1 + (l.filter (·.key = [])).length by omega]
          exact h2
      · cases h
    · rw [if_neg (by simpa using hk)] at h
      cases hp : place c n l with
      | throw e => rw [hp] at h; cases h
      | ub u => rw [hp] at h; cases h
      | ok l2 =>
        rw [hp] at h
        cases h
        obtain ⟨h1, h2⟩ := place_ok hn hp
        exact ⟨by simp [placed, hk, h1], by rw [List.filter_cons_of_neg (by simpa using hk)]; exact h2⟩

/-! ## Values -/

/-- What comes of values, one after the other. -/
def parseAll (B : Boost) (d : Opt) : Option Val → List (List Bytes) → Res (Option Val)
  | old, [] => .ok old
  | old, v :: vs => (B.parse d old v).bind fun x => parseAll B d (some x) vs

theorem put_values {B : Boost} {os : List Opt} {k : Bytes} {d : Opt} (hk : k ≠ []) (hf : find os k false = .ok (some d)) : ∀ {l : List Item} {m m' : Vars},
    put B os (fun _ => false) l m = .ok m' →
    ((l.filter (·.key = k)) = [] → m' k = m k) ∧
    (l.filter (·.key = k) ≠ [] → ∃ x, parseAll B d (m.given k) ((l.filter (·.key = k)).map (·.value)) = .ok (some x) ∧ m' k = some (x, false))
  | [], m, m', h => by cases h; exact ⟨fun _ => rfl, fun h => absurd rfl h⟩
  | i :: l, m, m', h => by
    rcases put_cons h with ⟨h1, h2⟩ | ⟨h1, -, d', v, h3, h4, h5⟩
    · have hik : i.key ≠ k := by
        rcases h1 with h1 | h1
        · rw [h1]; exact hk.symm
        · cases h1
      rw [List.filter_cons_of_neg (by simpa using hik)]
      exact put_values hk hf h2
    · obtain ⟨ih1, ih2⟩ := put_values hk hf h5
      by_cases hik : i.key = k
      · rw [List.filter_cons_of_pos (by simpa using hik)]
        refine ⟨fun h => by simp at h, fun _ => ?_⟩
        subst hik
        rw [hf] at h3
        cases h3
        simp only [List.map_cons, parseAll, h4, Res.ok_bind]
        have hg : (m.set i.key (v, false)).given i.key = some v := by unfold Vars.given; rw [set_same]
        rw [hg] at ih2
        by_cases hn : l.filter (·.key = i.key) = []
        · refine ⟨v, by rw [hn]; rfl, ?_⟩
          rw [ih1 hn, set_same]
        · exact ih2 hn
      · rw [List.filter_cons_of_neg (by simpa using hik)]
        have hg : (m.set i.key (v, false)).given k = m.given k := by unfold Vars.given; rw [set_other _ _ (fun h => hik h.symm)]
        rw [hg] at ih2
        rw [set_other _ _ (fun h => hik h.symm)] at ih1
        exact ⟨ih1, ih2⟩

theorem parseAll_values {B : Boost} {d : Opt} {t : Ty} (hd : d.kind = .values t) : ∀ {vs l : List Bytes} {x : Val},
    parseAll B d (some (.many l)) (vs.map ([·])) = .ok (some x) → x = .many (l ++ vs)
  | [], l, x, h => by cases h; simp
  | v :: vs, l, x, h => by
    simp only [List.map_cons, parseAll, Boost.parse, hd] at h
    split at h
    · simp only [Res.ok_bind] at h
      rw [parseAll_values hd h]; simp
    · cases h

theorem parseAll_meant {B : Boost} {o : Opt} {vs : List Bytes} {x : Val} (hv : vs ≠ []) (h : parseAll B o none (vs.map (valuesOf o)) = .ok (some x)) :
    Means o vs x := by
  cases vs with
  | nil => exact absurd rfl hv
  | cons v vs =>
    simp only [List.map_cons, parseAll] at h
    unfold valuesOf at h
    cases hk : o.kind with
    | switch =>
      simp only [hk, if_true] at h
      have e : B.parse o none [] = .ok (.flag true) := by unfold Boost.parse; rw [hk]; rfl
      rw [e] at h
      simp only [Res.ok_bind] at h
      cases vs with
      | nil => cases h; exact .switch v hk
      | cons w ws =>
        simp only [List.map_cons, parseAll] at h
        have e : B.parse o (some (.flag true)) [] = .throw .invalidArgument := by unfold Boost.parse; rw [hk]
        rw [e] at h; cases h
    | value t =>
      simp only [hk, reduceCtorEq, if_false] at h
      simp only [Boost.parse, hk] at h
      split at h
      · simp only [Res.ok_bind] at h
        cases vs with
        | nil => cases h; exact .value t v hk
        | cons w ws =>
          simp only [List.map_cons, parseAll] at h
          have e : B.parse o (some (.one v)) [w] = .throw .invalidArgument := by unfold Boost.parse; rw [hk]
          rw [e] at h; cases h
      · cases h
    | values t =>
      simp only [hk, reduceCtorEq, if_false] at h
      have e : B.parse o none [v] = if B.ok t v then .ok (.many [v]) else .throw .invalidArgument := by unfold Boost.parse; rw [hk]
      rw [e] at h
      split at h
      · simp only [Res.ok_bind] at h
        rw [parseAll_values hk h]
        exact .values t _ hk (by simp)
      · cases h

/-! ## All of it -/

theorem reads_opts {c : Cmd} {ws : List Bytes} {gs : List (Opt × Bytes)} {fs : List Bytes} (h : Reads c ws gs fs) : ∀ g ∈ gs, g.1 ∈ c.opts := by
  induction h with
  | done => simp
  | rest => simp
  | file _ _ _ ih => exact ih
  | opt ho _ _ _ ih => intro g hg; exact (List.mem_cons.1 hg).elim (fun e => e ▸ ho) (ih g)
  | also ho _ _ _ _ ih => intro g hg; exact (List.mem_cons.1 hg).elim (fun e => e ▸ ho) (ih g)

/-- The hidden option of files. -/
theorem table_files : ∀ c ∈ commands, c.positional ≠ [] ∧ (∀ o ∈ c.opts, o.long ≠ c.positional) ∧
    ∃ a ∈ c.hidden, a.long = c.positional ∧ find c.all c.positional false = .ok (some a) ∧ ((∃ t, a.kind = .values t) ∨ (∃ t, a.kind = .value t) ∧ c.most = some 1) := by
  have key : ∀ c ∈ commands, c.positional ≠ [] ∧ (∀ o ∈ c.opts, o.long ≠ c.positional) ∧
    ∃ a ∈ c.hidden, a.long = c.positional ∧ find c.all c.positional false = .ok (some a) ∧ (a.kind = .values .text ∨ a.kind = .value .text ∧ c.most = some 1) := by
    decide +kernel
  intro c hc
  obtain ⟨h1, h2, a, h3, h4, h5, h6⟩ := key c hc
  exact ⟨h1, h2, a, h3, h4, h5, h6.elim (fun h => .inl ⟨_, h⟩) fun h => .inr ⟨⟨_, h.1⟩, h.2⟩⟩

theorem valuesOf_file (a : Opt) (h : a.kind ≠ .switch) (fs : List Bytes) : fs.map ([·]) = fs.map (valuesOf a) := by
  refine List.map_congr_left fun v _ => ?_
  unfold valuesOf; rw [if_neg h]

theorem given_values {c : Cmd} (hc : c ∈ commands) {o : Opt} (ho : o ∈ c.opts) : ∀ {gs : List (Opt × Bytes)}, (∀ g ∈ gs, g.1 ∈ c.opts) →
    ((gs.map (fun g => (g.1.long, valuesOf g.1 g.2))).filter (·.1 = o.long)).map (·.2) = (given gs o).map (valuesOf o)
  | [], _ => rfl
  | g :: gs, hg => by
    have ih := given_values hc ho (gs := gs) fun g' hg' => hg g' (by simp [hg'])
    unfold given at ih ⊢
    by_cases hk : g.1 = o
    · rw [List.map_cons, List.filter_cons_of_pos (by simp [hk]), List.filter_cons_of_pos (by simp [hk]), List.map_cons, List.map_cons, List.map_cons, ih, hk]
    · have : g.1.long ≠ o.long := fun e => hk (table_inj c hc _ (opts_all (hg g (by simp))) _ (opts_all ho) e)
      rw [List.map_cons, List.filter_cons_of_neg (by simpa using this), List.filter_cons_of_neg (by simpa using hk)]
      exact ih

theorem placed_opts {c : Cmd} {k : Bytes} (hk0 : k ≠ c.positional) : ∀ (l : List Item),
    ((l.map (placed c)).filter (·.key = k)).map (·.value) = (((l.filter (·.key ≠ [])).map kv).filter (·.1 = k)).map (·.2) ∨ k = []
  | [] => .inl rfl
  | i :: l => by
    by_cases hk00 : k = []
    · exact .inr hk00
    have ih := (placed_opts hk0 l).resolve_right hk00
    left
    by_cases hi : i.key = []
    · have e : (placed c i).key = c.positional := by simp [placed, hi]
      rw [List.map_cons, List.filter_cons_of_neg (by simpa [e] using hk0.symm), List.filter_cons_of_neg (by simpa using hi)]
      exact ih
    · have e : placed c i = i := by simp [placed, hi]
      rw [List.map_cons, e, List.filter_cons_of_pos (p := fun i : Item => decide (i.key ≠ [])) (by simpa using hi), List.map_cons]
      by_cases hk : i.key = k
      · rw [List.filter_cons_of_pos (by simpa using hk), List.filter_cons_of_pos (by simp only [kv]; exact decide_eq_true hk), List.map_cons, List.map_cons, ih]; rfl
      · rw [List.filter_cons_of_neg (by simpa using hk), List.filter_cons_of_neg (by simp only [kv]; exact fun h => hk (of_decide_eq_true h))]; exact ih

theorem placed_files {c : Cmd} : ∀ {l : List Item}, (∀ i ∈ l, i.key ≠ c.positional) →
    ((l.map (placed c)).filter (·.key = c.positional)).map (·.value) = (l.filter (·.key = [])).map (·.value)
  | [], _ => rfl
  | i :: l, hkeys => by
    have ih := placed_files (l := l) fun j hj => hkeys j (by simp [hj])
    by_cases hi : i.key = []
    · rw [List.map_cons, List.filter_cons_of_pos (by simp [placed, hi]), List.filter_cons_of_pos (by simpa using hi), List.map_cons, List.map_cons, ih]
      simp [placed, hi]
    · rw [List.map_cons, List.filter_cons_of_neg (by simpa [placed, hi] using hkeys i (by simp)), List.filter_cons_of_neg (by simpa using hi)]
      exact ih

theorem reads_options {c : Cmd} (hc : c ∈ commands) {ws : List Bytes} {gs : List (Opt × Bytes)} {fs : List Bytes} (h : Reads c ws gs fs) {B : Boost}
    {env : List (Bytes × Bytes)} {m : Vars} (ho : options B c env ws = .ok m) :
    (∀ k, c.most = some k → fs.length ≤ k) ∧
    (∀ o ∈ c.opts, given gs o ≠ [] → ∃ x, Means o (given gs o) x ∧ m o.long = some (x, false)) ∧
    (fs ≠ [] → ∃ a x, (find c.all c.positional false = .ok (some a)) ∧ Means a fs x ∧ m c.positional = some (x, false)) := by
  obtain ⟨l', m1, hl, hm1, he, -⟩ := options_ok ho
  obtain ⟨hp1, hp2, a, -, ha1, ha2, ha3⟩ := table_files c hc
  have hko : ∀ o ∈ c.opts, o.long ≠ [] ∧ find c.all o.long false = .ok (some o) := fun o ho =>
    ⟨(table_long c hc o (opts_all ho)).2.2.2, (table_long c hc o (opts_all ho)).2.1⟩
  unfold run at hl
  rcases reads_items hc h with ⟨l, h1, t1, t2⟩ | h1
  · rw [h1] at hl
    obtain ⟨hl', hmost⟩ := place_ok (fun _ _ => Nat.zero_le _) (show place c 0 l = .ok l' from hl)
    have hlen : (l.filter (·.key = [])).length = fs.length := by
      have := congrArg List.length t2; simpa using this
    have keep : ∀ k, k ≠ [] → l'.filter (·.key = k) ≠ [] → ∀ x, m1 k = some (x, false) → m k = some (x, false) := by
      intro k hk hne x hx
      have h2 : presets c.all m1 k = some (x, false) := presets_some _ _ _ _ hx
      rcases he with ⟨-, rfl⟩ | ⟨-, m2, h3, rfl⟩
      · exact h2
      · refine presets_some _ _ _ _ ?_
        rw [put_fixed (k := k) ?_ h3, h2]
        obtain ⟨i, hi⟩ := List.exists_mem_of_ne_nil _ hne
        rw [List.mem_filter] at hi
        exact List.any_eq_true.2 ⟨i, hi.1, by simpa using hi.2⟩
    refine ⟨by rw [hlen] at hmost; simpa using hmost, ?_, ?_⟩
    · intro o ho hne
      have hval : (l'.filter (·.key = o.long)).map (·.value) = (given gs o).map (valuesOf o) := by
        have e1 : (l'.filter (·.key = o.long)).map (·.value) = (((l.filter (·.key ≠ [])).map kv).filter (·.1 = o.long)).map (·.2) := by
          rw [hl']
          exact (placed_opts (hp2 o ho) l).resolve_right (hko o ho).1
        rw [e1, t1]
        exact given_values hc ho (reads_opts h)
      have hne' : l'.filter (·.key = o.long) ≠ [] := by
        intro e; rw [e] at hval; simp at hval; exact hne hval
      obtain ⟨x, h3, h4⟩ := (put_values (hko o ho).1 (hko o ho).2 hm1).2 hne'
      rw [hval] at h3
      exact ⟨x, parseAll_meant hne h3, keep _ (hko o ho).1 hne' x h4⟩
    · intro hne
      have hval : (l'.filter (·.key = c.positional)).map (·.value) = fs.map ([·]) := by
        rw [← t2, hl']
        have hkeys : ∀ i ∈ l, i.key ≠ c.positional := by
          intro i hi hk
          have : kv i ∈ (l.filter (·.key ≠ [])).map kv := List.mem_map.2 ⟨i, List.mem_filter.2 ⟨hi, by simpa [hk] using hp1⟩, rfl⟩
          rw [t1] at this
          obtain ⟨g, hg, he⟩ := List.mem_map.1 this
          simp only [kv, Prod.mk.injEq] at he
          exact hp2 g.1 (reads_opts h g hg) (he.1.trans hk)
        exact placed_files hkeys
      have hne' : l'.filter (·.key = c.positional) ≠ [] := by
        intro e; rw [e] at hval; simp at hval; exact hne hval
      obtain ⟨x, h3, h4⟩ := (put_values hp1 ha2 hm1).2 hne'
      have hns : a.kind ≠ .switch := by rcases ha3 with ⟨t, ht⟩ | ⟨⟨t, ht⟩, -⟩ <;> rw [ht] <;> simp
      rw [hval, valuesOf_file a hns] at h3
      exact ⟨a, x, ha2, parseAll_meant hne h3, keep _ hp1 hne' x h4⟩
  · rw [h1] at hl; cases hl

end Scribbu.Options
