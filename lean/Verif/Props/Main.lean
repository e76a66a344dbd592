import Verif.Proofs.Main

/-! C114 to C120: the command line. -/

namespace Scribbu.Props
open Scribbu Main Spec.Main

/-- The state after the options, and how many words have been copied. -/
theorem handle_line {l : Line} (hl : l.Ok) (p : Bytes) :
    ∃ k, handleOptions ⟨l.words, some p :: List.replicate (l.words.length + 1) none, 0, 1, false, .none, none⟩ =
      .ok (some (match l.tail with
        | .word w rest => mk p l.guile (rest.length + 1 + (k + 1)) (w :: rest) (asked (false, .none, none) l.globals).1 (asked (false, .none, none) l.globals).2.1
            (asked (false, .none, none) l.globals).2.2
        | t => mk p (l.guile ++ t.words) (k + 1) [] (asked (false, .none, none) l.globals).1 (asked (false, .none, none) l.globals).2.1
            (asked (false, .none, none) l.globals).2.2)) := by
  obtain ⟨gs, t⟩ := l
  obtain ⟨hg, ht⟩ := hl
  simp only at hg ht
  obtain ⟨fuel, k, hf, hk, h⟩ := loop_globals p gs hg t.words [] (t.words.length + 1) (false, .none, none) ((gs.flatMap Global.words ++ t.words).length) (Nat.le_refl _)
  have h0 : (⟨(Line.mk gs t).words, some p :: List.replicate ((Line.mk gs t).words.length + 1) none, 0, 1, false, .none, none⟩ : Main.St) =
      mk p [] ((gs.flatMap Global.words).length + (t.words.length + 1)) (gs.flatMap Global.words ++ t.words) false .none none := by
    simp [Line.words, mk]
    omega
  unfold handleOptions
  rw [h0, mk_argv, h]
  simp only [List.nil_append]
  generalize asked (false, .none, none) gs = r
  show ∃ k_1, (Res.bind _ _) = _
  simp only [Line.guile]
  generalize gs.flatMap Global.guile = G
  cases t with
  | nothing =>
    refine ⟨k - 1, ?_⟩
    simp only [Tail.words, List.length_nil] at hk ⊢
    rw [loop_nothing, show k - 1 + 1 = k by omega]
    simp [Res.bind]
  | word w rest =>
    refine ⟨k - (rest.length + 1) - 1, ?_⟩
    simp only [Tail.words, List.length_cons] at hk ⊢
    rw [loop_strange (plain_strange ht), show rest.length + 1 + (k - (rest.length + 1) - 1 + 1) = k by omega]
    rfl
  | script o x rest =>
    refine ⟨k - (rest.length + 2) - 1, ?_⟩
    simp only [Tail.words, List.length_cons] at hf hk ⊢
    obtain ⟨fuel, rfl⟩ : ∃ n, fuel = n + 1 := ⟨fuel - 1, by omega⟩
    obtain ⟨k, rfl⟩ : ∃ n, k = n + 1 := ⟨k - 1, by omega⟩
    rw [loop_script ht, Res.ok_bind]
    simp only
    have := copyRest_all p r.1 r.2.1 r.2.2 (x :: rest) (G ++ [o]) (k - (rest.length + 1))
    rw [show (x :: rest).length + (k - (rest.length + 1)) = k by simp; omega] at this
    rw [mk_argv, this, Res.ok_bind, show k + 1 - (rest.length + 2) - 1 + 1 = k - (rest.length + 1) by omega]
    simp
  | stop rest =>
    refine ⟨k - (rest.length + 1) - 1, ?_⟩
    simp only [Tail.words, List.length_cons] at hf hk ⊢
    obtain ⟨fuel, rfl⟩ : ∃ n, fuel = n + 1 := ⟨fuel - 1, by omega⟩
    rw [loop_stop, Res.ok_bind]
    simp only
    have := copyRest_all p r.1 r.2.1 r.2.2 ([45, 45] :: rest) G (k - (rest.length + 1))
    rw [show ([45, 45] :: rest : List Bytes).length + (k - (rest.length + 1)) = k by simp; omega] at this
    rw [mk_argv, this, Res.ok_bind, show k - (rest.length + 1) - 1 + 1 = k - (rest.length + 1) by omega]

/-- Nothing is asked for: no flag is set. -/
theorem asked_nothing {l : Line} (h : l.asked = []) : asked (false, .none, none) l.globals = (false, .none, none) := by
  unfold Line.asked at h
  unfold asked
  rw [h]
  rfl

/-- What is done if something is asked for: the version if that is, else the last thing. -/
def answer (as : List Ask) : Option Did :=
  if Ask.version ∈ as then some .version
  else
    match as.getLast? with
    | none => none
    | some .usage => some .usage
    | some .man => some .man
    | some .info => some .info
    | some .version => some .version

theorem answer_none {as : List Ask} : answer as = none ↔ as = [] := by
  unfold answer
  constructor
  · intro h
    split at h
    · cases h
    · split at h
      · rename_i h'; simpa using h'
      all_goals cases h
  · rintro rfl; rfl

/-- What becomes of a command line that is as the usage message has it. -/
theorem main_line (has : Bytes → Bool) (p : Bytes) {l : Line} (hl : l.Ok) :
    main has p l.words = .ok (match answer l.asked with
      | some d => d
      | none =>
        match l.tail with
        | .word w rest => if has w then .sub w rest else .shell ((p :: (l.guile ++ w :: rest)).map some)
        | t => .shell ((p :: (l.guile ++ t.words)).map some)) := by
  obtain ⟨k, h⟩ := handle_line hl p
  unfold main
  simp only [h, Res.ok_bind]
  cases hans : answer l.asked with
  | none =>
    have ha := answer_none.1 hans
    rw [asked_nothing ha]
    cases ht : l.tail with
    | word w rest =>
      have hp : w.head? ≠ some 45 := by
        have := hl.2
        rw [ht] at this
        exact this.1
      simp only [mk, Bool.false_eq_true, if_false, reduceCtorEq]
      by_cases hw : has w = true
      · simp [hw]
      · rw [if_neg hw, if_neg hw, if_neg hp]
        have := takeAll_all p false .none none (w :: rest) l.guile (k + 1) l.guile.length _ rfl
        simp only [mk] at this
        rw [show (w :: rest).length + (k + 1) = rest.length + 1 + (k + 1) by simp] at this
        rw [this, Res.ok_bind]
        simp only [List.length_cons, List.length_append, List.length_map, List.length_replicate]
        rw [if_pos (by omega)]
        simp only [List.map_cons, Res.ok.injEq, Did.shell.injEq, List.take_succ_cons]
        rw [List.take_left' (by simp)]
    | nothing =>
      simp only [mk, Bool.false_eq_true, if_false, reduceCtorEq]
      simp only [List.length_cons, List.length_append, List.length_map, List.length_replicate]
      rw [if_pos (by omega)]
      simp only [List.map_cons, Res.ok.injEq, Did.shell.injEq, List.take_succ_cons]
      rw [List.take_left' (by simp)]
    | script o x rest =>
      simp only [mk, Bool.false_eq_true, if_false, reduceCtorEq]
      simp only [List.length_cons, List.length_append, List.length_map, List.length_replicate]
      rw [if_pos (by omega)]
      simp only [List.map_cons, Res.ok.injEq, Did.shell.injEq, List.take_succ_cons]
      rw [List.take_left' (by simp)]
    | stop rest =>
      simp only [mk, Bool.false_eq_true, if_false, reduceCtorEq]
      simp only [List.length_cons, List.length_append, List.length_map, List.length_replicate]
      rw [if_pos (by omega)]
      simp only [List.map_cons, Res.ok.injEq, Did.shell.injEq, List.take_succ_cons]
      rw [List.take_left' (by simp)]
  | some d =>
    have hv := asked_version l.globals (false, .none, none)
    have hh := asked_help l.globals (false, .none, none)
    revert hv hh
    generalize hr : asked (false, .none, none) l.globals = r
    intro hv hh
    obtain ⟨v, he, f⟩ := r
    simp only at hv
    have key : (if v = true then (Res.ok Did.version : Res Did)
        else if he = .verbose then (if f = some .man then .ok .man else .ok .info)
        else if he = .regular then .ok .usage else .ub .oobRead) = .ok d := by
      unfold answer at hans
      change (if Ask.version ∈ l.globals.filterMap Global.asked then some Did.version else _) = _ at hans
      by_cases hm : Ask.version ∈ l.globals.filterMap Global.asked
      · rw [if_pos hm] at hans
        rw [if_pos (hv.2 (.inr hm))]
        cases hans
        rfl
      · rw [if_neg hm] at hans
        have hvf : ¬ v = true := fun h => (hv.1 h).elim (by simp) hm
        rw [if_neg hvf]
        have hfil : (l.globals.filterMap Global.asked).filter (· ≠ .version) = l.globals.filterMap Global.asked := by
          rw [List.filter_eq_self]
          intro a ha
          simp only [ne_eq, decide_not, Bool.not_eq_true', decide_eq_false_iff_not]
          rintro rfl
          exact hm ha
        rw [hfil] at hh
        simp only [Line.asked] at hans
        cases hg : (l.globals.filterMap Global.asked).getLast? with
        | none => rw [hg] at hans; cases hans
        | some a =>
          rw [hg] at hans hh
          cases a with
          | usage =>
            simp only at hh hans
            cases hans
            subst hh
            rfl
          | man =>
            simp only [Prod.mk.injEq] at hh hans
            obtain ⟨rfl, rfl⟩ := hh
            cases hans
            rfl
          | info =>
            simp only [Prod.mk.injEq] at hh hans
            obtain ⟨rfl, rfl⟩ := hh
            cases hans
            rfl
          | version => exact hh.elim
    have hel : ∀ X : Res Did, (if v = true then (Res.ok Did.version : Res Did)
        else if he = .verbose then (if f = some .man then .ok .man else .ok .info)
        else if he = .regular then .ok .usage else X) = .ok d := by
      intro X
      rw [← key]
      split
      · rfl
      · split
        · rfl
        · split
          · rfl
          · rename_i h1 h2 h3
            rw [if_neg h1, if_neg h2, if_neg h3] at key
            cases key
    cases ht : l.tail <;> exact hel _

/-! ## C114: sub-commands -/

/-- C114: a sub-command is given the words behind its name, whatever they are. -/
theorem C114_sub (has : Bytes → Bool) (p : Bytes) {l : Line} {w : Bytes} {rest : List Bytes} (hl : l.Ok) (ht : l.tail = .word w rest) (ha : l.asked = []) (hw : has w = true) :
    main has p l.words = .ok (.sub w rest) := by
  rw [main_line has p hl, answer_none.2 ha, ht]
  simp [hw]

/-- No other sub-command runs than the one that is named. -/
theorem C114_only (has : Bytes → Bool) (p : Bytes) {l : Line} {w : Bytes} {args : List Bytes} (hl : l.Ok) (h : main has p l.words = .ok (.sub w args)) :
    has w = true ∧ l.tail = .word w args ∧ l.asked = [] := by
  rw [main_line has p hl] at h
  cases ha : answer l.asked with
  | some d =>
    rw [ha] at h
    simp only [Res.ok.injEq] at h
    subst h
    unfold answer at ha
    split at ha
    · cases ha
    · split at ha <;> cases ha
  | none =>
    rw [ha] at h
    refine ⟨?_, ?_, answer_none.1 ha⟩
    all_goals
      cases ht : l.tail with
      | word v rest =>
        simp only [ht] at h
        by_cases hv : has v = true
        · rw [if_pos hv] at h
          cases h
          first | exact hv | rfl
        · rw [if_neg hv] at h
          cases h
      | nothing => simp only [ht] at h; cases h
      | script o x rest => simp only [ht] at h; cases h
      | stop rest => simp only [ht] at h; cases h

theorem one_ok {w : Bytes} (h : w ∈ ones) : (Global.one w).Ok := .inl h

/-- `scribbu -q dump -h x`: `-h` is for `dump`. -/
example : (⟨[.one [45, 113]], .word [100, 117, 109, 112] [[45, 104], [120]]⟩ : Line).Ok ∧
    main (· = [100, 117, 109, 112]) [115] [[45, 113], [100, 117, 109, 112], [45, 104], [120]] = .ok (.sub [100, 117, 109, 112] [[45, 104], [120]]) :=
  ⟨⟨by simpa using one_ok (by decide), by unfold Tail.Ok Plain; decide⟩, by decide +kernel⟩

/-! ## C115: help and the version -/

/-- C115: if help or the version is asked for before anything else, it is shown, and nothing else is done: the version if that is asked for, else what is asked for last. -/
theorem C115_asked (has : Bytes → Bool) (p : Bytes) {l : Line} (hl : l.Ok) (ha : l.asked ≠ []) :
    (Ask.version ∈ l.asked → main has p l.words = .ok .version) ∧
    (Ask.version ∉ l.asked → (l.asked.getLast ha = .usage → main has p l.words = .ok .usage) ∧ (l.asked.getLast ha = .man → main has p l.words = .ok .man) ∧
      (l.asked.getLast ha = .info → main has p l.words = .ok .info)) := by
  rw [main_line has p hl]
  refine ⟨fun h => ?_, fun h => ⟨fun h' => ?_, fun h' => ?_, fun h' => ?_⟩⟩
  · simp [answer, h]
  all_goals simp [answer, h, List.getLast?_eq_some_getLast ha, h']

/-- Neither is shown if it is not asked for there. -/
theorem C115_unasked (has : Bytes → Bool) (p : Bytes) {l : Line} (hl : l.Ok) (ha : l.asked = []) :
    (∃ w rest, main has p l.words = .ok (.sub w rest)) ∨ ∃ ws, main has p l.words = .ok (.shell ws) := by
  rw [main_line has p hl, answer_none.2 ha]
  cases l.tail with
  | word w rest =>
    by_cases hw : has w = true
    · exact .inl ⟨w, rest, by simp [hw]⟩
    · exact .inr ⟨_, by simp only [if_neg hw]; rfl⟩
  | nothing => exact .inr ⟨_, rfl⟩
  | script o x rest => exact .inr ⟨_, rfl⟩
  | stop rest => exact .inr ⟨_, rfl⟩

/-- `scribbu -h --man -q dump`: the manual page. -/
example : (⟨[.ask .usage [45, 104], .ask .man [45, 45, 109, 97, 110], .one [45, 113]], .word [100, 117, 109, 112] []⟩ : Line).asked = [.usage, .man] ∧
    main (· = [100, 117, 109, 112]) [115] [[45, 104], [45, 45, 109, 97, 110], [45, 113], [100, 117, 109, 112]] = .ok .man := ⟨rfl, by decide +kernel⟩

/-! ## C116: options for the interpreter -/

/-- C116, in full: options for the Scheme interpreter get to it, in order, and with what follows them, or are refused. -/
def C116_claim : Prop :=
  ∀ (has : Bytes → Bool) (p : Bytes) (l : Line), l.Ok → l.asked = [] → l.guile ≠ [] →
    main has p l.words = .ok (.shell ((p :: (l.guile ++ l.tail.words)).map some)) ∨ main has p l.words = .ok .wrong

/-- C116, as far as it holds: if no sub-command follows them. -/
theorem C116_partial (has : Bytes → Bool) (p : Bytes) {l : Line} (hl : l.Ok) (ha : l.asked = []) (hs : ∀ w rest, l.tail = .word w rest → has w = false) :
    main has p l.words = .ok (.shell ((p :: (l.guile ++ l.tail.words)).map some)) := by
  rw [main_line has p hl, answer_none.2 ha]
  cases ht : l.tail with
  | word w rest => simp [hs w rest ht, Tail.words]
  | nothing => rfl
  | script o x rest => rfl
  | stop rest => rfl

/-- `scribbu -l a -s b -h`. -/
example : (⟨[.two [45, 108] [97]], .script [45, 115] [98] [[45, 104]]⟩ : Line).words = [[45, 108], [97], [45, 115], [98], [45, 104]] ∧
    main (fun _ => false) [115] [[45, 108], [97], [45, 115], [98], [45, 104]] = .ok (.shell [some [115], some [45, 108], some [97], some [45, 115], some [98], some [45, 104]]) :=
  ⟨rfl, by decide +kernel⟩

/-- **Finding** (src/scribbu.cc L420-427): options for the interpreter in front of a sub-command, which the usage message allows, are ignored without a word. -/
theorem C116_refuted : ¬ C116_claim := by
  intro h
  have := h (· = [100, 117, 109, 112]) [115] ⟨[.one [45, 113]], .word [100, 117, 109, 112] []⟩ ⟨by simpa using one_ok (by decide), by unfold Tail.Ok Plain; decide⟩ rfl (by decide)
  exact absurd this (by decide +kernel)

/-! ## C117: options that there are not -/

/-- C117, in full: a word that looks like an option but is not is refused, the usage message is shown on standard error, and nothing on standard output. -/
def C117_claim : Prop :=
  ∀ (has : Bytes → Bool) (p : Bytes) (gs : List Global) (w : Bytes) (rest : List Bytes) (names : List Bytes), (∀ g ∈ gs, g.Ok) → gs.filterMap Global.asked = [] →
    w.head? = some 45 → ¬ Known w → has w = false →
    ∃ d, main has p (gs.flatMap Global.words ++ w :: rest) = .ok d ∧ d = .wrong ∧
      (said names d).usageErr = true ∧ (said names d).usageOut = false ∧ (said names d).namesOut = []

/-- It is refused, as far as it is: if it does not begin like `--language`, `--listen` or `--use-srfi`. The names of sub-commands are on standard output, though. -/
theorem C117_partial (has : Bytes → Bool) (p : Bytes) {gs : List Global} {w : Bytes} (rest : List Bytes) (names : List Bytes) (hg : ∀ g ∈ gs, g.Ok)
    (ha : gs.filterMap Global.asked = []) (hw : w.head? = some 45) (hk : ¬ Known w) (hs : has w = false)
    (hp : ∀ x ∈ [[45, 45, 108, 97, 110, 103, 117, 97, 103, 101], [45, 45, 108, 105, 115, 116, 101, 110], [45, 45, 117, 115, 101, 45, 115, 114, 102, 105]], ¬ x <+: w) :
    main has p (gs.flatMap Global.words ++ w :: rest) = .ok .wrong ∧ (said names .wrong).usageErr = true ∧ (said names .wrong).usageOut = false := by
  refine ⟨?_, rfl, rfl⟩
  have hst : Strange w := by
    unfold Known at hk
    simp only [not_or] at hk
    obtain ⟨k1, k2, k3, k4, k5, k6⟩ := hk
    refine ⟨?_, ?_, ?_, ?_, ?_, ?_, ?_, ?_, k6⟩
    · rintro rfl; exact k1 ⟨.usage, by decide⟩
    · rintro rfl; exact k1 ⟨.man, by decide⟩
    · rintro rfl; exact k1 ⟨.man, by decide⟩
    · rintro rfl; exact k1 ⟨.info, by decide⟩
    · intro h
      simp only [wVersions, List.mem_cons, List.not_mem_nil, or_false] at h
      rcases h with rfl | rfl <;> exact k1 ⟨.version, by decide⟩
    · exact k4
    · rintro (h | h)
      · rw [List.any_eq_true] at h
        obtain ⟨x, hx, hx'⟩ := h
        exact hp x hx (List.isPrefixOf_iff_prefix.1 hx')
      · apply k2
        simp only [wSingles, List.mem_cons, List.not_mem_nil, or_false] at h
        rcases h with rfl | rfl | rfl | rfl | rfl | rfl | rfl | rfl <;> decide
    · intro h
      apply k5
      simp only [wScripts, List.mem_cons, List.not_mem_nil, or_false] at h
      rcases h with rfl | rfl <;> decide
  obtain ⟨fuel, k, hf, hk', h⟩ := loop_globals p gs hg (w :: rest) [] (rest.length + 1 + 1) (false, .none, none) ((gs.flatMap Global.words ++ w :: rest).length) (Nat.le_refl _)
  have h0 : (⟨gs.flatMap Global.words ++ w :: rest, some p :: List.replicate ((gs.flatMap Global.words ++ w :: rest).length + 1) none, 0, 1, false, .none, none⟩ : Main.St) =
      mk p [] ((gs.flatMap Global.words).length + (rest.length + 1 + 1)) (gs.flatMap Global.words ++ w :: rest) false .none none := by
    simp [mk]
    omega
  unfold main handleOptions
  rw [h0]
  simp only [mk_argv]
  rw [h, loop_strange hst]
  have : asked (false, .none, none) gs = (false, .none, none) := by unfold asked; rw [ha]; rfl
  rw [this]
  simp [mk, Res.bind, hs, hw]

/-- An option that lacks its value is refused. -/
theorem C117_value (has : Bytes → Bool) (p : Bytes) {gs : List Global} {o : Bytes} (hg : ∀ g ∈ gs, g.Ok) (ho : o ∈ twos ∨ o ∈ scripts) :
    main has p (gs.flatMap Global.words ++ [o]) = .ok .wrong := by
  obtain ⟨fuel, k, hf, hk', h⟩ := loop_globals p gs hg [o] [] 2 (false, .none, none) ((gs.flatMap Global.words ++ [o]).length) (Nat.le_refl _)
  have h0 : (⟨gs.flatMap Global.words ++ [o], some p :: List.replicate ((gs.flatMap Global.words ++ [o]).length + 1) none, 0, 1, false, .none, none⟩ : Main.St) =
      mk p [] ((gs.flatMap Global.words).length + 2) (gs.flatMap Global.words ++ [o]) false .none none := by
    simp [mk]
  obtain ⟨fuel, rfl⟩ : ∃ n, fuel = n + 1 := ⟨fuel - 1, by simp at hf; omega⟩
  obtain ⟨k, rfl⟩ : ∃ n, k = n + 1 := ⟨k - 1, by omega⟩
  unfold main handleOptions
  rw [h0]
  simp only [mk_argv]
  rw [h]
  have : ∀ (W : List Bytes) (v : Bool) (he : Help) (f : Option Flavor), loop (fuel + 1) (mk p W (k + 1) [o] v he f) = .ok .missing := by
    intro W v he f
    unfold loop
    rw [mk_argv]
    have hx : (o ≠ wH ∧ o ≠ wHelp ∧ o ≠ wMan ∧ o ≠ wInfo ∧ o ∉ wVersions) ∧
        (o ∈ wPairs ∨ (o ∉ wPairs ∧ ¬ ((wPrefixes.any fun p => p.isPrefixOf o) = true ∨ o ∈ wSingles) ∧ o ∈ wScripts)) := by
      rcases ho with ho | ho
      · simp only [twos, List.mem_cons, List.not_mem_nil, or_false] at ho
        rcases ho with rfl | rfl | rfl | rfl | rfl <;> decide
      · simp only [scripts, List.mem_cons, List.not_mem_nil, or_false] at ho
        rcases ho with rfl | rfl <;> decide
    obtain ⟨⟨h1, h2, h3, h4, h5⟩, h6 | ⟨h6, h7, h8⟩⟩ := hx
    · simp only [h1, h2, h3, h4, h5, h6, if_false, if_true, or_self, mk_shift, Res.ok_bind, mk_argv]
    · simp only [h1, h2, h3, h4, h5, h6, h7, h8, if_false, if_true, or_self, mk_shift, Res.ok_bind, mk_argv]
  rw [this]
  rfl

/-- `scribbu --hepl` -/
example : ¬ Known [45, 45, 104, 101, 112, 108] ∧ main (fun _ => false) [115] [[45, 45, 104, 101, 112, 108]] = .ok .wrong := by
  refine ⟨?_, by decide +kernel⟩
  unfold Known
  simp only [not_or]
  refine ⟨?_, by decide, ?_, by decide, by decide, by decide⟩
  · rintro ⟨a, h⟩; cases a <;> exact absurd h (by decide)
  · decide

/-- **Finding** (src/scribbu.cc L182-184): whatever begins like `--listen` is taken for that option: `--listening` is not refused. -/
theorem C117_refuted : ¬ C117_claim := by
  intro h
  obtain ⟨d, h1, h2, -⟩ := h (fun _ => false) [115] [] [45, 45, 108, 105, 115, 116, 101, 110, 105, 110, 103] [] [] (by simp) rfl rfl
    (by
      unfold Known
      simp only [not_or]
      refine ⟨?_, by decide, by decide, by decide, by decide, by decide⟩
      rintro ⟨a, h⟩; cases a <;> exact absurd h (by decide)) rfl
  subst h2
  exact absurd h1 (by decide +kernel)

/-- **Finding** (src/scribbu.cc L254): the names of the sub-commands, which are part of the usage message, go to standard output also if the message is about wrong usage and goes to
standard error. -/
theorem C117_refuted_stdout : ¬ C117_claim := by
  intro h
  obtain ⟨d, h1, h2, -, -, h3⟩ := h (fun _ => false) [115] [] [45, 120, 120] [] [[97]] (by simp) rfl rfl
    (by
      unfold Known
      simp only [not_or]
      refine ⟨?_, by decide, by decide, by decide, by decide, by decide⟩
      rintro ⟨a, h⟩; cases a <;> exact absurd h (by decide)) rfl
  subst h2
  exact absurd h3 (by decide)

end Scribbu.Props
