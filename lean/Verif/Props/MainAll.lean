import Verif.Props.Main

/-! # Every command line; the table of sub-commands; help for sub-commands (C118-C120) -/

namespace Scribbu.Props
open Scribbu Scribbu.Main Spec.Main

/-! ## C118: no command line is too much -/

/-- A state the loop may leave in: `W ++ u` has been copied, `argv` is left, and there are slots for it. -/
def Left (p : Bytes) (W argv0 : List Bytes) (s : Main.St) : Prop :=
  ∃ u k argv v h f, s = mk p (W ++ u) k argv v h f ∧ (u ++ argv).Sublist argv0 ∧ argv.length + 1 ≤ k

theorem Left.weaken {p : Bytes} {W argv argv0 : List Bytes} {s : Main.St} (h : Left p W argv s) (hs : argv.Sublist argv0) : Left p W argv0 s := by
  obtain ⟨u, k, a, v, he, f, rfl, h1, h2⟩ := h
  exact ⟨u, k, a, v, he, f, rfl, h1.trans hs, h2⟩

theorem Left.after {p : Bytes} {W X argv argv0 : List Bytes} {s : Main.St} (h : Left p (W ++ X) argv s) (hs : (X ++ argv).Sublist argv0) : Left p W argv0 s := by
  obtain ⟨u, k, a, v, he, f, rfl, h1, h2⟩ := h
  refine ⟨X ++ u, k, a, v, he, f, by simp, ?_, h2⟩
  rw [List.append_assoc]
  exact (List.Sublist.append_left h1 X).trans hs

theorem loop_left (p : Bytes) : ∀ (fuel : Nat) (W : List Bytes) (k : Nat) (argv : List Bytes) (v : Bool) (h : Help) (f : Option Flavor), argv.length + 1 ≤ k →
    ∃ o, loop fuel (mk p W k argv v h f) = .ok o ∧ ∀ s, (o = .bail s ∨ o = .rest s) → Left p W argv s
  | 0, W, k, argv, v, h, f, hk => by
    refine ⟨_, rfl, ?_⟩
    rintro s (hs | hs) <;> cases hs
    exact ⟨[], k, argv, v, h, f, by simp, by simp, hk⟩
  | fuel + 1, W, k, argv, v, h, f, hk => by
    have self : ∀ s, (Out.bail (mk p W k argv v h f) = .bail s ∨ Out.bail (mk p W k argv v h f) = .rest s) → Left p W argv s := by
      rintro s (hs | hs) <;> cases hs
      exact ⟨[], k, argv, v, h, f, by simp, by simp, hk⟩
    cases argv with
    | nil => exact ⟨_, rfl, self⟩
    | cons w ws =>
      have hk' : ws.length + 1 ≤ k := by simp only [List.length_cons] at hk; omega
      have dropped : ∀ v' h' f', ∃ o, loop fuel (mk p W k ws v' h' f') = .ok o ∧ ∀ s, (o = .bail s ∨ o = .rest s) → Left p W (w :: ws) s := by
        intro v' h' f'
        obtain ⟨o, h1, h2⟩ := loop_left p fuel W k ws v' h' f' hk'
        exact ⟨o, h1, fun s hs => (h2 s hs).weaken (List.sublist_cons_self _ _)⟩
      obtain ⟨k, rfl⟩ : ∃ n, k = n + 1 := ⟨k - 1, by omega⟩
      simp only [List.length_cons] at hk
      unfold loop
      rw [mk_argv]
      simp only
      split
      · exact dropped _ _ _
      split
      · exact dropped _ _ _
      split
      · exact dropped _ _ _
      split
      · exact dropped _ _ _
      split
      · rw [mk_shift, Res.ok_bind, mk_argv]
        cases ws with
        | nil => exact ⟨_, rfl, by rintro s (hs | hs) <;> cases hs⟩
        | cons x xs =>
          simp only [List.length_cons] at hk
          obtain ⟨k, rfl⟩ : ∃ n, k = n + 1 := ⟨k - 1, by omega⟩
          simp only
          rw [mk_shift, Res.ok_bind]
          obtain ⟨o, h1, h2⟩ := loop_left p fuel (W ++ [w] ++ [x]) k xs v h f (by omega)
          refine ⟨o, h1, fun s hs => ?_⟩
          have := h2 s hs
          rw [List.append_assoc] at this
          exact this.after (by simp)
      split
      · rw [mk_shift, Res.ok_bind]
        obtain ⟨o, h1, h2⟩ := loop_left p fuel (W ++ [w]) k ws v h f (by omega)
        exact ⟨o, h1, fun s hs => (h2 s hs).after (by simp)⟩
      split
      · rw [mk_shift, Res.ok_bind, mk_argv]
        cases ws with
        | nil => exact ⟨_, rfl, by rintro s (hs | hs) <;> cases hs⟩
        | cons x xs =>
          refine ⟨_, rfl, ?_⟩
          rintro s (hs | hs) <;> cases hs
          exact ⟨[w], k, x :: xs, v, h, f, rfl, by simp, by omega⟩
      split
      · refine ⟨_, rfl, ?_⟩
        rintro s (hs | hs) <;> cases hs
        exact ⟨[], k + 1, w :: ws, v, h, f, by simp, by simp, by simp only [List.length_cons]; omega⟩
      · exact ⟨_, rfl, self⟩

theorem handle_left (p : Bytes) (words : List Bytes) :
    ∃ o, handleOptions ⟨words, some p :: List.replicate (words.length + 1) none, 0, 1, false, .none, none⟩ = .ok o ∧ ∀ s, o = some s → Left p [] words s := by
  obtain ⟨o, h1, h2⟩ := loop_left p words.length [] (words.length + 1) words false .none none (Nat.le_refl _)
  have h0 : (⟨words, some p :: List.replicate (words.length + 1) none, 0, 1, false, .none, none⟩ : Main.St) = mk p [] (words.length + 1) words false .none none := by simp [mk]
  unfold handleOptions
  rw [h0]
  simp only [mk_argv]
  rw [h1, Res.ok_bind]
  cases o with
  | missing => exact ⟨_, rfl, by intro s hs; cases hs⟩
  | bail s => exact ⟨_, rfl, fun s' hs => by cases hs; exact h2 s (.inl rfl)⟩
  | rest s =>
    obtain ⟨u, k, a, v, he, f, rfl, h3, h4⟩ := h2 s (.inr rfl)
    simp only [mk_argv]
    rw [show k = a.length + (k - a.length) by omega, copyRest_all, Res.ok_bind]
    refine ⟨_, rfl, fun s' hs => ?_⟩
    cases hs
    exact ⟨u ++ a, k - a.length, [], v, he, f, by simp, by simpa using h3, by simp; omega⟩

/-- C118: whatever the command line is, `main` does something with it and does not write outside of the words for the interpreter. -/
theorem C118_safe (has : Bytes → Bool) (p : Bytes) (words : List Bytes) : ∃ d, main has p words = .ok d := by
  obtain ⟨o, h1, h2⟩ := handle_left p words
  unfold main
  simp only [h1, Res.ok_bind]
  cases o with
  | none => exact ⟨_, rfl⟩
  | some s =>
    obtain ⟨u, k, a, v, he, f, rfl, h3, h4⟩ := h2 s rfl
    simp only
    split
    · exact ⟨_, rfl⟩
    split
    · split <;> exact ⟨_, rfl⟩
    split
    · exact ⟨_, rfl⟩
    rw [mk_argv]
    cases a with
    | nil =>
      simp only [mk, List.length_cons, List.length_append, List.length_map, List.length_replicate]
      rw [if_pos (by simp only [List.length_nil] at h4; omega)]
      exact ⟨_, rfl⟩
    | cons w ws =>
      simp only
      split
      · exact ⟨_, rfl⟩
      split
      · exact ⟨_, rfl⟩
      · rw [takeAll_all p v he f (w :: ws) ([] ++ u) (k - (w :: ws).length) ([] ++ u).length _ (by rw [Nat.add_sub_cancel' (by omega)]; rfl), Res.ok_bind]
        simp only [mk, List.length_cons, List.length_append, List.length_map, List.length_replicate]
        rw [if_pos (by simp only [List.length_cons] at h4; omega)]
        exact ⟨_, rfl⟩

/-- The interpreter gets the program's name and words of the command line, in order, and nothing else: no slot that has not been written. -/
theorem C118_shell (has : Bytes → Bool) (p : Bytes) (words : List Bytes) {ws : List (Option Bytes)} (h : main has p words = .ok (.shell ws)) :
    ∃ l, ws = (p :: l).map some ∧ l.Sublist words := by
  obtain ⟨o, h1, h2⟩ := handle_left p words
  unfold main at h
  simp only [h1, Res.ok_bind] at h
  cases o with
  | none => cases h
  | some s =>
    obtain ⟨u, k, a, v, he, f, rfl, h3, h4⟩ := h2 s rfl
    simp only at h
    split at h
    · cases h
    split at h
    · split at h <;> cases h
    split at h
    · cases h
    rw [mk_argv] at h
    cases a with
    | nil =>
      simp only at h
      split at h
      · simp only [Res.ok.injEq, Did.shell.injEq] at h
        subst h
        refine ⟨u, ?_, by simpa using h3⟩
        simp only [mk, List.nil_append, List.take_succ_cons, List.map_cons]
        rw [List.take_left' (by simp)]
      · cases h
    | cons w ws' =>
      simp only at h
      split at h
      · cases h
      split at h
      · cases h
      · rw [takeAll_all p v he f (w :: ws') ([] ++ u) (k - (w :: ws').length) ([] ++ u).length _ (by rw [Nat.add_sub_cancel' (by omega)]; rfl), Res.ok_bind] at h
        split at h
        · simp only [Res.ok.injEq, Did.shell.injEq] at h
          subst h
          refine ⟨u ++ w :: ws', ?_, h3⟩
          simp only [mk, List.nil_append, List.take_succ_cons, List.map_cons]
          rw [List.take_left' (by simp)]
        · cases h

/-- A sub-command gets the words at the end of the command line, its name before them. -/
theorem C118_sub (has : Bytes → Bool) (p : Bytes) (words : List Bytes) {w : Bytes} {args : List Bytes} (h : main has p words = .ok (.sub w args)) :
    has w = true ∧ (w :: args).Sublist words := by
  obtain ⟨o, h1, h2⟩ := handle_left p words
  unfold main at h
  simp only [h1, Res.ok_bind] at h
  cases o with
  | none => cases h
  | some s =>
    obtain ⟨u, k, a, v, he, f, rfl, h3, h4⟩ := h2 s rfl
    simp only at h
    split at h
    · cases h
    split at h
    · split at h <;> cases h
    split at h
    · cases h
    rw [mk_argv] at h
    cases a with
    | nil => simp only at h; split at h <;> cases h
    | cons x ws' =>
      simp only at h
      split at h
      · rename_i hx
        cases h
        exact ⟨hx, (List.sublist_append_right _ _).trans h3⟩
      split at h
      · cases h
      · rw [takeAll_all p v he f (x :: ws') ([] ++ u) (k - (x :: ws').length) ([] ++ u).length _ (by rw [Nat.add_sub_cancel' (by omega)]; rfl), Res.ok_bind] at h
        split at h <;> cases h

/-- `scribbu -L` with nothing behind it; `scribbu a -h b`. -/
example : main (fun _ => false) [115] [[45, 76]] = .ok .wrong ∧
    main (fun _ => false) [115] [[97], [45, 104], [98]] = .ok (.shell [some [115], some [97], some [45, 104], some [98]]) := by decide +kernel

/-! ## C119: the table of sub-commands -/

theorem lookup_none {h : Type} {m : Map h} {n : Bytes} (hn : n ∉ m.map Prod.fst) : m.lookup n = none := by
  rw [List.lookup_eq_none_iff]
  intro q hq
  apply bne_iff_ne.2
  rintro rfl
  exact hn (List.mem_map_of_mem hq)

theorem registerAll_ok {h : Type} : ∀ (l : List (Bytes × h)) (m : Map h), ((l ++ m).map Prod.fst).Nodup → registerAll l m = .ok (l.reverse ++ m)
  | [], m, _ => rfl
  | (n, f) :: l, m, hn => by
    rw [List.cons_append, List.map_cons, List.nodup_cons] at hn
    have h1 : n ∉ m.map Prod.fst := fun h => hn.1 (by rw [List.map_append]; exact List.mem_append_right _ h)
    have h2 : ((l ++ (n, f) :: m).map Prod.fst).Nodup := by
      have : (l ++ (n, f) :: m).Perm ((n, f) :: (l ++ m)) := List.perm_middle
      rw [(this.map Prod.fst).nodup_iff, List.map_cons, List.nodup_cons]
      exact hn
    simp only [registerAll, register, lookup_none h1, Res.ok_bind]
    rw [registerAll_ok l _ h2]
    simp

theorem lookup_of_mem {h : Type} : ∀ {m : Map h} {n : Bytes} {f : h}, (m.map Prod.fst).Nodup → (n, f) ∈ m → m.lookup n = some f
  | (a, g) :: m, n, f, hn, hm => by
    rw [List.map_cons, List.nodup_cons] at hn
    rcases List.mem_cons.1 hm with he | he
    · cases he
      simp
    · have : n ≠ a := by rintro rfl; exact hn.1 (List.mem_map.2 ⟨_, he, rfl⟩)
      rw [List.lookup_cons]
      rw [beq_eq_false_iff_ne.2 this]
      exact lookup_of_mem hn.2 he

/-- C119: whatever the order in which modules register their sub-commands, nothing is thrown, and each name has its own handler, and no other name has one. -/
theorem C119_table {l : List (Bytes × Sub)} (hl : l.Perm subs) :
    ∃ m, registerAll l [] = .ok m ∧ (∀ n f, (n, f) ∈ subs → hasSub m n = true ∧ getSub m n = .ok f) ∧ ∀ n, n ∉ subs.map Prod.fst → hasSub m n = false ∧ getSub m n = .throw .outOfRange := by
  have hnd : (l.map Prod.fst).Nodup := (hl.map Prod.fst).nodup_iff.2 (by decide)
  have hp : l.reverse.Perm subs := (List.reverse_perm l).trans hl
  have hnr : (l.reverse.map Prod.fst).Nodup := (hp.map Prod.fst).nodup_iff.2 (by decide)
  refine ⟨l.reverse, by rw [registerAll_ok l [] (by simpa using hnd)]; simp, fun n f h => ?_, fun n h => ?_⟩
  · have := lookup_of_mem hnr (hp.mem_iff.2 h)
    simp [hasSub, getSub, this]
  · have : l.reverse.lookup n = none := lookup_none (fun h' => h ((hp.map Prod.fst).mem_iff.1 h'))
    simp [hasSub, getSub, this]

/-- Together with C114: a command line with the name of a sub-command as the first word that is no option has its handler called with the words behind it. -/
theorem C119_run {l : List (Bytes × Sub)} (hl : l.Perm subs) (p : Bytes) (ln : Line) {w : Bytes} {rest : List Bytes} {f : Sub} (hln : ln.Ok) (ht : ln.tail = .word w rest)
    (ha : ln.asked = []) (hw : (w, f) ∈ subs) : ∃ m, registerAll l [] = .ok m ∧ main (hasSub m) p ln.words = .ok (.sub w rest) ∧ getSub m w = .ok f := by
  obtain ⟨m, h1, h2, -⟩ := C119_table hl
  exact ⟨m, h1, C114_sub _ p hln ht ha (h2 w f hw).1, (h2 w f hw).2⟩

/-- A second sub-command of the same name is refused before anything runs, and does not take the place of the first. -/
theorem C119_twice {h : Type} (l₁ l₂ l₃ : List (Bytes × h)) (n : Bytes) (f g : h) : registerAll (l₁ ++ (n, f) :: l₂ ++ (n, g) :: l₃) [] = .throw .outOfRange := by
  have thr : ∀ (a : List (Bytes × h)) (m : Map h), n ∈ m.map Prod.fst → registerAll (a ++ (n, g) :: l₃) m = .throw .outOfRange := by
    intro a
    induction a with
    | nil =>
      intro m hm
      have : ∃ x, m.lookup n = some x := by
        cases hx : m.lookup n with
        | some x => exact ⟨x, rfl⟩
        | none =>
          rw [List.lookup_eq_none_iff] at hx
          obtain ⟨q, hq, rfl⟩ := List.mem_map.1 hm
          simpa using hx q hq
      obtain ⟨x, hx⟩ := this
      simp [registerAll, register, hx]
    | cons q a ih =>
      intro m hm
      obtain ⟨k, v⟩ := q
      rw [List.cons_append, registerAll]
      unfold register
      cases m.lookup k with
      | some _ => rfl
      | none =>
        rw [Res.ok_bind]
        exact ih _ (by rw [List.map_cons]; exact List.mem_cons_of_mem _ hm)
  have thr2 : ∀ (a : List (Bytes × h)) (m : Map h), registerAll (a ++ (n, f) :: (l₂ ++ (n, g) :: l₃)) m = .throw .outOfRange := by
    intro a
    induction a with
    | nil =>
      intro m
      rw [List.nil_append, registerAll]
      unfold register
      cases m.lookup n with
      | some _ => rfl
      | none =>
        rw [Res.ok_bind]
        exact thr l₂ _ (by simp)
    | cons q a ih =>
      intro m
      obtain ⟨k, v⟩ := q
      rw [List.cons_append, registerAll]
      unfold register
      cases m.lookup k with
      | some _ => rfl
      | none => exact ih _
  rw [List.append_assoc]
  exact thr2 l₁ []

/-- `m3u` is there, `mp3` is not. -/
example : ([109, 51, 117], Sub.m3u) ∈ subs ∧ [109, 112, 51] ∉ subs.map Prod.fst := by decide

/-! ## C120: help for a sub-command -/

/-- The words that ask for help. -/
def helps : List (Bytes × Did) := [([45, 104], .usage), ([45, 45, 104, 101, 108, 112], .man), ([45, 45, 109, 97, 110], .man), ([45, 45, 105, 110, 102, 111], .info)]

/-- What an option asks for, if it is for help; positional words do not ask for any. -/
def helpOf (o : Parsed) : Option Did :=
  if o.positional then none
  else match o.tokens with
    | w :: _ => helps.lookup w
    | [] => none

/-- C120, in full: a sub-command shows help if, and only if, an option asks for it; the last one decides. -/
def C120_claim : Prop := ∀ os : List Parsed, maybeHelp os = (os.filterMap helpOf).getLast?

/-- No word that asks for help but one that is an option. (Boost itself refuses a value that is one of these words unless it is written behind `=`.) -/
def Fair (o : Parsed) : Prop :=
  if o.positional then ∀ w ∈ o.tokens, w ∉ helps.map Prod.fst
  else match o.tokens with
    | _ :: vs => ∀ w ∈ vs, w ∉ helps.map Prod.fst
    | [] => True

def effect (r : Help × Option Flavor) : Option Did → Help × Option Flavor
  | none => r
  | some .usage => (.regular, r.2)
  | some .man => (.verbose, some .man)
  | some _ => (.verbose, some .info)

theorem helpTokens_none : ∀ (ts : List Bytes) (r : Help × Option Flavor), (∀ w ∈ ts, w ∉ helps.map Prod.fst) → helpTokens ts r = r
  | [], _, _ => rfl
  | t :: ts, r, h => by
    have ht := h t (by simp)
    simp only [helps, List.map_cons, List.map_nil, List.mem_cons, List.not_mem_nil, or_false, not_or] at ht
    obtain ⟨h1, h2, h3, h4⟩ := ht
    rw [helpTokens, if_neg (show t ≠ wH from h1), if_neg (show ¬ (t = wHelp ∨ t = wMan) from fun h => h.elim h2 h3), if_neg (show t ≠ wInfo from h4)]
    exact helpTokens_none ts r (fun w hw => h w (List.mem_cons_of_mem _ hw))

theorem helpTokens_fair {o : Parsed} (ho : Fair o) (r : Help × Option Flavor) : helpTokens o.tokens r = effect r (helpOf o) := by
  obtain ⟨pos, ts⟩ := o
  unfold Fair at ho
  unfold helpOf
  cases pos with
  | true =>
    simp only [if_true] at ho ⊢
    exact helpTokens_none ts r ho
  | false =>
    cases ts with
    | nil => rfl
    | cons w ws =>
      simp only [Bool.false_eq_true, if_false] at ho ⊢
      by_cases h1 : w = [45, 104]
      · subst h1; rfl
      by_cases h2 : w = [45, 45, 104, 101, 108, 112]
      · subst h2; rfl
      by_cases h3 : w = [45, 45, 109, 97, 110]
      · subst h3; rfl
      by_cases h4 : w = [45, 45, 105, 110, 102, 111]
      · subst h4; rfl
      have : helps.lookup w = none := by
        rw [List.lookup_eq_none_iff]
        simp [helps, h1, h2, h3, h4]
      rw [this]
      exact helpTokens_none (w :: ws) r (by
        intro x hx
        rcases List.mem_cons.1 hx with rfl | hx
        · simp [helps, h1, h2, h3, h4]
        · exact ho x hx)

theorem helps_some {o : Parsed} {d : Did} (h : helpOf o = some d) : d = .usage ∨ d = .man ∨ d = .info := by
  unfold helpOf at h
  split at h
  · cases h
  · split at h
    · rename_i w _ _
      simp only [helps, List.lookup_cons, List.lookup_nil] at h
      split at h
      · cases h; exact .inl rfl
      · split at h
        · cases h; exact .inr (.inl rfl)
        · split at h
          · cases h; exact .inr (.inl rfl)
          · split at h
            · cases h; exact .inr (.inr rfl)
            · cases h
    · cases h

theorem foldl_help : ∀ (os : List Parsed) (r : Help × Option Flavor), (∀ o ∈ os, Fair o) →
    (match (os.filterMap helpOf).getLast? with
      | none => os.foldl (fun r o => helpTokens o.tokens r) r = r
      | some .usage => (os.foldl (fun r o => helpTokens o.tokens r) r).1 = .regular
      | some .man => os.foldl (fun r o => helpTokens o.tokens r) r = (.verbose, some .man)
      | some .info => os.foldl (fun r o => helpTokens o.tokens r) r = (.verbose, some .info)
      | some _ => False)
  | [], r, _ => rfl
  | o :: os, r, hf => by
    have ih := foldl_help os (effect r (helpOf o)) (fun x hx => hf x (List.mem_cons_of_mem _ hx))
    rw [List.foldl_cons, helpTokens_fair (hf o (by simp))]
    cases ho : helpOf o with
    | none =>
      rw [List.filterMap_cons_none ho]
      rw [ho] at ih
      exact ih
    | some d =>
      rw [List.filterMap_cons_some ho, List.getLast?_cons]
      rw [ho] at ih
      cases hl : (os.filterMap helpOf).getLast? with
      | some d' =>
        rw [hl] at ih
        rw [Option.getD_some]
        cases d' <;> exact ih
      | none =>
        rw [hl] at ih
        simp only at ih
        simp only [Option.getD_none]
        rcases helps_some ho with rfl | rfl | rfl
        · rw [ih]; rfl
        · rw [ih]; rfl
        · rw [ih]; rfl

/-- C120, as far as it holds: if no value and no positional word is `-h`, `--help`, `--man` or `--info`. -/
theorem C120_partial (os : List Parsed) (hf : ∀ o ∈ os, Fair o) : maybeHelp os = (os.filterMap helpOf).getLast? := by
  have h := foldl_help os (.none, none) hf
  unfold maybeHelp helpLevel
  revert h
  generalize List.foldl (fun r (o : Parsed) => helpTokens o.tokens r) (Help.none, (none : Option Flavor)) os = r
  intro h
  obtain ⟨a, b⟩ := r
  cases hl : (os.filterMap helpOf).getLast? with
  | none => rw [hl] at h; simp only at h; cases h; rfl
  | some d =>
    rw [hl] at h
    cases d with
    | usage => simp only at h; subst h; rfl
    | man => simp only at h; cases h; rfl
    | info => simp only at h; cases h; rfl
    | version => exact h.elim
    | wrong => exact h.elim
    | sub _ _ => exact h.elim
    | shell _ => exact h.elim

/-- `-h x --info`. -/
example : (∀ o ∈ [(⟨false, [[45, 104]]⟩ : Parsed), ⟨true, [[120]]⟩, ⟨false, [[45, 45, 105, 110, 102, 111]]⟩], Fair o) ∧
    maybeHelp [⟨false, [[45, 104]]⟩, ⟨true, [[120]]⟩, ⟨false, [[45, 45, 105, 110, 102, 111]]⟩] = some .info := by
  refine ⟨?_, by decide⟩
  intro o ho
  simp only [List.mem_cons, List.not_mem_nil, or_false] at ho
  rcases ho with rfl | rfl | rfl <;> (unfold Fair; decide)

/-- **Finding** (src/command-utilities.cc L76-90): the words on the command line are looked at, not the options they have been found to be: a file of the name `-h`, given behind `--` as is
usual, makes sub-commands print their usage message and do nothing. -/
theorem C120_refuted : ¬ C120_claim := fun h => absurd (h [⟨true, [[45, 104]]⟩]) (by decide)

end Scribbu.Props
