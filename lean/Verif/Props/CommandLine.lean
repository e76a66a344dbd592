import Verif.Proofs.CommandLine
import Verif.Props.Options

/-! # Command lines as a whole (C182-C184) -/

namespace Scribbu.Props

open Scribbu.Options Scribbu.Spec.Options

/-! ## C182: abbreviations -/

/-- C182 in full: the name of an option may be abbreviated if no other option that is listed in the help begins likewise. -/
def C182_claim : Prop :=
  ∀ (B : Boost), ∀ c ∈ commands, ∀ o ∈ c.opts, ∀ (n : Bytes) (env : List (Bytes × Bytes)) (is : Bytes) (words : List Bytes), n ≠ [] → n <+: o.long →
    (∀ p ∈ c.cli ++ c.opts, n <+: p.long → p = o) → (is = [] ∨ ∃ v, v ≠ [] ∧ is = 61 :: v) →
    options B c env (([45, 45] ++ n ++ is) :: words) = options B c env (([45, 45] ++ o.long ++ is) :: words)

/-- **Finding** (C182). The option `arguments`, which is how the files are stored, is not listed in the help but counts: `scribbu text --ar=x f` is refused as
ambiguous, although `--artist` is the only option listed that begins like this; `--arguments=g` adds a file. -/
theorem C182_refuted_hidden : ∀ (B : Boost) (env : List (Bytes × Bytes)) (words : List Bytes),
    options B text env (/- --ar=x -/ [45, 45, 97, 114, 61, 120] :: words) = .throw .invalidArgument := by
  intro B env words
  have hp : parseWord text.all /- --ar=x -/ [45, 45, 97, 114, 61, 120] = .ok [⟨/- ar -/ [97, 114], [/- x -/ [120]], [/- --ar=x -/ [45, 45, 97, 114, 61, 120]]⟩] := by decide +kernel
  have hf : find text.all /- ar -/ [97, 114] true = .throw .invalidArgument := by decide +kernel
  unfold options run
  rw [items_cons, hp]
  simp only [Res.ok_bind, List.isEmpty_cons, Bool.false_eq_true, if_false, finishAll]
  have : finish text.all ⟨/- ar -/ [97, 114], [/- x -/ [120]], [/- --ar=x -/ [45, 45, 97, 114, 61, 120]]⟩ words = .throw .invalidArgument := by
    unfold finish
    rw [if_neg (by decide), hf]; rfl
  rw [this]; rfl

theorem not_C182 : ¬ C182_claim := by
  intro h
  have h1 := h lenient text (by decide +kernel) ⟨/- artist -/ [97, 114, 116, 105, 115, 116], some 65, .value .text, false, none⟩ (by decide +kernel) /- ar -/ [97, 114] [] /- =x -/ [61, 120] [/- f -/ [102]] (by decide) (by decide +kernel)
    (by decide +kernel) (.inr ⟨/- x -/ [120], by decide, rfl⟩)
  have h2 : options lenient text [] [/- --ar=x -/ [45, 45, 97, 114, 61, 120], /- f -/ [102]] = .throw .invalidArgument := C182_refuted_hidden lenient [] [/- f -/ [102]]
  have h3 : (match options lenient text [] [/- --artist=x -/ [45, 45, 97, 114, 116, 105, 115, 116, 61, 120], /- f -/ [102]] with
    | .ok _ => true
    | _ => false) = true := by decide +kernel
  have h4 : options lenient text [] [/- --artist=x -/ [45, 45, 97, 114, 116, 105, 115, 116, 61, 120], /- f -/ [102]] = .throw .invalidArgument := h1.symm.trans h2
  rw [h4] at h3
  cases h3

/-- **Finding** (C182). -/
theorem C182_refuted : ¬ C182_claim := not_C182

/-- C182 where the hidden option does not begin likewise either.

Missing: beginnings of `arguments` (`argument` for `split`). -/
theorem C182_partial (B : Boost) (c : Cmd) (hc : c ∈ commands) (o : Opt) (ho : o ∈ c.opts) (n : Bytes) (env : List (Bytes × Bytes)) (is : Bytes)
    (words : List Bytes) (hn : Name c o n) (his : is = [] ∨ ∃ v, v ≠ [] ∧ is = 61 :: v) :
    options B c env (([45, 45] ++ n ++ is) :: words) = options B c env (([45, 45] ++ o.long ++ is) :: words) := by
  obtain ⟨h1, h2, h3⟩ := name_find hc ho hn
  obtain ⟨h4, -, h5, h6⟩ := table_long c hc o (opts_all ho)
  apply options_alike
  have key : Alike (items c.all (([45, 45] ++ n ++ is) :: words).length (([45, 45] ++ n ++ is) :: words))
      (items c.all (([45, 45] ++ o.long ++ is) :: words).length (([45, 45] ++ o.long ++ is) :: words)) := by
    rcases his with rfl | ⟨v, hv, rfl⟩
    · rw [List.append_nil, List.append_nil]
      exact items_finish (parseWord_long _ _ h2 h3) (parseWord_long _ _ h6 h5) (finish_named h1 h4 h2 h6 _ _ _ _)
    · have e : ∀ n : Bytes, [45, 45] ++ n ++ 61 :: v = [45, 45] ++ n ++ [61] ++ v := by intro n; simp
      rw [e, e]
      exact items_finish (parseWord_longIs _ _ _ h2 h3 hv) (parseWord_longIs _ _ _ h6 h5 hv) (finish_named h1 h4 h2 h6 _ _ _ _)
  unfold run
  revert key
  generalize items c.all _ (([45, 45] ++ n ++ is) :: words) = x
  generalize items c.all _ (([45, 45] ++ o.long ++ is) :: words) = y
  intro key
  cases x <;> cases y <;> first | exact key.elim | skip
  · exact place_alike c 0 key
  · exact key
  · exact key

/-- The hypotheses are met: `--alb` for `--album`, but `--al` is also a beginning of `--always-create-v2`. -/
example : Name text ⟨/- album -/ [97, 108, 98, 117, 109], some 97, .value .text, false, none⟩ /- alb -/ [97, 108, 98] ∧
    (options lenient text [] [/- --alb=x -/ [45, 45, 97, 108, 98, 61, 120], /- f -/ [102]]).bind (fun m => .ok (m /- album -/ [97, 108, 98, 117, 109])) = .ok (some (.one /- x -/ [120], false)) ∧
    (options lenient text [] [/- --al=x -/ [45, 45, 97, 108, 61, 120], /- f -/ [102]]).bind (fun m => .ok (m /- album -/ [97, 108, 98, 117, 109])) = .throw .invalidArgument :=
  ⟨.inr ⟨by decide, by decide +kernel, by decide +kernel⟩, by decide +kernel, by decide +kernel⟩

/-! ## C183: files -/

/-- **C183**: the words of a command line that are no options are the files, in the order in which they are given; what follows `--` are files, whatever it is. -/
theorem C183_files (B : Boost) (c : Cmd) (hc : c ∈ commands) (env : List (Bytes × Bytes)) (words : List Bytes) (gs : List (Opt × Bytes)) (fs : List Bytes)
    (hr : Reads c words gs fs) (hf : fs ≠ []) (m : Vars) (h : options B c env words = .ok m) : files c m = .ok fs := by
  obtain ⟨-, -, h3⟩ := reads_options hc hr h
  obtain ⟨a, x, ha, hx, hm⟩ := h3 hf
  obtain ⟨-, -, a', -, -, ha', hk⟩ := table_files c hc
  rw [ha'] at ha
  cases ha
  unfold files
  rw [hm]
  cases hx with
  | switch v h => rcases hk with ⟨t, ht⟩ | ⟨⟨t, ht⟩, -⟩ <;> rw [ht] at h <;> cases h
  | value t v => rfl
  | values t => rfl

/-- `split` takes one file; a second one is refused. -/
theorem C183_most (B : Boost) (c : Cmd) (hc : c ∈ commands) (env : List (Bytes × Bytes)) (words : List Bytes) (gs : List (Opt × Bytes)) (fs : List Bytes)
    (hr : Reads c words gs fs) (k : Nat) (hk : c.most = some k) (hf : k < fs.length) : options B c env words = .throw .invalidArgument := by
  rcases options_total B c hc env words with ⟨m, h⟩ | h
  · have := (reads_options hc hr h).1 k hk
    omega
  · exact h

/-- A library that takes the text for text can be given any files. -/
theorem C183_accepted (B : Boost) (c : Cmd) (hc : c ∈ commands) (hr : c ≠ Options.report) (words : List Bytes) (hw : words ≠ []) (hp : ∀ w ∈ words, Plain w)
    (ht : ∀ w ∈ words, B.ok .text w = true) (hm : ∀ k, c.most = some k → words.length ≤ k) :
    ∃ m, options B c [] words = .ok m ∧ files c m = .ok words := by
  have hread : Reads c words [] words := by
    clear hw ht hm
    induction words with
    | nil => exact .done
    | cons w ws ih => exact .file w (.inl (hp w (by simp))) (ih fun w' h => hp w' (by simp [h]))
  suffices ∃ m, options B c [] words = .ok m by
    obtain ⟨m, h⟩ := this
    exact ⟨m, h, C183_files B c hc [] words [] words hread hw m h⟩
  have hitems : ∀ ws : List Bytes, (∀ w ∈ ws, Plain w) → items c.all ws.length ws = .ok (ws.map word) := by
    intro ws hp
    induction ws with
    | nil => rfl
    | cons w ws ih =>
      rw [items_cons, parseWord_plain _ _ (hp w (by simp))]
      simp only [Res.ok_bind, List.isEmpty_nil, if_true, if_neg (plain_not_end (hp w (by simp)))]
      rw [ih fun w' h => hp w' (by simp [h])]; rfl
  have hplace : ∀ (ws : List Bytes) (n : Nat), (∀ k, c.most = some k → n + ws.length ≤ k) →
      place c n (ws.map word) = .ok (ws.map fun w => ⟨c.positional, [w], [w]⟩) := by
    intro ws
    induction ws with
    | nil => intro n _; rfl
    | cons w ws ih =>
      intro n hn
      rw [List.map_cons, place, if_pos (by simp [word]), if_pos, ih (n + 1)]
      · rfl
      · intro k hk; have := hn k hk; simp at this; omega
      · cases e : c.most with
        | none => rfl
        | some k => have := hn k e; simp at this; simp; omega
  have hrun : run c words = .ok (words.map fun w => ⟨c.positional, [w], [w]⟩) := by
    unfold run
    rw [hitems words hp]
    exact hplace words 0 (by simpa using hm)
  obtain ⟨hp1, -, a, hah, hal, ha, hk⟩ := table_files c hc
  have hka : a.kind = .values .text ∨ (a.kind = .value .text ∧ c.most = some 1) := by
    have key : ∀ c ∈ commands, ∀ a ∈ c.hidden, a.long = c.positional → (a.kind = .values .text ∨ a.kind = .value .text ∧ c.most = some 1) := by decide +kernel
    exact key c hc a hah hal
  have hput : ∃ x, put B c.all (fun _ => false) (words.map fun w => ⟨c.positional, [w], [w]⟩) (fun _ => none) =
      .ok (Vars.set (fun _ => none) c.positional (x, false)) := by
    rcases hka with hka | ⟨hka, hmost⟩
    · have go : ∀ (ws l : List Bytes), (∀ w ∈ ws, B.ok .text w = true) →
          put B c.all (fun _ => false) (ws.map fun w => ⟨c.positional, [w], [w]⟩) (Vars.set (fun _ => none) c.positional (.many l, false)) =
            .ok (Vars.set (fun _ => none) c.positional (.many (l ++ ws), false)) := by
        intro ws
        induction ws with
        | nil => intro l _; simp [put]
        | cons w ws ih =>
          intro l h
          rw [List.map_cons, put_go (d := a) (v := .many (l ++ [w])) hp1 rfl ha]
          · rw [set_set, ih _ fun w' h' => h w' (by simp [h'])]; simp
          · simp only [Vars.given, set_same]
            simp only [Boost.parse, hka, h w (by simp), if_true]
      obtain ⟨w, ws, rfl⟩ := List.exists_cons_of_ne_nil hw
      refine ⟨.many (w :: ws), ?_⟩
      rw [List.map_cons, put_go (d := a) (v := .many [w]) hp1 rfl ha]
      · exact go ws [w] fun w' h' => ht w' (by simp [h'])
      · simp only [Vars.given, Boost.parse, hka, ht w (by simp), if_true]
    · obtain ⟨w, ws, rfl⟩ := List.exists_cons_of_ne_nil hw
      have hlen := hm 1 hmost
      have : ws = [] := by
        cases ws with
        | nil => rfl
        | cons _ _ => simp at hlen
      subst this
      refine ⟨.one w, ?_⟩
      rw [List.map_cons, put_go (d := a) (v := .one w) hp1 rfl ha]
      · rfl
      · simp only [Vars.given, Boost.parse, hka, ht w (by simp), if_true]
  obtain ⟨x, hx⟩ := hput
  have hreq : ∀ c ∈ commands, c ≠ Options.report → ∀ o ∈ c.all, o.required = true → o.long = c.positional := by decide +kernel
  have hs : ∀ os, (presets os (Vars.set (fun _ => none) c.positional (x, false))) c.positional = some (x, false) := fun os =>
    presets_some os _ _ _ (set_same _ _ _)
  by_cases he : c.env = []
  · refine ⟨_, options_of hrun hx (.inl ⟨he, rfl⟩) ?_⟩
    intro o ho hreq'
    rw [hreq c hc hr o ho hreq', hs]; rfl
  · refine ⟨_, options_of hrun hx (.inr ⟨he, _, rfl, rfl⟩) ?_⟩
    intro o ho hreq'
    rw [hreq c hc hr o ho hreq', presets_some _ _ _ _ (hs _)]; rfl

/-- The hypotheses are met: files before, between and after options, letters written together, an abbreviation, and `--`. -/
example : Reads text [/- a -/ [97], /- -Cv -/ [45, 67, 118], /- b -/ [98], /- --alb -/ [45, 45, 97, 108, 98], /- x -/ [120], /- - -/ [45], /- -- -/ [45, 45], /- -c -/ [45, 99]]
      [(switch /- always-create-v2 -/ [97, 108, 119, 97, 121, 115, 45, 99, 114, 101, 97, 116, 101, 45, 118, 50] (some 67), []), (switch /- verbose -/ [118, 101, 114, 98, 111, 115, 101] (some 118), []), (⟨/- album -/ [97, 108, 98, 117, 109], some 97, .value .text, false, none⟩, /- x -/ [120])] [/- a -/ [97], /- b -/ [98], /- - -/ [45], /- -c -/ [45, 99]] ∧
    (options lenient text [] [/- a -/ [97], /- -Cv -/ [45, 67, 118], /- b -/ [98], /- --alb -/ [45, 45, 97, 108, 98], /- x -/ [120], /- - -/ [45], /- -- -/ [45, 45], /- -c -/ [45, 99]]).bind (files text) = .ok [/- a -/ [97], /- b -/ [98], /- - -/ [45], /- -c -/ [45, 99]] := by
  refine ⟨.file _ (.inl (by unfold Plain; decide)) (.also (by decide +kernel) rfl rfl (by decide) ?_), by decide +kernel⟩
  refine .opt (f := [/- -v -/ [45, 118]]) (n := /- verbose -/ [118, 101, 114, 98, 111, 115, 101]) (by decide +kernel) (.inl rfl) (.short 118 rfl rfl) (.file _ (.inl (by unfold Plain; decide)) ?_)
  refine .opt (f := [/- --alb -/ [45, 45, 97, 108, 98], /- x -/ [120]]) (n := /- alb -/ [97, 108, 98]) (by decide +kernel) (.inr ⟨by decide, by decide +kernel, by decide +kernel⟩) (.longNext (by decide) (by unfold Plain; decide))
    (.file _ (.inr rfl) (.rest _))

/-- `split` refuses the second. -/
example : split.most = some 1 ∧ (options lenient split [] [/- a -/ [97]]).bind (files split) = .ok [/- a -/ [97]] ∧
    (options lenient split [] [/- a -/ [97], /- b -/ [98]]).bind (files split) = .throw .invalidArgument := by
  refine ⟨rfl, ?_, ?_⟩ <;> decide +kernel

/-! ## C184: values -/

/-- **C184**: what is given on a command line is what the options are then, whatever the environment: a switch that is given is on, an option with a value has that
value, and one that takes a list has all that were given, in order. -/
theorem C184_given (B : Boost) (c : Cmd) (hc : c ∈ commands) (env : List (Bytes × Bytes)) (words : List Bytes) (gs : List (Opt × Bytes)) (fs : List Bytes)
    (hr : Reads c words gs fs) (m : Vars) (h : options B c env words = .ok m) (o : Opt) (ho : o ∈ c.opts) (hg : given gs o ≠ []) :
    ∃ x, Means o (given gs o) x ∧ m o.long = some (x, false) :=
  (reads_options hc hr h).2.1 o ho hg

/-- An option that does not take a list cannot be given twice: the command line is refused, rather than one of the values ignored. -/
theorem C184_twice (B : Boost) (c : Cmd) (hc : c ∈ commands) (env : List (Bytes × Bytes)) (words : List Bytes) (gs : List (Opt × Bytes)) (fs : List Bytes)
    (hr : Reads c words gs fs) (o : Opt) (ho : o ∈ c.opts) (hk : ∀ t, o.kind ≠ .values t) (hg : 2 ≤ (given gs o).length) :
    options B c env words = .throw .invalidArgument := by
  rcases options_total B c hc env words with ⟨m, h⟩ | h
  · obtain ⟨x, hx, -⟩ := C184_given B c hc env words gs fs hr m h o ho (by intro e; rw [e] at hg; simp at hg)
    generalize given gs o = vs at hx hg
    cases hx with
    | switch => simp at hg
    | value => simp at hg
    | values t _ h => exact absurd h (hk t)
  · exact h

/-- Two values for a list and for another option. -/
example : (options lenient text [] [/- -t -/ [45, 116], /- 0 -/ [48], /- f -/ [102], /- --tag=2 -/ [45, 45, 116, 97, 103, 61, 50]]).bind (fun m => .ok (m /- tag -/ [116, 97, 103])) = .ok (some (.many [/- 0 -/ [48], /- 2 -/ [50]], false)) ∧
    (options lenient text [] [/- -Ax -/ [45, 65, 120], /- f -/ [102], /- --artist=y -/ [45, 45, 97, 114, 116, 105, 115, 116, 61, 121]]).bind (fun m => .ok (m /- artist -/ [97, 114, 116, 105, 115, 116])) = .throw .invalidArgument ∧
    Reads text [/- -Ax -/ [45, 65, 120], /- f -/ [102], /- --artist=y -/ [45, 45, 97, 114, 116, 105, 115, 116, 61, 121]] [(⟨/- artist -/ [97, 114, 116, 105, 115, 116], some 65, .value .text, false, none⟩, /- x -/ [120]), (⟨/- artist -/ [97, 114, 116, 105, 115, 116], some 65, .value .text, false, none⟩, /- y -/ [121])] [/- f -/ [102]] := by
  refine ⟨by decide +kernel, by decide +kernel, ?_⟩
  refine .opt (f := [/- -Ax -/ [45, 65, 120]]) (n := /- artist -/ [97, 114, 116, 105, 115, 116]) (by decide +kernel) (.inl rfl) (.shortIs 65 (by decide) rfl (by decide)) (.file _ (.inl (by unfold Plain; decide)) ?_)
  exact .opt (f := [/- --artist=y -/ [45, 45, 97, 114, 116, 105, 115, 116, 61, 121]]) (n := /- artist -/ [97, 114, 116, 105, 115, 116]) (by decide +kernel) (.inl rfl) (.longIs (by decide) (by decide)) .done

end Scribbu.Props
