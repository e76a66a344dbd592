import Verif.Model.Pager
import Verif.Spec.Pager
import Verif.Props.Genres

/-! # The list of genres (C175-C177) -/

namespace Scribbu.Props

open Scribbu.Pager Scribbu.Spec.Pager

/-- The lines printed. -/
theorem genre_lines : printGenres.bind (fun b => .ok (lines b)) =
    .ok ((List.range 192).filterMap fun n => (Spec.genres[n]?).map fun t => line n t) := by
  decide +kernel

/-- Each number below 192 has its line. -/
theorem genre_line_at : ∀ n < 192, ((List.range 192).filterMap fun n => (Spec.genres[n]?).map fun t => line n t)[n]? = (Spec.genres[n]?).map fun t => line n t := by
  decide +kernel

theorem genre_line_count : ((List.range 192).filterMap fun n => (Spec.genres[n]?).map fun t => line n t).length = 192 := by decide +kernel

/-- C175: what `--list-winamp-genres --no-pager` prints has, as its line `n` counted from 0, that number and the genre that `--winamp=n` stands for; and there are no
lines but for the numbers that `--winamp` takes. -/
theorem C175_list (S : Sys) (s : FS) : ∃ b, (winampGenres S true s).res = .ok (.printed b) ∧ (winampGenres S true s).fs = s ∧
    ∀ n, (lines b)[n]? = match winampValue n with
      | .ok g => (Genres.textForGenre g).map fun t => line n t
      | _ => none := by
  have h := genre_lines
  cases hp : printGenres with
  | throw e => rw [hp] at h; exact absurd h nofun
  | ub u => rw [hp] at h; exact absurd h nofun
  | ok b =>
    rw [hp] at h
    have hb : lines b = _ := Res.ok.inj h
    refine ⟨b, by simp [winampGenres, hp, FM.lift], by simp [winampGenres, hp, FM.lift], fun n => ?_⟩
    rw [hb]
    unfold winampValue
    by_cases hn : n < 192
    · rw [if_pos hn, genre_line_at n hn]
      show _ = (Genres.textForGenre (UInt8.ofNat n)).map _
      rw [C42_text, show (UInt8.ofNat n).toNat = n from by simp; omega]
    · rw [if_neg hn]
      exact List.getElem?_eq_none (by rw [genre_line_count]; omega)

/-- Not vacuous: two of the lines. -/
example : line 9 [77, 101, 116, 97, 108] = /-   9: Metal -/ [32, 32, 57, 58, 32, 77, 101, 116, 97, 108] ∧ winampValue 191 = .ok 191 ∧ (Genres.textForGenre 191).isSome ∧ winampValue 192 = .throw .invalidArgument := by
  decide +kernel

/-! ## C176: the pager -/

/-- A system on which everything goes well. -/
def sysOf (own general : Option Bytes) : Sys where
  env x := if x = /- SCRIBBU_PAGER -/ [83, 67, 82, 73, 66, 66, 85, 95, 80, 65, 71, 69, 82] then own else if x = /- PAGER -/ [80, 65, 71, 69, 82] then general else none
  temp := .ok /- /tmp -/ [47, 116, 109, 112]
  tmpnam := /- /tmp/file1 -/ [47, 116, 109, 112, 47, 102, 105, 108, 101, 49]
  fault := .none
  there _ := true

/-- C176 in full: the list is shown with the pager the user has chosen, or with `less`: the program and the arguments are the words of the variable, however they are
spaced, followed by the name of a file with the list in it. -/
def C176_claim : Prop :=
  ∀ (S : Sys) (s : FS) (dir : Path) (ws : List Bytes) (v : Bytes), S.temp = .ok dir → S.fault = .none → (∀ p, p ≠ [] → S.there p = true) →
    (chosen (S.env /- SCRIBBU_PAGER -/ [83, 67, 82, 73, 66, 66, 85, 95, 80, 65, 71, 69, 82]) (S.env /- PAGER -/ [80, 65, 71, 69, 82])).getD /- less -/ [108, 101, 115, 115] = v → Spaced ws v →
    ∃ file b, (winampGenres S false s).res = .ok (.became (ws ++ [file])) ∧ printGenres = .ok b ∧ (winampGenres S false s).fs.get file = some b

theorem pager_chosen (env : Bytes → Option Bytes) : pager env = (chosen (env /- SCRIBBU_PAGER -/ [83, 67, 82, 73, 66, 66, 85, 95, 80, 65, 71, 69, 82]) (env /- PAGER -/ [80, 65, 71, 69, 82])).getD /- less -/ [108, 101, 115, 115] := by
  unfold pager chosen
  cases env /- SCRIBBU_PAGER -/ [83, 67, 82, 73, 66, 66, 85, 95, 80, 65, 71, 69, 82] with
  | some p => rfl
  | none => cases env /- PAGER -/ [80, 65, 71, 69, 82] <;> rfl

/-- What a call does if the list can be written. -/
theorem genres_shown {S : Sys} {dir : Path} {b : Bytes} (s : FS) (ht : S.temp = .ok dir) (hf : S.fault = .none) (hb : printGenres = .ok b) :
    (winampGenres S false s).res = (exec S (split (pager S.env) ++ [Path.join dir S.tmpnam]) s).res ∧
    (winampGenres S false s).fs = s.put (Path.join dir S.tmpnam) b := by
  simp only [winampGenres, Bool.false_eq_true, if_false, ht, hf, hb, FM.bind, FM.lift, FM.create]
  unfold exec FM.lift
  exact ⟨rfl, rfl⟩

theorem printed_ok : ∃ b, printGenres = .ok b := by
  obtain ⟨b, h, -⟩ := C175_list (sysOf none none) []
  cases hp : printGenres with
  | ok b => exact ⟨b, rfl⟩
  | throw e => simp [winampGenres, hp, FM.lift] at h
  | ub u => simp [winampGenres, hp, FM.lift] at h

/-- **Finding** With `PAGER="less  -R"` (two blanks), `less` is given an empty argument besides: it takes that for the name of a file. -/
theorem C176_refuted : ¬ C176_claim := by
  intro h
  obtain ⟨b, hb⟩ := printed_ok
  have hsp : Spaced [/- less -/ [108, 101, 115, 115], /- -R -/ [45, 82]] /- less  -R -/ [108, 101, 115, 115, 32, 32, 45, 82] :=
    .more /- less -/ [108, 101, 115, 115] [32, 32] _ /- -R -/ [45, 82] ⟨by decide, by decide⟩ (by decide) (by decide) (.last /- -R -/ [45, 82] [] ⟨by decide, by decide⟩ (by decide))
  obtain ⟨file, b', h1, -, -⟩ := h (sysOf none (some /- less  -R -/ [108, 101, 115, 115, 32, 32, 45, 82])) [] /- /tmp -/ [47, 116, 109, 112] _ _ rfl rfl (fun _ _ => rfl) rfl hsp
  rw [(genres_shown (S := sysOf none (some /- less  -R -/ [108, 101, 115, 115, 32, 32, 45, 82])) [] rfl rfl hb).1] at h1
  have h2 : (exec (sysOf none (some /- less  -R -/ [108, 101, 115, 115, 32, 32, 45, 82])) (split (pager (sysOf none (some /- less  -R -/ [108, 101, 115, 115, 32, 32, 45, 82])).env) ++ [Path.join /- /tmp -/ [47, 116, 109, 112] (sysOf none (some /- less  -R -/ [108, 101, 115, 115, 32, 32, 45, 82])).tmpnam]) []).res =
      .ok (.became [/- less -/ [108, 101, 115, 115], [], /- -R -/ [45, 82], /- /tmp/file1 -/ [47, 116, 109, 112, 47, 102, 105, 108, 101, 49]]) := by decide +kernel
  rw [h2] at h1
  have := congrArg List.length (Fate.became.inj (Res.ok.inj h1))
  simp at this

/-- **Finding** With a blank in front, or set but empty, there is no program to be run: the call fails, whatever programs there are. -/
theorem C176_refuted_blank (S : Sys) (s : FS) (dir : Path) (v : Bytes) (ht : S.temp = .ok dir) (hf : S.fault = .none) (hv : S.env /- SCRIBBU_PAGER -/ [83, 67, 82, 73, 66, 66, 85, 95, 80, 65, 71, 69, 82] = some v)
    (h : v = [] ∨ ∃ b r, v = b :: r ∧ Blank b) : (winampGenres S false s).res = .throw .runtimeError := by
  obtain ⟨b, hb⟩ := printed_ok
  rw [(genres_shown s ht hf hb).1]
  have hp : pager S.env = v := by unfold pager; rw [hv]
  rw [hp]
  have : ∃ ws, split v = [] :: ws := by
    rcases h with rfl | ⟨b, r, rfl, hb⟩
    · exact ⟨[], rfl⟩
    · exact ⟨split r, if_pos hb⟩
  obtain ⟨ws, hs⟩ := this
  rw [hs]
  simp [exec, FM.lift]

theorem split_word {w : Bytes} (h : ∀ b ∈ w, ¬ Blank b) : ∀ (r : Bytes) (x : Bytes) (xs : List Bytes), split r = x :: xs → split (w ++ r) = (w ++ x) :: xs := by
  induction w with
  | nil => intro r x xs hr; exact hr
  | cons b w ih =>
    intro r x xs hr
    have h1 : ¬ (b = 32 ∨ b = 9) := h b (by simp)
    rw [List.cons_append]
    unfold split
    rw [if_neg h1, ih (fun c hc => h c (by simp [hc])) r x xs hr]
    rfl

theorem split_tight {ws : List Bytes} {v : Bytes} (h : Tight ws v) : split v = ws := by
  induction h with
  | last w hw => simpa using split_word hw.2 [] [] [] rfl
  | more w b ws s hw hb _ ih =>
    have h1 : split (b :: s) = [] :: split s := if_pos hb
    rw [split_word hw.2 (b :: s) [] (split s) h1, ih, List.append_nil]

/-- C176 for words with one blank between them and none around them. -/
theorem C176_partial (S : Sys) (s : FS) (dir : Path) (ws : List Bytes) (v : Bytes) (ht : S.temp = .ok dir) (hf : S.fault = .none)
    (hp : ∀ p, p ≠ [] → S.there p = true) (hv : (chosen (S.env /- SCRIBBU_PAGER -/ [83, 67, 82, 73, 66, 66, 85, 95, 80, 65, 71, 69, 82]) (S.env /- PAGER -/ [80, 65, 71, 69, 82])).getD /- less -/ [108, 101, 115, 115] = v) (hw : Tight ws v) :
    ∃ file b, (winampGenres S false s).res = .ok (.became (ws ++ [file])) ∧ printGenres = .ok b ∧ (winampGenres S false s).fs.get file = some b := by
  obtain ⟨b, hb⟩ := printed_ok
  obtain ⟨h1, h2⟩ := genres_shown s ht hf hb
  refine ⟨Path.join dir S.tmpnam, b, ?_, hb, ?_⟩
  · rw [h1, pager_chosen, hv, split_tight hw]
    cases hw with
    | last w hw => simp [exec, FM.lift, hw.1, hp v hw.1]
    | more w b ws s hw hb _ => simp [exec, FM.lift, hw.1, hp w hw.1]
  · rw [h2]; simp [FS.put, FS.get]

/-- If there is no such program, the call fails rather than show nothing. -/
theorem C176_missing (S : Sys) (s : FS) (dir : Path) (w : Bytes) (ws : List Bytes) (v : Bytes) (ht : S.temp = .ok dir) (hf : S.fault = .none)
    (hp : S.there w = false) (hv : (chosen (S.env /- SCRIBBU_PAGER -/ [83, 67, 82, 73, 66, 66, 85, 95, 80, 65, 71, 69, 82]) (S.env /- PAGER -/ [80, 65, 71, 69, 82])).getD /- less -/ [108, 101, 115, 115] = v) (hw : Tight (w :: ws) v) :
    (winampGenres S false s).res = .throw .runtimeError := by
  obtain ⟨b, hb⟩ := printed_ok
  rw [(genres_shown s ht hf hb).1, pager_chosen, hv, split_tight hw]
  simp [exec, FM.lift, hp]

/-- Not vacuous: a pager with an argument, and none chosen. -/
example : Tight [/- less -/ [108, 101, 115, 115], /- -R -/ [45, 82]] /- less -R -/ [108, 101, 115, 115, 32, 45, 82] ∧ Tight [/- less -/ [108, 101, 115, 115]] /- less -/ [108, 101, 115, 115] :=
  ⟨.more /- less -/ [108, 101, 115, 115] 32 _ /- -R -/ [45, 82] ⟨by decide, by decide⟩ (.inl rfl) (.last _ ⟨by decide, by decide⟩), .last _ ⟨by decide, by decide⟩⟩

/-! ## C177: files -/

/-- C177 in full: showing the list leaves the files as they were. -/
def C177_claim : Prop := ∀ (S : Sys) (noPager : Bool) (s : FS) (p : Path), (winampGenres S noPager s).fs.get p = s.get p

/-- **Finding** Each time the list is shown with a pager, a file with the list is left behind; nothing removes it. It is not in the directory for temporary files, if that is
not `/tmp`: what `tmpnam` returns is absolute, so that putting it behind the directory has no effect. -/
theorem C177_refuted_always (S : Sys) (s : FS) (dir : Path) (ht : S.temp = .ok dir) (hf : S.fault = .none) (habs : Path.isAbs S.tmpnam = true) :
    ∃ b, printGenres = .ok b ∧ (winampGenres S false s).fs.get S.tmpnam = some b := by
  obtain ⟨b, hb⟩ := printed_ok
  refine ⟨b, hb, ?_⟩
  rw [(genres_shown s ht hf hb).2]
  unfold Path.join
  rw [if_pos habs]
  simp [FS.put, FS.get]

/-- **Finding** The claim fails for the file with the list. -/
theorem C177_refuted : ¬ C177_claim := by
  intro h
  obtain ⟨b, -, h1⟩ := C177_refuted_always (sysOf none none) [] /- /tmp -/ [47, 116, 109, 112] rfl rfl rfl
  rw [h] at h1
  exact absurd h1 nofun

/-- C177 for all other files, however the call ends and at whatever point the process dies. -/
theorem C177_partial (S : Sys) (noPager : Bool) (s : FS) (p : Path) (dir : Path) (ht : S.temp = .ok dir) (hp : p ≠ Path.join dir S.tmpnam) :
    (winampGenres S noPager s).fs.get p = s.get p ∧ ∀ t ∈ (winampGenres S noPager s).seen, t.get p = s.get p := by
  have hput : ∀ b, (s.put (Path.join dir S.tmpnam) b).get p = s.get p := by
    intro b
    have h1 : ¬ (Path.join dir S.tmpnam = p) := fun e => hp e.symm
    simp only [FS.put, FS.get, FS.del, List.find?_cons, h1, decide_false]
    rw [List.find?_filter]
    congr 2
    funext e
    by_cases h2 : e.1 = p
    · simp [h2, hp]
    · simp [h2]
  obtain ⟨b, hb⟩ := printed_ok
  unfold winampGenres
  cases noPager with
  | true => simp [FM.lift]
  | false =>
    simp only [Bool.false_eq_true, if_false, ht, hb, FM.bind, FM.lift, FM.create, List.nil_append]
    have hgrow : ∀ k, ∀ t ∈ FM.growing s (Path.join dir S.tmpnam) b k, t.get p = s.get p := by
      intro k t hm
      unfold FM.growing at hm
      obtain ⟨i, -, rfl⟩ := List.mem_map.1 hm
      exact hput _
    cases S.fault with
    | none => exact ⟨hput _, fun t h => hgrow _ t (by simpa [exec, FM.lift] using h)⟩
    | atOnce => exact ⟨rfl, fun t h => absurd h (by simp)⟩
    | after k => exact ⟨hput _, fun t h => hgrow _ t (by simpa using h)⟩

/-- Not vacuous: a file of the user's. -/
example : /- /home/x -/ [47, 104, 111, 109, 101, 47, 120] ≠ Path.join /- /tmp -/ [47, 116, 109, 112] (sysOf none none).tmpnam := by decide +kernel

end Scribbu.Props
