import Verif.Proofs.Std
import Verif.Props.Dump

/-! # Dumps for people

The sub-command `dump` in its standard format, and the printer behind it. -/

namespace Scribbu.Props
open Scribbu Spec Spec.Std
open _root_.Scribbu.Std
open _root_.Scribbu.Report (Pr OS)

/-- An indentation of two; otherwise as for JSON. -/
def stdEnv : Std.Env := ⟨dumpEnv, true, 2, true⟩

/-- All files are regular, have these contents and were modified now. -/
def stdWorld (d : Bytes) : Std.World := ⟨jsonWorld d, fun _ => some /- now -/ [110, 111, 119]⟩

/-- The run for a file with these contents has status 0 and prints `b`. -/
def shows (o : Dump.Opts) (d b : Bytes) : Bool :=
  match Std.run stdEnv .standard (stdWorld d) o [/- a -/ [97]] with
  | .ok r => r.1 == 0 && r.2 == b
  | _ => false

theorem shows_run {o : Dump.Opts} {d b : Bytes} (h : shows o d b = true) : Std.run stdEnv .standard (stdWorld d) o [/- a -/ [97]] = .ok (0, b) := by
  unfold shows at h
  split at h
  · rename_i r hr
    rw [hr]
    simp only [Bool.and_eq_true, beq_iff_eq] at h
    obtain ⟨n, c⟩ := r
    simp only at h
    rw [h.1, h.2]
  · cases h

/-! ## C127: a dump shows all that is in the files -/

/-- C127, in full: if the files can be read and their contents can be shown, the dump consists of the lines for them, and the status is 0. -/
def C127_claim : Prop :=
  ∀ (E : Std.Env) (w : Std.World) (o : Dump.Opts) (ps qs : List Path) (fs : List (Path × Bytes × Std.Facts)), E.base.v2 = none →
    Spec.Dump.Dumped w.base o ps qs → Readable E w qs fs → (∀ x ∈ fs, Showable E E.sin o x.2.2) →
    ∃ ls, FilesShow E E.sin o fs ls ∧ Std.run E .standard w o ps = .ok (0, lined ls)

/-- What is in a file with an ID3v2.4 tag that has one frame. -/
def one4 (n : Nat) (id : Bytes) (b : Body) : Std.Facts := ⟨[⟨.v4, 0, .ok n, .ok 0, some false, .ok 0, [(id, b)]⟩], 0, [0xab, 0x01], none⟩

/-- The text `o` is the same in UTF-8. -/
theorem same_o : Spec.Dump.Utf8 dumpEnv .ASCII /- o -/ [111] /- o -/ [111] := .inr ⟨by decide, by decide +kernel⟩

theorem std_dumped (d : Bytes) : Spec.Dump.Dumped (stdWorld d).base {} [/- a -/ [97]] [/- a -/ [97]] := .file rfl rfl .nil

theorem file_ends {E : Std.Env} {ind : Bytes} {o : Dump.Opts} {p : Path} {t : Bytes} {f : Std.Facts} {l : List Bytes} (h : FileShows E ind o p t f l) :
    ∃ b, lined l = b ++ [10, 10] := by
  obtain ⟨q, a, b, c, _, rfl, _⟩ := h
  have : ∀ (x : Bytes) (l : List Bytes), ∃ b, lined (x :: l) = b ++ [10] := by
    intro x l
    induction l generalizing x with
    | nil => exact ⟨x, by simp [lined]⟩
    | cons y l ih =>
      obtain ⟨b, hb⟩ := ih y
      exact ⟨x ++ 10 :: b, by rw [show lined (x :: y :: l) = x ++ [10] ++ lined (y :: l) from rfl, hb]; simp⟩
  rw [lined_append]
  obtain ⟨b', hb⟩ := this ([34] ++ q ++ /- ": -/ [34, 58]) ([/- Last Modified:  -/ [76, 97, 115, 116, 32, 77, 111, 100, 105, 102, 105, 101, 100, 58, 32] ++ t] ++ a ++ b ++ c)
  refine ⟨b', ?_⟩
  have e : [[34] ++ q ++ /- ": -/ [34, 58], /- Last Modified:  -/ [76, 97, 115, 116, 32, 77, 111, 100, 105, 102, 105, 101, 100, 58, 32] ++ t] ++ a ++ b ++ c = ([34] ++ q ++ /- ": -/ [34, 58]) :: ([/- Last Modified:  -/ [76, 97, 115, 116, 32, 77, 111, 100, 105, 102, 105, 101, 100, 58, 32] ++ t] ++ a ++ b ++ c) := by simp
  rw [e, hb]
  simp [lined]

theorem not_C127 {d : Bytes} {f : Std.Facts} {b : Bytes} (hr : Std.readFile noZlib dumpEnv.md5 (some d) = .ok f) (hs : Showable stdEnv stdEnv.sin {} f)
    (h : shows {} d b = true) (hb : (b.drop (b.length - 2)) ≠ [10, 10]) : ¬ C127_claim := by
  intro c
  obtain ⟨ls, h1, h2⟩ := c stdEnv (stdWorld d) {} [/- a -/ [97]] [/- a -/ [97]] [(/- a -/ [97], /- now -/ [110, 111, 119], f)] rfl (std_dumped d) (.cons rfl hr .nil)
    (by intro x hx; simp only [List.mem_singleton] at hx; subst hx; exact hs)
  rw [shows_run h] at h2
  cases h1 with
  | cons h1 h3 =>
    cases h3
    obtain ⟨b', e⟩ := file_ends h1
    simp only [List.append_nil, Res.ok.injEq, Prod.mk.injEq, true_and] at h2
    rw [e] at h2
    subst h2
    exact hb (by simp)

theorem showable4 {n : Nat} {id : Bytes} {b : Body} {l : List Bytes} (h : FrameShows stdEnv .v4 stdEnv.sin id b l) : Showable stdEnv stdEnv.sin {} (one4 n id b) := by
  refine ⟨fun _ t ht => ?_, fun _ t ht => ?_, nofun⟩
  · simp only [one4, List.mem_singleton] at ht
    subst ht
    exact ⟨n, rfl⟩
  · simp only [one4, List.mem_singleton] at ht
    subst ht
    intro x hx
    simp only [List.mem_singleton] at hx
    subst hx
    exact ⟨l, h⟩

/-- A file whose ID3v2.4 tag has a private frame. -/
def privFile : Bytes := jsonV2 4 (jsonFrame /- PRIV -/ [80, 82, 73, 86] (/- o -/ [111] ++ [0, 1, 65]))

/-- **Finding** The table of printers has none for private frames of ID3v2.4: the dump of a file that has one breaks off before that frame, without
a message; neither the track nor the ID3v1 tag is shown, and the status is 0. -/
theorem C127_refuted : ¬ C127_claim :=
  not_C127 (d := privFile) (f := one4 14 /- PRIV -/ [80, 82, 73, 86] (.priv ⟨/- o -/ [111], [1, 65]⟩)) (by decide +kernel)
    (showable4 (.priv _ /- o -/ [111] _ _ _ (by decide) same_o (Report.dec_decimal _) (spaced_spec 1 [65]) (visible_spec _)))
    (b := /- "a": -/ [34, 97, 34, 58] ++ [10] ++ /- Last Modified: now -/ [76, 97, 115, 116, 32, 77, 111, 100, 105, 102, 105, 101, 100, 58, 32, 110, 111, 119] ++ [10] ++ /-   ID3v2.4(.0) Tag: -/ [32, 32, 73, 68, 51, 118, 50, 46, 52, 40, 46, 48, 41, 32, 84, 97, 103, 58] ++ [10] ++ /-   14 bytes, synchronised -/ [32, 32, 49, 52, 32, 98, 121, 116, 101, 115, 44, 32, 115, 121, 110, 99, 104, 114, 111, 110, 105, 115, 101, 100] ++ [10] ++ /-   flags: 0x00 -/ [32, 32, 102, 108, 97, 103, 115, 58, 32, 48, 120, 48, 48] ++ [10] ++
      /-   <no artist> - <no title> -/ [32, 32, 60, 110, 111, 32, 97, 114, 116, 105, 115, 116, 62, 32, 45, 32, 60, 110, 111, 32, 116, 105, 116, 108, 101, 62] ++ [10] ++ /-   <no album>, <no year> -/ [32, 32, 60, 110, 111, 32, 97, 108, 98, 117, 109, 62, 44, 32, 60, 110, 111, 32, 121, 101, 97, 114, 62] ++ [10]) (by decide +kernel) (by decide +kernel)

/-- **Finding** Nor has it one for tag clouds of ID3v2.4, although the program itself writes them. -/
theorem C127_refuted_cloud : ¬ C127_claim :=
  not_C127 (d := jsonV2 4 (jsonFrame /- XTAG -/ [88, 84, 65, 71] (/- o -/ [111] ++ [0]))) (f := one4 12 /- XTAG -/ [88, 84, 65, 71] (.xtag ⟨[], []⟩)) (by decide +kernel) (showable4 (.xtag _))
    (b := /- "a": -/ [34, 97, 34, 58] ++ [10] ++ /- Last Modified: now -/ [76, 97, 115, 116, 32, 77, 111, 100, 105, 102, 105, 101, 100, 58, 32, 110, 111, 119] ++ [10] ++ /-   ID3v2.4(.0) Tag: -/ [32, 32, 73, 68, 51, 118, 50, 46, 52, 40, 46, 48, 41, 32, 84, 97, 103, 58] ++ [10] ++ /-   12 bytes, synchronised -/ [32, 32, 49, 50, 32, 98, 121, 116, 101, 115, 44, 32, 115, 121, 110, 99, 104, 114, 111, 110, 105, 115, 101, 100] ++ [10] ++ /-   flags: 0x00 -/ [32, 32, 102, 108, 97, 103, 115, 58, 32, 48, 120, 48, 48] ++ [10] ++
      /-   <no artist> - <no title> -/ [32, 32, 60, 110, 111, 32, 97, 114, 116, 105, 115, 116, 62, 32, 45, 32, 60, 110, 111, 32, 116, 105, 116, 108, 101, 62] ++ [10] ++ /-   <no album>, <no year> -/ [32, 32, 60, 110, 111, 32, 97, 108, 98, 117, 109, 62, 44, 32, 60, 110, 111, 32, 121, 101, 97, 114, 62] ++ [10]) (by decide +kernel) (by decide +kernel)

/-- C127, as far as it holds: for files without encryption methods, without private frames and tag clouds in ID3v2.4 tags, and without comments the
code of whose language is not in ASCII, as far as ID3v2 tags are to be shown. -/
theorem C127_partial {E : Std.Env} (hE : E.base.v2 = none) {w : Std.World} {o : Dump.Opts} {ps qs : List Path} {fs : List (Path × Bytes × Std.Facts)}
    (hd : Spec.Dump.Dumped w.base o ps qs) (hr : Readable E w qs fs) (hs : ∀ x ∈ fs, Showable E E.sin o x.2.2)
    (hf : Spec.Dump.Shown o o.v2 → ∀ x ∈ fs, ∀ t ∈ x.2.2.v2, ∀ y ∈ t.frames, Fit t.ver y.2) :
    ∃ ls, FilesShow E E.sin o fs ls ∧ Std.run E .standard w o ps = .ok (0, lined ls) := by
  obtain ⟨ls, bs, h1, h2, h3⟩ := files_put hE hr hs hf
  exact ⟨ls, h1, by rw [run_shows hd h2, h3]⟩

/-! A case: a title, a play counter and a private frame in an ID3v2.3 tag, and an ID3v1 tag. -/

/-- The file. -/
def stdFile : Bytes := jsonV2 3 (jsonFrame /- TIT2 -/ [84, 73, 84, 50] [0, 98] ++ jsonFrame /- PCNT -/ [80, 67, 78, 84] [0, 0, 1, 0] ++ jsonFrame /- PRIV -/ [80, 82, 73, 86] (/- o -/ [111] ++ [0, 1, 65])) ++ jsonV1 /- a -/ [97] /- b -/ [98]

/-- The ID3v1 tag that `jsonV1` makes. -/
def stdV1 : V1Tag :=
  { extended := false, v11 := false, album := jsonField 30 /- b -/ [98], artist := jsonField 30 /- A -/ [65], comment := jsonField 30 [], genre := 12, extGenre := [],
    startTime := none, endTime := none, speed := none, title := jsonField 30 /- a -/ [97], track := none, year := /- 1999 -/ [49, 57, 57, 57] }

/-- What is in it. -/
def stdFacts : Std.Facts :=
  ⟨[⟨.v3, 0, .ok 40, .ok 0, some false, .ok 0, [(/- TIT2 -/ [84, 73, 84, 50], .text 0 /- b -/ [98]), (/- PCNT -/ [80, 67, 78, 84], .pcnt [0, 0, 1, 0]), (/- PRIV -/ [80, 82, 73, 86], .priv ⟨/- o -/ [111], [1, 65]⟩)]⟩], 0, [0xab, 0x01], some stdV1⟩

theorem std_read : Std.readFile noZlib dumpEnv.md5 (some stdFile) = .ok stdFacts := by decide +kernel

theorem std_showable (ind : Bytes) (o : Dump.Opts) : Showable stdEnv ind o stdFacts := by
  refine ⟨fun _ t ht => ?_, fun _ t ht => ?_, fun _ t ht b hb => ?_⟩
  · simp only [stdFacts, List.mem_singleton] at ht
    subst ht
    exact ⟨_, rfl⟩
  · simp only [stdFacts, List.mem_singleton] at ht
    subst ht
    intro x hx
    simp only [List.mem_cons, List.not_mem_nil, or_false] at hx
    rcases hx with rfl | rfl | rfl
    · exact ⟨_, .text _ _ /- b -/ [98] (.inr ⟨_, .latin _ _, .inr ⟨by decide, by decide +kernel⟩⟩)⟩
    · exact ⟨_, .pcnt _ _ (by decide) (by decide) (Report.dec_decimal _)⟩
    · exact ⟨_, .priv _ /- o -/ [111] _ _ _ (by decide) same_o (Report.dec_decimal _) (spaced_spec 1 [65]) (visible_spec _)⟩
  · cases ht
    simp only [stdV1, Option.toList_none, List.append_nil, List.mem_cons, List.not_mem_nil, or_false] at hb
    rcases hb with rfl | rfl | rfl | rfl | rfl | rfl
    · exact ⟨/- A -/ [65], .inr ⟨by decide, by decide +kernel⟩⟩
    · exact ⟨/- a -/ [97], .inr ⟨by decide, by decide +kernel⟩⟩
    · exact ⟨/- b -/ [98], .inr ⟨by decide, by decide +kernel⟩⟩
    · exact ⟨/- 1999 -/ [49, 57, 57, 57], .inr ⟨by decide, by decide +kernel⟩⟩
    · exact ⟨[], .inr ⟨by decide, by decide +kernel⟩⟩
    · exact ⟨[], .inl ⟨rfl, rfl⟩⟩

theorem std_fit : ∀ t ∈ stdFacts.v2, ∀ y ∈ t.frames, Fit t.ver y.2 := by
  intro t ht y hy
  simp only [stdFacts, List.mem_singleton] at ht
  subst ht
  simp only [List.mem_cons, List.not_mem_nil, or_false] at hy
  rcases hy with rfl | rfl | rfl
  · trivial
  · trivial
  · rfl

example : ∃ ls, FilesShow stdEnv /-    -/ [32, 32] {} [(/- a -/ [97], /- now -/ [110, 111, 119], stdFacts)] ls ∧ Std.run stdEnv .standard (stdWorld stdFile) {} [/- a -/ [97]] = .ok (0, lined ls) :=
  C127_partial rfl (std_dumped _) (.cons rfl std_read .nil) (by intro x hx; simp only [List.mem_singleton] at hx; subst hx; exact std_showable _ _)
    (by intro _ x hx; simp only [List.mem_singleton] at hx; subst hx; exact std_fit)

example : shows {} stdFile (lined [/- "a": -/ [34, 97, 34, 58], /- Last Modified: now -/ [76, 97, 115, 116, 32, 77, 111, 100, 105, 102, 105, 101, 100, 58, 32, 110, 111, 119], /-   ID3v2.3(.0) Tag: -/ [32, 32, 73, 68, 51, 118, 50, 46, 51, 40, 46, 48, 41, 32, 84, 97, 103, 58], /-   40 bytes, synchronised -/ [32, 32, 52, 48, 32, 98, 121, 116, 101, 115, 44, 32, 115, 121, 110, 99, 104, 114, 111, 110, 105, 115, 101, 100], /-   flags: 0x00 -/ [32, 32, 102, 108, 97, 103, 115, 58, 32, 48, 120, 48, 48], /-   <no artist> - b -/ [32, 32, 60, 110, 111, 32, 97, 114, 116, 105, 115, 116, 62, 32, 45, 32, 98],
    /-   <no album>, <no year> -/ [32, 32, 60, 110, 111, 32, 97, 108, 98, 117, 109, 62, 44, 32, 60, 110, 111, 32, 121, 101, 97, 114, 62], /-   TIT2: b -/ [32, 32, 84, 73, 84, 50, 58, 32, 98], /-   PCNT: 256 -/ [32, 32, 80, 67, 78, 84, 58, 32, 50, 53, 54], /-   PRIV (o): 2 bytes beginning with: -/ [32, 32, 80, 82, 73, 86, 32, 40, 111, 41, 58, 32, 50, 32, 98, 121, 116, 101, 115, 32, 98, 101, 103, 105, 110, 110, 105, 110, 103, 32, 119, 105, 116, 104, 58], /-   01 41  >.A< -/ [32, 32, 48, 49, 32, 52, 49, 32, 32, 62, 46, 65, 60], /-   0 bytes of padding -/ [32, 32, 48, 32, 98, 121, 116, 101, 115, 32, 111, 102, 32, 112, 97, 100, 100, 105, 110, 103],
    /-   0 bytes of track data: -/ [32, 32, 48, 32, 98, 121, 116, 101, 115, 32, 111, 102, 32, 116, 114, 97, 99, 107, 32, 100, 97, 116, 97, 58], /-   MD5: ab01 -/ [32, 32, 77, 68, 53, 58, 32, 97, 98, 48, 49], /-   ID3v1: A - a -/ [32, 32, 73, 68, 51, 118, 49, 58, 32, 65, 32, 45, 32, 97], /-   b, 1999 -/ [32, 32, 98, 44, 32, 49, 57, 57, 57], /-    -/ [32, 32], /-   Other -/ [32, 32, 79, 116, 104, 101, 114], []]) = true := by decide +kernel

/-! ## C128: indentation -/

/-- C128, in full: every line of a tag begins with the indentation. -/
def C128_claim : Prop :=
  ∀ (E : Std.Env) (t : Std.Tag) (out : Bytes) (h : Bool), SoundTag t → Std.tag E t ⟨[], false⟩ = (⟨out, h⟩, .ok ()) → ∀ l ∈ linesOf out, E.sin <+: l

/-- An ID3v2.3 tag with these frames. -/
def stdTag3 (fs : List (Bytes × Body)) : Std.Tag := ⟨.v3, 0, .ok 40, .ok 0, some false, .ok 0, fs⟩

/-- Lines of a tag with one frame that are not indented. -/
def outdented (id : Bytes) (b : Body) : List Bytes :=
  match Std.tag stdEnv (stdTag3 [(id, b)]) ⟨[], false⟩ with
  | (s, .ok _) => (linesOf s.out).filter fun l => !stdEnv.sin.isPrefixOf l
  | _ => []

theorem sound3 {id : Bytes} {b : Body} (h : id ∈ idsOf .v3 → ∃ u t, b = .text u t) : SoundTag (stdTag3 [(id, b)]) := by
  refine ⟨⟨_, rfl⟩, ⟨_, rfl⟩, ⟨_, rfl⟩, ?_, nofun⟩
  intro f hf hi
  simp only [stdTag3, List.mem_singleton] at hf
  subst hf
  exact h hi

theorem not_C128 {id : Bytes} {b : Body} {l : Bytes} (hs : id ∈ idsOf .v3 → ∃ u t, b = .text u t) (h : (outdented id b).contains l = true) : ¬ C128_claim := by
  intro c
  unfold outdented at h
  split at h
  · rename_i s _ e
    simp only [List.contains_eq_mem, List.mem_filter, decide_eq_true_eq] at h
    have := c stdEnv _ s.out s.hex (sound3 hs) e l h.1
    rw [← List.isPrefixOf_iff_prefix] at this
    rw [this] at h
    simp at h
  · simp at h

/-- **Finding** Comments are not indented. -/
theorem C128_refuted : ¬ C128_claim :=
  not_C128 (id := /- COMM -/ [67, 79, 77, 77]) (b := .comm ⟨none, none, 0, some 0, some (101, 110, 103), [], /- x -/ [120]⟩) (l := /- x -/ [120]) (by intro h; exact absurd h (by decide)) (by decide +kernel)

/-- **Finding** Nor are unknown frames of ID3v2.3 and ID3v2.4 tags. -/
theorem C128_refuted_unknown : ¬ C128_claim :=
  not_C128 (id := /- ABCD -/ [65, 66, 67, 68]) (b := .unknown /- x -/ [120]) (l := /- frame ABCD (1 bytes) -/ [102, 114, 97, 109, 101, 32, 65, 66, 67, 68, 32, 40, 49, 32, 98, 121, 116, 101, 115, 41]) (by intro h; exact absurd h (by decide)) (by decide +kernel)

/-- **Finding** Nor what is behind a line feed in a text: a text can look like other lines of the dump. -/
theorem C128_refuted_feed : ¬ C128_claim :=
  not_C128 (id := /- TIT2 -/ [84, 73, 84, 50]) (b := .text 0 [97, 10, 98]) (l := /- b -/ [98]) (by intro _; exact ⟨_, _, rfl⟩) (by decide +kernel)

/-- A frame of which every line is indented. -/
def Indented (v : Ver) : Body → Prop
  | .comm _ => False
  | .unknown _ => v = .v2
  | _ => True

theorem linesOf_line {l : Bytes} (h : 10 ∉ l) (r : Bytes) : linesOf (l ++ 10 :: r) = l :: linesOf r := by
  induction l with
  | nil => simp [linesOf]
  | cons c l ih =>
    simp only [List.mem_cons, not_or] at h
    rw [List.cons_append, linesOf, if_neg (Ne.symm h.1), ih h.2]

theorem linesOf_lined {ls : List Bytes} (h : ∀ l ∈ ls, 10 ∉ l) : linesOf (lined ls) = ls := by
  induction ls with
  | nil => rfl
  | cons l ls ih =>
    rw [show lined (l :: ls) = l ++ 10 :: lined ls by simp [lined], linesOf_line (h l (by simp)), ih fun x hx => h x (by simp [hx])]

theorem frame_indented {E : Std.Env} {v : Ver} {ind id : Bytes} {b : Body} {l : List Bytes} (h : FrameShows E v ind id b l) (hb : Indented v b) :
    ∀ x ∈ l, ind <+: x := by
  intro x hx
  cases h
  case xtag t =>
    rw [List.mem_append] at hx
    rcases hx with hx | hx
    · simp only [List.mem_cons, List.not_mem_nil, or_false] at hx
      rcases hx with rfl | rfl <;> ((try simp only [List.append_assoc]); exact List.prefix_append _ _)
    · obtain ⟨y, _, rfl⟩ := List.mem_map.mp hx
      simp only [List.append_assoc]
      exact List.prefix_append _ _
  case comm => exact hb.elim
  case unknown hv _ => exact absurd hb hv
  all_goals
    simp only [List.mem_cons, List.not_mem_nil, or_false] at hx
    first
    | (subst hx; (try simp only [List.append_assoc]); exact List.prefix_append _ _)
    | (rcases hx with rfl | rfl <;> ((try simp only [List.append_assoc]); exact List.prefix_append _ _))
    | (rcases hx with rfl | rfl | rfl <;> ((try simp only [List.append_assoc]); exact List.prefix_append _ _))

theorem frames_each {E : Std.Env} {v : Ver} {ind : Bytes} {fs : List (Bytes × Body)} {l : List Bytes} (h : FramesShow E v ind fs l) :
    ∀ x ∈ l, ∃ f ∈ fs, ∃ l', FrameShows E v ind f.1 f.2 l' ∧ x ∈ l' := by
  induction h with
  | nil => simp
  | @cons f fs l ls h1 _ ih =>
    intro x hx
    rcases List.mem_append.mp hx with hx | hx
    · exact ⟨f, by simp, l, h1, hx⟩
    · obtain ⟨g, hg, l', h2, h3⟩ := ih x hx
      exact ⟨g, by simp [hg], l', h2, h3⟩

theorem decimal_flat {b : Bytes} {n : Nat} (h : Decimal b n) : 10 ∉ b := fun k => absurd (h.2.1 10 k).1 (by decide)

theorem hex_flat {b d : Bytes} (h : HexPairs b d) : 10 ∉ b := by
  have fig : ∀ c i, HexFigure c i → c ≠ 10 := by
    rintro c i ⟨h1, rfl⟩ h2
    have := congrArg UInt8.toNat h2
    rw [UInt8.toNat_ofNat_of_lt' (by simp only [UInt8.size]; split <;> omega)] at this
    revert this
    simp only [UInt8.reduceToNat]
    split <;> omega
  induction h with
  | nil => simp
  | cons c d i j _ _ _ h1 h2 _ _ ih =>
    simp only [List.mem_cons, not_or]
    exact ⟨(fig _ _ h1).symm, (fig _ _ h2).symm, ih⟩

theorem sin_flat (E : Std.Env) : 10 ∉ E.sin := by
  intro h
  have := List.eq_of_mem_replicate h
  exact absurd this (by decide)

theorem text_flat {E : Std.Env} {t : Std.Tag} (hf : ∀ f ∈ t.frames, ∀ l, FrameShows E t.ver E.sin f.1 f.2 l → ∀ x ∈ l, 10 ∉ x) {id : Bytes} {u : Byte}
    {b s : Bytes} (h : (id, Body.text u b) ∈ t.frames) (ht : TextIn E.base t.ver u b s) : 10 ∉ s := by
  have := hf _ h _ (.text u b s ht) _ (List.mem_singleton_self _)
  simp only [List.mem_append, not_or] at this
  exact this.2

theorem named_flat {E : Std.Env} {t : Std.Tag} (hf : ∀ f ∈ t.frames, ∀ l, FrameShows E t.ver E.sin f.1 f.2 l → ∀ x ∈ l, 10 ∉ x) {id dflt s : Bytes}
    (hd : 10 ∉ dflt) (h : Named E t id dflt s) : 10 ∉ s := by
  rcases h with ⟨_, rfl⟩ | ⟨u, b, h1, h2⟩
  · exact hd
  · exact text_flat hf h1 h2

theorem around_flat {E : Std.Env} {t : Std.Tag} (hf : ∀ f ∈ t.frames, ∀ l, FrameShows E t.ver E.sin f.1 f.2 l → ∀ x ∈ l, 10 ∉ x) {id pre post s : Bytes}
    (h1 : 10 ∉ pre) (h2 : 10 ∉ post) (h : Around E t id pre post s) : 10 ∉ s := by
  rcases h with ⟨_, rfl⟩ | ⟨u, b, x, h3, h4, rfl⟩
  · simp
  · simp only [List.mem_append, not_or]
    exact ⟨⟨h1, text_flat hf h3 h4⟩, h2⟩

/-- The lines of a tag, if there are no line feeds in its texts. -/
theorem tag_flat {E : Std.Env} {t : Std.Tag} {l : List Bytes} (h : TagShows E E.sin t l)
    (hf : ∀ f ∈ t.frames, ∀ l, FrameShows E t.ver E.sin f.1 f.2 l → ∀ x ∈ l, 10 ∉ x) : ∀ x ∈ l, 10 ∉ x := by
  cases h with
  | mk ai ti ali yi ki ci ei v r n s fh ar tt al ye tr ps sn pn fb b ct en fs _ hv hr _ hn _ hs _ hfh har htt hal hye htr hct hen hfs _ hps =>
    obtain ⟨cx, hcx, rfl⟩ := hct
    obtain ⟨ex, hex, rfl⟩ := hen
    have S := sin_flat E
    intro x hx
    simp only [List.mem_append, List.mem_cons, List.not_mem_nil, or_false] at hx
    rcases hx with (((hx | hx) | hx) | hx) | rfl
    · rcases hx with rfl | rfl | rfl | rfl | rfl <;> simp only [List.mem_append, not_or]
      · exact ⟨⟨⟨⟨⟨S, by decide⟩, decimal_flat hv⟩, by decide⟩, decimal_flat hr⟩, by decide⟩
      · refine ⟨⟨⟨S, decimal_flat hn⟩, by decide⟩, ?_⟩
        rw [hs]
        cases b <;> decide
      · exact ⟨⟨S, by decide⟩, hex_flat hfh⟩
      · exact ⟨⟨⟨S, named_flat hf (by decide) har⟩, by decide⟩, named_flat hf (by decide) htt⟩
      · exact ⟨⟨⟨⟨S, named_flat hf (by decide) hal⟩, around_flat hf (by decide) (by decide) htr⟩, by decide⟩, named_flat hf (by decide) hye⟩
    · split at hx
      · simp at hx
      · rw [List.mem_singleton.mp hx, List.mem_append, not_or]
        exact ⟨S, around_flat hf (by decide) (by decide) hcx⟩
    · split at hx
      · simp at hx
      · rw [List.mem_singleton.mp hx, List.mem_append, not_or]
        exact ⟨S, around_flat hf (by decide) (by decide) hex⟩
    · obtain ⟨f, h1, l, h2, h3⟩ := frames_each hfs x hx
      exact hf f h1 l h2 x h3
    · simp only [List.mem_append, not_or]
      exact ⟨⟨S, decimal_flat hps⟩, by decide⟩

theorem tag_indented {E : Std.Env} {ind : Bytes} {t : Std.Tag} {l : List Bytes} (h : TagShows E ind t l) (hi : ∀ f ∈ t.frames, Indented t.ver f.2) :
    ∀ x ∈ l, ind <+: x := by
  cases h with
  | mk ai ti ali yi ki ci ei v r n s fh ar tt al ye tr ps sn pn fb b ct en fs _ _ _ _ _ _ _ _ _ _ _ _ _ _ hct hen hfs _ _ =>
    obtain ⟨cx, _, rfl⟩ := hct
    obtain ⟨ex, _, rfl⟩ := hen
    intro x hx
    simp only [List.mem_append, List.mem_cons, List.not_mem_nil, or_false] at hx
    rcases hx with (((hx | hx) | hx) | hx) | rfl
    · rcases hx with rfl | rfl | rfl | rfl | rfl <;> simp only [List.append_assoc] <;> exact List.prefix_append _ _
    · split at hx
      · simp at hx
      · rw [List.mem_singleton.mp hx]; exact List.prefix_append _ _
    · split at hx
      · simp at hx
      · rw [List.mem_singleton.mp hx]; exact List.prefix_append _ _
    · obtain ⟨f, h1, l, h2, h3⟩ := frames_each hfs x hx
      exact frame_indented h2 (hi f h1) x h3
    · simp only [List.append_assoc]
      exact List.prefix_append _ _

/-- C128, as far as it holds: if what is in the tag can be shown as it should be, there are no comments in it, nor unknown frames but in ID3v2.2 tags,
and there are no line feeds in its texts. -/
theorem C128_partial {E : Std.Env} (hE : E.base.v2 = none) {t : Std.Tag} {out : Bytes} {h : Bool} (hs : SoundTag t) (hn : ∃ n, t.size = .ok n)
    (hl : ∀ f ∈ t.frames, ∃ l, FrameShows E t.ver E.sin f.1 f.2 l) (hf : ∀ f ∈ t.frames, Fit t.ver f.2) (hi : ∀ f ∈ t.frames, Indented t.ver f.2)
    (hx : ∀ f ∈ t.frames, ∀ l, FrameShows E t.ver E.sin f.1 f.2 l → ∀ x ∈ l, 10 ∉ x) (ho : Std.tag E t ⟨[], false⟩ = (⟨out, h⟩, .ok ())) :
    ∀ l ∈ linesOf out, E.sin <+: l := by
  obtain ⟨l, hl⟩ := tag_showable hs hn hl
  obtain ⟨l, hl, hp⟩ := tag_puts hE hl hf
  obtain ⟨x, hp⟩ := hp ⟨[], false⟩
  rw [ho] at hp
  simp only [List.nil_append, Prod.mk.injEq, OS.mk.injEq, and_true] at hp
  rw [hp.1, linesOf_lined (tag_flat hl hx)]
  exact tag_indented hl hi

/-! A case: a title. -/

example : ∀ l ∈ linesOf (Std.tag stdEnv (stdTag3 [(/- TIT2 -/ [84, 73, 84, 50], .text 0 /- b -/ [98])]) ⟨[], false⟩).1.out, /-    -/ [32, 32] <+: l := by
  have text : ∀ s, TextIn dumpEnv .v3 0 /- b -/ [98] s → s = /- b -/ [98] := by
    intro s h
    have h1 := textIn_asStr (E := dumpEnv) rfl h
    have h2 := textIn_asStr (E := dumpEnv) rfl (v := .v3) (u := 0) (b := /- b -/ [98]) (s := /- b -/ [98]) (.inr ⟨_, .latin _ _, .inr ⟨by decide, by decide +kernel⟩⟩)
    rw [h1] at h2
    cases h2
    rfl
  refine C128_partial (E := stdEnv) (t := stdTag3 [(/- TIT2 -/ [84, 73, 84, 50], .text 0 /- b -/ [98])]) (h := (Std.tag stdEnv (stdTag3 [(/- TIT2 -/ [84, 73, 84, 50], .text 0 /- b -/ [98])]) ⟨[], false⟩).1.hex) rfl
    (sound3 fun _ => ⟨_, _, rfl⟩) ⟨40, rfl⟩ ?_ ?_ ?_ ?_ ?_
  · intro f hf
    rw [List.mem_singleton.mp hf]
    exact ⟨_, .text _ _ /- b -/ [98] (.inr ⟨_, .latin _ _, .inr ⟨by decide, by decide +kernel⟩⟩)⟩
  · intro f hf
    rw [List.mem_singleton.mp hf]
    trivial
  · intro f hf
    rw [List.mem_singleton.mp hf]
    trivial
  · intro f hf l hl
    rw [List.mem_singleton.mp hf] at hl
    cases hl with
    | text _ _ s hs =>
      rw [text s hs]
      decide
  · have : (Std.tag stdEnv (stdTag3 [(/- TIT2 -/ [84, 73, 84, 50], .text 0 /- b -/ [98])]) ⟨[], false⟩).2 = .ok () := by decide +kernel
    have key : ∀ r : OS × Res Unit, r.2 = .ok () → r = (⟨r.1.out, r.1.hex⟩, .ok ()) := by
      rintro ⟨⟨o, h⟩, r⟩ e
      cases e
      rfl
    exact key _ this

/-! ## C129: no undefined behaviour -/

/-- C129, in full: with a lawful iconv, if reading the files is well-defined, so is dumping them. -/
def C129_claim : Prop :=
  ∀ (E : Std.Env) (w : Std.World) (o : Dump.Opts) (ps : List Path), Lawful E.base.lib →
    (∀ p u, Std.readFile E.base.z E.base.md5 (w.base.file p).data ≠ .ub u) → ∃ r, Std.run E .standard w o ps = .ok r

/-- Reading a file with these contents is well-defined, dumping it is not. -/
def stdUb (d : Bytes) : Bool :=
  (match Std.readFile noZlib dumpEnv.md5 (some d) with | .ok _ => true | _ => false) &&
    (match Std.run stdEnv .standard (stdWorld d) {} [/- a -/ [97]] with | .ub _ => true | _ => false)

theorem not_C129 {d : Bytes} (h : stdUb d = true) : ¬ C129_claim := by
  intro c
  unfold stdUb at h
  simp only [Bool.and_eq_true] at h
  obtain ⟨h1, h2⟩ := h
  obtain ⟨r, hr⟩ := c stdEnv (stdWorld d) {} [/- a -/ [97]] libSame_lawful (by
    intro p u hu
    have hu : Std.readFile noZlib dumpEnv.md5 (some d) = .ub u := hu
    rw [hu] at h1
    cases h1)
  rw [hr] at h2
  cases h2

/-- **Finding** The first byte of what is in a private frame is printed without asking whether there is one. -/
theorem C129_refuted : ¬ C129_claim := not_C129 (d := jsonV2 3 (jsonFrame /- PRIV -/ [80, 82, 73, 86] [97, 0])) (by decide +kernel)

/-- **Finding** The language of a comment is printed although it has not been set, if the frame ends before it. -/
theorem C129_refuted_language : ¬ C129_claim := not_C129 (d := jsonV2 3 (jsonFrame /- COMM -/ [67, 79, 77, 77] [0, 97])) (by decide +kernel)

/-- A frame in which all that is printed is there. -/
def Full : Body → Prop
  | .pcnt c => c ≠ []
  | .comm x => x.unicode ≠ none ∧ x.lang ≠ none
  | .encr e => e.method ≠ none
  | .priv p => p.contents ≠ []
  | _ => True

theorem std_asStr_def {E : Json.Env} (hl : Lawful E.lib) (v : Ver) {u : Option Byte} (hu : u ≠ none) (b : Bytes) : Def (E.asStr v u b) := by
  unfold Json.Env.asStr
  split
  · exact def_ok
  · split
    · exact toText_def hl _ _ _ _ _
    · split
      · exact absurd rfl hu
      · refine def_bind ?_ fun _ _ => toText_def hl _ _ _ _ _
        unfold Json.source
        repeat' split
        all_goals first | exact def_ok | exact def_throw

theorem ascii_def {E : Std.Env} (hl : Lawful E.base.lib) (b : Bytes) : Def (E.ascii b) := by
  unfold Std.Env.ascii
  split
  · exact def_ok
  · exact toText_def hl _ _ _ _ _

theorem user_def {E : Std.Env} (hl : Lawful E.base.lib) (v : Ver) (u : Byte) (b : Bytes) : Def (E.user v u b) := by
  unfold Std.Env.user
  exact std_asStr_def (E := { E.base with v2 := none }) hl v (by simp) b

theorem field_def {E : Json.Env} (hl : Lawful E.lib) (b : Bytes) : Def (E.field b) := by
  unfold Json.Env.field
  split
  · exact def_ok
  · exact toText_def hl _ _ _ _ _

theorem use_def {α : Type} {o : Option α} (h : o ≠ none) : Def (Tag22.use o) := by
  cases o with
  | none => exact absurd rfl h
  | some a => exact def_ok

theorem lang_def (l : Byte × Byte × Byte) : Def (Std.lang l) := by
  unfold Std.lang
  split
  · split
    · exact def_ok
    · exact def_throw
  · exact def_ok

theorem defPr_cons {p : Pr} {ps : List Pr} (h : DefPr p) (k : DefPr (Pr.all ps)) : DefPr (Pr.all (p :: ps)) := by
  intro s
  show Def (Report.Pr.seq p (Pr.all ps) s).2
  have hs := h s
  unfold Report.Pr.seq
  rcases e : p s with ⟨s', r⟩
  rw [e] at hs
  cases r with
  | ok a => exact k s'
  | throw e => exact def_throw
  | ub u => exact absurd rfl (hs u)

theorem defPr_nil : DefPr (Pr.all []) := fun _ => def_ok

theorem binary_def (E : Std.Env) {b : Bytes} (h : b ≠ []) : DefPr (Std.binary E b) := by
  cases b with
  | nil => exact absurd rfl h
  | cons x xs =>
    unfold Std.binary
    exact defPr_cons (defPr_put _) <| defPr_cons (defPr_base _) <| defPr_cons (defPr_put _) <| defPr_cons (defPr_put _) defPr_nil

theorem std_frame_def {E : Std.Env} (hl : Lawful E.base.lib) (v : Ver) (id : Bytes) {b : Body} (hb : Full b) : DefPr (Std.frame E v id b) := by
  cases b with
  | unknown d =>
    cases v <;> delta Std.frame <;>
      (repeat' first | exact defPr_nil | exact defPr_put _ | exact defPr_base _ | exact defPr_num _ | refine defPr_cons ?_ ?_)
  | text u t =>
    delta Std.frame
    exact defPr_cons (defPr_put _) <| defPr_cons (defPr_put _) <| defPr_cons (defPr_put _) <|
      defPr_cons (defPr_value (std_asStr_def hl _ (by simp) _)) <| defPr_cons (defPr_put _) defPr_nil
  | ufid x =>
    delta Std.frame
    repeat' first | exact defPr_nil | exact defPr_put _ | exact defPr_base _ | exact defPr_value (ascii_def hl _) | refine defPr_cons ?_ ?_
  | txxx x =>
    delta Std.frame
    repeat' first | exact defPr_nil | exact defPr_put _ | exact defPr_base _ | exact defPr_value (user_def hl _ _ _) | refine defPr_cons ?_ ?_
  | comm x =>
    delta Std.frame
    exact defPr_value (def_bind (use_def hb.2) fun _ _ => def_bind (lang_def _) fun _ _ => def_bind (std_asStr_def hl _ hb.1 _) fun _ _ =>
      def_bind (std_asStr_def hl _ hb.1 _) fun _ _ => def_ok)
  | pcnt c =>
    delta Std.frame
    repeat' first | exact defPr_nil | exact defPr_put _ | exact defPr_base _ | exact defPr_putNum (counter_def hb) | refine defPr_cons ?_ ?_
  | popm p =>
    delta Std.frame
    repeat' first | exact defPr_nil | exact defPr_put _ | exact defPr_base _ | exact defPr_num _ | exact defPr_value (ascii_def hl _) | refine defPr_cons ?_ ?_
  | encr e =>
    cases v <;> delta Std.frame
    · exact fun _ => def_throw
    all_goals
      repeat' first
        | exact defPr_nil | exact defPr_put _ | exact defPr_base _ | exact defPr_value (ascii_def hl _)
        | exact defPr_value (def_bind (use_def hb) fun _ _ => def_ok) | refine defPr_cons ?_ ?_
  | xtag t =>
    have cloud : DefPr (Pr.all (t.tags.map fun x => Pr.all [Pr.put E.sin, Pr.put x.1, Pr.put /- :  -/ [58, 32], Pr.put (Std.values x.2), Pr.put [10]])) := by
      refine defPr_all ?_
      intro p hp
      obtain ⟨x, _, rfl⟩ := List.mem_map.mp hp
      repeat' first | exact defPr_nil | exact defPr_put _ | refine defPr_cons ?_ ?_
    cases v <;> delta Std.frame
    · repeat' first | exact defPr_nil | exact defPr_put _ | exact cloud | refine defPr_cons ?_ ?_
    · repeat' first | exact defPr_nil | exact defPr_put _ | exact cloud | refine defPr_cons ?_ ?_
    · exact fun _ => def_throw
  | priv p =>
    cases v <;> delta Std.frame
    · exact fun _ => def_throw
    · intro s
      simp only
      split
      · exact def_throw
      · rename_i u hu
        exact absurd hu (ascii_def hl _ u)
      · revert s
        refine fun s => (?_ : DefPr _) s
        have hne : p.contents.take 16 ≠ [] := by
          intro h
          rw [List.take_eq_nil_iff] at h
          rcases h with h | h
          · cases h
          · exact hb h
        repeat' first | exact defPr_nil | exact defPr_put _ | exact defPr_base _ | exact defPr_num _ | exact binary_def E hne | refine defPr_cons ?_ ?_
    · exact fun _ => def_throw

theorem tagText_def {E : Std.Env} (hl : Lawful E.base.lib) (t : Std.Tag) (id : Bytes) : Def (t.text E id) := by
  unfold Std.Tag.text
  split
  · exact def_throw
  · exact std_asStr_def hl _ (by simp) _

theorem textOr_def {E : Std.Env} (hl : Lawful E.base.lib) (t : Std.Tag) (id dflt : Bytes) : Def (t.textOr E id dflt) := by
  unfold Std.Tag.textOr
  split
  · exact tagText_def hl t id
  · exact def_ok

theorem headTag_def {E : Std.Env} (hl : Lawful E.base.lib) {t : Std.Tag} (hs : SoundTag t) (hn : Def t.size) : DefPr (Std.headTag E t) := by
  obtain ⟨f, hf⟩ := hs.flags
  have F : Def (t.flags.bind fun f => Res.ok (Report.hex2 f)) := by rw [hf]; exact def_ok
  intro s
  unfold Std.headTag
  simp only
  split
  · exact def_throw
  · rename_i u hu
    exact absurd hu (def_bind (textOr_def hl t _ _) (fun _ _ => def_bind (textOr_def hl t _ _) fun _ _ => def_bind (textOr_def hl t _ _) fun _ _ =>
      def_bind (textOr_def hl t _ _) fun _ _ => def_ok) u)
  · have tr : DefPr (Pr.all [Pr.put /-  (track  -/ [32, 40, 116, 114, 97, 99, 107, 32], Pr.value (t.text E (Std.ids t.ver).track), Pr.put /- ) -/ [41]]) :=
      defPr_cons (defPr_put _) <| defPr_cons (defPr_value (tagText_def hl t _)) <| defPr_cons (defPr_put _) defPr_nil
    have li : ∀ a id, DefPr (Pr.all [Pr.put E.sin, Pr.put a, Pr.value (t.text E id), Pr.put [10]]) := fun a id =>
      defPr_cons (defPr_put _) <| defPr_cons (defPr_put _) <| defPr_cons (defPr_value (tagText_def hl t _)) <| defPr_cons (defPr_put _) defPr_nil
    refine (?_ : DefPr _) s
    exact defPr_cons (defPr_put _) <| defPr_cons (defPr_put _) <| defPr_cons (defPr_base _) <| defPr_cons (defPr_num _) <|
      defPr_cons (defPr_put _) <| defPr_cons (defPr_num _) <| defPr_cons (defPr_put _) <| defPr_cons (defPr_put _) <| defPr_cons (defPr_put _) <|
      defPr_cons (defPr_putNum hn) <| defPr_cons (defPr_put _) <| defPr_cons (defPr_put _) <| defPr_cons (defPr_put _) <| defPr_cons (defPr_put _) <|
      defPr_cons (defPr_put _) <| defPr_cons (defPr_base _) <| defPr_cons (defPr_value F) <| defPr_cons (defPr_put _) <| defPr_cons (defPr_put _) <|
      defPr_cons (defPr_put _) <| defPr_cons (defPr_put _) <| defPr_cons (defPr_put _) <| defPr_cons (defPr_put _) <| defPr_cons (defPr_put _) <|
      defPr_cons (defPr_put _) <| defPr_cons (defPr_ite fun _ => tr) <| defPr_cons (defPr_put _) <| defPr_cons (defPr_put _) <|
      defPr_cons (defPr_put _) <| defPr_cons (defPr_ite fun _ => li _ _) <| defPr_cons (defPr_ite fun _ => li _ _) <| defPr_nil

theorem std_tag_def {E : Std.Env} (hl : Lawful E.base.lib) {t : Std.Tag} (hs : SoundTag t) (hn : Def t.size) (hf : ∀ f ∈ t.frames, Full f.2) :
    DefPr (Std.tag E t) := by
  obtain ⟨p, hp⟩ := hs.padding
  unfold Std.tag
  rw [hp]
  refine defPr_cons (headTag_def hl hs hn) <| defPr_cons (defPr_all ?_) ?_
  · intro p hp
    obtain ⟨f, h, rfl⟩ := List.mem_map.mp hp
    exact std_frame_def hl _ _ (hf f h)
  · exact defPr_cons (defPr_put _) <| defPr_cons (defPr_base _) <| defPr_cons (defPr_putNum def_ok) <| defPr_cons (defPr_put _) <| defPr_cons (defPr_put _) defPr_nil

theorem genre_def (E : Std.Env) (g : Byte) {u : Pr} (hu : DefPr u) : DefPr (Std.genre E g u) := by
  unfold Std.genre
  split
  · split
    · exact defPr_put _
    · exact hu
  · exact defPr_cons (defPr_put _) <| defPr_cons (defPr_cons (defPr_base _) <| defPr_cons (defPr_num _) defPr_nil) defPr_nil

theorem std_tag1_def {E : Std.Env} (hl : Lawful E.base.lib) {t : V1Tag} (h : SoundV1 t) : DefPr (Std.tag1 E t) := by
  have ne : ∀ {α : Type} {o : Option α}, (∃ a, o = some a) → o ≠ none := by
    rintro α o ⟨a, rfl⟩
    simp
  have q := fun b => field_def (E := E.base) hl b
  unfold Std.tag1
  refine defPr_cons (defPr_put _) <| defPr_cons (defPr_put _) <| defPr_cons (defPr_ite fun _ => defPr_put _) <| defPr_cons (defPr_ite fun _ => defPr_put _) <|
    defPr_cons (defPr_put _) <| defPr_cons (defPr_value (q _)) <| defPr_cons (defPr_put _) <| defPr_cons (defPr_value (q _)) <| defPr_cons (defPr_put _) <|
    defPr_cons (defPr_put _) <| defPr_cons (defPr_value (q _)) <| defPr_cons (defPr_ite fun hv => ?_) <| defPr_cons (defPr_put _) <|
    defPr_cons (defPr_value (q _)) <| defPr_cons (defPr_put _) <| defPr_cons (defPr_put _) <| defPr_cons (defPr_value (q _)) <| defPr_cons (defPr_put _) <|
    defPr_cons (defPr_put _) <| defPr_cons ?_ <| defPr_cons (defPr_put _) defPr_nil
  · exact defPr_cons (defPr_put _) <| defPr_cons (defPr_base _) <|
      defPr_cons (defPr_putNum (def_bind (use_def (ne (h.track hv))) fun _ _ => def_ok)) <| defPr_cons (defPr_put _) defPr_nil
  · split
    · rename_i he
      exact defPr_cons (defPr_value (q _)) <| defPr_cons (defPr_put _) <| defPr_cons (genre_def E _ (defPr_put _)) <| defPr_cons (defPr_put _) <|
        defPr_cons (defPr_put _) <| defPr_cons (defPr_value (def_bind (use_def (ne (h.start he))) fun _ _ => q _)) <| defPr_cons (defPr_put _) <|
        defPr_cons (defPr_value (def_bind (use_def (ne (h.stop he))) fun _ _ => q _)) <| defPr_cons (defPr_put _) <| defPr_cons (defPr_base _) <|
        defPr_cons (defPr_putNum (def_bind (use_def (ne (h.speed he))) fun _ _ => def_ok)) <| defPr_cons (defPr_put _) defPr_nil
    · exact genre_def E _ (defPr_cons (defPr_put _) <| defPr_cons (defPr_cons (defPr_base _) <| defPr_cons (defPr_num _) defPr_nil) defPr_nil)

theorem std_put_def {E : Std.Env} (hl : Lawful E.base.lib) (o : Dump.Opts) (p : Path) (time : Bytes) {d : Option Bytes} {f : Std.Facts}
    (hr : Std.readFile E.base.z E.base.md5 d = .ok f) (h : ∀ t ∈ f.v2, Def t.size ∧ ∀ x ∈ t.frames, Full x.2) : DefPr (Std.put E .standard o p time f) := by
  obtain ⟨hs, hv⟩ := readFile_sound hr
  unfold Std.put
  refine defPr_cons (defPr_put _) <| defPr_cons (defPr_put _) <| defPr_cons (defPr_put _) <| defPr_cons (defPr_put _) <| defPr_cons (defPr_put _) <|
    defPr_cons (defPr_put _) <| defPr_cons (defPr_ite fun _ => defPr_all ?_) <| defPr_cons (defPr_ite fun _ => ?_) <| defPr_cons ?_ <| defPr_cons (defPr_put _) defPr_nil
  · intro q hq
    obtain ⟨t, ht, rfl⟩ := List.mem_map.mp hq
    exact std_tag_def hl (hs t ht) (h t ht).1 (h t ht).2
  · exact fun _ => def_ok
  · cases e : f.v1 with
    | none => exact defPr_nop
    | some t => exact defPr_ite fun _ => std_tag1_def hl (hv t e)

/-- C129, as far as it holds: with a lawful iconv, if reading the files that are come across is well-defined, and of those that can be read the sizes
of the tags are well-defined, and all that is printed of a frame is there. -/
theorem C129_partial {E : Std.Env} (hl : Lawful E.base.lib) (w : Std.World) (o : Dump.Opts) (ps : List Path)
    (hr : ∀ p, Reached w.base ps p → ∀ u, Std.readFile E.base.z E.base.md5 (w.base.file p).data ≠ .ub u)
    (hs : ∀ p, Reached w.base ps p → ∀ f, Std.readFile E.base.z E.base.md5 (w.base.file p).data = .ok f →
      ∀ t ∈ f.v2, (∀ u, t.size ≠ .ub u) ∧ ∀ x ∈ t.frames, Full x.2) :
    ∃ r, Std.run E .standard w o ps = .ok r := by
  have h1 : ∀ p, Reached w.base ps p → ∀ s, ∃ s', Std.one E .standard w o p s = .ok s' := by
    intro p hp s
    by_cases ht : Dump.takes o p = true
    · rw [Std.one_take ht]
      have hr := hr p hp
      have hs := hs p hp
      revert hr hs
      cases (w.base.file p).data with
      | none => exact fun _ _ => ⟨s, rfl⟩
      | some d =>
        intro hr hs
        cases w.time p with
        | none => exact ⟨s, rfl⟩
        | some t =>
          simp only
          cases hx : Std.readFile E.base.z E.base.md5 (some d) with
          | throw e => exact ⟨s, rfl⟩
          | ub u => exact absurd hx (hr u)
          | ok f =>
            have hd := std_put_def hl o p t hx (hs f hx) s
            simp only
            rcases hy : Std.put E .standard o p t f s with ⟨s', r⟩
            rw [hy] at hd
            cases r with
            | ok a => exact ⟨s', rfl⟩
            | throw e => exact ⟨s', rfl⟩
            | ub u => exact absurd rfl (hd u)
    · exact ⟨s, Std.one_skip (by simpa using ht) s⟩
  have h2 : ∀ es, (∀ e ∈ es, e.regular = true → Reached w.base ps e.path) → ∀ s, ∃ s', Std.walk E .standard w o es s = .ok s' := by
    intro es
    induction es with
    | nil => intro _ s; exact ⟨s, rfl⟩
    | cons e es ih =>
      intro h s
      have ih := ih fun x hx => h x (List.mem_cons_of_mem _ hx)
      rw [Std.walk]
      by_cases he : e.regular = true
      · obtain ⟨s1, k⟩ := h1 _ (h e (List.mem_cons_self ..) he) s
        rw [if_pos he, k]
        exact ih s1
      · rw [if_neg he]
        exact ih s
  have h3 : ∀ qs, (∀ q ∈ qs, q ∈ ps) → ∀ s, ∃ r, Std.args E .standard w o qs s = .ok r := by
    intro qs
    induction qs with
    | nil => intro _ s; exact ⟨_, rfl⟩
    | cons q qs ih =>
      intro h s
      have ih := ih fun x hx => h x (List.mem_cons_of_mem _ hx)
      have hq := h q (List.mem_cons_self ..)
      rw [Std.args]
      cases hi : w.base.item q with
      | absent => exact ⟨_, rfl⟩
      | file =>
        simp only
        by_cases hf : (w.base.file q).regular = true
        · obtain ⟨s1, k⟩ := h1 q (.inl hq) s
          rw [if_pos hf, k]
          exact ih s1
        · rw [if_neg hf]; exact ⟨_, rfl⟩
      | dir es broken =>
        simp only
        obtain ⟨s1, k⟩ := h2 es (fun e he hreg => .inr ⟨q, hq, es, broken, hi, e, he, hreg, rfl⟩) s
        rw [k]
        cases broken with
        | true => exact ⟨_, rfl⟩
        | false => exact ih s1
  obtain ⟨r, k⟩ := h3 ps (fun _ h => h) ⟨[], false⟩
  unfold Std.run
  rw [k]
  exact ⟨_, rfl⟩

example : ∃ r, Std.run stdEnv .standard (stdWorld stdFile) {} [/- a -/ [97], /- b -/ [98]] = .ok r := by
  have e : Std.readFile stdEnv.base.z stdEnv.base.md5 (some stdFile) = .ok stdFacts := std_read
  refine C129_partial libSame_lawful _ _ _ (fun p _ u h => ?_) fun p _ f h t ht => ?_
  · have h : Std.readFile stdEnv.base.z stdEnv.base.md5 (some stdFile) = .ub u := h
    rw [e] at h
    cases h
  · have h : Std.readFile stdEnv.base.z stdEnv.base.md5 (some stdFile) = .ok f := h
    rw [e] at h
    cases h
    simp only [stdFacts, List.mem_singleton] at ht
    subst ht
    refine ⟨nofun, fun x hx => ?_⟩
    simp only [List.mem_cons, List.not_mem_nil, or_false] at hx
    rcases hx with rfl | rfl | rfl
    · trivial
    · exact List.cons_ne_nil _ _
    · exact List.cons_ne_nil _ _

/-! ## C130: a frame is shown as what it is -/

/-- C130, in full: a frame that can be shown is printed in the lines for it, whatever has been printed before. -/
def C130_claim : Prop :=
  ∀ (E : Std.Env) (v : Ver) (id : Bytes) (b : Body) (l : List Bytes) (s : OS), E.base.v2 = none → FrameShows E v E.sin id b l →
    ∃ l hex, FrameShows E v E.sin id b l ∧ Std.frame E v id b s = (⟨s.out ++ lined l, hex⟩, .ok ())

/-- An encryption method: its owner is `o`, its symbol is 65, and its data are 10 and 11. -/
def stdEncr : Encr := ⟨/- o -/ [111], some 65, [10, 11]⟩

/-- **Finding** The symbol of an encryption method is put as a character instead of a number, and so is each byte of its data, with a zero before it:
the symbol 65 is shown as `A`, and data with a byte 10 begin a new line. -/
theorem C130_refuted : ¬ C130_claim := by
  intro c
  obtain ⟨l, hex, h, e⟩ := c stdEnv .v3 /- ENCR -/ [69, 78, 67, 82] (.encr stdEncr) _ ⟨[], false⟩ rfl
    (.encr stdEncr /- o -/ [111] 65 _ _ (by decide) same_o rfl (Report.dec_decimal _) (Report.hexPairs_spec _).1)
  have k : (Std.frame stdEnv .v3 /- ENCR -/ [69, 78, 67, 82] (.encr stdEncr) ⟨[], false⟩).1.out =
      /-   ENCR: o -/ [32, 32, 69, 78, 67, 82, 58, 32, 111] ++ [10] ++ /-   Method symbol: A -/ [32, 32, 77, 101, 116, 104, 111, 100, 32, 115, 121, 109, 98, 111, 108, 58, 32, 65] ++ [10] ++ /-   Encryption data: 0 -/ [32, 32, 69, 110, 99, 114, 121, 112, 116, 105, 111, 110, 32, 100, 97, 116, 97, 58, 32, 48] ++ [10, 48, 11, 10] := by decide +kernel
  rw [e] at k
  cases h with
  | encr _ o m n h' _ h1 h2 h3 h4 =>
    have a := utf8_ascii (E := stdEnv) h1
    have a' := utf8_ascii (E := stdEnv) same_o
    have : o = /- o -/ [111] := by
      rw [show stdEnv.ascii stdEncr.email = stdEnv.ascii /- o -/ [111] from rfl, a'] at a
      cases a
      rfl
    subst this
    cases n with
    | nil => exact absurd rfl h3.1
    | cons x n =>
      have d := h3.2.1 x (List.mem_cons_self ..)
      simp [lined, stdEnv, Std.Env.sin] at k
      rw [k.1] at d
      exact absurd d.2 (by decide)

/-- A comment the code of whose language begins with a byte above 127. -/
def stdComm : Comm := ⟨some .v3, none, 1, some 0, some (0xe1, 97, 97), [], []⟩

theorem stdLang {w : Bytes} (h : FirstWord [0xe1, 97, 97] w) : Language.inTable.lookup w = none := by
  have e := firstWord_word h
  rw [← e]
  decide +kernel

theorem stdComm_lang : LangShown (0xe1, 97, 97) (/- 0xe1,0x61,0x61 -/ [48, 120, 101, 49, 44, 48, 120, 54, 49, 44, 48, 120, 54, 49]) :=
  .other _ [0xe1, 97, 97] /- e1 -/ [101, 49] /- 61 -/ [54, 49] /- 61 -/ [54, 49] ⟨[], [], [], rfl, nofun, by
      have : ∀ c : Byte, White c → c ≤ 32 := by rintro c (rfl | rfl | rfl | rfl | rfl | rfl) <;> decide
      intro c hc k
      have := this c k
      simp only [List.mem_cons, List.not_mem_nil, or_false] at hc
      rcases hc with rfl | rfl | rfl <;> exact absurd this (by decide), by decide, .inl rfl, .inl rfl⟩ (by decide +kernel)
    (hexPair_one 0xe1) (hexPair_one 97) (hexPair_one 97)

/-- **Finding** A byte above 127 in the code of a language is extended by its sign before it is printed in base sixteen: 0xe1 is shown as
`0xffffffe1`. -/
theorem C130_refuted_language : ¬ C130_claim := by
  intro c
  obtain ⟨l, hex, h, e⟩ := c stdEnv .v3 /- COMM -/ [67, 79, 77, 77] (.comm stdComm) _ ⟨[], false⟩ rfl
    (.comm stdComm 0 _ _ [] [] rfl rfl stdComm_lang (.inl ⟨rfl, rfl⟩) (.inl ⟨rfl, rfl⟩))
  have k : (Std.frame stdEnv .v3 /- COMM -/ [67, 79, 77, 77] (.comm stdComm) ⟨[], false⟩).1.out =
      /- COMM (0xffffffe1,0x61,0x61, <no description>): -/ [67, 79, 77, 77, 32, 40, 48, 120, 102, 102, 102, 102, 102, 102, 101, 49, 44, 48, 120, 54, 49, 44, 48, 120, 54, 49, 44, 32, 60, 110, 111, 32, 100, 101, 115, 99, 114, 105, 112, 116, 105, 111, 110, 62, 41, 58] ++ [10] ++ /- <no text> -/ [60, 110, 111, 32, 116, 101, 120, 116, 62] ++ [10] := by decide +kernel
  rw [e] at k
  cases h with
  | comm _ u l n d t h1 h2 h3 h4 h5 =>
    cases h2
    cases h3 with
    | known w x n f1 f2 f3 =>
      rw [stdLang f1] at f2
      cases f2
    | other w a b c f1 f2 f3 f4 f5 =>
      have := Dump.hexPairs_unique f3 (hexPair_one 0xe1)
      subst this
      have z : Report.hex2 0xe1 = /- e1 -/ [101, 49] := by decide
      rw [z] at k
      simp [lined] at k

/-- C130, as far as it holds: for all frames but encryption methods, private frames and tag clouds of ID3v2.4, and comments the code of whose language
is not in ASCII. -/
theorem C130_partial {E : Std.Env} (hE : E.base.v2 = none) {v : Ver} {id : Bytes} {b : Body} {l : List Bytes} (h : FrameShows E v E.sin id b l)
    (hf : Fit v b) (s : OS) :
    ∃ l hex, FrameShows E v E.sin id b l ∧ Std.frame E v id b s = (⟨s.out ++ lined l, hex⟩, .ok ()) := by
  obtain ⟨l, h1, h2⟩ := frame_puts hE h hf
  obtain ⟨hex, h2⟩ := h2 s
  exact ⟨l, hex, h1, h2⟩

example : ∃ l hex, FrameShows stdEnv .v3 stdEnv.sin /- PRIV -/ [80, 82, 73, 86] (.priv ⟨/- o -/ [111], [1, 65]⟩) l ∧
    Std.frame stdEnv .v3 /- PRIV -/ [80, 82, 73, 86] (.priv ⟨/- o -/ [111], [1, 65]⟩) ⟨/- x -/ [120], true⟩ = (⟨/- x -/ [120] ++ lined l, hex⟩, .ok ()) :=
  C130_partial rfl (.priv _ /- o -/ [111] _ _ _ (by decide) same_o (Report.dec_decimal _) (spaced_spec 1 [65]) (visible_spec _)) rfl _

/-! ## C131: the heading of a tag has its year -/

/-- The frame in which the year is, or the time of recording, which begins with it. -/
def yearId : Ver → Bytes
  | .v2 => /- TYE -/ [84, 89, 69]
  | .v3 => /- TYER -/ [84, 89, 69, 82]
  | .v4 => /- TDRC -/ [84, 68, 82, 67]

/-- `s` is the text of one of the frames in which the year is. -/
def Dated (E : Std.Env) (t : Std.Tag) (s : Bytes) : Prop :=
  ∃ u b, ((yearId t.ver, Body.text u b) ∈ t.frames ∨ (yearId t.ver, Body.unknown (u :: b)) ∈ t.frames) ∧ TextIn E.base t.ver u b s

/-- C131, in full: if a tag read from a file has a year, the fifth line about the tag has the year at its end. -/
def C131_claim : Prop :=
  ∀ (E : Std.Env) (d : Option Bytes) (f : Std.Facts) (t : Std.Tag), E.base.v2 = none → Std.readFile E.base.z E.base.md5 d = .ok f → t ∈ f.v2 →
    (∃ n, t.size = .ok n) → (∀ x ∈ t.frames, ∃ l, FrameShows E t.ver E.sin x.1 x.2 l) → (∀ x ∈ t.frames, Fit t.ver x.2) → (∃ s, Dated E t s) →
    ∃ a b c e x s rest hex, Dated E t s ∧ Std.tag E t ⟨[], false⟩ = (⟨lined ([a, b, c, e, x ++ /- ,  -/ [44, 32] ++ s] ++ rest), hex⟩, .ok ())

/-- A file with an ID3v2.4 tag in which the time of recording is. -/
def datedFile : Bytes := jsonV2 4 (jsonFrame /- TDRC -/ [84, 68, 82, 67] (0 :: /- 7777 -/ [55, 55, 55, 55]))

/-- **Finding** In an ID3v2.4 tag the year is looked for in the frame TYER, which ID3v2.4 does not have any more, instead of TDRC: the heading of a tag with a
time of recording says `<no year>`. -/
theorem C131_refuted : ¬ C131_claim := by
  intro c
  have hr : Std.readFile noZlib dumpEnv.md5 (some datedFile) = .ok (one4 15 /- TDRC -/ [84, 68, 82, 67] (.unknown (0 :: /- 7777 -/ [55, 55, 55, 55]))) := by decide +kernel
  have u : ∀ s, TextIn dumpEnv .v4 0 /- 7777 -/ [55, 55, 55, 55] s → s = /- 7777 -/ [55, 55, 55, 55] := by
    intro s hs
    have a := textIn_asStr (E := dumpEnv) rfl hs
    have b : dumpEnv.asStr .v4 (some 0) /- 7777 -/ [55, 55, 55, 55] = .ok /- 7777 -/ [55, 55, 55, 55] := by decide +kernel
    rw [b] at a
    cases a
    rfl
  have hd : Dated stdEnv ⟨.v4, 0, .ok 15, .ok 0, some false, .ok 0, [(/- TDRC -/ [84, 68, 82, 67], .unknown (0 :: /- 7777 -/ [55, 55, 55, 55]))]⟩ /- 7777 -/ [55, 55, 55, 55] :=
    ⟨0, /- 7777 -/ [55, 55, 55, 55], .inr (List.mem_singleton.mpr rfl), .inr ⟨_, .latin _ _, .inr ⟨by decide, by decide +kernel⟩⟩⟩
  obtain ⟨a, b, c, e, x, s, rest, hex, h1, h2⟩ := c stdEnv _ _ _ rfl hr (List.mem_singleton.mpr rfl) ⟨_, rfl⟩
    (by
      intro y hy
      rw [List.mem_singleton.mp hy]
      exact ⟨_, .unknown _ _ (by decide) (Report.dec_decimal _)⟩)
    (by
      intro y hy
      rw [List.mem_singleton.mp hy]
      trivial) ⟨_, hd⟩
  have hs : s = /- 7777 -/ [55, 55, 55, 55] := by
    obtain ⟨u', b', h, h'⟩ := h1
    rcases h with h | h
    · simp at h
    · simp only [List.mem_singleton, Prod.mk.injEq, Body.unknown.injEq, List.cons.injEq] at h
      obtain ⟨_, rfl, rfl⟩ := h
      exact u s h'
  have k : (Std.tag stdEnv ⟨.v4, 0, .ok 15, .ok 0, some false, .ok 0, [(/- TDRC -/ [84, 68, 82, 67], .unknown (0 :: /- 7777 -/ [55, 55, 55, 55]))]⟩ ⟨[], false⟩).1.out.contains 55 = false := by
    decide +kernel
  rw [h2, hs] at k
  simp [lined] at k

/-- C131, as far as it holds: of ID3v2.2 and ID3v2.3 tags. -/
theorem C131_partial {E : Std.Env} (hE : E.base.v2 = none) {d : Option Bytes} {f : Std.Facts} {t : Std.Tag} (hr : Std.readFile E.base.z E.base.md5 d = .ok f)
    (ht : t ∈ f.v2) (hn : ∃ n, t.size = .ok n) (hf : ∀ x ∈ t.frames, ∃ l, FrameShows E t.ver E.sin x.1 x.2 l) (hfit : ∀ x ∈ t.frames, Fit t.ver x.2)
    (hs : ∃ s, Dated E t s) (hv : t.ver ≠ .v4) :
    ∃ a b c e x s rest hex, Dated E t s ∧ Std.tag E t ⟨[], false⟩ = (⟨lined ([a, b, c, e, x ++ /- ,  -/ [44, 32] ++ s] ++ rest), hex⟩, .ok ()) := by
  obtain ⟨l, hl⟩ := tag_showable ((readFile_sound hr).1 t ht) hn hf
  obtain ⟨l, h1, h2⟩ := tag_puts hE hl hfit
  obtain ⟨hex, h2⟩ := h2 ⟨[], false⟩
  cases h1 with
  | mk ai ti ali yi ki ci ei v r n s fh ar tt al ye tr ps sn pn fb b ct en fs hi _ _ _ _ _ _ _ _ _ _ _ hy =>
    have hyi : yi = yearId t.ver := by
      have := congrArg (·[3]?) hi
      cases hv' : t.ver with
      | v2 => rw [hv'] at this; exact (Option.some.inj this).symm
      | v3 => rw [hv'] at this; exact (Option.some.inj this).symm
      | v4 => exact absurd hv' hv
    rw [hyi] at hy
    rcases hy with ⟨no, _⟩ | ⟨u, c, k1, k2⟩
    · obtain ⟨s, u, c, k | k, _⟩ := hs
      · exact absurd rfl (no _ k)
      · exact absurd rfl (no _ k)
    · have k : ∀ (a b c e x : Bytes) (r1 r2 r3 r4 : List Bytes), Std.tag E t ⟨[], false⟩ = (⟨[] ++ lined ([a, b, c, e, x ++ /- ,  -/ [44, 32] ++ ye] ++ r1 ++ r2 ++ r3 ++ r4), hex⟩, .ok ()) →
          ∃ a b c e x s rest hex, Dated E t s ∧ Std.tag E t ⟨[], false⟩ = (⟨lined ([a, b, c, e, x ++ /- ,  -/ [44, 32] ++ s] ++ rest), hex⟩, .ok ()) := by
        intro a b c' e x r1 r2 r3 r4 h
        refine ⟨a, b, c', e, x, ye, r1 ++ r2 ++ r3 ++ r4, hex, ⟨u, c, .inl k1, k2⟩, ?_⟩
        rw [h]
        simp only [List.nil_append, List.append_assoc]
      exact k _ _ _ _ _ _ _ _ _ h2

/-- A file with an ID3v2.3 tag in which the year is. -/
def yearFile : Bytes := jsonV2 3 (jsonFrame /- TYER -/ [84, 89, 69, 82] (0 :: /- 7777 -/ [55, 55, 55, 55]))

example : ∃ t s rest hex a b c e x, Dated stdEnv t s ∧ t.frames = [(/- TYER -/ [84, 89, 69, 82], .text 0 /- 7777 -/ [55, 55, 55, 55])] ∧
    Std.tag stdEnv t ⟨[], false⟩ = (⟨lined ([a, b, c, e, x ++ /- ,  -/ [44, 32] ++ s] ++ rest), hex⟩, .ok ()) := by
  have ok : TextIn dumpEnv .v3 0 /- 7777 -/ [55, 55, 55, 55] /- 7777 -/ [55, 55, 55, 55] := .inr ⟨_, .latin _ _, .inr ⟨by decide, by decide +kernel⟩⟩
  have hr : Std.readFile stdEnv.base.z stdEnv.base.md5 (some yearFile) = .ok ⟨[⟨.v3, 0, .ok 15, .ok 0, some false, .ok 0, [(/- TYER -/ [84, 89, 69, 82], .text 0 /- 7777 -/ [55, 55, 55, 55])]⟩], 0, [0xab, 0x01], none⟩ := by
    decide +kernel
  obtain ⟨a, b, c, e, x, s, rest, hex, h1, h2⟩ := C131_partial (E := stdEnv) rfl hr (List.mem_singleton.mpr rfl) ⟨_, rfl⟩
    (by
      intro y hy
      rw [List.mem_singleton.mp hy]
      exact ⟨_, .text _ _ _ ok⟩)
    (by
      intro y hy
      rw [List.mem_singleton.mp hy]
      trivial) ⟨_, 0, _, .inl (List.mem_singleton.mpr rfl), ok⟩ (by decide)
  exact ⟨_, s, rest, hex, a, b, c, e, x, h1, rfl, h2⟩

end Scribbu.Props
