import Verif.Model.TextFrame
import Verif.Model.Charset
import Verif.Spec.Tables

/-! # Properties of tables: text frames (C45), encodings (C72), locales (C73), languages (C74) -/

set_option maxRecDepth 10000

namespace Scribbu.Props

open Scribbu

/-- White space, as an input stream skips it. -/
def Blank (c : Byte) : Prop := c = 32 ∨ (9 ≤ c ∧ c ≤ 13)

instance (c : Byte) : Decidable (Blank c) := by unfold Blank; infer_instance

/-- `b` is `w`, as one reads it from a stream: there may be white space before it, and anything after white space. -/
def Reads (b w : Bytes) : Prop :=
  (∀ c ∈ w, ¬ Blank c) ∧ w ≠ [] ∧
  ∃ pre suf, b = pre ++ w ++ suf ∧ (∀ c ∈ pre, Blank c) ∧ (∀ c, suf.head? = some c → Blank c)

theorem word_of_reads {b w : Bytes} (h : Reads b w) : TextFrame.word b = w := by
  obtain ⟨hw, hne, pre, suf, rfl, hpre, hsuf⟩ := h
  have hb : ∀ c : Byte, (decide (c = 32 ∨ (9 ≤ c ∧ c ≤ 13)) = true) ↔ Blank c := by
    intro c; simp [Blank]
  unfold TextFrame.word
  simp only
  have h1 : List.dropWhile (fun c : Byte => decide (c = 32 ∨ (9 ≤ c ∧ c ≤ 13))) (pre ++ w ++ suf) = w ++ suf := by
    rw [List.append_assoc, List.dropWhile_append_of_pos (by intro c hc; exact (hb c).2 (hpre c hc))]
    cases w with
    | nil => exact absurd rfl hne
    | cons x xs =>
      rw [List.cons_append, List.dropWhile_cons_of_neg]
      intro hx; exact hw x (by simp) ((hb x).1 hx)
  rw [h1, List.takeWhile_append_of_pos]
  · cases suf with
    | nil => simp
    | cons y ys =>
      rw [List.takeWhile_cons_of_neg]
      · simp
      · have := (hb y).2 (hsuf y rfl); simp only [this]; simp
  · intro c hc
    have : ¬ Blank c := hw c hc
    rw [← hb] at this
    simp only [Bool.not_eq_true] at this
    rw [this]; rfl

/-- A number for a byte string: comparing numbers is what the kernel is good at. -/
def key (b : Bytes) : Nat := b.foldl (fun a c => a * 256 + c.toNat) 0

/-- No number occurs twice. -/
def distinctB : List Nat → Bool
  | [] => true
  | x :: xs => xs.all (fun y => !(Nat.beq x y)) && distinctB xs

theorem find_of_distinct [DecidableEq κ] {t : List (κ × β)} (g : κ → Nat) (hn : distinctB (t.map fun e => g e.1) = true) {e : κ × β}
    (he : e ∈ t) : t.find? (fun f => f.1 = e.1) = some e := by
  induction t with
  | nil => simp at he
  | cons x xs ih =>
    simp only [List.map_cons, distinctB, Bool.and_eq_true, List.all_eq_true] at hn
    rcases List.mem_cons.1 he with rfl | hm
    · simp
    · have hne : x.1 ≠ e.1 := by
        intro heq
        have := hn.1 (g e.1) (List.mem_map.2 ⟨e, hm, rfl⟩)
        rw [heq] at this
        simp at this
      rw [List.find?_cons_of_neg (by simpa using hne)]
      exact ih hn.2 hm

/-- What is given, if anything, is so. -/
def given (r : Res Bytes) (p : Bytes → Bool) : Bool :=
  match r with
  | .ok n => p n
  | _ => true

/-! ## C45: text frames -/

theorem TextFrame.mem_all (x : TextFrame) : x ∈ TextFrame.all := by cases x <;> decide

/-- C45: each frame has an identifier of its own in ID3v2.2 and in ID3v2.3, the one the standards give it (where ID3v2.2 has
the frame at all), and the name that is printed is read as the frame. -/
def C45_claim : Prop :=
  ∀ x : TextFrame,
    (∃ i, (x, i) ∈ Spec.stdId4 ∧ x.id4 = .ok i) ∧
    (∀ i, (x, i) ∈ Spec.stdId3 → x.id3 = .ok i) ∧
    (∃ n, x.print = .ok n ∧ ∀ b, Reads b n → TextFrame.parse b = .ok x)

/-- C45 is refuted: there is no identifier for ID3v2.2 for the original artist, although `TOA` is read as such. -/
theorem C45_refuted : ¬ C45_claim := by
  intro h
  have := (h .tope).2.1 [84, 79, 65] (by decide)
  revert this; decide

/-- The beats per minute have the wrong identifier in ID3v2.2: `TBM`, and `TBP` is not understood. -/
theorem C45_refuted_bpm : TextFrame.tbpm.id3 = .ok [84, 66, 77] ∧ (.tbpm, [84, 66, 80]) ∈ Spec.stdId3 ∧
    TextFrame.parse [84, 66, 80] = .throw .outOfRange := by decide

/-- These are all the frames of ID3v2.2 whose identifier is missing or wrong. -/
theorem C45_v22_partial : ∀ x ∉ [TextFrame.tbpm, .tmed, .toal, .toly, .tope, .tory], ∀ i, (x, i) ∈ Spec.stdId3 → x.id3 = .ok i := by
  have h : ∀ e ∈ Spec.stdId3, e.1 ∉ [TextFrame.tbpm, .tmed, .toal, .toly, .tope, .tory] → e.1.id3 = .ok e.2 := by decide +kernel
  intro x hx i hi
  exact h (x, i) hi hx

example : TextFrame.tit2.id3 = .ok [84, 84, 50] := rfl
example : TextFrame.tpe1 ∉ [TextFrame.tbpm, .tmed, .toal, .toly, .tope, .tory] ∧ (.tpe1, [84, 80, 49]) ∈ Spec.stdId3 := by decide

/-- C45 for ID3v2.3: every frame has the identifier of the standard. -/
theorem C45_v23_partial (x : TextFrame) : ∃ i, (x, i) ∈ Spec.stdId4 ∧ x.id4 = .ok i := by
  cases x <;> exact ⟨_, by decide, rfl⟩

/-- C45, reading: the printed name and each of the identifiers is read as the frame. -/
theorem C45_read_partial (x : TextFrame) (n b : Bytes) (hn : x.print = .ok n ∨ x.id4 = .ok n ∨ x.id3 = .ok n) (hb : Reads b n) :
    TextFrame.parse b = .ok x := by
  have h : ∀ x ∈ TextFrame.all, ∀ n, (x.print = .ok n ∨ x.id4 = .ok n ∨ x.id3 = .ok n) →
      (TextFrame.inTable.find? fun e => e.1 = n).map (·.2) = some x := by
    have h1 : ∀ x ∈ TextFrame.all, ∀ r ∈ [x.print, x.id4, x.id3],
        given r (fun n => (TextFrame.inTable.find? fun e => e.1 = n).map (·.2) = some x) = true := by decide +kernel
    intro x hx n hn
    have := h1 x hx
    rcases hn with hn | hn | hn <;> simpa [given] using this _ (by rw [← hn]; simp : .ok n ∈ _)
  have := h x (TextFrame.mem_all x) n hn
  unfold TextFrame.parse
  rw [word_of_reads hb]
  cases hf : TextFrame.inTable.find? fun e => e.1 = n with
  | none => rw [hf] at this; simp at this
  | some e => rw [hf] at this; simp at this; simp [this]

example : Reads [32, 9, 116, 105, 116, 50, 10, 120] [116, 105, 116, 50] :=
  ⟨by decide, by decide, [32, 9], [10, 120], rfl, by decide, by decide⟩
example : TextFrame.tit2.print = .ok [116, 105, 116, 50] := rfl

/-- C45, no collisions: no two frames share a name or an identifier. -/
theorem C45_distinct_partial (x y : TextFrame) (n : Bytes) (hx : x.print = .ok n ∨ x.id4 = .ok n ∨ x.id3 = .ok n)
    (hy : y.print = .ok n ∨ y.id4 = .ok n ∨ y.id3 = .ok n) : x = y := by
  have hgood : ∀ c ∈ n, ¬ Blank c := by
    have h1 : ∀ x ∈ TextFrame.all, ∀ r ∈ [x.print, x.id4, x.id3], given r (fun n => n.all fun c => ¬ Blank c) = true := by
      decide +kernel
    have := h1 x (TextFrame.mem_all x)
    rcases hx with hn | hn | hn <;> simpa [given] using this _ (by rw [← hn]; simp : .ok n ∈ _)
  have hne : n ≠ [] := by
    have h1 : ∀ x ∈ TextFrame.all, x.print ≠ .ok [] ∧ x.id4 ≠ .ok [] ∧ x.id3 ≠ .ok [] := by decide +kernel
    rintro rfl
    have := h1 x (TextFrame.mem_all x)
    rcases hx with h | h | h
    · exact this.1 h
    · exact this.2.1 h
    · exact this.2.2 h
  have hb : Reads n n := ⟨hgood, hne, [], [], by simp, by simp, by simp⟩
  have hx' := C45_read_partial x n n hx hb
  have hy' := C45_read_partial y n n hy hb
  rw [hx'] at hy'
  injection hy'

/-! ## C72: names of encodings -/

theorem Encoding.mem_all (x : Encoding) : x ∈ Encoding.all := by cases x <;> decide +kernel

/-- C72: each encoding is printed by a name of its own, which is read as the encoding, and is the one `iconv` is given
(followed, for the destination, by what is to be done about characters it does not have). -/
theorem C72_encoding_names (x : Encoding) : ∃ n, x.print = .ok n ∧ n ≠ [] ∧ (∀ b, Reads b n → Encoding.parse b = .ok x) ∧
    (x.iconvName .fail = .ok n ∧
     x.iconvName .ignore = .ok (n ++ [47, 47, 73, 71, 78, 79, 82, 69]) ∧
     x.iconvName .transliterate = .ok (n ++ [47, 47, 84, 82, 65, 78, 83, 76, 73, 84])) := by
  have hin : distinctB (Encoding.inTable.map fun e => key e.1) = true := by decide +kernel
  have h : (Encoding.all.all fun x => match Encoding.outTable.find? (fun f => f.1 = x), Encoding.iconvTable.find? (fun f => f.1 = x) with
      | some e, some f => e.2 == f.2 && !e.2.isEmpty && Encoding.inTable.contains (e.2, x)
      | _, _ => false) = true := by decide +kernel
  have hx := List.all_eq_true.1 h x (Encoding.mem_all x)
  cases ho : Encoding.outTable.find? (fun f => f.1 = x) with
  | none => rw [ho] at hx; simp at hx
  | some e =>
    cases hi : Encoding.iconvTable.find? (fun f => f.1 = x) with
    | none => rw [ho, hi] at hx; simp at hx
    | some f =>
      rw [ho, hi] at hx
      simp only [Bool.and_eq_true, beq_iff_eq, Bool.not_eq_true', List.isEmpty_eq_false_iff, List.contains_iff_mem] at hx
      obtain ⟨⟨h1, h2⟩, h3⟩ := hx
      refine ⟨e.2, by simp [Encoding.print, ho], h2, fun b hb => ?_, ?_⟩
      · have := find_of_distinct key hin h3
        unfold Encoding.parse
        rw [word_of_reads hb]
        simp only at this
        rw [this]
      · simp [Encoding.iconvName, hi, h1, OnNo.suffix]

example : Encoding.CP1252.print = .ok [67, 80, 49, 50, 53, 50] := by decide +kernel
example : Reads [67, 80, 49, 50, 53, 50] [67, 80, 49, 50, 53, 50] :=
  ⟨by decide, by decide, [], [], by decide, by decide, by decide⟩

/-- C72: what is not the name of an encoding is refused. -/
theorem C72_no_other_names (b : Bytes) (x : Encoding) (h : Encoding.parse b = .ok x) :
    x.print = .ok (TextFrame.word b) := by
  have ht : ∀ e ∈ Encoding.inTable, e.2.print = .ok e.1 := by
    have h : (Encoding.inTable.all fun e => match Encoding.outTable.find? (fun f => f.1 = e.2) with
        | some f => f.2 == e.1
        | none => false) = true := by decide +kernel
    intro e he
    have := List.all_eq_true.1 h e he
    cases ho : Encoding.outTable.find? (fun f => f.1 = e.2) with
    | none => rw [ho] at this; simp at this
    | some f => rw [ho] at this; simp at this; simp [Encoding.print, ho, this]
  unfold Encoding.parse at h
  split at h
  · rename_i e he
    have hm := List.mem_of_find?_eq_some he
    have hp := List.find?_some he
    simp at hp h
    rw [← hp, ← h]; exact ht e hm
  · simp at h

example : Encoding.parse [32, 85, 84, 70, 45, 56] = .ok .UTF_8 := by decide +kernel

/-- C72, what to do about characters an encoding does not have: printed by name, which is read back. -/
theorem C72_on_no_encoding (x : OnNo) (b : Bytes) (hb : Reads b x.print) : OnNo.parse b = .ok x := by
  unfold OnNo.parse
  rw [word_of_reads hb]
  cases x <;> decide

/-! ## C73: the character set of a locale -/

/-- Locales name their character set after a dot: these are some. -/
def localeCharsets : List (Bytes × Encoding) := [
  /- UTF-8 -/ ([85, 84, 70, 45, 56], .UTF_8),
  /- utf8 -/ ([117, 116, 102, 56], .UTF_8),
  /- US-ASCII -/ ([85, 83, 45, 65, 83, 67, 73, 73], .ASCII),
  /- ISO8859-1 -/ ([73, 83, 79, 56, 56, 53, 57, 45, 49], .ISO_8859_1),
  /- ISO8859-15 -/ ([73, 83, 79, 56, 56, 53, 57, 45, 49, 53], .ISO_8859_15),
  /- CP1251 -/ ([67, 80, 49, 50, 53, 49], .CP1251),
  /- CP1252 -/ ([67, 80, 49, 50, 53, 50], .CP1252)]

/-- C73: if the name of the global locale says what its character set is, that is the system's encoding. -/
def C73_claim : Prop :=
  ∀ e ∈ localeCharsets, ∀ lang user : Bytes, Encoding.fromSystemLocale (lang ++ 46 :: e.1) user = .ok e.2

theorem takeWhile_length_lt {p : Byte → Bool} : ∀ {l : Bytes}, (∃ c ∈ l, p c = false) → (l.takeWhile p).length < l.length
  | [], h => by obtain ⟨c, hc, _⟩ := h; simp at hc
  | x :: xs, h => by
    by_cases hx : p x
    · obtain ⟨c, hc, hp⟩ := h
      rcases List.mem_cons.1 hc with rfl | hc
      · rw [hp] at hx; simp at hx
      · have := takeWhile_length_lt (p := p) ⟨c, hc, hp⟩
        rw [List.takeWhile_cons_of_pos hx]; simp; exact this
    · rw [List.takeWhile_cons_of_neg hx]; simp

/-- No locale whose name has a dot is recognised. -/
theorem fromLocaleName_dot {name : Bytes} (h : (46 : Byte) ∈ name) : Encoding.fromLocaleName name = none := by
  have ht : ∀ e ∈ Encoding.localeTable, e.1.head? ≠ some 46 := by decide +kernel
  unfold Encoding.fromLocaleName
  have hlt : (name.reverse.takeWhile (· ≠ (46 : Byte))).length < name.length := by
    have := takeWhile_length_lt (p := fun c : Byte => decide (c ≠ 46)) (l := name.reverse) ⟨46, by simpa using h, by simp⟩
    simpa using this
  simp only
  rw [if_neg (Nat.ne_of_lt hlt)]
  have : Encoding.localeTable.find? (fun e => e.1 = 46 :: (name.reverse.takeWhile (· ≠ (46 : Byte))).reverse) = none := by
    rw [List.find?_eq_none]
    intro e he
    have := ht e he
    simp only [decide_eq_true_eq]
    intro heq; rw [heq] at this; simp at this
  rw [this]

/-- C73 is refuted: in `en_US.UTF-8`, the system's encoding cannot be told. -/
theorem C73_refuted : ¬ C73_claim := by
  intro h
  have := h ([85, 84, 70, 45, 56], .UTF_8) (by decide) [101, 110, 95, 85, 83] [101, 110, 95, 85, 83, 46, 85, 84, 70, 45, 56]
  revert this; decide +kernel

/-- In fact no locale whose name states a character set is recognised: if both names do, there is an error. -/
theorem C73_refuted_all (l1 c1 l2 c2 : Bytes) : Encoding.fromSystemLocale (l1 ++ 46 :: c1) (l2 ++ 46 :: c2) = .throw .rangeError := by
  unfold Encoding.fromSystemLocale
  rw [fromLocaleName_dot (by simp), fromLocaleName_dot (by simp)]

/-- C73, what holds: a wrong encoding is never taken from a name that states one; the encoding is UTF-8 if the global locale does
not state one (`C`, for one), or else if the user's locale does not. -/
theorem C73_partial (global user : Bytes) :
    ((46 : Byte) ∉ global → Encoding.fromSystemLocale global user = .ok .UTF_8) ∧
    ((46 : Byte) ∈ global → (46 : Byte) ∉ user → Encoding.fromSystemLocale global user = .ok .UTF_8) ∧
    ((46 : Byte) ∈ global → (46 : Byte) ∈ user → Encoding.fromSystemLocale global user = .throw .rangeError) := by
  have hno : ∀ name : Bytes, (46 : Byte) ∉ name → Encoding.fromLocaleName name = some .UTF_8 := by
    intro name h
    unfold Encoding.fromLocaleName
    have : name.reverse.takeWhile (· ≠ (46 : Byte)) = name.reverse := by
      have hall : ∀ c ∈ name.reverse, decide (c ≠ (46 : Byte)) = true := by
        intro c hc
        have : c ≠ 46 := by rintro rfl; exact h (by simpa using hc)
        simpa using this
      have := List.takeWhile_append_of_pos (l₂ := []) hall
      simpa using this
    simp only [this, List.length_reverse, if_true]
  refine ⟨fun h => ?_, fun h1 h2 => ?_, fun h1 h2 => ?_⟩
  · unfold Encoding.fromSystemLocale; rw [hno _ h]
  · unfold Encoding.fromSystemLocale; rw [fromLocaleName_dot h1, hno _ h2]
  · unfold Encoding.fromSystemLocale; rw [fromLocaleName_dot h1, fromLocaleName_dot h2]

example : (46 : Byte) ∉ ([67] : Bytes) := by decide

/-! ## C74: languages -/

/-- The value of LANGUAGE, LC_ALL or LANG that counts: the first that is more than a letter. -/
def Counts (env : List Bytes) (v : Bytes) : Prop :=
  ∃ pre post, env = pre ++ v :: post ∧ (∀ w ∈ pre, w.length < 2) ∧ 2 ≤ v.length

/-- C74: the code of a language is its code in ISO 639-2: three small letters. If none is given, it is that of the locale's
language: the one whose ISO 639-1 code is at its beginning, before an underscore. A language that is printed is read back. -/
def C74_claim : Prop :=
  (∀ env, ∀ x : Language, 1 ≤ x → x ≤ 507 → ∃ c, Language.toIso2 env x = .ok c ∧ c.length = 3 ∧ ∀ a ∈ c, 97 ≤ a ∧ a ≤ 122) ∧
  (∀ e ∈ Spec.iso639, ∀ env v, Counts env v → v = e.1 ∨ (∃ r, v = e.1 ++ 95 :: r) →
    ∃ c, Language.toIso2 env Language.fromLocale = .ok c ∧ (c = e.2.1 ∨ c = e.2.2)) ∧
  (∀ x : Language, x ≤ 507 → ∃ n, x.print = .ok n ∧ ∀ b, Reads b n → Language.parse b = .ok x)

/-- C74 is refuted: the code of Assamese is given as `ASM`, -/
theorem C74_refuted : ¬ C74_claim := by
  intro h
  obtain ⟨c, h1, -, h2⟩ := h.1 [] 29 (by decide) (by decide)
  have : Language.toIso2 [] 29 = .ok [65, 83, 77] := by decide +kernel
  rw [this] at h1
  injection h1 with h1
  subst h1
  revert h2; decide

/-- also if it is that of the locale. -/
theorem C74_refuted_locale : Language.toIso2 [[97, 115, 95, 73, 78]] Language.fromLocale = .ok [65, 83, 77] ∧
    ([97, 115], [97, 115, 109], [97, 115, 109]) ∈ Spec.iso639 := by decide +kernel

/-- "As the locale has it", the default, has no name. -/
theorem C74_refuted_print : Language.print Language.fromLocale = .throw .outOfRange := by decide +kernel

/-- In the locale `C.UTF-8` no code can be found for the default language, and in the locale `C` neither. -/
theorem C74_no_language : Language.toIso2 [[], [], [67, 46, 85, 84, 70, 45, 56]] Language.fromLocale = .throw .logicError ∧
    Language.toIso2 [[], [], [67]] Language.fromLocale = .throw .runtimeError := by decide +kernel

/-- A language without code in ISO 639-1 is taken for another: Filipino (`fil_PH`) for Finnish. -/
theorem C74_mistaken : Language.toIso2 [[102, 105, 108, 95, 80, 72]] Language.fromLocale = .ok [102, 105, 110] := by decide +kernel

theorem lang_keys : (Language.outTable.map fun e => id e.1) = List.range' 1 507 := by decide +kernel

theorem lang_distinct : distinctB (List.range' 1 507) = true := by decide +kernel

theorem lang_iso2 : Language.iso2 = Language.outTable := by decide +kernel

theorem lang_in : Language.inTable = Language.outTable.map fun e => (e.2, e.1) := by decide +kernel

theorem lang_in_distinct : distinctB (Language.inTable.map fun e => key e.1) = true := by decide +kernel

theorem lang_mem (x : Nat) (h1 : 1 ≤ x) (h2 : x ≤ 507) : ∃ c, (x, c) ∈ Language.outTable ∧ c.length = 3 ∧
    (x ∉ [29, 115, 283, 292, 324] → ∀ a ∈ c, 97 ≤ a ∧ a ≤ 122) := by
  have hx : x ∈ Language.outTable.map fun e => id e.1 := by
    rw [lang_keys, List.mem_range'_1]
    omega
  obtain ⟨e, he, rfl⟩ := List.mem_map.1 hx
  have h : (Language.outTable.all fun e => e.2.length == 3 &&
      ([29, 115, 283, 292, 324].contains e.1 || e.2.all fun a => 97 ≤ a && a ≤ 122)) = true := by decide +kernel
  have := List.all_eq_true.1 h e he
  simp only [Bool.and_eq_true, beq_iff_eq, Bool.or_eq_true, List.contains_iff_mem, List.all_eq_true, decide_eq_true_eq] at this
  exact ⟨e.2, he, this.1, fun hn => this.2.resolve_left hn⟩

/-- C74, codes: all others are given by their three small letters. (The numbers are those of the enumerators `ASM`, `DIV`, `MAP`,
`MIN`, `NEW`.) -/
theorem C74_code_partial (env : List Bytes) (x : Nat) (h1 : 1 ≤ x) (h2 : x ≤ 507) :
    ∃ c, Language.toIso2 env x = .ok c ∧ c.length = 3 ∧ Language.print x = .ok c ∧
      (x ∉ [29, 115, 283, 292, 324] → ∀ a ∈ c, 97 ≤ a ∧ a ≤ 122) := by
  obtain ⟨c, hm, hl, hs⟩ := lang_mem x h1 h2
  have h3 := find_of_distinct (e := (x, c)) id (by rw [lang_keys]; exact lang_distinct) hm
  refine ⟨c, ?_, hl, ?_, hs⟩
  · unfold Language.toIso2
    have hne : ¬ x = Language.fromLocale := by
      intro h
      have : x = 0 := h
      omega
    rw [if_neg hne, lang_iso2]
    simp only at h3
    simp only [Res.bind, h3]
  · unfold Language.print
    simp only at h3
    rw [h3]

/-- C74, the language of the locale: for all codes of ISO 639-1 but two, the variable that counts determines the code. -/
theorem C74_locale_partial : ∀ e ∈ Spec.iso639, e.1 ≠ [97, 115] → e.1 ≠ [100, 118] → ∀ env v, Counts env v → e.1 <+: v →
    ∃ c, Language.toIso2 env Language.fromLocale = .ok c ∧ (c = e.2.1 ∨ c = e.2.2) := by
  have ht : ∀ e ∈ Spec.iso639, e.1 ≠ [97, 115] → e.1 ≠ [100, 118] → e.1.length = 2 ∧
      ∃ f, Language.iso1.find? (fun g => g.1 = e.1) = some f ∧
        ∃ g, Language.iso2.find? (fun h => h.1 = f.2) = some g ∧ (g.2 = e.2.1 ∨ g.2 = e.2.2) := by
    have h : (Spec.iso639.all fun e => e.1 == [97, 115] || e.1 == [100, 118] || (e.1.length == 2 &&
        match Language.iso1.find? (fun g => g.1 = e.1) with
        | some f => (match Language.iso2.find? (fun h => h.1 = f.2) with
          | some g => g.2 == e.2.1 || g.2 == e.2.2
          | none => false)
        | none => false)) = true := by decide +kernel
    intro e he h1 h2
    have := List.all_eq_true.1 h e he
    simp only [Bool.or_eq_true, beq_iff_eq, h1, h2, false_or, Bool.and_eq_true] at this
    obtain ⟨hl, hm⟩ := this
    refine ⟨hl, ?_⟩
    cases hf : Language.iso1.find? (fun g => g.1 = e.1) with
    | none => rw [hf] at hm; simp at hm
    | some f =>
      rw [hf] at hm
      refine ⟨f, rfl, ?_⟩
      cases hg : Language.iso2.find? (fun g => g.1 = f.2) with
      | none => simp only [hg] at hm; simp at hm
      | some g =>
        simp only [hg, Bool.or_eq_true, beq_iff_eq] at hm
        exact ⟨g, rfl, hm⟩
  intro e he h1 h2 env v hc hp
  obtain ⟨hl, f, hf, g, hg, hgood⟩ := ht e he h1 h2
  obtain ⟨pre, post, rfl, hpre, hv⟩ := hc
  refine ⟨g.2, ?_, hgood⟩
  have henv : Language.ofEnv (pre ++ v :: post) = .ok f.2 := by
    induction pre with
    | nil =>
      obtain ⟨r, rfl⟩ := hp
      obtain ⟨c0, c1, h01⟩ : ∃ c0 c1, e.1 = [c0, c1] := by
        match h : e.1, hl with
        | [a, b], _ => exact ⟨a, b, rfl⟩
      rw [h01] at hf ⊢
      simp [Language.ofEnv, Language.fromIso1, hf]
    | cons w ws ih =>
      have hw := hpre w (by simp)
      have := ih (fun x hx => hpre x (by simp [hx]))
      match w, hw with
      | [], _ => simpa [Language.ofEnv] using this
      | [a], _ => simpa [Language.ofEnv] using this
  unfold Language.toIso2
  rw [if_pos rfl, henv]
  simp [Res.bind, hg]

example : Counts [[], [67], [100, 101, 95, 65, 84]] [100, 101, 95, 65, 84] :=
  ⟨[[], [67]], [], rfl, by decide, by decide⟩
example : ([100, 101] : Bytes) <+: [100, 101, 95, 65, 84] := by decide

/-- C74, names: each language but the default is printed by its code, which is read back. -/
theorem C74_read_partial (x : Nat) (h1 : 1 ≤ x) (h2 : x ≤ 507) :
    ∃ n, Language.print x = .ok n ∧ n.length = 3 ∧ ∀ b, Reads b n → Language.parse b = .ok x := by
  obtain ⟨c, hm, hl, -⟩ := lang_mem x h1 h2
  have h3 := find_of_distinct (e := (x, c)) id (by rw [lang_keys]; exact lang_distinct) hm
  refine ⟨c, ?_, hl, fun b hb => ?_⟩
  · unfold Language.print
    simp only at h3
    rw [h3]
  · have h4 := find_of_distinct (e := (c, x)) key lang_in_distinct (by rw [lang_in]; exact List.mem_map.2 ⟨(x, c), hm, rfl⟩)
    unfold Language.parse
    rw [word_of_reads hb]
    simp only at h4
    rw [h4]

end Scribbu.Props
