import Verif.Proofs.TemplateText
import Verif.Spec.TemplateSource

/-! # Scanning a template that is written as it should be -/

namespace Scribbu.Tbt
open Scribbu.Spec

/-! ### The scanner uses up input -/

theorem textSpan_append : ∀ b : Bytes, (textSpan b).1 ++ (textSpan b).2 = b
  | [] => rfl
  | [c] => by unfold textSpan; split <;> rfl
  | c :: d :: r => by
    have h1 := textSpan_append r
    have h2 := textSpan_append (d :: r)
    unfold textSpan
    split
    · split
      · simp [h1]
      · rfl
    · split
      · rfl
      · simp [h2]

theorem longest_mem (inp : Bytes) (rs : List (Bytes × Tok × Start)) (best : Option (Bytes × Tok × Start))
    (e : Bytes × Tok × Start) (h : longest inp best rs = some e) : best = some e ∨ (e ∈ rs ∧ e.1 <+: inp) := by
  induction rs generalizing best with
  | nil => exact .inl h
  | cons r rs ih =>
    unfold longest at h
    rcases ih _ h with h | h
    · split at h
      · rename_i hp
        have hp' : r.1 <+: inp := List.isPrefixOf_iff_prefix.mp hp
        split at h
        · simp only [Option.some.injEq] at h
          subst h
          exact .inr ⟨List.mem_cons_self, hp'⟩
        · split at h
          · simp only [Option.some.injEq] at h
            subst h
            exact .inr ⟨List.mem_cons_self, hp'⟩
          · exact .inl h
      · exact .inl h
    · exact .inr ⟨List.mem_cons_of_mem _ h.1, h.2⟩

theorem replacementRules_ne : ∀ e ∈ replacementRules, e.1 ≠ [] := by decide +kernel
theorem parameterRules_ne : ∀ e ∈ parameterRules, e.1 ≠ [] := by decide +kernel
theorem initialRules_ne : ∀ e ∈ initialRules, e.1 ≠ [] := by decide +kernel

theorem drop_le {p : Bytes} (h : p ≠ []) (c : Byte) (cs : Bytes) : ((c :: cs).drop p.length).length ≤ cs.length := by
  have : 0 < p.length := List.length_pos_iff.mpr h
  simp
  omega

theorem span_le {c : Byte} {cs x rest : Bytes} (h : textSpan (c :: cs) = (x, rest)) (hx : x ≠ []) :
    rest.length ≤ cs.length := by
  have h1 := textSpan_append (c :: cs)
  rw [h] at h1
  have h2 := congrArg List.length h1
  have h3 : 0 < x.length := List.length_pos_iff.mpr hx
  simp at h2
  omega

theorem step_le (st : Start) (c : Byte) (cs : Bytes) : (step st c cs).2.length ≤ cs.length := by
  unfold step
  cases st
  · simp only
    split
    · split
      · rename_i hl
        rcases longest_mem _ _ _ _ hl with h | h
        · cases h
        · exact drop_le (initialRules_ne _ h.1) c cs
      · exact Nat.le_refl _
    · rename_i x rest hx hs
      exact span_le hs (by rintro rfl; exact hx rfl)
  · simp only
    split
    · rename_i hl
      rcases longest_mem _ _ _ _ hl with h | h
      · cases h
      · exact drop_le (replacementRules_ne _ h.1) c cs
    · split <;> exact Nat.le_refl _
  · simp only
    split
    · rename_i p t s x rest hl hs
      have hp : p ≠ [] := by
        rcases longest_mem _ _ _ _ hl with h | h
        · cases h
        · exact parameterRules_ne _ h.1
      split
      · exact drop_le hp c cs
      · rename_i hlt
        exact span_le hs (by rintro rfl; exact hlt (Nat.zero_le _))
    · exact Nat.le_refl _
    · rename_i x rest hx _ hs
      exact span_le hs (by rintro rfl; exact hx rfl)

theorem lex_fuel (n m : Nat) (st : Start) (b : Bytes) (hn : b.length ≤ n) (hm : b.length ≤ m) : lex n st b = lex m st b := by
  induction n generalizing m st b with
  | zero =>
    have : b = [] := List.length_eq_zero_iff.mp (by omega)
    subst this
    cases m <;> rfl
  | succ n ih =>
    cases b with
    | nil => cases m <;> rfl
    | cons c cs =>
      simp only [List.length_cons] at hn hm
      cases m with
      | zero => omega
      | succ m =>
        have h := step_le st c cs
        unfold lex
        split
        · rename_i rest hs
          rw [hs] at h
          exact ih m st rest (by simp only at h; omega) (by simp only at h; omega)
        · rename_i t s rest hs
          rw [hs] at h
          rw [ih m s rest (by simp only at h; omega) (by simp only at h; omega)]

/-- All tokens of an input. -/
def lexAll (st : Start) (b : Bytes) : List (Tok × Start) := lex b.length st b

theorem lexAll_nil (st : Start) : lexAll st [] = [] := rfl

theorem lexAll_step {st : Start} {c : Byte} {cs rest : Bytes} {t : Tok} {s : Start}
    (h : step st c cs = (some (t, s), rest)) : lexAll st (c :: cs) = (t, s) :: lexAll s rest := by
  have hl := step_le st c cs
  rw [h] at hl
  unfold lexAll
  show lex (cs.length + 1) st (c :: cs) = _
  simp only [lex, h]
  rw [lex_fuel cs.length rest.length s rest hl (Nat.le_refl _)]

theorem lexAll_skip {st : Start} {c : Byte} {cs rest : Bytes} (h : step st c cs = (none, rest)) :
    lexAll st (c :: cs) = lexAll st rest := by
  have hl := step_le st c cs
  rw [h] at hl
  unfold lexAll
  show lex (cs.length + 1) st (c :: cs) = _
  simp only [lex, h]
  rw [lex_fuel cs.length rest.length st rest hl (Nat.le_refl _)]

/-! ### Single tokens -/

theorem lex_pct (r : Bytes) : lexAll .initial (37 :: r) = (.pct, .replacement) :: lexAll .replacement r :=
  lexAll_step (by cases r <;> rfl)

theorem lex_lparen (r : Bytes) : lexAll .initial (40 :: r) = (.lparen, .initial) :: lexAll .initial r :=
  lexAll_step (by cases r <;> rfl)

theorem lex_rparen (r : Bytes) : lexAll .initial (41 :: r) = (.rparen, .initial) :: lexAll .initial r :=
  lexAll_step (by cases r <;> rfl)

theorem lex_question (r : Bytes) : lexAll .initial (63 :: r) = (.question, .initial) :: lexAll .initial r :=
  lexAll_step (by cases r <;> rfl)

theorem lex_rlparen (r : Bytes) : lexAll .replacement (40 :: r) = (.lparen, .replacement) :: lexAll .replacement r :=
  lexAll_step rfl

theorem lex_rrparen (r : Bytes) : lexAll .replacement (41 :: r) = (.rparen, .initial) :: lexAll .initial r :=
  lexAll_step rfl

theorem lex_colon (r : Bytes) : lexAll .replacement (58 :: r) = (.colon, .replacement) :: lexAll .replacement r :=
  lexAll_step rfl

theorem lex_amp (r : Bytes) : lexAll .replacement (38 :: r) = (.amp, .replacement) :: lexAll .replacement r :=
  lexAll_step rfl

theorem lex_equal (r : Bytes) : lexAll .replacement (61 :: r) = (.equal, .parameter) :: lexAll .parameter r :=
  lexAll_step rfl

theorem escape_cons_ne {b : Bytes} (h : b ≠ []) : ∃ c cs, escape b = c :: cs := by
  cases he : escape b with
  | nil => exact absurd he (escape_ne h)
  | cons c cs => exact ⟨c, cs, rfl⟩

theorem lex_text {b rest : Bytes} (hb : b ≠ []) (h61 : 61 ∉ b) (hr : Stops rest) :
    lexAll .initial (escape b ++ rest) = (.text b, .initial) :: lexAll .initial rest := by
  obtain ⟨c, cs, he⟩ := escape_cons_ne hb
  have h1 := textSpan_escape b hr
  have h2 := unescape_escape h61
  rw [he] at h1 h2 ⊢
  apply lexAll_step
  have h1' : textSpan (c :: (cs ++ rest)) = (c :: cs, rest) := h1
  show step .initial c (cs ++ rest) = _
  simp only [step, h1', h2]

theorem lex_long (n : LongName) (d : Byte) (hd : d = 41 ∨ d = 58) (r : Bytes) :
    lexAll .replacement (n.bytes ++ d :: r) = (.name n.name, .replacement) :: lexAll .replacement (d :: r) := by
  rcases hd with rfl | rfl
  · rcases n with n | n | _ | _ | _ | _ <;> first | (cases n <;> exact lexAll_step rfl) | exact lexAll_step rfl
  · rcases n with n | n | _ | _ | _ | _ <;> first | (cases n <;> exact lexAll_step rfl) | exact lexAll_step rfl

theorem lex_short (n : Name) (r : Bytes) (h : swallowed n r = false) :
    lexAll .replacement (shortForm n :: r) = (.abbrev n, .initial) :: lexAll .initial r := by
  cases n
  case basename =>
    have h1 : [97, 115, 101].isPrefixOf r = false := h
    have h2 : [97, 115, 101, 110, 97, 109, 101].isPrefixOf r = false := by
      rw [← Bool.not_eq_true, List.isPrefixOf_iff_prefix] at h1 ⊢
      exact fun h => h1 (List.IsPrefix.trans ⟨[110, 97, 109, 101], rfl⟩ h)
    have h3 : longest (98 :: r) none replacementRules = some ([98], .abbrev .basename, .initial) := by
      simp only [longest, replacementRules, List.isPrefixOf_cons_cons, h1, h2]
      rfl
    apply lexAll_step
    show step .replacement 98 r = _
    simp only [step, h3]
    rfl
  case encodedBy =>
    have h0 : ([120, 116, 101, 110, 115, 105, 111, 110].isPrefixOf r || [110, 99, 111, 100, 101, 100, 45, 98, 121].isPrefixOf r)
      = false := h
    rw [Bool.or_eq_false_iff] at h0
    have h3 : longest (101 :: r) none replacementRules = some ([101], .abbrev .encodedBy, .initial) := by
      simp only [longest, replacementRules, List.isPrefixOf_cons_cons, h0.1, h0.2]
      rfl
    apply lexAll_step
    show step .replacement 101 r = _
    simp only [step, h3]
    rfl
  all_goals exact lexAll_step rfl

/-! ### Options -/

/-- The end of an option. -/
def Delim (d : Byte) : Prop := d = 41 ∨ d = 38

/-- The tokens of an option on the text. -/
def _root_.Scribbu.Spec.TextOption.toks : TextOption → List (Tok × Start)
  | .the => [(.the, .replacement)]
  | .thePrefix => [(.the, .replacement), (.equal, .parameter), (.prefix, .replacement)]
  | .theSuffix => [(.the, .replacement), (.equal, .parameter), (.suffix, .replacement)]
  | .cap => [(.cap, .replacement)]
  | .capUpper => [(.cap, .replacement), (.equal, .parameter), (.allUpper, .replacement)]
  | .capLower => [(.cap, .replacement), (.equal, .parameter), (.allLower, .replacement)]
  | .capFirst => [(.cap, .replacement), (.equal, .parameter), (.capitalize, .replacement)]
  | .compress => [(.compress, .replacement)]
  | .replace t => [(.ws, .replacement), (.equal, .parameter), (.paramText t, .replacement)]
  | .both t => [(.compress, .replacement), (.ws, .replacement), (.equal, .parameter), (.paramText t, .replacement)]

theorem Delim.stops {d : Byte} (h : Delim d) (r : Bytes) : Stops (d :: r) := by
  intro c cs he
  cases he
  rcases h with rfl | rfl <;> decide

theorem prefix_escape {p t : Bytes} (hp : ∀ c ∈ p, ¬ Special c) (h : p <+: escape t) : p <+: t := by
  induction p generalizing t with
  | nil => exact List.nil_prefix
  | cons c p ih =>
    cases t with
    | nil => simp [escape] at h
    | cons d t =>
      unfold escape at h
      split at h
      · have := (List.cons_prefix_cons.mp h).1
        subst this
        exact absurd (by decide : Special 92) (hp 92 List.mem_cons_self)
      · obtain ⟨rfl, h'⟩ := List.cons_prefix_cons.mp h
        exact List.cons_prefix_cons.mpr ⟨rfl, ih (fun x hx => hp x (List.mem_cons_of_mem _ hx)) h'⟩

theorem length_escape (t : Bytes) : t.length ≤ (escape t).length := by
  induction t with
  | nil => exact Nat.le_refl _
  | cons c t ih =>
    unfold escape
    split <;> simp <;> omega

theorem parameterRules_plain : ∀ e ∈ parameterRules, ∀ c ∈ e.1, ¬ Special c := by decide +kernel
theorem parameterRules_reserved : ∀ e ∈ parameterRules, e.1 ∈ reserved := by decide +kernel

theorem prefix_stop {p t : Bytes} {d : Byte} {r : Bytes} (hd : Special d) (hp : ∀ c ∈ p, ¬ Special c)
    (h : p <+: t ++ d :: r) : p <+: t := by
  rcases Nat.lt_or_ge t.length p.length with hlt | hge
  · exfalso
    obtain ⟨s, hs⟩ := h
    have h1 : (p ++ s)[t.length]? = some d := by rw [hs]; simp
    rw [List.getElem?_append_left hlt] at h1
    exact hp d (List.mem_of_getElem? h1) hd
  · exact List.prefix_of_prefix_length_le h (List.prefix_append t (d :: r)) hge

theorem lex_param {t : Bytes} {d : Byte} (hw : Writable t) (ht : t ∉ reserved) (hd : Delim d) (r : Bytes) :
    lexAll .parameter (escape t ++ d :: r) = (.paramText t, .replacement) :: lexAll .replacement (d :: r) := by
  obtain ⟨c, cs, he⟩ := escape_cons_ne hw.1
  have h1 := textSpan_escape t (hd.stops r)
  have h2 := unescape_escape hw.2.2
  have hsp : Special d := (hd.stops r d r rfl).1
  have h3 : ∀ e, longest (escape t ++ d :: r) none parameterRules = some e → e.1.length < (escape t).length := by
    intro e h
    rcases longest_mem _ _ _ _ h with h | ⟨hm, hp⟩
    · cases h
    · have hp1 := prefix_stop hsp (parameterRules_plain e hm) hp
      have hp2 := prefix_escape (parameterRules_plain e hm) hp1
      rcases Nat.lt_or_ge e.1.length (escape t).length with h | h
      · exact h
      · exfalso
        have hl := hp2.length_le
        have hl2 := length_escape t
        have : e.1 = t := List.IsPrefix.eq_of_length hp2 (by omega)
        exact ht (this ▸ parameterRules_reserved e hm)
  rw [he] at h1 h2 h3 ⊢
  apply lexAll_step
  have h1' : textSpan (c :: (cs ++ d :: r)) = (c :: cs, d :: r) := h1
  show step .parameter c (cs ++ d :: r) = _
  have h3' : ∀ e, longest (c :: (cs ++ d :: r)) none parameterRules = some e → e.1.length < (c :: cs).length := h3
  simp only [step, h1']
  split
  · rename_i p t' s x rest hl hx
    cases hx
    have := h3' _ hl
    rw [if_neg (by simp only at this; omega), h2]
  · rename_i hx
    cases hx
  · rename_i hx
    cases hx
    rw [h2]

theorem lex_textOption (o : TextOption) (ho : o.Ok) {d : Byte} (hd : Delim d) (r : Bytes) :
    lexAll .replacement (o.bytes ++ d :: r) = o.toks ++ lexAll .replacement (d :: r) := by
  cases o
  case replace t =>
    have h1 : lexAll .replacement ((TextOption.replace t).bytes ++ d :: r) =
      (.ws, .replacement) :: lexAll .replacement (61 :: (escape t ++ d :: r)) := lexAll_step rfl
    rw [h1, lex_equal, lex_param ho.1 ho.2 hd]
    rfl
  case both t =>
    have h1 : lexAll .replacement ((TextOption.both t).bytes ++ d :: r) =
      (.compress, .replacement) :: lexAll .replacement (119 :: 115 :: 61 :: (escape t ++ d :: r)) := lexAll_step rfl
    have h2 : lexAll .replacement (119 :: 115 :: 61 :: (escape t ++ d :: r)) =
      (.ws, .replacement) :: lexAll .replacement (61 :: (escape t ++ d :: r)) := lexAll_step rfl
    rw [h1, h2, lex_equal, lex_param ho.1 ho.2 hd]
    rfl
  case the => rcases hd with rfl | rfl <;> exact lexAll_step rfl
  case cap => rcases hd with rfl | rfl <;> exact lexAll_step rfl
  case compress => rcases hd with rfl | rfl <;> exact lexAll_step rfl
  all_goals
    rcases hd with rfl | rfl <;>
    exact (lexAll_step rfl).trans (congrArg _ ((lex_equal _).trans (congrArg _ (lexAll_step (by cases r <;> rfl)))))

/-- The token of an encoding. -/
def _root_.Scribbu.Spec.TextEnc.tok : TextEnc → Tok
  | .auto => .auto
  | .iso8859_1 => .iso8859_1
  | .ascii => .ascii
  | .cp1252 => .cp1252
  | .utf8 => .utf8

/-- The token of an output encoding. -/
def outTok : OutEnc → Tok
  | .utf8 => .utf8
  | .ascii => .ascii
  | .cp1252 => .cp1252
  | .iso8859_1 => .iso8859_1

/-- The tokens of an option of a field. -/
def _root_.Scribbu.Spec.FieldOption.toks : FieldOption → List (Tok × Start)
  | .text o => o.toks
  | .preferV2 => [(.prefV2, .replacement)]
  | .preferV1 => [(.prefV1, .replacement)]
  | .v1 e => [(.v1Encoding, .replacement), (.equal, .parameter), (e.tok, .replacement)]
  | .output e => [(.output, .replacement), (.equal, .parameter), (outTok e, .replacement)]

/-- The tokens of a base. -/
def baseToks : Base → List (Tok × Start)
  | .decimal => [(.base, .replacement), (.equal, .parameter), (.decimal, .replacement)]
  | .hex => [(.base, .replacement), (.equal, .parameter), (.hex, .replacement)]

theorem lex_fieldOption (o : FieldOption) (ho : o.Ok) {d : Byte} (hd : Delim d) (r : Bytes) :
    lexAll .replacement (o.bytes ++ d :: r) = o.toks ++ lexAll .replacement (d :: r) := by
  cases o
  case text o => exact lex_textOption o ho hd r
  case preferV2 => rcases hd with rfl | rfl <;> exact lexAll_step rfl
  case preferV1 => rcases hd with rfl | rfl <;> exact lexAll_step rfl
  case v1 e =>
    rcases hd with rfl | rfl <;> cases e <;>
    exact (lexAll_step rfl).trans (congrArg _ ((lex_equal _).trans (congrArg _ (lexAll_step (by cases r <;> rfl)))))
  case output e =>
    rcases hd with rfl | rfl <;> cases e <;>
    exact (lexAll_step rfl).trans (congrArg _ ((lex_equal _).trans (congrArg _ (lexAll_step (by cases r <;> rfl)))))

theorem lex_base (b : Base) {d : Byte} (hd : Delim d) (r : Bytes) :
    lexAll .replacement (baseBytes b ++ d :: r) = baseToks b ++ lexAll .replacement (d :: r) := by
  rcases hd with rfl | rfl <;> cases b <;>
  exact (lexAll_step rfl).trans (congrArg _ ((lex_equal _).trans (congrArg _ (lexAll_step (by cases r <;> rfl)))))

/-- The tokens of options separated by `&`. -/
def ampToks : List (List (Tok × Start)) → List (Tok × Start)
  | [] => []
  | [o] => o
  | o :: os => o ++ (.amp, .replacement) :: ampToks os

theorem lex_amps {α : Type} (f : α → Bytes) (g : α → List (Tok × Start)) (os : List α)
    (h : ∀ o ∈ os, ∀ d, Delim d → ∀ r, lexAll .replacement (f o ++ d :: r) = g o ++ lexAll .replacement (d :: r))
    (hne : os ≠ []) (r : Bytes) :
    lexAll .replacement (amps (os.map f) ++ 41 :: r) = ampToks (os.map g) ++ lexAll .replacement (41 :: r) := by
  induction os with
  | nil => exact absurd rfl hne
  | cons o os ih =>
    cases os with
    | nil => exact h o (by simp) 41 (.inl rfl) r
    | cons o' os =>
      have h1 := ih (fun x hx => h x (List.mem_cons_of_mem _ hx)) (by simp)
      have h2 := h o (by simp) 38 (.inr rfl) (amps ((o' :: os).map f) ++ 41 :: r)
      show lexAll .replacement ((f o ++ 38 :: amps ((o' :: os).map f)) ++ 41 :: r) = _
      rw [List.append_assoc]
      show lexAll .replacement (f o ++ 38 :: (amps ((o' :: os).map f) ++ 41 :: r)) = _
      rw [h2, lex_amp, h1]
      show _ = (g o ++ (Tok.amp, Start.replacement) :: ampToks ((o' :: os).map g)) ++ _
      rw [List.append_assoc]
      rfl

/-- The tokens of a template. -/
def _root_.Scribbu.Spec.Source.toks : Source → List (Tok × Start)
  | .nil => []
  | .text b rest => (.text b, .initial) :: rest.toks
  | .short n rest => (.pct, .replacement) :: (.abbrev n, .initial) :: rest.toks
  | .long n rest =>
    (.pct, .replacement) :: (.lparen, .replacement) :: (.name n.name, .replacement) :: (.rparen, .initial) :: rest.toks
  | .fieldOptions n o os rest =>
    (.pct, .replacement) :: (.lparen, .replacement) :: (.name n.name, .replacement) :: (.colon, .replacement) ::
      (ampToks ((o :: os).map FieldOption.toks) ++ (.rparen, .initial) :: rest.toks)
  | .fileOptions n o os rest =>
    (.pct, .replacement) :: (.lparen, .replacement) :: (.name n.name, .replacement) :: (.colon, .replacement) ::
      (ampToks ((o :: os).map TextOption.toks) ++ (.rparen, .initial) :: rest.toks)
  | .md5Base b rest =>
    (.pct, .replacement) :: (.lparen, .replacement) :: (.name .md5, .replacement) :: (.colon, .replacement) ::
      (baseToks b ++ (.rparen, .initial) :: rest.toks)
  | .sizeBase b rest =>
    (.pct, .replacement) :: (.lparen, .replacement) :: (.name .size, .replacement) :: (.colon, .replacement) ::
      (baseToks b ++ (.rparen, .initial) :: rest.toks)
  | .optional inner rest =>
    (.lparen, .initial) :: (inner.toks ++ (.rparen, .initial) :: (.question, .initial) :: rest.toks)

/-- The end of a template, or of an optional part. -/
def EndOf (rest : Bytes) : Prop := rest = [] ∨ ∃ r, rest = 41 :: r

theorem EndOf.stops {rest : Bytes} (h : EndOf rest) : Stops rest := by
  rcases h with rfl | ⟨r, rfl⟩
  · intro c cs h
    cases h
  · intro c cs h
    cases h
    decide

theorem stops_bytes {s : Source} (h : s.startsText = false) {rest : Bytes} (hr : EndOf rest) :
    Stops (s.bytes ++ rest) := by
  have key : ∀ (c : Byte) (r : Bytes), Special c ∧ c ≠ 92 → Stops (c :: r) := by
    intro c r hc d ds he
    cases he
    exact hc
  cases s with
  | nil => exact hr.stops
  | text => cases h
  | optional => exact key _ _ (by decide)
  | _ => exact key _ _ (by decide)

theorem isPrefixOf_end {p b rest : Bytes} (h : p.isPrefixOf b = false) (hp : ∀ c ∈ p, ¬ Special c) (hr : EndOf rest) :
    p.isPrefixOf (b ++ rest) = false := by
  rw [← Bool.not_eq_true, List.isPrefixOf_iff_prefix] at h ⊢
  rcases hr with rfl | ⟨r, rfl⟩
  · rwa [List.append_nil]
  · exact fun h' => h (prefix_stop (by decide) hp h')

theorem swallowed_end {n : Name} {b rest : Bytes} (h : swallowed n b = false) (hr : EndOf rest) :
    swallowed n (b ++ rest) = false := by
  cases n
  case basename => exact isPrefixOf_end h (by decide) hr
  case encodedBy =>
    unfold swallowed at h ⊢
    rw [Bool.or_eq_false_iff] at h ⊢
    exact ⟨isPrefixOf_end h.1 (by decide) hr, isPrefixOf_end h.2 (by decide) hr⟩
  all_goals rfl

/-- Scanning a template that is written as it should be. -/
theorem lex_source (s : Source) (hs : s.Ok) (rest : Bytes) (hr : EndOf rest) :
    lexAll .initial (s.bytes ++ rest) = s.toks ++ lexAll .initial rest := by
  induction s generalizing rest with
  | nil => rfl
  | text b t ih =>
    obtain ⟨h1, h2, h3⟩ := hs
    show lexAll .initial ((escape b ++ t.bytes) ++ rest) = _
    rw [List.append_assoc, lex_text h1.1 h1.2.2 (stops_bytes h2 hr), ih h3 rest hr]
    rfl
  | short n t ih =>
    show lexAll .initial (37 :: (shortForm n :: (t.bytes ++ rest))) = _
    rw [lex_pct, lex_short n _ (swallowed_end hs.1 hr), ih hs.2 rest hr]
    rfl
  | long n t ih =>
    show lexAll .initial (37 :: 40 :: ((n.bytes ++ 41 :: t.bytes) ++ rest)) = _
    rw [List.append_assoc, lex_pct, lex_rlparen]
    show _ :: _ :: lexAll .replacement (n.bytes ++ 41 :: (t.bytes ++ rest)) = _
    rw [lex_long n 41 (.inl rfl), lex_rrparen, ih hs rest hr]
    rfl
  | fieldOptions n o os t ih =>
    obtain ⟨h1, h2, h3⟩ := hs
    show lexAll .initial (37 :: 40 :: ((n.bytes ++ 58 :: (amps ((o :: os).map FieldOption.bytes) ++ 41 :: t.bytes)) ++ rest)) = _
    rw [List.append_assoc, lex_pct, lex_rlparen]
    show _ :: _ :: lexAll .replacement ((LongName.field n).bytes ++
      58 :: ((amps ((o :: os).map FieldOption.bytes) ++ 41 :: t.bytes) ++ rest)) = _
    rw [lex_long (.field n) 58 (.inr rfl), lex_colon, List.append_assoc]
    show _ :: _ :: _ :: _ :: lexAll .replacement (amps ((o :: os).map FieldOption.bytes) ++ 41 :: (t.bytes ++ rest)) = _
    rw [lex_amps FieldOption.bytes FieldOption.toks (o :: os) (fun x hx d hd r => lex_fieldOption x (h1 x hx) hd r) (by simp),
      lex_rrparen, ih h3 rest hr]
    simp [Source.toks, LongName.name]
  | fileOptions n o os t ih =>
    obtain ⟨h1, h2, h3⟩ := hs
    show lexAll .initial (37 :: 40 :: ((n.bytes ++ 58 :: (amps ((o :: os).map TextOption.bytes) ++ 41 :: t.bytes)) ++ rest)) = _
    rw [List.append_assoc, lex_pct, lex_rlparen]
    show _ :: _ :: lexAll .replacement ((LongName.file n).bytes ++
      58 :: ((amps ((o :: os).map TextOption.bytes) ++ 41 :: t.bytes) ++ rest)) = _
    rw [lex_long (.file n) 58 (.inr rfl), lex_colon, List.append_assoc]
    show _ :: _ :: _ :: _ :: lexAll .replacement (amps ((o :: os).map TextOption.bytes) ++ 41 :: (t.bytes ++ rest)) = _
    rw [lex_amps TextOption.bytes TextOption.toks (o :: os) (fun x hx d hd r => lex_textOption x (h1 x hx) hd r) (by simp),
      lex_rrparen, ih h3 rest hr]
    simp [Source.toks, LongName.name]
  | md5Base b t ih =>
    show lexAll .initial (37 :: 40 :: (LongName.md5.bytes ++ 58 :: ((baseBytes b ++ 41 :: t.bytes) ++ rest))) = _
    rw [lex_pct, lex_rlparen, lex_long .md5 58 (.inr rfl), lex_colon, List.append_assoc]
    show _ :: _ :: _ :: _ :: lexAll .replacement (baseBytes b ++ 41 :: (t.bytes ++ rest)) = _
    rw [lex_base b (.inl rfl), lex_rrparen, ih hs rest hr]
    simp [Source.toks, LongName.name]
  | sizeBase b t ih =>
    show lexAll .initial (37 :: 40 :: (LongName.size.bytes ++ 58 :: ((baseBytes b ++ 41 :: t.bytes) ++ rest))) = _
    rw [lex_pct, lex_rlparen, lex_long .size 58 (.inr rfl), lex_colon, List.append_assoc]
    show _ :: _ :: _ :: _ :: lexAll .replacement (baseBytes b ++ 41 :: (t.bytes ++ rest)) = _
    rw [lex_base b (.inl rfl), lex_rrparen, ih hs rest hr]
    simp [Source.toks, LongName.name]
  | optional inner t ih1 ih2 =>
    obtain ⟨h1, h2, h3⟩ := hs
    show lexAll .initial (40 :: ((inner.bytes ++ 41 :: 63 :: t.bytes) ++ rest)) = _
    rw [List.append_assoc, lex_lparen]
    show _ :: lexAll .initial (inner.bytes ++ 41 :: 63 :: (t.bytes ++ rest)) = _
    rw [ih1 h2 _ (.inr ⟨_, rfl⟩), lex_rparen, lex_question, ih2 h3 rest hr]
    simp [Source.toks]

end Scribbu.Tbt
