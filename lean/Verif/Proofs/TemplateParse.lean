import Verif.Proofs.TemplateLex

/-! # Parsing the tokens of a template that is written as it should be -/

namespace Scribbu.Tbt
open Scribbu.Spec

/-! ### One option -/

/-- The option of a field that an option on the text stands for. -/
def _root_.Scribbu.Spec.TextOption.aopt : TextOption → AOpt
  | .the | .theSuffix => .the .makeSuffix
  | .thePrefix => .the .makePrefix
  | .cap | .capFirst => .cap .capitalize
  | .capUpper => .cap .allUpper
  | .capLower => .cap .allLower
  | .compress => .ws ⟨true, none⟩
  | .replace t => .ws ⟨false, some t⟩
  | .both t => .ws ⟨true, some t⟩

/-- The option of a part of the file's name that an option on the text stands for. -/
def _root_.Scribbu.Spec.TextOption.fopt : TextOption → FOpt
  | .the | .theSuffix => .the .makeSuffix
  | .thePrefix => .the .makePrefix
  | .cap | .capFirst => .cap .capitalize
  | .capUpper => .cap .allUpper
  | .capLower => .cap .allLower
  | .compress => .ws ⟨true, none⟩
  | .replace t => .ws ⟨false, some t⟩
  | .both t => .ws ⟨true, some t⟩

/-- The option of a field. -/
def _root_.Scribbu.Spec.FieldOption.aopt : FieldOption → AOpt
  | .text o => o.aopt
  | .preferV2 => .src .preferV2
  | .preferV1 => .src .preferV1
  | .v1 e => .v1 e.enc
  | .output e => .out e

/-- What ends an option. -/
def Ender (ts : List (Tok × Start)) : Prop := ∃ s r, ts = (.amp, s) :: r ∨ ts = (.rparen, s) :: r

theorem fOpt_toks (o : TextOption) {ts : List (Tok × Start)} (h : Ender ts) :
    ∃ look, fOpt .replacement (o.toks ++ ts) = .ok (o.fopt, look) .replacement ts := by
  obtain ⟨s, r, rfl | rfl⟩ := h <;> cases o <;> exact ⟨_, rfl⟩

theorem aOpt_toks (o : FieldOption) {ts : List (Tok × Start)} (h : Ender ts) :
    ∃ look, aOpt .replacement (o.toks ++ ts) = .ok (o.aopt, look) .replacement ts := by
  obtain ⟨s, r, rfl | rfl⟩ := h <;> rcases o with o | _ | _ | e | e <;>
    first | exact ⟨_, rfl⟩ | (cases o <;> exact ⟨_, rfl⟩) | (cases e <;> exact ⟨_, rfl⟩)

theorem numOpt_toks (b : Base) {ts : List (Tok × Start)} (h : Ender ts) :
    ∃ look, numOpt .replacement (baseToks b ++ ts) = .ok (.base b, look) .replacement ts := by
  obtain ⟨s, r, rfl | rfl⟩ := h <;> cases b <;> exact ⟨_, rfl⟩

/-! ### Several options -/

theorem length_ampToks {β : Type} (toks : β → List (Tok × Start)) (hne : ∀ o, toks o ≠ []) (os : List β) :
    os.length ≤ (ampToks (os.map toks)).length := by
  induction os with
  | nil => exact Nat.le_refl _
  | cons o os ih =>
    have h1 : 0 < (toks o).length := List.length_pos_iff.mpr (hne o)
    cases os with
    | nil => exact h1
    | cons o' os =>
      show (o' :: os).length + 1 ≤ (toks o ++ (Tok.amp, Start.replacement) :: ampToks ((o' :: os).map toks)).length
      simp only [List.length_append, List.length_cons] at ih ⊢
      omega

theorem options_toks {α β : Type} (opt : Start → List (Tok × Start) → Parsed α) (key : α → Nat)
    (toks : β → List (Tok × Start)) (val : β → α)
    (h : ∀ o ts, Ender ts → ∃ look, opt .replacement (toks o ++ ts) = .ok (val o, look) .replacement ts)
    (os : List β) (hne : os ≠ []) (acc : List α) (hk : ((acc ++ os.map val).map key).Nodup)
    (fuel : Nat) (hf : os.length ≤ fuel) (s : Start) (r : List (Tok × Start)) :
    options opt key fuel acc .replacement (ampToks (os.map toks) ++ (.rparen, s) :: r)
      = .ok (acc ++ os.map val) .replacement ((.rparen, s) :: r) := by
  induction os generalizing acc fuel with
  | nil => exact absurd rfl hne
  | cons o os ih =>
    cases fuel with
    | zero => simp at hf
    | succ fuel =>
      have hany : acc.any (fun a => key a == key (val o)) = false := by
        rw [List.any_eq_false]
        intro a ha he
        simp only [beq_iff_eq] at he
        simp only [List.map_append, List.map_cons] at hk
        have := (List.nodup_append.mp hk).2.2 (key a) (List.mem_map_of_mem ha) (key (val o)) List.mem_cons_self
        exact this he
      cases os with
      | nil =>
        obtain ⟨look, h1⟩ := h o ((.rparen, s) :: r) ⟨s, r, .inr rfl⟩
        show options opt key (fuel + 1) acc .replacement (toks o ++ (.rparen, s) :: r) = _
        simp only [options, h1, hany, Bool.false_eq_true, if_false]
        rfl
      | cons o' os =>
        obtain ⟨look, h1⟩ := h o ((.amp, .replacement) :: (ampToks ((o' :: os).map toks) ++ (.rparen, s) :: r))
          ⟨.replacement, _, .inl rfl⟩
        have h2 := ih (by simp) (acc ++ [val o]) (by simpa using hk) fuel (by simp at hf ⊢; omega)
        show options opt key (fuel + 1) acc .replacement
          ((toks o ++ (.amp, .replacement) :: ampToks ((o' :: os).map toks)) ++ (.rparen, s) :: r) = _
        rw [List.append_assoc]
        show options opt key (fuel + 1) acc .replacement
          (toks o ++ (.amp, .replacement) :: (ampToks ((o' :: os).map toks) ++ (.rparen, s) :: r)) = _
        simp only [options, h1, hany, Bool.false_eq_true, if_false]
        rw [h2]
        simp

theorem TextOption.toks_ne (o : TextOption) : o.toks ≠ [] := by cases o <;> simp [TextOption.toks]

theorem FieldOption.toks_ne (o : FieldOption) : o.toks ≠ [] := by
  rcases o with o | _ | _ | e | e
  · exact TextOption.toks_ne o
  all_goals simp [FieldOption.toks]

theorem nodup_key {α : Type} (f g : α → Nat) (h : ∀ x y, g x = g y → f x = f y) (os : List α)
    (hn : (os.map f).Nodup) : (os.map g).Nodup := by
  induction os with
  | nil => exact List.nodup_nil
  | cons o os ih =>
    simp only [List.map_cons, List.nodup_cons, List.mem_map, not_exists, not_and] at hn ⊢
    exact ⟨fun x hx he => hn.1 x hx (h _ _ he), ih hn.2⟩

theorem fopt_key (x y : TextOption) (h : x.fopt.key = y.fopt.key) : x.kind = y.kind := by
  cases x <;> cases y <;> first | rfl | (simp [TextOption.fopt, FOpt.key] at h)

theorem aopt_key (x y : FieldOption) (h : x.aopt.key = y.aopt.key) : x.kind = y.kind := by
  rcases x with x | _ | _ | e | e <;> rcases y with y | _ | _ | e' | e' <;>
    first
    | rfl
    | (simp [FieldOption.aopt, AOpt.key] at h; done)
    | (cases x <;> cases y <;> first | rfl | (simp [FieldOption.aopt, TextOption.aopt, AOpt.key] at h; done))
    | (cases x <;> simp [FieldOption.aopt, TextOption.aopt, AOpt.key] at h; done)
    | (cases y <;> simp [FieldOption.aopt, TextOption.aopt, AOpt.key] at h; done)

theorem set_aopt (a : AOpts) (o : FieldOption) : a.set o.aopt = o.set a := by
  rcases o with o | _ | _ | e | e
  · cases o <;> rfl
  all_goals rfl

theorem set_fopt (a : FOpts) (o : TextOption) : a.set o.fopt = o.setF a := by
  cases o <;> rfl

theorem fields_set (os : List FieldOption) (a : AOpts) :
    (os.map FieldOption.aopt).foldl AOpts.set a = os.foldl FieldOption.set a := by
  induction os generalizing a with
  | nil => rfl
  | cons o os ih => simp only [List.map_cons, List.foldl_cons, set_aopt, ih]

theorem files_set (os : List TextOption) (a : FOpts) :
    (os.map TextOption.fopt).foldl FOpts.set a = os.foldl TextOption.setF a := by
  induction os generalizing a with
  | nil => rfl
  | cons o os ih => simp only [List.map_cons, List.foldl_cons, set_fopt, ih]

theorem withOptions_field (n : FieldName) (os : List FieldOption) (hne : os ≠ []) (hn : (os.map FieldOption.kind).Nodup)
    (r : List (Tok × Start)) :
    withOptions n.name .replacement (ampToks (os.map FieldOption.toks) ++ (.rparen, .initial) :: r)
      = .ok (.field n.field (os.foldl FieldOption.set {})) .initial r := by
  have h := options_toks aOpt AOpt.key FieldOption.toks FieldOption.aopt (fun o ts h => aOpt_toks o h) os hne []
    (by
      rw [List.nil_append, List.map_map]
      exact nodup_key FieldOption.kind _ aopt_key os hn)
    (ampToks (os.map FieldOption.toks) ++ (Tok.rparen, Start.initial) :: r).length
    (by
      have := length_ampToks FieldOption.toks FieldOption.toks_ne os
      rw [List.length_append]
      omega) .initial r
  rw [List.nil_append] at h
  cases n <;> simp only [withOptions, FieldName.name, Name.field, h, fields_set, FieldName.field] <;> rfl

theorem withOptions_file (n : FileName) (os : List TextOption) (hne : os ≠ []) (hn : (os.map TextOption.kind).Nodup)
    (r : List (Tok × Start)) :
    withOptions n.name .replacement (ampToks (os.map TextOption.toks) ++ (.rparen, .initial) :: r)
      = .ok (n.term (os.foldl TextOption.setF {})) .initial r := by
  have h := options_toks fOpt FOpt.key TextOption.toks TextOption.fopt (fun o ts h => fOpt_toks o h) os hne []
    (by
      rw [List.nil_append, List.map_map]
      exact nodup_key TextOption.kind _ fopt_key os hn)
    (ampToks (os.map TextOption.toks) ++ (Tok.rparen, Start.initial) :: r).length
    (by
      have := length_ampToks TextOption.toks TextOption.toks_ne os
      rw [List.length_append]
      omega) .initial r
  rw [List.nil_append] at h
  cases n <;> simp only [withOptions, FileName.name, h, files_set, FileName.term] <;> rfl

theorem withOptions_base (b : Base) (r : List (Tok × Start)) :
    withOptions .md5 .replacement (baseToks b ++ (.rparen, .initial) :: r) = .ok (.md5 ⟨some b, none⟩) .initial r ∧
    withOptions .size .replacement (baseToks b ++ (.rparen, .initial) :: r) = .ok (.size ⟨some b, none⟩) .initial r := by
  cases b <;> exact ⟨rfl, rfl⟩

/-! ### A template -/

/-- The end of the tokens of a template, or of an optional part. -/
def EndToks (ts : List (Tok × Start)) : Prop := ts = [] ∨ ∃ s r, ts = (.rparen, s) :: r

theorem termList_toks (s : Source) (hs : s.Ok) (fuel : Nat) (any : Bool) (ts : List (Tok × Start))
    (hany : any = true ∨ s ≠ .nil) (hf : s.toks.length < fuel) (hts : EndToks ts) :
    termList fuel any .initial (s.toks ++ ts) = .ok s.meaning .initial ts := by
  induction s generalizing fuel any ts with
  | nil =>
    obtain ⟨n, rfl⟩ : ∃ n, fuel = n + 1 := ⟨fuel - 1, by simp [Source.toks] at hf; omega⟩
    obtain rfl : any = true := by rcases hany with h | h; exact h; exact absurd rfl h
    rcases hts with rfl | ⟨s, r, rfl⟩ <;> rfl
  | text b t ih =>
    obtain ⟨n, rfl⟩ : ∃ n, fuel = n + 1 := ⟨fuel - 1, by omega⟩
    have h := ih hs.2.2 n true ts (.inl rfl) (by simp only [Source.toks, List.length_cons] at hf; omega) hts
    show termList (n + 1) any .initial ((.text b, .initial) :: (t.toks ++ ts)) = _
    simp only [termList, h]
    rfl
  | short m t ih =>
    obtain ⟨n, rfl⟩ : ∃ n, fuel = n + 1 := ⟨fuel - 1, by omega⟩
    have h := ih hs.2 n true ts (.inl rfl) (by simp only [Source.toks, List.length_cons] at hf; omega) hts
    show termList (n + 1) any .initial ((.pct, .replacement) :: (.abbrev m, .initial) :: (t.toks ++ ts)) = _
    simp only [termList, replacement, h]
    rfl
  | long m t ih =>
    obtain ⟨n, rfl⟩ : ∃ n, fuel = n + 1 := ⟨fuel - 1, by omega⟩
    have h := ih hs n true ts (.inl rfl) (by simp only [Source.toks, List.length_cons] at hf; omega) hts
    show termList (n + 1) any .initial ((.pct, .replacement) :: (.lparen, .replacement) :: (.name m.name, .replacement) ::
      (.rparen, .initial) :: (t.toks ++ ts)) = _
    simp only [termList, replacement, close, h]
    rfl
  | fieldOptions m o os t ih =>
    obtain ⟨n, rfl⟩ : ∃ n, fuel = n + 1 := ⟨fuel - 1, by omega⟩
    have h := ih hs.2.2 n true ts (.inl rfl)
      (by simp only [Source.toks, List.length_cons, List.length_append] at hf; omega) hts
    have hw := withOptions_field m (o :: os) (by simp) hs.2.1 (t.toks ++ ts)
    have hm : m.name ≠ .encodedBy := by cases m <;> decide
    have he : (Source.fieldOptions m o os t).toks ++ ts = (.pct, .replacement) :: (.lparen, .replacement) ::
        (.name m.name, .replacement) :: (.colon, .replacement) ::
        (ampToks ((o :: os).map FieldOption.toks) ++ (.rparen, .initial) :: (t.toks ++ ts)) := by
      simp [Source.toks]
    rw [he]
    simp only [termList, replacement, if_neg hm, hw, h]
    rfl
  | fileOptions m o os t ih =>
    obtain ⟨n, rfl⟩ : ∃ n, fuel = n + 1 := ⟨fuel - 1, by omega⟩
    have h := ih hs.2.2 n true ts (.inl rfl)
      (by simp only [Source.toks, List.length_cons, List.length_append] at hf; omega) hts
    have hw := withOptions_file m (o :: os) (by simp) hs.2.1 (t.toks ++ ts)
    have hm : m.name ≠ .encodedBy := by cases m <;> decide
    have he : (Source.fileOptions m o os t).toks ++ ts = (.pct, .replacement) :: (.lparen, .replacement) ::
        (.name m.name, .replacement) :: (.colon, .replacement) ::
        (ampToks ((o :: os).map TextOption.toks) ++ (.rparen, .initial) :: (t.toks ++ ts)) := by
      simp [Source.toks]
    rw [he]
    simp only [termList, replacement, if_neg hm, hw, h]
    rfl
  | md5Base b t ih =>
    obtain ⟨n, rfl⟩ : ∃ n, fuel = n + 1 := ⟨fuel - 1, by omega⟩
    have h := ih hs n true ts (.inl rfl)
      (by simp only [Source.toks, List.length_cons, List.length_append] at hf; omega) hts
    have hw := (withOptions_base b (t.toks ++ ts)).1
    have he : (Source.md5Base b t).toks ++ ts = (.pct, .replacement) :: (.lparen, .replacement) ::
        (.name .md5, .replacement) :: (.colon, .replacement) ::
        (baseToks b ++ (.rparen, .initial) :: (t.toks ++ ts)) := by
      simp [Source.toks]
    rw [he]
    simp only [termList, replacement, if_neg (by decide : ¬ Name.md5 = .encodedBy), hw, h]
    rfl
  | sizeBase b t ih =>
    obtain ⟨n, rfl⟩ : ∃ n, fuel = n + 1 := ⟨fuel - 1, by omega⟩
    have h := ih hs n true ts (.inl rfl)
      (by simp only [Source.toks, List.length_cons, List.length_append] at hf; omega) hts
    have hw := (withOptions_base b (t.toks ++ ts)).2
    have he : (Source.sizeBase b t).toks ++ ts = (.pct, .replacement) :: (.lparen, .replacement) ::
        (.name .size, .replacement) :: (.colon, .replacement) ::
        (baseToks b ++ (.rparen, .initial) :: (t.toks ++ ts)) := by
      simp [Source.toks]
    rw [he]
    simp only [termList, replacement, if_neg (by decide : ¬ Name.size = .encodedBy), hw, h]
    rfl
  | optional inner t ih1 ih2 =>
    obtain ⟨n, rfl⟩ : ∃ n, fuel = n + 1 := ⟨fuel - 1, by omega⟩
    have hl : (Source.optional inner t).toks.length = inner.toks.length + t.toks.length + 3 := by
      simp [Source.toks]; omega
    have h1 := ih1 hs.2.1 n false ((.rparen, .initial) :: (.question, .initial) :: (t.toks ++ ts)) (.inr hs.1)
      (by omega) (.inr ⟨_, _, rfl⟩)
    have h2 := ih2 hs.2.2 n true ts (.inl rfl) (by omega) hts
    have he : (Source.optional inner t).toks ++ ts =
        (.lparen, .initial) :: (inner.toks ++ (.rparen, .initial) :: (.question, .initial) :: (t.toks ++ ts)) := by
      simp [Source.toks]
    rw [he]
    simp only [termList, h1, h2]
    rfl

/-! ### No null characters -/

theorem zero_escape {b : Bytes} (h : 0 ∉ b) : 0 ∉ escape b := by
  induction b with
  | nil => simp [escape]
  | cons c b ih =>
    simp only [List.mem_cons, not_or] at h
    unfold escape
    split <;> simp [h.1, ih h.2]

theorem zero_textOption (o : TextOption) (h : o.Ok) : 0 ∉ o.bytes := by
  cases o
  case replace t =>
    simp [TextOption.bytes, zero_escape h.1.2.1]
  case both t =>
    simp [TextOption.bytes, zero_escape h.1.2.1]
  all_goals decide

theorem zero_fieldOption (o : FieldOption) (h : o.Ok) : 0 ∉ o.bytes := by
  rcases o with o | _ | _ | e | e
  · exact zero_textOption o h
  · decide
  · decide
  · cases e <;> decide
  · cases e <;> decide

theorem zero_amps {α : Type} (f : α → Bytes) (os : List α) (h : ∀ o ∈ os, 0 ∉ f o) : 0 ∉ amps (os.map f) := by
  induction os with
  | nil => simp [amps]
  | cons o os ih =>
    have h1 := h o List.mem_cons_self
    have h2 := ih (fun x hx => h x (List.mem_cons_of_mem _ hx))
    cases os with
    | nil => exact h1
    | cons o' os =>
      show 0 ∉ f o ++ 38 :: amps ((o' :: os).map f)
      simp only [List.mem_append, List.mem_cons, not_or]
      exact ⟨h1, by decide, h2⟩

theorem zero_source (s : Source) (hs : s.Ok) : 0 ∉ s.bytes := by
  induction s with
  | nil => simp [Source.bytes]
  | text b t ih => simp [Source.bytes, zero_escape hs.1.2.1, ih hs.2.2]
  | short m t ih =>
    have : ¬ (0 : UInt8) = shortForm m := by cases m <;> decide
    simp [Source.bytes, ih hs.2, this]
  | long m t ih =>
    have : (0 : UInt8) ∉ m.bytes := by rcases m with m | m | _ | _ | _ | _ <;> first | decide | (cases m <;> decide)
    simp [Source.bytes, ih hs, this]
  | fieldOptions m o os t ih =>
    have h1 : (0 : UInt8) ∉ m.bytes := by cases m <;> decide
    have h2 := zero_amps FieldOption.bytes (o :: os) (fun x hx => zero_fieldOption x (hs.1 x hx))
    unfold Source.bytes
    simp only [List.mem_append, List.mem_cons, not_or]
    exact ⟨by decide, by decide, h1, by decide, h2, by decide, ih hs.2.2⟩
  | fileOptions m o os t ih =>
    have h1 : (0 : UInt8) ∉ m.bytes := by cases m <;> decide
    have h2 := zero_amps TextOption.bytes (o :: os) (fun x hx => zero_textOption x (hs.1 x hx))
    unfold Source.bytes
    simp only [List.mem_append, List.mem_cons, not_or]
    exact ⟨by decide, by decide, h1, by decide, h2, by decide, ih hs.2.2⟩
  | md5Base b t ih =>
    have : (0 : UInt8) ∉ baseBytes b := by cases b <;> decide
    simp [Source.bytes, ih hs, this]
  | sizeBase b t ih =>
    have : (0 : UInt8) ∉ baseBytes b := by cases b <;> decide
    simp [Source.bytes, ih hs, this]
  | optional inner t ih1 ih2 => simp [Source.bytes, ih1 hs.2.1, ih2 hs.2.2]

theorem takeWhile_nonzero {b : Bytes} (h : 0 ∉ b) : b.takeWhile (· ≠ 0) = b := by
  induction b with
  | nil => rfl
  | cons c b ih =>
    simp only [List.mem_cons, not_or] at h
    rw [List.takeWhile_cons, if_pos (by simpa using fun e => h.1 e.symm), ih h.2]

/-- A template that is written as it should be is understood, and leaves the scanner as it found it. -/
theorem templateProcessor_source (s : Source) (hs : s.Ok) (hne : s ≠ .nil) :
    templateProcessor .initial s.bytes = (some s.meaning, .initial) := by
  unfold templateProcessor
  rw [takeWhile_nonzero (zero_source s hs)]
  have hl := lex_source s hs [] (.inl rfl)
  rw [List.append_nil, lexAll_nil, List.append_nil] at hl
  have hp := termList_toks s hs (s.toks.length + 1) false [] (.inr hne) (by omega) (.inl rfl)
  rw [List.append_nil] at hp
  have hl' : lex s.bytes.length .initial s.bytes = s.toks := hl
  simp only [parse, hl', hp]

end Scribbu.Tbt
