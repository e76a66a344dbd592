import Verif.Proofs.TemplateParse

/-! # What any accepted template can consist of -/

namespace Scribbu.Tbt
open Scribbu.Spec

/-! ### The tokens a start condition can yield -/

/-- Every `=` has a backslash before it; `saw` says whether there is one before the text. -/
def EqOk : Bool → Bytes → Prop
  | _, [] => True
  | saw, c :: r => (c = 61 → saw = true) ∧ EqOk (c == 92) r

theorem EqOk.weaken {b : Bytes} (h : EqOk false b) (saw : Bool) : EqOk saw b := by
  cases b with
  | nil => trivial
  | cons c r => exact ⟨fun hc => absurd (h.1 hc) (by decide), h.2⟩

theorem EqOk.split {saw : Bool} {b pre post : Bytes} (h : EqOk saw b) (he : b = pre ++ 61 :: post) :
    (pre = [] ∧ saw = true) ∨ ∃ pre', pre = pre' ++ [92] := by
  induction b generalizing saw pre with
  | nil => cases pre <;> cases he
  | cons c r ih =>
    cases pre with
    | nil =>
      cases he
      exact .inl ⟨rfl, h.1 rfl⟩
    | cons d pre =>
      cases he
      rcases ih h.2 rfl with ⟨rfl, h1⟩ | ⟨pre', rfl⟩
      · simp only [beq_iff_eq] at h1
        subst h1
        exact .inr ⟨[], rfl⟩
      · exact .inr ⟨c :: pre', rfl⟩

theorem unescape_eqOk : ∀ b : Bytes, EqOk false (unescape (textSpan b).1)
  | [] => trivial
  | [c] => by
    unfold textSpan
    split
    · trivial
    · rename_i h
      have h61 : c ≠ 61 := by rintro rfl; exact h (by decide)
      have h92 : c ≠ 92 := by rintro rfl; exact h (by decide)
      show EqOk false (unescapeLoop false [c])
      rw [show unescapeLoop false [c] = [c] by simp [unescapeLoop, h92]]
      exact ⟨fun h => absurd h h61, trivial⟩
  | c :: d :: r => by
    have h1 := unescape_eqOk r
    have h2 := unescape_eqOk (d :: r)
    unfold textSpan
    split
    · rename_i hc
      subst hc
      split
      · show EqOk false (unescapeLoop false (92 :: d :: (textSpan r).1))
        show EqOk false ((if unescapable d then [d] else [92, d]) ++ unescapeLoop false (textSpan r).1)
        split
        · rename_i hd
          exact ⟨fun h => absurd (h ▸ hd) (by decide), h1.weaken _⟩
        · exact ⟨by decide, fun _ => rfl, h1.weaken _⟩
      · trivial
    · rename_i hc
      split
      · trivial
      · rename_i h
        have h61 : c ≠ 61 := by rintro rfl; exact h (by decide)
        show EqOk false (unescapeLoop false (c :: (textSpan (d :: r)).1))
        rw [show unescapeLoop false (c :: (textSpan (d :: r)).1) = c :: unescapeLoop false (textSpan (d :: r)).1 by
          simp [unescapeLoop, hc]]
        exact ⟨fun h => absurd h h61, h2.weaken _⟩

/-- The tokens with the start condition after them that the scanner can yield in a start condition. -/
def Can : Start → Tok → Start → Prop
  | .initial, t, s =>
    (∃ b, t = .text b ∧ EqOk false b ∧ s = .initial) ∨ (t, s) ∈ initialRules.map Prod.snd ∨ (t, s) = (.unknown, .initial)
  | .replacement, t, s => (t, s) ∈ replacementRules.map Prod.snd ∨ (t, s) = (.unknown, .replacement)
  | .parameter, t, s =>
    (t, s) ∈ parameterRules.map Prod.snd ∨ (∃ b, t = .paramText b ∧ s = .replacement) ∨ (t, s) = (.unknown, .parameter)

theorem longest_can {inp p : Bytes} {t : Tok} {s : Start} {rs : List (Bytes × Tok × Start)}
    (h : longest inp none rs = some (p, t, s)) : (t, s) ∈ rs.map Prod.snd := by
  rcases longest_mem _ _ _ _ h with h | h
  · cases h
  · exact List.mem_map.mpr ⟨_, h.1, rfl⟩

theorem step_can {st : Start} {c : Byte} {cs rest : Bytes} {t : Tok} {s : Start}
    (h : step st c cs = (some (t, s), rest)) : Can st t s := by
  unfold step at h
  cases st
  · simp only at h
    split at h
    · split at h
      · rename_i hl
        cases h
        exact .inr (.inl (longest_can hl))
      · cases h
        exact .inr (.inr rfl)
    · rename_i x r hx hs
      cases h
      have := unescape_eqOk (c :: cs)
      rw [hs] at this
      exact .inl ⟨_, rfl, this, rfl⟩
  · simp only at h
    split at h
    · rename_i hl
      cases h
      exact .inl (longest_can hl)
    · split at h
      · cases h
      · cases h
        exact .inr rfl
  · simp only at h
    split at h
    · rename_i hl hs
      split at h
      · cases h
        exact .inl (longest_can hl)
      · cases h
        exact .inr (.inl ⟨_, rfl, rfl⟩)
    · cases h
      exact .inr (.inr rfl)
    · cases h
      exact .inr (.inl ⟨_, rfl, rfl⟩)

/-- A sequence of tokens that the scanner can yield. -/
def Chain : Start → List (Tok × Start) → Prop
  | _, [] => True
  | st, (t, s) :: ts => Can st t s ∧ Chain s ts

theorem lex_chain (n : Nat) (st : Start) (b : Bytes) : Chain st (lex n st b) := by
  induction n generalizing st b with
  | zero => trivial
  | succ n ih =>
    cases b with
    | nil => trivial
    | cons c cs =>
      unfold lex
      split
      · exact ih _ _
      · rename_i t s rest h
        exact ⟨step_can h, ih _ _⟩

/-- What the start condition `REPLACEMENT` cannot yield, and where its tokens lead. -/
theorem can_replacement {t : Tok} {s : Start} (h : Can .replacement t s) :
    (t ≠ .v1Only ∧ t ≠ .v2Only ∧ t ≠ .twoDigits ∧ t ≠ .fourDigits ∧ t ≠ .hexCase ∧ t ≠ .pct ∧ ∀ b, t ≠ .text b) ∧
    (t = .equal → s = .parameter) ∧ (t = .rparen → s = .initial) ∧ ((∃ n, t = .abbrev n) → s = .initial) ∧
    ((t = .lparen ∨ t = .colon ∨ t = .amp ∨ t = .the ∨ t = .base ∨ t = .cap ∨ t = .output ∨ t = .compress ∨ t = .prefV1 ∨
      t = .prefV2 ∨ t = .v1Encoding ∨ t = .ws ∨ ∃ n, t = .name n) → s = .replacement) := by
  unfold Can at h
  simp only [replacementRules, List.map_cons, List.map_nil, List.mem_cons, List.not_mem_nil, or_false, Prod.mk.injEq] at h
  rcases h with h | h
  · rcases h with h | h | h | h | h | h | h | h | h | h | h | h | h | h | h | h | h | h | h | h | h | h | h | h | h | h | h |
      h | h | h | h | h | h | h | h | h | h | h <;> (obtain ⟨rfl, rfl⟩ := h; simp)
  · obtain ⟨rfl, rfl⟩ := h
    simp

/-- Where the tokens of the start condition `INITIAL` lead. -/
theorem can_initial {t : Tok} {s : Start} (h : Can .initial t s) :
    (t = .pct → s = .replacement) ∧ (t = .lparen → s = .initial) ∧ (t = .rparen → s = .initial) ∧
    (t = .question → s = .initial) ∧ (∀ b, t = .text b → s = .initial ∧ EqOk false b) := by
  unfold Can at h
  simp only [initialRules, List.map_cons, List.map_nil, List.mem_cons, List.not_mem_nil, or_false, Prod.mk.injEq] at h
  rcases h with ⟨b, rfl, hb, rfl⟩ | (h | h | h | h) | h
  · simp [hb]
  all_goals
    obtain ⟨rfl, rfl⟩ := h
    simp

/-- Where the tokens of the start condition `PARAMETER` lead, and what it cannot yield. -/
theorem can_parameter {t : Tok} {s : Start} (h : Can .parameter t s) :
    (t ≠ .unknown → s = .replacement) ∧ t ≠ .pct ∧ t ≠ .lparen ∧ ∀ b, t ≠ .text b := by
  unfold Can at h
  simp only [parameterRules, List.map_cons, List.map_nil, List.mem_cons, List.not_mem_nil, or_false, Prod.mk.injEq] at h
  rcases h with h | ⟨b, rfl, rfl⟩ | ⟨rfl, rfl⟩
  · rcases h with h | h | h | h | h | h | h | h | h | h | h | h | h | h | h | h | h | h | h | h | h | h <;>
      (obtain ⟨rfl, rfl⟩ := h; simp)
  · simp
  · simp

/-! ### Options -/

/-- Options of a field that can come about. -/
def GoodA : AOpt → Prop
  | .src p => p = .preferV1 ∨ p = .preferV2
  | .v1 e => e = .automatic ∨ e = .iso8859_1 ∨ e = .ascii ∨ e = .cp1252 ∨ e = .utf8
  | .the x => x ≠ .nil
  | .cap c => c ≠ .nil
  | _ => True

theorem equalTo_ok {α : Type} {val : Tok → Option α} {ts ts' : List (Tok × Start)} {a : α} {cur s : Start}
    (hu : val .unknown = none) (hc : Chain .replacement ts) (h : equalTo val cur ts = .ok a s ts') :
    (∃ t, val t = some a) ∧ s = .replacement ∧ Chain .replacement ts' := by
  unfold equalTo at h
  split at h
  · rename_i s1 ts1
    have h1 := (can_replacement hc.1).2.1 rfl
    subst h1
    split at h
    · rename_i t s2 ts2
      split at h
      · rename_i a' hv
        cases h
        have h2 : s = .replacement := (can_parameter hc.2.1).1 (by rintro rfl; rw [hu] at hv; cases hv)
        subst h2
        exact ⟨⟨t, hv⟩, rfl, hc.2.2⟩
      · cases h
    · cases h
  · cases h

theorem tag_ok {α β : Type} {f : α → β} {l l' : Bool} {p : PR α} {b : β} {s : Start} {ts : List (Tok × Start)}
    (h : p.tag f l = .ok (b, l') s ts) : ∃ a, p = .ok a s ts ∧ b = f a := by
  cases p with
  | ok a s ts => cases h; exact ⟨a, rfl, rfl⟩
  | fail => cases h

theorem mapOpt_ok {α β : Type} {f : α → β} {l : Bool} {p : Parsed α} {b : β} {s : Start} {ts : List (Tok × Start)}
    (h : p.mapOpt f = .ok (b, l) s ts) : ∃ a, p = .ok (a, l) s ts ∧ b = f a := by
  cases p with
  | ok a s ts => cases h; exact ⟨a.1, rfl, rfl⟩
  | fail => cases h

theorem theXform_ok {cur s : Start} {ts ts' : List (Tok × Start)} {x : TheX} {l : Bool}
    (hcur : cur = .replacement) (hc : Chain .replacement ts) (h : theXform cur ts = .ok (x, l) s ts') :
    x ≠ .nil ∧ s = .replacement ∧ Chain .replacement ts' := by
  unfold theXform at h
  split at h
  · obtain ⟨a, h1, rfl⟩ := tag_ok h
    obtain ⟨⟨t, ht⟩, h2⟩ := equalTo_ok rfl hc h1
    refine ⟨?_, h2⟩
    unfold theVal at ht
    split at ht <;> cases ht <;> simp
  · cases h
    exact ⟨by simp, hcur, hc⟩

theorem capXform_ok {cur s : Start} {ts ts' : List (Tok × Start)} {x : Cap} {l : Bool}
    (hcur : cur = .replacement) (hc : Chain .replacement ts) (h : capXform cur ts = .ok (x, l) s ts') :
    x ≠ .nil ∧ s = .replacement ∧ Chain .replacement ts' := by
  unfold capXform at h
  split at h
  · obtain ⟨a, h1, rfl⟩ := tag_ok h
    obtain ⟨⟨t, ht⟩, h2⟩ := equalTo_ok rfl hc h1
    refine ⟨?_, h2⟩
    unfold capVal at ht
    split at ht <;> cases ht <;> simp
  · cases h
    exact ⟨by simp, hcur, hc⟩

theorem wsXforms_ok {ts : List (Tok × Start)} : ∀ {m m' : WsMap} {s : Start} {ts' : List (Tok × Start)},
    Chain .replacement ts → wsXforms m .replacement ts = .ok m' s ts' → s = .replacement ∧ Chain .replacement ts' := by
  induction hn : ts.length using Nat.strongRecOn generalizing ts with
  | _ n ih =>
    intro m m' s ts' hc h
    unfold wsXforms at h
    split at h
    · rename_i s1 ts1
      have h1 := (can_replacement hc.1).2.2.2.2 (by simp)
      subst h1
      split at h
      · cases h
      · exact ih ts1.length (by simp at hn; omega) rfl hc.2 h
    · rename_i s1 s2 x s3 ts1
      have h1 := (can_replacement hc.1).2.2.2.2 (by simp)
      subst h1
      have h2 := (can_replacement hc.2.1).2.1 rfl
      subst h2
      have h3 := (can_parameter hc.2.2.1).1 (by simp)
      subst h3
      split at h
      · cases h
      · exact ih ts1.length (by simp at hn; omega) rfl hc.2.2.2 h
    · cases h
    · cases h
    · cases h
      exact ⟨rfl, hc⟩

theorem aOpt_ok {s : Start} {ts ts' : List (Tok × Start)} {o : AOpt} {l : Bool} (hc : Chain .replacement ts)
    (h : aOpt .replacement ts = .ok (o, l) s ts') : GoodA o ∧ s = .replacement ∧ Chain .replacement ts' := by
  unfold aOpt at h
  split at h
  · cases h
    have h1 := (can_replacement hc.1).2.2.2.2 (by simp)
    subst h1
    exact ⟨.inr rfl, rfl, hc.2⟩
  · cases h
    have h1 := (can_replacement hc.1).2.2.2.2 (by simp)
    subst h1
    exact ⟨.inl rfl, rfl, hc.2⟩
  · exact absurd rfl (can_replacement hc.1).1.2.1
  · exact absurd rfl (can_replacement hc.1).1.1
  · have h1 := (can_replacement hc.1).2.2.2.2 (by simp)
    subst h1
    obtain ⟨a, h2, rfl⟩ := tag_ok h
    obtain ⟨⟨t, ht⟩, h3⟩ := equalTo_ok rfl hc.2 h2
    refine ⟨?_, h3⟩
    unfold v1EncVal at ht
    split at ht <;> cases ht <;> simp [GoodA]
  · have h1 := (can_replacement hc.1).2.2.2.2 (by simp)
    obtain ⟨a, h2, rfl⟩ := mapOpt_ok h
    exact theXform_ok h1 (h1 ▸ hc.2) h2
  · have h1 := (can_replacement hc.1).2.2.2.2 (by simp)
    obtain ⟨a, h2, rfl⟩ := mapOpt_ok h
    exact capXform_ok h1 (h1 ▸ hc.2) h2
  · obtain ⟨a, h2, rfl⟩ := tag_ok h
    exact ⟨trivial, wsXforms_ok hc h2⟩
  · obtain ⟨a, h2, rfl⟩ := tag_ok h
    exact ⟨trivial, wsXforms_ok hc h2⟩
  · have h1 := (can_replacement hc.1).2.2.2.2 (by simp)
    subst h1
    obtain ⟨a, h2, rfl⟩ := tag_ok h
    exact ⟨trivial, (equalTo_ok rfl hc.2 h2).2⟩
  · cases h

theorem fOpt_ok {s : Start} {ts ts' : List (Tok × Start)} {o : FOpt} {l : Bool} (hc : Chain .replacement ts)
    (h : fOpt .replacement ts = .ok (o, l) s ts') : True ∧ s = .replacement ∧ Chain .replacement ts' := by
  unfold fOpt at h
  refine ⟨trivial, ?_⟩
  split at h
  · have h1 := (can_replacement hc.1).2.2.2.2 (by simp)
    obtain ⟨a, h2, rfl⟩ := mapOpt_ok h
    exact (theXform_ok h1 (h1 ▸ hc.2) h2).2
  · have h1 := (can_replacement hc.1).2.2.2.2 (by simp)
    obtain ⟨a, h2, rfl⟩ := mapOpt_ok h
    exact (capXform_ok h1 (h1 ▸ hc.2) h2).2
  · obtain ⟨a, h2, rfl⟩ := tag_ok h
    exact wsXforms_ok hc h2
  · obtain ⟨a, h2, rfl⟩ := tag_ok h
    exact wsXforms_ok hc h2
  · cases h

theorem numOpt_ok {s : Start} {ts ts' : List (Tok × Start)} {o : NumOpt} {l : Bool} (hc : Chain .replacement ts)
    (h : numOpt .replacement ts = .ok (o, l) s ts') : (∃ b, o = .base b) ∧ s = .replacement ∧ Chain .replacement ts' := by
  unfold numOpt at h
  split at h
  · have h1 := (can_replacement hc.1).2.2.2.2 (by simp)
    subst h1
    obtain ⟨a, h2, rfl⟩ := tag_ok h
    exact ⟨⟨a, rfl⟩, (equalTo_ok rfl hc.2 h2).2⟩
  · exact absurd rfl (can_replacement hc.1).1.2.2.2.2.1
  · cases h

theorem options_ok {α : Type} {opt : Start → List (Tok × Start) → Parsed α} {key : α → Nat} {P : α → Prop}
    (hopt : ∀ ts ts' o l s, Chain .replacement ts → opt .replacement ts = .ok (o, l) s ts' →
      P o ∧ s = .replacement ∧ Chain .replacement ts')
    (fuel : Nat) : ∀ {acc os : List α} {ts ts' : List (Tok × Start)} {s : Start},
    Chain .replacement ts → (∀ o ∈ acc, P o) → (acc.map key).Nodup →
    options opt key fuel acc .replacement ts = .ok os s ts' →
    (∀ o ∈ os, P o) ∧ (os.map key).Nodup ∧ os ≠ [] ∧ s = .replacement ∧ Chain .replacement ts' := by
  induction fuel with
  | zero => intro acc os ts ts' s _ _ _ h; cases h
  | succ n ih =>
    intro acc os ts ts' s hc ha hk h
    unfold options at h
    split at h
    · cases h
    · rename_i o l s1 ts1 ho
      obtain ⟨h1, rfl, h2⟩ := hopt _ _ _ _ _ hc ho
      split at h
      · cases h
      · rename_i hany
        have ha' : ∀ x ∈ acc ++ [o], P x := by
          intro x hx
          rcases List.mem_append.mp hx with hx | hx
          · exact ha x hx
          · rw [List.mem_singleton.mp hx]; exact h1
        have hk' : ((acc ++ [o]).map key).Nodup := by
          rw [List.map_append, List.nodup_append]
          refine ⟨hk, by simp, ?_⟩
          intro x hx y hy
          obtain ⟨a, ha1, rfl⟩ := List.mem_map.mp hx
          simp only [List.map_cons, List.map_nil, List.mem_singleton] at hy
          subst hy
          intro he
          apply hany
          rw [List.any_eq_true]
          exact ⟨a, ha1, by simp [he]⟩
        split at h
        · rename_i s2 ts2
          have h3 := (can_replacement h2.1).2.2.2.2 (by simp)
          subst h3
          exact ih h2.2 ha' hk' h
        · cases h
          exact ⟨ha', hk', by simp, rfl, h2⟩

/-! ### Replacements -/

/-- The options of a field that can come about. -/
def GoodOpts (o : AOpts) : Prop :=
  (o.sp = .preferV1 ∨ o.sp = .preferV2) ∧
  (o.v1 = .automatic ∨ o.v1 = .iso8859_1 ∨ o.v1 = .ascii ∨ o.v1 = .cp1252 ∨ o.v1 = .utf8) ∧
  o.the ≠ .nil ∧ o.cap ≠ .nil

/-- The terms that can come about. -/
def GoodAtom : Atom → Prop
  | .text b => EqOk false b
  | .field _ o => GoodOpts o
  | .year y => y = .fourDigits
  | .md5 o => o = .defaults ∨ ∃ b, o = ⟨some b, none⟩
  | .size o => o = .defaults ∨ ∃ b, o = ⟨some b, none⟩
  | _ => True

theorem set_good {o : AOpts} {a : AOpt} (ho : GoodOpts o) (ha : GoodA a) : GoodOpts (o.set a) := by
  obtain ⟨h1, h2, h3, h4⟩ := ho
  cases a
  · exact ⟨ha, h2, h3, h4⟩
  · exact ⟨h1, ha, h3, h4⟩
  · exact ⟨h1, h2, ha, h4⟩
  · exact ⟨h1, h2, h3, ha⟩
  · exact ⟨h1, h2, h3, h4⟩
  · exact ⟨h1, h2, h3, h4⟩

theorem fold_good {os : List AOpt} (h : ∀ a ∈ os, GoodA a) {o : AOpts} (ho : GoodOpts o) : GoodOpts (os.foldl AOpts.set o) := by
  induction os generalizing o with
  | nil => exact ho
  | cons a os ih =>
    exact ih (fun x hx => h x (List.mem_cons_of_mem _ hx)) (set_good ho (h a List.mem_cons_self))

theorem base_only {os : List NumOpt} (h : ∀ o ∈ os, ∃ b, o = .base b) (hk : (os.map NumOpt.key).Nodup) (hne : os ≠ []) :
    ∃ b, os.foldl NumOpts.set ⟨none, none⟩ = ⟨some b, none⟩ := by
  match os, hne with
  | o :: os, _ =>
    obtain ⟨b, rfl⟩ := h o List.mem_cons_self
    cases os with
    | nil => exact ⟨b, rfl⟩
    | cons o' os =>
      obtain ⟨b', rfl⟩ := h o' (by simp)
      simp [NumOpt.key] at hk

theorem name_term_good (n : Name) : GoodAtom n.term := by
  cases n <;> simp [Name.term, GoodAtom, GoodOpts]

theorem close_ok {α : Type} {a a' : α} {s : Start} {ts ts' : List (Tok × Start)} (hc : Chain .replacement ts)
    (h : close a .replacement ts = .ok a' s ts') : a' = a ∧ s = .initial ∧ Chain .initial ts' := by
  unfold close at h
  split at h
  · cases h
    have := (can_replacement hc.1).2.2.1 rfl
    subst this
    exact ⟨rfl, rfl, hc.2⟩
  · cases h

theorem withOptions_ok {n : Name} {s : Start} {ts ts' : List (Tok × Start)} {a : Atom} (hc : Chain .replacement ts)
    (h : withOptions n .replacement ts = .ok a s ts') : GoodAtom a ∧ s = .initial ∧ Chain .initial ts' := by
  have file : ∀ os s1 ts1 (k : FOpts → Atom), (∀ o, GoodAtom (k o)) →
      options fOpt FOpt.key ts.length [] .replacement ts = .ok os s1 ts1 →
      close (k (os.foldl FOpts.set {})) s1 ts1 = .ok a s ts' → GoodAtom a ∧ s = .initial ∧ Chain .initial ts' := by
    intro os s1 ts1 k hk ho h
    obtain ⟨-, -, -, rfl, h2⟩ := options_ok (P := fun _ => True) (fun _ _ _ _ _ => fOpt_ok) _ hc (by simp) (by simp) ho
    obtain ⟨rfl, h3⟩ := close_ok h2 h
    exact ⟨hk _, h3⟩
  have num : ∀ os s1 ts1 (k : NumOpts → Atom), (∀ b, GoodAtom (k ⟨some b, none⟩)) →
      options numOpt NumOpt.key ts.length [] .replacement ts = .ok os s1 ts1 →
      close (k (os.foldl NumOpts.set ⟨none, none⟩)) s1 ts1 = .ok a s ts' → GoodAtom a ∧ s = .initial ∧ Chain .initial ts' := by
    intro os s1 ts1 k hk ho h
    obtain ⟨h1, h2, h3, rfl, h4⟩ := options_ok (P := fun o => ∃ b, o = .base b) (fun _ _ _ _ _ => numOpt_ok) _ hc
      (by simp) (by simp) ho
    obtain ⟨rfl, h5⟩ := close_ok h4 h
    obtain ⟨b, hb⟩ := base_only h1 h2 h3
    rw [hb]
    exact ⟨hk b, h5⟩
  unfold withOptions at h
  split at h
  · split at h
    · rename_i os s1 ts1 ho
      exact file os s1 ts1 .basename (fun _ => trivial) ho h
    · cases h
  · split at h
    · rename_i os s1 ts1 ho
      exact file os s1 ts1 .extension (fun _ => trivial) ho h
    · cases h
  · split at h
    · rename_i os s1 ts1 ho
      exact num os s1 ts1 .md5 (fun b => .inr ⟨b, rfl⟩) ho h
    · cases h
  · split at h
    · rename_i os s1 ts1 ho
      exact num os s1 ts1 .size (fun b => .inr ⟨b, rfl⟩) ho h
    · cases h
  · split at h
    · exact absurd rfl (can_replacement hc.1).1.2.2.1
    · exact absurd rfl (can_replacement hc.1).1.2.2.2.1
    · cases h
  · split at h
    · split at h
      · rename_i f hf _ os s1 ts1 ho
        obtain ⟨h1, -, -, rfl, h4⟩ := options_ok (P := GoodA) (fun _ _ _ _ _ => aOpt_ok) _ hc (by simp) (by simp) ho
        obtain ⟨rfl, h5⟩ := close_ok h4 h
        exact ⟨fold_good h1 (by simp [GoodOpts]), h5⟩
      · cases h
    · cases h

theorem replacement_ok {s : Start} {ts ts' : List (Tok × Start)} {a : Atom} (hc : Chain .replacement ts)
    (h : replacement .replacement ts = .ok a s ts') : GoodAtom a ∧ s = .initial ∧ Chain .initial ts' := by
  unfold replacement at h
  split at h
  · rename_i n s1 ts1
    cases h
    have := (can_replacement hc.1).2.2.2.1 ⟨_, rfl⟩
    subst this
    exact ⟨name_term_good _, rfl, hc.2⟩
  · have h1 := (can_replacement hc.1).2.2.2.2 (by simp)
    subst h1
    split at h
    · have h2 := (can_replacement hc.2.1).2.2.2.2 (by simp)
      subst h2
      split at h
      · have h3 := (can_replacement hc.2.2.1).2.2.2.2 (by simp)
        subst h3
        split at h
        · cases h
        · exact withOptions_ok hc.2.2.2 h
      · obtain ⟨rfl, h4⟩ := close_ok hc.2.2 h
        exact ⟨name_term_good _, h4⟩
    · cases h
  · cases h

/-! ### Templates -/

/-- Every term, also in optional parts, has a property. -/
def Tpl.All (P : Atom → Prop) : Tpl → Prop
  | .nil => True
  | .atom a rest => P a ∧ rest.All P
  | .sub inner rest => inner.All P ∧ rest.All P

theorem termList_ok (fuel : Nat) : ∀ {any : Bool} {ts ts' : List (Tok × Start)} {t : Tpl} {s : Start},
    Chain .initial ts → termList fuel any .initial ts = .ok t s ts' →
    t.All GoodAtom ∧ s = .initial ∧ Chain .initial ts' := by
  induction fuel with
  | zero => intro any ts ts' t s _ h; cases h
  | succ n ih =>
    intro any ts ts' t s hc h
    unfold termList at h
    split at h
    · obtain ⟨h1, h2⟩ := (can_initial hc.1).2.2.2.2 _ rfl
      subst h1
      split at h
      · rename_i ht
        cases h
        obtain ⟨h3, h4⟩ := ih hc.2 ht
        exact ⟨⟨h2, h3⟩, h4⟩
      · cases h
    · have h1 := (can_initial hc.1).1 rfl
      subst h1
      split at h
      · cases h
      · rename_i ha
        obtain ⟨h2, rfl, h3⟩ := replacement_ok hc.2 ha
        split at h
        · rename_i ht
          cases h
          obtain ⟨h4, h5⟩ := ih h3 ht
          exact ⟨⟨h2, h4⟩, h5⟩
        · cases h
    · have h1 := (can_initial hc.1).2.1 rfl
      subst h1
      split at h
      · cases h
      · rename_i hi
        obtain ⟨h2, rfl, h3⟩ := ih hc.2 hi
        split at h
        · have h4 := (can_initial h3.1).2.2.1 rfl
          subst h4
          split at h
          · have h5 := (can_initial h3.2.1).2.2.2.1 rfl
            subst h5
            split at h
            · rename_i ht
              cases h
              obtain ⟨h6, h7⟩ := ih h3.2.2 ht
              exact ⟨⟨h2, h6⟩, h7⟩
            · cases h
          · cases h
        · cases h
    · split at h
      · cases h
        exact ⟨trivial, rfl, hc⟩
      · cases h

/-- From another start condition than `INITIAL` nothing is accepted. -/
theorem termList_stuck (fuel : Nat) : ∀ {st : Start} {ts ts' : List (Tok × Start)} {t : Tpl} {s : Start},
    st ≠ .initial → Chain st ts → termList fuel false st ts ≠ .ok t s ts' := by
  induction fuel with
  | zero => intro st ts ts' t s _ _ h; cases h
  | succ n ih =>
    intro st ts ts' t s hst hc h
    unfold termList at h
    split at h
    · cases st
      · exact hst rfl
      · exact (can_replacement hc.1).1.2.2.2.2.2.2 _ rfl
      · exact (can_parameter hc.1).2.2.2 _ rfl
    · cases st
      · exact hst rfl
      · exact (can_replacement hc.1).1.2.2.2.2.2.1 rfl
      · exact (can_parameter hc.1).2.1 rfl
    · rename_i s1 ts1
      have h1 : s1 = .replacement := by
        cases st
        · exact absurd rfl hst
        · exact (can_replacement hc.1).2.2.2.2 (by simp)
        · exact absurd rfl (can_parameter hc.1).2.2.1
      subst h1
      split at h
      · cases h
      · rename_i hi
        exact ih (by simp) hc.2 hi
    · cases h

/-- What an accepted template consists of, and how it leaves the scanner. -/
theorem parse_ok {st s : Start} {b : Bytes} {t : Tpl} (h : parse st b = (some t, s)) :
    st = .initial ∧ s = .initial ∧ t.All GoodAtom := by
  have hc := lex_chain b.length st b
  unfold parse at h
  simp only at h
  by_cases hst : st = .initial
  · subst hst
    split at h
    · rename_i ht
      cases h
      obtain ⟨h1, h2, -⟩ := termList_ok _ hc ht
      exact ⟨rfl, h2, h1⟩
    · cases h
    · cases h
  · split at h
    · rename_i ht
      exact absurd ht (termList_stuck _ hst hc)
    · cases h
    · cases h

end Scribbu.Tbt
