import Verif.Proofs.TemplateText

/-!
# C38, C39, C41 — what templates do with the text of a field
-/

namespace Scribbu.Props
open Scribbu Scribbu.Spec Scribbu.Tbt

/-! ## C38: the article -/

/-- The text is `The` (in any case), a space and something more. -/
def StartsWithThe (t : Bytes) : Prop := ∃ art rest, t = art ++ rest ∧ SameText (the ++ [32]) art ∧ rest ≠ []

/-- The text ends in a comma, a space and `The` (in any case). -/
def EndsWithThe (t : Bytes) : Prop := ∃ rest art, t = rest ++ art ∧ SameText ([44, 32] ++ the) art

/-- The full claim: moving the article and back gives the text, up to the case of letters; a text without it is unchanged. -/
def C38_claim : Prop :=
  (∀ t, StartsWithThe t → SameText t (doThe (doThe t .makeSuffix) .makePrefix)) ∧
  (∀ t, EndsWithThe t → SameText t (doThe (doThe t .makePrefix) .makeSuffix)) ∧
  (∀ t, ¬ StartsWithThe t → doThe t .makeSuffix = t) ∧
  (∀ t, ¬ EndsWithThe t → doThe t .makePrefix = t) ∧
  (∀ t, doThe t .nil = t)

/-- `, The` becomes `The `, which is too short to be recognised as starting with the article. -/
theorem C38_refuted : ¬ C38_claim := by
  intro h
  have := h.2.1 [44, 32, 84, 104, 101] ⟨[], _, rfl, SameText.refl _⟩
  exact absurd ((iequals_iff _ _).mpr this) (by decide)

/-- Where the article goes, and that everything else stays. -/
theorem C38_moves {art rest : Bytes} :
    (SameText (the ++ [32]) art → rest ≠ [] → doThe (art ++ rest) .makeSuffix = rest ++ [44, 32] ++ the) ∧
    (SameText ([44, 32] ++ the) art → doThe (rest ++ art) .makePrefix = the ++ [32] ++ rest) := by
  refine ⟨fun h hr => ?_, fun h => ?_⟩
  · rw [doThe_suffix h hr, List.append_assoc]; rfl
  · exact doThe_prefix h

/-- The claim holds but for the text that consists of nothing but `, The`. -/
theorem C38_partial :
    (∀ t, StartsWithThe t → SameText t (doThe (doThe t .makeSuffix) .makePrefix)) ∧
    (∀ t, EndsWithThe t → t.length ≠ 5 → SameText t (doThe (doThe t .makePrefix) .makeSuffix)) ∧
    (∀ t, ¬ StartsWithThe t → doThe t .makeSuffix = t) ∧
    (∀ t, ¬ EndsWithThe t → doThe t .makePrefix = t) ∧
    (∀ t, doThe t .nil = t) := by
  have symm : ∀ {a b : Bytes}, SameText a b → SameText b a := by
    intro a b h
    rw [← iequals_iff] at h ⊢
    unfold iequals at h ⊢
    rw [beq_iff_eq] at h ⊢
    exact h.symm
  refine ⟨?_, ?_, ?_, ?_, fun _ => rfl⟩
  · rintro t ⟨art, rest, rfl, h, hr⟩
    rw [doThe_suffix h hr, doThe_prefix (SameText.refl _)]
    exact (symm h).append (SameText.refl _)
  · rintro t ⟨rest, art, rfl, h⟩ h5
    have h4 := h.length
    have hr : rest ≠ [] := by
      rintro rfl
      rw [List.nil_append, ← h4] at h5
      exact h5 rfl
    rw [doThe_prefix h, doThe_suffix (SameText.refl _) hr]
    exact (SameText.refl _).append (symm h)
  · intro t h
    exact doThe_suffix_other h
  · intro t h
    exact doThe_prefix_other h

/-- `the Pogues`, `Pogues, THE`, and texts that look similar. -/
example : StartsWithThe [116, 104, 101, 32, 80] :=
  ⟨[116, 104, 101, 32], [80], rfl, (iequals_iff _ _).mp (by decide), by simp⟩
example : doThe [116, 104, 101, 32, 80] .makeSuffix = [80, 44, 32, 84, 104, 101] := by decide
example : doThe [80, 44, 32, 84, 72, 69] .makePrefix = [84, 104, 101, 32, 80] := by decide
example : doThe [84, 104, 101, 109] .makeSuffix = [84, 104, 101, 109] := by decide
example : ¬ StartsWithThe [84, 104, 101, 32] := by
  rintro ⟨art, rest, h, h1, h2⟩
  have h3 := congrArg List.length h
  have h4 : art.length = 4 := h1.length.symm
  rw [List.length_append, h4] at h3
  exact h2 (by simpa using h3)

/-! ## C39: capitalisation and white space -/

/-- The full claim. -/
def C39_claim : Prop :=
  (∀ t c, ∃ u, doCap t c = .ok u ∧ doCap u c = .ok u) ∧
  (∀ t, ¬ HasRun (doWs t true [])) ∧
  (∀ t r c, r ≠ [] → (∀ x ∈ r, NotBlank x) → ∀ x ∈ doWs t c r, NotBlank x)

/-- The empty text cannot be capitalised. -/
theorem C39_refuted_empty : ¬ C39_claim := by
  intro h
  obtain ⟨u, h, -⟩ := h.1 [] .capitalize
  cases h

/-- `a  b` is not compressed. -/
theorem C39_refuted_compress : ¬ C39_claim := by
  intro h
  exact h.2.1 [97, 32, 32, 98] ⟨[97], 32, 32, [98], by decide, by decide +kernel, by decide +kernel⟩

/-- In fact compressing never does more than turn tabs into spaces: it leaves a run wherever there is one. -/
theorem C39_refuted_compress_always (t : Bytes) : doWs t true [] = t.map fun c => if c = 9 then 32 else c := by
  have h : doWs t true [] = join [32] (splitBlanks t) := rfl
  rw [h]
  refine (join_replaced [32] t).unique ?_
  induction t with
  | nil => exact .nil
  | cons c t ih =>
    by_cases hc : NotBlank c
    · rw [List.map_cons, if_neg hc.2]
      exact .keep c hc (ih rfl)
    · have : (if c = 9 then 32 else c) = 32 := by
        by_cases h9 : c = 9
        · rw [if_pos h9]
        · rw [if_neg h9]
          have : c = 32 := by
            by_cases h : c = 32
            · exact h
            · exact absurd ⟨h, h9⟩ hc
          exact this
      rw [List.map_cons, this]
      exact .blank c hc (ih rfl)

/-- The manual says that with `ws=_` the text `a    b` becomes `a_b`. -/
theorem C39_refuted_replace_run : doWs [97, 32, 32, 32, 32, 98] false [95] ≠ [97, 95, 98] := by decide

/-- Letters that have another case: is `c` a lower-case (upper-case) letter? -/
def LowerCase (c : UInt8) : Prop := 97 ≤ c.toNat ∧ c.toNat ≤ 122
@[inherit_doc LowerCase] def UpperCase (c : UInt8) : Prop := 65 ≤ c.toNat ∧ c.toNat ≤ 90

/-- What holds of capitalisation: for all but the empty text it succeeds; only the case of letters changes; it does what it
is called after, and doing it twice makes no difference. -/
theorem C39_cap_partial (t : Bytes) :
    (∀ c rest, t = c :: rest → ∃ d, doCap t .capitalize = .ok (d :: rest) ∧ SameLetter d c ∧ ¬ LowerCase d ∧
      doCap (d :: rest) .capitalize = .ok (d :: rest)) ∧
    (∃ u, doCap t .allUpper = .ok u ∧ SameText u t ∧ (∀ d ∈ u, ¬ LowerCase d) ∧ doCap u .allUpper = .ok u) ∧
    (∃ u, doCap t .allLower = .ok u ∧ SameText u t ∧ (∀ d ∈ u, ¬ UpperCase d) ∧ doCap u .allLower = .ok u) ∧
    doCap t .nil = .ok t := by
  have u1 : ∀ c, SameLetter (upper c) c := by
    intro c
    unfold SameLetter
    rw [← UInt8.toNat_inj, upper_toNat]
    split <;> omega
  have u2 : ∀ c, ¬ LowerCase (upper c) := by
    intro c
    unfold LowerCase
    rw [upper_toNat]
    split <;> omega
  have u3 : ∀ c, upper (upper c) = upper c := by
    intro c
    rw [upper_eq_iff]
    exact u1 c
  have l1 : ∀ c, SameLetter (lower c) c := by
    intro c
    unfold SameLetter
    rw [← UInt8.toNat_inj, lower_toNat]
    split <;> omega
  have l2 : ∀ c, ¬ UpperCase (lower c) := by
    intro c
    unfold UpperCase
    rw [lower_toNat]
    split <;> omega
  have l3 : ∀ c, lower (lower c) = lower c := by
    intro c
    rw [← UInt8.toNat_inj, lower_toNat, lower_toNat]
    by_cases h : 65 ≤ c.toNat ∧ c.toNat ≤ 90
    · rw [if_pos h, if_neg (by omega)]
    · rw [if_neg h, if_neg h]
  have same : ∀ (f : UInt8 → UInt8), (∀ c, SameLetter (f c) c) → ∀ t : Bytes, SameText (t.map f) t := by
    intro f hf t
    induction t with
    | nil => trivial
    | cons c t ih => exact ⟨hf c, ih⟩
  refine ⟨?_, ⟨_, rfl, same _ u1 t, ?_, ?_⟩, ⟨_, rfl, same _ l1 t, ?_, ?_⟩, rfl⟩
  · rintro c rest rfl
    refine ⟨upper c, rfl, u1 c, u2 c, ?_⟩
    show Res.ok (upper (upper c) :: rest) = _
    rw [u3]
  · intro d hd
    obtain ⟨c, -, rfl⟩ := List.mem_map.mp hd
    exact u2 c
  · show Res.ok _ = _
    simp [u3]
  · intro d hd
    obtain ⟨c, -, rfl⟩ := List.mem_map.mp hd
    exact l2 c
  · show Res.ok _ = _
    simp [l3]

/-- What holds of replacing white space: every blank is replaced, and nothing else; so no blank is left unless the
replacement brings it in. -/
theorem C39_replace_partial (t r : Bytes) (c : Bool) (hr : r ≠ []) :
    Replaced r t (doWs t c r) ∧ ((∀ x ∈ r, NotBlank x) → ∀ x ∈ doWs t c r, NotBlank x) := by
  have h : doWs t c r = join r (splitBlanks t) := by
    unfold doWs
    have : r.length ≠ 0 := fun h => hr (List.length_eq_zero_iff.mp h)
    rw [if_neg (by simp [hr]), if_pos this]
  rw [h]
  have h1 := join_replaced r t
  refine ⟨h1, fun hb => ?_⟩
  generalize join r (splitBlanks t) = u at h1
  clear h
  induction h1 with
  | nil => simp
  | keep c hc _ ih =>
    intro x hx
    rcases List.mem_cons.mp hx with rfl | hx
    · exact hc
    · exact ih x hx
  | blank c _ _ ih =>
    intro x hx
    rcases List.mem_append.mp hx with hx | hx
    · exact hb x hx
    · exact ih x hx

/-- With neither option, white space is left alone. -/
theorem C39_nothing (t : Bytes) : doWs t false [] = t := rfl

example : doCap [98, 108, 117, 101] .capitalize = .ok [66, 108, 117, 101] := by decide
example : doCap [98, 195, 169, 85] .allUpper = .ok [66, 195, 169, 85] := by decide
example : doWs [97, 32, 9, 98] true [95, 45] = [97, 95, 45, 95, 45, 98] := by decide
example : HasRun [97, 32, 9, 98] := ⟨[97], 32, 9, [98], rfl, by decide +kernel, by decide +kernel⟩

/-! ## C41: where the text comes from -/

/-- A value to be used: it is there and not empty. -/
def Usable (v : Option Bytes) : Option Bytes := v.filter (· ≠ [])

/-- Where the text should come from, given what the two tags have to say. -/
def chosen (pref : SrcPref) (v1 v2 : Option Bytes) : Option Bytes :=
  match pref with
  | .preferV2 => (Usable v2).or (Usable v1)
  | .preferV1 => (Usable v1).or (Usable v2)
  | .v2Only => Usable v2
  | .v1Only => Usable v1

/-- The text of the ID3v1 tag is `s`, as far as it matters: there is no text (`b` is empty), or it can be converted. -/
def Decodes (ic : Iconv) (b : Bytes) (e : V1Enc) (s : Bytes) : Prop := v1TextToUtf8 ic b e = .ok s

/-- The full claim, for texts that can be converted. -/
def C41_claim : Prop :=
  ∀ ic b e s v2 pref, Decodes ic b e s →
    sourceText ic b v2 e pref =
      match chosen pref (some s) v2 with
      | some t => .ok t
      | none => .throw .missing

/-- A tag whose field is blank (30 null characters, or spaces, as usual) is not passed over in favour of ID3v2. -/
theorem C41_refuted : ¬ C41_claim := by
  intro h
  have := h (fun _ _ b => some b) [0, 0] .iso8859_1 [] (some [80]) .preferV1 (by unfold Decodes; decide +kernel)
  exact absurd this (by decide +kernel)

/-- More generally, a blank field makes `prefer-v1` fail, whatever there is in ID3v2. -/
theorem C41_refuted_blank (ic : Iconv) (b : Bytes) (e : V1Enc) (v2 : Option Bytes) (hb : b ≠ []) (h : Decodes ic b e []) :
    sourceText ic b v2 e .preferV1 = .throw .missing := by
  simp only [sourceText, v1OrMissing]
  rw [if_pos hb, h]
  rfl

/-- With the default encoding, a text without a byte order mark makes a template that needs it fail with an exception
unrelated to templates (so that not even an optional part can absorb it), however easily it could be converted. -/
theorem C41_refuted_automatic (ic : Iconv) (b : Bytes) (pref : SrcPref) (v2 : Option Bytes) (hb : b ≠ [])
    (h1 : ∀ r, b ≠ 0xef :: 0xbb :: 0xbf :: r) (h2 : ∀ r, b ≠ 0xfe :: 0xff :: r) (h3 : ∀ r, b ≠ 0xff :: 0xfe :: r)
    (hp : pref = .preferV1 ∨ pref = .v1Only ∨ (pref = .preferV2 ∧ Usable v2 = none)) :
    sourceText ic b v2 .automatic pref = .throw .invalidArgument := by
  have hg : guess b = .automatic := by
    unfold guess
    split <;> simp_all
  have hv : v1TextToUtf8 ic b .automatic = .throw .invalidArgument := by
    unfold v1TextToUtf8
    rw [if_neg hb, if_pos rfl, hg]
    rfl
  have hm : v1OrMissing ic b .automatic = .throw .invalidArgument := by
    unfold v1OrMissing
    rw [hv]
    rfl
  rcases hp with rfl | rfl | ⟨rfl, h⟩
  · simp only [sourceText]; rw [if_pos hb, hm]
  · simp only [sourceText]; rw [if_pos hb, hm]
  · have : nonEmpty v2 = none := h
    simp only [sourceText, this]
    rw [if_pos hb, hm]

/-- The claim holds unless ID3v1 is preferred and its field is there but blank. -/
theorem C41_partial (ic : Iconv) (b : Bytes) (e : V1Enc) (s : Bytes) (v2 : Option Bytes) (pref : SrcPref)
    (h : Decodes ic b e s) (hn : pref = .preferV1 → b ≠ [] → s ≠ []) :
    sourceText ic b v2 e pref =
      match chosen pref (some s) v2 with
      | some t => .ok t
      | none => .throw .missing := by
  have hv : nonEmpty v2 = Usable v2 := rfl
  have h0 : b = [] → s = [] := by
    rintro rfl
    have : Res.ok [] = Res.ok s := h
    cases this
    rfl
  have hm : v1OrMissing ic b e = if s ≠ [] then .ok s else .throw .missing := by
    unfold v1OrMissing
    rw [h]
    rfl
  have hs : Usable (some s) = if s ≠ [] then some s else none := by
    unfold Usable
    by_cases h : s = [] <;> simp [h]
  cases pref
  · -- prefer ID3v2
    simp only [sourceText, chosen]
    rw [hv]
    cases hu : Usable v2 with
    | some t => rfl
    | none =>
      simp only [Option.none_or, hs, hm]
      by_cases hb : b = []
      · rw [if_neg (fun h => h hb), if_neg (fun h => h (h0 hb))]
      · rw [if_pos hb]
        split <;> rfl
  · simp only [sourceText, chosen]
    rw [hv]
    by_cases hb : b = []
    · rw [if_neg (fun h => h hb), hs, if_neg (fun h => h (h0 hb))]
      cases Usable v2 <;> rfl
    · rw [if_pos hb, hm, hs, if_pos (hn rfl hb), if_pos (hn rfl hb)]
      rfl
  · simp only [sourceText, chosen]
    rw [hv]
    cases Usable v2 <;> rfl
  · simp only [sourceText, chosen]
    rw [hs, hm]
    by_cases hb : b = []
    · rw [if_neg (fun h => h hb), if_neg (fun h => h (h0 hb))]
    · rw [if_pos hb]
      split <;> rfl

/-- What a field of a template evaluates to, provided its text in ID3v2, if any, can be had, and that in ID3v1 can be
converted: the text from the source it should come from, transformed, or `missing_source_text`. -/
theorem C41_field_partial (env : Env) (f : Field) (o : AOpts) (s : Bytes) (v2 : Option Bytes)
    (h2 : env.v2Text f.v2 = .ok v2) (h1 : Decodes env.ic (env.v1Text f) o.v1 s)
    (hn : o.sp = .preferV1 → env.v1Text f ≠ [] → s ≠ []) :
    (Atom.field f o).eval env =
      match chosen o.sp (some s) v2 with
      | some t => xformAndEncode env.ic o t
      | none => .throw .missing := by
  simp only [Atom.eval, h2, Res.ok_bind]
  rw [C41_partial env.ic _ o.v1 s v2 o.sp h1 hn]
  cases chosen o.sp (some s) v2 <;> rfl

/-- A source that must not be used does make a difference: a frame whose text cannot be converted makes a field fail which is
to come from ID3v1 only. -/
theorem C41_refuted_consults : ∃ env o, o.sp = .v1Only ∧ Decodes env.ic (env.v1Text .title) o.v1 [80] ∧
    (Atom.field .title o).eval env = .throw .runtimeError := by
  refine ⟨{ ic := fun _ _ b => some b, stem := [], ext := [], size := 0, md5 := [],
            v2 := some fun _ => some (.throw .runtimeError),
            v1 := some { V1Tag.scratch false false with title := [80, 0] } },
          { sp := .v1Only, v1 := .ascii }, rfl, ?_, ?_⟩
  · unfold Decodes
    decide +kernel
  · decide +kernel

/-- A Latin-1 text with blanks at the end. -/
example : Decodes (fun _ _ b => some b) [80, 97, 0, 32, 0] .iso8859_1 [80, 97] := by
  unfold Decodes
  decide +kernel
example : sourceText (fun _ _ b => some b) [80, 97, 0, 32, 0] (some []) .iso8859_1 .preferV2 = .ok [80, 97] := by
  decide +kernel
example : sourceText (fun _ _ b => some b) [] (some [81]) .iso8859_1 .preferV1 = .ok [81] := by decide +kernel

end Scribbu.Props
