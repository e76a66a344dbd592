import Verif.Proofs.TemplateReach
import Verif.Proofs.Backup
import Verif.Props.TemplateText

/-!
# C40, C61 to C65 — templates: what is written, what is understood, what comes out
-/

namespace Scribbu.Props
open Scribbu Scribbu.Spec Scribbu.Tbt

/-! ## C40: any text can be written -/

/-- The full claim: a text with a backslash before each special character is understood as that text. (The empty text needs no
template, and a null character ends one.) -/
def C40_claim : Prop :=
  ∀ b : Bytes, b ≠ [] → 0 ∉ b → (templateProcessor .initial (escape b)).1 = some (.atom (.text b) .nil)

/-- The backslash before `=` is required, but stays. -/
theorem C40_refuted : ¬ C40_claim := by
  intro h
  exact absurd (h [61] (by decide) (by decide)) (by decide +kernel)

/-- In fact there is no way to get a text with a `=` in it other than after a backslash, whatever one writes. -/
theorem C40_refuted_all (st : Start) (templat : Bytes) (t : Tpl) (h : (templateProcessor st templat).1 = some t) :
    t.All fun a => ∀ b pre post, a = .text b → b = pre ++ 61 :: post → ∃ pre', pre = pre' ++ [92] := by
  have h1 : parse st (templat.takeWhile (· ≠ 0)) = (some t, (templateProcessor st templat).2) := Prod.ext h rfl
  have h2 := (parse_ok h1).2.2
  clear h h1
  induction t with
  | nil => trivial
  | atom a t ih =>
    refine ⟨?_, ih h2.2⟩
    rintro b pre post rfl he
    rcases h2.1.split he with ⟨-, h⟩ | h
    · cases h
    · exact h
  | sub i t ih1 ih2 => exact ⟨ih1 h2.1, ih2 h2.2⟩

/-- The claim holds for texts without `=`, and a template can go on after the text. -/
theorem C40_partial (b : Bytes) (hb : b ≠ []) (h0 : 0 ∉ b) (h61 : 61 ∉ b) :
    templateProcessor .initial (escape b) = (some (.atom (.text b) .nil), .initial) := by
  have h := templateProcessor_source (.text b .nil) ⟨⟨hb, h0, h61⟩, rfl, trivial⟩ (by simp)
  have he : (Source.text b .nil).bytes = escape b := by simp [Source.bytes]
  rw [he] at h
  exact h

/-- `50% (or so): ?\ &` -/
example : templateProcessor .initial [53, 48, 92, 37, 32, 92, 40, 111, 114, 92, 41, 92, 58, 92, 63, 92, 92, 92, 38] =
    (some (.atom (.text [53, 48, 37, 32, 40, 111, 114, 41, 58, 63, 92, 38]) .nil), .initial) :=
  C40_partial [53, 48, 37, 32, 40, 111, 114, 41, 58, 63, 92, 38] (by decide) (by decide) (by decide)

/-! ## C61: a template written as the manual explains is understood -/

/-- A template that is written as it should be is understood as what it stands for. -/
theorem C61_understood (s : Source) (hs : s.Ok) (hne : s ≠ .nil) :
    (templateProcessor .initial s.bytes).1 = some s.meaning := by
  rw [templateProcessor_source s hs hne]

/-- So what is written determines what it stands for. -/
theorem C61_unambiguous (s s' : Source) (hs : s.Ok) (hs' : s'.Ok) (h : s.bytes = s'.bytes) : s.meaning = s'.meaning := by
  have nil_iff : ∀ s : Source, s.Ok → s.bytes = [] → s = .nil := by
    intro s hs h
    cases s with
    | nil => rfl
    | text b t =>
      have : escape b ≠ [] := escape_ne hs.1.1
      simp [Source.bytes, this] at h
    | _ => simp [Source.bytes] at h
  by_cases h1 : s = .nil
  · subst h1
    rw [nil_iff s' hs' h.symm]
  · have h2 : s' ≠ .nil := by
      rintro rfl
      exact h1 (nil_iff s hs h)
    have := C61_understood s hs h1
    rw [h, C61_understood s' hs' h2] at this
    exact (Option.some.inj this).symm

/-- Short forms, a long form with several options, an optional part: `(%A - )?%(title:the=prefix&compressws=_&prefer-v1).mp3` -/
def sampleTpl : Source :=
  .optional (.short .artist (.text [32, 45, 32] .nil))
    (.fieldOptions .title (.text .thePrefix) [.text (.both [95]), .preferV1] (.text [46, 109, 112, 51] .nil))

example : sampleTpl.Ok ∧ sampleTpl.bytes =
    [40, 37, 65, 32, 45, 32, 41, 63, 37, 40, 116, 105, 116, 108, 101, 58, 116, 104, 101, 61, 112, 114, 101, 102, 105, 120, 38,
     99, 111, 109, 112, 114, 101, 115, 115, 119, 115, 61, 95, 38, 112, 114, 101, 102, 101, 114, 45, 118, 49, 41, 46, 109, 112,
     51] := by
  refine ⟨?_, by decide +kernel⟩
  simp only [sampleTpl, Source.Ok]
  decide +kernel

example : (templateProcessor .initial sampleTpl.bytes).1 = some (.sub (.atom (.field .artist {}) (.atom (.text [32, 45, 32]) .nil))
    (.atom (.field .title { the := .makePrefix, compress := true, replace := [95], sp := .preferV1 })
      (.atom (.text [46, 109, 112, 51]) .nil))) := by
  refine C61_understood sampleTpl ?_ (by simp [sampleTpl])
  simp only [sampleTpl, Source.Ok]
  decide +kernel

/-- The restrictions of `Source.Ok` are needed. A short form can run into the text after it: `%base` is not the file's name
and `ase`. -/
theorem C61_swallowed : (templateProcessor .initial (Source.short .basename (.text [97, 115, 101] .nil)).bytes).1 = none := by
  decide +kernel

/-- A word with a meaning elsewhere cannot replace white space: `%(title:ws=L)`. -/
theorem C61_reserved :
    (templateProcessor .initial (Source.fieldOptions .title (.text (.replace [76])) [] .nil).bytes).1 = none := by
  decide +kernel

/-- Options of one kind exclude each other: `%(title:the&the=prefix)`; and so do, unlike what the manual's list suggests,
`compress&ws=_`. -/
theorem C61_repeated :
    (templateProcessor .initial (Source.fieldOptions .title (.text .the) [.text .thePrefix] .nil).bytes).1 = none ∧
    (templateProcessor .initial (Source.fieldOptions .title (.text .compress) [.text (.replace [95])] .nil).bytes).1 = none := by
  decide +kernel

/-! ## C62: a template does not depend on the templates before it -/

/-- The scanner's state after a sequence of templates. -/
def after : List Bytes → Start
  | hist => hist.foldl (fun st t => (templateProcessor st t).2) .initial

/-- The full claim. -/
def C62_claim : Prop :=
  ∀ (hist : List Bytes) (t : Bytes), (templateProcessor (after hist) t).1 = (templateProcessor .initial t).1

/-- After `%(` has been rejected, `abc` is, too. -/
theorem C62_refuted : ¬ C62_claim := by
  intro h
  exact absurd (h [[37, 40]] [97, 98, 99]) (by decide +kernel)

/-- In fact, unless the scanner was left where it starts, no template at all is accepted. -/
theorem C62_refuted_all (st : Start) (hst : st ≠ .initial) (t : Bytes) : (templateProcessor st t).1 = none := by
  cases h : (templateProcessor st t).1 with
  | none => rfl
  | some x =>
    have h1 : parse st (t.takeWhile (· ≠ 0)) = (some x, (templateProcessor st t).2) := Prod.ext h rfl
    exact absurd (parse_ok h1).1 hst

/-- And this can go on for as long as one likes: `%A` will not be accepted however often one tries. -/
theorem C62_refuted_forever (n : Nat) : (templateProcessor (after ([37, 40] :: List.replicate n [37, 65])) [37, 65]).1 = none := by
  refine C62_refuted_all _ ?_ _
  have h : ∀ n, (List.replicate n [37, 65]).foldl (fun st t => (templateProcessor st t).2) .replacement = .replacement := by
    intro n
    induction n with
    | zero => rfl
    | succ n ih =>
      have h1 : (templateProcessor .replacement [37, 65]).2 = .replacement := by decide +kernel
      rw [List.replicate_succ, List.foldl_cons, h1, ih]
  have h2 : (templateProcessor .initial [37, 40]).2 = .replacement := by decide +kernel
  unfold after
  rw [List.foldl_cons, h2, h n]
  decide

/-- The claim holds as long as all templates are accepted. -/
theorem C62_partial (hist : List Bytes) (h : ∀ x ∈ hist, (templateProcessor .initial x).1 ≠ none) (t : Bytes) :
    templateProcessor (after hist) t = templateProcessor .initial t := by
  have : after hist = .initial := by
    unfold after
    induction hist with
    | nil => rfl
    | cons x hist ih =>
      rw [List.foldl_cons]
      cases hx : (templateProcessor .initial x).1 with
      | none => exact absurd hx (h x List.mem_cons_self)
      | some y =>
        have h1 : parse .initial (x.takeWhile (· ≠ 0)) = (some y, (templateProcessor .initial x).2) := Prod.ext hx rfl
        rw [(parse_ok h1).2.1]
        exact ih (fun z hz => h z (List.mem_cons_of_mem _ hz))
  rw [this]

example : (templateProcessor .initial [37, 65]).1 ≠ none := by decide +kernel
example : after [[37, 65], [37, 40]] = .replacement := by decide +kernel

/-! ## C63: the options the manual lists can be chosen -/

/-- The template consists of one field with these options. -/
def Chooses (f : Field) (o : AOpts) : Prop := ∃ b, (templateProcessor .initial b).1 = some (.atom (.field f o) .nil)

/-- The full claim: one can choose any source, any encoding of ID3v1 text the manual lists, the number of digits of a year,
the base and case of the file's size. -/
def C63_claim : Prop :=
  (∀ f p, ∃ o : AOpts, o.sp = p ∧ Chooses f o) ∧
  (∀ f e, ∃ o : AOpts, o.v1 = e ∧ Chooses f o) ∧
  (∀ y, ∃ b, (templateProcessor .initial b).1 = some (.atom (.year y) .nil)) ∧
  (∀ base case, ∃ b, (templateProcessor .initial b).1 = some (.atom (.size ⟨some base, some case⟩) .nil))

theorem Chooses.good {f : Field} {o : AOpts} (h : Chooses f o) : GoodOpts o := by
  obtain ⟨b, h⟩ := h
  have h1 : parse .initial (b.takeWhile (· ≠ 0)) = (some _, (templateProcessor .initial b).2) := Prod.ext h rfl
  exact (parse_ok h1).2.2.1

/-- `v1-only` cannot be chosen, in whatever template. -/
theorem C63_refuted : ¬ C63_claim := by
  intro h
  obtain ⟨o, h1, h2⟩ := h.1 .artist .v1Only
  rcases h2.good.1 with h3 | h3 <;> rw [h1] at h3 <;> cases h3

/-- The example of the manual, `%(artist:v1-only&v1-encoding=iso-8859-1)`, is rejected. -/
theorem C63_refuted_example : (templateProcessor .initial
    [37, 40, 97, 114, 116, 105, 115, 116, 58, 118, 49, 45, 111, 110, 108, 121, 38, 118, 49, 45, 101, 110, 99, 111, 100, 105, 110,
     103, 61, 105, 115, 111, 45, 56, 56, 53, 57, 45, 49, 41]).1 = none := by
  decide +kernel

/-- Nothing can be said about the year, and hexadecimal digits cannot be in upper case. -/
theorem C63_refuted_numbers (b : Bytes) :
    (templateProcessor .initial b).1 ≠ some (.atom (.year .twoDigits) .nil) ∧
    (templateProcessor .initial b).1 ≠ some (.atom (.size ⟨some .hex, some .upper⟩) .nil) := by
  constructor
  · intro h
    have h1 : parse .initial (b.takeWhile (· ≠ 0)) = (some _, (templateProcessor .initial b).2) := Prod.ext h rfl
    have h2 : YearFmt.twoDigits = .fourDigits := (parse_ok h1).2.2.1
    cases h2
  · intro h
    have h1 : parse .initial (b.takeWhile (· ≠ 0)) = (some _, (templateProcessor .initial b).2) := Prod.ext h rfl
    have h2 : (⟨some .hex, some .upper⟩ : NumOpts) = .defaults ∨ ∃ b, (⟨some .hex, some .upper⟩ : NumOpts) = ⟨some b, none⟩ :=
      (parse_ok h1).2.2.1
    rcases h2 with h2 | ⟨b, h2⟩ <;> cases h2

/-- The long name of a field. -/
def longName : Field → FieldName
  | .album => .album
  | .artist => .artist
  | .contentType => .contentType
  | .title => .title

/-- The options that give a combination. -/
def optionsFor (o : AOpts) : List FieldOption :=
  [if o.sp = .preferV1 then .preferV1 else .preferV2,
   .v1 (match o.v1 with | .iso8859_1 => .iso8859_1 | .ascii => .ascii | .cp1252 => .cp1252 | .utf8 => .utf8 | _ => .auto),
   .text (if o.the = .makePrefix then .thePrefix else .theSuffix),
   .text (match o.cap with | .allUpper => .capUpper | .allLower => .capLower | _ => .capFirst),
   .output o.out] ++
  (match o.compress, o.replace with
   | false, [] => []
   | true, [] => [.text .compress]
   | false, t => [.text (.replace t)]
   | true, t => [.text (.both t)])

/-- Which combinations can be chosen, if the replacement for white space is a text that can be written: any combination of
`prefer-v1` or `prefer-v2`, of five of the eight encodings, of the position of the article (which cannot be left alone), of the
capitalisation (likewise), of what is to be done with white space, and of the output encoding. -/
theorem C63_partial (f : Field) (o : AOpts) (hr : o.replace = [] ∨ (Writable o.replace ∧ o.replace ∉ reserved)) :
    Chooses f o ↔
      (o.sp = .preferV1 ∨ o.sp = .preferV2) ∧
      (o.v1 = .automatic ∨ o.v1 = .iso8859_1 ∨ o.v1 = .ascii ∨ o.v1 = .cp1252 ∨ o.v1 = .utf8) ∧
      (o.the = .makePrefix ∨ o.the = .makeSuffix) ∧
      (o.cap = .capitalize ∨ o.cap = .allUpper ∨ o.cap = .allLower) := by
  constructor
  · intro h
    obtain ⟨h1, h2, h3, h4⟩ := h.good
    refine ⟨h1, h2, ?_, ?_⟩
    · cases ht : o.the <;> simp_all
    · cases hc : o.cap <;> simp_all
  · rintro ⟨h1, h2, h3, h4⟩
    obtain ⟨x, xs, hx⟩ : ∃ x xs, optionsFor o = x :: xs := ⟨_, _, rfl⟩
    have hf : (longName f).field = f := by cases f <;> rfl
    have hset : (optionsFor o).foldl FieldOption.set {} = o := by
      obtain ⟨sp, v1, th, cap, comp, rep, out⟩ := o
      simp only at h1 h2 h3 h4
      rcases h1 with rfl | rfl <;> rcases h2 with rfl | rfl | rfl | rfl | rfl <;> rcases h3 with rfl | rfl <;>
        rcases h4 with rfl | rfl | rfl <;> cases comp <;> cases rep <;> rfl
    have hok : ∀ y ∈ optionsFor o, y.Ok := by
      obtain ⟨sp, v1, th, cap, comp, rep, out⟩ := o
      simp only at hr h1 h2 h3 h4
      intro y hy
      unfold optionsFor at hy
      simp only [List.mem_append, List.mem_cons, List.not_mem_nil, or_false] at hy
      rcases hy with (rfl | rfl | rfl | rfl | rfl) | hy
      · split <;> trivial
      · trivial
      · simp only [FieldOption.Ok]; split <;> trivial
      · simp only [FieldOption.Ok]; split <;> trivial
      · trivial
      · cases comp <;> cases rep <;> simp only [List.not_mem_nil, List.mem_singleton] at hy
        all_goals subst hy
        all_goals first | trivial | exact hr.elim (fun h => by cases h) id
    have hk : ((optionsFor o).map FieldOption.kind).Nodup := by
      obtain ⟨sp, v1, th, cap, comp, rep, out⟩ := o
      simp only at h1 h2 h3 h4
      rcases h1 with rfl | rfl <;> rcases h3 with rfl | rfl <;>
        rcases h4 with rfl | rfl | rfl <;> cases comp <;> cases rep <;>
        first | exact (by decide : [3, 4, 0, 1, 5].Nodup) | exact (by decide : [3, 4, 0, 1, 5, 2].Nodup)
    have hs : (Source.fieldOptions (longName f) x xs .nil).Ok := ⟨hx ▸ hok, hx ▸ hk, trivial⟩
    refine ⟨_, (C61_understood _ hs (by simp)).trans ?_⟩
    unfold Source.meaning
    rw [← hx, hset, hf]
    rfl

example : Chooses .album { sp := .preferV1, v1 := .cp1252, the := .makePrefix, cap := .allLower, replace := [95] } := by
  refine (C63_partial _ _ ?_).mpr ?_
  · right
    decide +kernel
  · simp

/-! ## C64: optional parts -/

/-- The full claim: a part in parentheses with a question mark never makes the evaluation fail. -/
def C64_claim : Prop := ∀ (env : Env) (inner : Tpl), ∃ x, (Tpl.sub inner .nil).eval env = .ok x

/-- A file that has no frame for the artist, but an artist in ID3v1, as most do. -/
def v1File : Env :=
  { ic := fun _ _ b => some b, stem := [], ext := [], size := 0, md5 := [], v2 := some fun _ => none,
    v1 := some { V1Tag.scratch false false with artist := [80, 0] } }

/-- `(%A)?` fails if the artist is only in ID3v1. -/
theorem C64_refuted : ¬ C64_claim := by
  intro h
  obtain ⟨x, hx⟩ := h v1File (.atom (.field .artist {}) .nil)
  have : (Tpl.sub (.atom (.field .artist {}) .nil) .nil).eval v1File = .throw .invalidArgument := by decide +kernel
  rw [this] at hx
  cases hx

/-- `(%e)?` fails if there is a frame for the encoder, but an empty one. -/
theorem C64_refuted_empty : ∃ env : Env, (∃ get, env.v2 = some get ∧ get .encodedBy = some (.ok [])) ∧
    (Tpl.sub (.atom .encodedBy .nil) .nil).eval env = .throw .outOfRange := by
  refine ⟨{ v1File with v2 := some fun _ => some (.ok []) }, ⟨_, rfl, rfl⟩, ?_⟩
  decide +kernel

/-- Everything a term needs, apart from being there, is fine: frames can be converted to UTF-8, and so can ID3v1 text in the
encoding given; text that is to be capitalised is not empty; the output is UTF-8. -/
def FineTerm (env : Env) : Atom → Prop
  | .text _ => True
  | .field f o =>
    (∃ v2, env.v2Text f.v2 = .ok v2) ∧ (∃ s, Decodes env.ic (env.v1Text f) o.v1 s) ∧ o.out = .utf8
  | .encodedBy => ∃ v2, env.v2Text .encodedBy = .ok v2 ∧ v2 ≠ some []
  | .year y =>
    y = .fourDigits ∧ (∃ v2, env.v2Text .year = .ok v2) ∧
    ∃ s, Decodes env.ic env.v1Year .automatic s
  | .basename o => env.stem ≠ [] ∨ o.cap ≠ .capitalize
  | .extension o => env.ext ≠ [] ∨ o.cap ≠ .capitalize
  | .md5 o => o = .defaults
  | .size o => o = .defaults

theorem doThe_ne {t : Bytes} (h : t ≠ []) (x : TheX) : doThe t x ≠ [] := by
  cases x
  · exact h
  · simp only [doThe]
    split
    · simp [thePrefix]
    · exact h
  · simp only [doThe]
    split
    · simp [theSuffix]
    · exact h

theorem doCap_ok {t : Bytes} {c : Cap} (h : t ≠ [] ∨ c ≠ .capitalize) : ∃ u, doCap t c = .ok u := by
  cases c
  · exact ⟨_, rfl⟩
  · cases t with
    | nil => simp at h
    | cons => exact ⟨_, rfl⟩
  · exact ⟨_, rfl⟩
  · exact ⟨_, rfl⟩

theorem doThe_nil (x : TheX) : doThe [] x = [] := by cases x <;> rfl

theorem fileTransform_ok {o : FOpts} {t : Bytes} (h : t ≠ [] ∨ o.cap ≠ .capitalize) : ∃ u, fileTransform o t = .ok u := by
  have h1 : doThe t o.the ≠ [] ∨ o.cap ≠ .capitalize := by
    rcases h with h | h
    · exact .inl (doThe_ne h _)
    · exact .inr h
  obtain ⟨u, hu⟩ := doCap_ok h1
  exact ⟨_, by unfold fileTransform; rw [hu]; rfl⟩

theorem sourceText_fine {ic : Iconv} {b : Bytes} {e : V1Enc} {s : Bytes} (h : Decodes ic b e s) (v2 : Option Bytes)
    (p : SrcPref) : sourceText ic b v2 e p = .throw .missing ∨ ∃ t, t ≠ [] ∧ sourceText ic b v2 e p = .ok t := by
  have hm : v1OrMissing ic b e = .throw .missing ∨ ∃ t, t ≠ [] ∧ v1OrMissing ic b e = .ok t := by
    unfold v1OrMissing
    rw [h]
    show (if s ≠ [] then Res.ok s else .throw .missing) = _ ∨ ∃ t, t ≠ [] ∧ (if s ≠ [] then Res.ok s else .throw .missing) = _
    by_cases hs : s = []
    · rw [if_neg (fun h => h hs)]; exact .inl rfl
    · rw [if_pos hs]; exact .inr ⟨s, hs, rfl⟩
  have hn : ∀ t, nonEmpty v2 = some t → t ≠ [] := by
    intro t ht
    unfold nonEmpty at ht
    have := (Option.filter_eq_some_iff.mp ht).2
    simpa using this
  cases p <;> simp only [sourceText]
  · cases hv : nonEmpty v2 with
    | some t => exact .inr ⟨t, hn t hv, rfl⟩
    | none => simp only; split; exact hm; exact .inl rfl
  · split
    · exact hm
    · cases hv : nonEmpty v2 with
      | some t => exact .inr ⟨t, hn t hv, rfl⟩
      | none => exact .inl rfl
  · cases hv : nonEmpty v2 with
    | some t => exact .inr ⟨t, hn t hv, rfl⟩
    | none => exact .inl rfl
  · split
    · exact hm
    · exact .inl rfl

/-- If everything is fine, a term has a value unless its source is missing. -/
theorem eval_fine {env : Env} {a : Atom} (h : FineTerm env a) : a.eval env = .throw .missing ∨ ∃ x, a.eval env = .ok x := by
  cases a with
  | text b => exact .inr ⟨b, rfl⟩
  | field f o =>
    obtain ⟨⟨v2, h2⟩, ⟨s, h1⟩, ho⟩ := h
    simp only [Atom.eval, h2, Res.ok_bind]
    rcases sourceText_fine h1 v2 o.sp with h | ⟨t, ht, h⟩
    · rw [h]; exact .inl rfl
    · rw [h, Res.ok_bind]
      obtain ⟨u, hu⟩ := doCap_ok (c := o.cap) (.inl (doThe_ne ht o.the))
      refine .inr ⟨doWs u o.compress o.replace, ?_⟩
      unfold xformAndEncode
      rw [hu, ho]
      rfl
  | encodedBy =>
    obtain ⟨v2, h2, hn⟩ := h
    simp only [Atom.eval, h2, Res.ok_bind]
    cases v2 with
    | none => exact .inl rfl
    | some s =>
      obtain ⟨u, hu⟩ := doCap_ok (c := .capitalize) (.inl (doThe_ne (t := s) (by simpa using hn) .makeSuffix))
      simp only [hu]
      exact .inr ⟨u, rfl⟩
  | year y =>
    obtain ⟨rfl, ⟨v2, h2⟩, ⟨s, h1⟩⟩ := h
    simp only [Atom.eval, h2, Res.ok_bind]
    rcases sourceText_fine h1 v2 .preferV2 with h | ⟨t, ht, h⟩
    · rw [h]; exact .inl rfl
    · rw [h]; exact .inr ⟨t, rfl⟩
  | basename o =>
    exact .inr (fileTransform_ok h)
  | extension o =>
    exact .inr (fileTransform_ok h)
  | md5 o =>
    have : o = .defaults := h
    subst this
    exact .inr ⟨env.md5, rfl⟩
  | size o =>
    have : o = .defaults := h
    subst this
    exact .inr ⟨_, rfl⟩

/-- What a template should come to, given the values of its terms, `none` for those whose source is missing: optional parts
are left out if something in them is missing, and otherwise nothing may be. -/
def TplOutcome (val : Atom → Option Bytes) : Tpl → Option Bytes → Prop
  | .nil, r => r = some []
  | .atom a rest, r => ∃ r', TplOutcome val rest r' ∧
    ((val a = none ∧ r = none) ∨ ∃ x, val a = some x ∧ r = r'.map (x ++ ·))
  | .sub inner rest, r => ∃ i r', TplOutcome val inner i ∧ TplOutcome val rest r' ∧
    ((i = none ∧ r = r') ∨ ∃ x, i = some x ∧ r = r'.map (x ++ ·))

/-- The value of a term that is fine. -/
def termValue (env : Env) (a : Atom) : Option Bytes :=
  match a.eval env with
  | .ok x => some x
  | _ => none

/-- The claim holds if nothing is wrong with the terms but that their sources are missing; then what comes out is what should,
and a template fails (with the exception for a missing source) only because of a term that is not optional. -/
theorem C64_partial (env : Env) (t : Tpl) (h : t.All (FineTerm env)) :
    ∃ r, TplOutcome (termValue env) t r ∧
      t.eval env = match r with | some x => .ok x | none => .throw .missing := by
  induction t with
  | nil => exact ⟨some [], rfl, rfl⟩
  | atom a t ih =>
    obtain ⟨r', h1, h2⟩ := ih h.2
    rcases eval_fine h.1 with ha | ⟨x, ha⟩
    · refine ⟨none, ⟨r', h1, .inl ⟨?_, rfl⟩⟩, ?_⟩
      · unfold termValue; rw [ha]
      · unfold Tpl.eval; rw [ha]; rfl
    · refine ⟨r'.map (x ++ ·), ⟨r', h1, .inr ⟨x, ?_, rfl⟩⟩, ?_⟩
      · unfold termValue; rw [ha]
      · unfold Tpl.eval
        rw [ha, Res.ok_bind, h2]
        cases r' <;> rfl
  | sub i t ih1 ih2 =>
    obtain ⟨r', h1, h2⟩ := ih2 h.2
    obtain ⟨ri, h3, h4⟩ := ih1 h.1
    cases ri with
    | none =>
      refine ⟨r', ⟨none, r', h3, h1, .inl ⟨rfl, rfl⟩⟩, ?_⟩
      unfold Tpl.eval
      rw [h4, h2]
      cases r' <;> rfl
    | some x =>
      refine ⟨r'.map (x ++ ·), ⟨some x, r', h3, h1, .inr ⟨x, rfl, rfl⟩⟩, ?_⟩
      unfold Tpl.eval
      rw [h4, h2]
      cases r' <;> rfl

/-- In particular an optional part does not fail. -/
theorem C64_optional_partial (env : Env) (inner : Tpl) (h : inner.All (FineTerm env)) :
    ∃ x, (Tpl.sub inner .nil).eval env = .ok x := by
  obtain ⟨r, ⟨i, r', h1, h2, h3⟩, h4⟩ := C64_partial env (.sub inner .nil) ⟨h, trivial⟩
  have h2 : r' = some [] := h2
  subst h2
  rcases h3 with ⟨-, rfl⟩ | ⟨x, -, rfl⟩ <;> exact ⟨_, h4⟩

/-- A file with a title in ID3v2 and no artist. -/
def titleOnly : Env :=
  { ic := fun _ _ b => some b, stem := [120], ext := [46, 109, 112, 51], size := 1024, md5 := [], v1 := none,
    v2 := some fun f => if f = .title then some (.ok [115, 111]) else none }

/-- `(%A - )?%T` -/
example : (Tpl.sub (.atom (.field .artist {}) (.atom (.text [32, 45, 32]) .nil)) (.atom (.field .title {}) .nil)).eval titleOnly
    = .ok [83, 111] := by decide +kernel
example : (Tpl.sub (.atom (.field .artist {}) (.atom (.text [32, 45, 32]) .nil)) (.atom (.field .title {}) .nil)).All
    (FineTerm titleOnly) :=
  ⟨⟨⟨⟨none, rfl⟩, ⟨[], rfl⟩, rfl⟩, trivial, trivial⟩, ⟨⟨some [115, 111], rfl⟩, ⟨[], rfl⟩, rfl⟩, trivial⟩
/-- `%A` -/
example : (Tpl.atom (.field .artist {}) .nil).eval titleOnly = .throw .missing := by decide +kernel

/-! ## C65: sizes and checksums -/

/-- A number in decimal digits. -/
def Decimal (n : Nat) (b : Bytes) : Prop :=
  b ≠ [] ∧ (∀ c ∈ b, 48 ≤ c.toNat ∧ c.toNat ≤ 57) ∧ b.foldl (fun a c => 10 * a + (c.toNat - 48)) 0 = n

/-- A decimal or hexadecimal digit. -/
def Digit (c : UInt8) : Prop :=
  (48 ≤ c.toNat ∧ c.toNat ≤ 57) ∨ (65 ≤ c.toNat ∧ c.toNat ≤ 70) ∨ (97 ≤ c.toNat ∧ c.toNat ≤ 102)

/-- The full claim: sizes are printed as numbers in the base asked for, checksums in digits. -/
def C65_claim : Prop :=
  (∀ n, ∃ b, evalSize n .defaults = .ok b ∧ Decimal n b) ∧
  (∀ n, ∃ b, evalSize n ⟨some .decimal, none⟩ = .ok b ∧ Decimal n b) ∧
  (∀ n, ∃ b, evalSize n ⟨some .hex, none⟩ = .ok b ∧ b ≠ [] ∧ ∀ c ∈ b, Digit c) ∧
  (∀ d, ∃ b, evalMd5 d .defaults = .ok b ∧ ∀ c ∈ b, Digit c)

/-- The checksum comes out as raw bytes: `%5` of a file without audio data starts with D4. -/
theorem C65_refuted : ¬ C65_claim := by
  intro h
  obtain ⟨b, h1, h2⟩ := h.2.2.2 [0xd4]
  cases h1
  have := h2 0xd4 (by simp)
  revert this
  unfold Digit
  decide

/-- Whatever the checksum, its bytes are printed as they are, in short form and with `base=decimal` … -/
theorem C65_refuted_md5 (d : Bytes) : evalMd5 d .defaults = .ok d ∧ evalMd5 d ⟨some .decimal, none⟩ = .ok d := ⟨rfl, rfl⟩

/-- … and with `base=hex` an indeterminate value is read; of the file's size nothing would be printed whatever that value. -/
theorem C65_refuted_hex (n : Nat) (d : Bytes) :
    evalSize n ⟨some .hex, none⟩ = .ub .uninit ∧ evalMd5 d ⟨some .hex, none⟩ = .ub .uninit ∧
    ∀ c, evalSize n ⟨some .hex, some c⟩ = .ok [] := ⟨rfl, rfl, fun _ => rfl⟩

/-- The claim holds for sizes in decimal: for every template that is accepted, if it asks for a size, it gets it unless it asked
for base 16. -/
theorem C65_partial (n : Nat) (o : NumOpts) (templat : Bytes)
    (h : (templateProcessor .initial templat).1 = some (.atom (.size o) .nil)) (hb : o.base ≠ some .hex) (env : Env)
    (hn : env.size = n) : ∃ b, (Tpl.atom (.size o) .nil).eval env = .ok b ∧ Decimal n b := by
  have h1 : parse .initial (templat.takeWhile (· ≠ 0)) = (some _, (templateProcessor .initial templat).2) := Prod.ext h rfl
  have h2 : o = .defaults ∨ ∃ b, o = ⟨some b, none⟩ := (parse_ok h1).2.2.1
  have h3 : evalSize n o = .ok (Backup.dec n) := by
    rcases h2 with rfl | ⟨b, rfl⟩
    · rfl
    · cases b
      · rfl
      · exact absurd rfl hb
  refine ⟨Backup.dec n, ?_, ?_⟩
  · simp only [Tpl.eval, Atom.eval]
    rw [hn, h3]
    show Res.ok (Backup.dec n ++ []) = _
    rw [List.append_nil]
  · obtain ⟨h4, h5, h6⟩ := Backup.dec_digits n
    refine ⟨h5, ?_, h6⟩
    intro c hc
    have := List.all_eq_true.mp h4 c hc
    unfold Backup.isDigit at this
    simp only [Bool.and_eq_true, decide_eq_true_eq, UInt8.le_iff_toNat_le] at this
    exact this

example : (templateProcessor .initial [37, 83]).1 = some (.atom (.size .defaults) .nil) := by decide +kernel
example : (templateProcessor .initial (Source.sizeBase .decimal .nil).bytes).1 = some (.atom (.size ⟨some .decimal, none⟩) .nil) := by
  decide +kernel
example : evalSize 1024 .defaults = .ok [49, 48, 50, 52] := by decide +kernel

/-! ## The manual's own example -/

/-- `%(artist:prefer-v2&v1-encoding=cp1252&the=suffix&compress)`, which the manual says gives `Pogues, The` for the artist
`The  Pogues`, gives ` Pogues, The`. -/
theorem C39_refuted_example :
    (Tpl.atom (.field .artist { v1 := .cp1252, compress := true }) .nil).eval
      { titleOnly with v2 := some fun _ => some (.ok [84, 104, 101, 32, 32, 80, 111, 103, 117, 101, 115]) }
      = .ok [32, 80, 111, 103, 117, 101, 115, 44, 32, 84, 104, 101] := by
  decide +kernel

end Scribbu.Props
