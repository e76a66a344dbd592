import Verif.Props.Template

/-! Property C204: templates can be put together. -/

namespace Scribbu.Props
open Scribbu Scribbu.Spec Scribbu.Tbt

/-- What two templates give one after the other. -/
def oneThenOther (t u : Tpl) (env : Env) : Res Bytes := (t.eval env).bind fun x => (u.eval env).bind fun y => .ok (x ++ y)

/-- **C204** as claimed. -/
def C204_claim : Prop := ∀ (a b : Bytes) (t u : Tpl), (templateProcessor .initial a).1 = some t → (templateProcessor .initial b).1 = some u →
  ∃ m, (templateProcessor .initial (a ++ b)).1 = some m ∧ ∀ env, m.eval env = oneThenOther t u env

/-- **Finding** (C204) `%b` and `ase` are templates, but `%base` is none. -/
theorem C204_refuted : ¬ C204_claim := by
  intro h
  have h1 : (templateProcessor .initial [37, 98]).1 = some (.atom (.basename {}) .nil) := by decide +kernel
  have h2 : (templateProcessor .initial [97, 115, 101]).1 = some (.atom (.text [97, 115, 101]) .nil) := by decide +kernel
  obtain ⟨m, hm, -⟩ := h _ _ _ _ h1 h2
  have h3 : (templateProcessor .initial ([37, 98] ++ [97, 115, 101])).1 = none := by decide +kernel
  rw [h3] at hm
  cases hm

/-- No short form in the first template is mistaken for another word when the bytes `t` come after it. -/
def KeepsShort (t : Bytes) : Source → Prop
  | .nil => True
  | .short n rest => swallowed n (rest.bytes ++ t) = false ∧ KeepsShort t rest
  | .text _ rest => KeepsShort t rest
  | .long _ rest => KeepsShort t rest
  | .fieldOptions _ _ _ rest => KeepsShort t rest
  | .fileOptions _ _ _ rest => KeepsShort t rest
  | .md5Base _ rest => KeepsShort t rest
  | .sizeBase _ rest => KeepsShort t rest
  | .optional _ rest => KeepsShort t rest

/-- Two templates put together; texts that meet become one. -/
def joinSource (s' : Source) : Source → Source
  | .nil => s'
  | .text b .nil => match s' with
    | .text b' r => .text (b ++ b') r
    | _ => .text b s'
  | .text b rest => .text b (joinSource s' rest)
  | .short n rest => .short n (joinSource s' rest)
  | .long n rest => .long n (joinSource s' rest)
  | .fieldOptions n o os rest => .fieldOptions n o os (joinSource s' rest)
  | .fileOptions n o os rest => .fileOptions n o os (joinSource s' rest)
  | .md5Base b rest => .md5Base b (joinSource s' rest)
  | .sizeBase b rest => .sizeBase b (joinSource s' rest)
  | .optional i rest => .optional i (joinSource s' rest)

theorem escape_append (a b : Bytes) : escape (a ++ b) = escape a ++ escape b := by
  induction a with
  | nil => rfl
  | cons x a ih =>
    simp only [List.cons_append, escape, ih]
    split <;> simp

theorem join_bytes (s' s : Source) : (joinSource s' s).bytes = s.bytes ++ s'.bytes := by
  fun_induction joinSource s' s <;> simp_all [Source.bytes, escape_append]

theorem then_nil (r : Res Bytes) : (r.bind fun y => .ok ([] ++ y)) = r := by cases r <;> rfl

theorem then_assoc (r : Res Bytes) (q q' : Res Bytes) :
    (r.bind fun x => ((q.bind fun y => q'.bind fun z => .ok (y ++ z)).bind fun y => .ok (x ++ y))) =
      ((r.bind fun x => q.bind fun y => .ok (x ++ y)).bind fun x => q'.bind fun y => .ok (x ++ y)) := by
  cases r <;> cases q <;> cases q' <;> simp [Res.bind]

theorem join_eval (s' s : Source) (env : Env) : (joinSource s' s).meaning.eval env = oneThenOther s.meaning s'.meaning env := by
  fun_induction joinSource s' s
  case case1 => exact (then_nil _).symm
  all_goals simp only [Source.meaning, Tpl.eval, oneThenOther] at *
  case case2 b b' r he =>
    subst he
    simp only [Source.meaning, Tpl.eval]
    cases h : r.meaning.eval env <;> simp [Atom.eval, Res.bind]
  case case3 b h => simp [Atom.eval, Res.bind]
  all_goals
    rename_i ih
    rw [ih]
    exact then_assoc _ _ _

theorem join_ok (s' s : Source) (hs : s.Ok) (hs' : s'.Ok) (hk : KeepsShort s'.bytes s) : (joinSource s' s).Ok := by
  fun_induction joinSource s' s
  case case1 => exact hs'
  case case2 b b' r he =>
    subst he
    obtain ⟨⟨h1, h2, h3⟩, -⟩ := hs
    obtain ⟨⟨h4, h5, h6⟩, h7, h8⟩ := hs'
    exact ⟨⟨by simp [h1], by simp [h2, h5], by simp [h3, h6]⟩, h7, h8⟩
  case case3 b h =>
    refine ⟨hs.1, ?_, hs'⟩
    cases s' <;> first | rfl | exact absurd rfl (h _ _)
  case case4 b rest hne ih =>
    refine ⟨hs.1, ?_, ih hs.2.2 hk⟩
    have := hs.2.1
    cases rest <;> first | rfl | (exact absurd rfl hne) | (cases this)
  case case5 n rest ih => exact ⟨by rw [join_bytes]; exact hk.1, ih hs.2 hk.2⟩
  case case6 n rest ih => exact ih hs hk
  case case7 n o os rest ih => exact ⟨hs.1, hs.2.1, ih hs.2.2 hk⟩
  case case8 n o os rest ih => exact ⟨hs.1, hs.2.1, ih hs.2.2 hk⟩
  case case9 n rest ih => exact ih hs hk
  case case10 n rest ih => exact ih hs hk
  case case11 i rest ih => exact ⟨hs.1, hs.2.1, ih hs.2.2 hk⟩

/-- **C204** for templates that are written as the manual explains, if no short form in the first is mistaken for another word: put together they are a template, and the name it
gives is that of the first with that of the second behind it. Missing: `%b` or `%e` before letters that make another word of it, and templates that are accepted although they
are not written as the manual explains, such as those with a null character. -/
theorem C204_partial (s s' : Source) (hs : s.Ok) (hs' : s'.Ok) (hn : s ≠ .nil ∨ s' ≠ .nil) (hk : KeepsShort s'.bytes s) :
    ∃ m, (templateProcessor .initial (s.bytes ++ s'.bytes)).1 = some m ∧ ∀ env, m.eval env = oneThenOther s.meaning s'.meaning env := by
  refine ⟨(joinSource s' s).meaning, ?_, join_eval s' s⟩
  rw [← join_bytes]
  refine C61_understood _ (join_ok s' s hs hs' hk) ?_
  intro h
  have hb := congrArg Source.bytes h
  rw [join_bytes] at hb
  simp only [Source.bytes, List.append_eq_nil_iff] at hb
  have nil_of : ∀ s : Source, s.Ok → s.bytes = [] → s = .nil := by
    intro s hs h
    cases s with
    | nil => rfl
    | text b t =>
      have : escape b ≠ [] := escape_ne hs.1.1
      simp [Source.bytes, this] at h
    | _ => simp [Source.bytes] at h
  rcases hn with hn | hn
  · exact hn (nil_of s hs hb.1)
  · exact hn (nil_of s' hs' hb.2)

theorem prefix_across {p a t : Bytes} (h : p.isPrefixOf (a ++ t) = true) (ha : p.isPrefixOf a = false) : ∃ c, t.head? = some c ∧ c ∈ p := by
  induction a generalizing p with
  | nil =>
    cases p with
    | nil => simp at ha
    | cons x p =>
      cases t with
      | nil => simp at h
      | cons y t =>
        simp only [List.nil_append, List.isPrefixOf, Bool.and_eq_true, beq_iff_eq] at h
        exact ⟨y, rfl, by simp [h.1]⟩
  | cons y a ih =>
    cases p with
    | nil => simp at ha
    | cons x p =>
      simp only [List.cons_append, List.isPrefixOf, Bool.and_eq_true, beq_iff_eq] at h
      have : p.isPrefixOf a = false := by
        simpa [List.isPrefixOf, h.1] using ha
      obtain ⟨c, h1, h2⟩ := ih h.2 this
      exact ⟨c, h1, by simp [h2]⟩

theorem keeps_before {t : Bytes} (ht : ∀ c, t.head? = some c → c = 37 ∨ c = 40) (s : Source) (hs : s.Ok) : KeepsShort t s := by
  have key : ∀ n (a : Bytes), swallowed n a = false → swallowed n (a ++ t) = false := by
    intro n a ha
    have one : ∀ p : Bytes, 37 ∉ p → 40 ∉ p → p.isPrefixOf a = false → p.isPrefixOf (a ++ t) = false := by
      intro p h1 h2 h3
      cases hx : p.isPrefixOf (a ++ t) with
      | false => rfl
      | true =>
        obtain ⟨c, h4, h5⟩ := prefix_across hx h3
        rcases ht c h4 with rfl | rfl
        · exact absurd h5 h1
        · exact absurd h5 h2
    cases n <;> simp only [swallowed, Bool.or_eq_false_iff] at ha ⊢
    case basename => exact one _ (by decide) (by decide) ha
    case encodedBy => exact ⟨one _ (by decide) (by decide) ha.1, one _ (by decide) (by decide) ha.2⟩
  induction s with
  | nil => trivial
  | text b r ih => exact ih hs.2.2
  | short n r ih => exact ⟨key n _ hs.1, ih hs.2⟩
  | long n r ih => exact ih hs
  | fieldOptions n o os r ih => exact ih hs.2.2
  | fileOptions n o os r ih => exact ih hs.2.2
  | md5Base b r ih => exact ih hs
  | sizeBase b r ih => exact ih hs
  | optional i r _ ih => exact ih hs.2.2

/-- **C204** So there is nothing to be taken care of if the second template begins with a replacement or an optional part. Missing: as above. -/
theorem C204_replacement_partial (s s' : Source) (hs : s.Ok) (hs' : s'.Ok) (hn : s ≠ .nil ∨ s' ≠ .nil) (ht : s'.startsText = false) :
    ∃ m, (templateProcessor .initial (s.bytes ++ s'.bytes)).1 = some m ∧ ∀ env, m.eval env = oneThenOther s.meaning s'.meaning env := by
  refine C204_partial s s' hs hs' hn (keeps_before ?_ s hs)
  intro c hc
  cases s' <;> simp [Source.bytes] at hc
  case text => cases ht
  all_goals first | exact .inl hc.symm | exact .inr hc.symm

/-- `%b-` before `ase`, and `%b` before `(%A)?`. -/
example : KeepsShort (Source.text [97, 115, 101] .nil).bytes (.short .basename (.text [45] .nil)) ∧
    (Source.optional (.short .artist .nil) .nil).startsText = false := ⟨⟨by decide, trivial⟩, rfl⟩

end Scribbu.Props
