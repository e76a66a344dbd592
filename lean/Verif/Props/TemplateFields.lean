import Verif.Props.Template

/-!
# C71 — a replacement parameter shows the field it is named after
-/

namespace Scribbu.Props
open Scribbu Scribbu.Spec Scribbu.Tbt

/-- What a template given as text comes to. -/
def shown (env : Env) (templat : Bytes) : Res Bytes :=
  match (templateProcessor .initial templat).1 with
  | some t => t.eval env
  | none => .throw .invalidArgument

/-- doc/scribbu.texi L1297-1303: short form, long forms, frame. (`albim` is taken to be `album`.) -/
def documented : List (Bytes × List Bytes × V2Field) := [
  ([76], [[97, 108, 98, 117, 109]], .album),
  ([65], [[97, 114, 116, 105, 115, 116]], .artist),
  ([71], [[99, 111, 110, 116, 101, 110, 116, 45, 116, 121, 112, 101], [103, 101, 110, 114, 101]], .contentType),
  ([101], [[101, 110, 99, 111, 100, 101, 100, 45, 98, 121]], .encodedBy),
  ([84], [[116, 105, 116, 108, 101]], .title),
  ([89], [[121, 101, 97, 114]], .year)]

/-- C71. If the ID3v2 tag has the frame with some text, the parameter, in short or in long form, stands for that text. -/
def C71_claim : Prop :=
  ∀ e ∈ documented, ∀ (env : Env) (get : V2Field → Option (Res Bytes)) (s : Bytes), env.v2 = some get → s ≠ [] →
    get e.2.2 = some (.ok s) →
    shown env (37 :: e.1) = .ok s ∧ ∀ l ∈ e.2.1, shown env (37 :: 40 :: l ++ [41]) = .ok s

/-- C71 does not hold: nothing of the kind being asked for, `lame` is shown as `Lame` and `The Pogues` as `Pogues, The`. -/
theorem C71_refuted : ¬ C71_claim := by
  intro h
  have := (h ([101], [[101, 110, 99, 111, 100, 101, 100, 45, 98, 121]], .encodedBy) (by decide)
    { titleOnly with v2 := some fun _ => some (.ok [108, 97, 109, 101]) } (fun _ => some (.ok [108, 97, 109, 101]))
    [108, 97, 109, 101] rfl (by decide) rfl).1
  exact absurd this (by decide +kernel)

example : shown { titleOnly with v2 := some fun _ => some (.ok [84, 104, 101, 32, 80, 111, 103, 117, 101, 115]) } [37, 65] =
    .ok [80, 111, 103, 117, 101, 115, 44, 32, 84, 104, 101] := by decide +kernel

/-- Neither a capital nor an article has to be dealt with. -/
def Plain (s : Bytes) : Prop :=
  (∃ c r, s = c :: r ∧ ¬ (97 ≤ c ∧ c ≤ 122)) ∧ iequals thePrefix (s.take 4) = false

/-- Such a text is left alone. -/
theorem plain_same {s : Bytes} (h : Plain s) : doCap (doThe s .makeSuffix) .capitalize = .ok s := by
  obtain ⟨⟨c, r, rfl, hc⟩, hi⟩ := h
  simp only [doThe, hi]
  simp [doCap, upper]
  intro h1 h2
  exact absurd ⟨h1, h2⟩ hc

/-- C71 for texts that begin with neither a small letter nor `The `. -/
theorem C71_partial : ∀ e ∈ documented, ∀ (env : Env) (get : V2Field → Option (Res Bytes)) (s : Bytes),
    env.v2 = some get → (e.2.2 = .year ∧ s ≠ [] ∨ Plain s) → get e.2.2 = some (.ok s) →
    shown env (37 :: e.1) = .ok s ∧ ∀ l ∈ e.2.1, shown env (37 :: 40 :: l ++ [41]) = .ok s := by
  intro e he env get s h2 hpl hg
  have hs : s ≠ [] := by
    rcases hpl with h | h
    · exact h.2
    · obtain ⟨⟨c, r, rfl, _⟩, _⟩ := h
      simp
  have hpl : e.2.2 ≠ .year → Plain s := fun h => hpl.elim (fun h' => absurd h'.1 h) id
  have hv : ∀ f, get f = some (.ok s) → env.v2Text f = .ok (some s) := by
    intro f hf
    simp [Env.v2Text, h2, hf, Res.bind]
  have hno : nonEmpty (some s) = some s := by simp [nonEmpty, Option.filter, hs]
  have hfield : ∀ f, Plain s → get (Field.v2 f) = some (.ok s) → (Tpl.atom (.field f {}) .nil).eval env = .ok s := by
    intro f hpl hf
    simp only [Tpl.eval, Atom.eval, hv _ hf, Res.bind, sourceText, hno, xformAndEncode, plain_same hpl]
    simp [doWs, encode]
  have henc : Plain s → get .encodedBy = some (.ok s) → (Tpl.atom .encodedBy .nil).eval env = .ok s := by
    intro hpl hf
    simp only [Tpl.eval, Atom.eval, hv _ hf, Res.bind, plain_same hpl]
    simp [encode]
  have hyear : get .year = some (.ok s) → (Tpl.atom (.year .fourDigits) .nil).eval env = .ok s := by
    intro hf
    simp [Tpl.eval, Atom.eval, hv _ hf, Res.bind, sourceText, hno]
  have hp : ∀ (b : Bytes) (t : Tpl), (templateProcessor .initial b).1 = some t → shown env b = t.eval env := by
    intro b t h
    simp only [shown, h]
  have h1 := hp (37 :: [76]) (.atom (.field .album {}) .nil) (by decide +kernel)
  have h2 := hp (37 :: [65]) (.atom (.field .artist {}) .nil) (by decide +kernel)
  have h3 := hp (37 :: [71]) (.atom (.field .contentType {}) .nil) (by decide +kernel)
  have h4 := hp (37 :: [84]) (.atom (.field .title {}) .nil) (by decide +kernel)
  have h5 := hp (37 :: [89]) (.atom (.year .fourDigits) .nil) (by decide +kernel)
  have l1 := hp (37 :: 40 :: [97, 108, 98, 117, 109] ++ [41]) (.atom (.field .album {}) .nil) (by decide +kernel)
  have l2 := hp (37 :: 40 :: [97, 114, 116, 105, 115, 116] ++ [41]) (.atom (.field .artist {}) .nil) (by decide +kernel)
  have l3 := hp (37 :: 40 :: [99, 111, 110, 116, 101, 110, 116, 45, 116, 121, 112, 101] ++ [41]) (.atom (.field .contentType {}) .nil)
    (by decide +kernel)
  have l4 := hp (37 :: 40 :: [103, 101, 110, 114, 101] ++ [41]) (.atom (.field .contentType {}) .nil) (by decide +kernel)
  have l5 := hp (37 :: 40 :: [116, 105, 116, 108, 101] ++ [41]) (.atom (.field .title {}) .nil) (by decide +kernel)
  have l6 := hp (37 :: 40 :: [121, 101, 97, 114] ++ [41]) (.atom (.year .fourDigits) .nil) (by decide +kernel)
  have h6 := hp (37 :: [101]) (.atom .encodedBy .nil) (by decide +kernel)
  have l7 := hp (37 :: 40 :: [101, 110, 99, 111, 100, 101, 100, 45, 98, 121] ++ [41]) (.atom .encodedBy .nil) (by decide +kernel)
  simp only [documented, List.mem_cons, List.not_mem_nil, or_false] at he
  rcases he with rfl | rfl | rfl | rfl | rfl | rfl
  · refine ⟨h1.trans (hfield _ (hpl (by simp)) hg), ?_⟩
    simp only [List.mem_cons, List.not_mem_nil, or_false]
    rintro l rfl
    exact l1.trans (hfield _ (hpl (by simp)) hg)
  · refine ⟨h2.trans (hfield _ (hpl (by simp)) hg), ?_⟩
    simp only [List.mem_cons, List.not_mem_nil, or_false]
    rintro l rfl
    exact l2.trans (hfield _ (hpl (by simp)) hg)
  · refine ⟨h3.trans (hfield _ (hpl (by simp)) hg), ?_⟩
    simp only [List.mem_cons, List.not_mem_nil, or_false]
    rintro l (rfl | rfl)
    · exact l3.trans (hfield _ (hpl (by simp)) hg)
    · exact l4.trans (hfield _ (hpl (by simp)) hg)
  · refine ⟨h6.trans (henc (hpl (by simp)) hg), ?_⟩
    simp only [List.mem_cons, List.not_mem_nil, or_false]
    rintro l rfl
    exact l7.trans (henc (hpl (by simp)) hg)
  · refine ⟨h4.trans (hfield _ (hpl (by simp)) hg), ?_⟩
    simp only [List.mem_cons, List.not_mem_nil, or_false]
    rintro l rfl
    exact l5.trans (hfield _ (hpl (by simp)) hg)
  · refine ⟨h5.trans (hyear hg), ?_⟩
    simp only [List.mem_cons, List.not_mem_nil, or_false]
    rintro l rfl
    exact l6.trans (hyear hg)

/-- An album called `A`, an artist called `B`, and so on: `%L%A%G%T%Y` is `ABCDE`. -/
example : shown { titleOnly with v2 := some fun
      | .album => some (.ok [65]) | .artist => some (.ok [66]) | .contentType => some (.ok [67])
      | .title => some (.ok [68]) | .year => some (.ok [69]) | .encodedBy => none }
    [37, 76, 37, 65, 37, 71, 37, 84, 37, 89] = .ok [65, 66, 67, 68, 69] := by decide +kernel

/-- C71 for ID3v1: `%(album:v1-only&v1-encoding=iso-8859-1)` and so on stand for what the tag's field is converted to. -/
theorem C71_v1_partial (env : Env) (t : V1Tag) (h1 : env.v1 = some t) (h2 : env.v2 = none) (s : Bytes) (hs : s ≠ [])
    (f : Field) (field : Bytes)
    (hf : match f with
      | .album => field = t.album
      | .artist => field = t.artist
      | .title => field = t.title
      | .contentType => field = t.extGenre ∧ t.extGenre ≠ [] ∨ t.extGenre = [] ∧ Genres.textForGenre t.genre = some field)
    (hd : Decodes env.ic field .iso8859_1 s) (hpl : Plain s) :
    (Atom.field f { sp := .v1Only, v1 := .iso8859_1 }).eval env = .ok s := by
  have hfield : env.v1Text f = field := by
    unfold Env.v1Text
    rw [h1]
    cases f with
    | album => exact hf.symm
    | artist => exact hf.symm
    | title => exact hf.symm
    | contentType =>
      simp only at hf ⊢
      rcases hf with ⟨h, hn⟩ | ⟨h, hg⟩
      · rw [if_neg hn, h]
      · rw [if_pos h, hg]
  have := C41_field_partial env f { sp := .v1Only, v1 := .iso8859_1 } s none (by simp [Env.v2Text, h2]) (by rw [hfield]; exact hd)
    (by simp)
  rw [this]
  have hc : chosen .v1Only (some s) none = some s := by simp [chosen, Usable, Option.filter, hs]
  simp only [hc, xformAndEncode, plain_same hpl, Res.bind]
  simp [doWs, encode]

/-- C71 for ID3v1: the year stands for the tag's year, if that begins with a byte order mark (otherwise see C41). -/
theorem C71_year_partial (env : Env) (t : V1Tag) (h1 : env.v1 = some t) (h2 : env.v2 = none) (s : Bytes) (hs : s ≠ [])
    (hd : Decodes env.ic t.year .automatic s) :
    (Atom.year .fourDigits).eval env = .ok s := by
  have hy : env.v1Year = t.year := by simp [Env.v1Year, h1]
  have := C41_partial env.ic t.year .automatic s none .preferV2 hd (by simp)
  simp only [Atom.eval, Env.v2Text, h2, Res.ok_bind, hy, this]
  simp [chosen, Usable, Option.filter, hs, Res.bind]

/-- A title in ID3v1, without and with a byte order mark. -/
example : (Atom.field .title { sp := .v1Only, v1 := .iso8859_1 }).eval
    { v1File with v1 := some { V1Tag.scratch false false with title := [80, 0], artist := [81] } } = .ok [80] := by decide +kernel
example : Decodes (fun _ _ b => some b) [0xef, 0xbb, 0xbf, 49] .automatic [49] := by
  unfold Decodes
  decide +kernel

end Scribbu.Props
