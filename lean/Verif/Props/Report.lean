import Verif.Proofs.ReportRun
import Verif.Props.Lookup

/-! C95 to C102: reports as comma- or tab-separated values. -/

namespace Scribbu.Props
open Scribbu Report Spec LTag Lookup

/-! ## Texts in comma-separated values -/

/-- C95, in full: whatever separator the printer takes, a line of texts is read back as these texts. -/
def C95_claim : Prop :=
  ∀ (sep : Byte) (fields : List Bytes), sepOk sep = true → fields ≠ [] →
    records true sep (sepBy sep (fields.map fun s => escape s sep) ++ [10]) = [fields]

/-- C95, as far as it holds: with a separator other than the quote, and if no text begins with a quote and has neither separator nor
line feed. -/
theorem C95_partial {sep : Byte} {fields : List Bytes} (hs : sepOk sep = true) (hq : sep ≠ 34) (hne : fields ≠ [])
    (hf : ∀ s ∈ fields, QuoteSafe sep s) : records true sep (sepBy sep (fields.map fun s => escape s sep) ++ [10]) = [fields] := by
  have h10 : sep ≠ 10 := by rintro rfl; exact absurd hs (by decide)
  have hc : Cells true sep (fields.map fun s => escape s sep) fields := by
    clear hne
    induction fields with
    | nil => exact .nil
    | cons a l ih => exact .cons (cell_escape h10 hq (hf a (List.mem_cons_self ..))) (ih fun s h => hf s (List.mem_cons_of_mem _ h))
  have := cells_read hc [] [] (by simpa using hne)
  simpa [records, take] using this

/-- Commas, quotes and line feeds: `a,"b`, an empty text, `c⏎`, and `d"e`, separated by commas or by semicolons. -/
example : ∀ sep ∈ ([44, 59] : Bytes), sepOk sep = true ∧ ∀ s ∈ ([[97, 44, 34, 98], [], [99, 10], [100, 34, 101]] : List Bytes), QuoteSafe sep s := by
  intro sep h
  simp only [List.mem_cons, List.not_mem_nil, or_false] at h
  rcases h with rfl | rfl
  · refine ⟨by decide, fun s hs => ?_⟩
    simp only [List.mem_cons, List.not_mem_nil, or_false] at hs
    rcases hs with rfl | rfl | rfl | rfl <;> exact Or.inl (by decide)
  · refine ⟨by decide, fun s hs => ?_⟩
    simp only [List.mem_cons, List.not_mem_nil, or_false] at hs
    rcases hs with rfl | rfl | rfl | rfl <;> exact Or.inl (by decide)

theorem unquoted_read {sep : Byte} : ∀ (s f : Bytes), sep ∉ s → 10 ∉ s → ∀ a, a = At.quoted ∨ a = At.closing ∨ a = At.plain → sep ≠ 10 →
    ∃ g, take true sep a f [] (s ++ [10]) = [[g]] ∧ (10 ∈ g ∨ g.length ≤ f.length + s.length) := by
  intro s
  induction s with
  | nil =>
    intro f _ _ a ha h10
    have h' : ¬ (10 : Byte) = sep := fun h => h10 h.symm
    rcases ha with rfl | rfl | rfl
    · exact ⟨f ++ [10], by simp [take], Or.inl (by simp)⟩
    · exact ⟨f, by simp [take, h'], Or.inr (by simp)⟩
    · exact ⟨f, by simp [take, h'], Or.inr (by simp)⟩
  | cons c s ih =>
    intro f h1 h2 a ha h10
    simp only [List.mem_cons, not_or] at h1 h2
    have hc1 : ¬ c = sep := fun e => h1.1 e.symm
    have hc2 : ¬ c = 10 := fun e => h2.1 e.symm
    have step : ∀ f' a', (a' = At.quoted ∨ a' = At.closing ∨ a' = At.plain) → f'.length ≤ f.length + 1 →
        take true sep a f [] (c :: (s ++ [10])) = take true sep a' f' [] (s ++ [10]) →
        ∃ g, take true sep a f [] (c :: (s ++ [10])) = [[g]] ∧ (10 ∈ g ∨ g.length ≤ f.length + (c :: s).length) := by
      intro f' a' ha' hl e
      obtain ⟨g, hg, hl'⟩ := ih f' h1.2 h2.2 a' ha' h10
      refine ⟨g, by rw [e, hg], ?_⟩
      rcases hl' with h | h
      · exact Or.inl h
      · refine Or.inr ?_
        simp only [List.length_cons]; omega
    rw [List.cons_append]
    by_cases hq : c = 34
    · subst hq
      rcases ha with rfl | rfl | rfl
      · exact step f .closing (by simp) (by omega) (by simp [take])
      · exact step (f ++ [34]) .quoted (by simp) (by simp) (by simp [take])
      · exact step (f ++ [34]) .plain (by simp) (by simp) (by simp [take, hc1, hc2])
    · rcases ha with rfl | rfl | rfl
      · exact step (f ++ [c]) .quoted (by simp) (by simp) (by simp [take, hq])
      · exact step (f ++ [c]) .plain (by simp) (by simp) (by simp [take, hq, hc1, hc2])
      · exact step (f ++ [c]) .plain (by simp) (by simp) (by simp [take, hc1, hc2])

/-- These are all the exceptions: a text that begins with a quote and has neither separator nor line feed is never read back. -/
theorem C95_exact {sep : Byte} {s : Bytes} (hs : sepOk sep = true) (hq : sep ≠ 34) :
    records true sep (escape s sep ++ [10]) = [[s]] ↔ QuoteSafe sep s := by
  have h10 : sep ≠ 10 := by rintro rfl; exact absurd hs (by decide)
  constructor
  · intro h
    refine Classical.byContradiction fun hn => ?_
    simp only [QuoteSafe, not_or, Decidable.not_not] at hn
    obtain ⟨hd, h1, h2⟩ := hn
    have he : escape s sep = s := by
      unfold escape
      rw [if_neg]
      simp only [List.any_eq_true, decide_eq_true_eq, not_exists, not_and, not_or]
      exact fun c hc => ⟨fun e => h1 (e ▸ hc), fun e => h2 (e ▸ hc)⟩
    cases s with
    | nil => cases hd
    | cons c s =>
      simp only [List.head?_cons, Option.some.injEq] at hd
      subst hd
      simp only [List.mem_cons, not_or] at h1 h2
      obtain ⟨g, hg, hl⟩ := unquoted_read s [] h1.2 h2.2 .quoted (.inl rfl) h10
      rw [he] at h
      have h34 : ¬ (34 : Byte) = sep := fun h => hq h.symm
      have hst : records true sep (34 :: s ++ [10]) = take true sep .quoted [] [] (s ++ [10]) := by
        simp [records, take, h34]
      rw [hst, hg] at h
      simp only [List.cons.injEq, and_true] at h
      subst h
      rcases hl with hl | hl
      · rcases List.mem_cons.1 hl with h | h
        · exact absurd h (by decide)
        · exact h2.2 h
      · simp at hl; omega
  · intro h
    have := C95_partial (fields := [s]) hs hq (by simp) (by simpa using h)
    simpa [sepBy] using this

/-- **Finding** A text that begins with a quote is put as it is, unless there is a separator or a line feed in it: the text `"a"` is read
as `a`. -/
theorem C95_refuted : ¬ C95_claim := by
  intro h
  have := h 44 [[34, 97, 34]] (by decide) (by simp)
  revert this
  decide

/-- **Finding** The quote itself is accepted as a separator, and then texts with quotes fall apart: `a"b` is read as two texts or more. -/
theorem C95_refuted_sep : sepOk 34 = true ∧ records true 34 (escape [97, 34, 98] 34 ++ [10]) ≠ [[[97, 34, 98]]] := by decide

/-! ## Reports -/

/-- C96 and C100, in full: when a report has been made without errors, all of its rows have as many columns as the first, which names
them. -/
def RectangularClaim (tsv : Bool) : Prop :=
  ∀ (E : Env) (o : Opts) (ps : List Path) (done : Done), o.tsv = tsv → report E o .fine ps = .ok done → done.status = 0 →
    ∃ doc cols rows, done.file = some doc ∧ records (!tsv) o.fmt.sep doc = cols :: rows ∧ ∀ r ∈ rows, r.length = cols.length

def C96_claim : Prop := RectangularClaim false

theorem quoted_plain {p : Path} (h : PlainPath p) : quoted p = 34 :: (p ++ [34]) := by
  unfold quoted
  have : p.flatMap (fun c => if c = 34 ∨ c = 92 then [92, c] else [c]) = p := by
    obtain ⟨h1, h2⟩ := h
    induction p with
    | nil => rfl
    | cons c p ih =>
      simp only [List.mem_cons, not_or] at h1 h2
      rw [List.flatMap_cons, ih h1.2 h2.2, if_neg]
      · rfl
      · rintro (e | e)
        · exact h1.1 e.symm
        · exact h2.1 e.symm
  rw [this]
  rfl

theorem doubled_plain {s : Bytes} (h : 34 ∉ s) : doubled 34 s = s := by
  induction s with
  | nil => rfl
  | cons c s ih =>
    simp only [List.mem_cons, not_or] at h
    have : ¬ c = 34 := fun e => h.1 e.symm
    simp [doubled, this, ih h.2]

theorem path_csv {p : Path} (h : PlainPath p) : ∃ v, Cell true 44 (quoted p) v ∧ v = p := by
  refine ⟨p, ?_, rfl⟩
  have := cell_quoted (sep := 44) (by decide) (by decide) p
  rw [doubled_plain h.1] at this
  rw [quoted_plain h]; exact this

/-- C96, as far as it holds: with at least one column for comments, paths without quotes and backslashes, and texts that can be
converted and do not begin with a quote (or have a comma or line feed in them), the report is read as the names of the columns and one
row for each file that could be read, with as many columns, which say what was read (counts in base sixteen, see C97; for the year in ID3v2.2 tags see C103). -/
theorem C96_partial {E : Env} {o : Opts} (ht : o.tsv = false) (hk : 0 < o.ncomm) {ps qs : List Path} (hc : Covers E ps qs)
    (h : ∀ p ∈ qs, (∃ e, E.read p = .throw e) ∨ ∃ f, E.read p = .ok f ∧ Printable (QuoteSafe 44) PlainPath E.texts f) :
    ∃ rows doc, report E o .fine ps = .ok ⟨if rows.length = qs.length then 0 else 1,
        if o.noSummary then none else some (rows.length, qs.length - rows.length), some doc⟩ ∧
      records true 44 doc = columns o :: rows ∧ Shown E (RowIs askedIds (fun p v => v = p) (fun n b => Hexadecimal b n) E.texts o) qs rows ∧
      ∀ r ∈ rows, r.length = (columns o).length := by
  have hfmt : o.fmt = csvFmt := by simp [Opts.fmt, ht]
  obtain ⟨recs, doc, h1, h2, -, h3, h4⟩ := report_reads (q := true) (P := fun p v => v = p) (by rw [hfmt]; exact format_csv)
    (by rw [hfmt]; exact fun p hp => path_csv hp) hk hc h
  rw [funext textIds_asked] at h3
  refine ⟨recs, doc, h1 .fine, ?_, h3, h4⟩
  rw [hfmt] at h2
  exact h2

/-- Text conversions for examples: the first byte of a text frame says which encoding it is in. -/
def plainTexts : Texts := ⟨fun _ d => .ok (d.drop 1), fun _ d => .ok d⟩

/-- A tag with these frames. -/
def tagOfFrames (v : Ver) (l : List (Bytes × Bytes)) : Tag2 :=
  ⟨cfg v, 0, 100, 0, some false, l.foldl (fun t' x => t'.parseFrame (cfg v) x.1 x.2) LTag.empty⟩

/-- A file "b/a" of a megabyte with such a tag, if any. -/
def factsWith (t : Option Tag2) : Facts := ⟨[98], [97], 1048576, t, 9, [0xd4, 0x1d], none⟩

/-- A single file "a". -/
def envWith (t : Option Tag2) : Env := ⟨plainTexts, fun _ => .ok (factsWith t), fun _ => .file⟩

theorem cfg_texts84 (v : Ver) : ∀ id, (cfg v).textParser id = true → id.head? = some 84 := by
  intro id h
  have key : ∀ v, (textTable v).all (fun x => x.head? = some 84) = true := by intro v; cases v <;> decide
  have h' : id ∈ textTable v := by simpa [cfg] using h
  simpa using List.all_eq_true.1 (key v) id h'

/-- An ID3v2.3 tag with the title "x,y" and the comment "k". -/
def commaTag : Tag2 := tagOfFrames .v3 [([84, 73, 84, 50], [0, 120, 44, 121]), ([67, 79, 77, 77], [107])]

example : Covers (envWith (some commaTag)) [[97]] [[97]] ∧ Printable (QuoteSafe 44) PlainPath plainTexts (factsWith (some commaTag)) := by
  refine ⟨.file _ _ _ rfl .nil, ⟨⟨by decide, by decide⟩, ⟨by decide, by decide⟩, ?_, by intro t h; cases h⟩⟩
  intro t ht
  cases ht
  have hc : contents commaTag.tag = [⟨[84, 73, 84, 50], .text, [0, 120, 44, 121]⟩, ⟨[67, 79, 77, 77], .com, [107]⟩] := by decide +kernel
  refine ⟨⟨⟨_, rfl⟩, cfg_texts84 .v3⟩, ?_, ?_, ?_⟩
  · rw [hc]
    intro x hx hid
    rcases List.mem_cons.1 hx with rfl | hx
    · exact ⟨by decide, _, rfl, Or.inl (by decide)⟩
    · rw [List.mem_singleton] at hx
      subst hx
      exact absurd hid (by decide)
  · rw [hc]
    intro x hx hid
    rcases List.mem_cons.1 hx with rfl | hx
    · exact absurd hid (by decide)
    · rw [List.mem_singleton] at hx
      subst hx
      exact ⟨_, rfl, Or.inl (by decide)⟩
  · rw [hc]
    intro x hx
    exact absurd hx (by simp [withId, commaTag, tagOfFrames, cfg, Cfg.cntId])

/-- The exit status of a run, and how many columns the rows of the report have. -/
def reportShape (q : Bool) (sep : Byte) : Res Done → Option (Nat × List Nat)
  | .ok ⟨st, _, some doc⟩ => some (st, (records q sep doc).map (·.length))
  | _ => none

theorem of_reportShape {q : Bool} {sep : Byte} {r : Res Done} {st : Nat} {l : List Nat} (h : reportShape q sep r = some (st, l)) :
    ∃ done doc, r = .ok done ∧ done.status = st ∧ done.file = some doc ∧ (records q sep doc).map (·.length) = l := by
  match r, h with
  | .ok ⟨st', sm, some doc⟩, h =>
    simp only [reportShape, Option.some.injEq, Prod.mk.injEq] at h
    exact ⟨_, doc, rfl, h.1, rfl, h.2⟩
  | .ok ⟨st', sm, none⟩, h => cases h
  | .throw e, h => cases h
  | .ub u, h => cases h

theorem not_rectangular {tsv : Bool} {E : Env} {o : Opts} {ps : List Path} {a b : Nat} {l : List Nat} (ht : o.tsv = tsv)
    (h : reportShape (!tsv) o.fmt.sep (report E o .fine ps) = some (0, a :: b :: l)) (hab : a ≠ b) : ¬ RectangularClaim tsv := by
  intro hc
  obtain ⟨done, doc, h1, h2, h3, h4⟩ := of_reportShape h
  obtain ⟨doc', cols, rows, h5, h6, h7⟩ := hc E o ps done ht h1 h2
  rw [h3] at h5
  cases h5
  rw [h6] at h4
  cases rows with
  | nil => simp at h4
  | cons r rows =>
    have := h7 r (List.mem_cons_self ..)
    simp only [List.map_cons, List.cons.injEq] at h4
    omega

/-- **Finding** With `--num-comments=0` the row of a file with an ID3v2 tag has one column more than there are names. -/
theorem C96_refuted : ¬ C96_claim :=
  not_rectangular (E := envWith (some (tagOfFrames .v3 []))) (o := { ncomm := 0 }) (ps := [[97]]) (a := 28) (b := 29) (l := []) rfl (by decide +kernel) (by decide)

/-- **Finding** A title that begins with a quote takes the columns after it along: in the report of one file with the title `"`, the
row has 10 columns instead of 34. -/
theorem C96_refuted_quote : ¬ C96_claim :=
  not_rectangular (E := envWith (some (tagOfFrames .v3 [([84, 73, 84, 50], [0, 34])]))) (o := {}) (ps := [[97]]) (a := 34) (b := 10) (l := []) rfl
    (by decide +kernel) (by decide)

end Scribbu.Props
