import Verif.Proofs.ReportGrow
import Verif.Props.Report

/-! C97 to C102: counts, failures, paths, tab-separated values, files and the output of `report`. -/

namespace Scribbu.Props
open Scribbu Report Spec LTag Lookup

/-! ## Counts -/

theorem CountCells.mono {N N' : Nat → Bytes → Prop} (h : ∀ n b, N n b → N' n b) {c : Cfg} {l : List Spec.Item} {how what : Bytes}
    (k : CountCells N c l how what) : CountCells N' c l how what := by
  unfold CountCells at k ⊢
  refine ⟨h _ _ k.1, ?_⟩
  have k2 := k.2
  cases hl : withId c.cntId l with
  | nil => rw [hl] at k2; exact k2
  | cons x m =>
    rw [hl] at k2
    cases m with
    | nil => exact h _ _ k2
    | cons y m => exact k2

theorem RowIs.mono {T : Ver → List Bytes} {P : Path → Bytes → Prop} {N N' : Nat → Bytes → Prop} (h : ∀ n b, N n b → N' n b) {X : Texts} {o : Opts} {f : Facts}
    {row : List Bytes} (k : RowIs T P N X o f row) : RowIs T P N' X o f row := by
  obtain ⟨dir, name, mb, tag2, size, md5, tag1, h1, h2, h3, h4, h5, h6, h7, h8⟩ := k.split
  refine ⟨⟨dir, name, mb, tag2, size, md5, tag1, h1, h2, h3, h4, ?_, h6, h7, h8⟩⟩
  cases hv : f.v2 with
  | none => rw [hv] at h5; exact h5
  | some t =>
    rw [hv] at h5
    obtain ⟨ver, rev, sz, flags, unsync, texts, how, what, many, comments, g1, g2, g3, g4, g5, g6, g7, g8, g9, g10⟩ := h5.split
    exact ⟨⟨ver, rev, sz, flags, unsync, texts, how, what, many, comments, g1, g2, g3, g4, g5, g6, g7, CountCells.mono h g8, h _ _ g9, g10⟩⟩

theorem Shown.mono {E : Env} {R R' : Facts → List Bytes → Prop} (h : ∀ f r, R f r → R' f r) {ps : List Path} {rows : List (List Bytes)}
    (k : Shown E R ps rows) : Shown E R' ps rows := by
  induction k with
  | nil => exact .nil
  | failed p ps rows e he _ ih => exact .failed p ps rows e he ih
  | row p ps rows f r hf hr _ ih => exact .row p ps rows f r hf (h f r hr) ih

theorem hexDigit_dec {c : Byte} {n : Nat} (h : HexFigure c n) : (48 ≤ c ∧ c ≤ 57 ↔ n < 10) ∧ (n < 10 → c.toNat - 48 = n) := by
  obtain ⟨h1, rfl⟩ := h
  have : ∀ n < 16, ((48 ≤ UInt8.ofNat (if n < 10 then 48 + n else 87 + n) ∧ UInt8.ofNat (if n < 10 then 48 + n else 87 + n) ≤ 57) ↔ n < 10) ∧
      (n < 10 → (UInt8.ofNat (if n < 10 then 48 + n else 87 + n)).toNat - 48 = n) := by decide
  exact this n h1

/-- Digits are below ten, so a number above nine is never its own number in base sixteen. -/
theorem hex_dec {b : Bytes} {n : Nat} (h : Hexadecimal b n) : (∀ c ∈ b, 48 ≤ c ∧ c ≤ 57) → decVal b ≤ n ∧ (decVal b = n ↔ n < 10) := by
  induction h with
  | one c n hc =>
    intro hd
    have h1 := hexDigit_dec hc
    have h2 := h1.1.1 (hd c (List.mem_cons_self ..))
    have h3 : decVal [c] = n := by
      have := decVal_append [] c
      simp only [List.nil_append] at this
      rw [this, h1.2 h2]; simp [decVal]
    omega
  | more b m c n hb hc ih =>
    intro hd
    have h1 := hexDigit_dec hc
    have h2 := h1.1.1 (hd c (by simp))
    have h3 := ih fun x hx => hd x (by simp [hx])
    have h4 := h1.2 h2
    rw [decVal_append, h4]
    constructor
    · omega
    · constructor
      · intro e
        have : m = 0 := by omega
        omega
      · intro e
        have : m = 0 := by omega
        subst this
        have := h3.1
        omega

/-- C97, in full: counts are numbers in base ten. -/
def C97_claim : Prop :=
  ∀ (E : Env) (o : Opts), o.tsv = false → 0 < o.ncomm → ∀ (ps qs : List Path), Covers E ps qs →
    (∀ p ∈ qs, (∃ e, E.read p = .throw e) ∨ ∃ f, E.read p = .ok f ∧ Printable (QuoteSafe 44) PlainPath E.texts f) →
    ∃ done doc cols rows, report E o .fine ps = .ok done ∧ done.file = some doc ∧ records true 44 doc = cols :: rows ∧
      Shown E (RowIs askedIds (fun p v => v = p) (fun n b => Spec.Decimal b n) E.texts o) qs rows

/-- C97, as far as it holds: counts up to nine are. -/
theorem C97_partial {E : Env} {o : Opts} (ht : o.tsv = false) (hk : 0 < o.ncomm) {ps qs : List Path} (hc : Covers E ps qs)
    (h : ∀ p ∈ qs, (∃ e, E.read p = .throw e) ∨ ∃ f, E.read p = .ok f ∧ Printable (QuoteSafe 44) PlainPath E.texts f) :
    ∃ done doc cols rows, report E o .fine ps = .ok done ∧ done.file = some doc ∧ records true 44 doc = cols :: rows ∧
      Shown E (RowIs askedIds (fun p v => v = p) (fun n b => n < 10 → Spec.Decimal b n) E.texts o) qs rows := by
  obtain ⟨rows, doc, h1, h2, h3, -⟩ := C96_partial ht hk hc h
  refine ⟨_, doc, _, rows, h1, rfl, h2, Shown.mono (fun f r => RowIs.mono ?_) h3⟩
  intro n b hb hn
  have hdig : ∀ c ∈ b, 48 ≤ c ∧ c ≤ 57 := by
    clear h h1 h2 h3 hc
    induction hb with
    | one c n hc =>
      intro x hx
      rw [List.mem_singleton] at hx
      subst hx
      exact (hexDigit_dec hc).1.2 hn
    | more b m c n hb hc ih =>
      have hm : m = 0 := by omega
      intro x hx
      rcases List.mem_append.1 hx with hx | hx
      · exact ih (by omega) x hx
      · rw [List.mem_singleton] at hx
        subst hx
        exact (hexDigit_dec hc).1.2 (by omega)
  refine ⟨?_, hdig, ((hex_dec hb hdig).2.2 hn)⟩
  cases hb <;> simp

/-- These are all: a count above nine is never shown in base ten. -/
theorem C97_exact {b : Bytes} {n : Nat} (h : Hexadecimal b n) : Spec.Decimal b n ↔ n < 10 ∧ ∀ c ∈ b, 48 ≤ c ∧ c ≤ 57 := by
  constructor
  · rintro ⟨-, h2, h3⟩; exact ⟨(hex_dec h h2).2.1 h3, h2⟩
  · rintro ⟨h1, h2⟩
    refine ⟨?_, h2, (hex_dec h h2).2.2 h1⟩
    cases h <;> simp

/-- The cell for the play count, if there is one counter. -/
theorem RowIs.count {T : Ver → List Bytes} {P : Path → Bytes → Prop} {N : Nat → Bytes → Prop} {X : Texts} {o : Opts} {f : Facts} {row : List Bytes} (k : RowIs T P N X o f row)
    (hd : o.noDir = false) {t : Tag2} (ht : f.v2 = some t) {x : Spec.Item} (hx : withId t.cfg.cntId (contents t.tag) = [x]) :
    ∃ what, row[16]? = some what ∧ N (beNat x.data) what := by
  obtain ⟨dir, name, mb, tag2, size, md5, tag1, rfl, h2, h3, h4, h5, h6, h7, h8⟩ := k.split
  rw [if_neg (by simp [hd])] at h2
  obtain ⟨d, rfl, -⟩ := h2
  rw [ht] at h5
  obtain ⟨ver, rev, sz, flags, unsync, texts, how, what, many, comments, rfl, g2, g3, g4, g5, g6, ⟨g7, -⟩, g8, g9, g10⟩ := h5.split
  unfold CountCells at g8
  rw [hx] at g8
  refine ⟨what, ?_, g8.2⟩
  match texts, g7 with
  | [a, b, c, d, e, f, g], _ => simp

/-- A tag with nothing but a play counter at sixteen. -/
def playedTag : Tag2 := tagOfFrames .v3 [([80, 67, 78, 84], [0, 0, 0, 16])]

theorem played_printable (ok : Bytes → Prop) : Printable2 ok plainTexts playedTag := by
  have hc : contents playedTag.tag = [⟨[80, 67, 78, 84], .cnt, [0, 0, 0, 16]⟩] := by decide +kernel
  refine ⟨⟨⟨_, rfl⟩, cfg_texts84 .v3⟩, ?_, ?_, ?_⟩ <;> rw [hc]
  · intro x hx hid
    rw [List.mem_singleton] at hx
    subst hx
    exact absurd hid (by decide)
  · intro x hx hid
    rw [List.mem_singleton] at hx
    subst hx
    exact absurd hid (by decide)
  · intro x hx
    have : withId playedTag.cfg.cntId [⟨[80, 67, 78, 84], .cnt, [0, 0, 0, 16]⟩] = [⟨[80, 67, 78, 84], .cnt, [0, 0, 0, 16]⟩] := by decide
    rw [this] at hx
    cases hx
    exact ⟨by decide, by decide, by decide⟩

/-- The seventeenth cell of the second row. -/
def cell16 : Res Done → Option Bytes
  | .ok ⟨_, _, some doc⟩ => match (records true 44 doc)[1]? with
    | some r => r[16]?
    | none => none
  | _ => none

/-- **Finding** Counts are in base sixteen, as the flags before them are: a play count of sixteen is shown as 10. -/
theorem C97_refuted : ¬ C97_claim := by
  intro h
  have hp : Printable (QuoteSafe 44) PlainPath plainTexts (factsWith (some playedTag)) :=
    ⟨⟨by decide, by decide⟩, ⟨by decide, by decide⟩, fun t ht => by cases ht; exact played_printable _, fun t ht => by cases ht⟩
  obtain ⟨done, doc, cols, rows, h1, h2, h3, h4⟩ := h (envWith (some playedTag)) {} rfl (by decide) [[97]] [[97]] (.file _ _ _ rfl .nil)
    (fun p _ => .inr ⟨_, rfl, hp⟩)
  have e : cell16 (report (envWith (some playedTag)) {} .fine [[97]]) = some [49, 48] := by decide +kernel
  obtain ⟨st, sm, fl⟩ := done
  cases h2
  rw [h1] at e
  simp only [cell16, h3] at e
  cases h4 with
  | failed p ps rows e he _ => cases he
  | row p ps rows f r hf hr _ =>
    cases hf
    obtain ⟨what, hw, hd⟩ := RowIs.count (x := ⟨[80, 67, 78, 84], .cnt, [0, 0, 0, 16]⟩) hr rfl (t := playedTag) rfl (by decide +kernel)
    simp only [List.getElem?_cons_succ, List.getElem?_cons_zero] at e
    rw [hw] at e
    cases e
    exact absurd hd.2.2 (by decide)

/-! ## Files that fail -/

/-- C98, in full: a file that is counted as an error leaves nothing in the report. -/
def C98_claim : Prop :=
  ∀ (E : Env) (o : Opts) (p : Path) (s s' : St), oneFile E o p s = .ok s' → s'.err = s.err + 1 → s'.os.out = s.os.out

/-- C98, as far as it holds: if it could not be read. -/
theorem C98_partial {E : Env} {o : Opts} {p : Path} {s : St} {e : Exc} (h : E.read p = .throw e) :
    oneFile E o p s = .ok { s with err := s.err + 1 } := by
  unfold oneFile
  rw [h]

/-- The other way round: a file that was read leaves its name in the report whatever becomes of it; so of the files counted as errors,
those leave nothing that could not be read. -/
theorem C98_exact {E : Env} {o : Opts} {p : Path} {s s' : St} (h : oneFile E o p s = .ok s') (he : s'.err = s.err + 1) :
    s'.os.out = s.os.out ↔ ∃ e, E.read p = .throw e := by
  constructor
  · intro hs
    cases hr : E.read p with
    | throw e => exact ⟨e, rfl⟩
    | ub u => unfold oneFile at h; simp [hr] at h
    | ok f =>
      exfalso
      unfold oneFile at h
      simp only [hr] at h
      obtain ⟨pre, post, e⟩ := row_name E.texts o f s.os
      have hlen : s.os.out.length < (putRow E.texts o f s.os).1.out.length := by
        rw [e]; simp only [List.length_append, quoted, List.length_cons]; omega
      split at h
      · cases h; simp at he
      · rename_i os _ hos
        cases h
        rw [hos] at hlen
        simp only at hs hlen
        rw [hs] at hlen
        omega
      · cases h
  · rintro ⟨e, hr⟩
    rw [C98_partial hr] at h
    cases h
    rfl

/-- Two files: the title of the first cannot be converted. -/
def twoFiles : Env :=
  ⟨⟨fun _ d => if d = [] then .throw .runtimeError else .ok d, fun _ d => .ok d⟩,
    fun p => .ok (factsWith (if p = [97] then some (tagOfFrames .v3 [([84, 73, 84, 50], [])]) else none)), fun _ => .file⟩

/-- **Finding** A file whose title cannot be converted is counted as an error; what there was of its row stays in the report, and the row
of the next file is put right behind it, on the same line. -/
theorem C98_refuted : ¬ C98_claim := by
  intro h
  have e : ∃ s', oneFile twoFiles {} [97] ⟨⟨[], false⟩, 0, 0⟩ = .ok s' ∧ s'.err = 1 ∧ s'.os.out ≠ [] := by
    cases hr : oneFile twoFiles {} [97] ⟨⟨[], false⟩, 0, 0⟩ with
    | ok s' =>
      have : (match oneFile twoFiles {} [97] ⟨⟨[], false⟩, 0, 0⟩ with | .ok s' => decide (s'.err = 1 ∧ s'.os.out ≠ []) | _ => false) = true := by decide +kernel
      rw [hr] at this
      exact ⟨s', rfl, by simpa using this⟩
    | throw e =>
      have : (match oneFile twoFiles {} [97] ⟨⟨[], false⟩, 0, 0⟩ with | .ok _ => true | _ => false) = true := by decide +kernel
      rw [hr] at this; cases this
    | ub u =>
      have : (match oneFile twoFiles {} [97] ⟨⟨[], false⟩, 0, 0⟩ with | .ok _ => true | _ => false) = true := by decide +kernel
      rw [hr] at this; cases this
  obtain ⟨s', h1, h2, h3⟩ := e
  exact h3 (h twoFiles {} [97] _ s' h1 h2)

/-- **Finding** The report of the two files has one row besides the names of the columns, with 43 columns instead of 34. -/
theorem C98_refuted_glued : reportShape true 44 (report twoFiles {} .fine [[97], [98]]) = some (1, [34, 43]) := by decide +kernel

/-- **Finding** No file with an ID3v2.4 tag that has exactly one play counter gets a row: asking the tag for its play count throws. -/
theorem C98_refuted_v4 {X : Texts} {F : Fmt} {k : Nat} {t : Tag2} (hr : ReadTag2 t) (hv : t.cfg.ver = .v4)
    (hids : ∀ x ∈ contents t.tag, 0 ∉ x.id) (hc : ∃ x, withId t.cfg.cntId (contents t.tag) = [x]) (s : OS) :
    (putTag2 X F k t s).2 ≠ .ok () := by
  obtain ⟨⟨l, hl⟩, hs⟩ := hr
  have hk : Known t.cfg t.tag := by rw [hl]; exact known_read hs l
  obtain ⟨x, hx⟩ := hc
  intro hok
  unfold putTag2 at hok
  obtain ⟨s1, h1⟩ := all_ok hok (putCount F t) (by simp)
  unfold putCount at h1
  simp only [has_known hk, hx, List.length_cons, List.length_nil, Nat.zero_add, if_true] at h1
  obtain ⟨s2, h2⟩ := all_ok h1 _ (List.mem_cons_of_mem _ (List.mem_cons_of_mem _ (List.mem_cons_self ..)))
  have hp : t.tag.playCount t.cfg = .throw .logicError := by
    unfold LTag.playCount
    have h0 : t.tag.hasFrame t.cfg.hasCntId = 0 := by
      rw [has_known hk, List.length_eq_zero_iff, withId, List.filter_eq_nil_iff]
      intro y hy
      have := hids y hy
      have h3 : t.cfg.hasCntId = [67, 78, 84, 0] := by simp [Cfg.hasCntId, hv]
      rw [h3]
      simp only [decide_eq_true_eq]
      intro e
      rw [e] at this
      simp at this
    rw [h0]; rfl
  rw [hp] at h2
  cases h2

example : let t := tagOfFrames .v4 [([80, 67, 78, 84], [0, 0, 0, 16])]
    ReadTag2 t ∧ (∀ x ∈ contents t.tag, 0 ∉ x.id) ∧ ∃ x, withId t.cfg.cntId (contents t.tag) = [x] := by
  refine ⟨⟨⟨_, rfl⟩, cfg_texts84 .v4⟩, by decide +kernel, ⟨[80, 67, 78, 84], .cnt, [0, 0, 0, 16]⟩, by decide +kernel⟩

/-! ## Paths -/

/-- C99, in full: the first cells of a row are the directory and the name of the file. -/
def C99_claim : Prop :=
  ∀ (X : Texts) (o : Opts) (f : Facts), o.noDir = false → f.v2 = none → f.v1 = none →
    ∃ row, records (!o.tsv) o.fmt.sep (putRow X o f ⟨[], false⟩).1.out = [f.parent :: f.name :: row]

/-- C99, as far as it holds: in comma-separated values, of paths without quotes and backslashes. -/
theorem C99_partial {X : Texts} {o : Opts} {f : Facts} (ht : o.tsv = false) (hd : o.noDir = false) (hk : 0 < o.ncomm)
    (hp : Printable (QuoteSafe 44) PlainPath X f) :
    ∃ row, records true 44 (putRow X o f ⟨[], false⟩).1.out = [f.parent :: f.name :: row] := by
  have hfmt : o.fmt = csvFmt := by simp [Opts.fmt, ht]
  obtain ⟨raws, vals, h', w, c, hne, hr, -⟩ := row_written (q := true) (o := o) (P := fun p v => v = p) (by rw [hfmt]; exact format_csv)
    (by rw [hfmt]; exact fun p hp => path_csv hp) hp hk false
  have hw := w []
  rw [hw]
  rw [hfmt] at c
  have := cells_read c [] [] hne
  rw [List.nil_append, hfmt]
  unfold records
  rw [show csvFmt.sep = 44 from rfl] at this ⊢
  rw [this]
  obtain ⟨dir, name, mb, tag2, size, md5, tag1, rfl, h2, rfl, -⟩ := hr.split
  rw [if_neg (by simp [hd])] at h2
  obtain ⟨d, rfl, rfl⟩ := h2
  exact ⟨mb :: (tag2 ++ [size, md5] ++ tag1), by simp [take]⟩

/-- The row of a file. -/
def rowOf (o : Opts) (parent name : Path) : List (List Bytes) :=
  (records (!o.tsv) o.fmt.sep (putRow plainTexts o ⟨parent, name, 0, none, 0, [], none⟩ ⟨[], false⟩).1.out).map (List.take 2)

/-- **Finding** A quote or a backslash in a path gets a backslash before it, which means nothing to readers of comma-separated values: the
name `a\b` is read as `a\\b`. -/
theorem C99_refuted : ¬ C99_claim := by
  intro h
  obtain ⟨row, e⟩ := h plainTexts {} ⟨[100], [97, 92, 98], 0, none, 0, [], none⟩ rfl rfl rfl
  have e' : rowOf {} [100] [97, 92, 98] = [[[100], [97, 92, 92, 98]]] := by decide +kernel
  unfold rowOf at e'
  rw [e] at e'
  simp at e'

/-- **Finding** A quote in the name of a file breaks the row apart: `a",b` is read as `a\` and more. -/
theorem C99_refuted_quote : rowOf { noDir := true } [100] [97, 34, 44, 98] = [[[97, 92], [98, 34]]] := by decide +kernel

/-- **Finding** In tab-separated values every path is wrapped in quotes, which nothing else is: `d` is read as `"d"`. -/
theorem C99_refuted_tsv : ¬ C99_claim := by
  intro h
  obtain ⟨row, e⟩ := h plainTexts { tsv := true } ⟨[100], [97], 0, none, 0, [], none⟩ rfl rfl rfl
  have e' : rowOf { tsv := true } [100] [97] = [[[34, 100, 34], [34, 97, 34]]] := by decide +kernel
  unfold rowOf at e'
  rw [e] at e'
  simp at e'

/-! ## Tab-separated values -/

/-- C100, in full: as C96, for `--tsv`. -/
def C100_claim : Prop := RectangularClaim true

theorem path_tdf {sep : Byte} (hs : Sep sep) {p : Path} (h : PlainPath p ∧ Unseparated sep p) :
    ∃ v, Cell false sep (quoted p) v ∧ v = 34 :: (p ++ [34]) := by
  refine ⟨_, ?_, rfl⟩
  rw [quoted_plain h.1]
  refine cell_plain hs.ne10 ?_ ?_ (by simp)
  · simp only [List.mem_cons, List.mem_append, List.not_mem_nil, or_false, not_or]
    exact ⟨hs.ne34, h.2.1, hs.ne34⟩
  · simp only [List.mem_cons, List.mem_append, List.not_mem_nil, or_false, not_or]
    exact ⟨by decide, h.2.2, by decide⟩

/-- C100, as far as it holds: with at least one column for comments, texts and paths without separators and line feeds (and paths without
quotes and backslashes), the report is read as the names of the columns and one row for each file that could be read, with as many
columns, which say what was read; paths are in quotes. -/
theorem C100_partial {E : Env} {o : Opts} {sep : Byte} (ht : o.tsv = true) (hsep : sep = if o.ascii then 31 else 9) (hk : 0 < o.ncomm)
    {ps qs : List Path} (hc : Covers E ps qs) (h : ∀ p ∈ qs, (∃ e, E.read p = .throw e) ∨
      ∃ f, E.read p = .ok f ∧ Printable (Unseparated sep) (fun p => PlainPath p ∧ Unseparated sep p) E.texts f) :
    ∃ rows doc, report E o .fine ps = .ok ⟨if rows.length = qs.length then 0 else 1,
        if o.noSummary then none else some (rows.length, qs.length - rows.length), some doc⟩ ∧
      records false sep doc = columns o :: rows ∧
      Shown E (RowIs askedIds (fun p v => v = 34 :: (p ++ [34])) (fun n b => Hexadecimal b n) E.texts o) qs rows ∧
      ∀ r ∈ rows, r.length = (columns o).length := by
  have hfmt : o.fmt = tdfFmt o.ascii := by simp [Opts.fmt, ht]
  have hs : (tdfFmt o.ascii).sep = sep := by subst hsep; rfl
  have hF := format_tdf o.ascii
  obtain ⟨recs, doc, h1, h2, -, h3, h4⟩ := report_reads (q := false) (P := fun p v => v = 34 :: (p ++ [34])) (by rw [hfmt]; exact hF)
    (path := fun p => PlainPath p ∧ Unseparated sep p) (by rw [hfmt, hs]; exact fun p hp => path_tdf (hs ▸ hF.sep) hp) hk hc (by rw [hs]; exact h)
  rw [funext textIds_asked] at h3
  refine ⟨recs, doc, h1 .fine, ?_, h3, h4⟩
  rw [hfmt, hs] at h2
  exact h2

example : Covers (envWith (some playedTag)) [[97]] [[97]] ∧
    Printable (Unseparated 9) (fun p => PlainPath p ∧ Unseparated 9 p) plainTexts (factsWith (some playedTag)) :=
  ⟨.file _ _ _ rfl .nil, ⟨⟨⟨by decide, by decide⟩, ⟨by decide, by decide⟩⟩, ⟨⟨by decide, by decide⟩, ⟨by decide, by decide⟩⟩,
    fun t ht => by cases ht; exact played_printable _, fun t ht => by cases ht⟩⟩

/-- **Finding** Nothing is done about tabs in texts: a title with a tab makes two columns of one. -/
theorem C100_refuted : ¬ C100_claim :=
  not_rectangular (E := envWith (some (tagOfFrames .v3 [([84, 73, 84, 50], [0, 120, 9, 121])]))) (o := { tsv := true }) (ps := [[97]])
    (a := 34) (b := 35) (l := []) rfl (by decide +kernel) (by decide)

/-- **Finding** With `--ascii-delimited`, rows still end with line feeds, and a title with a line feed makes two rows of one. -/
theorem C100_refuted_ascii : ¬ C100_claim :=
  not_rectangular (E := envWith (some (tagOfFrames .v3 [([84, 73, 84, 50], [0, 120, 10, 121])]))) (o := { tsv := true, ascii := true }) (ps := [[97]])
    (a := 34) (b := 10) (l := [25]) rfl (by decide +kernel) (by decide)

/-! ## Files -/

/-- C101, in full: every file named that can be read has its name in the report. -/
def C101_claim : Prop :=
  ∀ (E : Env) (o : Opts) (ps : List Path) (done : Done), report E o .fine ps = .ok done →
    ∀ p ∈ ps, E.item p = .file → ∀ f, E.read p = .ok f → ∃ doc, done.file = some doc ∧ quoted f.name <:+: doc

/-- C101, as far as it holds: if every argument exists and every directory can be read, then every file named, and every regular file in
a directory whose name ends in ".mp3", is counted once, as done or as an error; the exit status is zero if there was no error; and each
that can be read has its name in the report. -/
theorem C101_partial {E : Env} {o : Opts} {ps qs : List Path} (hc : Covers E ps qs) {done : Done} (h : report E o .fine ps = .ok done) :
    (∃ a b doc, a + b = qs.length ∧ done = ⟨if b = 0 then 0 else 1, if o.noSummary then none else some (a, b), some doc⟩) ∧
    ∀ q ∈ qs, ∀ f, E.read q = .ok f → ∃ doc, done.file = some doc ∧ quoted f.name <:+: doc := by
  unfold report at h
  rw [args_files o hc] at h
  obtain ⟨⟨s, x⟩, h1, h2⟩ := bind_ok h
  obtain ⟨s', h3, h4⟩ := bind_ok h1
  cases h4
  simp only [Res.ok.injEq] at h2
  subst h2
  have h5 := files_counts h3
  have h6 := files_grows h3
  refine ⟨⟨s.ok, s.err, s.os.out, by simpa using h5, ?_⟩, fun q hq f hf => ⟨_, rfl, h6.2 q hq f hf⟩⟩
  by_cases e : s.err = 0
  · rw [if_neg (by simp [e]), if_pos e]; rfl
  · rw [if_pos e, if_neg e]; rfl

/-- A directory "d" with an MP3 file, another file and a directory in it. -/
def dirEnv : Env := ⟨plainTexts, fun _ => .ok (factsWith none), fun p => if p = [100] then
    .dir [⟨[100, 47, 97, 46, 109, 112, 51], true⟩, ⟨[100, 47, 98], true⟩, ⟨[100, 47, 99, 46, 109, 112, 51], false⟩] false else .file⟩

example : Covers dirEnv [[97], [100]] [[97], [100, 47, 97, 46, 109, 112, 51]] := by
  have h := Covers.dir (E := dirEnv) [100] [] [] _ rfl .nil
  have e : (([⟨[100, 47, 97, 46, 109, 112, 51], true⟩, ⟨[100, 47, 98], true⟩, ⟨[100, 47, 99, 46, 109, 112, 51], false⟩] : List Entry).filter
      fun e => e.regular = true ∧ [46, 109, 112, 51] <:+ e.path).map (·.path) ++ [] = [[100, 47, 97, 46, 109, 112, 51]] := by decide
  rw [e] at h
  exact .file _ _ _ (by decide) h

/-- The exit status can be relied on: if it is zero, all arguments exist, all directories could be read, and every file could be read and
printed. -/
theorem C101_zero {E : Env} {o : Opts} {ps : List Path} {done : Done} (h : report E o .fine ps = .ok done) (h0 : done.status = 0) :
    ∃ qs, Covers E ps qs ∧ (o.noSummary = false → done.summary = some (qs.length, 0)) ∧
      ∀ q ∈ qs, ∃ f, E.read q = .ok f ∧ ∃ os os', putRow E.texts o f os = (os', .ok ()) := by
  have h' := h
  unfold report at h
  obtain ⟨⟨s, x⟩, h1, h2⟩ := bind_ok h
  cases x with
  | some e => simp only [Res.ok.injEq] at h2; subst h2; cases h0
  | none =>
    simp only [Res.ok.injEq] at h2
    subst h2
    obtain ⟨qs, hq⟩ := args_covers h1
    have he : s.err = 0 := by
      refine Classical.byContradiction fun e => ?_
      rw [if_pos e] at h0; cases h0
    rw [args_files o hq] at h1
    obtain ⟨s', h3, h4⟩ := bind_ok h1
    cases h4
    have h5 := files_counts h3
    refine ⟨qs, hq, fun hn => ?_, (files_clean h3).2 he⟩
    have : s.ok = qs.length := by simp only [he] at h5; omega
    simp [hn, he, this]

/-- **Finding** An argument that does not exist ends the run: files named after it are left out, although they could be read. -/
theorem C101_refuted : ¬ C101_claim := by
  intro h
  let E : Env := ⟨plainTexts, fun _ => .ok (factsWith none), fun p => if p = [120] then .absent else .file⟩
  obtain ⟨doc, h1, h2⟩ := h E {} [[120], [97]] ⟨1, none, some (header {})⟩ rfl [97] (by simp) (by decide) _ rfl
  cases h1
  have : ¬ (quoted (factsWith none).name) <:+: header {} := by
    intro hi
    have h3 : (34 : Byte) ∈ header {} := hi.mem (by decide)
    revert h3
    decide +kernel
  exact this h2

/-! ## The output -/

/-- C102, in full: exit status zero means that the report is there. -/
def C102_claim : Prop :=
  ∀ (E : Env) (o : Opts) (d : Dest) (ps : List Path) (done : Done), report E o d ps = .ok done → done.status = 0 →
    report E o .fine ps = .ok done

/-- C102, as far as it holds: it is, if the output can be opened and has room for it. The exit status and the summary have nothing to do
with that. -/
theorem C102_partial {E : Env} {o : Opts} {ps : List Path} {st : Nat} {sm : Option (Nat × Nat)} {doc : Bytes}
    (h : report E o .fine ps = .ok ⟨st, sm, some doc⟩) :
    report E o .closed ps = .ok ⟨st, sm, none⟩ ∧ ∀ n, report E o (.full n) ps = .ok ⟨st, sm, some (doc.take n)⟩ ∧
      (doc.length ≤ n → report E o (.full n) ps = report E o .fine ps) := by
  have key : ∀ d : Dest, report E o d ps = .ok ⟨st, sm, d.file doc⟩ := by
    intro d
    unfold report at h ⊢
    obtain ⟨⟨s, x⟩, h1, h2⟩ := bind_ok h
    rw [h1]
    cases x with
    | some e => simp only [Res.ok_bind, Res.ok.injEq, Done.mk.injEq, Dest.file, Option.some.injEq] at h2 ⊢; obtain ⟨rfl, rfl, rfl⟩ := h2; simp
    | none => simp only [Res.ok_bind, Res.ok.injEq, Done.mk.injEq, Dest.file, Option.some.injEq] at h2 ⊢; obtain ⟨rfl, rfl, rfl⟩ := h2; simp
  refine ⟨key .closed, fun n => ⟨key (.full n), fun hn => ?_⟩⟩
  rw [key (.full n), h]
  simp [Dest.file, List.take_of_length_le hn]

/-- **Finding** Nothing is noticed of an output file that cannot be opened: the files are gone through, the summary says that all is well,
the exit status is zero, and there is no report. -/
theorem C102_refuted : ¬ C102_claim := by
  intro h
  have := h (envWith none) {} .closed [] ⟨0, some (0, 0), none⟩ rfl rfl
  exact absurd this (by simp [report, args, Dest.file])

/-- **Finding** Nor of a disk that is full. -/
theorem C102_refuted_full : ¬ C102_claim := by
  intro h
  have := h (envWith none) {} (.full 3) [] ⟨0, some (0, 0), some [100, 105, 114]⟩ (by decide +kernel) rfl
  exact absurd this (by decide +kernel)

/-! ## Years -/

/-- C103, in full: the texts are in the columns named for them. -/
def C103_claim : Prop :=
  ∀ (X : Texts) (t : Tag2) (k : Nat), 0 < k → Printable2 (QuoteSafe 44) X t →
    ∃ raws vals, Writes (Pr.all [putTag2 X csvFmt k t, Pr.put [44]]) false raws true ∧ records true 44 (raws ++ [10]) = [vals ++ [[]]] ∧
      Tag2Cells namedIds (fun n b => Hexadecimal b n) X k t vals

theorem tag2_read {X : Texts} {t : Tag2} {k : Nat} (hk : 0 < k) (hp : Printable2 (QuoteSafe 44) X t) :
    ∃ raws vals, Writes (Pr.all [putTag2 X csvFmt k t, Pr.put [44]]) false raws true ∧ records true 44 (raws ++ [10]) = [vals ++ [[]]] ∧
      Tag2Cells askedIds (fun n b => Hexadecimal b n) X k t vals := by
  obtain ⟨raws, vals, w, c, tc, -⟩ := tag2_written format_csv hp hk false
  rw [funext textIds_asked] at tc
  refine ⟨_, vals, w, ?_, tc⟩
  have hc : Cells true 44 (raws ++ [[]]) (vals ++ [[]]) := c.append (.one (cell_neutral (.inl rfl) (by intro c hc; cases hc)))
  have := cells_read hc [] [] (by simp)
  rw [sepBy_last] at this
  rw [show csvFmt.sep = 44 from rfl]
  unfold records
  simpa [take] using this

/-- C103, as far as it holds: of ID3v2.3 and ID3v2.4 tags. -/
theorem C103_partial {X : Texts} {t : Tag2} {k : Nat} (hk : 0 < k) (hp : Printable2 (QuoteSafe 44) X t) (hv : t.cfg.ver ≠ .v2) :
    ∃ raws vals, Writes (Pr.all [putTag2 X csvFmt k t, Pr.put [44]]) false raws true ∧ records true 44 (raws ++ [10]) = [vals ++ [[]]] ∧
      Tag2Cells namedIds (fun n b => Hexadecimal b n) X k t vals := by
  obtain ⟨raws, vals, w, r, tc⟩ := tag2_read hk hp
  refine ⟨raws, vals, w, r, ⟨?_⟩⟩
  have e : askedIds t.cfg.ver = namedIds t.cfg.ver := by
    cases h : t.cfg.ver with
    | v2 => exact absurd h hv
    | v3 => rfl
    | v4 => rfl
  have := tc.split
  rw [e] at this
  exact this

/-- An ID3v2.2 tag with a year (and nothing else), "7". -/
def yearTag : Tag2 := tagOfFrames .v2 [([84, 89, 69], [0, 55])]

/-- **Finding** For the year, ID3v2.2 tags are asked for a frame "TYR", which there is none of: the year is in "TYE". So the column is
empty, whatever the year is. -/
theorem C103_refuted : ¬ C103_claim := by
  intro h
  have hc : contents yearTag.tag = [⟨[84, 89, 69], .text, [0, 55]⟩] := by decide +kernel
  have hp : Printable2 (QuoteSafe 44) plainTexts yearTag := by
    refine ⟨⟨⟨_, rfl⟩, cfg_texts84 .v2⟩, ?_, ?_, ?_⟩ <;> rw [hc]
    · intro x hx hid
      rw [List.mem_singleton] at hx
      subst hx
      exact absurd hid (by decide)
    · intro x hx hid
      rw [List.mem_singleton] at hx
      subst hx
      exact absurd hid (by decide)
    · intro x hx
      exact absurd hx (by simp [withId, yearTag, tagOfFrames, cfg, Cfg.cntId])
  obtain ⟨raws, vals, w, r, tc⟩ := h plainTexts yearTag 1 (by decide) hp
  have e : (records true 44 ((Pr.all [putTag2 plainTexts csvFmt 1 yearTag, Pr.put [44]] ⟨[], false⟩).1.out ++ [10])).map (·[10]?) = [some []] := by
    decide +kernel
  have hw := w []
  rw [hw, List.nil_append] at e
  rw [r] at e
  obtain ⟨ver, rev, sz, flags, unsync, texts, how, what, many, comments, rfl, g2, g3, g4, g5, g6, ⟨g7, g8⟩, -⟩ := tc.split
  obtain ⟨s, h1, h2⟩ := g8 5 [84, 89, 69] rfl
  rw [hc] at h2
  match texts, g7 with
  | [a, b, c, d, e', f, g], _ =>
    simp only [List.getElem?_cons_succ, List.getElem?_cons_zero, Option.some.injEq] at h1
    subst h1
    simp only [List.map_cons, List.map_nil, List.cons_append, List.getElem?_cons_succ, List.getElem?_cons_zero, List.nil_append, List.cons.injEq,
      and_true, Option.some.injEq] at e
    subst e
    rcases h2 with ⟨h2, -⟩ | ⟨x, hx, h2⟩
    · exact absurd h2 (by decide)
    · have : x = ⟨[84, 89, 69], .text, [0, 55]⟩ := by simpa using (List.mem_filter.1 hx).1
      subst this
      cases h2

end Scribbu.Props
