import Verif.Proofs.ReportRow

/-! What a run of `report` writes. -/

namespace Scribbu
namespace Report
open Spec LTag Lookup

/-- Files, one after the other. -/
def files (E : Env) (o : Opts) : List Path → St → Res St
  | [], s => .ok s
  | p :: ps, s => (oneFile E o p s).bind (files E o ps)

theorem files_append (E : Env) (o : Opts) (a b : List Path) (s : St) : files E o (a ++ b) s = (files E o a s).bind (files E o b) := by
  induction a generalizing s with
  | nil => rfl
  | cons p a ih =>
    simp only [List.cons_append, files]
    cases h : oneFile E o p s with
    | ok s' => simp only [Res.ok_bind]; exact ih s'
    | throw e => rfl
    | ub u => rfl

theorem mp3Name_iff (p : Path) : mp3Name p = true ↔ [46, 109, 112, 51] <:+ p := by
  unfold mp3Name
  rw [decide_eq_true_iff]
  constructor
  · intro h
    have h1 : ([51, 112, 109, 46] : Bytes) <+: p.reverse := by rw [← h]; exact List.take_prefix ..
    have h2 := List.reverse_suffix.2 h1
    simpa using h2
  · intro h
    have h2 := List.reverse_prefix.2 h
    have h3 := List.prefix_iff_eq_take.1 h2
    simpa using h3.symm

theorem walk_files (E : Env) (o : Opts) : ∀ (es : List Entry) (s : St),
    walk E o es s = files E o ((es.filter fun e => e.regular = true ∧ [46, 109, 112, 51] <:+ e.path).map (·.path)) s := by
  intro es
  induction es with
  | nil => intro s; rfl
  | cons e es ih =>
    intro s
    unfold walk
    by_cases h : e.regular = true ∧ [46, 109, 112, 51] <:+ e.path
    · have h' : (e.regular && mp3Name e.path) = true := by simp [h.1, (mp3Name_iff _).2 h.2]
      rw [if_pos h', List.filter_cons_of_pos (by simpa using h), List.map_cons, files]
      congr 1; funext s'; exact ih s'
    · have h' : ¬ (e.regular && mp3Name e.path) = true := by
        intro h1
        simp only [Bool.and_eq_true] at h1
        exact h ⟨h1.1, (mp3Name_iff _).1 h1.2⟩
      rw [if_neg h', List.filter_cons_of_neg (by simpa using h)]
      exact ih s

theorem args_files {E : Env} (o : Opts) {ps qs : List Path} (h : Covers E ps qs) : ∀ s,
    args E o ps s = (files E o qs s).bind fun s' => .ok (s', none) := by
  induction h with
  | nil => intro s; rfl
  | file p ps qs hi _ ih =>
    intro s
    simp only [args, hi, files]
    cases h : oneFile E o p s with
    | ok s' => simp only [Res.ok_bind]; exact ih s'
    | throw e => rfl
    | ub u => rfl
  | dir p ps qs es hi _ ih =>
    intro s
    simp only [args, hi, files_append, walk_files]
    generalize (es.filter fun e => e.regular = true ∧ [46, 109, 112, 51] <:+ e.path).map (·.path) = l
    cases h : files E o l s with
    | ok s' => simp only [Res.ok_bind, Bool.false_eq_true, if_false]; exact ih s'
    | throw e => rfl
    | ub u => rfl

/-- Files are counted. -/
theorem oneFile_counts {E : Env} {o : Opts} {p : Path} {s s' : St} (h : oneFile E o p s = .ok s') : s'.ok + s'.err = s.ok + s.err + 1 := by
  unfold oneFile at h
  cases hr : E.read p with
  | throw e => simp only [hr, Res.ok.injEq] at h; subst h; simp; omega
  | ub u => simp [hr] at h
  | ok f =>
    simp only [hr] at h
    split at h
    · cases h; simp; omega
    · cases h; simp; omega
    · cases h

theorem files_counts {E : Env} {o : Opts} : ∀ {qs : List Path} {s s' : St}, files E o qs s = .ok s' → s'.ok + s'.err = s.ok + s.err + qs.length := by
  intro qs
  induction qs with
  | nil => intro s s' h; cases h; simp
  | cons p qs ih =>
    intro s s' h
    unfold files at h
    cases h1 : oneFile E o p s with
    | ok s1 =>
      rw [h1, Res.ok_bind] at h
      have := ih h
      have := oneFile_counts h1
      simp only [List.length_cons]; omega
    | throw e => rw [h1] at h; cases h
    | ub u => rw [h1] at h; cases h

theorem files_written {q : Bool} {E : Env} {o : Opts} {ok : Bytes → Prop} {path : Path → Prop} {P : Path → Bytes → Prop} (hF : Format q o.fmt ok)
    (hP : ∀ p, path p → ∃ v, Cell q o.fmt.sep (quoted p) v ∧ P p v) (hk0 : 0 < o.ncomm) : ∀ (qs : List Path) (s : St),
    (∀ p ∈ qs, (∃ e, E.read p = .throw e) ∨ ∃ f, E.read p = .ok f ∧ Printable ok path E.texts f) →
    ∃ (rows recs : List (List Bytes)) (h : Bool), files E o qs s = .ok ⟨⟨s.os.out ++ rows.flatMap (fun r => sepBy o.fmt.sep r ++ [10]), h⟩, s.ok + recs.length, s.err + (qs.length - recs.length)⟩ ∧
      rows.length = recs.length ∧ recs.length ≤ qs.length ∧ (∀ (i : Nat) a b, rows[i]? = some a → recs[i]? = some b → Cells q o.fmt.sep a b ∧ a ≠ []) ∧
      Shown E (RowIs textIds P (fun n b => Hexadecimal b n) E.texts o) qs recs ∧ ∀ r ∈ recs, r.length = 27 + o.ncomm + if o.noDir then 0 else 1 := by
  intro qs
  induction qs with
  | nil => intro s _; exact ⟨[], [], s.os.hex, by simp [files], rfl, by simp, by simp, .nil, by simp⟩
  | cons p qs ih =>
    intro s h
    rcases h p (List.mem_cons_self ..) with ⟨e, he⟩ | ⟨f, he, hf⟩
    · obtain ⟨rows, recs, h', h1, h2, h3, h4, h5, h6⟩ := ih { s with err := s.err + 1 } fun x hx => h x (List.mem_cons_of_mem _ hx)
      refine ⟨rows, recs, h', ?_, h2, by simp; omega, h4, .failed _ _ _ e he h5, h6⟩
      unfold files oneFile
      rw [he]
      simp only [Res.ok_bind]
      rw [h1]
      simp only [List.length_cons, Res.ok.injEq, St.mk.injEq, true_and]
      omega
    · obtain ⟨raws, vals, hx, w, c, hne, hr, hl⟩ := row_written hF hP hf hk0 s.os.hex
      obtain ⟨rows, recs, h', h1, h2, h3, h4, h5, h6⟩ := ih ⟨⟨s.os.out ++ (sepBy o.fmt.sep raws ++ [10]), hx⟩, s.ok + 1, s.err⟩
        fun x hx => h x (List.mem_cons_of_mem _ hx)
      refine ⟨raws :: rows, vals :: recs, h', ?_, by simp [h2], by simp; omega, ?_, .row _ _ _ f _ he hr h5, ?_⟩
      · unfold files oneFile
        have hw := w s.os.out
        rw [he]
        simp only [hw, Res.ok_bind]
        rw [h1]
        simp only [List.length_cons, Res.ok.injEq, St.mk.injEq, List.flatMap_cons, List.append_assoc, true_and]
        omega
      · intro i a b ha hb
        cases i with
        | zero => simp only [List.getElem?_cons_zero, Option.some.injEq] at ha hb; subst ha hb; exact ⟨c, hne⟩
        | succ i => exact h4 i a b ha hb
      · intro r hr'
        rcases List.mem_cons.1 hr' with rfl | hr'
        · exact hl
        · exact h6 r hr'

/-- The names of the columns. -/
def columns (o : Opts) : List Bytes := (if o.noDir then [] else [[100, 105, 114, 101, 99, 116, 111, 114, 121]]) ++ headA ++
  (List.range o.ncomm).map headComment ++ headB ++ [headLast o.tsv]

theorem columns_length (o : Opts) : (columns o).length = 27 + o.ncomm + if o.noDir then 0 else 1 := by
  unfold columns
  cases o.noDir <;> simp [headA, headB] <;> omega

theorem columns_neutral (o : Opts) : ∀ c ∈ columns o, Neutral c := by
  have hN : ∀ l : List Bytes, (l.all fun b => b.all fun c => !([9, 10, 31, 34, 44] : Bytes).contains c) = true → ∀ b ∈ l, Neutral b := by
    intro l h b hb c hc h'
    have := List.all_eq_true.1 (List.all_eq_true.1 h b hb) c hc
    simp only [Bool.not_eq_true', List.contains_eq_mem, decide_eq_false_iff_not] at this
    exact this h'
  intro c hc
  unfold columns at hc
  simp only [List.mem_append] at hc
  rcases hc with (((hc | hc) | hc) | hc) | hc
  · split at hc
    · cases hc
    · exact hN _ (by decide) c hc
  · exact hN headA (by decide) c hc
  · obtain ⟨i, -, rfl⟩ := List.mem_map.1 hc
    unfold headComment
    refine Neutral.append (Neutral.append ?_ (decimal_neutral (dec_decimal i))) ?_
    · exact hN [_] (by decide) _ (List.mem_singleton_self _)
    · exact hN [_] (by decide) _ (List.mem_singleton_self _)
  · exact hN headB (by decide) c hc
  · revert hc
    cases o.tsv <;> intro hc
    · exact hN [headLast false] (by decide) c hc
    · exact hN [headLast true] (by decide) c hc

theorem cells_neutral {q : Bool} {sep : Byte} (hs : Sep sep) : ∀ l : List Bytes, (∀ c ∈ l, Neutral c) → Cells q sep l l := by
  intro l
  induction l with
  | nil => intro _; exact .nil
  | cons a l ih => intro h; exact .cons (cell_neutral hs (h a (List.mem_cons_self ..))) (ih fun c hc => h c (List.mem_cons_of_mem _ hc))

/-- A run over files that can be printed. -/
theorem report_reads {q : Bool} {E : Env} {o : Opts} {ok : Bytes → Prop} {path : Path → Prop} {P : Path → Bytes → Prop} (hF : Format q o.fmt ok)
    (hP : ∀ p, path p → ∃ v, Cell q o.fmt.sep (quoted p) v ∧ P p v) (hk0 : 0 < o.ncomm) {ps qs : List Path} (hc : Covers E ps qs)
    (h : ∀ p ∈ qs, (∃ e, E.read p = .throw e) ∨ ∃ f, E.read p = .ok f ∧ Printable ok path E.texts f) :
    ∃ recs doc, (∀ d : Dest, report E o d ps = .ok ⟨if recs.length = qs.length then 0 else 1,
        if o.noSummary then none else some (recs.length, qs.length - recs.length), d.file doc⟩) ∧
      records q o.fmt.sep doc = columns o :: recs ∧ recs.length ≤ qs.length ∧
      Shown E (RowIs textIds P (fun n b => Hexadecimal b n) E.texts o) qs recs ∧ ∀ r ∈ recs, r.length = (columns o).length := by
  obtain ⟨rows, recs, h', h1, h2, h3, h4, h5, h6⟩ := files_written hF hP hk0 qs ⟨⟨header o, false⟩, 0, 0⟩ h
  refine ⟨recs, header o ++ rows.flatMap (fun r => sepBy o.fmt.sep r ++ [10]), ?_, ?_, h3, h5, ?_⟩
  · intro d
    unfold report
    rw [args_files o hc, h1]
    simp only [Res.ok_bind, Nat.zero_add, Res.ok.injEq, Done.mk.injEq, and_self, and_true]
    by_cases e : recs.length = qs.length
    · rw [if_pos e, if_neg (by omega)]
    · rw [if_neg e, if_pos (by omega)]
  · have e : header o ++ rows.flatMap (fun r => sepBy o.fmt.sep r ++ [10]) = (columns o :: rows).flatMap (fun r => sepBy o.fmt.sep r ++ [10]) := rfl
    rw [e]
    refine rows_read (by simp [h2]) ?_
    intro i a b ha hb
    cases i with
    | zero =>
      simp only [List.getElem?_cons_zero, Option.some.injEq] at ha hb
      subst ha hb
      refine ⟨cells_neutral hF.sep _ (columns_neutral o), fun e => ?_⟩
      have := columns_length o
      rw [e] at this
      simp at this
      omega
    | succ i => exact h4 i a b ha hb
  · intro r hr; rw [columns_length]; exact h6 r hr

end Report
end Scribbu
