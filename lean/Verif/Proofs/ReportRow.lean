import Verif.Proofs.Report

/-! What a row of a report is. -/

namespace Scribbu
namespace Report
open Spec LTag Lookup

/-- Fields with a separator behind each. -/
def tsep (sep : Byte) (l : List Bytes) : Bytes := l.flatMap fun x => x ++ [sep]

theorem tsep_append (sep : Byte) (a b : List Bytes) : tsep sep (a ++ b) = tsep sep a ++ tsep sep b := by simp [tsep]
theorem tsep_cons (sep : Byte) (x : Bytes) (l : List Bytes) : tsep sep (x :: l) = x ++ sep :: tsep sep l := by simp [tsep]

theorem sepBy_last (sep : Byte) (l : List Bytes) (y : Bytes) : sepBy sep (l ++ [y]) = tsep sep l ++ y := by
  induction l with
  | nil => simp [sepBy, tsep]
  | cons x xs ih =>
    cases xs with
    | nil => simp [sepBy, tsep]
    | cons z zs =>
      rw [tsep_cons]
      simp only [List.cons_append, sepBy, List.append_assoc] at ih ⊢
      rw [ih]

theorem sepBy_tsep (sep : Byte) {l : List Bytes} (h : l ≠ []) : sepBy sep l ++ [sep] = tsep sep l := by
  obtain ⟨a, y, rfl⟩ : ∃ a y, l = a ++ [y] := ⟨l.dropLast, l.getLast h, (List.dropLast_concat_getLast h).symm⟩
  rw [sepBy_last, tsep_append]; simp [tsep]

/-- What a format does to texts that are `ok` for it is undone by the reader. -/
structure Format (q : Bool) (F : Fmt) (ok : Bytes → Prop) : Prop where
  sep : Sep F.sep
  text : ∀ s, ok s → Cell q F.sep (F.esc s) s

theorem format_csv : Format true csvFmt (QuoteSafe 44) := ⟨Or.inl rfl, fun _ h => cell_escape (by decide) (by decide) h⟩

theorem format_tdf (ascii : Bool) : Format false (tdfFmt ascii) (Unseparated (tdfFmt ascii).sep) := by
  have hs : Sep (tdfFmt ascii).sep := by cases ascii <;> simp [tdfFmt, Sep]
  exact ⟨hs, fun s h => cell_plain hs.ne10 h.1 h.2 (by simp)⟩

theorem readCls_text {c : Cfg} {id : Bytes} (h : id ∈ textIds c.ver) (ht : c.textParser id = true) : readCls c id = .text := by
  have h1 : id ≠ c.comId ∧ id ≠ c.cntId ∧ id ≠ c.popId := by
    cases hv : c.ver <;> rw [hv] at h <;> simp only [textIds, List.mem_cons, List.not_mem_nil, or_false] at h <;>
      rcases h with rfl | rfl | rfl | rfl | rfl | rfl | rfl <;> simp [Cfg.comId, Cfg.cntId, Cfg.popId, hv]
  unfold readCls
  simp only [h1.1, h1.2.1, h1.2.2, if_false, ht, if_true]

variable {q : Bool} {F : Fmt} {ok : Bytes → Prop} (hF : Format q F ok)

include hF in
theorem text_written {X : Texts} {t : Tag2} (hk : Known t.cfg t.tag)
    (hx : ∀ x ∈ contents t.tag, x.id ∈ textIds t.cfg.ver → t.cfg.textParser x.id = true ∧ ∃ s, X.frame t.cfg.ver x.data = .ok s ∧ ok s) {id : Bytes}
    (hid : id ∈ textIds t.cfg.ver) :
    ∃ raw val, Writes (putText X F t id) true (raw ++ [F.sep]) true ∧ Cell q F.sep raw val ∧ TextCell X t.cfg.ver (contents t.tag) id val := by
  unfold putText
  by_cases h0 : t.tag.hasFrame id = 0
  · refine ⟨[], [], ?_, ?_, Or.inl ⟨?_, rfl⟩⟩
    · rw [if_neg (by simp [h0])]
      exact (Writes.nop true).seq (Writes.put _ _)
    · exact cell_neutral hF.sep (by intro c hc; cases hc)
    · rw [has_known hk] at h0; exact List.eq_nil_of_length_eq_zero h0
  · have hex : ∃ x ∈ contents t.tag, x.id = id := by
      rw [has_known hk] at h0
      cases hl : withId id (contents t.tag) with
      | nil => rw [hl] at h0; exact absurd rfl h0
      | cons x l =>
        have : x ∈ withId id (contents t.tag) := by rw [hl]; exact List.mem_cons_self ..
        have := List.mem_filter.1 this
        exact ⟨x, this.1, by simpa using this.2⟩
    obtain ⟨f, hf, hfid, hget⟩ := (answers hk.inv).get id hex
    have hmem : (⟨f.id, f.cls, f.data⟩ : Spec.Item) ∈ contents t.tag := List.mem_map.2 ⟨f, hf, rfl⟩
    obtain ⟨ht, s, hs, hok⟩ := hx _ hmem (by simpa [hfid] using hid)
    have hcl : f.cls = .text := by
      rw [hk.cls f hf, hfid]
      exact readCls_text hid (by rw [← hfid]; exact ht)
    refine ⟨F.esc s, s, ?_, hF.text s hok, Or.inr ⟨_, List.mem_filter.2 ⟨hmem, by simpa using hfid⟩, hs⟩⟩
    rw [if_pos h0, hget]
    simp only
    refine Writes.seq ?_ (Writes.put _ _)
    unfold putFrame
    rw [hcl]
    simp only [hs, Res.ok_bind]
    exact Writes.value _ _

include hF in
theorem texts_written {X : Texts} {t : Tag2} (hk : Known t.cfg t.tag)
    (hx : ∀ x ∈ contents t.tag, x.id ∈ textIds t.cfg.ver → t.cfg.textParser x.id = true ∧ ∃ s, X.frame t.cfg.ver x.data = .ok s ∧ ok s) :
    ∀ ids : List Bytes, (∀ id ∈ ids, id ∈ textIds t.cfg.ver) → ∃ raws vals, Writes (Pr.all (ids.map (putText X F t))) true (tsep F.sep raws) true ∧
      Cells q F.sep raws vals ∧ vals.length = ids.length ∧
      ∀ (i : Nat) id, ids[i]? = some id → ∃ s, vals[i]? = some s ∧ TextCell X t.cfg.ver (contents t.tag) id s := by
  intro ids
  induction ids with
  | nil => intro _; exact ⟨[], [], Writes.nop _, .nil, rfl, by simp⟩
  | cons a l ih =>
    intro h
    obtain ⟨raw, val, w, c, tc⟩ := text_written hF hk hx (h a (List.mem_cons_self ..))
    obtain ⟨raws, vals, w', c', hl, tc'⟩ := ih fun id hid => h id (List.mem_cons_of_mem _ hid)
    refine ⟨raw :: raws, val :: vals, ?_, .cons c c', by simp [hl], ?_⟩
    · refine (Writes.all_cons w w').cast ?_
      rw [tsep_cons]; simp
    · intro i id hi
      cases i with
      | zero =>
        simp only [List.getElem?_cons_zero, Option.some.injEq] at hi
        subst hi
        exact ⟨val, rfl, tc⟩
      | succ i => exact tc' i id hi

include hF in
theorem comments_written {X : Texts} {v : Ver} : ∀ (k : Nat) (L : List Spec.Item), (∀ x ∈ L, ∃ s, X.comment v x.data = .ok s ∧ ok s) →
    ∃ raws vals, Writes (putComments X F v k (L.map (·.data))) true (sepBy F.sep raws) true ∧ Cells q F.sep raws vals ∧ vals.length = k ∧
      ∀ i, i < k → match L[i]? with
        | some x => ∃ s, vals[i]? = some s ∧ X.comment v x.data = .ok s
        | none => vals[i]? = some [] := by
  intro k
  induction k with
  | zero => intro L _; exact ⟨[], [], Writes.nop _, .nil, rfl, by intro i hi; omega⟩
  | succ k ih =>
    intro L hL
    obtain ⟨raws, vals, w, c, hl, hv⟩ := ih L.tail fun x hx => hL x (List.mem_of_mem_tail hx)
    have first : ∃ raw val, Writes (match L.map (·.data) with
        | [] => Pr.nop
        | d :: _ => Pr.value ((X.comment v d).bind fun s => .ok (F.esc s))) true raw true ∧ Cell q F.sep raw val ∧
        match L[0]? with
        | some x => ∃ s, val = s ∧ X.comment v x.data = .ok s
        | none => val = [] := by
      cases L with
      | nil => exact ⟨[], [], Writes.nop _, cell_neutral hF.sep (by intro c hc; cases hc), rfl⟩
      | cons x l =>
        obtain ⟨s, hs, hok⟩ := hL x (List.mem_cons_self ..)
        refine ⟨F.esc s, s, ?_, hF.text s hok, s, rfl, hs⟩
        simp only [List.map_cons, hs, Res.ok_bind]
        exact Writes.value _ _
    obtain ⟨raw, val, w1, c1, hv1⟩ := first
    refine ⟨raw :: raws, val :: vals, ?_, .cons c1 c, by simp [hl], ?_⟩
    · unfold putComments
      have e : (L.map (·.data)).tail = L.tail.map (·.data) := by cases L <;> rfl
      rw [e]
      by_cases hk : k = 0
      · subst hk
        have hr : raws = [] := by
          have := c.length; rw [hl] at this; exact List.eq_nil_of_length_eq_zero this
        subst hr
        refine (Writes.all_cons w1 (Writes.all_cons (by rw [if_pos rfl]; exact Writes.nop _) (Writes.all_cons w (Writes.all_nil _)))).cast ?_
        simp [sepBy]
      · refine (Writes.all_cons w1 (Writes.all_cons (by rw [if_neg hk]; exact Writes.put _ _) (Writes.all_cons w (Writes.all_nil _)))).cast ?_
        have hr : raws ≠ [] := by
          intro hr
          have := c.length; rw [hl, hr] at this; exact hk this.symm
        cases raws with
        | nil => exact absurd rfl hr
        | cons a b => simp [sepBy]
    · intro i hi
      cases i with
      | zero =>
        cases hL0 : L[0]? with
        | none => rw [hL0] at hv1; simp only at hv1 ⊢; rw [hv1]; rfl
        | some x =>
          rw [hL0] at hv1
          obtain ⟨s, e, hs⟩ := hv1
          exact ⟨s, by rw [e]; rfl, hs⟩
      | succ i =>
        have := hv i (by omega)
        have e : L.tail[i]? = L[i + 1]? := by cases L <;> simp
        rw [e] at this
        exact this

theorem counter_val {d : Bytes} (h1 : 1 ≤ d.length) (h2 : d.length ≤ 4) : counterCount d = .ok (beNat d) := by
  have or8 (a b : Nat) (h : b < 256) : (a <<< 8) ||| b = a * 256 + b := by
    rw [← Nat.shiftLeft_add_eq_or_of_lt (i := 8) (by simpa using h), Nat.shiftLeft_eq]
  have or16 (a b : Nat) (h : b < 65536) : (a <<< 16) ||| b = a * 65536 + b := by
    rw [← Nat.shiftLeft_add_eq_or_of_lt (i := 16) (by simpa using h), Nat.shiftLeft_eq]
  have or24 (a b : Nat) (h : b < 16777216) : (a <<< 24) ||| b = a * 16777216 + b := by
    rw [← Nat.shiftLeft_add_eq_or_of_lt (i := 24) (by simpa using h), Nat.shiftLeft_eq]
  match d, h1, h2 with
  | [a], _, _ => simp [counterCount, beNat]
  | [a, b], _, _ =>
    have := b.toNat_lt
    simp only [counterCount, beNat, List.length_cons, List.length_nil]
    rw [or8 _ _ (by omega)]; congr 1; omega
  | [a, b, c], _, _ =>
    have := b.toNat_lt; have := c.toNat_lt
    simp only [counterCount, beNat, List.length_cons, List.length_nil]
    rw [Nat.or_assoc, or8 _ _ (by omega), or16 _ _ (by omega)]; congr 1; omega
  | [a, b, c, e], _, _ =>
    have := b.toNat_lt; have := c.toNat_lt; have := e.toNat_lt
    simp only [counterCount, beNat, List.length_cons, List.length_nil]
    rw [Nat.or_assoc, Nat.or_assoc, or8 _ _ (by omega), or16 _ _ (by omega), or24 _ _ (by omega)]; congr 1; omega

include hF in
theorem count_written {t : Tag2} (hk : Known t.cfg t.tag)
    (hc : ∀ x, withId t.cfg.cntId (contents t.tag) = [x] → 1 ≤ x.data.length ∧ x.data.length ≤ 4 ∧ t.cfg.ver ≠ .v4) :
    ∃ how what, Writes (putCount F t) true (how ++ F.sep :: what) true ∧ Cells q F.sep [how, what] [how, what] ∧
      CountCells (fun n b => Hexadecimal b n) t.cfg (contents t.tag) how what := by
  have h0 : ∀ n, Cell q F.sep (hexa n) (hexa n) := fun n => cell_neutral hF.sep (hexa_spec n).2
  unfold putCount CountCells
  simp only
  rw [has_known hk]
  cases hl : withId t.cfg.cntId (contents t.tag) with
  | nil =>
    refine ⟨hexa 0, [], ?_, .cons (h0 0) (.one (cell_neutral hF.sep (by intro c hc; cases hc))), (hexa_spec 0).1, rfl⟩
    refine (Writes.all_cons (Writes.hex 0) (Writes.all_cons (Writes.put _ _) (Writes.all_cons (Writes.nop _) (Writes.all_nil _)))).cast ?_
    simp
  | cons x l =>
    cases l with
    | nil =>
      obtain ⟨a, b, c⟩ := hc x hl
      have hp : t.tag.playCount t.cfg = .ok x.data := by
        refine play hk.inv c x.data ?_
        rw [filter_cls hk (fun id => readCls_cnt), hl]; rfl
      refine ⟨hexa 1, hexa (beNat x.data), ?_, .cons (h0 1) (.one (h0 _)), (hexa_spec 1).1, (hexa_spec _).1⟩
      rw [hp]
      simp only [Res.ok_bind, counter_val a b, List.length_cons, List.length_nil, Nat.zero_add, if_true]
      refine (Writes.all_cons (Writes.hex 1) (Writes.all_cons (Writes.put _ _) (Writes.all_cons (Writes.hex _) (Writes.all_nil _)))).cast ?_
      simp
    | cons y l =>
      refine ⟨hexa (x :: y :: l).length, [42], ?_, .cons (h0 _) (.one (cell_neutral hF.sep (by simp [Neutral]))), (hexa_spec _).1, rfl⟩
      have e1 : ¬ (x :: y :: l).length = 1 := by simp
      have e2 : 1 < (x :: y :: l).length := by simp
      rw [if_neg e1, if_pos e2]
      refine (Writes.all_cons (Writes.hex _) (Writes.all_cons (Writes.put _ _) (Writes.all_cons (Writes.put _ _) (Writes.all_nil _)))).cast ?_
      simp

theorem Writes.all_append {ps qs : List Pr} {h h' h'' : Bool} {a b : Bytes} (hp : Writes (Pr.all ps) h a h') (hq : Writes (Pr.all qs) h' b h'') :
    Writes (Pr.all (ps ++ qs)) h (a ++ b) h'' := by
  have e : ∀ ps : List Pr, Pr.all (ps ++ qs) = Pr.seq (Pr.all ps) (Pr.all qs) := by
    intro ps
    induction ps with
    | nil => rfl
    | cons p ps ih =>
      simp only [List.cons_append, Pr.all, ih]
      funext s
      simp only [Pr.seq]
      cases hps : p s with
      | mk s' r => cases r <;> rfl
  rw [e]; exact hp.seq hq

theorem hexa_bit (b : Bool) : hexa (optUint (some b)) = if b then [49] else [48] := by cases b <;> decide +kernel

theorem textIds_asked (v : Ver) : textIds v = askedIds v := by cases v <;> rfl

include hF in
/-- The cells of an ID3v2 tag, each with a separator behind it. -/
theorem tag2_written {X : Texts} {t : Tag2} (hp : Printable2 ok X t) {k : Nat} (hk0 : 0 < k) (h : Bool) :
    ∃ raws vals, Writes (Pr.all [putTag2 X F k t, Pr.put [F.sep]]) h (tsep F.sep raws) true ∧ Cells q F.sep raws vals ∧
      Tag2Cells textIds (fun n b => Hexadecimal b n) X k t vals ∧ vals.length = 15 + k := by
  obtain ⟨⟨l, hl⟩, hs⟩ := hp.read
  have hk : Known t.cfg t.tag := by rw [hl]; exact known_read hs l
  have hd : ∀ n, Cell q F.sep (Backup.dec n) (Backup.dec n) := fun n => cell_neutral hF.sep (decimal_neutral (dec_decimal n))
  have hh : ∀ n, Cell q F.sep (hexa n) (hexa n) := fun n => cell_neutral hF.sep (hexa_spec n).2
  obtain ⟨c, d, i, j, e2, hc, hdd, hb, hn⟩ := hex2_spec t.flags
  have h7 : (textIds t.cfg.ver).length = 7 := by cases t.cfg.ver <;> rfl
  obtain ⟨traws, tvals, tw, tc, tl, tv⟩ := texts_written hF hk (by rw [textIds_asked]; exact hp.texts) (textIds t.cfg.ver) fun _ h => h
  obtain ⟨how, what, cw, cc, cv⟩ := count_written hF hk hp.count
  obtain ⟨craws, cvals, mw, mc, ml, mv⟩ := comments_written hF (X := X) (v := t.cfg.ver) k (withId t.cfg.comId (contents t.tag)) (by
    intro x hx
    have := List.mem_filter.1 hx
    exact hp.comments x this.1 (by simpa using this.2))
  have hne : craws ≠ [] := by
    intro e
    have := mc.length; rw [ml, e] at this; simp at this; omega
  let many := hexa (t.tag.hasFrame t.cfg.comId)
  let first := [Backup.dec (verNum t.cfg.ver), Backup.dec t.rev.toNat, Backup.dec t.size, 48 :: 120 :: [c, d], hexa (optUint t.unsync)]
  refine ⟨first ++ traws ++ [how, what, many] ++ craws, first ++ tvals ++ [how, what, many] ++ cvals, ?_, ?_, ⟨?_⟩, ?_⟩
  · have w1 : Writes (putTag2 X F k t) h (tsep F.sep (first ++ traws ++ [how, what, many]) ++ sepBy F.sep craws) true := by
      unfold putTag2
      rw [comments_known hk]
      refine (Writes.all_cons (Writes.base _ _) <| Writes.all_cons (Writes.dec _) <| Writes.all_cons (Writes.put _ _) <|
        Writes.all_cons (Writes.dec _) <| Writes.all_cons (Writes.put _ _) <| Writes.all_cons (Writes.dec _) <| Writes.all_cons (Writes.put _ _) <|
        Writes.all_cons (Writes.put _ _) <| Writes.all_cons (Writes.base _ _) <| Writes.all_cons (Writes.put _ _) <| Writes.all_cons (Writes.put _ _) <|
        Writes.all_cons (Writes.hex _) <| Writes.all_cons (Writes.put _ _) <| Writes.all_cons tw <| Writes.all_cons cw <| Writes.all_cons (Writes.put _ _) <|
        Writes.all_cons (Writes.hex _) <| Writes.all_cons (Writes.put _ _) <| Writes.all_cons mw <| Writes.all_nil _).cast ?_
      simp only [first, many, tsep_append, tsep_cons, e2]
      simp [tsep]
    refine (Writes.all_cons w1 (Writes.all_cons (Writes.put _ _) (Writes.all_nil _))).cast ?_
    rw [tsep_append F.sep _ craws, ← sepBy_tsep F.sep hne]
    simp
  · refine ((Cells.append ?_ tc).append ?_).append mc
    · refine .cons (hd _) (.cons (hd _) (.cons (hd _) (.cons (cell_neutral hF.sep ?_) (.one (hh _)))))
      exact Neutral.append (a := [48, 120]) (by simp [Neutral]) hn
    · exact Cells.append (b := [how, what]) cc (.one (hh _))
  · refine ⟨_, _, _, [c, d], _, tvals, how, what, many, cvals, rfl, ?_, dec_decimal _, dec_decimal _, .cons _ _ _ _ _ _ _ hc hdd hb .nil, ?_,
      ⟨by rw [tl, h7], tv⟩, cv, ?_, ml, mv⟩
    · rw [show Spec.minor t.cfg.ver = verNum t.cfg.ver by cases t.cfg.ver <;> rfl]; exact dec_decimal _
    · intro b hb'; rw [hb', hexa_bit]
    · rw [← has_known hk]; exact (hexa_spec _).1
  · simp only [first, List.length_append, List.length_cons, List.length_nil, tl, h7, ml]

include hF in
/-- The cells of an ID3v1 tag. -/
theorem tag1_written {t : Tag1} (hp : Printable1 ok t) (h : Bool) :
    ∃ raws last vals, Writes (putTag1 F t) h (tsep F.sep raws ++ last) false ∧ Cells q F.sep (raws ++ [last]) vals ∧ Tag1Cells t vals ∧ vals.length = 8 := by
  obtain ⟨ar, ear, kar⟩ := hp.artist
  obtain ⟨ti, eti, kti⟩ := hp.title
  obtain ⟨al, eal, kal⟩ := hp.album
  obtain ⟨ye, eye, kye⟩ := hp.year
  obtain ⟨co, eco, kco⟩ := hp.comment
  have hb : ∀ b, Cell q F.sep (bit b) (bit b) := fun b => cell_neutral hF.sep (by cases b <;> simp [bit, Neutral])
  refine ⟨[bit t.v11, bit t.extended, F.esc ar, F.esc ti, F.esc al, F.esc ye, F.esc co], Backup.dec t.genre.toNat,
    [bit t.v11, bit t.extended, ar, ti, al, ye, co, Backup.dec t.genre.toNat], ?_, ?_, ?_, rfl⟩
  · unfold putTag1
    simp only [putField, ear, eti, eal, eye, eco, Res.ok_bind]
    refine (Writes.all_cons (Writes.put _ _) <| Writes.all_cons (Writes.put _ _) <| Writes.all_cons (Writes.put _ _) <| Writes.all_cons (Writes.put _ _) <|
      Writes.all_cons (Writes.value _ _) <| Writes.all_cons (Writes.put _ _) <| Writes.all_cons (Writes.value _ _) <| Writes.all_cons (Writes.put _ _) <|
      Writes.all_cons (Writes.value _ _) <| Writes.all_cons (Writes.put _ _) <| Writes.all_cons (Writes.value _ _) <| Writes.all_cons (Writes.put _ _) <|
      Writes.all_cons (Writes.value _ _) <| Writes.all_cons (Writes.put _ _) <| Writes.all_cons (Writes.base _ _) <| Writes.all_cons (Writes.dec _) <|
      Writes.all_nil _).cast ?_
    simp [tsep]
  · exact .cons (hb _) (.cons (hb _) (.cons (hF.text _ kar) (.cons (hF.text _ kti) (.cons (hF.text _ kal) (.cons (hF.text _ kye) (.cons (hF.text _ kco)
      (.one (cell_neutral hF.sep (decimal_neutral (dec_decimal _))))))))))
  · exact ⟨ar, ti, al, ye, co, _, rfl, ear, eti, eal, eye, eco, dec_decimal _⟩

theorem cells_empty {sep : Byte} (hs : Sep sep) (n : Nat) : Cells q sep (List.replicate n []) (List.replicate n []) := by
  induction n with
  | zero => exact .nil
  | succ n ih => exact .cons (cell_neutral hs (by intro c hc; cases hc)) ih

theorem tsep_empty (sep : Byte) (n : Nat) : tsep sep (List.replicate n []) = List.replicate n sep := by
  induction n with
  | zero => rfl
  | succ n ih => rw [List.replicate_succ, tsep_cons, ih]; rfl

/-- A row. -/
theorem row_written {X : Texts} {o : Opts} {f : Facts} {ok : Bytes → Prop} {path : Path → Prop} {P : Path → Bytes → Prop} (hF : Format q o.fmt ok)
    (hP : ∀ p, path p → ∃ v, Cell q o.fmt.sep (quoted p) v ∧ P p v) (hp : Printable ok path X f) (hk0 : 0 < o.ncomm) (h : Bool) :
    ∃ raws vals h', Writes (putRow X o f) h (sepBy o.fmt.sep raws ++ [10]) h' ∧ Cells q o.fmt.sep raws vals ∧ raws ≠ [] ∧
      RowIs textIds P (fun n b => Hexadecimal b n) X o f vals ∧ vals.length = 27 + o.ncomm + if o.noDir then 0 else 1 := by
  obtain ⟨dirv, dirc, dirP⟩ := hP _ hp.parent
  obtain ⟨namev, namec, nameP⟩ := hP _ hp.name
  let F := o.fmt
  have hF' : Format q F ok := hF
  -- the directory
  obtain ⟨draws, dvals, dw, dc, dP, dl⟩ : ∃ raws vals, (∀ h, Writes (if o.noDir then Pr.nop else Pr.put (quoted f.parent ++ [F.sep])) h (tsep F.sep raws) h) ∧
      Cells q F.sep raws vals ∧ (if o.noDir = true then vals = [] else ∃ d, vals = [d] ∧ P f.parent d) ∧ vals.length = if o.noDir then 0 else 1 := by
    by_cases hd : o.noDir = true
    · refine ⟨[], [], fun h => ?_, .nil, ?_, ?_⟩
      · rw [if_pos hd]; exact Writes.nop h
      · rw [if_pos hd]
      · rw [if_pos hd]; rfl
    · refine ⟨[quoted f.parent], [dirv], fun h => ?_, .one dirc, ?_, ?_⟩
      · rw [if_neg hd]; exact (Writes.put _ h).cast (by simp [tsep])
      · rw [if_neg hd]; exact ⟨_, rfl, dirP⟩
      · rw [if_neg hd]; rfl
  -- the ID3v2 tag
  obtain ⟨araws, avals, h1, aw, ac, aP, al⟩ : ∃ raws vals h', Writes (Pr.all [match f.v2 with
        | some t => putTag2 X F o.ncomm t
        | none => Pr.put (List.replicate (14 + o.ncomm) F.sep), Pr.put [F.sep]]) h (tsep F.sep raws) h' ∧ Cells q F.sep raws vals ∧
      (match f.v2 with
        | some t => Tag2Cells textIds (fun n b => Hexadecimal b n) X o.ncomm t vals
        | none => vals = List.replicate (15 + o.ncomm) []) ∧ vals.length = 15 + o.ncomm := by
    cases hv : f.v2 with
    | none =>
      refine ⟨List.replicate (15 + o.ncomm) [], List.replicate (15 + o.ncomm) [], h, ?_, cells_empty hF.sep _, rfl, by simp⟩
      refine (Writes.all_cons (Writes.put _ _) (Writes.all_cons (Writes.put _ _) (Writes.all_nil _))).cast ?_
      rw [tsep_empty, show 15 + o.ncomm = (14 + o.ncomm) + 1 by omega, List.replicate_succ']
      simp
    | some t =>
      obtain ⟨raws, vals, w, c, tv, l⟩ := tag2_written hF' (hp.v2 t hv) hk0 h
      exact ⟨raws, vals, true, w, c, tv, l⟩
  -- the ID3v1 tag
  obtain ⟨braws, blast, bvals, h2, bw, bc, bP, bl⟩ : ∃ raws last vals h', Writes (match f.v1 with
        | some t => putTag1 F t
        | none => Pr.put (List.replicate 7 F.sep)) true (tsep F.sep raws ++ last) h' ∧ Cells q F.sep (raws ++ [last]) vals ∧
      (match f.v1 with
        | some t => Tag1Cells t vals
        | none => vals = List.replicate 8 []) ∧ vals.length = 8 := by
    cases hv : f.v1 with
    | none =>
      refine ⟨List.replicate 7 [], [], List.replicate 8 [], true, ?_, cells_empty (n := 8) hF.sep, rfl, by simp⟩
      refine (Writes.put _ _).cast ?_
      rw [tsep_empty]; simp
    | some t =>
      obtain ⟨raws, last, vals, w, c, tv, l⟩ := tag1_written hF' (hp.v1 t hv) true
      exact ⟨raws, last, vals, false, w, c, tv, l⟩
  have hmb := megabytes_spec f.size
  have hmd := hexPairs_spec f.md5
  refine ⟨(draws ++ [quoted f.name, megabytes f.size] ++ araws ++ [Backup.dec f.trackSize, f.md5.flatMap hex2]) ++ braws ++ [blast],
    dvals ++ [namev, megabytes f.size] ++ avals ++ [Backup.dec f.trackSize, f.md5.flatMap hex2] ++ bvals, h2, ?_, ?_, by simp, ⟨?_⟩, ?_⟩
  · have e : putRow X o f = Pr.all ([if o.noDir then Pr.nop else Pr.put (quoted f.parent ++ [F.sep]),
        Pr.put (quoted f.name), Pr.put [F.sep], Pr.put (megabytes f.size), Pr.put [F.sep]] ++ ([match f.v2 with
        | some t => putTag2 X F o.ncomm t
        | none => Pr.put (List.replicate (14 + o.ncomm) F.sep), Pr.put [F.sep]] ++ [putTrack F f.trackSize f.md5, Pr.put [F.sep],
        match f.v1 with
        | some t => putTag1 F t
        | none => Pr.put (List.replicate 7 F.sep), Pr.put [10]])) := rfl
    rw [e]
    have tw : Writes (putTrack F f.trackSize f.md5) h1 (Backup.dec f.trackSize ++ F.sep :: f.md5.flatMap hex2) true := by
      unfold putTrack
      refine (Writes.all_cons (Writes.base _ _) <| Writes.all_cons (Writes.dec _) <| Writes.all_cons (Writes.put _ _) <| Writes.all_cons (Writes.base _ _) <|
        Writes.all_cons (Writes.put _ _) <| Writes.all_nil _).cast ?_
      simp
    refine (Writes.all_append (Writes.all_cons (dw h) <| Writes.all_cons (Writes.put _ _) <| Writes.all_cons (Writes.put _ _) <|
      Writes.all_cons (Writes.put _ _) <| Writes.all_cons (Writes.put _ _) <| Writes.all_nil _) <| Writes.all_append aw <|
      Writes.all_cons tw <| Writes.all_cons (Writes.put _ _) <| Writes.all_cons bw <| Writes.all_cons (Writes.put _ _) <| Writes.all_nil _).cast ?_
    rw [sepBy_last]
    show _ = tsep F.sep _ ++ _ ++ _
    simp only [tsep_append]
    simp [tsep]
  · rw [List.append_assoc]
    refine Cells.append (Cells.append (Cells.append (Cells.append dc ?_) ac) ?_) bc
    · exact .cons namec (.one (cell_neutral hF.sep hmb.2))
    · exact .cons (cell_neutral hF.sep (decimal_neutral (dec_decimal _))) (.one (cell_neutral hF.sep hmd.2))
  · exact ⟨dvals, namev, megabytes f.size, avals, _, _, bvals, rfl, dP, nameP, hmb.1, aP, dec_decimal _, hmd.1, bP⟩
  · simp only [List.length_append, List.length_cons, List.length_nil, al, bl, dl]; omega

end Report
end Scribbu
