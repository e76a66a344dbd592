import Verif.Spec.Report
import Verif.Proofs.Lookup
import Verif.Proofs.Backup
import Verif.Proofs.PopmCmd

/-! Lemmas about reports. -/

namespace Scribbu
namespace Report
open Spec LTag

/-! ## Readers -/

/-- At the beginning of a field, `raw` is read as `val`, whether another field or another record follows. -/
def Cell (q : Bool) (sep : Byte) (raw val : Bytes) : Prop := ∀ (r : List Bytes) (rest : Bytes),
  take q sep .start [] r (raw ++ sep :: rest) = take q sep .start [] (r ++ [val]) rest ∧
  take q sep .start [] r (raw ++ 10 :: rest) = (r ++ [val]) :: take q sep .start [] [] rest

theorem take_plain (q : Bool) (sep : Byte) (r : List Bytes) (rest : Bytes) :
    ∀ (raw f : Bytes), sep ∉ raw → 10 ∉ raw →
      take q sep .plain f r (raw ++ sep :: rest) = take q sep .start [] (r ++ [f ++ raw]) rest ∧
      (sep ≠ 10 → take q sep .plain f r (raw ++ 10 :: rest) = (r ++ [f ++ raw]) :: take q sep .start [] [] rest) := by
  intro raw
  induction raw with
  | nil =>
    intro f _ _
    constructor
    · simp [take]
    · intro h
      have h' : (10 : Byte) ≠ sep := fun e => h e.symm
      simp [take, h']
  | cons c cs ih =>
    intro f h1 h2
    simp only [List.mem_cons, not_or] at h1 h2
    have hc1 : ¬ c = sep := fun e => h1.1 e.symm
    have hc2 : ¬ c = 10 := fun e => h2.1 e.symm
    obtain ⟨i1, i2⟩ := ih (f ++ [c]) h1.2 h2.2
    constructor
    · simp only [List.cons_append, take, hc1, hc2, if_false, reduceCtorEq, false_and]
      rw [i1]; simp
    · intro h
      simp only [List.cons_append, take, hc1, hc2, if_false, reduceCtorEq, false_and]
      rw [i2 h]; simp

theorem cell_plain {q : Bool} {sep : Byte} {raw : Bytes} (hs : sep ≠ 10) (h1 : sep ∉ raw) (h2 : 10 ∉ raw)
    (h3 : q = true → raw.head? ≠ some 34) : Cell q sep raw raw := by
  intro r rest
  cases raw with
  | nil =>
    have h' : (10 : Byte) ≠ sep := fun e => hs e.symm
    simp [take, h']
  | cons c cs =>
    simp only [List.mem_cons, not_or] at h1 h2
    have hc1 : ¬ c = sep := fun e => h1.1 e.symm
    have hc2 : ¬ c = 10 := fun e => h2.1 e.symm
    have hc3 : ¬ (q = true ∧ c = 34) := by rintro ⟨a, rfl⟩; exact h3 a rfl
    obtain ⟨i1, i2⟩ := take_plain q sep r rest cs [c] h1.2 h2.2
    constructor
    · simp only [List.cons_append, take, hc1, hc2, if_false, reduceCtorEq, false_and, true_and, List.nil_append]
      rw [if_neg hc3, i1]; simp
    · simp only [List.cons_append, take, hc1, hc2, if_false, reduceCtorEq, false_and, true_and, List.nil_append]
      rw [if_neg hc3, i2 hs]; simp

theorem take_quoted (q : Bool) (sep : Byte) (r : List Bytes) (rest : Bytes) : ∀ (s f : Bytes),
    take q sep .quoted f r (doubled 34 s ++ 34 :: rest) = take q sep .closing (f ++ s) r rest := by
  intro s
  induction s with
  | nil => intro f; simp [doubled, take]
  | cons c cs ih =>
    intro f
    by_cases h : c = 34
    · subst h
      simp only [doubled, if_true, List.cons_append, take, and_self]
      rw [ih]; simp
    · simp only [doubled, h, if_false, List.cons_append, take]
      rw [ih]; simp

theorem cell_quoted {sep : Byte} (hs : sep ≠ 10) (hq : sep ≠ 34) (s : Bytes) :
    Cell true sep (34 :: (doubled 34 s ++ [34])) s := by
  intro r rest
  have e (x : Byte) : 34 :: (doubled 34 s ++ [34]) ++ x :: rest = 34 :: (doubled 34 s ++ 34 :: x :: rest) := by simp
  have h34 : ¬ (34 : Byte) = sep := fun h => hq h.symm
  have h10 : ¬ (10 : Byte) = sep := fun h => hs h.symm
  have start (x : Byte) : take true sep .start [] r (34 :: (doubled 34 s ++ 34 :: x :: rest)) =
      take true sep .closing s r (x :: rest) := by
    simp only [take, h34, if_false, reduceCtorEq, false_and, true_and]
    have : ¬ (34 : Byte) = 10 := by decide
    rw [if_neg this, if_pos trivial, take_quoted]; simp [take]
  constructor
  · rw [e, start]
    simp only [take, true_and, hq, if_false, if_true]
  · rw [e, start]
    have : ¬ (10 : Byte) = 34 := by decide
    simp only [take, true_and, this, h10, if_false, if_true]

theorem cell_escape {sep : Byte} (hs : sep ≠ 10) (hq : sep ≠ 34) {s : Bytes} (h : QuoteSafe sep s) :
    Cell true sep (escape s sep) s := by
  unfold escape
  by_cases hc : (s.any fun c => decide (c = sep ∨ c = 10)) = true
  · rw [if_pos hc]; exact cell_quoted hs hq s
  · rw [if_neg hc]
    simp only [List.any_eq_true, decide_eq_true_eq, not_exists, not_and, not_or] at hc
    have h1 : sep ∉ s := fun h' => (hc sep h').1 rfl
    have h2 : (10 : Byte) ∉ s := fun h' => (hc 10 h').2 rfl
    refine cell_plain hs h1 h2 fun _ => ?_
    rcases h with h | h | h
    · exact h
    · exact absurd h h1
    · exact absurd h h2

/-- Fields and what they are read as. -/
inductive Cells (q : Bool) (sep : Byte) : List Bytes → List Bytes → Prop
  | nil : Cells q sep [] []
  | cons {raw val raws vals} : Cell q sep raw val → Cells q sep raws vals → Cells q sep (raw :: raws) (val :: vals)

theorem Cells.append {q : Bool} {sep : Byte} {a b c d : List Bytes} (h : Cells q sep a b) (k : Cells q sep c d) :
    Cells q sep (a ++ c) (b ++ d) := by
  induction h with
  | nil => exact k
  | cons x _ ih => exact .cons x ih

theorem Cells.one {q : Bool} {sep : Byte} {raw val : Bytes} (h : Cell q sep raw val) : Cells q sep [raw] [val] := .cons h .nil

theorem Cells.length {q : Bool} {sep : Byte} {a b : List Bytes} (h : Cells q sep a b) : a.length = b.length := by
  induction h with
  | nil => rfl
  | cons _ _ ih => simp [ih]

theorem cells_read {q : Bool} {sep : Byte} {raws vals : List Bytes} (h : Cells q sep raws vals) :
    ∀ (r : List Bytes) (rest : Bytes), raws ≠ [] →
      take q sep .start [] r (sepBy sep raws ++ 10 :: rest) = (r ++ vals) :: take q sep .start [] [] rest := by
  induction h with
  | nil => intro r rest h; exact absurd rfl h
  | @cons raw val raws vals c cs ih =>
    intro r rest _
    cases cs with
    | nil => simp only [sepBy]; exact (c r rest).2
    | cons c' cs' =>
      simp only [sepBy, List.append_assoc, List.cons_append]
      rw [(c r _).1, ih (r ++ [val]) rest (by simp)]
      simp

/-- Rows, one after the other. -/
theorem rows_read {q : Bool} {sep : Byte} : ∀ {rows : List (List Bytes)} {recs : List (List Bytes)},
    rows.length = recs.length → (∀ (i : Nat) a b, rows[i]? = some a → recs[i]? = some b → Cells q sep a b ∧ a ≠ []) →
    records q sep (rows.flatMap fun r => sepBy sep r ++ [10]) = recs := by
  intro rows
  unfold records
  induction rows with
  | nil => intro recs h _; cases recs with
    | nil => simp [take]
    | cons _ _ => simp at h
  | cons x xs ih =>
    intro recs hl h
    cases recs with
    | nil => simp at hl
    | cons y ys =>
      obtain ⟨h1, h2⟩ := h 0 x y rfl rfl
      simp only [List.flatMap_cons, List.append_assoc, List.cons_append, List.nil_append]
      rw [cells_read h1 [] _ h2, ih (by simpa using hl) (fun i a b ha hb => h (i + 1) a b ha hb)]
      simp

/-! ## Numbers -/

/-- Characters that mean nothing to the readers in use. -/
def Neutral (b : Bytes) : Prop := ∀ c ∈ b, c ∉ ([9, 10, 31, 34, 44] : Bytes)

theorem Neutral.append {a b : Bytes} (h : Neutral a) (k : Neutral b) : Neutral (a ++ b) := by
  intro c hc
  rcases List.mem_append.1 hc with hc | hc
  · exact h c hc
  · exact k c hc

/-- The separators in use. -/
def Sep (sep : Byte) : Prop := sep = 44 ∨ sep = 9 ∨ sep = 31

theorem Sep.ne10 {sep : Byte} (h : Sep sep) : sep ≠ 10 := by rcases h with rfl | rfl | rfl <;> decide
theorem Sep.ne34 {sep : Byte} (h : Sep sep) : sep ≠ 34 := by rcases h with rfl | rfl | rfl <;> decide

theorem cell_neutral {q : Bool} {sep : Byte} (hs : Sep sep) {b : Bytes} (h : Neutral b) : Cell q sep b b := by
  refine cell_plain hs.ne10 (fun hm => h _ hm ?_) (fun hm => h _ hm (by decide)) fun _ hh => ?_
  · rcases hs with rfl | rfl | rfl <;> decide
  · cases b with
    | nil => cases hh
    | cons c cs =>
      simp only [List.head?_cons, Option.some.injEq] at hh
      subst hh
      exact h 34 (List.mem_cons_self ..) (by decide)

theorem digit_neutral {c : Byte} (h : 48 ≤ c ∧ c ≤ 57) : c ∉ ([9, 10, 31, 34, 44] : Bytes) := by
  intro hm
  simp only [List.mem_cons, List.not_mem_nil, or_false] at hm
  rcases hm with rfl | rfl | rfl | rfl | rfl <;> revert h <;> decide

theorem hexDigit_spec {n : Nat} (h : n < 16) : HexFigure (hexDigit n) n ∧ hexDigit n ∉ ([9, 10, 31, 34, 44] : Bytes) := by
  have : ∀ m : Fin 16, (hexDigit m.val = UInt8.ofNat (if m.val < 10 then 48 + m.val else 87 + m.val)) ∧
      hexDigit m.val ∉ ([9, 10, 31, 34, 44] : Bytes) := by decide
  have := this ⟨n, h⟩
  exact ⟨⟨h, this.1⟩, this.2⟩

theorem hexa_spec (n : Nat) : Hexadecimal (hexa n) n ∧ Neutral (hexa n) := by
  induction n using Nat.strongRecOn with
  | _ n ih =>
    rw [hexa]
    by_cases h : n < 16
    · rw [if_pos h]
      refine ⟨.one _ _ (hexDigit_spec h).1, ?_⟩
      intro c hc
      simp only [List.mem_singleton] at hc
      subst hc
      exact (hexDigit_spec h).2
    · rw [if_neg h]
      have hm : n % 16 < 16 := Nat.mod_lt _ (by decide)
      obtain ⟨i1, i2⟩ := ih (n / 16) (by omega)
      constructor
      · have := Hexadecimal.more _ _ _ _ i1 (hexDigit_spec hm).1
        rwa [Nat.div_add_mod] at this
      · refine i2.append ?_
        intro c hc
        simp only [List.mem_singleton] at hc
        subst hc
        exact (hexDigit_spec hm).2

theorem decVal_append (a : Bytes) (c : Byte) : decVal (a ++ [c]) = 10 * decVal a + (c.toNat - 48) := by
  induction a with
  | nil => simp [decVal]
  | cons x xs ih =>
    simp only [List.cons_append, decVal, ih, List.length_append, List.length_singleton, Nat.pow_succ]
    rw [← Nat.mul_assoc]
    omega

theorem digit_ofNat {d : Nat} (h : d < 10) :
    48 ≤ UInt8.ofNat (48 + d) ∧ UInt8.ofNat (48 + d) ≤ 57 ∧ (UInt8.ofNat (48 + d)).toNat - 48 = d := by
  have : ∀ m : Fin 10, 48 ≤ UInt8.ofNat (48 + m.val) ∧ UInt8.ofNat (48 + m.val) ≤ 57 ∧ (UInt8.ofNat (48 + m.val)).toNat - 48 = m.val := by
    decide
  exact this ⟨d, h⟩

theorem decimal_snoc {a : Bytes} {n d : Nat} (h : Decimal a n) (hd : d < 10) : Decimal (a ++ [UInt8.ofNat (48 + d)]) (10 * n + d) := by
  obtain ⟨h1, h2, h3⟩ := digit_ofNat hd
  refine ⟨by simp, ?_, ?_⟩
  · intro c hc
    rcases List.mem_append.1 hc with hc | hc
    · exact h.2.1 c hc
    · simp only [List.mem_singleton] at hc; subst hc; exact ⟨h1, h2⟩
  · rw [decVal_append, h.2.2, h3]

theorem dec_decimal (n : Nat) : Decimal (Backup.dec n) n := by
  induction n using Nat.strongRecOn with
  | _ n ih =>
    rw [Backup.dec]
    by_cases h : n < 10
    · rw [if_pos h]
      obtain ⟨h1, h2, h3⟩ := digit_ofNat h
      refine ⟨by simp, ?_, ?_⟩
      · intro c hc
        simp only [List.mem_singleton] at hc; subst hc; exact ⟨h1, h2⟩
      · simp only [decVal, List.length_nil, Nat.pow_zero, Nat.mul_one, Nat.add_zero]; exact h3
    · rw [if_neg h]
      have := decimal_snoc (ih (n / 10) (by omega)) (Nat.mod_lt n (by decide : 0 < 10))
      rwa [Nat.div_add_mod] at this

theorem decimal_neutral {b : Bytes} {n : Nat} (h : Decimal b n) : Neutral b := fun c hc => digit_neutral (h.2.1 c hc)

theorem hex2_spec (b : Byte) : ∃ c d i j, hex2 b = [c, d] ∧ HexFigure c i ∧ HexFigure d j ∧ b = UInt8.ofNat (16 * i + j) ∧ Neutral [c, d] := by
  have hb : b.toNat < 256 := b.toNat_lt
  have h1 : b.toNat / 16 < 16 := by omega
  have h2 : b.toNat % 16 < 16 := Nat.mod_lt _ (by decide)
  refine ⟨_, _, _, _, rfl, (hexDigit_spec h1).1, (hexDigit_spec h2).1, ?_, ?_⟩
  · rw [Nat.div_add_mod]; simp
  · intro c hc
    simp only [List.mem_cons, List.not_mem_nil, or_false] at hc
    rcases hc with rfl | rfl
    · exact (hexDigit_spec h1).2
    · exact (hexDigit_spec h2).2

theorem hexPairs_spec (l : Bytes) : HexPairs (l.flatMap hex2) l ∧ Neutral (l.flatMap hex2) := by
  induction l with
  | nil => exact ⟨.nil, by intro c hc; cases hc⟩
  | cons b l ih =>
    obtain ⟨c, d, i, j, e, h1, h2, h3, h4⟩ := hex2_spec b
    simp only [List.flatMap_cons, e]
    exact ⟨.cons _ _ _ _ _ _ _ h1 h2 h3 ih.1, h4.append ih.2⟩

theorem roundEven_near (n d : Nat) (hd : 0 < d) : 2 * (roundEven n d * d) ≤ 2 * n + d ∧ 2 * n ≤ 2 * (roundEven n d * d) + d := by
  have h1 := Nat.div_add_mod n d
  have h2 := Nat.mod_lt n hd
  have e : ∀ k, (n / d + k) * d = d * (n / d) + k * d := by intro k; rw [Nat.add_mul, Nat.mul_comm d]
  have e0 : n / d * d = d * (n / d) := Nat.mul_comm _ _
  unfold roundEven
  simp only
  generalize hq : d * (n / d) = q at *
  by_cases a : 2 * (n % d) < d
  · rw [if_pos a, e0]; omega
  · rw [if_neg a]
    by_cases b : d < 2 * (n % d)
    · rw [if_pos b, e]; omega
    · rw [if_neg b, e]
      rcases Nat.mod_two_eq_zero_or_one (n / d) with h | h <;> rw [h] <;> omega

theorem megabytes_spec (n : Nat) : Thousandths (megabytes n) n 1048576 ∧ Neutral (megabytes n) := by
  have hr := roundEven_near (n * 1000) 1048576 (by decide)
  unfold megabytes
  simp only
  generalize roundEven (n * 1000) 1048576 = m at hr ⊢
  have d1 := dec_decimal (m / 1000)
  have d2 := decimal_snoc d1 (Nat.mod_lt (m / 100) (by decide : 0 < 10))
  have d3 := decimal_snoc d2 (Nat.mod_lt (m / 10) (by decide : 0 < 10))
  have d4 := decimal_snoc d3 (Nat.mod_lt m (by decide : 0 < 10))
  have e : 10 * (10 * (10 * (m / 1000) + m / 100 % 10) + m / 10 % 10) + m % 10 = m := by omega
  rw [e] at d4
  constructor
  · refine ⟨_, _, m, rfl, rfl, ?_, by omega, by omega⟩
    simpa using d4
  · refine (decimal_neutral d1).append ?_
    have h4 := decimal_neutral d4
    intro c hc
    simp only [List.mem_cons, List.not_mem_nil, or_false] at hc
    rcases hc with rfl | rfl | rfl | rfl
    · decide
    · exact h4 _ (by simp)
    · exact h4 _ (by simp)
    · exact h4 _ (by simp)

/-! ## Streams -/

/-- Code that puts `b`, leaving the base as told, whatever was there. -/
def Writes (p : Pr) (h : Bool) (b : Bytes) (h' : Bool) : Prop := ∀ out, p ⟨out, h⟩ = (⟨out ++ b, h'⟩, .ok ())

theorem Writes.seq {p q : Pr} {h h' h'' : Bool} {a b : Bytes} (hp : Writes p h a h') (hq : Writes q h' b h'') :
    Writes (Pr.seq p q) h (a ++ b) h'' := by
  intro out
  unfold Pr.seq
  rw [hp out]
  simp only
  rw [hq]; simp

theorem Writes.nop (h : Bool) : Writes Pr.nop h [] h := by intro out; simp [Pr.nop]
theorem Writes.put (b : Bytes) (h : Bool) : Writes (Pr.put b) h b h := by intro out; rfl
theorem Writes.base (x h : Bool) : Writes (Pr.base x) h [] x := by intro out; simp [Pr.base]
theorem Writes.value (b : Bytes) (h : Bool) : Writes (Pr.value (.ok b)) h b h := by intro out; rfl
theorem Writes.dec (n : Nat) : Writes (Pr.num n) false (Backup.dec n) false := by intro out; rfl
theorem Writes.hex (n : Nat) : Writes (Pr.num n) true (hexa n) true := by intro out; rfl
theorem Writes.all_nil (h : Bool) : Writes (Pr.all []) h [] h := Writes.nop h
theorem Writes.all_cons {p : Pr} {ps : List Pr} {h h' h'' : Bool} {a b : Bytes} (hp : Writes p h a h') (hq : Writes (Pr.all ps) h' b h'') :
    Writes (Pr.all (p :: ps)) h (a ++ b) h'' := hp.seq hq
theorem Writes.cast {p : Pr} {h h' : Bool} {a b : Bytes} (hp : Writes p h a h') (e : a = b) : Writes p h b h' := e ▸ hp

/-! ## Tags as they are read -/

open Lookup

theorem readCls_sane {c : Cfg} (hs : ∀ id, c.textParser id = true → id.head? = some 84) (id : Bytes) : ClsOk c id (readCls c id) := by
  unfold readCls ClsOk stdCls
  by_cases e1 : id = c.comId
  · left; simp [e1]
  by_cases e2 : id = c.cntId
  · left; simp only [e1, e2, if_false, if_true]
  by_cases e3 : id = c.popId
  · left; simp only [e1, e2, e3, if_false, if_true]
  simp only [e1, e2, e3, if_false]
  by_cases e4 : c.textParser id = true
  · left; simp [e4, hs id e4]
  · by_cases e5 : id.head? = some 84
    · right; simp [e4, e5]
    · left; simp [e4, e5]

/-- What is known of a tag that has been read. -/
structure Known (c : Cfg) (t : LTag) : Prop where
  inv : Inv c t
  cls : ∀ f ∈ t.frames, f.cls = readCls c f.id
  coms : t.coms = cm .com t.frames.zipIdx

theorem known_parse {c : Cfg} (hs : ∀ id, c.textParser id = true → id.head? = some 84) {t : LTag} (h : Known c t) (id d : Bytes) :
    Known c (t.parseFrame c id d) := by
  have e : t.parseFrame c id d = t.pushBack ⟨readCls c id, readCls c id, id, d⟩ := by
    unfold parseFrame readCls; rfl
  rw [e]
  refine ⟨inv_push h.inv rfl (readCls_sane hs id), ?_, ?_⟩
  · intro f hf
    simp only [pushBack, alloc, addLookups_frames, List.mem_append, List.mem_singleton] at hf
    rcases hf with hf | rfl
    · exact h.cls f hf
    · rfl
  · simp only [pushBack, alloc, addLookups_frames, List.zipIdx_append, List.length_append, List.length_singleton, Nat.add_sub_cancel]
    cases hc : readCls c id <;>
      simp [addLookups, cm, List.filter_append, h.coms]

theorem known_read {c : Cfg} (hs : ∀ id, c.textParser id = true → id.head? = some 84) (l : List (Bytes × Bytes)) :
    Known c (l.foldl (fun t x => t.parseFrame c x.1 x.2) LTag.empty) := by
  have key : ∀ (l : List (Bytes × Bytes)) (t : LTag), Known c t → Known c (l.foldl (fun t x => t.parseFrame c x.1 x.2) t) := by
    intro l
    induction l with
    | nil => intro t h; exact h
    | cons x l ih => intro t h; exact ih _ (known_parse hs h _ _)
  exact key l _ ⟨inv_empty c, by simp [LTag.empty], by simp [LTag.empty, cm]⟩

theorem readCls_com {c : Cfg} {id : Bytes} : readCls c id = .com ↔ id = c.comId := by
  unfold readCls
  by_cases e1 : id = c.comId
  · simp [e1]
  · simp only [e1, if_false, iff_false]
    split
    · simp
    · split
      · simp
      · split <;> simp

theorem readCls_cnt {c : Cfg} {id : Bytes} : readCls c id = .cnt ↔ id = c.cntId := by
  have hne : c.comId ≠ c.cntId := by cases e : c.ver <;> simp [Cfg.comId, Cfg.cntId, e]
  unfold readCls
  by_cases e1 : id = c.comId
  · simp [e1, hne]
  · by_cases e2 : id = c.cntId
    · rw [if_neg e1, if_pos e2]; simp [e2]
    · simp only [e1, e2, if_false, iff_false]
      split
      · simp
      · split <;> simp

theorem filter_cls {c : Cfg} {t : LTag} (h : Known c t) {k : Cls} {kid : Bytes} (hk : ∀ id, readCls c id = k ↔ id = kid) :
    dataOf k (contents t) = (withId kid (contents t)).map (·.data) := by
  unfold dataOf withId contents
  congr 1
  apply List.filter_congr
  intro x hx
  obtain ⟨f, hf, rfl⟩ := List.mem_map.1 hx
  have := h.cls f hf
  simp only [decide_eq_decide]
  rw [this]
  exact hk f.id

theorem derefAll_list {t : LTag} {c : Cfg} (h : Inv c t) : ∀ (l : List (Fr × Nat)), (∀ x ∈ l, x.1 ∈ t.frames) →
    derefAll t (l.map fun x => (x.1.ptr, x.2)) = .ok (l.map fun x => x.1.data) := by
  intro l
  induction l with
  | nil => intro _; rfl
  | cons x l ih =>
    intro hl
    have h1 := deref_spec h (hl x (List.mem_cons_self ..))
    simp only [List.map_cons, derefAll, h1, Res.ok_bind]
    rw [ih fun y hy => hl y (List.mem_cons_of_mem _ hy)]
    rfl

theorem zipIdx_filter_map {α β : Type} (p : α → Bool) (f : α → β) (l : List α) (k : Nat) :
    ((l.zipIdx k).filter fun x => p x.1).map (fun x => f x.1) = (l.filter p).map f := by
  induction l generalizing k with
  | nil => rfl
  | cons a l ih =>
    simp only [List.zipIdx_cons, List.filter_cons]
    by_cases h : p a = true
    · simp only [h, if_true, List.map_cons, ih]
    · simp only [h, Bool.false_eq_true, if_false, ih]

theorem comments_known {c : Cfg} {t : LTag} (h : Known c t) :
    t.comments = .ok ((withId c.comId (contents t)).map (·.data)) := by
  unfold LTag.comments
  rw [h.coms]
  unfold cm
  rw [derefAll_list h.inv]
  · rw [← filter_cls h (fun id => readCls_com), dataOf, contents]
    have := zipIdx_filter_map (fun f : Fr => decide (f.cls = .com)) (fun f => f.data) t.frames 0
    rw [this, List.filter_map, List.map_map]
    rfl
  · intro x hx
    have := (List.mem_filter.1 hx).1
    exact List.mem_of_getElem? (mem_zip.1 (by simpa using this))

theorem has_known {c : Cfg} {t : LTag} (h : Known c t) (id : Bytes) : t.hasFrame id = (withId id (contents t)).length := by
  rw [has_spec h.inv, List.countP_eq_length_filter]; rfl

end Report
end Scribbu
