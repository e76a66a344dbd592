import Verif.Props.Unsync

/-! Property C202: data can be unsynchronised in pieces. -/

namespace Scribbu.Props
open Scribbu Scribbu.Spec

/-- Between `a` and `b` there is a place where unsynchronisation puts a byte: `a` ends in FF, and `b` begins with 00 or with E0 or more, or there is nothing
and the end-of-tag rule is in force. -/
def Joint (last : Bool) (a b : Bytes) : Prop :=
  a.getLast? = some 0xff ∧ ((∃ c r, b = c :: r ∧ (c = 0 ∨ 0xe0 ≤ c.toNat)) ∨ (b = [] ∧ last = true))

theorem joint_cons {last : Bool} {x y : Byte} {a b : Bytes} : Joint last (x :: y :: a) b ↔ Joint last (y :: a) b := by
  simp only [Joint, List.getLast?_cons_cons]

theorem unsync_ff (last : Bool) (c : Byte) (r : Bytes) :
    unsynchronise last (0xff :: c :: r) = if unsyncTest c then 0xff :: 0 :: unsynchronise last (c :: r) else 0xff :: unsynchronise last (c :: r) := by
  conv => lhs; unfold unsynchronise
  rw [if_pos rfl]

theorem unsync_other (last : Bool) {x : Byte} (hx : x ≠ 0xff) (r : Bytes) : unsynchronise last (x :: r) = x :: unsynchronise last r := by
  conv => lhs; unfold unsynchronise
  rw [if_neg hx]

open Classical in
theorem unsync_append (last : Bool) (a b : Bytes) :
    unsynchronise last (a ++ b) = unsynchronise false a ++ ((if Joint last a b then [0] else []) ++ unsynchronise last b) := by
  induction a with
  | nil => rw [if_neg (by simp [Joint])]; rfl
  | cons x a ih =>
    cases a with
    | nil =>
      by_cases hx : x = 0xff
      · subst hx
        cases b with
        | nil => cases last <;> simp [Joint, unsynchronise]
        | cons c r =>
          have hj : Joint last [0xff] (c :: r) ↔ unsyncTest c = true := by
            rw [unsyncTest_iff]
            constructor
            · rintro ⟨-, ⟨c', r', he, h⟩ | ⟨he, -⟩⟩
              · cases he; exact h
              · cases he
            · exact fun h => ⟨rfl, .inl ⟨c, r, rfl, h⟩⟩
          rw [List.cons_append, List.nil_append, unsync_ff]
          by_cases hc : unsyncTest c = true
          · rw [if_pos hc, if_pos (hj.mpr hc)]; rfl
          · rw [if_neg hc, if_neg (fun h => hc (hj.mp h))]; rfl
      · rw [if_neg (by simp [Joint, hx]), List.cons_append, unsync_other last hx, unsync_other false hx]
        rfl
    | cons y a =>
      simp only [joint_cons]
      rw [List.cons_append] at ih
      rw [List.cons_append, List.cons_append]
      by_cases hx : x = 0xff
      · rw [hx, unsync_ff, unsync_ff, ih]
        split <;> rfl
      · rw [unsync_other last hx, unsync_other false hx, ih]
        rfl

theorem rs_append (prev : Bool) (a b : Bytes) : rs prev (a ++ b) = rs prev a ++ rs (if a = [] then prev else a.getLast? == some 0xff) b := by
  induction a generalizing prev with
  | nil => rfl
  | cons x a ih =>
    have hl : (if a = [] then (x == 0xff) else a.getLast? == some 0xff) = ((x :: a).getLast? == some 0xff) := by
      cases a with
      | nil => simp
      | cons y a => simp
    rw [if_neg (by simp), ← hl, List.cons_append, rs, rs]
    split
    · next h =>
      simp only [Bool.and_eq_true, beq_iff_eq] at h
      rw [ih false, h.2]
      rfl
    · rw [ih]; rfl

/-- **C202** What is unsynchronised in two pieces is what is unsynchronised at once, exactly if there is no place between them where a byte has to be put. -/
theorem C202_at_once (last : Bool) (a b : Bytes) :
    unsynchronise last (a ++ b) = unsynchronise false a ++ unsynchronise last b ↔ ¬ Joint last a b := by
  rw [unsync_append]
  constructor
  · intro h hj
    rw [if_pos hj] at h
    have := congrArg List.length h
    simp at this
  · intro h
    rw [if_neg h]
    rfl

/-- **C202** What is resynchronised in two pieces is what is resynchronised at once, exactly if the first does not end in FF with 00 after it. -/
theorem C202_resynchronised (a b : Bytes) : ∃ p n pa na pb nb, resynchronise (a ++ b) = some (.ok (p, n)) ∧ resynchronise a = some (.ok (pa, na)) ∧
    resynchronise b = some (.ok (pb, nb)) ∧ (p.take n = pa.take na ++ pb.take nb ↔ ¬ (a.getLast? = some 0xff ∧ b.head? = some 0)) := by
  obtain ⟨p, n, h1, -, -, h2⟩ := resynchronise_spec (a ++ b)
  obtain ⟨pa, na, h3, -, -, h4⟩ := resynchronise_spec a
  obtain ⟨pb, nb, h5, -, -, h6⟩ := resynchronise_spec b
  refine ⟨p, n, pa, na, pb, nb, h1, h3, h5, ?_⟩
  rw [h2, h4, h6, rs_append]
  by_cases ha : a.getLast? = some 0xff
  · have hne : a ≠ [] := by rintro rfl; simp at ha
    rw [if_neg hne, ha]
    cases b with
    | nil => simp [rs]
    | cons c r =>
      by_cases hc : c = 0
      · subst hc
        simp only [List.head?_cons, and_self, not_true_eq_false, iff_false]
        intro h
        have := congrArg List.length (List.append_cancel_left h)
        simp [rs] at this
      · simp [rs, hc]
  · have : (if a = [] then false else a.getLast? == some 0xff) = false := by
      split
      · rfl
      · simpa using ha
    rw [this]
    simp [ha]

theorem hasPair_append {x : Byte} {q : Byte → Prop} {a b : Bytes} (ha : ¬ HasPair x q a) (hb : ¬ HasPair x q b) (hl : a.getLast? ≠ some x) :
    ¬ HasPair x q (a ++ b) := by
  induction a with
  | nil => exact hb
  | cons y a ih =>
    cases a with
    | nil =>
      have hy : y ≠ x := fun h => hl (by rw [h]; rfl)
      rw [List.cons_append, List.nil_append, hasPair_cons_ne q b hy]
      exact hb
    | cons w a =>
      rw [hasPair_cons] at ha
      rw [List.cons_append, List.cons_append, hasPair_cons]
      rw [List.getLast?_cons_cons] at hl
      rintro (h | h)
      · exact ha (.inl h)
      · exact ih (fun h => ha (.inr h)) hl h

/-- **C202** Any number of pieces, each unsynchronised by itself with the end-of-tag rule: together they have no false sync, and resynchronising them at once
gives the pieces back, one after the other. -/
theorem C202_pieces (ps : List Bytes) : ¬ HasFalseSync (ps.map (unsynchronise true)).flatten ∧
    ∃ p n, resynchronise (ps.map (unsynchronise true)).flatten = some (.ok (p, n)) ∧ p.take n = ps.flatten := by
  refine ⟨?_, ?_⟩
  · induction ps with
    | nil => exact hasPair_nil _ _
    | cons a ps ih =>
      rw [List.map_cons, List.flatten_cons]
      exact hasPair_append (C04_no_false_sync true a) ih (C04_not_trailing_ff a)
  · obtain ⟨p, n, h1, -, -, h2⟩ := resynchronise_spec (ps.map (unsynchronise true)).flatten
    refine ⟨p, n, h1, h2.trans ?_⟩
    clear h1 h2
    induction ps with
    | nil => rfl
    | cons a ps ih =>
      rw [List.map_cons, List.flatten_cons, List.flatten_cons, rs_append, rs_unsync]
      have : (if unsynchronise true a = [] then false else (unsynchronise true a).getLast? == some 0xff) = false := by
        split
        · rfl
        · simpa using C04_not_trailing_ff a
      rw [this, ih]

/-- **C202** The rule is needed: without it two pieces may make a false sync, and one of their bytes may be lost. -/
theorem C202_rule_needed : HasFalseSync (unsynchronise false [0xff] ++ unsynchronise false [0xfb]) ∧
    ∃ p n, resynchronise (unsynchronise false [0xff] ++ unsynchronise false [0]) = some (.ok (p, n)) ∧ p.take n = [0xff] :=
  ⟨⟨[], 0xfb, [], rfl, by decide⟩, [0xff, 0], 1, by decide +kernel, rfl⟩

/-- Two pieces with a place between them, and two without. -/
example : Joint false [0x41, 0xff] [0xfb] ∧ ¬ Joint false [0x41, 0xff] [0x90] :=
  ⟨⟨rfl, .inl ⟨0xfb, [], rfl, .inr (by decide)⟩⟩, by
    rintro ⟨-, ⟨c, r, he, h⟩ | ⟨he, -⟩⟩
    · cases he; revert h; decide
    · cases he⟩

example : ([[0x41, 0xff], [0xfb, 0xff], [0, 7]].map (unsynchronise true)).flatten = [0x41, 0xff, 0, 0xfb, 0xff, 0, 0, 7] := by decide

end Scribbu.Props
