import Verif.Model.AnyTag
import Verif.Proofs.Tagset

/-! # C32: adjusting the padding -/

namespace Scribbu.Props
open Scribbu Spec Tagset

/-- The paddings of the tags are `ps`. -/
def Padded (I : TagI τ) : List τ → List Nat → Prop := Pairs fun t p => I.padding t = .ok p

/-- `t'` is `t`, possibly with another padding `q`. -/
def Repadded (I : TagI τ) (t t' : τ) : Prop := t' = t ∨ ∃ q, t' = I.setPadding t q

/-- **C32** as claimed, for tags of any version: told that the tags now take `curr` bytes, `adjust_padding_to` makes
them take `new`: it changes nothing but paddings, and the paddings change by `new - curr` in total; otherwise it
throws and leaves the tags as they were. -/
def C32_claim : Prop := ∀ (z : Zlib) (ts : List AnyTag) (ps : List Nat) (new curr : Nat), Padded (anyI z) ts ps →
  (∀ p ∈ ps, p < 2 ^ 28) → new < 2 ^ 28 → curr < 2 ^ 28 →
  (adjustPaddingTo (anyI z) ts new curr).2.safe ∧
  ((adjustPaddingTo (anyI z) ts new curr).2 = .ok () →
    Pairs (Repadded (anyI z)) ts (adjustPaddingTo (anyI z) ts new curr).1 ∧
    ∃ qs, Padded (anyI z) (adjustPaddingTo (anyI z) ts new curr).1 qs ∧ qs.sum + curr = ps.sum + new) ∧
  ((∃ e, (adjustPaddingTo (anyI z) ts new curr).2 = .throw e) → (adjustPaddingTo (anyI z) ts new curr).1 = ts)

/-- An ID3v2.3 tag without frames. -/
def bare (pad : Nat) : AnyTag := .inr (.inl (Tag23.scratch pad false none))

/-- With no tags at all the number of tags is divided by. -/
theorem C32_refuted : ¬ C32_claim := by
  intro h
  have := (h ⟨fun b => .ok b, fun b _ => .ok b, fun _ _ => 0⟩ [] [] 10 0 .nil (by simp) (by decide) (by decide)).1
  revert this
  decide

/-- The paddings afterwards. -/
def padsOf (I : TagI τ) (ts : List τ) : List (Res Nat) := ts.map I.padding

/-- Two tags with paddings of 0 and 5 bytes, to be made one byte smaller: the one byte is taken from the
first tag, which is not checked, and whose padding becomes 2^64 - 1. -/
theorem C32_refuted_wrap (z : Zlib) :
    (adjustPaddingTo (anyI z) [bare 0, bare 5] 24 25).2 = .ok () ∧
    padsOf (anyI z) (adjustPaddingTo (anyI z) [bare 0, bare 5] 24 25).1 = [.ok (2 ^ 64 - 1), .ok 5] := by
  exact ⟨rfl, rfl⟩

/-- Paddings of 10 and 0 bytes, to be made 4 bytes smaller: refused, although 10 bytes are there, and after the first
tag has lost two of them. -/
theorem C32_refuted_unchanged (z : Zlib) :
    (adjustPaddingTo (anyI z) [bare 10, bare 0] 26 30).2 = .throw .tagsetRequest ∧
    padsOf (anyI z) (adjustPaddingTo (anyI z) [bare 10, bare 0] 26 30).1 = [.ok 8, .ok 0] := by
  exact ⟨rfl, rfl⟩

theorem anyI_padding (z : Zlib) (t : AnyTag) (q : Nat) : (anyI z).padding ((anyI z).setPadding t q) = .ok q := by
  rcases t with t | t | t <;> rfl

theorem padded_set (z : Zlib) {ts : List AnyTag} {qs : List Nat} (h : qs.length = ts.length) :
    Padded (anyI z) (setPads (anyI z) ts qs) qs ∧ Pairs (Repadded (anyI z)) ts (setPads (anyI z) ts qs) := by
  induction ts generalizing qs with
  | nil =>
    cases qs with
    | nil => exact ⟨.nil, .nil⟩
    | cons q qs => simp at h
  | cons t ts ih =>
    cases qs with
    | nil => simp at h
    | cons q qs =>
      obtain ⟨h1, h2⟩ := ih (qs := qs) (by simpa using h)
      exact ⟨.cons (anyI_padding z t q) h1, .cons (.inr ⟨q, rfl⟩) h2⟩

theorem pairs_append {R : α → β → Prop} {a c : List α} {b d : List β} (h1 : Pairs R a b) (h2 : Pairs R c d) :
    Pairs R (a ++ c) (b ++ d) := by
  induction h1 with
  | nil => exact h2
  | cons h _ ih => exact .cons h ih

theorem pairs_refl {R : α → α → Prop} (h : ∀ a, R a a) (l : List α) : Pairs R l l := by
  induction l with
  | nil => exact .nil
  | cons a l ih => exact .cons (h a) ih

theorem pairs_drop {R : α → β → Prop} {a : List α} {b : List β} (h : Pairs R a b) (k : Nat) : Pairs R (a.drop k) (b.drop k) := by
  induction h generalizing k with
  | nil => simpa using Pairs.nil
  | cons h1 h2 ih =>
    cases k with
    | zero => exact .cons h1 h2
    | succ k => simpa using ih k

theorem pairs_length {R : α → β → Prop} {a : List α} {b : List β} (h : Pairs R a b) : a.length = b.length := by
  induction h with
  | nil => rfl
  | cons _ _ ih => simp [ih]

theorem pairs_of_get {R : α → β → Prop} {a : List α} {b : List β} (h : a.length = b.length)
    (h1 : ∀ i (hi : i < a.length) (hj : i < b.length), R a[i] b[i]) : Pairs R a b := by
  induction a generalizing b with
  | nil => cases b with
    | nil => exact .nil
    | cons => simp at h
  | cons x a ih => cases b with
    | nil => simp at h
    | cons y b =>
      refine .cons (h1 0 (by simp) (by simp)) (ih (by simpa using h) fun i hi hj => ?_)
      exact h1 (i + 1) (by simpa using hi) (by simpa using hj)

/-- The first tag has padding enough for its share and what division leaves over, the others for
their share. -/
def EnoughFor (ps : List Nat) (less : Nat) : Prop :=
  (∀ p, ps.head? = some p → less / ps.length + less % ps.length ≤ p) ∧ ∀ p ∈ ps.tail, less / ps.length ≤ p

/-- **C32** (partial) For at least one tag, of whatever version, and provided that the first has padding enough if the
tags are to be made smaller by less than a byte each: either the call succeeds, nothing but paddings has
changed, and the paddings together have changed by exactly the difference asked for; or, and only if the
tags are to become smaller, the call is refused, nothing but paddings has changed, and none has grown. It
is refused exactly if some tag has less padding than its share.
Missing: no tags (the call divides by zero), the excepted case (the padding wraps round), and on refusal the
tags before the one that lacks padding have been changed. -/
theorem C32_partial (z : Zlib) (ts : List AnyTag) (ps : List Nat) (new curr : Nat) (hp : Padded (anyI z) ts ps)
    (hne : ts ≠ []) (hb : ∀ p ∈ ps, p < 2 ^ 63) (hn : new < 2 ^ 63) (hc : curr < 2 ^ 63)
    (hw : curr < new + ps.length → ∀ p, ps.head? = some p → curr ≤ new + p) :
    Pairs (Repadded (anyI z)) ts (adjustPaddingTo (anyI z) ts new curr).1 ∧
    ∃ qs, Padded (anyI z) (adjustPaddingTo (anyI z) ts new curr).1 qs ∧
      ((new < curr → EnoughFor ps (curr - new)) →
        (adjustPaddingTo (anyI z) ts new curr).2 = .ok () ∧ qs.sum + curr = ps.sum + new) ∧
      (¬ (new < curr → EnoughFor ps (curr - new)) →
        (adjustPaddingTo (anyI z) ts new curr).2 = .throw .tagsetRequest ∧ Pairs (· ≥ ·) ps qs) := by
  have hp0 := hp
  cases hp with
  | nil => exact absurd rfl hne
  | @cons t p ts ps h1 h2 =>
    have hl := pairs_length h2
    obtain ⟨a1, a2⟩ := adjust_cases (I := anyI z) (t := t) (ts := ts) (p := p) (ps := ps) (.cons h1 h2) new curr
      (by intro q hq; have := hb q hq; omega)
      (by intro h; exact hw (by simp only [List.length_cons]; omega) p rfl)
    have key : ((new < curr → EnoughFor (p :: ps) (curr - new)) ↔
        (0 ≤ (p : Int) + ((new : Int) - curr).tdiv ((ts.length + 1 : Nat) : Int) +
            ((new : Int) - curr).tmod ((ts.length + 1 : Nat) : Int) ∧
          ∀ q ∈ ps, 0 ≤ (q : Int) + ((new : Int) - curr).tdiv ((ts.length + 1 : Nat) : Int))) := by
      by_cases hlt : new < curr
      · have e : (new : Int) - curr = -((curr - new : Nat) : Int) := by omega
        rw [e, Int.neg_tdiv, Int.neg_tmod, ← Int.ofNat_tdiv, ← Int.ofNat_tmod]
        simp only [hlt, EnoughFor, List.head?_cons, Option.some.injEq, forall_eq', forall_const, List.tail_cons,
          List.length_cons, hl]
        constructor
        · rintro ⟨g1, g2⟩
          exact ⟨by omega, fun q hq => by have := g2 q hq; omega⟩
        · rintro ⟨g1, g2⟩
          exact ⟨by omega, fun q hq => by have := g2 q hq; omega⟩
      · obtain ⟨-, f2, -⟩ := tdiv_facts ((new : Int) - curr) (ts.length + 1) (by omega)
        have := f2 (by omega)
        simp only [hlt, false_implies, true_iff]
        exact ⟨by omega, fun q _ => by omega⟩
    by_cases hk : (new < curr → EnoughFor (p :: ps) (curr - new))
    · obtain ⟨qs, b1, b2, b3⟩ := a1 (key.1 hk)
      rw [b1]
      obtain ⟨c1, c2⟩ := padded_set z (ts := t :: ts) (qs := qs) (by simpa using b2)
      exact ⟨c2, qs, c1, fun _ => ⟨rfl, b3⟩, fun h => absurd hk h⟩
    · obtain ⟨b0, k, qs, b1, b2, b3, b4⟩ := a2 (fun h => hk (key.2 h))
      rw [b1]
      have htk : ((t :: ts).take k).length = k := by rw [List.length_take]; simp only [List.length_cons]; omega
      obtain ⟨c1, c2⟩ := padded_set z (ts := (t :: ts).take k) (qs := qs) (by omega)
      refine ⟨?_, qs ++ (p :: ps).drop k, ?_, fun h => absurd h hk, fun _ => ⟨rfl, ?_⟩⟩
      · have := pairs_append c2 (pairs_refl (R := Repadded (anyI z)) (fun a => .inl rfl) ((t :: ts).drop k))
        rwa [List.take_append_drop] at this
      · exact pairs_append c1 (pairs_drop hp0 k)
      · refine pairs_of_get (by rw [List.length_append, List.length_drop]; simp only [List.length_cons]; omega) ?_
        intro i hi hj
        by_cases hik : i < k
        · rw [List.getElem_append_left (by omega)]
          exact b4 i (by omega) hi
        · rw [List.getElem_append_right (by omega), List.getElem_drop]
          exact Nat.le_of_eq (by congr 1; omega)

/-- Three tags with paddings 5, 4 and 4, to be made 7 bytes smaller: 3 from the first, 2 from the others. -/
example (z : Zlib) : padsOf (anyI z) (adjustPaddingTo (anyI z) [bare 5, bare 4, bare 4] 36 43).1 = [.ok 2, .ok 2, .ok 2] ∧
    EnoughFor [5, 4, 4] 7 := ⟨rfl, by unfold EnoughFor; simp⟩
/-- The premises can be met. -/
example (z : Zlib) : Padded (anyI z) [bare 5, bare 4, bare 4] [5, 4, 4] := .cons rfl (.cons rfl (.cons rfl .nil))

end Scribbu.Props
