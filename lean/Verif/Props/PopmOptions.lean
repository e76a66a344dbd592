import Verif.Props.PopmCmd
import Verif.Props.Bodies

/-! C90: ratings. C91: the options of `popm`. -/

namespace Scribbu.Props
open Scribbu Commands Process Spec LTag Lookup

/-! ## C90: ratings -/

/-- C90 in full: a text is accepted as a rating just if it is one, and understood as such. -/
def C90_claim : Prop := ∀ b r, ratingFromText b = .ok r ↔ Rating b r

theorem digitsVal_some {n m : Nat} {b : Bytes} : digitsVal n b = some m ↔ (∀ c ∈ b, 48 ≤ c ∧ c ≤ 57) ∧ m = n * 10 ^ b.length + decVal b := by
  induction b generalizing n with
  | nil => simp [digitsVal, decVal, eq_comm]
  | cons c b ih =>
    unfold digitsVal
    by_cases h : 48 ≤ c ∧ c ≤ 57
    · rw [if_pos h, ih]
      simp only [List.mem_cons, forall_eq_or_imp, h, true_and, decVal, List.length_cons, and_self]
      have : (10 * n + (c.toNat - 48)) * 10 ^ b.length + decVal b = n * 10 ^ (b.length + 1) + ((c.toNat - 48) * 10 ^ b.length + decVal b) := by
        rw [Nat.pow_succ, Nat.add_mul]
        have : 10 * n * 10 ^ b.length = n * (10 ^ b.length * 10) := by
          rw [Nat.mul_comm 10 n, Nat.mul_assoc, Nat.mul_comm 10]
        omega
      rw [this]
    · rw [if_neg h]
      simp [h]

theorem starChar_iff (c : Byte) : starChar c = true ↔ Star c := by
  simp [starChar, Star, or_assoc]

theorem starsRating_iff (b : Bytes) (r : Byte) : starsRating b = .ok r ↔ (∀ c ∈ b, Star c) ∧ stars b.length = some r := by
  unfold starsRating
  have hall : b.all starChar = true ↔ ∀ c ∈ b, Star c := by
    rw [List.all_eq_true]
    exact ⟨fun h c hc => (starChar_iff c).1 (h c hc), fun h c hc => (starChar_iff c).2 (h c hc)⟩
  by_cases h : 1 ≤ b.length ∧ b.length ≤ 5 ∧ b.all starChar = true
  · rw [if_pos h]
    obtain ⟨h1, h2, h3⟩ := h
    have hl : b.length = 1 ∨ b.length = 2 ∨ b.length = 3 ∨ b.length = 4 ∨ b.length = 5 := by omega
    have hs := hall.1 h3
    rcases hl with hl | hl | hl | hl | hl <;> simp only [hl, stars, Res.ok.injEq, Option.some.injEq] <;> exact ⟨fun h => ⟨hs, h⟩, And.right⟩
  · rw [if_neg h]
    constructor
    · intro h'; cases h'
    · rintro ⟨h1, h2⟩
      exfalso
      refine h ⟨?_, ?_, hall.2 h1⟩
      · rcases hb : b.length with _ | n
        · rw [hb] at h2; cases h2
        · omega
      · rcases Nat.lt_or_ge 5 b.length with h' | h'
        · obtain ⟨n, hn⟩ : ∃ n, b.length = n + 6 := ⟨b.length - 6, by omega⟩
          rw [hn] at h2
          cases h2
        · exact h'

/-- A digit or a minus sign is no star. -/
theorem digit_no_star {c : Byte} (h : 45 = c ∨ 48 ≤ c ∧ c ≤ 57) : ¬ Star c := by
  have : ∀ c : Byte, (45 = c ∨ 48 ≤ c ∧ c ≤ 57) → starChar c = false := by
    intro c
    rcases c with ⟨⟨c, hc⟩⟩
    revert hc
    have : ∀ i : Fin 256, (45 = UInt8.ofNat i.val ∨ 48 ≤ UInt8.ofNat i.val ∧ UInt8.ofNat i.val ≤ 57) → starChar (UInt8.ofNat i.val) = false := by
      decide +kernel
    intro hc
    have h' := this ⟨c, hc⟩
    have e : UInt8.ofNat c = (⟨⟨c, hc⟩⟩ : UInt8) := by
      apply UInt8.toNat_inj.1
      rw [UInt8.toNat_ofNat']
      exact Nat.mod_eq_of_lt hc
    simp only [e] at h'
    exact h'
  intro hs
  rw [← starChar_iff, this c h] at hs
  cases hs

theorem castUShort_iff (b : Bytes) (n : Nat) : castUShort b = some n ↔
    (Decimal b n ∧ n < 65536) ∨ (∃ ds, b = 43 :: ds ∧ Decimal ds n ∧ n < 65536) ∨
      (∃ ds m, b = 45 :: ds ∧ Decimal ds m ∧ m < 65536 ∧ n = (65536 - m) % 65536) := by
  have key : ∀ (neg : Bool) (ds : Bytes), (if ds.isEmpty then none
      else (digitsVal 0 ds).bind fun n => if n < 65536 then some (if neg then (65536 - n) % 65536 else n) else none) = some n ↔
      ∃ m, Decimal ds m ∧ m < 65536 ∧ n = if neg then (65536 - m) % 65536 else m := by
    intro neg ds
    cases hd : digitsVal 0 ds with
    | none =>
      constructor
      · split
        · intro h; cases h
        · intro h; cases h
      · rintro ⟨m, ⟨-, h2, -⟩, -⟩
        have := (digitsVal_some (n := 0) (m := 0 * 10 ^ ds.length + decVal ds)).2 ⟨h2, rfl⟩
        rw [hd] at this
        cases this
    | some m =>
      obtain ⟨h1, h2⟩ := digitsVal_some.1 hd
      rw [Nat.zero_mul, Nat.zero_add] at h2
      by_cases he : ds = []
      · subst he
        constructor
        · intro h; cases h
        · rintro ⟨_, ⟨h, -⟩, -⟩; exact absurd rfl h
      · rw [if_neg (by simpa using he)]
        simp only [Option.bind_some]
        constructor
        · intro h
          split at h
          · injection h with h
            exact ⟨m, ⟨he, h1, h2.symm⟩, ‹_›, h.symm⟩
          · cases h
        · rintro ⟨m', ⟨-, -, h3⟩, h4, rfl⟩
          have : m' = m := h3.symm.trans h2.symm
          subst this
          rw [if_pos h4]
  have d43 : ¬ (48 ≤ (43 : Byte) ∧ (43 : Byte) ≤ 57) := by decide
  have d45 : ¬ (48 ≤ (45 : Byte) ∧ (45 : Byte) ≤ 57) := by decide
  unfold castUShort
  split
  · rename_i ds
    have := key true ds
    simp only [if_true] at this
    simp only [if_true]
    rw [this]
    constructor
    · rintro ⟨m, h1, h2, h3⟩
      exact .inr (.inr ⟨ds, m, rfl, h1, h2, h3⟩)
    · rintro (⟨⟨-, h, -⟩, -⟩ | ⟨ds', h, -⟩ | ⟨ds', m, h, h1, h2, h3⟩)
      · exact absurd (h 45 List.mem_cons_self) d45
      · exact absurd (List.cons.inj h).1 (by decide)
      · injection h with _ h
        subst h
        exact ⟨m, h1, h2, h3⟩
  · rename_i ds
    have := key false ds
    simp only [Bool.false_eq_true, if_false] at this
    simp only [Bool.false_eq_true, if_false]
    rw [this]
    constructor
    · rintro ⟨m, h1, h2, rfl⟩
      exact .inr (.inl ⟨ds, rfl, h1, h2⟩)
    · rintro (⟨⟨-, h, -⟩, -⟩ | ⟨ds', h, h1, h2⟩ | ⟨ds', m, h, -⟩)
      · exact absurd (h 43 List.mem_cons_self) d43
      · injection h with _ h
        subst h
        exact ⟨n, h1, h2, rfl⟩
      · exact absurd (List.cons.inj h).1 (by decide)
  · rename_i h45 h43
    have := key false b
    simp only [Bool.false_eq_true, if_false] at this
    simp only [Bool.false_eq_true, if_false]
    rw [this]
    constructor
    · rintro ⟨m, h1, h2, rfl⟩
      exact .inl ⟨h1, h2⟩
    · rintro (⟨h1, h2⟩ | ⟨ds', h, -⟩ | ⟨ds', m, h, -⟩)
      · exact ⟨n, h1, h2, rfl⟩
      · exact absurd h (h43 ds')
      · exact absurd h (h45 ds')

theorem decimal_unique {b : Bytes} {n m : Nat} (h : Decimal b n) (h' : Decimal b m) : n = m := h.2.2.symm.trans h'.2.2

theorem decimal_no_stars {b : Bytes} {n : Nat} (h : Decimal b n) : ¬ ∀ c ∈ b, Star c := by
  obtain ⟨h1, h2, -⟩ := h
  cases b with
  | nil => exact absurd rfl h1
  | cons c b =>
    intro h
    exact digit_no_star (.inr (h2 c List.mem_cons_self)) (h c List.mem_cons_self)

/-- C90, as far as it holds. A number from 0 to 255, and a character that is repeated one to five times, are accepted and understood
(`Rating`). What else is accepted: one to five characters that are not the same; a plus sign before the number; and negative numbers that
are 0 to 255 modulo 2¹⁶. -/
theorem C90_partial (b : Bytes) (r : Byte) :
    (Rating b r → ratingFromText b = .ok r) ∧
    (ratingFromText b = .ok r ↔ Decimal b r.toNat ∨ (∃ ds, b = 43 :: ds ∧ Decimal ds r.toNat) ∨
      (∃ ds m, b = 45 :: ds ∧ Decimal ds m ∧ m < 65536 ∧ r.toNat = (65536 - m) % 65536) ∨ ((∀ c ∈ b, Star c) ∧ stars b.length = some r)) ∧
    ((∃ r, ratingFromText b = .ok r) ∨ ratingFromText b = .throw .invalidArgument) := by
  have hnum : ∀ n, castUShort b = some n → ¬ ∀ c ∈ b, Star c := by
    intro n h
    rcases (castUShort_iff b n).1 h with ⟨h, -⟩ | ⟨ds, rfl, h, -⟩ | ⟨ds, m, rfl, h, -⟩
    · exact decimal_no_stars h
    · exact fun h' => decimal_no_stars h fun c hc => h' c (List.mem_cons_of_mem _ hc)
    · exact fun h' => digit_no_star (.inl rfl) (h' 45 List.mem_cons_self)
  have hlt := r.toNat_lt
  have hiff : ratingFromText b = .ok r ↔ castUShort b = some r.toNat ∨ ((∀ c ∈ b, Star c) ∧ stars b.length = some r) := by
    unfold ratingFromText
    cases hc : castUShort b with
    | none => simp [starsRating_iff]
    | some n =>
      simp only [Option.some.injEq]
      by_cases hn : n ≤ 255
      · rw [if_pos hn]
        constructor
        · intro h
          injection h with h
          refine .inl ?_
          rw [← h, UInt8.toNat_ofNat']
          omega
        · rintro (h | ⟨h, -⟩)
          · rw [h]
            simp
          · exact absurd h (hnum n hc)
      · rw [if_neg hn, starsRating_iff]
        constructor
        · exact .inr
        · rintro (h | h)
          · omega
          · exact h
  have hfull : ratingFromText b = .ok r ↔ Decimal b r.toNat ∨ (∃ ds, b = 43 :: ds ∧ Decimal ds r.toNat) ∨
      (∃ ds m, b = 45 :: ds ∧ Decimal ds m ∧ m < 65536 ∧ r.toNat = (65536 - m) % 65536) ∨ ((∀ c ∈ b, Star c) ∧ stars b.length = some r) := by
    rw [hiff, castUShort_iff]
    constructor
    · rintro ((⟨h, -⟩ | ⟨ds, h1, h2, -⟩ | ⟨ds, m, h⟩) | h)
      · exact .inl h
      · exact .inr (.inl ⟨ds, h1, h2⟩)
      · exact .inr (.inr (.inl ⟨ds, m, h⟩))
      · exact .inr (.inr (.inr h))
    · rintro (h | ⟨ds, h1, h2⟩ | h | h)
      · exact .inl (.inl ⟨h, by omega⟩)
      · exact .inl (.inr (.inl ⟨ds, h1, h2, by omega⟩))
      · exact .inl (.inr (.inr h))
      · exact .inr h
  refine ⟨?_, hfull, ?_⟩
  · intro h
    rw [hfull]
    rcases h with h | ⟨c, k, hc, rfl, hk⟩
    · exact .inl h
    · refine .inr (.inr (.inr ⟨?_, by rw [List.length_replicate]; exact hk⟩))
      intro x hx
      rw [(List.mem_replicate.1 hx).2]
      exact hc
  · have hs : ∀ b, (∃ r, starsRating b = .ok r) ∨ starsRating b = .throw .invalidArgument := by
      intro b
      unfold starsRating
      split
      · exact .inl ⟨_, rfl⟩
      · exact .inr rfl
    unfold ratingFromText
    split
    · split
      · exact .inl ⟨_, rfl⟩
      · exact hs b
    · exact hs b

example : Rating [49, 50, 56] 128 ∧ Rating [35, 35, 35] 128 :=
  ⟨.inl ⟨by decide, by decide, rfl⟩, .inr ⟨35, 3, .inr (.inr (by decide)), rfl, rfl⟩⟩

/-- "abc" is accepted as three stars. -/
theorem C90_refuted : ¬ C90_claim := by
  intro h
  have h1 : Rating [97, 98, 99] 128 := (h _ _).1 (by decide)
  rcases h1 with ⟨-, h1, -⟩ | ⟨c, k, -, h1, -⟩
  · exact absurd (h1 97 (by decide)) (by decide)
  · have h2 : ∀ x ∈ ([97, 98, 99] : Bytes), x = c := by rw [h1]; exact fun x hx => (List.mem_replicate.1 hx).2
    have := (h2 97 (by decide)).trans (h2 98 (by decide)).symm
    exact absurd this (by decide)

/-- "-65535" is accepted as a rating of 1. -/
theorem C90_refuted_negative : ratingFromText [45, 54, 53, 53, 51, 53] = .ok 1 := by decide

/-! ## C91: options -/

/-- C91 in full: options that contradict one another are refused; otherwise the files are processed as asked for, in the tags asked for. -/
def C91_claim : Prop :=
  ∀ (C : Conv) (c : Cfg) (email : Bytes → Res Bytes) (o : PopmOpts),
    ((∃ P, popmCmd C c email o = .ok P) ↔ PopmOptsOk o ∧ ∀ b, o.rating = some b → ∃ r, Rating b r) ∧
    ∀ P, popmCmd C c email o = .ok P → P.v2Scope = if o.tags = [] then .all else .some o.tags

/-- The option `--tag` has no effect at all. -/
theorem C91_refuted_tag (C : Conv) (c : Cfg) (email : Bytes → Res Bytes) (o : PopmOpts) (tags : List Nat) :
    popmCmd C c email { o with tags := tags } = popmCmd C c email o := rfl

theorem C91_refuted : ¬ C91_claim := by
  intro h
  have := (h plainConv (cfg .v3) asciiEmail { tags := [1] }).2 _ rfl
  exact absurd this (by decide)

theorem popm_counts (o : PopmOpts) : (∃ p, o.counts = .ok p) ↔ ¬ (o.increment ≠ none ∧ o.count ≠ none) := by
  unfold PopmOpts.counts
  cases o.increment <;> cases o.count <;> simp

/-- C91, as far as it holds: options that contradict one another are refused, and otherwise all tags of the files (whatever `--tag` says)
are processed as asked for. -/
theorem C91_partial (C : Conv) (c : Cfg) (email : Bytes → Res Bytes) (o : PopmOpts) :
    ((∃ P, popmCmd C c email o = .ok P) ↔ PopmOptsOk o ∧ ∀ b, o.rating = some b → ∃ r, ratingFromText b = .ok r) ∧
    ∀ P, popmCmd C c email o = .ok P → ∃ p rating, PopmAsked o rating p ∧ p.email = email ∧
      ((o.rating = none ∧ rating = none) ∨ ∃ b r, o.rating = some b ∧ rating = some r ∧ ratingFromText b = .ok r) ∧
      P.v2Scope = .all ∧ P.v1Scope = false ∧ P.v1Create = .never ∧ (P.v2Create = .always ↔ o.alwaysV2 = true) ∧
      (P.v2Create = .whenOther ↔ o.createV2 = true) ∧ P.dryRun = o.dryRun ∧ P.adjustUnsync = o.adjustUnsync ∧
      P.createBackups = o.createBackups ∧ P.processV2 = popmTag p o.createFrame ∧
      P.createV2 = ((popmTag p true ⟨{ c with ver := .v3 }, .empty⟩).bind fun r => .ok r.2) ∧
      P.createV2From = fun v1 => (copyV1 C c v1).bind fun t => (popmTag p true t).bind fun r => .ok r.2 := by
  have hst : (∃ r, o.stars = .ok r) ↔ ∀ b, o.rating = some b → ∃ r, ratingFromText b = .ok r := by
    unfold PopmOpts.stars
    cases o.rating with
    | none => simp
    | some b =>
      simp only [Option.some.injEq, forall_eq']
      cases h : ratingFromText b <;> simp [Res.bind]
  have hfr : (∃ r, o.frames = .ok r) ↔ ¬ (o.playcountOnly = true ∧ o.popularimeterOnly = true) := by
    unfold PopmOpts.frames
    split <;> simp_all
  have hcr : (∃ r, o.creation = .ok r) ↔ ¬ (o.createV2 = true ∧ o.alwaysV2 = true) := by
    unfold PopmOpts.creation
    split <;> simp_all
  constructor
  · constructor
    · rintro ⟨P, h⟩
      obtain ⟨a, h1, h⟩ := res_bind_ok h
      obtain ⟨b, h2, h⟩ := res_bind_ok h
      obtain ⟨d, h3, h⟩ := res_bind_ok h
      obtain ⟨e, h4, h⟩ := res_bind_ok h
      exact ⟨⟨hfr.1 ⟨_, h2⟩, (popm_counts o).1 ⟨_, h3⟩, hcr.1 ⟨_, h4⟩⟩, hst.1 ⟨_, h1⟩⟩
    · rintro ⟨⟨h1, h2, h3⟩, h4⟩
      obtain ⟨a, e1⟩ := hst.2 h4
      obtain ⟨b, e2⟩ := hfr.2 h1
      obtain ⟨d, e3⟩ := (popm_counts o).2 h2
      obtain ⟨e, e4⟩ := hcr.2 h3
      exact ⟨_, by simp only [popmCmd, e1, e2, e3, e4, Res.ok_bind]; rfl⟩
  · intro P h
    obtain ⟨a, h1, h⟩ := res_bind_ok h
    obtain ⟨b, h2, h⟩ := res_bind_ok h
    obtain ⟨d, h3, h⟩ := res_bind_ok h
    obtain ⟨e, h4, h⟩ := res_bind_ok h
    cases h
    refine ⟨⟨a, b, o.owner, d.1, d.2, o.createFrame, o.dryRun, email⟩, a, ?_, rfl, ?_, rfl, rfl, rfl, ?_, ?_, rfl, rfl, rfl, rfl, rfl, rfl⟩
    · refine ⟨rfl, rfl, ?_, ?_, ?_, ?_, rfl, rfl⟩
      · unfold PopmOpts.frames at h2
        cases hp : o.playcountOnly <;> cases hm : o.popularimeterOnly <;> simp [hp, hm] at h2 ⊢ <;> rw [← h2] <;> simp
      · unfold PopmOpts.frames at h2
        cases hp : o.playcountOnly <;> cases hm : o.popularimeterOnly <;> simp [hp, hm] at h2 ⊢ <;> rw [← h2] <;> simp
      · unfold PopmOpts.counts at h3
        cases hp : o.increment <;> cases hm : o.count <;> simp [hp, hm] at h3 ⊢ <;> rw [← h3]
      · unfold PopmOpts.counts at h3
        cases hp : o.increment <;> cases hm : o.count <;> simp [hp, hm] at h3 ⊢ <;> rw [← h3]
    · unfold PopmOpts.stars at h1
      cases hr : o.rating with
      | none => rw [hr] at h1; cases h1; exact .inl ⟨rfl, rfl⟩
      | some s =>
        rw [hr] at h1
        obtain ⟨r, h5, h6⟩ := res_bind_ok h1
        cases h6
        exact .inr ⟨s, r, rfl, rfl, h5⟩
    · unfold PopmOpts.creation at h4
      cases hp : o.createV2 <;> cases hm : o.alwaysV2 <;> simp [hp, hm] at h4 ⊢ <;> rw [← h4] <;> simp [setPopm]
    · unfold PopmOpts.creation at h4
      cases hp : o.createV2 <;> cases hm : o.alwaysV2 <;> simp [hp, hm] at h4 ⊢ <;> rw [← h4] <;> simp [setPopm]

example : (∃ P, popmCmd plainConv (cfg .v3) asciiEmail { owner := some [97], rating := some [111, 111, 111], createFrame := true } = .ok P) ∧
    ¬ ∃ P, popmCmd plainConv (cfg .v3) asciiEmail { count := some 3, increment := some 4 } = .ok P :=
  ⟨⟨_, rfl⟩, fun ⟨_, h⟩ => by cases h⟩

/-! ### Dry runs -/

theorem dry_frame {c : Cfg} {o : PopmCfg} {create : Bool} (hd : o.dryRun = true) {s : Seen} {f : Fr} {r : Seen × Fr}
    (h : seeFrame c o create s f = .ok r) : r.2 = f := by
  unfold seeFrame at h
  split at h
  · split at h
    · obtain ⟨q, h1, h2⟩ := res_bind_ok h
      cases h2
      unfold seePcnt at h1
      split at h1
      · obtain ⟨n, -, h3⟩ := res_bind_ok h1
        cases h3
        rfl
      · obtain ⟨n, h3, h4⟩ := res_bind_ok h1
        cases h4
        unfold processPcnt at h3
        obtain ⟨m, -, h4⟩ := res_bind_ok h3
        cases h4
        simp [hd]
    · cases h
  · split at h
    · split at h
      · obtain ⟨q, h1, h2⟩ := res_bind_ok h
        cases h2
        unfold seePopm at h1
        obtain ⟨p, h2, h1⟩ := res_bind_ok h1
        obtain ⟨e, -, h1⟩ := res_bind_ok h1
        obtain ⟨n, -, h1⟩ := res_bind_ok h1
        split at h1
        · obtain ⟨m, h3, h4⟩ := res_bind_ok h1
          cases h4
          unfold processPopm at h3
          obtain ⟨m, -, h4⟩ := res_bind_ok h3
          cases h4
          simp [hd, (C21_popm_lossless _ _ h2).1]
        · cases h1
          rfl
      · cases h
    · cases h
      rfl

theorem dry_frames {c : Cfg} {o : PopmCfg} {create : Bool} (hd : o.dryRun = true) {l : List Fr} {s : Seen} {r : Seen × List Fr}
    (h : seeFrames c o create s l = .ok r) : r.2 = l := by
  induction l generalizing s r with
  | nil => cases h; rfl
  | cons f l ih =>
    obtain ⟨q, h1, h2⟩ := res_bind_ok h
    obtain ⟨p, h3, h4⟩ := res_bind_ok h2
    cases h4
    simp only
    rw [dry_frame hd h1, ih h3]

/-- With `--dry-run` no tag is changed, whatever it holds and whatever else is asked for. -/
theorem C91_dry {o : PopmCfg} (hd : o.dryRun = true) (create : Bool) (t : Tg) {upd : Bool} {t' : Tg}
    (h : popmTag o create t = .ok (upd, t')) : t' = t := by
  unfold popmTag at h
  obtain ⟨q, h1, h2⟩ := res_bind_ok h
  have hq := dry_frames hd h1
  simp only [hq] at h2
  have hA : ∀ s t, (makePcnt o s t).2 = t := by
    intro s t
    unfold makePcnt
    split
    · rfl
    · rfl
  have hB : ∀ s t, (makePopm o s t).2 = t := by
    intro s t
    unfold makePopm
    split
    · split
      · rfl
      · rfl
    · rfl
  split at h2
  · simp only [Res.ok.injEq, Prod.mk.injEq, hA, hB] at h2
    exact h2.2.symm
  · simp only [Res.ok.injEq, Prod.mk.injEq] at h2
    exact h2.2.symm

/-! ### Tags made -/

/-- A tag that is made from nothing has the counter, and the popularimeter if there is an owner and a rating, with the number given, and
nothing else. -/
theorem C91_always (c : Cfg) (o : PopmCfg) (hd : o.dryRun = false) : ∃ upd t', popmTag o true ⟨{ c with ver := .v3 }, .empty⟩ = .ok (upd, t') ∧
    contents t'.tag =
      (if o.policy = .popmOnly then [] else [⟨[80, 67, 78, 84], .cnt, resetCounter o.count⟩]) ++
      (match o.owner, o.rating with
       | some own, some r => if o.policy = .pcntOnly then [] else [⟨[80, 79, 80, 77], .pop, own ++ [0] ++ [r] ++ resetCounter o.count⟩]
       | _, _ => []) := by
  obtain ⟨rating, policy, owner, count, absolute, createFrame, dryRun, email⟩ := o
  simp only at hd
  subst hd
  cases policy <;> cases owner <;> cases rating <;> exact ⟨_, _, rfl, by by_cases h : count = 0 <;> rfl⟩

/-- With `-a -m` and no owner or no rating, a tag without any frame is made (and written). -/
theorem C91_refuted_empty (c : Cfg) (o : PopmCfg) (hd : o.dryRun = false) (hp : o.policy = .popmOnly) (h : o.owner = none ∨ o.rating = none) :
    ∃ upd t', popmTag o true ⟨{ c with ver := .v3 }, .empty⟩ = .ok (upd, t') ∧ contents t'.tag = [] := by
  obtain ⟨upd, t', h1, h2⟩ := C91_always c o hd
  refine ⟨upd, t', h1, ?_⟩
  rw [h2, if_pos hp]
  rcases h with h | h
  · rw [h]; rfl
  · rw [h]
    cases o.owner <;> rfl

/-- A tag that is made from an ID3v1 tag holds what `C81_partial` says, then the counter and the popularimeter. -/
theorem C91_created (C : Conv) (c : Cfg) (v1 : V1Tag) (o : PopmCfg) (hd : o.dryRun = false) (hb : o.count + 2 ^ 32 ≤ 2 ^ 64) (h : Readable C v1) :
    ∃ t upd t', copyV1 C c v1 = .ok t ∧ popmTag o true t = .ok (upd, t') ∧ CopiedV1 C v1 t ∧ Played o true t upd t' ∧
      ∃ made, contents t'.tag = contents t.tag ++ made := by
  obtain ⟨t, h1, h2, -, h3, ar, ti, al, co, yr, da, dt, dl, dc, dg, dy, -, -, -, -, -, h4⟩ := C81_partial C c v1 h
  have hids : ∀ x ∈ contents t.tag, x.id ≠ t.cfg.cntId ∧ x.id ≠ t.cfg.popId := by
    rw [h2, h4]
    intro x hx
    have key : ∀ (p : Prop) [Decidable p] (id : Bytes) (k : Cls) (d : Bytes), x ∈ itemIf p id k d → x.id = id := by
      intro p _ id k d hx
      unfold itemIf at hx
      split at hx
      · rw [List.mem_singleton] at hx
        rw [hx]
      · cases hx
    simp only [List.mem_append] at hx
    rcases hx with ((((hx | hx) | hx) | hx) | hx) | hx <;> rw [key _ _ _ _ hx] <;>
      exact ⟨fun e => absurd (show _ = ([80, 67, 78, 84] : Bytes) from e) (by decide), fun e => absurd (show _ = ([80, 79, 80, 77] : Bytes) from e) (by decide)⟩
  obtain ⟨upd, t', h5, h6⟩ := C88_partial (o := o) (create := true) (t := t) hd hb (fun _ _ x hx => (hids x hx).2)
    (fun x hx => ⟨fun hi => absurd hi (hids x hx).1, fun hi => absurd hi (hids x hx).2⟩)
  refine ⟨t, upd, t', h1, h5, h3, h6, ?_⟩
  obtain ⟨l, made, h7, h8, -⟩ := h6.frames
  refine ⟨made, ?_⟩
  rw [h7]
  congr 1
  apply List.ext_getElem? 
  intro i
  by_cases hi : i < l.length
  · have hi' : i < (contents t.tag).length := by rw [h8.1]; exact hi
    rw [List.getElem?_eq_getElem hi, List.getElem?_eq_getElem hi']
    congr 1
    have hx := hids _ (List.getElem_mem hi')
    exact (h8.2 i _ _ (List.getElem?_eq_getElem hi') (List.getElem?_eq_getElem hi)).other (fun h => hx.1 h.1) (fun h => hx.2 h.1)
  · rw [List.getElem?_eq_none (by omega), List.getElem?_eq_none (by rw [h8.1]; omega)]

end Scribbu.Props
