import Verif.Proofs.PopmCmd
import Verif.Props.TextCmd

/-! C88: play counters and popularimeters are changed as asked. C89: those that are made. -/

namespace Scribbu.Props
open Scribbu Commands Process Spec LTag Lookup

/-- What the loop leaves behind is what `Best` says of a frame made. -/
theorem best_seen {c : Cfg} {o : PopmCfg} {l : List Fr} {n : Nat} (h1 : ∀ f ∈ l, ∀ m, States c (itemOf f) m → m ≤ n)
    (h2 : n = 0 ∨ ∃ f ∈ l, States c (itemOf f) n) : Best c o (l.map itemOf) (if n = 0 then o.count else n) := by
  by_cases h : n = 0
  · rw [if_pos h]
    refine .inr ⟨rfl, ?_⟩
    intro x hx m hm
    obtain ⟨f, hf, rfl⟩ := List.mem_map.1 hx
    have := h1 f hf m hm
    omega
  · rw [if_neg h]
    refine .inl ⟨h, ?_, ?_⟩
    · rcases h2 with h2 | ⟨f, hf, h2⟩
      · exact absurd h2 h
      · exact ⟨_, List.mem_map.2 ⟨f, hf, rfl⟩, h2⟩
    · intro x hx m hm
      obtain ⟨f, hf, rfl⟩ := List.mem_map.1 hx
      exact h1 f hf m hm

theorem contents_with (t : Tg) (l : List Fr) : contents { t.tag with frames := l } = l.map itemOf := rfl

/-- C88, in full: whatever the tag has, the frames asked for are changed as asked, frames that are missing are made if asked for, and
nothing else happens. -/
def C88_claim : Prop :=
  ∀ (o : PopmCfg) (create : Bool) (t : Tg), o.dryRun = false → o.count + 2 ^ 32 ≤ 2 ^ 64 → (∀ x ∈ contents t.tag, Lawful t.cfg o x) →
    ∃ upd t', popmTag o create t = .ok (upd, t') ∧ Played o create t upd t'

/-- C88 and C89, as far as they hold: all counters have one to four bytes, and there are no popularimeters when play counters are to
be made and only they are to be changed. -/
theorem C88_partial {o : PopmCfg} {create : Bool} {t : Tg} (hd : o.dryRun = false) (hb : o.count + 2 ^ 32 ≤ 2 ^ 64)
    (hp : create = true → o.policy = .pcntOnly → ∀ x ∈ contents t.tag, x.id ≠ t.cfg.popId)
    (hc : ∀ x ∈ contents t.tag, Countable t.cfg o x) :
    ∃ upd t', popmTag o create t = .ok (upd, t') ∧ Played o create t upd t' := by
  obtain ⟨s, l, e, -, hpw, hn, hm, hmax⟩ := seeFrames_spec (c := t.cfg) hd hb t.tag.frames ⟨0, 0, 0⟩
    (fun h1 h2 f hf => hp h1 h2 _ (List.mem_map.2 ⟨f, hf, rfl⟩)) (fun f hf => hc _ (List.mem_map.2 ⟨f, hf, rfl⟩))
  simp only [ne_eq, not_true_eq_false, false_or] at hn hm
  have hn' : s.pcnt ≠ 0 ↔ ∃ x ∈ contents t.tag, CountsPlays t.cfg o x := by
    rw [ne_eq, hn]
    constructor
    · rintro ⟨f, hf, h⟩; exact ⟨_, List.mem_map.2 ⟨f, hf, rfl⟩, h⟩
    · rintro ⟨x, hx, h⟩
      obtain ⟨f, hf, rfl⟩ := List.mem_map.1 hx
      exact ⟨f, hf, h⟩
  have hm' : s.popm ≠ 0 ↔ ∃ x ∈ contents t.tag, Rates t.cfg o x := by
    rw [ne_eq, hm]
    constructor
    · rintro ⟨f, hf, h⟩; exact ⟨_, List.mem_map.2 ⟨f, hf, rfl⟩, h⟩
    · rintro ⟨x, hx, h⟩
      obtain ⟨f, hf, rfl⟩ := List.mem_map.1 hx
      exact ⟨f, hf, h⟩
  have hn0 : s.pcnt = 0 ↔ ∀ x ∈ contents t.tag, ¬ CountsPlays t.cfg o x := by
    have := not_congr hn'
    simpa using this
  have hm0 : s.popm = 0 ↔ ∀ x ∈ contents t.tag, ¬ Rates t.cfg o x := by
    have := not_congr hm'
    simpa using this
  have hor : (∃ x ∈ contents t.tag, CountsPlays t.cfg o x ∨ Rates t.cfg o x) ↔ (s.popm ≠ 0 ∨ s.pcnt ≠ 0) := by
    rw [hn', hm']
    constructor
    · rintro ⟨x, hx, h | h⟩
      · exact .inr ⟨x, hx, h⟩
      · exact .inl ⟨x, hx, h⟩
    · rintro (⟨x, hx, h⟩ | ⟨x, hx, h⟩)
      · exact ⟨x, hx, .inr h⟩
      · exact ⟨x, hx, .inl h⟩
  unfold popmTag
  rw [e]
  simp only [Res.ok_bind]
  cases create with
  | false =>
    refine ⟨_, _, if_neg (by simp), rfl, l.map itemOf, [], by simp [contents_with], hpw, ⟨[], [], rfl, ?_, ?_⟩, ?_⟩
    · exact .inr ⟨fun h => absurd h.1 (by simp), rfl⟩
    · exact .inr ⟨fun _ _ h => absurd h.1 (by simp), rfl⟩
    · rw [hor]; simp
  | true =>
    obtain ⟨-, hs1, hs2⟩ := hmax rfl
    have hbest := best_seen (o := o) hs1 hs2
    rw [if_pos rfl]
    have hcnt : ∃ p, contents (makePcnt o s { t with tag := { t.tag with frames := l } }).2.tag = l.map itemOf ++ p ∧
        (makePcnt o s { t with tag := { t.tag with frames := l } }).2.cfg = t.cfg ∧
        ((makePcnt o s { t with tag := { t.tag with frames := l } }).1 = true ↔ p ≠ []) ∧
        ((NoCounter t.cfg o true (contents t.tag) ∧ ∃ d, Best t.cfg o (l.map itemOf) (beNat d) ∧ Shortest d ∧ p = [⟨t.cfg.cntId, .cnt, d⟩]) ∨
          (¬ NoCounter t.cfg o true (contents t.tag) ∧ p = [])) := by
      unfold makePcnt
      by_cases h : o.policy ≠ .popmOnly ∧ s.pcnt = 0
      · rw [if_pos h]
        refine ⟨[⟨t.cfg.cntId, .cnt, resetCounter (if s.pc = 0 then o.count else s.pc)⟩], ?_, ?_, by simp, ?_⟩
        · simp only [hd]
          exact contents_push _ _
        · simp only [hd]; rfl
        · exact .inl ⟨⟨rfl, h.1, hn0.1 h.2⟩, _, by rw [resetCounter_val]; exact hbest, reset_shortest _, rfl⟩
      · rw [if_neg h]
        exact ⟨[], by simp [contents_with], rfl, by simp, .inr ⟨fun h' => h ⟨h'.2.1, hn0.2 h'.2.2⟩, rfl⟩⟩
    obtain ⟨p, hp1, hp2, hp3, hp4⟩ := hcnt
    generalize makePcnt o s { t with tag := { t.tag with frames := l } } = A at hp1 hp2 hp3
    obtain ⟨ua, ta⟩ := A
    simp only at hp1 hp2 hp3
    have hpop : ∃ q, contents (makePopm o s ta).2.tag = l.map itemOf ++ p ++ q ∧ (makePopm o s ta).2.cfg = t.cfg ∧
        ((makePopm o s ta).1 = true ↔ q ≠ []) ∧
        ((∃ own r k, NoRating t.cfg o true own r (contents t.tag) ∧ Best t.cfg o (l.map itemOf) (beNat k) ∧ Shortest k ∧
            q = [⟨t.cfg.popId, .pop, own ++ 0 :: r :: k⟩]) ∨
          ((∀ own r, ¬ NoRating t.cfg o true own r (contents t.tag)) ∧ q = [])) := by
      unfold makePopm
      cases how : o.owner with
      | none =>
        exact ⟨[], by simp [hp1], hp2, by simp, .inr ⟨fun own r h => (by have := h.2.2.1; rw [how] at this; cases this), rfl⟩⟩
      | some own =>
        cases hr : o.rating with
        | none =>
          exact ⟨[], by simp [hp1], hp2, by simp, .inr ⟨fun own r h => (by have := h.2.2.2.1; rw [hr] at this; cases this), rfl⟩⟩
        | some r =>
          simp only
          by_cases h : o.policy ≠ .pcntOnly ∧ s.popm = 0
          · rw [if_pos h]
            refine ⟨[⟨t.cfg.popId, .pop, own ++ 0 :: r :: resetCounter (if s.pc = 0 then o.count else s.pc)⟩], ?_, ?_, by simp, ?_⟩
            · simp only [hd, Bool.false_eq_true, if_false]
              rw [contents_push, hp1, hp2]
              simp [Spec.given, Popm.make, Popm.write]
            · simp only [hd]; exact hp2
            · exact .inl ⟨own, r, _, ⟨rfl, h.1, how, hr, hm0.1 h.2⟩, by rw [resetCounter_val]; exact hbest, reset_shortest _, rfl⟩
          · rw [if_neg h]
            refine ⟨[], by simp [hp1], hp2, by simp, .inr ⟨fun own r h' => h ⟨h'.2.1, hm0.2 h'.2.2.2.2⟩, rfl⟩⟩
    obtain ⟨q, hq1, hq2, hq3, hq4⟩ := hpop
    refine ⟨_, _, rfl, hq2, l.map itemOf, p ++ q, by rw [hq1, List.append_assoc], hpw, ⟨p, q, rfl, hp4, hq4⟩, ?_⟩
    rw [hor]
    simp only [Bool.or_eq_true, decide_eq_true_eq, hp3, hq3]
    constructor
    · rintro ((h | h) | h)
      · exact .inr h
      · exact .inl (by simp [h])
      · exact .inl (by simp [h])
    · rintro (h | h)
      · by_cases h' : p = []
        · exact .inr (by intro h''; exact h (by simp [h', h'']))
        · exact .inl (.inr h')
      · exact .inl (.inl h)

/-- The conversion of owners as iconv does it: ASCII is left as it is, and anything else is an error. -/
def asciiEmail (e : Bytes) : Res Bytes := if e.all (· < 128) then .ok e else .throw .other

/-- `popm` without options. -/
def plainPopm : PopmCfg := ⟨none, .both, none, 1, false, false, false, asciiEmail⟩

/-- A tag with a title, a counter and two popularimeters. -/
def played (v : Ver) : Tg :=
  tagOf (cfg v) [(tit v, [65]), ((cfg v).cntId, [0, 0, 0, 255]), ((cfg v).popId, [97, 0, 9, 1, 0]), ((cfg v).popId, [98, 0, 7, 3])]

theorem played_contents (v : Ver) : contents (played v).tag =
    [⟨tit v, .text, [65]⟩, ⟨(cfg v).cntId, .cnt, [0, 0, 0, 255]⟩, ⟨(cfg v).popId, .pop, [97, 0, 9, 1, 0]⟩, ⟨(cfg v).popId, .pop, [98, 0, 7, 3]⟩] := by
  cases v <;> rfl

theorem played_countable (v : Ver) (o : PopmCfg) (he : o.email = asciiEmail) : ∀ x ∈ contents (played v).tag, Countable (played v).cfg o x := by
  have e97 : asciiEmail [97] = .ok [97] := rfl
  have e98 : asciiEmail [98] = .ok [98] := rfl
  rw [played_contents]
  intro x hx
  simp only [List.mem_cons, List.not_mem_nil, or_false] at hx
  rcases hx with rfl | rfl | rfl | rfl
  · constructor
    · intro h; cases v <;> exact absurd h (by decide)
    · intro h; cases v <;> exact absurd h (by decide)
  · exact ⟨fun _ => ⟨rfl, by simp, by simp⟩, fun h => absurd h (cnt_ne_pop _)⟩
  · exact ⟨fun h => absurd h.symm (cnt_ne_pop _), fun _ => ⟨rfl, [97], 9, [1, 0], rfl, by decide, fun _ => by rw [he]; rfl, by decide, by decide⟩⟩
  · exact ⟨fun h => absurd h.symm (cnt_ne_pop _), fun _ => ⟨rfl, [98], 7, [3], rfl, by decide, fun _ => by rw [he]; rfl, by decide, by decide⟩⟩

example : ∃ upd t', popmTag plainPopm false (played .v3) = .ok (upd, t') ∧ Played plainPopm false (played .v3) upd t' :=
  C88_partial rfl (by decide) (by simp) (played_countable .v3 _ rfl)

/-- What that is: with `popm -o b -r 255`, the counter and one of the popularimeters are counted up. -/
example : ∃ t', popmTag { plainPopm with owner := some [98], rating := some 255 } false (played .v4) = .ok (true, t') ∧ contents t'.tag =
    [⟨tit .v4, .text, [65]⟩, ⟨(cfg .v4).cntId, .cnt, [1, 0]⟩, ⟨(cfg .v4).popId, .pop, [97, 0, 9, 1, 0]⟩, ⟨(cfg .v4).popId, .pop, [98, 0, 255, 4]⟩] :=
  ⟨_, rfl, by decide +kernel⟩

/-- A popularimeter without a counter, as the standard allows: the count that is then used has not been set. -/
theorem C88_refuted_omitted (v : Ver) (o : PopmCfg) (create : Bool) (e : Bytes) (r : Byte) (h0 : 0 ∉ e) (he : e ≠ [] → o.email e = .ok e)
    (hp : o.policy ≠ .pcntOnly) : popmTag o create (tagOf (cfg v) [((cfg v).popId, e ++ [0, r])]) = .ub .uninit := by
  have hf : (tagOf (cfg v) [((cfg v).popId, e ++ [0, r])]).tag.frames = [⟨0, (cfg v).popId, .pop, e ++ 0 :: r :: []⟩] := by
    cases v <;> rfl
  have hem : (if e.isEmpty then .ok [] else o.email e) = (.ok e : Res Bytes) := by
    cases e with
    | nil => rfl
    | cons a e => exact he (by simp)
  have hs : seeFrame (cfg v) o create ⟨0, 0, 0⟩ ⟨0, (cfg v).popId, .pop, e ++ 0 :: r :: []⟩ = .ub .uninit := by
    unfold seeFrame
    rw [if_neg (fun h => cnt_ne_pop _ h.1.symm), if_pos ⟨rfl, .inr hp⟩, if_pos rfl]
    unfold seePopm
    simp only
    rw [popm_parse h0]
    simp only [Res.ok_bind]
    rw [hem]
    rfl
  unfold popmTag
  rw [hf, show (tagOf (cfg v) [((cfg v).popId, e ++ [0, r])]).cfg = cfg v from rfl]
  unfold seeFrames
  rw [hs]
  rfl

theorem C88_refuted : ¬ C88_claim := by
  intro h
  obtain ⟨upd, t', e, -⟩ := h plainPopm false (tagOf (cfg .v3) [((cfg .v3).popId, [] ++ [0, 9])]) rfl (by decide) (by
    have hx : contents (tagOf (cfg .v3) [((cfg .v3).popId, [] ++ [0, 9])]).tag = [⟨(cfg .v3).popId, .pop, [0, 9]⟩] := by rfl
    rw [hx]
    intro x hx
    rw [List.mem_singleton] at hx
    subst hx
    exact ⟨fun h => absurd h (by decide), fun _ => ⟨rfl, [], 9, [], rfl, by simp, by simp⟩⟩)
  rw [C88_refuted_omitted .v3 plainPopm false [] 9 (by simp) (by simp) (by decide)] at e
  cases e

/-- A play counter of five bytes or more, as the standard allows: nothing is done, to no frame of the tag. -/
theorem C88_refuted_wide (v : Ver) (o : PopmCfg) (create : Bool) (d : Bytes) (l : List (Bytes × Bytes)) (h : 4 < d.length)
    (ha : o.absolute = false) (hp : o.policy ≠ .popmOnly) :
    popmTag o create (tagOf (cfg v) (((cfg v).cntId, d) :: l)) = .throw .domainError := by
  have key : ∀ (l : List (Bytes × Bytes)) (t : LTag), ∃ m, (l.foldl (fun t x => t.parseFrame (cfg v) x.1 x.2) t).frames = t.frames ++ m := by
    intro l
    induction l with
    | nil => intro t; exact ⟨[], by simp⟩
    | cons x l ih =>
      intro t
      obtain ⟨m, hm⟩ := ih (t.parseFrame (cfg v) x.1 x.2)
      refine ⟨⟨t.next, x.1, readCls (cfg v) x.1, x.2⟩ :: m, ?_⟩
      simp only [List.foldl_cons]
      rw [hm]
      simp [parseFrame, pushBack, alloc, readCls]
  obtain ⟨m, hm⟩ := key l (LTag.empty.parseFrame (cfg v) (cfg v).cntId d)
  have hf : (tagOf (cfg v) (((cfg v).cntId, d) :: l)).tag.frames = ⟨0, (cfg v).cntId, .cnt, d⟩ :: m := by
    unfold tagOf
    simp only [List.foldl_cons]
    rw [hm]
    cases v <;> rfl
  have hs : seeFrame (cfg v) o create ⟨0, 0, 0⟩ ⟨0, (cfg v).cntId, .cnt, d⟩ = .throw .domainError := by
    unfold seeFrame
    rw [if_pos ⟨rfl, .inr hp⟩, if_pos rfl]
    unfold seePcnt
    rw [if_neg hp]
    unfold processPcnt PopmCfg.new
    rw [counterCount_big h, ha]
    rfl
  unfold popmTag
  rw [hf, show (tagOf (cfg v) (((cfg v).cntId, d) :: l)).cfg = cfg v from rfl]
  unfold seeFrames
  rw [hs]
  rfl
example : popmTag plainPopm false (tagOf (cfg .v3) [((cfg .v3).cntId, [0, 0, 0, 0, 7])]) = .throw .domainError :=
  C88_refuted_wide .v3 plainPopm false _ [] (by decide) rfl (by decide)

/-- The numbers of plays that the sub-command itself writes, if they are 2³² or more: no later run can add to them. -/
theorem C88_refuted_stuck (v : Ver) (o o' : PopmCfg) (d : Bytes) (ha : o.absolute = true) (hc : 2 ^ 32 ≤ o.count) (hp : o.policy ≠ .popmOnly)
    (hd : o.dryRun = false) (ha' : o'.absolute = false) (hp' : o'.policy ≠ .popmOnly) :
    ∃ t', popmTag o false (tagOf (cfg v) [((cfg v).cntId, d)]) = .ok (true, t') ∧ popmTag o' false t' = .throw .domainError := by
  have hs : seeFrame (cfg v) o false ⟨0, 0, 0⟩ ⟨0, (cfg v).cntId, .cnt, d⟩ =
      .ok (⟨1, 0, max 0 o.count⟩, ⟨0, (cfg v).cntId, .cnt, resetCounter o.count⟩) := by
    unfold seeFrame
    rw [if_pos ⟨rfl, .inr hp⟩, if_pos rfl]
    unfold seePcnt
    rw [if_neg hp]
    unfold processPcnt PopmCfg.new
    rw [ha, hd]
    rfl
  have hs' : seeFrame (cfg v) o' false ⟨0, 0, 0⟩ ⟨0, (cfg v).cntId, .cnt, resetCounter o.count⟩ = .throw .domainError := by
    unfold seeFrame
    rw [if_pos ⟨rfl, .inr hp'⟩, if_pos rfl]
    unfold seePcnt
    rw [if_neg hp']
    unfold processPcnt PopmCfg.new
    rw [counterCount_big (resetCounter_length_ge (k := 4) (by rw [show (256 : Nat) ^ 4 = 2 ^ 32 from rfl]; exact hc)), ha']
    rfl
  have hf : (tagOf (cfg v) [((cfg v).cntId, d)]).tag.frames = [⟨0, (cfg v).cntId, .cnt, d⟩] := by cases v <;> rfl
  refine ⟨{ tagOf (cfg v) [((cfg v).cntId, d)] with
    tag := { (tagOf (cfg v) [((cfg v).cntId, d)]).tag with frames := [⟨0, (cfg v).cntId, .cnt, resetCounter o.count⟩] } }, ?_, ?_⟩
  · unfold popmTag
    rw [hf, show (tagOf (cfg v) [((cfg v).cntId, d)]).cfg = cfg v from rfl]
    simp only [seeFrames]
    rw [hs]
    rfl
  · unfold popmTag
    simp only
    rw [show (tagOf (cfg v) [((cfg v).cntId, d)]).cfg = cfg v from rfl]
    simp only [seeFrames]
    rw [hs']
    rfl

/-- Only the play counter is to be changed, and made if missing: the popularimeter is changed all the same. -/
theorem C88_refuted_others (v : Ver) (rating : Option Byte) (n : Nat) :
    ∃ upd t', popmTag ⟨rating, .pcntOnly, none, n, true, true, false, asciiEmail⟩ true (tagOf (cfg v) [((cfg v).popId, [0, 9, 5])]) = .ok (upd, t') ∧
      (contents t'.tag)[0]? = some ⟨(cfg v).popId, .pop, 0 :: rating.getD 9 :: resetCounter n⟩ := by
  cases v <;> exact ⟨_, _, rfl, rfl⟩

/-- Play counters of the shortest kind are not as the standard has them: "the counter must be at least 32-bits long". Any counter of
fewer than 2²⁴ plays that is written is too short. -/
theorem C88_refuted_short {d : Bytes} (h : Shortest d) (hb : beNat d < 2 ^ 24) : d.length < 4 := by
  have := h.2 (fillBE 3 (beNat d)) (by rw [ne_eq, ← List.length_eq_zero_iff, fillBE_length]; decide)
    (fillBE_val _ _ (by rw [show (256 : Nat) ^ 3 = 2 ^ 24 from rfl]; exact hb))
  rw [fillBE_length] at this
  omega

/-! ## C89: frames made -/

/-- C89 in full: a play counter that is made with `--count` states the number given. -/
def C89_claim : Prop :=
  ∀ (o : PopmCfg) (t : Tg) upd t', o.dryRun = false → o.absolute = true → o.policy ≠ .popmOnly → (∀ x ∈ contents t.tag, Countable t.cfg o x) →
    (∀ x ∈ contents t.tag, x.id ≠ t.cfg.cntId) → popmTag o true t = .ok (upd, t') →
    ∃ d, ⟨t.cfg.cntId, .cnt, d⟩ ∈ contents t'.tag ∧ beNat d = o.count

/-- With `--count=5 --owner=b --create-frame` and a popularimeter of someone else that states 100 plays, the new counter states 100. -/
theorem C89_refuted (v : Ver) : ∃ upd t',
    popmTag ⟨none, .both, some [98], 5, true, true, false, asciiEmail⟩ true (tagOf (cfg v) [((cfg v).popId, [97, 0, 9, 100])]) = .ok (upd, t') ∧
      contents t'.tag = [⟨(cfg v).popId, .pop, [97, 0, 9, 100]⟩, ⟨(cfg v).cntId, .cnt, [100]⟩] := by
  cases v <;> exact ⟨_, _, rfl, rfl⟩

theorem C89_refuted_claim : ¬ C89_claim := by
  intro h
  obtain ⟨upd, t', e, hc⟩ := C89_refuted .v3
  obtain ⟨d, hd, hn⟩ := h _ _ _ _ rfl rfl (by decide) (by
    have hx : contents (tagOf (cfg .v3) [((cfg .v3).popId, [97, 0, 9, 100])]).tag = [⟨(cfg .v3).popId, .pop, [97, 0, 9, 100]⟩] := by rfl
    rw [hx]
    intro x hx
    rw [List.mem_singleton] at hx
    subst hx
    exact ⟨fun h => absurd h (by decide), fun _ => ⟨rfl, [97], 9, [100], rfl, by decide, fun _ => rfl, by decide, by decide⟩⟩)
    (by decide) e
  rw [hc] at hd
  simp only [List.mem_cons, List.not_mem_nil, or_false, Item.mk.injEq] at hd
  rcases hd with ⟨h, -⟩ | ⟨-, -, rfl⟩
  · exact absurd h (by decide)
  · exact absurd hn (by decide)

/-- C89, as far as it holds: with `--count`, no owner, and the popularimeters to be changed as well, all counters and popularimeters
state the number given afterwards, be they made or not; there is a counter, and, if there is a rating and an owner, a popularimeter of the
owner. -/
theorem C89_partial {o : PopmCfg} {t : Tg} (hd : o.dryRun = false) (hb : o.count + 2 ^ 32 ≤ 2 ^ 64) (ha : o.absolute = true)
    (hp : o.policy = .both) (ho : o.owner = none) (hc : ∀ x ∈ contents t.tag, Countable t.cfg o x) :
    ∃ t', popmTag o true t = .ok (true, t') ∧ (∃ x ∈ contents t'.tag, x.id = t.cfg.cntId) ∧
      ∀ x ∈ contents t'.tag, ∀ n, States t.cfg x n → n = o.count := by
  obtain ⟨upd, t', e, h⟩ := C88_partial (o := o) (create := true) (t := t) hd hb (by rw [hp]; simp) hc
  obtain ⟨l, made, h1, h2, ⟨p, q, rfl, h3, h4⟩, hu⟩ := h.frames
  have hq : q = [] := by
    rcases h4 with ⟨_, _, _, h4, -⟩ | ⟨-, h4⟩
    · have := h4.2.2.1
      rw [ho] at this
      cases this
    · exact h4
  subst hq
  have hl : ∀ y ∈ l, ∀ n, States t.cfg y n → n = o.count := by
    intro y hy n hn
    obtain ⟨i, hi⟩ := List.getElem?_of_mem hy
    have hlt : i < (contents t.tag).length := by
      have := (List.getElem?_eq_some_iff.1 hi).1
      rw [h2.1]; exact this
    have hxy := h2.2 i _ _ (List.getElem?_eq_getElem hlt) hi
    have hcx := hc _ (List.getElem_mem hlt)
    generalize (contents t.tag)[i] = x at hxy hcx
    rcases hn with ⟨g, rfl⟩ | ⟨g, e1, r1, k1, g1, g2, rfl⟩
    · have := (hxy.counts ⟨hxy.id ▸ g, by rw [hp]; simp⟩).1
      rw [this]; simp [plays, ha]
    · have hx : x.id = t.cfg.popId := hxy.id ▸ g
      obtain ⟨-, e, r, k, c2, c3, -⟩ := hcx.popm hx
      obtain ⟨r', k', d1, d2, -⟩ := hxy.rates ⟨hx, by rw [hp]; simp, e, r, k, c2, c3, by rw [ho]; simp⟩ e r k c2 c3
      obtain ⟨-, -, rfl⟩ := nul_split (g1.symm.trans d1) g2 c3
      rw [d2]; simp [plays, ha]
  have hcp := cnt_ne_pop t.cfg
  rcases h3 with ⟨h3, d, h5, -, rfl⟩ | ⟨h3, rfl⟩
  · have hdc : beNat d = o.count := by
      rcases h5 with ⟨-, ⟨x, hx, hs⟩, -⟩ | ⟨h5, -⟩
      · exact hl x hx _ hs
      · exact h5
    refine ⟨t', by rw [e, hu.2 (.inl (by simp))], ⟨⟨t.cfg.cntId, .cnt, d⟩, by rw [h1]; simp, rfl⟩, ?_⟩
    intro x hx n hn
    rw [h1] at hx
    simp only [List.append_nil, List.mem_append, List.mem_singleton] at hx
    rcases hx with hx | rfl
    · exact hl x hx n hn
    · rcases hn with ⟨-, rfl⟩ | ⟨g, -⟩
      · exact hdc
      · exact absurd g hcp
  · have hex : ∃ x ∈ contents t.tag, CountsPlays t.cfg o x := Classical.byContradiction fun hno =>
      h3 ⟨rfl, by rw [hp]; simp, fun x hx hcx => hno ⟨x, hx, hcx⟩⟩
    obtain ⟨x, hx, hcx⟩ := hex
    refine ⟨t', by rw [e, hu.2 (.inr ⟨x, hx, .inl hcx⟩)], ?_, ?_⟩
    · obtain ⟨i, hi⟩ := List.getElem?_of_mem hx
      have hlt : i < l.length := by
        have := (List.getElem?_eq_some_iff.1 hi).1
        rw [← h2.1]; exact this
      have hxy := h2.2 i _ _ hi (List.getElem?_eq_getElem hlt)
      exact ⟨l[i], by rw [h1]; simp [List.getElem_mem hlt], hxy.id.trans hcx.1⟩
    · intro x hx n hn
      rw [h1] at hx
      simp only [List.append_nil] at hx
      exact hl x hx n hn

/-! ### Several runs -/

/-- One frame, in two runs. -/
theorem played_twice {c : Cfg} {o : PopmCfg} {k : Nat} {x y z : Item} (ha : o.absolute = false) (h1 : FramePlayed c o x y)
    (h2 : FramePlayed c { o with count := k } y z) : FramePlayed c { o with count := o.count + k } x z := by
  have hR : ∀ e r q, x.data = e ++ 0 :: r :: q → 0 ∉ e → Rates c o x → Rates c { o with count := k } y := by
    intro e r q hx h0 hr
    obtain ⟨r', k', hy, -, -, -⟩ := h1.rates hr e r q hx h0
    obtain ⟨g1, g2, e', r2, k2, g3, g4, g5⟩ := hr
    obtain ⟨rfl, -, -⟩ := nul_split (hx.symm.trans g3) h0 g4
    exact ⟨h1.id.trans g1, g2, e, r', k', hy, h0, g5⟩
  refine ⟨h2.id.trans h1.id, h2.cls.trans h1.cls, ?_, ?_, ?_⟩
  · intro h
    have h' : CountsPlays c o x := h
    have hy : CountsPlays c { o with count := k } y := ⟨h1.id.trans h.1, h.2⟩
    obtain ⟨a1, -⟩ := h1.counts h'
    obtain ⟨a2, a3⟩ := h2.counts hy
    refine ⟨?_, a3⟩
    rw [a2, a1]
    simp only [plays, ha, Bool.false_eq_true, if_false]
    omega
  · intro h e r q hx h0
    have h' : Rates c o x := h
    obtain ⟨r1, k1, hy, b1, -, b2⟩ := h1.rates h' e r q hx h0
    obtain ⟨r2, k2, hz, d1, d2, d3⟩ := h2.rates (hR e r q hx h0 h') e r1 k1 hy h0
    refine ⟨r2, k2, hz, ?_, d2, ?_⟩
    · rw [d1, b1]
      simp only [plays, ha, Bool.false_eq_true, if_false]
      omega
    · rw [d3]
      simp only
      cases ho : o.rating with
      | none => rw [ho] at b2; exact b2
      | some s => rfl
  · intro h g
    have h' : ¬ CountsPlays c o x := h
    have g' : ¬ Rates c o x := g
    have e := h1.other h' g'
    subst e
    exact h2.other h g

theorem be_four (n : Nat) (h : n < 2 ^ 32) : ∃ d : Bytes, d ≠ [] ∧ d.length = 4 ∧ beNat d = n :=
  ⟨fillBE 4 n, by rw [ne_eq, ← List.length_eq_zero_iff, fillBE_length]; decide, fillBE_length _ _, fillBE_val _ _ (by
    rw [show (256 : Nat) ^ 4 = 2 ^ 32 from rfl]; exact h)⟩

theorem shortest_four {d : Bytes} (h : Shortest d) (hb : beNat d < 2 ^ 32) : d ≠ [] ∧ d.length ≤ 4 := by
  obtain ⟨d', h0, h4, he⟩ := be_four _ hb
  have := h.2 d' h0 he
  exact ⟨h.1, by omega⟩

/-- A frame can still be read after a run, if the number of plays has 32 bits. -/
theorem countable_after {c : Cfg} {o o' : PopmCfg} {x y : Item} (he : o'.email = o.email) (hp : FramePlayed c o x y) (hc : Countable c o x)
    (hb : ∀ m, States c y m → m < 2 ^ 32) : Countable c o' y := by
  constructor
  · intro h
    have hx : x.id = c.cntId := hp.id ▸ h
    obtain ⟨c1, c2, c3⟩ := hc.pcnt hx
    by_cases hpl : CountsPlays c o x
    · obtain ⟨-, d2⟩ := hp.counts hpl
      obtain ⟨e1, e2⟩ := shortest_four d2 (hb _ (.inl ⟨h, rfl⟩))
      exact ⟨hp.cls.trans c1, e1, e2⟩
    · have hr : ¬ Rates c o x := fun hr => cnt_ne_pop c (hx.symm.trans hr.1)
      rw [hp.other hpl hr]
      exact ⟨c1, c2, c3⟩
  · intro h
    have hx : x.id = c.popId := hp.id ▸ h
    obtain ⟨c1, e, r, k, c2, c3, c4, c5, c6⟩ := hc.popm hx
    have hpl : ¬ CountsPlays c o x := fun hr => cnt_ne_pop c (hr.1.symm.trans hx)
    by_cases hr : Rates c o x
    · obtain ⟨r', k', d1, -, d3, -⟩ := hp.rates hr e r k c2 c3
      obtain ⟨e1, e2⟩ := shortest_four d3 (hb _ (.inr ⟨h, e, r', k', d1, c3, rfl⟩))
      exact ⟨hp.cls.trans c1, e, r', k', d1, c3, fun h => by rw [he]; exact c4 h, e1, e2⟩
    · rw [hp.other hpl hr]
      exact ⟨c1, e, r, k, c2, c3, fun h => by rw [he]; exact c4 h, c5, c6⟩

/-- A number of plays after a run comes from one before it. -/
theorem states_before {c : Cfg} {o : PopmCfg} {x y : Item} (ha : o.absolute = false) (hp : FramePlayed c o x y) (hc : Countable c o x) {m : Nat}
    (hs : States c y m) : ∃ n, States c x n ∧ m ≤ n + o.count := by
  rcases hs with ⟨h, rfl⟩ | ⟨h, e, r, k, hy, h0, rfl⟩
  · have hx : x.id = c.cntId := hp.id ▸ h
    by_cases hpl : CountsPlays c o x
    · obtain ⟨d1, -⟩ := hp.counts hpl
      refine ⟨_, .inl ⟨hx, rfl⟩, ?_⟩
      rw [d1]
      simp [plays, ha]
    · have hr : ¬ Rates c o x := fun hr => cnt_ne_pop c (hx.symm.trans hr.1)
      rw [hp.other hpl hr]
      exact ⟨_, .inl ⟨hx, rfl⟩, by omega⟩
  · have hx : x.id = c.popId := hp.id ▸ h
    obtain ⟨-, e1, r1, k1, c2, c3, -, -, -⟩ := hc.popm hx
    have hpl : ¬ CountsPlays c o x := fun hr => cnt_ne_pop c (hr.1.symm.trans hx)
    by_cases hr : Rates c o x
    · obtain ⟨r', k', d1, d2, -, -⟩ := hp.rates hr e1 r1 k1 c2 c3
      obtain ⟨-, -, rfl⟩ := nul_split (hy.symm.trans d1) h0 c3
      refine ⟨_, .inr ⟨hx, e1, r1, k1, c2, c3, rfl⟩, ?_⟩
      rw [d2]
      simp [plays, ha]
    · rw [hp.other hpl hr] at hy
      exact ⟨_, .inr ⟨hx, e, r, k, hy, h0, rfl⟩, by omega⟩

/-- So many runs of the sub-command over a tag, one after the other. -/
def popmRuns (o : PopmCfg) : Nat → Tg → Res Tg
  | 0, t => .ok t
  | n + 1, t => (popmTag o false t).bind fun r => popmRuns o n r.2

theorem pointwise_trans {α β γ : Type} {R : α → β → Prop} {S : β → γ → Prop} {T : α → γ → Prop} {l : List α} {m : List β} {n : List γ}
    (h1 : Pointwise R l m) (h2 : Pointwise S m n) (h : ∀ x y z, R x y → S y z → T x z) : Pointwise T l n := by
  refine ⟨h1.1.trans h2.1, ?_⟩
  intro i x z hx hz
  have : i < m.length := by
    have := (List.getElem?_eq_some_iff.1 hx).1
    rw [← h1.1]; exact this
  obtain ⟨y, hy⟩ : ∃ y, m[i]? = some y := ⟨_, List.getElem?_eq_getElem this⟩
  exact h x y z (h1.2 i x y hx hy) (h2.2 i y z hy hz)

theorem pointwise_mem {α β : Type} {R : α → β → Prop} {l : List α} {m : List β} (h : Pointwise R l m) {y : β} (hy : y ∈ m) :
    ∃ x ∈ l, R x y := by
  obtain ⟨i, hi⟩ := List.getElem?_of_mem hy
  have : i < l.length := by
    have := (List.getElem?_eq_some_iff.1 hi).1
    rw [h.1]; exact this
  exact ⟨l[i], List.getElem_mem this, h.2 i _ _ (List.getElem?_eq_getElem this) hi⟩

/-- However many runs there are, each adds its number of plays to every frame asked for and changes no other, as long as the numbers have
32 bits. -/
theorem C88_runs_partial {o : PopmCfg} (hd : o.dryRun = false) (ha : o.absolute = false) : ∀ (n : Nat) (t : Tg),
    (∀ x ∈ contents t.tag, Countable t.cfg o x) → (∀ x ∈ contents t.tag, ∀ m, States t.cfg x m → m + (n + 1) * o.count < 2 ^ 32) →
    o.count < 2 ^ 32 →
    ∃ t', popmRuns o (n + 1) t = .ok t' ∧ t'.cfg = t.cfg ∧
      Pointwise (FramePlayed t.cfg { o with count := (n + 1) * o.count }) (contents t.tag) (contents t'.tag) := by
  intro n
  induction n with
  | zero =>
    intro t hc _ hb
    obtain ⟨upd, t', e, h⟩ := C88_partial (o := o) (create := false) (t := t) hd (by omega) (by simp) hc
    obtain ⟨l, made, h1, h2, ⟨p, q, rfl, h3, h4⟩, -⟩ := h.frames
    refine ⟨t', by simp [popmRuns, e], h.cfg, ?_⟩
    have hp : p = [] := by
      rcases h3 with ⟨h3, -⟩ | ⟨-, h3⟩
      · exact absurd h3.1 (by simp)
      · exact h3
    have hq : q = [] := by
      rcases h4 with ⟨_, _, _, h4, -⟩ | ⟨-, h4⟩
      · exact absurd h4.1 (by simp)
      · exact h4
    subst hp hq
    simp only [List.append_nil] at h1
    rw [h1]
    simpa using h2
  | succ n ih =>
    intro t hc hs hb
    obtain ⟨upd, t1, e, h⟩ := C88_partial (o := o) (create := false) (t := t) hd (by omega) (by simp) hc
    obtain ⟨l, made, h1, h2, ⟨p, q, rfl, h3, h4⟩, -⟩ := h.frames
    have hp : p = [] := by
      rcases h3 with ⟨h3, -⟩ | ⟨-, h3⟩
      · exact absurd h3.1 (by simp)
      · exact h3
    have hq : q = [] := by
      rcases h4 with ⟨_, _, _, h4, -⟩ | ⟨-, h4⟩
      · exact absurd h4.1 (by simp)
      · exact h4
    subst hp hq
    simp only [List.append_nil] at h1
    have hs1 : ∀ y ∈ contents t1.tag, ∀ m, States t1.cfg y m → m + (n + 1) * o.count < 2 ^ 32 := by
      intro y hy m hm
      rw [h1] at hy
      rw [h.cfg] at hm
      obtain ⟨x, hx, hxy⟩ := pointwise_mem h2 hy
      obtain ⟨m', hm', hle⟩ := states_before ha hxy (hc x hx) hm
      have := hs x hx m' hm'
      rw [Nat.add_mul (n + 1) 1] at this
      omega
    obtain ⟨t2, e2, c2, hpw⟩ := ih t1 (by
      intro y hy
      have hy' := hy
      rw [h1] at hy
      obtain ⟨x, hx, hxy⟩ := pointwise_mem h2 hy
      rw [h.cfg]
      exact countable_after rfl hxy (hc x hx) (fun m hm => by
        have := hs1 y hy' m (h.cfg ▸ hm)
        omega)) hs1 hb
    refine ⟨t2, by simp only [popmRuns, e, Res.ok_bind]; exact e2, c2.trans h.cfg, ?_⟩
    rw [h1, h.cfg] at hpw
    have := pointwise_trans h2 hpw (fun x y z a b => played_twice ha a b)
    rw [show (n + 1 + 1) * o.count = o.count + (n + 1) * o.count by rw [Nat.add_mul (n + 1) 1]; omega]
    exact this

example : ∃ t', popmRuns plainPopm 1000 (played .v2) = .ok t' ∧ t'.cfg = (played .v2).cfg ∧
    Pointwise (FramePlayed (played .v2).cfg { plainPopm with count := 1000 * 1 }) (contents (played .v2).tag) (contents t'.tag) :=
  C88_runs_partial rfl rfl 999 (played .v2) (played_countable .v2 _ rfl) (by
    rw [played_contents]
    intro x hx m hm
    simp only [List.mem_cons, List.not_mem_nil, or_false] at hx
    rcases hx with rfl | rfl | rfl | rfl
    · rcases hm with ⟨h, -⟩ | ⟨h, -⟩ <;> exact absurd h (by decide)
    · rcases hm with ⟨-, rfl⟩ | ⟨h, -⟩
      · decide
      · exact absurd h (by decide)
    · rcases hm with ⟨h, -⟩ | ⟨-, e, r, k, h1, h2, rfl⟩
      · exact absurd h (by decide)
      · obtain ⟨-, -, rfl⟩ := nul_split (e := [97]) (r := 9) (k := [1, 0]) h1 (by decide) h2
        decide
    · rcases hm with ⟨h, -⟩ | ⟨-, e, r, k, h1, h2, rfl⟩
      · exact absurd h (by decide)
      · obtain ⟨-, -, rfl⟩ := nul_split (e := [98]) (r := 7) (k := [3]) h1 (by decide) h2
        decide) (by decide)

example : ∃ t', popmTag { plainPopm with count := 7, absolute := true } true (played .v3) = .ok (true, t') ∧
    (∃ x ∈ contents t'.tag, x.id = (played .v3).cfg.cntId) ∧ ∀ x ∈ contents t'.tag, ∀ n, States (played .v3).cfg x n → n = 7 :=
  C89_partial rfl (by decide) rfl rfl rfl (played_countable .v3 _ rfl)

end Scribbu.Props
