import Verif.Spec.PopmCmd
import Verif.Proofs.Bodies

/-! Lemmas about the sub-command `popm`. -/

namespace Scribbu.Commands
open Scribbu Process Spec

theorem cnt_ne_pop (c : Cfg) : c.cntId ≠ c.popId := by
  unfold Cfg.cntId Cfg.popId; cases c.ver <;> decide

/-- What an owner, a rating and a counter are in is determined. -/
theorem nul_split {e e' k k' : Bytes} {r r' : Byte} (h : e ++ 0 :: r :: k = e' ++ 0 :: r' :: k') (h0 : 0 ∉ e) (h0' : 0 ∉ e') :
    e = e' ∧ r = r' ∧ k = k' := by
  induction e generalizing e' with
  | nil =>
    cases e' with
    | nil => simp at h; exact ⟨rfl, h.1, h.2⟩
    | cons b e' => simp at h; exact absurd (h.1 ▸ List.mem_cons_self) h0'
  | cons a e ih =>
    cases e' with
    | nil => simp at h; exact absurd (h.1 ▸ List.mem_cons_self) h0
    | cons b e' =>
      simp only [List.cons_append, List.cons.injEq] at h
      obtain ⟨rfl, h⟩ := h
      obtain ⟨rfl, h2, h3⟩ := ih h (fun h' => h0 (List.mem_cons_of_mem _ h')) (fun h' => h0' (List.mem_cons_of_mem _ h'))
      exact ⟨rfl, h2, h3⟩

theorem popm_parse {e k : Bytes} {r : Byte} (h : 0 ∉ e) : Popm.parse (e ++ 0 :: r :: k) = .ok ⟨e, r, k⟩ := by
  unfold Popm.parse
  rw [takeWhile_nul h]
  simp

theorem new_plays {o : PopmCfg} {k : Bytes} (h0 : k ≠ []) (h4 : k.length ≤ 4) (hb : o.count + 2 ^ 32 ≤ 2 ^ 64) :
    o.new (counterCount k) = .ok (plays o (beNat k)) := by
  rw [counterCount_ok h0 h4]
  unfold PopmCfg.new plays
  by_cases ha : o.absolute
  · simp [ha]
  · have : beNat k < 2 ^ 32 := Nat.lt_of_lt_of_le (beNat_lt k) (by
      have := Nat.pow_le_pow_right (n := 256) (by decide) h4
      omega)
    simp only [ha, Bool.false_eq_true, if_false, Res.ok_bind]
    rw [Nat.mod_eq_of_lt (by omega), Nat.add_comm]

theorem reset_shortest (n : Nat) : Shortest (resetCounter n) := by
  refine ⟨List.length_pos_iff.1 (resetCounter_pos n), ?_⟩
  intro d' h0 h
  rw [resetCounter_val] at h
  exact resetCounter_length_le (List.length_pos_iff.2 h0) (h ▸ beNat_lt d')

/-- A frame as the tag shows it. -/
def itemOf (f : Fr) : Item := ⟨f.id, f.cls, f.data⟩

/-- What one turn of the loop does. -/
theorem seeFrame_spec {c : Cfg} {o : PopmCfg} {create : Bool} (hd : o.dryRun = false) (hb : o.count + 2 ^ 32 ≤ 2 ^ 64)
    (s : Seen) (f : Fr)
    (hp : create = true → o.policy = .pcntOnly → f.id ≠ c.popId) (hc : Countable c o (itemOf f)) :
    ∃ s' f', seeFrame c o create s f = .ok (s', f') ∧ f'.ptr = f.ptr ∧ FramePlayed c o (itemOf f) (itemOf f') ∧
      ((¬ CountsPlays c o (itemOf f) ∧ s'.pcnt = s.pcnt) ∨ (CountsPlays c o (itemOf f) ∧ s'.pcnt = s.pcnt + 1)) ∧
      ((¬ Rates c o (itemOf f) ∧ s'.popm = s.popm) ∨ (Rates c o (itemOf f) ∧ s'.popm = s.popm + 1)) ∧
      (create = true → s.pc ≤ s'.pc ∧ (∀ m, States c (itemOf f') m → m ≤ s'.pc) ∧ (s'.pc = s.pc ∨ States c (itemOf f') s'.pc)) := by
  have hcp := cnt_ne_pop c
  by_cases h1 : f.id = c.cntId
  · obtain ⟨k1, k2, k3⟩ := hc.pcnt h1
    have k2 : f.data ≠ [] := k2
    have k3 : f.data.length ≤ 4 := k3
    have hnr : ¬ Rates c o (itemOf f) := fun h => hcp (h1 ▸ h.1)
    have hst : ∀ (d : Bytes) m, States c (itemOf { f with data := d }) m ↔ m = beNat d := by
      intro d m
      constructor
      · rintro (⟨-, h⟩ | ⟨h, -⟩)
        · exact h
        · exact absurd (h1.symm.trans h) hcp
      · intro h; exact .inl ⟨h1, h⟩
    have hmax : ∀ n, s.pc ≤ max s.pc n ∧ n ≤ max s.pc n ∧ (max s.pc n = s.pc ∨ max s.pc n = n) := by intro n; omega
    by_cases h2 : o.policy = .popmOnly
    · have hncp : ¬ CountsPlays c o (itemOf f) := fun h => h.2 h2
      by_cases h3 : create = true
      · refine ⟨{ s with pc := max s.pc (beNat f.data) }, f, ?_, rfl, ⟨rfl, rfl, fun h => absurd h hncp, fun h => absurd h hnr, fun _ _ => rfl⟩,
          .inl ⟨hncp, rfl⟩, .inl ⟨hnr, rfl⟩, ?_⟩
        · unfold seeFrame
          rw [if_pos ⟨h1, .inl h3⟩, if_pos (show f.cls = _ from k1)]
          unfold seePcnt
          rw [if_pos h2, counterCount_ok k2 k3]
          rfl
        · intro _
          obtain ⟨m1, m2, m3⟩ := hmax (beNat f.data)
          refine ⟨m1, ?_, ?_⟩
          · intro m hm; rw [(hst f.data m).1 hm]; exact m2
          · rcases m3 with m3 | m3
            · exact .inl m3
            · exact .inr ((hst f.data _).2 m3)
      · refine ⟨s, f, ?_, rfl, ⟨rfl, rfl, fun h => absurd h hncp, fun h => absurd h hnr, fun _ _ => rfl⟩,
          .inl ⟨hncp, rfl⟩, .inl ⟨hnr, rfl⟩, fun h => absurd h h3⟩
        unfold seeFrame
        rw [if_neg (by rintro ⟨-, h | h⟩
                       · exact h3 h
                       · exact h h2), if_neg (fun h => hcp (h1.symm.trans h.1))]
    · have hcpl : CountsPlays c o (itemOf f) := ⟨h1, h2⟩
      refine ⟨⟨s.pcnt + 1, s.popm, max s.pc (plays o (beNat f.data))⟩, { f with data := resetCounter (plays o (beNat f.data)) }, ?_, rfl,
        ⟨rfl, rfl, fun _ => ⟨resetCounter_val _, reset_shortest _⟩, fun h => absurd h hnr, fun h => absurd hcpl h⟩, .inr ⟨hcpl, rfl⟩, .inl ⟨hnr, rfl⟩, ?_⟩
      · unfold seeFrame
        rw [if_pos ⟨h1, .inr h2⟩, if_pos (show f.cls = _ from k1)]
        unfold seePcnt
        rw [if_neg h2]
        unfold processPcnt
        rw [new_plays k2 k3 hb]
        simp only [Res.ok_bind, hd]
        rfl
      · intro _
        obtain ⟨m1, m2, m3⟩ := hmax (plays o (beNat f.data))
        refine ⟨m1, ?_, ?_⟩
        · intro m hm; rw [(hst _ m).1 hm, resetCounter_val]; exact m2
        · rcases m3 with m3 | m3
          · exact .inl m3
          · exact .inr ((hst _ _).2 (by rw [resetCounter_val]; exact m3))
  · have hncp : ¬ CountsPlays c o (itemOf f) := fun h => h1 h.1
    by_cases h2 : f.id = c.popId
    · obtain ⟨k1, e, r, k, k2, k3, k4, k5, k6⟩ := hc.popm h2
      have hst : ∀ (r' : Byte) (k' : Bytes) m, States c (itemOf { f with data := e ++ 0 :: r' :: k' }) m ↔ m = beNat k' := by
        intro r' k' m
        constructor
        · rintro (⟨h, -⟩ | ⟨-, e2, r2, k2, h, h0, rfl⟩)
          · exact absurd h h1
          · rw [(nul_split h k3 h0).2.2]
        · intro h; exact .inr ⟨h2, e, r', k', rfl, k3, h⟩
      have hfe : f = { f with data := e ++ 0 :: r :: k } := by
        cases f; simp [itemOf] at k2 ⊢; exact k2
      have hmax : ∀ n, s.pc ≤ max s.pc n ∧ n ≤ max s.pc n ∧ (max s.pc n = s.pc ∨ max s.pc n = n) := by intro n; omega
      by_cases h3 : create = true ∨ o.policy ≠ .pcntOnly
      · have h4 : o.policy ≠ .pcntOnly := by
          rcases h3 with h3 | h3
          · exact fun h => hp h3 h h2
          · exact h3
        have hem : (if e.isEmpty then .ok [] else o.email e) = (.ok e : Res Bytes) := by
          cases e with
          | nil => rfl
          | cons a e => exact k4 (by simp)
        by_cases h5 : o.owner = none ∨ o.owner = some e
        · have hr : Rates c o (itemOf f) := ⟨h2, h4, e, r, k, k2, k3, by
            intro own ho
            rcases h5 with h5 | h5 <;> rw [h5] at ho <;> cases ho
            rfl⟩
          refine ⟨⟨s.pcnt, s.popm + 1, max s.pc (plays o (beNat k))⟩,
            { f with data := e ++ 0 :: o.rating.getD r :: resetCounter (plays o (beNat k)) }, ?_, rfl,
            ⟨rfl, rfl, fun h => absurd h hncp, ?_, fun _ h => absurd hr h⟩, .inl ⟨hncp, rfl⟩, .inr ⟨hr, rfl⟩, ?_⟩
          · unfold seeFrame
            rw [if_neg (fun h => h1 h.1), if_pos ⟨h2, h3⟩, if_pos (show f.cls = _ from k1)]
            have k2' : f.data = e ++ 0 :: r :: k := k2
            unfold seePopm
            rw [k2', popm_parse k3]
            simp only [Res.ok_bind]
            rw [hem]
            simp only [Res.ok_bind, Popm.count]
            rw [counterCount_ok k5 k6]
            simp only [Res.ok_bind]
            rw [if_pos h5]
            unfold processPopm
            simp only [Popm.count]
            rw [new_plays k5 k6 hb]
            simp only [Res.ok_bind, hd]
            simp [Popm.write]
          · intro _ e' r' k' hx h0
            obtain ⟨rfl, rfl, rfl⟩ := nul_split (k2.symm.trans hx) k3 h0
            refine ⟨_, _, rfl, resetCounter_val _, reset_shortest _, ?_⟩
            cases o.rating <;> rfl
          · intro _
            obtain ⟨m1, m2, m3⟩ := hmax (plays o (beNat k))
            refine ⟨m1, ?_, ?_⟩
            · intro m hm; rw [(hst _ _ m).1 hm, resetCounter_val]; exact m2
            · rcases m3 with m3 | m3
              · exact .inl m3
              · exact .inr ((hst _ _ _).2 (by rw [resetCounter_val]; exact m3))
        · have hr : ¬ Rates c o (itemOf f) := by
            rintro ⟨-, -, e', r', k', hx, h0, ho⟩
            obtain ⟨rfl, -, -⟩ := nul_split (k2.symm.trans hx) k3 h0
            cases hw : o.owner with
            | none => exact h5 (.inl hw)
            | some own => exact h5 (.inr (by rw [hw, ho own hw]))
          refine ⟨{ s with pc := max s.pc (beNat k) }, f, ?_, rfl, ⟨rfl, rfl, fun h => absurd h hncp, fun h => absurd h hr, fun _ _ => rfl⟩,
            .inl ⟨hncp, rfl⟩, .inl ⟨hr, rfl⟩, ?_⟩
          · unfold seeFrame
            rw [if_neg (fun h => h1 h.1), if_pos ⟨h2, h3⟩, if_pos (show f.cls = _ from k1)]
            have k2' : f.data = e ++ 0 :: r :: k := k2
            unfold seePopm
            rw [k2', popm_parse k3]
            simp only [Res.ok_bind]
            rw [hem]
            simp only [Res.ok_bind, Popm.count]
            rw [counterCount_ok k5 k6]
            simp only [Res.ok_bind]
            rw [if_neg h5]
            simp only [Res.ok_bind, ← k2']
          · intro _
            obtain ⟨m1, m2, m3⟩ := hmax (beNat k)
            rw [hfe]
            refine ⟨m1, ?_, ?_⟩
            · intro m hm; rw [(hst _ _ m).1 hm]; exact m2
            · rcases m3 with m3 | m3
              · exact .inl m3
              · exact .inr ((hst _ _ _).2 m3)
      · have h4 : o.policy = .pcntOnly := Decidable.byContradiction fun h => h3 (.inr h)
        have hr : ¬ Rates c o (itemOf f) := fun h => h.2.1 h4
        refine ⟨s, f, ?_, rfl, ⟨rfl, rfl, fun h => absurd h hncp, fun h => absurd h hr, fun _ _ => rfl⟩,
          .inl ⟨hncp, rfl⟩, .inl ⟨hr, rfl⟩, fun h => absurd (.inl h) h3⟩
        unfold seeFrame
        rw [if_neg (fun h => h1 h.1), if_neg (fun h => h3 h.2)]
    · have hr : ¬ Rates c o (itemOf f) := fun h => h2 h.1
      refine ⟨s, f, ?_, rfl, ⟨rfl, rfl, fun h => absurd h hncp, fun h => absurd h hr, fun _ _ => rfl⟩,
        .inl ⟨hncp, rfl⟩, .inl ⟨hr, rfl⟩, fun _ => ⟨Nat.le_refl _, ?_, .inl rfl⟩⟩
      · unfold seeFrame
        rw [if_neg (fun h => h1 h.1), if_neg (fun h => h2 h.1)]
      · rintro m (⟨h, -⟩ | ⟨h, -⟩)
        · exact absurd h h1
        · exact absurd h h2

theorem pointwise_cons {α β : Type} {R : α → β → Prop} {x : α} {y : β} {l : List α} {m : List β} (h : R x y) (hl : Pointwise R l m) :
    Pointwise R (x :: l) (y :: m) := by
  refine ⟨by simp [hl.1], ?_⟩
  intro i a b ha hb
  cases i with
  | zero => simp at ha hb; rw [← ha, ← hb]; exact h
  | succ i => exact hl.2 i a b (by simpa using ha) (by simpa using hb)

/-- What the loop does. -/
theorem seeFrames_spec {c : Cfg} {o : PopmCfg} {create : Bool} (hd : o.dryRun = false) (hb : o.count + 2 ^ 32 ≤ 2 ^ 64) :
    ∀ (l : List Fr) (s : Seen), (create = true → o.policy = .pcntOnly → ∀ f ∈ l, f.id ≠ c.popId) → (∀ f ∈ l, Countable c o (itemOf f)) →
    ∃ s' l', seeFrames c o create s l = .ok (s', l') ∧ l'.map Fr.ptr = l.map Fr.ptr ∧
      Pointwise (FramePlayed c o) (l.map itemOf) (l'.map itemOf) ∧
      (s'.pcnt ≠ 0 ↔ s.pcnt ≠ 0 ∨ ∃ f ∈ l, CountsPlays c o (itemOf f)) ∧
      (s'.popm ≠ 0 ↔ s.popm ≠ 0 ∨ ∃ f ∈ l, Rates c o (itemOf f)) ∧
      (create = true → s.pc ≤ s'.pc ∧ (∀ f ∈ l', ∀ m, States c (itemOf f) m → m ≤ s'.pc) ∧
        (s'.pc = s.pc ∨ ∃ f ∈ l', States c (itemOf f) s'.pc)) := by
  intro l
  induction l with
  | nil =>
    intro s _ _
    refine ⟨s, [], rfl, rfl, ⟨rfl, by simp⟩, by simp, by simp, fun _ => ⟨Nat.le_refl _, by simp, .inl rfl⟩⟩
  | cons f l ih =>
    intro s hp hc
    obtain ⟨s1, f1, e1, p1, d1, n1, m1, b1⟩ := seeFrame_spec hd hb s f (fun h1 h2 => hp h1 h2 f List.mem_cons_self) (hc f List.mem_cons_self)
    obtain ⟨s2, l2, e2, p2, d2, n2, m2, b2⟩ := ih s1 (fun h1 h2 f hf => hp h1 h2 f (List.mem_cons_of_mem _ hf)) (fun f hf => hc f (List.mem_cons_of_mem _ hf))
    refine ⟨s2, f1 :: l2, by simp only [seeFrames, e1, Res.ok_bind, e2], by simp [p1, p2], pointwise_cons d1 d2, ?_, ?_, ?_⟩
    · rw [n2]
      simp only [List.mem_cons, exists_eq_or_imp]
      rcases n1 with ⟨a, b⟩ | ⟨a, b⟩
      · rw [b]; simp [a]
      · rw [b]; simp [a]
    · rw [m2]
      simp only [List.mem_cons, exists_eq_or_imp]
      rcases m1 with ⟨a, b⟩ | ⟨a, b⟩
      · rw [b]; simp [a]
      · rw [b]; simp [a]
    · intro h
      obtain ⟨a1, a2, a3⟩ := b1 h
      obtain ⟨c1, c2, c3⟩ := b2 h
      refine ⟨Nat.le_trans a1 c1, ?_, ?_⟩
      · intro g hg m hm
        rcases List.mem_cons.1 hg with rfl | hg
        · exact Nat.le_trans (a2 m hm) c1
        · exact c2 g hg m hm
      · rcases c3 with c3 | ⟨g, hg, c3⟩
        · rcases a3 with a3 | a3
          · exact .inl (c3.trans a3)
          · exact .inr ⟨f1, List.mem_cons_self, by rw [c3]; exact a3⟩
        · exact .inr ⟨g, List.mem_cons_of_mem _ hg, c3⟩

end Scribbu.Commands
