import Verif.Model.BodySize
import Verif.Props.Bodies
import Verif.Props.TagCloud

/-!
# C51 for encryption methods, comments and tag clouds
-/

namespace Scribbu.Props
open Scribbu Scribbu.Spec

/-- C51 for encryption methods, in full. -/
def C51_encr_claim : Prop :=
  ∀ (e : Encr) (n : Nat) (w : Bytes), e.serializedSize true = .ok n → e.write = .ok w →
    n = (unsynchronise false w).length

/-- **Finding**: every prediction for an encryption method is off by the terminator that is never written. -/
theorem C51_encr_refuted : ¬ C51_encr_claim := by
  intro h
  have := h ⟨[0x61], some 0x80, []⟩ 3 [0x61, 0x80] (by decide) (by decide)
  revert this
  decide

theorem isFalseSync_needs (x y : Byte) : (if needsUnsync x y then 1 else 0) =
    (if isFalseSync x y then 1 else 0) + (if x = 0xff ∧ y = 0 then 1 else 0) := by
  by_cases hx : x = 0xff
  · subst hx
    by_cases hy : y = 0
    · subst hy; decide
    · simp [needsUnsync, isFalseSync, hy]
  · simp [needsUnsync, isFalseSync, hx]

/-- **C51** For encryption methods the prediction is one more than C06's count over the bytes written, except that
an FF as the method in front of data that start with a zero byte is overlooked. -/
theorem C51_encr_partial (e : Encr) (w : Bytes) (hw : e.write = .ok w) :
    ∃ n, e.serializedSize true = .ok n ∧
      n + (if e.method = some 0xff ∧ e.data.head? = some 0 then 1 else 0) = w.length + 1 + countSyncs false w ∧
      e.serializedSize false = .ok (w.length + 1) := by
  obtain ⟨em, me, da⟩ := e
  cases me with
  | none => cases hw
  | some m =>
    have hw : Res.ok (em ++ [m] ++ da) = Res.ok w := hw
    cases hw
    have hc : countSyncs false (m :: da) =
        (match da with
         | [] => 0
         | y :: _ => if needsUnsync m y then 1 else 0) + countSyncs false da := by
      cases da <;> simp [countSyncs]
    refine ⟨_, rfl, ?_, ?_⟩
    · rw [show em ++ [m] ++ da = em ++ (m :: da) by simp, countSyncs_append, hc]
      cases da with
      | nil => cases em.getLast? <;> simp [Encr.size] <;> omega
      | cons y ys =>
        have := isFalseSync_needs m y
        cases em.getLast? <;> simp [Encr.size] at * <;> omega
    · simp [Encr.serializedSize, Encr.size]; omega

example : (⟨[0x61, 0xff], some 0xff, [0, 0xff, 0xf0]⟩ : Encr).serializedSize true = .ok 9 := by decide

/-- C51 for comments, in full. -/
def C51_comm_claim : Prop :=
  ∀ (c : Comm) (n : Nat) (w : Bytes), c.serializedSize true = .ok n → c.write = .ok w →
    n = (unsynchronise false w).length

/-- **Finding**: of a comment, too, an FF at the end of the description is overlooked. -/
theorem C51_comm_refuted : ¬ C51_comm_claim := by
  intro h
  have := h ⟨some .v3, some .iso88591, 1, some 0, some (0x65, 0x6e, 0x67), [0xff], [0x61]⟩ 7
    [0, 0x65, 0x6e, 0x67, 0xff, 0, 0x61] (by decide +kernel) (by decide +kernel)
  revert this
  decide +kernel

/-- **Finding**: a comment with a description but no text can be written, yet predicting its unsynchronised size
takes the front of an empty vector. -/
theorem C51_comm_refuted_ub : ∃ (c : Comm) (w : Bytes), c.write = .ok w ∧ c.serializedSize false = .ok w.length ∧
    ∃ u, c.serializedSize true = .ub u :=
  ⟨⟨some .v3, some .iso88591, 1, some 0, some (0x65, 0x6e, 0x67), [0x61], []⟩, [0, 0x65, 0x6e, 0x67, 0x61, 0],
    by decide, by decide, .emptyContainer, by decide⟩

/-- **C51** For comments: if there is a prediction at all, it differs from C06's count over the bytes written by
one less for an FF directly in front of the terminator and one more for a description that ends in FF when the text
starts with a zero byte or with EA and above. -/
theorem C51_comm_partial (c : Comm) (n : Nat) (w : Bytes) (hn : c.serializedSize true = .ok n)
    (hw : c.write = .ok w) (hcb : c.cbnil ≠ 0) :
    c.serializedSize false = .ok w.length ∧
    n + (if c.desc.getLast? = some 0xff ∨ (c.desc = [] ∧ c.lang.map (fun l => l.2.2) = some 0xff) then 1 else 0) =
      w.length + countSyncs false w +
        (if c.desc.getLast? = some 0xff ∧ ∃ t, c.text.head? = some t ∧ (t = 0 ∨ 0xea ≤ t.toNat) then 1 else 0) := by
  have hz : ∀ (k : Nat) (a b : Bytes), k ≠ 0 → countSyncs false (a ++ List.replicate k 0 ++ b) =
      countSyncs false a + countSyncs false b + (if a.getLast? = some 0xff then 1 else 0) := by
    intro k
    induction k with
    | zero => intro a b h; exact absurd rfl h
    | succ k ih =>
      intro a b _
      rw [List.replicate_succ, show a ++ 0 :: List.replicate k 0 ++ b = a ++ 0 :: (List.replicate k 0 ++ b) by simp,
        countSyncs_false_zero]
      by_cases hk : k = 0
      · subst hk; rfl
      · have := ih [] b hk
        rw [List.nil_append] at this
        rw [this]; simp [countSyncs]
  obtain ⟨ver, enc, cbnil, unicode, lang, desc, text⟩ := c
  cases unicode with
  | none => simp [Comm.write] at hw
  | some u =>
    cases lang with
    | none => simp [Comm.write] at hw
    | some l =>
      obtain ⟨l0, l1, l2⟩ := l
      simp only [Comm.write, Res.ok.injEq] at hw
      have hlen : w.length = Comm.size ⟨ver, enc, cbnil, some u, some (l0, l1, l2), desc, text⟩ := by
        rw [← hw]; simp [Comm.size]; omega
      refine ⟨by rw [hlen]; rfl, ?_⟩
      rw [hlen, ← hw, hz _ _ _ hcb]
      cases desc with
      | nil =>
        simp only [Comm.serializedSize, Comm.countSyncs, if_true, Res.ok_bind, Res.ok.injEq] at hn
        rw [← hn]
        simp [countSyncs]
        omega
      | cons d ds =>
        cases text with
        | nil => simp [Comm.serializedSize, Comm.countSyncs] at hn
        | cons t ts =>
          simp only [Comm.serializedSize, Comm.countSyncs, if_true, Res.ok_bind, Res.ok.injEq] at hn
          have hlast : (d :: ds).getLast? = some ((d :: ds).getLast (by simp)) := by
            rw [List.getLast?_eq_some_getLast]
          have hl2 : ([u] ++ [l0, l1, l2] ++ d :: ds).getLast? = (d :: ds).getLast? := by
            rw [List.getLast?_append, hlast]; rfl
          have hp : (if (d :: ds).getLast? = some 0xff ∧ ∃ x, (t :: ts).head? = some x ∧ (x = 0 ∨ 0xea ≤ x.toNat)
              then 1 else 0) = (if needsUnsync ((d :: ds).getLast (by simp)) t = true then 1 else 0) := by
            rw [hlast]
            simp only [Option.some.injEq, List.head?_cons, needsUnsync, Bool.and_eq_true, Bool.or_eq_true, beq_iff_eq,
              decide_eq_true_eq, exists_eq_left', UInt8.lt_iff_toNat_lt]
            congr 1
            apply propext
            rw [Or.comm]
            rfl
          rw [hp, ← hn, hl2, show [u] ++ [l0, l1, l2] ++ d :: ds = u :: l0 :: l1 :: l2 :: d :: ds by simp]
          have ho : ((d :: ds).getLast? = some 0xff ∨
              (d :: ds = [] ∧ Option.map (fun l : Byte × Byte × Byte => l.2.2) (some (l0, l1, l2)) = some 0xff)) =
              ((d :: ds).getLast? = some 0xff) := by
            apply propext
            constructor
            · intro h
              rcases h with h | ⟨h, _⟩
              · exact h
              · cases h
            · exact Or.inl
          simp only [ho, countSyncs, Bool.false_eq_true, if_false]
          omega

example : (⟨some .v3, some .iso88591, 1, some 0, some (0x65, 0x6e, 0xff), [], [0xff, 0xf1]⟩ : Comm).serializedSize true
    = .ok 8 := by decide +kernel

/-- C51 for tag clouds, in full. -/
def C51_xtag_claim : Prop :=
  ∀ (t : TagCloud) (n : Nat), t.serializedSize true = .ok n → n = (unsynchronise false t.write).length

/-- **Finding**: an FF at the end of a key, in front of its terminator, is overlooked in tag clouds as well. -/
theorem C51_xtag_refuted : ¬ C51_xtag_claim := by
  intro h
  have := h ⟨[], [([0xff], [[0x61]])]⟩ 10 (by decide +kernel)
  revert this
  decide +kernel

/-- **Finding**: the prediction for a tag cloud can also exceed the truth: the length of the values is examined in
host byte order, where one of 255 bytes is FF 00 00 00, and written in network byte order. -/
theorem C51_xtag_refuted_over : ∃ (t : TagCloud) (n : Nat), t.serializedSize true = .ok n ∧
    (unsynchronise false t.write).length < n :=
  ⟨⟨[], [([0x6b], [List.replicate 254 0x61])]⟩, 264, by decide +kernel, by decide +kernel⟩

/-- **C51** Tag clouds whose owner, keys and values are free of FF, and whose keys each have fewer than 255 bytes of
values, predict their size rightly. -/
theorem C51_xtag_partial (t : TagCloud) (ho : (0xff : Byte) ∉ t.own)
    (hk : ∀ e ∈ t.tags, (0xff : Byte) ∉ e.1 ∧ (∀ v ∈ e.2, (0xff : Byte) ∉ v) ∧
      (e.2.map fun v => v.length + 1).sum < 255) :
    t.serializedSize true = .ok (unsynchronise false t.write).length ∧
    t.serializedSize false = .ok t.write.length := by
  have hgrow : ∀ b : Bytes, (0xff : Byte) ∉ b → countSyncs false b = 0 ∧ unsynchronise false b = b := by
    intro b
    induction b with
    | nil => intro _; exact ⟨rfl, rfl⟩
    | cons x xs ih =>
      intro h
      have hx : x ≠ 0xff := fun e => h (by simp [e])
      obtain ⟨h1, h2⟩ := ih (fun m => h (by simp [m]))
      refine ⟨?_, ?_⟩
      · cases xs with
        | nil => rfl
        | cons y ys => simp [countSyncs, needsUnsync, hx, h1]
      · cases xs with
        | nil => simp [unsynchronise, hx]
        | cons y ys => simp [unsynchronise, hx] at *; exact h2
  have hsmall : ∀ n, n < 255 → (0xff : Byte) ∉ TagCloud.be32 n ∧ TagCloud.countSyncs32 n false = 0 := by
    intro n hn
    have : ∀ m : Fin 255, (0xff : Byte) ∉ TagCloud.be32 m.val ∧ TagCloud.countSyncs32 m.val false = 0 := by
      decide +kernel
    exact this ⟨n, hn⟩
  have hraw : ∀ vs : List Bytes, (∀ v ∈ vs, (0xff : Byte) ∉ v) → (0xff : Byte) ∉ TagCloud.rawVals vs := by
    intro vs h hm
    unfold TagCloud.rawVals at hm
    rw [List.mem_flatten] at hm
    obtain ⟨l, hl, hx⟩ := hm
    obtain ⟨v, hv, rfl⟩ := List.mem_map.1 hl
    rw [List.mem_append] at hx
    rcases hx with hx | hx
    · exact h v hv hx
    · simp at hx
  have hno : (0xff : Byte) ∉ t.write := by
    intro hm
    unfold TagCloud.write at hm
    simp only [List.mem_append, List.mem_flatten, List.mem_map] at hm
    rcases hm with ((hm | hm) | hm) | ⟨l, ⟨e, he, rfl⟩, hx⟩
    · simp at hm
    · exact ho hm
    · simp at hm
    · obtain ⟨a1, a2, a3⟩ := hk e he
      simp only [List.mem_append] at hx
      rcases hx with ((hx | hx) | hx) | hx
      · exact a1 hx
      · simp at hx
      · rw [Nat.mod_eq_of_lt (by omega)] at hx
        exact (hsmall _ a3).1 hx
      · exact hraw _ a2 hx
  have hsum : ∀ vs : List Bytes, (∀ v ∈ vs, (0xff : Byte) ∉ v) → (vs.map (countSyncs false)).sum = 0 := by
    intro vs
    induction vs with
    | nil => intro _; rfl
    | cons v r ih =>
      intro h
      simp only [List.map_cons, List.sum_cons, (hgrow v (h v (by simp))).1,
        ih (fun x hx => h x (by simp [hx]))]
  have hgo : ∀ T : TagMap, (∀ e ∈ T, (0xff : Byte) ∉ e.1 ∧ (∀ v ∈ e.2, (0xff : Byte) ∉ v) ∧
      (e.2.map fun v => v.length + 1).sum < 255) → TagCloud.countSyncs.go false T = .ok 0 := by
    intro T
    induction T with
    | nil => intro _; rfl
    | cons e r ih =>
      obtain ⟨k, vs⟩ := e
      intro h
      obtain ⟨a1, a2, a3⟩ := h (k, vs) (by simp)
      simp only at a1 a2 a3
      unfold TagCloud.countSyncs.go
      simp only [Bool.false_eq_true, if_false, Res.ok_bind, ih (fun x hx => h x (by simp [hx])),
        (hgrow k a1).1, hsum vs a2]
      rw [Nat.mod_eq_of_lt (show (vs.map fun v => v.length + 1).sum < 2 ^ 32 by omega), (hsmall _ a3).2]
  refine ⟨?_, ?_⟩
  · unfold TagCloud.serializedSize TagCloud.countSyncs
    simp only [if_true, hgo t.tags hk, Res.ok_bind, (hgrow _ ho).1]
    rw [(hgrow _ hno).2, C18_size]
    rfl
  · rw [C18_size]; rfl

example : (⟨[0x6d], [([0x6b], [[0x61], [0x62, 0x63]])]⟩ : TagCloud).serializedSize true = .ok 14 := by decide +kernel

end Scribbu.Props
