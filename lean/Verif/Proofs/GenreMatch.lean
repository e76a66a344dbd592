import Verif.Model.GenreMatch
import Verif.Proofs.Edits

/-! # Berghel and Roach's algorithm as it is in scribbu/winamp-genres.cc -/

namespace Scribbu.Genres

open Edits

/-! ## The array -/

theorem Mem.get_nil (j : Nat) : Mem.nil.get j = none := by simp [Mem.get]

theorem Mem.get_node (v : Option Int) (l r : Mem) (j : Nat) :
    (Mem.node v l r).get j = if j = 0 then v else if j % 2 = 1 then l.get (j / 2) else r.get (j / 2 - 1) := by
  rw [Mem.get]

theorem Mem.get_setAux : ∀ (f : Nat) (m : Mem) (i : Nat) (x : Int) (j : Nat), i < f →
    (m.setAux f i x).get j = if j = i then some x else m.get j := by
  intro f
  induction f with
  | zero => intro m i x j h; omega
  | succ f ih =>
    intro m i x j h
    cases m with
    | nil =>
      rw [Mem.setAux]
      by_cases h0 : i = 0
      · rw [if_pos h0, h0]
        by_cases hj : j = 0
        · simp [Mem.get, hj]
        · simp [Mem.get, hj]
      · rw [if_neg h0]
        by_cases h1 : i % 2 = 1
        · rw [if_pos h1]
          rw [Mem.get_node]
          by_cases hj : j = 0
          · rw [if_pos hj, if_neg (by omega)]; simp [Mem.get]
          · rw [if_neg hj]
            by_cases hj1 : j % 2 = 1
            · rw [if_pos hj1, ih _ _ _ _ (by omega)]
              by_cases he : j = i
              · rw [if_pos (by omega), if_pos he]
              · rw [if_neg (by omega), if_neg he]; simp [Mem.get]
            · rw [if_neg hj1, if_neg (by omega)]; simp [Mem.get]
        · rw [if_neg h1]
          rw [Mem.get_node]
          by_cases hj : j = 0
          · rw [if_pos hj, if_neg (by omega)]; simp [Mem.get]
          · rw [if_neg hj]
            by_cases hj1 : j % 2 = 1
            · rw [if_pos hj1, if_neg (by omega)]; simp [Mem.get]
            · rw [if_neg hj1, ih _ _ _ _ (by omega)]
              by_cases he : j = i
              · rw [if_pos (by omega), if_pos he]
              · rw [if_neg (by omega), if_neg he]; simp [Mem.get]
    | node v l r =>
      rw [Mem.setAux]
      by_cases h0 : i = 0
      · rw [if_pos h0, h0]
        by_cases hj : j = 0
        · simp [Mem.get, hj]
        · simp [Mem.get, hj]
      · rw [if_neg h0]
        by_cases h1 : i % 2 = 1
        · rw [if_pos h1]
          rw [Mem.get_node]
          by_cases hj : j = 0
          · rw [if_pos hj, if_neg (by omega)]; simp [Mem.get, hj]
          · rw [if_neg hj]
            by_cases hj1 : j % 2 = 1
            · rw [if_pos hj1, ih _ _ _ _ (by omega)]
              by_cases he : j = i
              · rw [if_pos (by omega), if_pos he]
              · rw [if_neg (by omega), if_neg he]; simp [Mem.get, hj, hj1]
            · rw [if_neg hj1, if_neg (by omega)]; simp [Mem.get, hj, hj1]
        · rw [if_neg h1]
          rw [Mem.get_node]
          by_cases hj : j = 0
          · rw [if_pos hj, if_neg (by omega)]; simp [Mem.get, hj]
          · rw [if_neg hj]
            by_cases hj1 : j % 2 = 1
            · rw [if_pos hj1, if_neg (by omega)]; simp [Mem.get, hj, hj1]
            · rw [if_neg hj1, ih _ _ _ _ (by omega)]
              by_cases he : j = i
              · rw [if_pos (by omega), if_pos he]
              · rw [if_neg (by omega), if_neg he]; simp [Mem.get, hj, hj1]

/-- What is at an index. -/
def Fkp.val (F : Fkp) (i : Int) : Int :=
  match F.mem.get i.toNat with
  | some x => x
  | none => F.fill

theorem Fkp.rd_ok (F : Fkp) (i : Int) (h : 0 ≤ i ∧ i < F.size) : F.rd i = .ok (F.val i) := by
  unfold Fkp.rd Fkp.val
  rw [if_pos h]
  cases F.mem.get i.toNat <;> rfl

theorem Fkp.wr_ok (F : Fkp) (i x : Int) (h : 0 ≤ i ∧ i < F.size) : ∃ F', F.wr i x = .ok F' ∧ F'.size = F.size ∧ F'.fill = F.fill ∧
    ∀ j, 0 ≤ j → F'.val j = if j = i then x else F.val j := by
  unfold Fkp.wr
  rw [if_pos h]
  refine ⟨_, rfl, rfl, rfl, ?_⟩
  intro j hj
  unfold Fkp.val
  simp only
  rw [Mem.get_setAux _ _ _ _ _ (by omega)]
  by_cases he : j = i
  · rw [if_pos he, if_pos (by rw [he])]
  · rw [if_neg he, if_neg (by omega)]

/-- The value for diagonal `k` and `q` changes. -/
def cell (c : Ctx) (F : Fkp) (k q : Int) : Int := F.val (c.idx k (q + 1))

/-- The diagonals and numbers of changes there is room for. -/
def Ctx.In (c : Ctx) (k q : Int) : Prop := -(c.inf : Int) ≤ k ∧ k ≤ c.inf ∧ -1 ≤ q ∧ q ≤ c.inf

/-- The size of the array. -/
def Ctx.Fits (c : Ctx) (F : Fkp) : Prop := F.size = (2 * c.inf + 1) * (c.inf + 2)

theorem idx_range {c : Ctx} {F : Fkp} (hF : c.Fits F) {k q : Int} (h : c.In k q) :
    0 ≤ c.idx k (q + 1) ∧ c.idx k (q + 1) < F.size := by
  obtain ⟨h1, h2, h3, h4⟩ := h
  unfold Ctx.idx Ctx.maxP
  rw [hF]
  have hM : (0 : Int) ≤ (c.inf : Int) + 2 := by omega
  have h5 : 0 ≤ (k + c.inf) * ((c.inf : Int) + 2) := Int.mul_nonneg (by omega) hM
  have h6 : (k + c.inf) * ((c.inf : Int) + 2) ≤ (2 * c.inf) * ((c.inf : Int) + 2) := Int.mul_le_mul_of_nonneg_right (by omega) hM
  have h7 : (((2 * c.inf + 1) * (c.inf + 2) : Nat) : Int) = (2 * c.inf) * ((c.inf : Int) + 2) + ((c.inf : Int) + 2) := by
    simp only [Int.natCast_mul, Int.natCast_add]
    rw [Int.add_mul]
    simp
  rw [h7]
  omega

theorem idx_inj {c : Ctx} {k q k' q' : Int} (h : c.In k q) (h' : c.In k' q') (he : c.idx k (q + 1) = c.idx k' (q' + 1)) :
    k = k' ∧ q = q' := by
  obtain ⟨h1, h2, h3, h4⟩ := h
  obtain ⟨h1', h2', h3', h4'⟩ := h'
  unfold Ctx.idx Ctx.maxP at he
  have hM : (0 : Int) < (c.inf : Int) + 2 := by omega
  have e1 : ((k + c.inf) * ((c.inf : Int) + 2) + (q + 1)) / ((c.inf : Int) + 2) = k + c.inf := by
    rw [Int.add_comm, Int.add_mul_ediv_right _ _ (by omega), Int.ediv_eq_zero_of_lt (by omega) (by omega)]
    omega
  have e2 : ((k' + c.inf) * ((c.inf : Int) + 2) + (q' + 1)) / ((c.inf : Int) + 2) = k' + c.inf := by
    rw [Int.add_comm, Int.add_mul_ediv_right _ _ (by omega), Int.ediv_eq_zero_of_lt (by omega) (by omega)]
    omega
  have hk : k = k' := by
    rw [he, e2] at e1
    omega
  subst hk
  exact ⟨rfl, by omega⟩

/-- `F'` is `F` but for the value for `k` and `q`, which is `v`. -/
def Upd (c : Ctx) (F F' : Fkp) (k q v : Int) : Prop :=
  F'.size = F.size ∧ ∀ k' q', c.In k' q' → cell c F' k' q' = if k' = k ∧ q' = q then v else cell c F k' q'

theorem wr_cell {c : Ctx} {F : Fkp} (hF : c.Fits F) {k q : Int} (h : c.In k q) (v : Int) :
    ∃ F', F.wr (c.idx k (q + 1)) v = .ok F' ∧ Upd c F F' k q v := by
  obtain ⟨F', h1, h2, h3, h4⟩ := F.wr_ok (c.idx k (q + 1)) v (idx_range hF h)
  refine ⟨F', h1, h2, ?_⟩
  intro k' q' h'
  unfold cell
  rw [h4 _ (idx_range hF h').1]
  by_cases he : k' = k ∧ q' = q
  · rw [if_pos he, if_pos (by rw [he.1, he.2])]
  · rw [if_neg he, if_neg]
    intro hi
    exact he (idx_inj h' h hi)

theorem rd_cell {c : Ctx} {F : Fkp} (hF : c.Fits F) {k q : Int} (h : c.In k q) : F.rd (c.idx k (q + 1)) = .ok (cell c F k q) :=
  F.rd_ok _ (idx_range hF h)

theorem rd_cell' {c : Ctx} {F : Fkp} (hF : c.Fits F) {k q : Int} (h : c.In k (q - 1)) : F.rd (c.idx k q) = .ok (cell c F k (q - 1)) := by
  have := rd_cell hF h
  rwa [Int.sub_add_cancel] at this

/-! ## Sliding down a diagonal -/

theorem charAt_ok {s : List Nat} {i : Nat} (h : i < s.length) : charAt s (i : Int) = .ok s[i] := by
  unfold charAt
  rw [if_pos (by omega)]
  simp [h]

theorem slide_stop (A B : List Nat) (k L t : Int) (fuel : Nat) (h : ¬ (t ≥ 0 ∧ t ≥ -k ∧ t < L)) : slide A B k L fuel t = .ok t := by
  cases fuel with
  | zero => rfl
  | succ f => rw [slide, if_neg h]

theorem slide_spec (A B : List Nat) (k : Int) : ∀ (fuel i j : Nat), (j : Int) = i + k → i ≤ A.length → j ≤ B.length →
    A.length - i < fuel →
    ∃ r : Nat, slide A B k (if (B.length : Int) - k < 0 then (A.length : Int) else min (A.length : Int) (B.length - k)) fuel i =
        .ok ((i + r : Nat) : Int) ∧
      i + r ≤ A.length ∧ j + r ≤ B.length ∧ (∀ d, E A B i j d → E A B (i + r) (j + r) d) ∧
      ∀ (h1 : i + r < A.length) (h2 : j + r < B.length), A[i + r] ≠ B[j + r] := by
  intro fuel
  induction fuel with
  | zero => intro i j _ _ _ h; omega
  | succ f ih =>
    intro i j hj hi hjn hf
    have hL : (if (B.length : Int) - k < 0 then (A.length : Int) else min (A.length : Int) (B.length - k)) =
        min (A.length : Int) (B.length - k) := by
      rw [if_neg]; omega
    rw [hL] at ih ⊢
    rw [slide]
    by_cases hc : (i : Int) ≥ 0 ∧ (i : Int) ≥ -k ∧ (i : Int) < min (A.length : Int) (B.length - k)
    · rw [if_pos hc]
      have hiA : i < A.length := by omega
      have hjB : j < B.length := by omega
      rw [charAt_ok hiA, ← hj, charAt_ok hjB]
      simp only [Res.ok_bind]
      by_cases he : A[i] = B[j]
      · rw [if_pos he]
        obtain ⟨r, h1, h2, h3, h4, h5⟩ := ih (i + 1) (j + 1) (by omega) (by omega) (by omega) (by omega)
        refine ⟨r + 1, ?_, by omega, by omega, ?_, ?_⟩
        · have e : i + 1 + r = i + (r + 1) := by omega
          rw [← e, ← h1]
          congr 1
        · intro d hd
          have := h4 d (E.keep hd hiA hjB he)
          have e1 : i + 1 + r = i + (r + 1) := by omega
          have e2 : j + 1 + r = j + (r + 1) := by omega
          rwa [e1, e2] at this
        · intro h6 h7
          have := h5 (by omega) (by omega)
          simpa [Nat.add_assoc, Nat.add_comm 1 r] using this
      · rw [if_neg he]
        exact ⟨0, rfl, by omega, by omega, fun d hd => hd, fun _ _ => he⟩
    · rw [if_neg hc]
      refine ⟨0, rfl, by omega, by omega, fun d hd => hd, ?_⟩
      intro h1 h2
      omega

/-! ## One value -/

/-- `x` is the end of the longest prefix that can be turned into the one `k` longer at the cost of `q` at most. -/
def Good (A B : List Nat) (k q x : Int) : Prop :=
  ∃ i j : Nat, x = i ∧ (j : Int) = i + k ∧ (∃ d : Nat, (d : Int) ≤ q ∧ E A B i j d) ∧
    ∀ i' j' d' : Nat, (j' : Int) = i' + k → (d' : Int) ≤ q → E A B i' j' d' → i' ≤ i

/-- `x` is one such prefix. -/
def Some1 (A B : List Nat) (k q x : Int) : Prop :=
  ∃ i j d : Nat, x = i ∧ (j : Int) = i + k ∧ (d : Int) ≤ q ∧ E A B i j d

/-- What is there to begin with for `|k| - 1` changes. -/
def base (k : Int) : Int := if k < 0 then (k.natAbs : Int) - 1 else -1

theorem some_delete {A B : List Nat} {k q : Int} (hk : k ≤ 0) (hm : -k ≤ A.length) (hq : -k ≤ q) : Some1 A B k q (-k) := by
  have := E.deletes (E.nil (A := A) (B := B)) k.natAbs (by omega)
  refine ⟨_, _, _, ?_, ?_, ?_, this⟩ <;> omega

theorem some_insert {A B : List Nat} {k q : Int} (hk : 0 ≤ k) (hn : k ≤ B.length) (hq : k ≤ q) : Some1 A B k q 0 := by
  have := E.inserts (E.nil (A := A) (B := B)) k.natAbs (by omega)
  refine ⟨_, _, _, ?_, ?_, ?_, this⟩ <;> omega

/-- The value that is computed from the ones for one change less. -/
def best (A B : List Nat) (k v va vb : Int) : Int :=
  let t := v + 1
  let t2 := if t > 0 ∧ t < A.length ∧ k + t - 1 ≥ 0 ∧ k + t < B.length ∧ A[(t - 1).toNat]? = B[(k + t).toNat]? ∧
    A[t.toNat]? = B[(k + t - 1).toNat]? then t + 1 else t
  let s := if va > t then va else t
  let s := if vb + 1 > s then vb + 1 else s
  if t2 > s then t2 else s

theorem charAt_get {s : List Nat} {i : Int} (h0 : 0 ≤ i) (h : i < s.length) : ∃ x, charAt s i = .ok x ∧ s[i.toNat]? = some x := by
  have h' : i.toNat < s.length := by omega
  refine ⟨s[i.toNat], ?_, by simp [h']⟩
  have := charAt_ok h'
  rwa [Int.toNat_of_nonneg h0] at this

/-- `f`, when there is something to read. -/
theorem f_eq {c : Ctx} {A : List Nat} {k q : Int} {F : Fkp} (hF : c.Fits F) (hk : -(c.inf : Int) < k) (hk' : k < c.inf)
    (hq : 0 ≤ q) (hq' : q ≤ c.inf) :
    f c A k q F =
      (slide A c.B k (if (c.B.length : Int) - k < 0 then (A.length : Int) else min (A.length : Int) (c.B.length - k)) (A.length + 1)
        (best A c.B k (cell c F k (q - 1)) (cell c F (k - 1) (q - 1)) (cell c F (k + 1) (q - 1)))).bind
        fun t => F.wr (c.idx k (q + 1)) t := by
  unfold f
  have hn : c.n = c.B.length := rfl
  simp only
  rw [if_pos (show q ≥ 0 from hq), if_pos (show q ≥ 0 from hq), if_pos (show q ≥ 0 from hq)]
  rw [rd_cell' hF ⟨by omega, by omega, by omega, by omega⟩, rd_cell' hF ⟨by omega, by omega, by omega, by omega⟩,
    rd_cell' hF ⟨by omega, by omega, by omega, by omega⟩]
  simp only [Res.ok_bind]
  have hw : (k + (c.inf : Int) ≥ 0 ∧ q > -2) := ⟨by omega, by omega⟩
  simp only [if_pos hw]
  unfold best
  generalize cell c F k (q - 1) = v
  by_cases hc : v + 1 > 0 ∧ v + 1 < A.length ∧ k + (v + 1) - 1 ≥ 0 ∧ k + (v + 1) < c.n
  · rw [if_pos hc]
    obtain ⟨h1, h2, h3, h4⟩ := hc
    obtain ⟨a0, e1, g1⟩ := charAt_get (s := A) (i := v + 1 - 1) (by omega) (by omega)
    obtain ⟨a1, e2, g2⟩ := charAt_get (s := A) (i := v + 1) (by omega) (by omega)
    obtain ⟨b0, e3, g3⟩ := charAt_get (s := c.B) (i := k + (v + 1) - 1) (by omega) (by omega)
    obtain ⟨b1, e4, g4⟩ := charAt_get (s := c.B) (i := k + (v + 1)) (by omega) (by omega)
    rw [e1, e2, e3, e4]
    simp only [Res.ok_bind, g1, g2, g3, g4, Option.some.injEq]
    by_cases he : a0 = b1 ∧ a1 = b0
    · rw [if_pos he, if_pos (show v + 1 > 0 ∧ v + 1 < A.length ∧ k + (v + 1) - 1 ≥ 0 ∧ k + (v + 1) < c.B.length ∧ a0 = b1 ∧ a1 = b0
        from ⟨h1, h2, h3, h4, he.1, he.2⟩)]
      rfl
    · rw [if_neg he, if_neg (show ¬ (v + 1 > 0 ∧ v + 1 < A.length ∧ k + (v + 1) - 1 ≥ 0 ∧ k + (v + 1) < c.B.length ∧ a0 = b1 ∧ a1 = b0)
        from fun h => he ⟨h.2.2.2.2.1, h.2.2.2.2.2⟩)]
      rfl
  · rw [if_neg hc]
    simp only [Res.ok_bind]
    rw [if_neg (show ¬ (v + 1 > 0 ∧ v + 1 < A.length ∧ k + (v + 1) - 1 ≥ 0 ∧ k + (v + 1) < c.B.length ∧
        A[(v + 1 - 1).toNat]? = c.B[(k + (v + 1)).toNat]? ∧ A[(v + 1).toNat]? = c.B[(k + (v + 1) - 1).toNat]?) from
        fun h => hc ⟨h.1, h.2.1, h.2.2.1, h.2.2.2.1⟩)]
    rfl

theorem best_ge (A B : List Nat) (k v va vb : Int) : v + 1 ≤ best A B k v va vb ∧ va ≤ best A B k v va vb ∧
    vb + 1 ≤ best A B k v va vb ∧ (v + 1 > 0 → v + 1 < A.length → k + (v + 1) - 1 ≥ 0 → k + (v + 1) < B.length →
      A[(v + 1 - 1).toNat]? = B[(k + (v + 1)).toNat]? → A[(v + 1).toNat]? = B[(k + (v + 1) - 1).toNat]? →
      v + 2 ≤ best A B k v va vb) := by
  unfold best
  simp only
  refine ⟨?_, ?_, ?_, ?_⟩
  · split <;> split <;> split <;> omega
  · split <;> split <;> split <;> omega
  · split <;> split <;> split <;> omega
  · intro h1 h2 h3 h4 h5 h6
    rw [if_pos (show _ ∧ _ ∧ _ ∧ _ ∧ _ ∧ _ from ⟨h1, h2, h3, h4, h5, h6⟩)]
    generalize (if va > v + 1 then va else v + 1) = s1
    generalize (if vb + 1 > s1 then vb + 1 else s1) = s2
    split <;> omega

theorem best_is (A B : List Nat) (k v va vb : Int) : best A B k v va vb = v + 1 ∨ best A B k v va vb = va ∨
    best A B k v va vb = vb + 1 ∨ (best A B k v va vb = v + 2 ∧ v + 1 > 0 ∧ v + 1 < A.length ∧ k + (v + 1) - 1 ≥ 0 ∧
      k + (v + 1) < B.length ∧ A[(v + 1 - 1).toNat]? = B[(k + (v + 1)).toNat]? ∧
      A[(v + 1).toNat]? = B[(k + (v + 1) - 1).toNat]?) := by
  unfold best
  simp only
  have either : ∀ x y : Int, (if x > y then x else y) = x ∨ (if x > y then x else y) = y := by
    intro x y
    split
    · exact .inl rfl
    · exact .inr rfl
  have e1 := either va (v + 1)
  generalize (if va > v + 1 then va else v + 1) = s1 at *
  have e2 := either (vb + 1) s1
  generalize (if vb + 1 > s1 then vb + 1 else s1) = s2 at *
  by_cases h : v + 1 > 0 ∧ v + 1 < A.length ∧ k + (v + 1) - 1 ≥ 0 ∧ k + (v + 1) < B.length ∧
    A[(v + 1 - 1).toNat]? = B[(k + (v + 1)).toNat]? ∧ A[(v + 1).toNat]? = B[(k + (v + 1) - 1).toNat]?
  · rw [if_pos h]
    rcases either (v + 1 + 1) s2 with e3 | e3
    · rw [e3]
      exact .inr (.inr (.inr ⟨by omega, h⟩))
    · rw [e3]
      rcases e2 with e2 | e2
      · exact .inr (.inr (.inl e2))
      · rcases e1 with e1 | e1
        · exact .inr (.inl (by omega))
        · exact .inl (by omega)
  · rw [if_neg h]
    rcases either (v + 1) s2 with e3 | e3
    · exact .inl e3
    · rw [e3]
      rcases e2 with e2 | e2
      · exact .inr (.inr (.inl e2))
      · rcases e1 with e1 | e1
        · exact .inr (.inl (by omega))
        · exact .inl (by omega)

/-- From the best for one change less to the best. -/
theorem good_step {A B : List Nat} {k q v va vb : Int} (_ : (k.natAbs : Int) ≤ q) (hkm : -k ≤ A.length) (hkn : k ≤ B.length)
    (hv : ((k.natAbs : Int) < q ∧ Good A B k (q - 1) v ∧ v < A.length ∧ v + k < B.length) ∨ (q = k.natAbs ∧ v = base k))
    (ha : (((k - 1).natAbs : Int) < q ∧ Good A B (k - 1) (q - 1) va ∧ va + (k - 1) < B.length) ∨
      (((k - 1).natAbs : Int) = q ∧ va = base (k - 1)) ∨ (((k - 1).natAbs : Int) = q + 1 ∧ va < 0))
    (hb : (((k + 1).natAbs : Int) < q ∧ Good A B (k + 1) (q - 1) vb ∧ vb < A.length) ∨
      (((k + 1).natAbs : Int) = q ∧ vb = base (k + 1)) ∨ (((k + 1).natAbs : Int) = q + 1 ∧ vb < 0)) :
    ∃ x, slide A B k (if (B.length : Int) - k < 0 then (A.length : Int) else min (A.length : Int) (B.length - k)) (A.length + 1)
      (best A B k v va vb) = .ok x ∧ Good A B k q x := by
  -- what is computed is possible
  have hsound : Some1 A B k q (best A B k v va vb) := by
    have hge := best_ge A B k v va vb
    have hpos : 0 ≤ best A B k v va vb := by
      have h1 := hge.1
      rcases hv with ⟨_, ⟨i, j, e, _⟩, _⟩ | ⟨_, e⟩
      · omega
      · unfold base at e
        split at e <;> omega
    rcases best_is A B k v va vb with e | e | e | ⟨e, h1, h2, h3, h4, h5, h6⟩
    · rcases hv with ⟨_, ⟨i, j, ev, ej, ⟨d, hd, hE⟩, _⟩, hm, hn⟩ | ⟨hq, ev⟩
      · exact ⟨i + 1, j + 1, d + 1, by omega, by omega, by omega, E.replace hE (by omega) (by omega)⟩
      · unfold base at ev
        by_cases hneg : k < 0
        · rw [if_pos hneg] at ev
          rw [e, ev]
          have := some_delete (A := A) (B := B) (k := k) (q := q) (by omega) hkm (by omega)
          have e' : (k.natAbs : Int) - 1 + 1 = -k := by omega
          rwa [e']
        · rw [if_neg hneg] at ev
          rw [e, ev]
          exact some_insert (by omega) hkn (by omega)
    · rcases ha with ⟨_, ⟨i, j, ev, ej, ⟨d, hd, hE⟩, _⟩, hn⟩ | ⟨hq, ev⟩ | ⟨_, hneg⟩
      · exact ⟨i, j + 1, d + 1, by omega, by omega, by omega, E.insert hE (by omega)⟩
      · unfold base at ev
        by_cases hneg : k - 1 < 0
        · rw [if_pos hneg] at ev
          rw [e, ev]
          have := some_delete (A := A) (B := B) (k := k) (q := q) (by omega) hkm (by omega)
          have e' : ((k - 1).natAbs : Int) - 1 = -k := by omega
          rwa [e']
        · omega
      · omega
    · rcases hb with ⟨_, ⟨i, j, ev, ej, ⟨d, hd, hE⟩, _⟩, hm⟩ | ⟨hq, ev⟩ | ⟨hq, hneg⟩
      · exact ⟨i + 1, j, d + 1, by omega, by omega, by omega, E.delete hE (by omega)⟩
      · unfold base at ev
        by_cases hneg : k + 1 < 0
        · omega
        · rw [if_neg hneg] at ev
          rw [e, ev]
          exact some_insert (by omega) hkn (by omega)
      · have e0 : vb + 1 = 0 := by omega
        rw [e, e0]
        exact some_insert (by omega) hkn (by omega)
    · rcases hv with ⟨_, ⟨i, j, ev, ej, ⟨d, hd, hE⟩, _⟩, hm, hn⟩ | ⟨hq, ev⟩
      · have i1 : i + 1 < A.length := by omega
        have j1 : j + 1 < B.length := by omega
        refine ⟨i + 2, j + 2, d + 1, by omega, by omega, by omega, E.exchange hE i1 j1 ?_ ?_⟩
        · have e1 : (v + 1 - 1).toNat = i := by omega
          have e2 : (k + (v + 1)).toNat = j + 1 := by omega
          rw [e1, e2, List.getElem?_eq_getElem (show i < A.length by omega), List.getElem?_eq_getElem j1] at h5
          exact Option.some.inj h5
        · have e1 : (v + 1).toNat = i + 1 := by omega
          have e2 : (k + (v + 1) - 1).toNat = j := by omega
          rw [e1, e2, List.getElem?_eq_getElem i1, List.getElem?_eq_getElem (show j < B.length by omega)] at h6
          exact Option.some.inj h6
      · unfold base at ev
        split at ev <;> omega
  obtain ⟨hb1, hb2, hb3, hb4⟩ := best_ge A B k v va vb
  generalize best A B k v va vb = s at *
  obtain ⟨i, j, d, es, ej, hd, hE⟩ := hsound
  obtain ⟨r, h1, h2, h3, h4, h5⟩ := slide_spec A B k (A.length + 1) i j ej hE.le_left hE.le_right (by omega)
  refine ⟨((i + r : Nat) : Int), by rw [es]; exact h1, i + r, j + r, rfl, by omega, ⟨d, hd, h4 d hE⟩, ?_⟩
  intro i' j' d' hj' hd' hE'
  revert hj' hd'
  induction hE' with
  | nil => intro _ _; omega
  | @keep a b e _ ha' hb' heq ih =>
    intro hj' hd'
    have := ih (by omega) hd'
    by_cases hlt : a < i + r
    · omega
    · have e1 : a = i + r := by omega
      have e2 : b = j + r := by omega
      subst e1
      subst e2
      exact absurd heq (h5 ha' hb')
  | @replace a b e hp _ _ _ =>
    intro hj' hd'
    have := hp.length
    rcases hv with ⟨_, ⟨iv, jv, ev, _, _, hmax⟩, _⟩ | ⟨hq, _⟩
    · have := hmax a b e (by omega) (by omega) hp
      omega
    · omega
  | @insert a b e hp _ _ =>
    intro hj' hd'
    have := hp.length
    rcases ha with ⟨_, ⟨iv, jv, ev, _, _, hmax⟩, _⟩ | ⟨hq, _⟩ | ⟨hq, _⟩
    · have := hmax a b e (by omega) (by omega) hp
      omega
    · omega
    · omega
  | @delete a b e hp _ _ =>
    intro hj' hd'
    have := hp.length
    rcases hb with ⟨_, ⟨iv, jv, ev, _, _, hmax⟩, _⟩ | ⟨hq, _⟩ | ⟨hq, _⟩
    · have := hmax a b e (by omega) (by omega) hp
      omega
    · omega
    · omega
  | @exchange a b e hp ha' hb' e1 e2 _ =>
    intro hj' hd'
    have := hp.length
    rcases hv with ⟨_, ⟨iv, jv, ev, hjv, _, hmax⟩, _⟩ | ⟨hq, _⟩
    · have := hmax a b e (by omega) (by omega) hp
      by_cases hlt : a < iv
      · omega
      · have ea : a = iv := by omega
        have := hb4 (by omega) (by omega) (by omega) (by omega) (by
          have g1 : (v + 1 - 1).toNat = a := by omega
          have g2 : (k + (v + 1)).toNat = b + 1 := by omega
          rw [g1, g2, List.getElem?_eq_getElem (show a < A.length by omega), List.getElem?_eq_getElem hb', e1]) (by
          have g1 : (v + 1).toNat = a + 1 := by omega
          have g2 : (k + (v + 1) - 1).toNat = b := by omega
          rw [g1, g2, List.getElem?_eq_getElem ha', List.getElem?_eq_getElem (show b < B.length by omega), e2])
        omega
    · omega

/-! ## The loops -/

/-- What always holds of the array: for too few changes there is nothing useful. -/
def Inv (c : Ctx) (F : Fkp) : Prop :=
  c.Fits F ∧ ∀ k q, c.In k q → (q = (k.natAbs : Int) - 1 → cell c F k q = base k) ∧
    (q < (k.natAbs : Int) - 1 → cell c F k q ≤ -(c.inf : Int) + q + 1)

/-- The diagonal on which both end. -/
def k0 (c : Ctx) (A : List Nat) : Int := (c.B.length : Int) - A.length

/-- All that is known about before looking at `p`. -/
def Done (c : Ctx) (A : List Nat) (F : Fkp) (p : Int) : Prop :=
  ∀ k q, c.In k q → (k.natAbs : Int) ≤ q → ((k - k0 c A).natAbs : Int) + q < p → Good A c.B k q (cell c F k q)

/-- What has been added when looking at `p`, for less than `s` changes. -/
def Front (c : Ctx) (A : List Nat) (F : Fkp) (p s : Int) : Prop :=
  ∀ k q, c.In k q → (k.natAbs : Int) ≤ q → ((k - k0 c A).natAbs : Int) + q = p → q < s → Good A c.B k q (cell c F k q)

/-- It takes `p` changes at least. -/
def Far (A B : List Nat) (p : Int) : Prop := ∀ d : Nat, E A B A.length B.length d → p ≤ d

/-- The rest can be deleted and inserted. -/
theorem Far.rest {A B : List Nat} {p : Int} (h : Far A B p) {i j d : Nat} (hE : E A B i j d) :
    p ≤ d + ((A.length : Int) - i) + ((B.length : Int) - j) := by
  have h1 := hE.le_left
  have h2 := hE.le_right
  have h3 := hE.deletes (A.length - i) (by omega)
  have h4 := h3.inserts (B.length - j) (by omega)
  have e1 : i + (A.length - i) = A.length := by omega
  have e2 : j + (B.length - j) = B.length := by omega
  rw [e1, e2] at h4
  have := h _ h4
  omega

/-- Sizes that fit. -/
structure Sizes (c : Ctx) (A : List Nat) : Prop where
  m : 1 ≤ A.length
  n : 1 ≤ c.B.length
  mi : A.length ≤ c.inf
  ni : c.B.length ≤ c.inf

theorem Upd.inv {c : Ctx} {F F' : Fkp} {k q v : Int} (hF : Inv c F) (h : Upd c F F' k q v) (hkq : (k.natAbs : Int) ≤ q) : Inv c F' := by
  refine ⟨h.1.trans hF.1, ?_⟩
  intro k' q' hin
  rw [h.2 k' q' hin]
  refine ⟨?_, ?_⟩
  · intro hq
    rw [if_neg]
    · exact (hF.2 k' q' hin).1 hq
    · rintro ⟨rfl, rfl⟩; omega
  · intro hq
    rw [if_neg]
    · exact (hF.2 k' q' hin).2 hq
    · rintro ⟨rfl, rfl⟩; omega

theorem Upd.done {c : Ctx} {A : List Nat} {F F' : Fkp} {k q v p : Int} (hD : Done c A F p) (h : Upd c F F' k q v)
    (hf : ((k - k0 c A).natAbs : Int) + q = p) : Done c A F' p := by
  intro k' q' hin h1 h2
  rw [h.2 k' q' hin, if_neg]
  · exact hD k' q' hin h1 h2
  · rintro ⟨rfl, rfl⟩; omega

theorem Upd.front {c : Ctx} {A : List Nat} {F F' : Fkp} {k q v p s : Int} (hD : Front c A F p s) (h : Upd c F F' k q v)
    (hg : Good A c.B k q v) : Front c A F' p s := by
  intro k' q' hin h1 h2 h3
  rw [h.2 k' q' hin]
  by_cases he : k' = k ∧ q' = q
  · rw [if_pos he, he.1, he.2]; exact hg
  · rw [if_neg he]; exact hD k' q' hin h1 h2 h3

/-- `f`, where it matters. -/
theorem f_front {c : Ctx} {A : List Nat} {F : Fkp} {p k q : Int} (hs : Sizes c A) (hI : Inv c F) (hD : Done c A F p)
    (hFr : Front c A F p q) (hFar : Far A c.B p) (hp : p ≤ max A.length c.B.length)
    (hk : ((k - k0 c A).natAbs : Int) + q = p) (hkq : (k.natAbs : Int) ≤ q) :
    ∃ F' x, f c A k q F = .ok F' ∧ Upd c F F' k q x ∧ Good A c.B k q x := by
  obtain ⟨hm, hn, hmi, hni⟩ := hs
  have hkm : -k ≤ A.length := by unfold k0 at hk; omega
  have hkn : k ≤ c.B.length := by unfold k0 at hk; omega
  have hk1 : -(c.inf : Int) < k := by unfold k0 at hk; omega
  have hk2 : k < c.inf := by unfold k0 at hk; omega
  have hq1 : 0 ≤ q := by omega
  have hq2 : q ≤ c.inf := by omega
  rw [f_eq hI.1 hk1 hk2 hq1 hq2]
  have in1 : c.In k (q - 1) := ⟨by omega, by omega, by omega, by omega⟩
  have in2 : c.In (k - 1) (q - 1) := ⟨by omega, by omega, by omega, by omega⟩
  have in3 : c.In (k + 1) (q - 1) := ⟨by omega, by omega, by omega, by omega⟩
  obtain ⟨x, hx, hg⟩ := good_step (A := A) (B := c.B) (k := k) (q := q) (v := cell c F k (q - 1)) (va := cell c F (k - 1) (q - 1))
    (vb := cell c F (k + 1) (q - 1)) hkq hkm hkn (by
      by_cases h : (k.natAbs : Int) < q
      · refine .inl ⟨h, ?_⟩
        have hg := hD k (q - 1) in1 (by omega) (by omega)
        refine ⟨hg, ?_⟩
        obtain ⟨i, j, e, ej, ⟨d, hd, hE⟩, _⟩ := hg
        have h1 := hE.le_left
        have h2 := hE.le_right
        have h3 := hFar.rest hE
        unfold k0 at hk
        rw [e]
        omega
      · exact .inr ⟨by omega, (hI.2 k (q - 1) in1).1 (by omega)⟩) (by
      by_cases h : ((k - 1).natAbs : Int) < q
      · refine .inl ⟨h, ?_⟩
        have hg : Good A c.B (k - 1) (q - 1) (cell c F (k - 1) (q - 1)) := by
          by_cases hc : ((k - 1 - k0 c A).natAbs : Int) + (q - 1) < p
          · exact hD _ _ in2 (by omega) hc
          · exact hFr _ _ in2 (by omega) (by omega) (by omega)
        refine ⟨hg, ?_⟩
        obtain ⟨i, j, e, ej, ⟨d, hd, hE⟩, _⟩ := hg
        have h1 := hE.le_left
        have h2 := hE.le_right
        have h3 := hFar.rest hE
        unfold k0 at hk
        rw [e]
        omega
      · by_cases h' : ((k - 1).natAbs : Int) = q
        · exact .inr (.inl ⟨h', (hI.2 _ _ in2).1 (by omega)⟩)
        · refine .inr (.inr ⟨by omega, ?_⟩)
          have := (hI.2 _ _ in2).2 (by omega)
          omega) (by
      by_cases h : ((k + 1).natAbs : Int) < q
      · refine .inl ⟨h, ?_⟩
        have hg : Good A c.B (k + 1) (q - 1) (cell c F (k + 1) (q - 1)) := by
          by_cases hc : ((k + 1 - k0 c A).natAbs : Int) + (q - 1) < p
          · exact hD _ _ in3 (by omega) hc
          · exact hFr _ _ in3 (by omega) (by omega) (by omega)
        refine ⟨hg, ?_⟩
        obtain ⟨i, j, e, ej, ⟨d, hd, hE⟩, _⟩ := hg
        have h1 := hE.le_left
        have h2 := hE.le_right
        have h3 := hFar.rest hE
        unfold k0 at hk
        rw [e]
        omega
      · by_cases h' : ((k + 1).natAbs : Int) = q
        · exact .inr (.inl ⟨h', (hI.2 _ _ in3).1 (by omega)⟩)
        · refine .inr (.inr ⟨by omega, ?_⟩)
          have := (hI.2 _ _ in3).2 (by omega)
          omega)
  rw [hx]
  obtain ⟨F', h1, h2⟩ := wr_cell hI.1 (k := k) (q := q) ⟨by omega, by omega, by omega, by omega⟩ x
  exact ⟨F', x, h1, h2, hg⟩

/-- What holds while looking at `p`. -/
structure Mid (c : Ctx) (A : List Nat) (F : Fkp) (p s : Int) : Prop where
  inv : Inv c F
  done : Done c A F p
  front : Front c A F p s

theorem Mid.step {c : Ctx} {A : List Nat} {F : Fkp} {p k q : Int} (hs : Sizes c A) (h : Mid c A F p q) (hFar : Far A c.B p)
    (hp : p ≤ max A.length c.B.length) (hk : ((k - k0 c A).natAbs : Int) + q = p) (hkq : (k.natAbs : Int) ≤ q) :
    ∃ F' x, f c A k q F = .ok F' ∧ Mid c A F' p q ∧ Upd c F F' k q x ∧ Good A c.B k q x := by
  obtain ⟨F', x, h1, h2, h3⟩ := f_front hs h.inv h.done h.front hFar hp hk hkq
  exact ⟨F', x, h1, ⟨h2.inv h.inv hkq, h2.done h.done hk, h2.front h.front h3⟩, h2, h3⟩

theorem round_front {c : Ctx} {A : List Nat} {F : Fkp} {p : Int} {tp : Nat} (hs : Sizes c A) (h : Mid c A F p tp)
    (hFar : Far A c.B p) (hp : p ≤ max A.length c.B.length) (htp : (tp : Int) < p) :
    ∃ F', round c A p F tp = .ok F' ∧ Mid c A F' p (tp + 1 : Nat) := by
  unfold round
  simp only
  have e1 : (c.n : Int) - A.length - (p - tp) = k0 c A - (p - tp) := rfl
  have e2 : (c.n : Int) - A.length + (p - tp) = k0 c A + (p - tp) := rfl
  rw [e1, e2]
  have step : ∀ (F : Fkp) (k : Int), Mid c A F p tp → ((k - k0 c A).natAbs : Int) + tp = p →
      ∃ F', (if k.natAbs ≤ tp then f c A k tp F else .ok F) = .ok F' ∧ Mid c A F' p tp ∧
        (k.natAbs ≤ tp → Good A c.B k tp (cell c F' k tp)) ∧
        ∀ k', k' ≠ k → c.In k' tp → cell c F' k' tp = cell c F k' tp := by
    intro F k hM hk
    by_cases hkt : k.natAbs ≤ tp
    · rw [if_pos hkt]
      obtain ⟨F', x, h1, h2, h3, h4⟩ := hM.step hs hFar hp hk (by omega)
      refine ⟨F', h1, h2, ?_, ?_⟩
      · intro _
        have hin : c.In k tp := by
          obtain ⟨hm, hn, hmi, hni⟩ := hs
          unfold k0 at hk
          exact ⟨by omega, by omega, by omega, by omega⟩
        rw [h3.2 k tp hin, if_pos ⟨rfl, rfl⟩]
        exact h4
      · intro k' hne hin
        rw [h3.2 k' tp hin, if_neg (fun h => hne h.1)]
    · rw [if_neg hkt]
      exact ⟨F, rfl, hM, fun h => absurd h hkt, fun _ _ _ => rfl⟩
  obtain ⟨F1, r1, m1, g1, _⟩ := step F (k0 c A - (p - tp)) h (by omega)
  obtain ⟨F2, r2, m2, g2, u2⟩ := step F1 (k0 c A + (p - tp)) m1 (by omega)
  rw [r1]
  refine ⟨F2, r2, m2.inv, m2.done, ?_⟩
  intro k q hin hkq hk hq
  by_cases hlt : q < tp
  · exact m2.front k q hin hkq hk hlt
  · have eq : q = tp := by omega
    subst eq
    by_cases hr : k = k0 c A + (p - tp)
    · subst hr
      exact g2 (by omega)
    · have hl : k = k0 c A - (p - tp) := by omega
      rw [u2 k hr hin]
      subst hl
      exact g1 (by omega)

theorem rounds_front {c : Ctx} {A : List Nat} {F : Fkp} {p : Int} (hs : Sizes c A) (h : Mid c A F p 0)
    (hFar : Far A c.B p) (hp : p ≤ max A.length c.B.length) : ∀ s : Nat, (s : Int) ≤ p →
    ∃ F', rounds c A p F s = .ok F' ∧ Mid c A F' p s := by
  intro s
  induction s with
  | zero => intro _; exact ⟨F, rfl, h⟩
  | succ s ih =>
    intro hsp
    obtain ⟨F1, h1, h2⟩ := ih (by omega)
    obtain ⟨F2, h3, h4⟩ := round_front hs h2 hFar hp (by omega)
    refine ⟨F2, ?_, h4⟩
    rw [rounds, h1]
    exact h3

/-- From a number of changes that is possible, the loop finds the distance. -/
theorem dlLoop_far {c : Ctx} {A : List Nat} (hs : Sizes c A) : ∀ (fuel : Nat) (p : Int) (F : Fkp), Inv c F → Done c A F p →
    Far A c.B p → ((k0 c A).natAbs : Int) ≤ p → (max A.length c.B.length : Nat) - p < fuel →
    ∃ (d : Nat) (F' : Fkp), dlLoop c A fuel p F = .ok ((d : Int), F') ∧ Inv c F' ∧ E A c.B A.length c.B.length d ∧ Far A c.B d := by
  intro fuel
  induction fuel with
  | zero =>
    intro p F _ _ hFar _ hf
    have := hFar _ (E.all A c.B)
    omega
  | succ fuel ih =>
    intro p F hI hD hFar hk hf
    have hp : p ≤ max A.length c.B.length := by
      have := hFar _ (E.all A c.B)
      omega
    have hM : Mid c A F p 0 := ⟨hI, hD, fun k q _ h1 _ h2 => by omega⟩
    obtain ⟨F1, r1, m1⟩ := rounds_front hs hM hFar hp p.toNat (by omega)
    have ep : ((p.toNat : Nat) : Int) = p := by omega
    rw [ep] at m1
    obtain ⟨F2, x, r2, m2, u2, g2⟩ := m1.step (k := k0 c A) hs hFar hp (by omega) hk
    have hin : c.In (k0 c A) p := by
      obtain ⟨hm, hn, hmi, hni⟩ := hs
      unfold k0 at hk ⊢
      exact ⟨by omega, by omega, by omega, by omega⟩
    rw [dlLoop, r1]
    have ek : (c.n : Int) - A.length = k0 c A := rfl
    simp only [Res.ok_bind, ek, r2]
    rw [rd_cell m2.inv.1 hin]
    simp only [Res.ok_bind]
    have ecell : cell c F2 (k0 c A) p = x := by rw [u2.2 _ _ hin, if_pos ⟨rfl, rfl⟩]
    rw [ecell]
    by_cases hx : x = A.length
    · rw [if_neg (by simp [hx])]
      refine ⟨p.toNat, F2, by rw [ep], m2.inv, ?_, by rw [ep]; exact hFar⟩
      obtain ⟨i, j, e, ej, ⟨d, hd, hE⟩, _⟩ := g2
      have ei : i = A.length := by omega
      have ej' : j = c.B.length := by unfold k0 at ej; omega
      rw [ei, ej'] at hE
      have := hFar d hE
      have ed : d = p.toNat := by omega
      rwa [ed] at hE
    · rw [if_pos hx]
      refine ih (p + 1) F2 m2.inv ?_ ?_ (by omega) (by omega)
      · intro k q hink hkq hlt
        by_cases hlt' : ((k - k0 c A).natAbs : Int) + q < p
        · exact m2.done k q hink hkq hlt'
        · by_cases hq : q < p
          · exact m2.front k q hink hkq (by omega) hq
          · have e1 : q = p := by omega
            have e2 : k = k0 c A := by omega
            rw [e1, e2, ecell]
            exact g2
      · intro d hE
        have := hFar d hE
        by_cases he : (d : Int) = p
        · exfalso
          obtain ⟨i, j, e, ej, ⟨d', hd', hE'⟩, hmax⟩ := g2
          have := hmax _ _ d (by unfold k0; omega) (by omega) hE
          have := hE'.le_left
          omega
        · omega

/-! ## Too few changes -/

theorem f_skip {c : Ctx} {A : List Nat} {k p : Int} {F : Fkp} (hi : 1 ≤ c.inf) (hp : p ≤ -2) : f c A k p F = .ok F := by
  unfold f
  simp only
  rw [if_neg (show ¬ p ≥ 0 by omega), if_neg (show ¬ p ≥ 0 by omega), if_neg (show ¬ p ≥ 0 by omega)]
  simp only [Res.ok_bind]
  rw [if_neg (by omega)]
  simp only [Res.ok_bind, Int.lt_irrefl, gt_iff_lt, if_false]
  rw [slide_stop _ _ _ _ _ _ (by intro h; omega)]
  simp only [Res.ok_bind]
  rw [if_neg (by omega)]

theorem f_minus {c : Ctx} {A : List Nat} {k : Int} {F : Fkp} (hi : 1 ≤ c.inf) (hk : -(c.inf : Int) ≤ k) :
    f c A k (-1) F = F.wr (c.idx k (-1 + 1)) (-(c.inf : Int)) := by
  unfold f
  simp only
  rw [if_neg (show ¬ (-1 : Int) ≥ 0 by omega), if_neg (show ¬ (-1 : Int) ≥ 0 by omega), if_neg (show ¬ (-1 : Int) ≥ 0 by omega)]
  simp only [Res.ok_bind]
  rw [if_neg (by omega)]
  simp only [Res.ok_bind, Int.lt_irrefl, gt_iff_lt, if_false]
  rw [slide_stop _ _ _ _ _ _ (by intro h; omega)]
  simp only [Res.ok_bind]
  rw [if_pos (by omega)]

/-- Writing what is meant to be there. -/
theorem Upd.inv_low {c : Ctx} {F F' : Fkp} {k q v : Int} (hF : Inv c F) (h : Upd c F F' k q v)
    (h1 : q = (k.natAbs : Int) - 1 → v = base k) (h2 : q < (k.natAbs : Int) - 1 → v ≤ -(c.inf : Int) + q + 1) : Inv c F' := by
  refine ⟨h.1.trans hF.1, ?_⟩
  intro k' q' hin
  rw [h.2 k' q' hin]
  by_cases he : k' = k ∧ q' = q
  · rw [if_pos he, he.1, he.2]
    exact ⟨h1, h2⟩
  · rw [if_neg he]
    exact hF.2 k' q' hin

/-- `f`, with too few changes to get to the diagonal. -/
theorem f_low {c : Ctx} {A : List Nat} {k q : Int} {F : Fkp} (hI : Inv c F) (hk : -(c.inf : Int) < k) (hneg : k < 0)
    (hq : 0 ≤ q) (hqk : q < k.natAbs) : ∃ F' x, f c A k q F = .ok F' ∧ Inv c F' ∧ Upd c F F' k q x ∧ x < k.natAbs := by
  have in1 : c.In k (q - 1) := ⟨by omega, by omega, by omega, by omega⟩
  have in2 : c.In (k - 1) (q - 1) := ⟨by omega, by omega, by omega, by omega⟩
  have in3 : c.In (k + 1) (q - 1) := ⟨by omega, by omega, by omega, by omega⟩
  rw [f_eq hI.1 hk (by omega) hq (by omega)]
  have v1 := (hI.2 _ _ in1).2 (by omega)
  have v2 := (hI.2 _ _ in2).2 (by omega)
  have v3 := hI.2 _ _ in3
  generalize cell c F k (q - 1) = v at *
  generalize cell c F (k - 1) (q - 1) = va at *
  generalize cell c F (k + 1) (q - 1) = vb at *
  have hvb : (q = (k.natAbs : Int) - 1 → vb = (k.natAbs : Int) - 2) ∧ (q < (k.natAbs : Int) - 1 → vb ≤ -(c.inf : Int) + q) := by
    refine ⟨?_, ?_⟩
    · intro h
      have := v3.1 (by omega)
      unfold base at this
      split at this <;> omega
    · intro h
      have := v3.2 (by omega)
      omega
  have hge := best_ge A c.B k v va vb
  have hb : (q = (k.natAbs : Int) - 1 → best A c.B k v va vb = (k.natAbs : Int) - 1) ∧
      (q < (k.natAbs : Int) - 1 → best A c.B k v va vb ≤ -(c.inf : Int) + q + 1) := by
    rcases best_is A c.B k v va vb with e | e | e | ⟨e, h1, _⟩
    · refine ⟨fun h => ?_, fun h => ?_⟩
      · have := hvb.1 h; omega
      · omega
    · refine ⟨fun h => ?_, fun h => ?_⟩
      · have := hvb.1 h; omega
      · omega
    · refine ⟨fun h => ?_, fun h => ?_⟩
      · have := hvb.1 h; omega
      · have := hvb.2 h; omega
    · omega
  generalize best A c.B k v va vb = s at *
  rw [slide_stop _ _ _ _ _ _ (by
    intro h
    by_cases hq' : q = (k.natAbs : Int) - 1
    · have := hb.1 hq'; omega
    · have := hb.2 (by omega); omega)]
  simp only [Res.ok_bind]
  obtain ⟨F', r, u⟩ := wr_cell hI.1 (k := k) (q := q) ⟨by omega, by omega, by omega, by omega⟩ s
  refine ⟨F', s, r, u.inv_low hI ?_ hb.2, u, ?_⟩
  · intro h
    rw [hb.1 h]
    unfold base
    rw [if_pos hneg]
  · by_cases hq' : q = (k.natAbs : Int) - 1
    · have := hb.1 hq'; omega
    · have := hb.2 (by omega); omega

theorem round_low {c : Ctx} {A : List Nat} {F : Fkp} {p : Int} {tp : Nat} (hp : p < (k0 c A).natAbs) (htp : (tp : Int) ≤ p) :
    round c A p F tp = .ok F := by
  unfold round
  simp only
  have e1 : (c.n : Int) - A.length - (p - tp) = k0 c A - (p - tp) := rfl
  have e2 : (c.n : Int) - A.length + (p - tp) = k0 c A + (p - tp) := rfl
  rw [e1, e2, if_neg (by omega)]
  simp only [Res.ok_bind]
  rw [if_neg (by omega)]

theorem rounds_low {c : Ctx} {A : List Nat} {F : Fkp} {p : Int} (hp : p < (k0 c A).natAbs) : ∀ s : Nat, s ≤ p.toNat →
    rounds c A p F s = .ok F := by
  intro s
  induction s with
  | zero => intro _; rfl
  | succ s ih =>
    intro hs
    rw [rounds, ih (by omega)]
    simp only [Res.ok_bind]
    exact round_low hp (by omega)

theorem far_k0 (c : Ctx) (A : List Nat) : Far A c.B (k0 c A).natAbs := by
  intro d hE
  have := hE.length
  unfold k0
  omega

theorem done_k0 (c : Ctx) (A : List Nat) (F : Fkp) : Done c A F (k0 c A).natAbs := by
  intro k q _ h1 h2
  omega

/-- The loop of `damerau_levenshtein` finds the distance, or stops before it has begun. -/
theorem dlLoop_all {c : Ctx} {A : List Nat} (hs : Sizes c A) (h2 : 2 ≤ c.inf) : ∀ (fuel : Nat) (p : Int) (F : Fkp), Inv c F → k0 c A ≤ p →
    p ≤ (k0 c A).natAbs → (max A.length c.B.length : Nat) - p < fuel →
    (∃ (d : Nat) (F' : Fkp), dlLoop c A fuel p F = .ok ((d : Int), F') ∧ Inv c F' ∧ E A c.B A.length c.B.length d ∧ Far A c.B d) ∨
    (∃ (p' : Int) (F' : Fkp), dlLoop c A fuel p F = .ok (p', F') ∧ Inv c F' ∧ p ≤ p' ∧ p' ≤ -2 ∧
      cell c F (k0 c A - 1) (c.inf + 2 + p') = A.length) := by
  intro fuel
  induction fuel with
  | zero =>
    intro p F _ h1 h2 hf
    unfold k0 at *
    omega
  | succ fuel ih =>
    intro p F hI hp hp' hf
    by_cases hpe : p = (k0 c A).natAbs
    · left
      subst hpe
      exact dlLoop_far hs _ _ _ hI (done_k0 c A F) (far_k0 c A) (by omega) (by omega)
    · obtain ⟨hm, hn, hmi, hni⟩ := hs
      have hk1 : -(c.inf : Int) < k0 c A := by unfold k0; omega
      have hk2 : k0 c A < 0 := by omega
      have hkm : k0 c A + 1 + A.length > 0 := by unfold k0; omega
      rw [dlLoop, rounds_low (by omega) _ (by omega)]
      have ek : (c.n : Int) - A.length = k0 c A := rfl
      simp only [Res.ok_bind, ek]
      by_cases h0 : 0 ≤ p
      · obtain ⟨F1, x, r1, i1, u1, hx⟩ := f_low (A := A) (q := p) hI hk1 hk2 h0 (by omega)
        rw [r1]
        simp only [Res.ok_bind]
        have hin : c.In (k0 c A) p := ⟨by omega, by omega, by omega, by omega⟩
        rw [rd_cell i1.1 hin]
        simp only [Res.ok_bind]
        have ex : cell c F1 (k0 c A) p = x := by rw [u1.2 _ _ hin, if_pos ⟨rfl, rfl⟩]
        rw [ex, if_pos (by unfold k0 at *; omega)]
        rcases ih (p + 1) _ i1 (by omega) (by omega) (by omega) with h | ⟨p', F', g1, g2, g3, g4, g5⟩
        · exact .inl h
        · omega
      · by_cases h1 : p = -1
        · subst h1
          rw [f_minus (by omega) (by omega)]
          have hin : c.In (k0 c A) (-1) := ⟨by omega, by omega, by omega, by omega⟩
          obtain ⟨F1, r1, u1⟩ := wr_cell hI.1 hin (-(c.inf : Int))
          rw [r1]
          simp only [Res.ok_bind]
          have i1 : Inv c F1 := u1.inv_low hI (by omega) (by omega)
          rw [rd_cell i1.1 hin]
          simp only [Res.ok_bind]
          have ex : cell c F1 (k0 c A) (-1) = -(c.inf : Int) := by rw [u1.2 _ _ hin, if_pos ⟨rfl, rfl⟩]
          rw [ex, if_pos (by omega)]
          rcases ih (-1 + 1) _ i1 (by omega) (by omega) (by omega) with h | ⟨p', F', g1, g2, g3, g4, g5⟩
          · exact .inl h
          · omega
        · rw [f_skip (by omega) (by omega)]
          simp only [Res.ok_bind]
          have hr : 0 ≤ c.idx (k0 c A) (p + 1) ∧ c.idx (k0 c A) (p + 1) < F.size := by
            have hz := idx_range (c := c) (F := F) hI.1 (k := k0 c A) (q := -1) ⟨by omega, by omega, by omega, by omega⟩
            unfold Ctx.idx Ctx.maxP at hz ⊢
            have hM : (0 : Int) ≤ (c.inf : Int) + 2 := by omega
            have h5 : 1 * ((c.inf : Int) + 2) ≤ (k0 c A + c.inf) * ((c.inf : Int) + 2) :=
              Int.mul_le_mul_of_nonneg_right (by omega) hM
            omega
          rw [F.rd_ok _ hr]
          simp only [Res.ok_bind]
          by_cases hv : F.val (c.idx (k0 c A) (p + 1)) ≠ A.length
          · rw [if_pos hv]
            rcases ih (p + 1) _ hI (by omega) (by omega) (by omega) with h | ⟨p', F', g1, g2, g3, g4, g5⟩
            · exact .inl h
            · exact .inr ⟨p', F', g1, g2, by omega, g4, g5⟩
          · rw [if_neg hv]
            refine .inr ⟨p, F, rfl, hI, by omega, by omega, ?_⟩
            have ev : F.val (c.idx (k0 c A) (p + 1)) = A.length := Decidable.not_not.1 hv
            rw [← ev]
            unfold cell
            congr 1
            unfold Ctx.idx Ctx.maxP
            have : (k0 c A + c.inf) * ((c.inf : Int) + 2) = (k0 c A - 1 + c.inf) * ((c.inf : Int) + 2) + ((c.inf : Int) + 2) := by
              have e : k0 c A + c.inf = (k0 c A - 1 + c.inf) + 1 := by omega
              rw [e, Int.add_mul, Int.one_mul]
            omega

/-- The value of `damerau_levenshtein`: the distance or, if the text is shorter than the genre, something huge. -/
theorem damerauLevenshtein_spec {c : Ctx} {A : List Nat} {F : Fkp} (hs : Sizes c A) (h2 : 2 ≤ c.inf) (hA : A.length < 2 ^ 63) (hI : Inv c F) :
    ∃ d F', damerauLevenshtein c A F = .ok (d, F') ∧ Inv c F' ∧
      (Spec.Distance A c.B d ∨ (c.B.length < A.length ∧ 2 ^ 63 ≤ d ∧
        ∃ q, c.In (k0 c A - 1) q ∧ cell c F (k0 c A - 1) q = A.length)) := by
  unfold damerauLevenshtein
  have ek : (c.n : Int) - A.length = k0 c A := rfl
  rw [ek]
  have hsz : c.inf ≤ F.size := by
    rw [hI.1]
    have : 1 * (c.inf + 2) ≤ (2 * c.inf + 1) * (c.inf + 2) := Nat.mul_le_mul_right _ (by omega)
    omega
  rcases dlLoop_all hs h2 (F.size + A.length + 2) (k0 c A) F hI (by omega) (by omega) (by
    obtain ⟨hm, hn, hmi, hni⟩ := hs
    unfold k0
    omega) with ⟨d, F', r, i, hE, hFar⟩ | ⟨p, F', r, i, hp, hp', hcell⟩
  · rw [r]
    simp only [Res.ok_bind]
    rw [if_neg (by omega)]
    refine ⟨_, _, rfl, i, .inl ⟨?_, ?_⟩⟩
    · rw [turns_iff]; exact hE
    · intro e he
      rw [turns_iff] at he
      have := hFar e he
      omega
  · rw [r]
    simp only [Res.ok_bind]
    rw [if_pos (by omega)]
    obtain ⟨hm, hn, hmi, hni⟩ := hs
    refine ⟨_, _, rfl, i, .inr ⟨?_, ?_, _, ?_, hcell⟩⟩
    · unfold k0 at hp; omega
    · unfold k0 at hp; omega
    · unfold k0 at *
      exact ⟨by omega, by omega, by omega, by omega⟩

/-! ## To begin with -/

theorem initAux_spec (c : Ctx) : ∀ i : Nat, i ≤ 2 * c.inf + 1 → ∃ F, initAux c i = .ok F ∧ c.Fits F ∧
    ∀ k q, c.In k q → cell c F k q = if q = (k.natAbs : Int) - 1 ∧ k < (i : Int) - c.inf then base k else -(c.inf : Int) := by
  intro i
  induction i with
  | zero =>
    intro _
    refine ⟨_, rfl, rfl, ?_⟩
    intro k q hin
    obtain ⟨h1, h2, h3, h4⟩ := hin
    rw [if_neg (by omega)]
    simp [cell, Fkp.val, Mem.get]
  | succ i ih =>
    intro hi
    obtain ⟨F, r, hF, hc⟩ := ih (by omega)
    have hin : c.In ((i : Int) - c.inf) ((((i : Int) - c.inf).natAbs : Int) - 1) := ⟨by omega, by omega, by omega, by omega⟩
    obtain ⟨F', r', u⟩ := wr_cell hF hin (base ((i : Int) - c.inf))
    rw [Int.sub_add_cancel] at r'
    refine ⟨F', ?_, u.1.trans hF, ?_⟩
    · rw [initAux, r]
      simp only [Res.ok_bind]
      rw [← r']
      rfl
    · intro k q hkq
      rw [u.2 k q hkq]
      by_cases he : k = (i : Int) - c.inf ∧ q = (((i : Int) - c.inf).natAbs : Int) - 1
      · rw [if_pos he, if_pos (by omega), he.1]
      · rw [if_neg he, hc k q hkq]
        by_cases hc' : q = (k.natAbs : Int) - 1 ∧ k < (i : Int) - c.inf
        · rw [if_pos hc', if_pos (by omega)]
        · rw [if_neg hc', if_neg]
          intro h
          have : k = (i : Int) - c.inf := by omega
          subst this
          exact he ⟨rfl, h.1⟩

theorem initFkp_spec (c : Ctx) : ∃ F, initFkp c = .ok F ∧ Inv c F ∧
    ∀ k q, c.In k q → cell c F k q = base k ∨ cell c F k q = -(c.inf : Int) := by
  obtain ⟨F, r, hF, hc⟩ := initAux_spec c (2 * c.inf + 1) (by omega)
  refine ⟨F, r, ⟨hF, ?_⟩, ?_⟩
  rotate_left
  · intro k q hin
    rw [hc k q hin]
    split
    · exact .inl rfl
    · exact .inr rfl
  intro k q hin
  rw [hc k q hin]
  obtain ⟨h1, h2, h3, h4⟩ := hin
  refine ⟨?_, ?_⟩
  · intro h
    rw [if_pos (by omega)]
  · intro h
    rw [if_neg (by omega)]
    omega

/-- Nothing is overlooked to begin with. -/
theorem damerauLevenshtein_fresh {c : Ctx} {A : List Nat} {F : Fkp} (hs : Sizes c A) (h2 : 2 ≤ c.inf) (hA : A.length < 2 ^ 63) (hI : Inv c F)
    (hf : ∀ k q, c.In k q → cell c F k q = base k ∨ cell c F k q = -(c.inf : Int)) :
    ∃ d F', damerauLevenshtein c A F = .ok (d, F') ∧ Inv c F' ∧ Spec.Distance A c.B d := by
  obtain ⟨d, F', r, i, h | ⟨h1, h3, q, hin, hc⟩⟩ := damerauLevenshtein_spec hs h2 hA hI
  · exact ⟨d, F', r, i, h⟩
  · exfalso
    obtain ⟨hm, hn, hmi, hni⟩ := hs
    rcases hf _ _ hin with h | h
    · rw [hc] at h
      unfold base at h
      split at h
      · unfold k0 at h; omega
      · omega
    · omega

/-! ## The best of all -/

theorem distance_unique {A B : List Nat} {d e : Nat} (h1 : Spec.Distance A B d) (h2 : Spec.Distance A B e) : d = e := by
  have := h1.2 e h2.1
  have := h2.2 d h1.1
  omega

theorem bestOf_spec {c : Ctx} (h2 : 2 ≤ c.inf) : ∀ (genres : List (List Nat)) (i least : Nat) (best : Option Nat) (F : Fkp),
    (∀ A ∈ genres, Sizes c A ∧ A.length < 2 ^ 63) → least ≤ 2 ^ 63 → Inv c F →
    ∃ l b, bestOf c genres i least best F = .ok (l, b) ∧ l ≤ least ∧
      ((l = least ∧ b = best) ∨ ∃ j A, genres[j]? = some A ∧ b = some (i + j) ∧ l < least ∧ Spec.Distance A c.B l ∧
        ∀ j' A' d, j' < j → genres[j']? = some A' → A'.length ≤ c.B.length → Spec.Distance A' c.B d → l < d) ∧
      ∀ A ∈ genres, A.length ≤ c.B.length → ∀ d, Spec.Distance A c.B d → l ≤ d := by
  intro genres
  induction genres with
  | nil =>
    intro i least best F _ _ _
    exact ⟨least, best, rfl, by omega, .inl ⟨rfl, rfl⟩, by simp⟩
  | cons A rest ih =>
    intro i least best F hs hl hI
    obtain ⟨hsA, hlen⟩ := hs A (by simp)
    obtain ⟨d, F', r, hI', hd⟩ := damerauLevenshtein_spec hsA h2 hlen hI
    rw [bestOf, r]
    simp only [Res.ok_bind]
    by_cases hlt : d < least
    · rw [if_pos hlt]
      have hdist : Spec.Distance A c.B d := by
        rcases hd with h | h
        · exact h
        · omega
      obtain ⟨l, b, e1, e2, e3, e4⟩ := ih (i + 1) d (some i) F' (fun A' h => hs A' (by simp [h])) (by omega) hI'
      refine ⟨l, b, e1, by omega, .inr ?_, ?_⟩
      · rcases e3 with ⟨e3, e3'⟩ | ⟨j, A', g1, g2, g3, g4, g5⟩
        · exact ⟨0, A, by simp, by simpa using e3', by omega, by rw [e3]; exact hdist, by intro j' A' d' h; omega⟩
        · refine ⟨j + 1, A', by simpa using g1, by rw [g2]; congr 1; omega, by omega, g4, ?_⟩
          intro j' A'' d' hj hget hle hD
          cases j' with
          | zero =>
            simp only [List.getElem?_cons_zero, Option.some.injEq] at hget
            subst hget
            have := distance_unique hD hdist
            omega
          | succ j' => exact g5 j' A'' d' (by omega) (by simpa using hget) hle hD
      · intro A' hA' hle d' hD
        rcases List.mem_cons.1 hA' with h | h
        · subst h
          have := distance_unique hD hdist
          omega
        · exact e4 A' h hle d' hD
    · rw [if_neg hlt]
      obtain ⟨l, b, e1, e2, e3, e4⟩ := ih (i + 1) least best F' (fun A' h => hs A' (by simp [h])) hl hI'
      have head : A.length ≤ c.B.length → ∀ d', Spec.Distance A c.B d' → least ≤ d' := by
        intro hle d' hD
        rcases hd with h | h
        · have := distance_unique hD h
          omega
        · omega
      refine ⟨l, b, e1, e2, ?_, ?_⟩
      · rcases e3 with e3 | ⟨j, A', g1, g2, g3, g4, g5⟩
        · exact .inl e3
        · refine .inr ⟨j + 1, A', by simpa using g1, by rw [g2]; congr 1; omega, g3, g4, ?_⟩
          intro j' A'' d' hj hget hle hD
          cases j' with
          | zero =>
            simp only [List.getElem?_cons_zero, Option.some.injEq] at hget
            subst hget
            have := head hle d' hD
            omega
          | succ j' => exact g5 j' A'' d' (by omega) (by simpa using hget) hle hD
      · intro A' hA' hle d' hD
        rcases List.mem_cons.1 hA' with h | h
        · subst h
          have := head hle d' hD
          omega
        · exact e4 A' h hle d' hD

end Scribbu.Genres
