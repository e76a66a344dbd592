import Verif.Proofs.TagCloud

namespace Scribbu.TagCloud
open Scribbu

theorem takeWhile_nul {s : Bytes} (h : (0 : Byte) ∉ s) (r : Bytes) :
    (s ++ 0 :: r).takeWhile (· ≠ 0) = s := by
  induction s with
  | nil => simp
  | cons c cs ih =>
    have h1 : c ≠ 0 := fun h' => h (h' ▸ List.mem_cons_self ..)
    have := ih fun h' => h (List.mem_cons_of_mem _ h')
    simp_all

theorem findNul_at (pre s r : Bytes) (h : (0 : Byte) ∉ s) :
    findNul (pre ++ (s ++ 0 :: r)) pre.length = .ok (s, pre.length + s.length) := by
  unfold findNul
  rw [if_pos (by simp), List.drop_left]
  simp only [takeWhile_nul h]

theorem parseVals_unfold (b : Bytes) (fuel i cb : Nat) (vals : List Bytes) :
    parseVals b fuel i cb vals = if cb = 0 then some (.ok (vals, i))
    else
      match fuel with
      | 0 => none
      | fuel + 1 =>
        match findNul b i with
        | .ok (v, p) => parseVals b fuel (p + 1) ((cb + 2 ^ 32 - (v.length + 1)) % 2 ^ 32) (setInsert v vals)
        | .throw e => some (.throw e)
        | .ub u => some (.ub u) := by
  cases fuel <;> rfl

theorem rawVals_length (vs : List Bytes) :
    (rawVals vs).length = (vs.map fun v => v.length + 1).sum := by
  induction vs with
  | nil => rfl
  | cons v vs ih => simp only [rawVals, List.map_cons, List.flatten_cons, List.length_append,
      List.length_cons, List.length_nil, List.sum_cons] at *; omega

theorem parseVals_raw : ∀ (vs : List Bytes) (fuel : Nat) (pre post : Bytes) (done : List Bytes),
    (∀ v ∈ vs, (0 : Byte) ∉ v) → (vs.map fun v => v.length + 1).sum < 2 ^ 32 →
    SetOk (done ++ vs) → vs.length ≤ fuel →
    parseVals (pre ++ (rawVals vs ++ post)) fuel pre.length ((vs.map fun v => v.length + 1).sum) done =
      some (.ok (done ++ vs, (pre ++ rawVals vs).length)) := by
  intro vs
  induction vs with
  | nil =>
    intro fuel pre post done _ _ _ _
    rw [parseVals_unfold]
    simp [rawVals]
  | cons v vs ih =>
    intro fuel pre post done h0 hsum hs hf
    rw [parseVals_unfold]
    have hcb : (List.map (fun v => v.length + 1) (v :: vs)).sum =
        v.length + 1 + (vs.map fun v => v.length + 1).sum := by simp
    rw [hcb] at hsum ⊢
    rw [if_neg (by omega)]
    cases fuel with
    | zero => simp at hf
    | succ fuel =>
      simp only
      have e : pre ++ (rawVals (v :: vs) ++ post) = pre ++ (v ++ 0 :: (rawVals vs ++ post)) := by
        simp [rawVals]
      rw [e, findNul_at _ _ _ (h0 v (List.mem_cons_self ..))]
      simp only
      have h' := List.pairwise_append.1 hs
      rw [setInsert_last fun w hw => h'.2.2 w hw v (List.mem_cons_self ..)]
      have e2 : pre ++ (v ++ 0 :: (rawVals vs ++ post)) = (pre ++ v ++ [0]) ++ (rawVals vs ++ post) := by
        simp
      have e3 : (v.length + 1 + (vs.map fun v => v.length + 1).sum + 2 ^ 32 - (v.length + 1)) % 2 ^ 32 =
          (vs.map fun v => v.length + 1).sum := by omega
      have e4 : pre.length + v.length + 1 = (pre ++ v ++ [0]).length := by simp <;> omega
      rw [e2, e3, e4, ih fuel (pre ++ v ++ [0]) post (done ++ [v])
        (fun w hw => h0 w (List.mem_cons_of_mem _ hw)) (by omega) (by simpa [SetOk] using hs)
        (by simpa using hf)]
      simp [rawVals]

/-- Bytes of one entry. -/
def rawEntry (e : Bytes × List Bytes) : Bytes :=
  e.1 ++ [0] ++ be32 ((e.2.map fun v => v.length + 1).sum % 2 ^ 32) ++ rawVals e.2

theorem parseEntries_unfold (b : Bytes) (fuel i : Nat) (M : TagMap) :
    parseEntries b fuel i M = if i = b.length then some (.ok M)
    else
      match fuel with
      | 0 => none
      | fuel + 1 =>
        match findNul b i with
        | .ok (key, p) =>
          match (rd b (p + 1)).bind fun a => (rd b (p + 2)).bind fun c => (rd b (p + 3)).bind fun d =>
              (rd b (p + 4)).bind fun e =>
                .ok (a.toNat * 2 ^ 24 + c.toNat * 2 ^ 16 + d.toNat * 2 ^ 8 + e.toNat) with
          | .ok cb =>
            match parseVals b (b.length + 2) (p + 5) cb [] with
            | some (.ok (vals, i')) => parseEntries b fuel i' (mapUpd key (fun _ => vals) M)
            | some (.throw e) => some (.throw e)
            | some (.ub u) => some (.ub u)
            | none => none
          | .throw e => some (.throw e)
          | .ub u => some (.ub u)
        | .throw e => some (.throw e)
        | .ub u => some (.ub u) := by
  cases fuel <;> rfl

theorem rd_app (pre : Bytes) (a : Byte) (r : Bytes) (i : Nat) (h : i = pre.length) :
    rd (pre ++ a :: r) i = .ok a := by
  subst h; simp [rd]

theorem be32_val {n : Nat} (h : n < 2 ^ 32) :
    (UInt8.ofNat (n / 2 ^ 24)).toNat * 2 ^ 24 + (UInt8.ofNat (n / 2 ^ 16)).toNat * 2 ^ 16 +
      (UInt8.ofNat (n / 2 ^ 8)).toNat * 2 ^ 8 + (UInt8.ofNat n).toNat = n := by
  simp only [UInt8.toNat_ofNat']
  omega

theorem be32_ex {n : Nat} (h : n < 2 ^ 32) : ∃ a b c d : Byte, be32 n = [a, b, c, d] ∧
    a.toNat * 2 ^ 24 + b.toNat * 2 ^ 16 + c.toNat * 2 ^ 8 + d.toNat = n :=
  ⟨_, _, _, _, rfl, be32_val h⟩

theorem rawEntry_eq (k : Bytes) (vs : List Bytes)
    (h : (vs.map fun v => v.length + 1).sum < 2 ^ 32) :
    rawEntry (k, vs) = k ++ 0 :: (be32 (vs.map fun v => v.length + 1).sum ++ rawVals vs) := by
  unfold rawEntry
  rw [Nat.mod_eq_of_lt h]
  simp only [List.append_assoc, List.cons_append, List.nil_append]

theorem rawEntry_pos (e : Bytes × List Bytes) : 0 < (rawEntry e).length := by
  unfold rawEntry
  simp only [List.length_append, List.length_cons]
  omega

theorem len_le_sum (vs : List Bytes) : vs.length ≤ (vs.map fun v => v.length + 1).sum := by
  induction vs with
  | nil => simp
  | cons v vs ih => simp only [List.length_cons, List.map_cons, List.sum_cons]; omega

theorem rd4 {B : Bytes} {p n : Nat} {a b c d : Byte} (r1 : rd B (p + 1) = .ok a)
    (r2 : rd B (p + 2) = .ok b) (r3 : rd B (p + 3) = .ok c) (r4 : rd B (p + 4) = .ok d)
    (hval : a.toNat * 2 ^ 24 + b.toNat * 2 ^ 16 + c.toNat * 2 ^ 8 + d.toNat = n) :
    ((rd B (p + 1)).bind fun a => (rd B (p + 2)).bind fun c => (rd B (p + 3)).bind fun d =>
              (rd B (p + 4)).bind fun e =>
                .ok (a.toNat * 2 ^ 24 + c.toNat * 2 ^ 16 + d.toNat * 2 ^ 8 + e.toNat)) = .ok n := by
  rw [r1, r2, r3, r4, Res.ok_bind, Res.ok_bind, Res.ok_bind, Res.ok_bind, hval]

theorem parseEntries_step {B : Bytes} {fuel i n p i' : Nat} {M : TagMap} {key : Bytes} {vs : List Bytes}
    (hne : i ≠ B.length) (hk : findNul B i = .ok (key, p))
    (h4 : ((rd B (p + 1)).bind fun a => (rd B (p + 2)).bind fun c => (rd B (p + 3)).bind fun d =>
              (rd B (p + 4)).bind fun e =>
                .ok (a.toNat * 2 ^ 24 + c.toNat * 2 ^ 16 + d.toNat * 2 ^ 8 + e.toNat)) = .ok n)
    (hv : parseVals B (B.length + 2) (p + 5) n [] = some (.ok (vs, i'))) :
    parseEntries B (fuel + 1) i M = parseEntries B fuel i' (mapUpd key (fun _ => vs) M) := by
  rw [parseEntries_unfold, if_neg hne]
  simp only [hk]
  rw [h4]
  simp only [hv]

theorem parseEntries_raw : ∀ (m : TagMap) (fuel : Nat) (pre : Bytes) (M : TagMap),
    (∀ e ∈ m, (0 : Byte) ∉ e.1 ∧ (∀ v ∈ e.2, (0 : Byte) ∉ v) ∧
      (e.2.map fun v => v.length + 1).sum < 2 ^ 32) →
    MapOk (M ++ m) → m.length ≤ fuel →
    parseEntries (pre ++ (m.map rawEntry).flatten) fuel pre.length M = some (.ok (M ++ m)) := by
  intro m
  induction m with
  | nil =>
    intro fuel pre M _ _ _
    rw [parseEntries_unfold]
    simp
  | cons e r ih =>
    intro fuel pre M h0 hok hf
    obtain ⟨k, vs⟩ := e
    obtain ⟨hk, hv, hsum⟩ := h0 (k, vs) (List.mem_cons_self ..)
    simp only at hk hv hsum
    have h' := List.pairwise_append.1 hok.1
    have hset : SetOk vs := hok.2 (k, vs) (by simp)
    have hne : pre.length ≠ (pre ++ (List.map rawEntry ((k, vs) :: r)).flatten).length := by
      have := rawEntry_pos (k, vs)
      simp only [List.map_cons, List.flatten_cons, List.length_append]; omega
    cases fuel with
    | zero => simp at hf
    | succ fuel =>
      obtain ⟨a, b, c, d, hbe, hval⟩ := be32_ex hsum
      have hre := rawEntry_eq k vs hsum
      generalize hn : (vs.map fun v => v.length + 1).sum = n at hsum hbe hre hval
      have e1 : pre ++ (List.map rawEntry ((k, vs) :: r)).flatten =
          pre ++ (k ++ 0 :: (be32 n ++ (rawVals vs ++ (r.map rawEntry).flatten))) := by
        rw [List.map_cons, List.flatten_cons, hre]
        simp only [List.append_assoc, List.cons_append, List.nil_append]
      have e2 : pre ++ (List.map rawEntry ((k, vs) :: r)).flatten =
          (pre ++ k ++ [0]) ++ a :: b :: c :: d :: (rawVals vs ++ (r.map rawEntry).flatten) := by
        rw [e1, hbe]; simp
      have e3 : pre ++ (List.map rawEntry ((k, vs) :: r)).flatten =
          (pre ++ k ++ [0] ++ be32 n) ++ (rawVals vs ++ (r.map rawEntry).flatten) := by
        rw [e1]; simp
      have e4 : pre ++ (List.map rawEntry ((k, vs) :: r)).flatten =
          (pre ++ k ++ [0] ++ be32 n ++ rawVals vs) ++ (r.map rawEntry).flatten := by
        rw [e3]; simp
      have hfn : findNul (pre ++ (List.map rawEntry ((k, vs) :: r)).flatten) pre.length =
        .ok (k, pre.length + k.length) := by rw [e1]; exact findNul_at _ _ _ hk
      have r1 : rd (pre ++ (List.map rawEntry ((k, vs) :: r)).flatten) (pre.length + k.length + 1) =
          .ok a := by
        rw [e2]; exact rd_app _ _ _ _ (by simp <;> omega)
      have r2 : rd (pre ++ (List.map rawEntry ((k, vs) :: r)).flatten) (pre.length + k.length + 2) =
          .ok b := by
        rw [e2, List.append_cons]; exact rd_app _ _ _ _ (by simp <;> omega)
      have r3 : rd (pre ++ (List.map rawEntry ((k, vs) :: r)).flatten) (pre.length + k.length + 3) =
          .ok c := by
        rw [e2, List.append_cons, List.append_cons]; exact rd_app _ _ _ _ (by simp <;> omega)
      have r4 : rd (pre ++ (List.map rawEntry ((k, vs) :: r)).flatten) (pre.length + k.length + 4) =
          .ok d := by
        rw [e2, List.append_cons, List.append_cons, List.append_cons]; exact rd_app _ _ _ _ (by simp <;> omega)
      have h4 := rd4 r1 r2 r3 r4 hval
      have hpv := parseVals_raw vs ((pre ++ (List.map rawEntry ((k, vs) :: r)).flatten).length + 2)
        (pre ++ k ++ [0] ++ be32 n) (r.map rawEntry).flatten [] hv (by omega) hset (by
          rw [e3]
          have := len_le_sum vs
          have := rawVals_length vs
          simp only [List.length_append]; omega)
      have hlen : (pre ++ k ++ [0] ++ be32 n).length = pre.length + k.length + 5 := by
        rw [hbe]; simp <;> omega
      rw [hn, ← e3, hlen] at hpv
      rw [parseEntries_step hne hfn h4 hpv, List.nil_append, mapUpd_last fun x hx => h'.2.2 x hx (k, vs) (List.mem_cons_self ..), e4,
        ih fuel (pre ++ k ++ [0] ++ be32 n ++ rawVals vs) (M ++ [(k, vs)])
          (fun e he => h0 e (List.mem_cons_of_mem _ he)) (by simpa using hok) (by simpa using hf)]
      simp

theorem findNul_ok {b : Bytes} {i p : Nat} {v : Bytes} (h : findNul b i = .ok (v, p)) :
    i ≤ b.length ∧ i ≤ p ∧ p ≤ b.length := by
  unfold findNul at h
  split at h
  · rename_i hi
    simp only [Res.ok.injEq, Prod.mk.injEq] at h
    obtain ⟨h1, h2⟩ := h
    have := (List.takeWhile_sublist (p := fun x : Byte => decide (x ≠ 0)) (l := b.drop i)).length_le
    rw [List.length_drop, h1] at this
    rw [h1] at h2
    exact ⟨hi, by omega, by omega⟩
  · cases h

theorem bind_eq_ok {α β : Type} {x : Res α} {f : α → Res β} {v : β} (h : x.bind f = .ok v) :
    ∃ a, x = .ok a ∧ f a = .ok v := by
  cases x with
  | ok a => exact ⟨a, rfl, h⟩
  | throw e => cases h
  | ub u => cases h

theorem parseVals_total (b : Bytes) : ∀ (fuel i cb : Nat) (vals : List Bytes),
    i ≤ b.length + 1 → b.length + 1 < fuel + i →
    parseVals b fuel i cb vals ≠ none ∧
    ∀ vs i', parseVals b fuel i cb vals = some (.ok (vs, i')) → i ≤ i' ∧ i' ≤ b.length + 1 := by
  intro fuel
  induction fuel with
  | zero => intro i cb vals h1 h2; omega
  | succ fuel ih =>
    intro i cb vals h1 h2
    unfold parseVals
    split
    · refine ⟨by simp, ?_⟩
      intro vs i' h
      cases h; exact ⟨Nat.le_refl _, h1⟩
    · simp only
      split
      · rename_i v p hf
        obtain ⟨a1, a2, a3⟩ := findNul_ok hf
        obtain ⟨c1, c2⟩ := ih (p + 1) ((cb + 2 ^ 32 - (v.length + 1)) % 2 ^ 32) (setInsert v vals)
          (by omega) (by omega)
        exact ⟨c1, fun vs i' h => by have := c2 vs i' h; omega⟩
      · exact ⟨by simp, fun _ _ h => by cases h⟩
      · exact ⟨by simp, fun _ _ h => by cases h⟩

theorem parseEntries_total (b : Bytes) : ∀ (fuel i : Nat) (M : TagMap),
    i ≤ b.length + 1 → b.length + 1 < fuel + i → parseEntries b fuel i M ≠ none := by
  intro fuel
  induction fuel with
  | zero => intro i M h1 h2; omega
  | succ fuel ih =>
    intro i M h1 h2
    rw [parseEntries_unfold]
    split
    · simp
    · simp only
      split
      · rename_i key p hf
        obtain ⟨a1, a2, a3⟩ := findNul_ok hf
        split
        · rename_i cb hcb
          have hp : p + 5 ≤ b.length := by
            obtain ⟨_, -, hcb⟩ := bind_eq_ok hcb
            obtain ⟨_, -, hcb⟩ := bind_eq_ok hcb
            obtain ⟨_, -, hcb⟩ := bind_eq_ok hcb
            obtain ⟨e, he, -⟩ := bind_eq_ok hcb
            unfold rd at he
            split at he
            · rename_i h'; 
              have := (List.getElem?_eq_some_iff.1 h').1
              omega
            · cases he
          obtain ⟨c1, c2⟩ := parseVals_total b (b.length + 2) (p + 5) cb [] (by omega) (by omega)
          split
          · rename_i vals i' hv
            have := c2 vals i' hv
            exact ih i' _ (by omega) (by omega)
          · simp
          · simp
          · rename_i hn; exact absurd hn c1
        · simp
        · simp
      · simp
      · simp

theorem parse_total (b : Bytes) : parse b ≠ none := by
  unfold parse
  split
  · rename_i own p hf
    obtain ⟨a1, a2, a3⟩ := findNul_ok hf
    have := parseEntries_total b (b.length + 1) (p + 1) [] (by omega) (by omega)
    split
    · simp
    · simp
    · simp
    · rename_i hn; exact absurd hn this
  · simp
  · simp

theorem flat_len (m : TagMap) : m.length ≤ ((m.map rawEntry).flatten).length := by
  induction m with
  | nil => simp
  | cons e r ih =>
    simp only [List.map_cons, List.flatten_cons, List.length_append, List.length_cons, rawEntry] at *
    omega

theorem write_eq (t : TagCloud) : t.write = [0x01] ++ (t.own ++ 0 :: (t.tags.map rawEntry).flatten) := by
  unfold write
  rw [show (fun e : Bytes × List Bytes => e.1 ++ [0] ++
      be32 ((e.2.map fun v => v.length + 1).sum % 2 ^ 32) ++ rawVals e.2) = rawEntry from rfl]
  simp

theorem parse_write (t : TagCloud) (h : MapOk t.tags) (ho : (0 : Byte) ∉ t.own)
    (h0 : ∀ e ∈ t.tags, (0 : Byte) ∉ e.1 ∧ (∀ v ∈ e.2, (0 : Byte) ∉ v) ∧
      (e.2.map fun v => v.length + 1).sum < 2 ^ 32) : parse t.write = some (.ok t) := by
  rw [write_eq]
  unfold parse
  have hf := findNul_at [0x01] t.own (t.tags.map rawEntry).flatten ho
  rw [show ([0x01] : Bytes).length = 1 from rfl] at hf
  rw [hf]
  simp only
  have e : ([0x01] : Bytes) ++ (t.own ++ 0 :: (t.tags.map rawEntry).flatten) =
      ([0x01] ++ t.own ++ [0]) ++ (t.tags.map rawEntry).flatten := by simp
  have hlen : 1 + t.own.length + 1 = ([0x01] ++ t.own ++ [0]).length := by simp <;> omega
  rw [e, hlen,
    parseEntries_raw t.tags _ _ [] h0 h (by have := flat_len t.tags; simp only [List.length_append]; omega)]
  rfl

theorem write_length (t : TagCloud) : t.write.length = t.size := by
  have : ∀ m : TagMap, ((m.map rawEntry).flatten).length =
      (m.map fun e => e.1.length + 1 + 4 + (e.2.map fun v => v.length + 1).sum).sum := by
    intro m
    induction m with
    | nil => rfl
    | cons e r ih =>
      simp only [List.map_cons, List.flatten_cons, List.length_append, List.sum_cons, ih, rawEntry,
        rawVals_length, be32, List.length_cons, List.length_nil]
  rw [write_eq, size, ← this]
  simp only [List.length_append, List.length_cons, List.length_nil]
  omega

end Scribbu.TagCloud
