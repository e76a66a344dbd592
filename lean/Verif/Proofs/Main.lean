import Verif.Spec.Main

/-! Lemmas about the command line. -/

namespace Scribbu.Main
open Scribbu Spec.Main

/-- A state in which `W` has been copied and `k` slots are left. -/
def mk (p : Bytes) (W : List Bytes) (k : Nat) (argv : List Bytes) (v : Bool) (h : Help) (f : Option Flavor) : St :=
  ⟨argv, some p :: (W.map some ++ List.replicate k none), W.length, W.length + 1, v, h, f⟩

theorem mk_set (p : Bytes) (W : List Bytes) (k : Nat) (argv : List Bytes) (v : Bool) (h : Help) (f : Option Flavor) (w : Bytes) :
    (mk p W (k + 1) argv v h f).set (W.length + 1) w =
      .ok ⟨argv, some p :: ((W ++ [w]).map some ++ List.replicate k none), W.length, W.length + 1, v, h, f⟩ := by
  unfold St.set mk
  have h1 : W.length + 1 < (some p :: (W.map some ++ List.replicate (k + 1) none)).length := by simp
  simp only [h1, if_true, List.set_cons_succ, Res.ok.injEq, St.mk.injEq, and_true, true_and, List.cons.injEq]
  rw [List.set_append_right _ _ (by simp)]
  simp [List.replicate_succ]

theorem mk_shift (p : Bytes) (W : List Bytes) (k : Nat) (w : Bytes) (ws : List Bytes) (v : Bool) (h : Help) (f : Option Flavor) :
    (mk p W (k + 1) (w :: ws) v h f).shift = .ok (mk p (W ++ [w]) k ws v h f) := by
  unfold St.shift
  have := mk_set p W k (w :: ws) v h f w
  simp only [mk] at this ⊢
  rw [this]
  simp [Res.bind]

theorem copyRest_all (p : Bytes) (v : Bool) (h : Help) (f : Option Flavor) : ∀ (ws W : List Bytes) (j : Nat),
    copyRest ws.length (mk p W (ws.length + j) ws v h f) = .ok (mk p (W ++ ws) j [] v h f)
  | [], W, j => by simp [copyRest, mk]
  | w :: ws, W, j => by
    rw [show (w :: ws).length + j = (ws.length + j) + 1 by simp; omega]
    simp only [List.length_cons, copyRest]
    have : (mk p W (ws.length + j + 1) (w :: ws) v h f).argv = w :: ws := rfl
    rw [this]
    simp only
    rw [mk_shift, Res.ok_bind, copyRest_all p v h f ws (W ++ [w]) j]
    simp

theorem takeAll_all (p : Bytes) (v : Bool) (h : Help) (f : Option Flavor) : ∀ (ws W : List Bytes) (j n : Nat) (s : St),
    s = { mk p W (ws.length + j) ws v h f with n := n } →
    takeAll ws.length s = .ok { mk p (W ++ ws) j [] v h f with n := n }
  | [], W, j, n, s, hs => by subst hs; simp [takeAll, mk]
  | w :: ws, W, j, n, s, hs => by
    subst hs
    simp only [List.length_cons, takeAll, mk]
    have := mk_set p W (ws.length + j) (w :: ws) v h f w
    unfold St.set at this ⊢
    unfold mk at this
    simp only at this ⊢
    rw [show ws.length + 1 + j = ws.length + j + 1 by omega]
    split at this
    · rename_i hlt
      simp only [Res.ok.injEq, St.mk.injEq, true_and, and_true] at this
      rw [if_pos hlt, this, Res.ok_bind, takeAll_all p v h f ws (W ++ [w]) j n _ (by simp [mk])]
      simp [mk]
    · cases this

/-- What asking for something does to the state. -/
def askSt (r : Bool × Help × Option Flavor) : Ask → Bool × Help × Option Flavor
  | .usage => (r.1, .regular, r.2.2)
  | .man => (r.1, .verbose, some .man)
  | .info => (r.1, .verbose, some .info)
  | .version => (true, r.2)

theorem mk_argv (p W k argv v h f) : (mk p W k argv v h f).argv = argv := rfl

theorem loop_ask {a : Ask} {w : Bytes} (hw : (w, a) ∈ asks) (fuel : Nat) (p : Bytes) (W : List Bytes) (k : Nat) (ws : List Bytes) (r : Bool × Help × Option Flavor) :
    loop (fuel + 1) (mk p W k (w :: ws) r.1 r.2.1 r.2.2) = loop fuel (mk p W k ws (askSt r a).1 (askSt r a).2.1 (askSt r a).2.2) := by
  simp only [asks, List.mem_cons, Prod.mk.injEq, List.not_mem_nil, or_false] at hw
  rcases hw with ⟨rfl, rfl⟩ | ⟨rfl, rfl⟩ | ⟨rfl, rfl⟩ | ⟨rfl, rfl⟩ | ⟨rfl, rfl⟩ | ⟨rfl, rfl⟩ <;> rfl

theorem withValue_prefix {w : Bytes} (h : ∃ p ∈ withValue, p <+: w) : (wPrefixes.any fun p => p.isPrefixOf w) = true := by
  obtain ⟨p, hp, t, rfl⟩ := h
  simp only [withValue, List.mem_cons, List.not_mem_nil, or_false] at hp
  rcases hp with rfl | rfl | rfl <;> rfl

theorem ones_single {w : Bytes} (h : w ∈ ones) : (wPrefixes.any fun p => p.isPrefixOf w) = true ∨ w ∈ wSingles := by
  simp only [ones, List.mem_cons, List.not_mem_nil, or_false] at h
  rcases h with rfl | rfl | rfl | rfl | rfl | rfl | rfl | rfl | rfl <;> decide

/-- A word with one of these in front is none of those that are asked for before. -/
theorem prefix_late {w : Bytes} (h : (wPrefixes.any fun p => p.isPrefixOf w) = true) :
    w ≠ wH ∧ w ≠ wHelp ∧ w ≠ wMan ∧ w ≠ wInfo ∧ w ∉ wVersions ∧ w ∉ wPairs := by
  refine ⟨?_, ?_, ?_, ?_, ?_, ?_⟩
  · rintro rfl; exact absurd h (by decide)
  · rintro rfl; exact absurd h (by decide)
  · rintro rfl; exact absurd h (by decide)
  · rintro rfl; exact absurd h (by decide)
  · intro hm
    simp only [wVersions, List.mem_cons, List.not_mem_nil, or_false] at hm
    rcases hm with rfl | rfl <;> exact absurd h (by decide)
  · intro hm
    simp only [wPairs, List.mem_cons, List.not_mem_nil, or_false] at hm
    rcases hm with rfl | rfl | rfl | rfl | rfl <;> exact absurd h (by decide)

theorem single_late {w : Bytes} (h : w ∈ wSingles) : w ≠ wH ∧ w ≠ wHelp ∧ w ≠ wMan ∧ w ≠ wInfo ∧ w ∉ wVersions ∧ w ∉ wPairs := by
  simp only [wSingles, List.mem_cons, List.not_mem_nil, or_false] at h
  rcases h with rfl | rfl | rfl | rfl | rfl | rfl | rfl | rfl <;> decide

theorem loop_one {w : Bytes} (hw : (wPrefixes.any fun p => p.isPrefixOf w) = true ∨ w ∈ wSingles) (fuel : Nat) (p : Bytes) (W : List Bytes) (k : Nat) (ws : List Bytes)
    (v : Bool) (h : Help) (f : Option Flavor) :
    loop (fuel + 1) (mk p W (k + 1) (w :: ws) v h f) = loop fuel (mk p (W ++ [w]) k ws v h f) := by
  have hl : w ≠ wH ∧ w ≠ wHelp ∧ w ≠ wMan ∧ w ≠ wInfo ∧ w ∉ wVersions ∧ w ∉ wPairs := by
    rcases hw with h | h
    · exact prefix_late h
    · exact single_late h
  obtain ⟨h1, h2, h3, h4, h5, h6⟩ := hl
  conv => lhs; unfold loop
  rw [mk_argv]
  simp only [h1, h2, h3, h4, h5, h6, hw, if_false, if_true, or_self, mk_shift, Res.ok_bind]

theorem loop_two {o : Bytes} (ho : o ∈ twos) (x : Bytes) (fuel : Nat) (p : Bytes) (W : List Bytes) (k : Nat) (ws : List Bytes)
    (v : Bool) (h : Help) (f : Option Flavor) :
    loop (fuel + 1) (mk p W (k + 2) (o :: x :: ws) v h f) = loop fuel (mk p (W ++ [o, x]) k ws v h f) := by
  have h1 : o ≠ wH ∧ o ≠ wHelp ∧ o ≠ wMan ∧ o ≠ wInfo ∧ o ∉ wVersions ∧ o ∈ wPairs := by
    simp only [twos, List.mem_cons, List.not_mem_nil, or_false] at ho
    rcases ho with rfl | rfl | rfl | rfl | rfl <;> decide
  obtain ⟨h1, h2, h3, h4, h5, h6⟩ := h1
  conv => lhs; unfold loop
  rw [mk_argv]
  simp only [h1, h2, h3, h4, h5, h6, if_false, if_true, or_self]
  rw [show k + 2 = (k + 1) + 1 by omega, mk_shift]
  simp only [Res.ok_bind, mk_argv, mk_shift, List.append_assoc, List.cons_append, List.nil_append]

theorem loop_script {o : Bytes} (ho : o ∈ scripts) (x : Bytes) (fuel : Nat) (p : Bytes) (W : List Bytes) (k : Nat) (ws : List Bytes)
    (v : Bool) (h : Help) (f : Option Flavor) :
    loop (fuel + 1) (mk p W (k + 1) (o :: x :: ws) v h f) = .ok (.rest (mk p (W ++ [o]) k (x :: ws) v h f)) := by
  simp only [scripts, List.mem_cons, List.not_mem_nil, or_false] at ho
  conv => lhs; unfold loop
  rw [mk_argv]
  rcases ho with rfl | rfl <;>
  · simp only [show ∀ a b : Bytes, (a = b) = (a = b) from fun _ _ => rfl]
    rw [if_neg (by decide), if_neg (by decide), if_neg (by decide), if_neg (by decide), if_neg (by decide), if_neg (by decide), if_pos (by decide)]
    simp only [mk_shift, Res.ok_bind, mk_argv]

theorem loop_stop (fuel : Nat) (p : Bytes) (W : List Bytes) (k : Nat) (ws : List Bytes) (v : Bool) (h : Help) (f : Option Flavor) :
    loop (fuel + 1) (mk p W k ([45, 45] :: ws) v h f) = .ok (.rest (mk p W k ([45, 45] :: ws) v h f)) := rfl

theorem loop_nothing (fuel : Nat) (p : Bytes) (W : List Bytes) (k : Nat) (v : Bool) (h : Help) (f : Option Flavor) :
    loop fuel (mk p W k [] v h f) = .ok (.bail (mk p W k [] v h f)) := by
  cases fuel <;> rfl

/-- Words that the loop does not understand. -/
def Strange (w : Bytes) : Prop :=
  w ≠ wH ∧ w ≠ wHelp ∧ w ≠ wMan ∧ w ≠ wInfo ∧ w ∉ wVersions ∧ w ∉ wPairs ∧ ¬ ((wPrefixes.any fun p => p.isPrefixOf w) = true ∨ w ∈ wSingles) ∧ w ∉ wScripts ∧ w ≠ wStop

theorem loop_strange {w : Bytes} (hw : Strange w) (fuel : Nat) (p : Bytes) (W : List Bytes) (k : Nat) (ws : List Bytes) (v : Bool) (h : Help) (f : Option Flavor) :
    loop fuel (mk p W k (w :: ws) v h f) = .ok (.bail (mk p W k (w :: ws) v h f)) := by
  obtain ⟨h1, h2, h3, h4, h5, h6, h7, h8, h9⟩ := hw
  cases fuel with
  | zero => rfl
  | succ fuel =>
    unfold loop
    rw [mk_argv]
    simp only [h1, h2, h3, h4, h5, h6, h7, h8, h9, if_false, or_self]

theorem plain_strange {w : Bytes} (hw : Plain w) : Strange w := by
  obtain ⟨h1, h2⟩ := hw
  have hm : ∀ l : List Bytes, (∀ x ∈ l, x.head? = some 45) → w ∉ l := fun l hl hm => h1 (hl w hm)
  have he : ∀ x : Bytes, x.head? = some 45 → w ≠ x := fun x hx e => h1 (e ▸ hx)
  refine ⟨he _ rfl, he _ rfl, he _ rfl, he _ rfl, hm _ (by decide), hm _ (by decide), ?_, hm _ (by decide), he _ rfl⟩
  rintro (h | h)
  · apply h1
    cases w with
    | nil => exact absurd h (by decide)
    | cons c w =>
      simp only [wPrefixes, List.any_cons, List.any_nil, List.isPrefixOf, Bool.or_eq_true, Bool.and_eq_true, beq_iff_eq, Bool.or_false] at h
      rcases h with ⟨h, -⟩ | ⟨h, -⟩ | ⟨h, -⟩ <;> simp [← h]
  · simp only [wSingles, List.mem_cons, List.not_mem_nil, or_false] at h
    rcases h with rfl | rfl | rfl | rfl | rfl | rfl | rfl | rfl <;> first | exact h2 rfl | exact h1 rfl

/-- The state that a list of global options leads to. -/
def asked (r : Bool × Help × Option Flavor) (gs : List Global) : Bool × Help × Option Flavor := (gs.filterMap Global.asked).foldl askSt r

theorem loop_globals (p : Bytes) : ∀ (gs : List Global), (∀ g ∈ gs, g.Ok) → ∀ (ws W : List Bytes) (j : Nat) (r : Bool × Help × Option Flavor) (fuel : Nat),
    (gs.flatMap Global.words ++ ws).length ≤ fuel → ∃ fuel' k, ws.length ≤ fuel' ∧ j ≤ k ∧
      loop fuel (mk p W ((gs.flatMap Global.words).length + j) (gs.flatMap Global.words ++ ws) r.1 r.2.1 r.2.2) =
      loop fuel' (mk p (W ++ gs.flatMap Global.guile) k ws (asked r gs).1 (asked r gs).2.1 (asked r gs).2.2)
  | [], _, ws, W, j, r, fuel, hf => ⟨fuel, j, by simpa using hf, Nat.le_refl _, by simp [asked]⟩
  | g :: gs, hg, ws, W, j, r, fuel, hf => by
    have h1 := hg g (List.mem_cons_self ..)
    have h2 : ∀ g ∈ gs, g.Ok := fun x hx => hg x (List.mem_cons_of_mem _ hx)
    cases g with
    | ask a w =>
      simp only [List.flatMap_cons, Global.words, List.append_assoc, List.cons_append, List.nil_append, List.length_cons] at hf ⊢
      obtain ⟨fuel, rfl⟩ : ∃ n, fuel = n + 1 := ⟨fuel - 1, by omega⟩
      rw [show (List.flatMap Global.words gs).length + 1 + j = (List.flatMap Global.words gs).length + (j + 1) by omega, loop_ask h1]
      obtain ⟨f', k, h3, h4, h5⟩ := loop_globals p gs h2 ws W (j + 1) (askSt r a) fuel (by omega)
      exact ⟨f', k, h3, by omega, h5⟩
    | one w =>
      simp only [List.flatMap_cons, Global.words, List.append_assoc, List.cons_append, List.nil_append, List.length_cons] at hf ⊢
      obtain ⟨fuel, rfl⟩ : ∃ n, fuel = n + 1 := ⟨fuel - 1, by omega⟩
      rw [show (List.flatMap Global.words gs).length + 1 + j = (List.flatMap Global.words gs).length + j + 1 by omega,
        loop_one (h1.elim ones_single fun h => .inl (withValue_prefix h))]
      obtain ⟨f', k, h3, h4, h5⟩ := loop_globals p gs h2 ws (W ++ [w]) j r fuel (by omega)
      refine ⟨f', k, h3, by omega, ?_⟩
      rw [h5, show asked r (.one w :: gs) = asked r gs from rfl]
      simp [Global.guile]
    | two o x =>
      simp only [List.flatMap_cons, Global.words, List.append_assoc, List.cons_append, List.nil_append, List.length_cons] at hf ⊢
      obtain ⟨fuel, rfl⟩ : ∃ n, fuel = n + 1 := ⟨fuel - 1, by omega⟩
      rw [show (List.flatMap Global.words gs).length + 1 + 1 + j = (List.flatMap Global.words gs).length + j + 2 by omega, loop_two h1]
      obtain ⟨f', k, h3, h4, h5⟩ := loop_globals p gs h2 ws (W ++ [o, x]) j r fuel (by omega)
      refine ⟨f', k, h3, by omega, ?_⟩
      rw [h5, show asked r (.two o x :: gs) = asked r gs from rfl]
      simp [Global.guile]

/-- What has been asked for decides the flags: `version` if it is asked for, the last of the others. -/
theorem asked_version (gs : List Global) : ∀ r : Bool × Help × Option Flavor, (asked r gs).1 = true ↔ r.1 = true ∨ Ask.version ∈ gs.filterMap Global.asked := by
  unfold asked
  induction gs.filterMap Global.asked with
  | nil => intro r; simp
  | cons a as ih =>
    intro r
    rw [List.foldl_cons, ih]
    cases a <;> simp [askSt]

theorem fold_help (as : List Ask) : ∀ r : Bool × Help × Option Flavor,
    match (as.filter (· ≠ .version)).getLast? with
      | none => (as.foldl askSt r).2 = r.2
      | some .usage => (as.foldl askSt r).2.1 = .regular
      | some .man => (as.foldl askSt r).2 = (.verbose, some .man)
      | some .info => (as.foldl askSt r).2 = (.verbose, some .info)
      | some .version => False := by
  induction as with
  | nil => intro r; rfl
  | cons a as ih =>
    intro r
    rw [List.foldl_cons]
    have h1 := ih (askSt r a)
    cases hl : (as.filter (· ≠ .version)).getLast? with
    | none =>
      rw [hl] at h1
      have hf : as.filter (· ≠ .version) = [] := by simpa using hl
      rw [List.filter_cons, hf]
      cases a <;> simp only [askSt] at h1 <;> simp [askSt, h1]
    | some b =>
      rw [hl] at h1
      have hx : ((a :: as).filter (· ≠ .version)).getLast? = some b := by
        rw [List.filter_cons]
        split
        · rw [List.getLast?_cons, hl]; rfl
        · exact hl
      rw [hx]
      cases b <;> exact h1

theorem asked_help (gs : List Global) (r : Bool × Help × Option Flavor) :
    match ((gs.filterMap Global.asked).filter (· ≠ .version)).getLast? with
      | none => (asked r gs).2 = r.2
      | some .usage => (asked r gs).2.1 = .regular
      | some .man => (asked r gs).2 = (.verbose, some .man)
      | some .info => (asked r gs).2 = (.verbose, some .info)
      | some .version => False := fold_help _ r

end Scribbu.Main
