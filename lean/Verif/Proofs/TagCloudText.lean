import Verif.Proofs.TagCloud

namespace Scribbu.TagCloud
open Scribbu Scribbu.Spec

theorem splitOn_ne_nil (sep : Byte) (t : Bytes) : splitOn sep t ≠ [] := by
  cases t with
  | nil => simp [splitOn]
  | cons c cs =>
    unfold splitOn
    split
    · simp
    · split <;> simp

/-- The first field is `h` and the rest are `r`. -/
theorem splitOn_cons (sep c : Byte) (cs h : Bytes) (r : List Bytes) (hr : splitOn sep cs = h :: r) :
    splitOn sep (c :: cs) = if c = sep then [] :: h :: r else (c :: h) :: r := by
  rw [splitOn, hr]

theorem splitOn_append {sep : Byte} {a : Bytes} (ha : sep ∉ a) (b : Bytes) :
    splitOn sep (a ++ sep :: b) = a :: splitOn sep b := by
  induction a with
  | nil => simp [splitOn]
  | cons c cs ih =>
    have h1 : c ≠ sep := fun h => ha (h ▸ List.mem_cons_self ..)
    rw [List.cons_append, splitOn, if_neg h1, ih fun h => ha (List.mem_cons_of_mem _ h)]

theorem splitOn_none {sep : Byte} {a : Bytes} (ha : sep ∉ a) : splitOn sep a = [a] := by
  induction a with
  | nil => simp [splitOn]
  | cons c cs ih =>
    have h1 : c ≠ sep := fun h => ha (h ▸ List.mem_cons_self ..)
    rw [splitOn, if_neg h1, ih fun h => ha (List.mem_cons_of_mem _ h)]

/-- The values of one field. -/
def procVals (key : Bytes) : List Bytes → TagMap → Res Unit × TagMap
  | [], M => (.ok (), M)
  | w :: ws, M =>
    match tokVal key w M with
    | (.ok (), M') => procVals key ws M'
    | r => r

/-- One field: `k` is what precedes the first `=`. -/
def procPiece (p : Bytes) (M : TagMap) : Res Unit × TagMap :=
  match p.dropWhile (· ≠ 0x3d) with
  | [] => tokKey (p.takeWhile (· ≠ 0x3d)) M
  | _ :: b =>
    match urldecode (p.takeWhile (· ≠ 0x3d)) with
    | .ok k => procVals k (splitOn 0x2c b) M
    | .throw e => (.throw e, M)
    | .ub u => (.ub u, M)

def procPieces : List Bytes → TagMap → Res Unit × TagMap
  | [], M => (.ok (), M)
  | p :: ps, M =>
    match procPiece p M with
    | (.ok (), M') => procPieces ps M'
    | r => r

/-- `x` then, if it returned, `f`. -/
def andThen (x : Res Unit × TagMap) (f : TagMap → Res Unit × TagMap) : Res Unit × TagMap :=
  match x with
  | (.ok (), M) => f M
  | r => r

theorem andThen_ok (M : TagMap) (f : TagMap → Res Unit × TagMap) : andThen (.ok (), M) f = f M := rfl
theorem andThen_assoc (x : Res Unit × TagMap) (f g : TagMap → Res Unit × TagMap) :
    andThen (andThen x f) g = andThen x fun M => andThen (f M) g := by
  rcases x with ⟨_ | _ | _, _⟩ <;> rfl
theorem andThen_pure (x : Res Unit × TagMap) : andThen x (fun M => (.ok (), M)) = x := by
  rcases x with ⟨_ | _ | _, _⟩ <;> rfl

theorem procVals_cons (key w : Bytes) (ws : List Bytes) (M : TagMap) :
    procVals key (w :: ws) M = andThen (tokVal key w M) (procVals key ws) := by
  rw [procVals]; rcases tokVal key w M with ⟨_ | _ | _, _⟩ <;> rfl
theorem procPieces_cons (p : Bytes) (ps : List Bytes) (M : TagMap) :
    procPieces (p :: ps) M = andThen (procPiece p M) (procPieces ps) := by
  rw [procPieces]; rcases procPiece p M with ⟨_ | _ | _, _⟩ <;> rfl

theorem takeWhile_app {tok b : Bytes} {s : Byte} (h : s ∉ tok) :
    (tok ++ s :: b).takeWhile (· ≠ s) = tok ∧ (tok ++ s :: b).dropWhile (· ≠ s) = s :: b := by
  induction tok with
  | nil => simp
  | cons c cs ih =>
    have h1 : c ≠ s := fun h' => h (h' ▸ List.mem_cons_self ..)
    have := ih fun h' => h (List.mem_cons_of_mem _ h')
    simp_all

theorem takeWhile_all {tok : Bytes} {s : Byte} (h : s ∉ tok) :
    tok.takeWhile (· ≠ s) = tok ∧ tok.dropWhile (· ≠ s) = [] := by
  induction tok with
  | nil => simp
  | cons c cs ih =>
    have h1 : c ≠ s := fun h' => h (h' ▸ List.mem_cons_self ..)
    have := ih fun h' => h (List.mem_cons_of_mem _ h')
    simp_all

theorem parseLoop_eq : ∀ (cs : Bytes) (pk : Bool) (tok key : Bytes) (M : TagMap),
    (pk = true → 0x3d ∉ tok → ∀ h r, splitOn 0x26 cs = h :: r →
      parseLoop cs pk tok key M = andThen (procPiece (tok ++ h) M) (procPieces r)) ∧
    (pk = false → ∀ h r, splitOn 0x26 cs = h :: r → ∀ h2 r2, splitOn 0x2c h = h2 :: r2 →
      parseLoop cs pk tok key M =
        andThen (procVals key ((tok ++ h2) :: r2) M) (procPieces r)) := by
  intro cs
  induction cs with
  | nil =>
    intro pk tok key M
    constructor
    · rintro rfl ht h r hs
      cases hs
      rw [List.append_nil, parseLoop, if_pos rfl, procPiece, (takeWhile_all ht).1, (takeWhile_all ht).2]
      exact (andThen_pure _).symm
    · rintro rfl h r hs h2 r2 hs2
      cases hs
      cases hs2
      rw [List.append_nil, parseLoop, if_neg (by simp), procVals_cons]
      simp only [procVals, procPieces]
      rw [show (fun M => ((Res.ok (), M) : Res Unit × TagMap)) = procVals key [] from rfl]
      show _ = andThen (andThen _ _) (fun M => (.ok (), M))
      rw [andThen_pure]
      exact (andThen_pure _).symm
  | cons c cs ih =>
    intro pk tok key M
    obtain ⟨h0, r0, e0⟩ := List.exists_cons_of_ne_nil (splitOn_ne_nil 0x26 cs)
    constructor
    · rintro rfl ht h r hs
      rw [splitOn_cons _ _ _ _ _ e0] at hs
      rw [parseLoop]
      by_cases hc : c = 0x3d
      · subst hc
        rw [if_neg (by decide)] at hs
        cases hs
        rw [if_pos rfl, procPiece, (takeWhile_app ht).1, (takeWhile_app ht).2]
        cases hd : urldecode tok with
        | ok k =>
          simp only
          obtain ⟨h2, r2, e2⟩ := List.exists_cons_of_ne_nil (splitOn_ne_nil 0x2c h0)
          rw [(ih false [] k M).2 rfl _ _ e0 _ _ e2, List.nil_append, e2]
        | throw e => rfl
        | ub e => rfl
      · rw [if_neg hc]
        by_cases hc2 : c = 0x26
        · rw [if_pos hc2] at hs ⊢
          cases hs
          rw [List.append_nil, procPiece, (takeWhile_all ht).1, (takeWhile_all ht).2]
          simp only
          generalize tokKey tok M = q
          obtain ⟨q, M'⟩ := q
          cases q with
          | ok u =>
            cases u
            simp only [andThen]
            rw [(ih true [] key M').1 rfl (by simp) _ _ e0, procPieces_cons, List.nil_append]
          | throw e => rfl
          | ub e => rfl
        · rw [if_neg hc2] at hs ⊢
          cases hs
          rw [(ih true (tok ++ [c]) key M).1 rfl
            (by simp only [List.mem_append, List.mem_singleton, not_or]; exact ⟨ht, fun h => hc h.symm⟩)
            _ _ e0, List.append_assoc]
          rfl
    · rintro rfl h r hs h2 r2 hs2
      rw [splitOn_cons _ _ _ _ _ e0] at hs
      rw [parseLoop]
      by_cases hc : c = 0x2c
      · subst hc
        rw [if_neg (by decide)] at hs
        cases hs
        rw [if_pos rfl]
        obtain ⟨h3, r3, e3⟩ := List.exists_cons_of_ne_nil (splitOn_ne_nil 0x2c h0)
        rw [splitOn_cons _ _ _ _ _ e3, if_pos rfl] at hs2
        cases hs2
        rw [List.append_nil, procVals_cons, andThen_assoc]
        generalize tokVal key tok M = q
        obtain ⟨q, M'⟩ := q
        cases q with
        | ok u =>
          cases u
          simp only [andThen_ok]
          rw [(ih false [] key M').2 rfl _ _ e0 _ _ e3, List.nil_append]
        | throw e => rfl
        | ub e => rfl
      · rw [if_neg hc]
        by_cases hc2 : c = 0x26
        · rw [if_pos hc2] at hs ⊢
          cases hs
          cases hs2
          rw [List.append_nil, procVals_cons, andThen_assoc]
          generalize tokVal key tok M = q
          obtain ⟨q, M'⟩ := q
          cases q with
          | ok u =>
            cases u
            simp only [andThen_ok, procVals]
            rw [(ih true [] [] M').1 rfl (by simp) _ _ e0, procPieces_cons, List.nil_append]
          | throw e => rfl
          | ub e => rfl
        · rw [if_neg hc2] at hs ⊢
          cases hs
          obtain ⟨h3, r3, e3⟩ := List.exists_cons_of_ne_nil (splitOn_ne_nil 0x2c h0)
          rw [splitOn_cons _ _ _ _ _ e3, if_neg hc] at hs2
          cases hs2
          rw [(ih false (tok ++ [c]) key M).2 rfl _ _ e0 _ _ e3, List.append_assoc]
          rfl

theorem parseToMap_eq (text : Bytes) (M : TagMap) :
    parseToMap text M = procPieces (splitOn 0x26 text) M := by
  obtain ⟨h0, r0, e0⟩ := List.exists_cons_of_ne_nil (splitOn_ne_nil 0x26 text)
  unfold parseToMap
  rw [(parseLoop_eq text true [] [] M).1 rfl (by simp) _ _ e0, e0, procPieces_cons, List.nil_append]

/-! ## Meaning -/

theorem means_iff (t o : Bytes) : urldecode t = .ok o ↔ Means t o := by
  rw [urldecode_eq]
  constructor
  · intro h
    rcases udec_inv t.length t (Nat.le_refl _) with ⟨o', ho, hd⟩ | hd
    · rw [h] at ho
      cases ho
      exact hd
    · rw [h] at hd; cases hd
  · rintro (h | ⟨t', rfl, h⟩)
    · exact (udec_of_decodes h).1
    · exact (udec_of_decodes h).2

theorem urldecode_cases (t : Bytes) :
    (∃ o, urldecode t = .ok o ∧ Means t o) ∨ urldecode t = .throw .invalidArgument := by
  rcases udec_inv t.length t (Nat.le_refl _) with ⟨o, ho, hd⟩ | hd
  · exact .inl ⟨o, by rw [urldecode_eq]; exact ho, hd⟩
  · exact .inr (by rw [urldecode_eq]; exact hd)

/-- Keys and values of a map. -/
def KeyIn (m : TagMap) (k : Bytes) : Prop := ∃ s, (k, s) ∈ m
def ValIn (m : TagMap) (k v : Bytes) : Prop := ∃ s, (k, s) ∈ m ∧ v ∈ s

theorem keyIn_upd {k : Bytes} {f : List Bytes → List Bytes} {m : TagMap} {x : Bytes} :
    KeyIn (mapUpd k f m) x ↔ x = k ∨ KeyIn m x := keys_mapUpd

theorem valIn_upd {k : Bytes} {f : List Bytes → List Bytes} {m : TagMap} (h : MapOk m)
    {x v : Bytes} : ValIn (mapUpd k f m) x v ↔
      (x ≠ k ∧ ValIn m x v) ∨ (x = k ∧ v ∈ f ((mapFind k m).getD [])) := by
  unfold ValIn
  constructor
  · rintro ⟨s, h1, h2⟩
    rcases (mem_mapUpd h).1 h1 with ⟨a, b⟩ | ⟨a, rfl⟩
    · exact .inl ⟨a, s, b, h2⟩
    · exact .inr ⟨a, h2⟩
  · rintro (⟨a, s, b, c⟩ | ⟨rfl, c⟩)
    · exact ⟨s, (mem_mapUpd h).2 (.inl ⟨a, b⟩), c⟩
    · exact ⟨_, (mem_mapUpd h).2 (.inr ⟨rfl, rfl⟩), c⟩

theorem valIn_find {k v : Bytes} {m : TagMap} (h : MapOk m) :
    v ∈ (mapFind k m).getD [] ↔ ValIn m k v := by
  cases hf : mapFind k m with
  | none =>
    simp only [Option.getD_none, List.not_mem_nil, false_iff]
    rintro ⟨s, h1, -⟩
    rw [(mapFind_mem h).2 h1] at hf; cases hf
  | some s =>
    have hs := (mapFind_mem h).1 hf
    constructor
    · intro hv; exact ⟨s, hs, hv⟩
    · rintro ⟨s', h1, h2⟩
      rw [(mapFind_mem h).2 h1] at hf
      cases hf; exact h2

theorem tokVal_spec (key w : Bytes) (M : TagMap) (h : MapOk M) :
    (∃ v M', Means w v ∧ tokVal key w M = (.ok (), M') ∧ MapOk M' ∧
      (∀ x, KeyIn M' x ↔ x = key ∨ KeyIn M x) ∧
      (∀ x y, ValIn M' x y ↔ (x = key ∧ y = v) ∨ ValIn M x y)) ∨
    ∃ M', tokVal key w M = (.throw .invalidArgument, M') := by
  rcases urldecode_cases w with ⟨v, e1, e2⟩ | e
  · left
    refine ⟨v, mapUpd key (setInsert v) M, e2, by rw [tokVal, e1], ?_, fun x => keyIn_upd, ?_⟩
    · exact mapOk_upd h (fun _ => setOk_insert .nil) fun s hs => setOk_insert (h.2 _ hs)
    · intro x y
      rw [valIn_upd h, mem_setInsert, valIn_find h]
      constructor
      · rintro (⟨-, h1⟩ | ⟨rfl, rfl | h1⟩)
        · exact .inr h1
        · exact .inl ⟨rfl, rfl⟩
        · exact .inr h1
      · rintro (⟨rfl, rfl⟩ | h1)
        · exact .inr ⟨rfl, .inl rfl⟩
        · by_cases hx : x = key
          · subst hx; exact .inr ⟨rfl, .inr h1⟩
          · exact .inl ⟨hx, h1⟩
  · right
    exact ⟨_, by rw [tokVal, e]⟩

theorem procVals_spec (key : Bytes) : ∀ (ws : List Bytes) (M : TagMap), MapOk M →
    (∃ M', procVals key ws M = (.ok (), M') ∧ MapOk M' ∧
      (∀ x, KeyIn M' x ↔ (x = key ∧ ws ≠ []) ∨ KeyIn M x) ∧
      (∀ x y, ValIn M' x y ↔ (x = key ∧ ∃ w ∈ ws, Means w y) ∨ ValIn M x y)) ∨
    ∃ M', procVals key ws M = (.throw .invalidArgument, M') := by
  intro ws
  induction ws with
  | nil =>
    intro M h
    exact .inl ⟨M, rfl, h, by simp, by simp⟩
  | cons w ws ih =>
    intro M h
    rw [procVals_cons]
    rcases tokVal_spec key w M h with ⟨v, M1, e1, e2, e3, e4, e5⟩ | ⟨M1, e⟩
    · rw [e2, andThen_ok]
      have mv : ∀ y, Means w y ↔ y = v := by
        intro y
        constructor
        · intro hy
          have a := (means_iff _ _).2 hy
          have b := (means_iff _ _).2 e1
          rw [a] at b; cases b; rfl
        · rintro rfl; exact e1
      rcases ih M1 e3 with ⟨M2, f1, f2, f3, f4⟩ | ⟨M2, f⟩
      · left
        refine ⟨M2, f1, f2, ?_, ?_⟩
        · intro x
          rw [f3, e4]
          constructor
          · rintro (⟨rfl, -⟩ | rfl | hh)
            · exact .inl ⟨rfl, by simp⟩
            · exact .inl ⟨rfl, by simp⟩
            · exact .inr hh
          · rintro (⟨rfl, -⟩ | hh)
            · exact .inr (.inl rfl)
            · exact .inr (.inr hh)
        · intro x y
          rw [f4, e5]
          simp only [List.mem_cons, exists_eq_or_imp, mv]
          constructor
          · rintro (⟨rfl, hh⟩ | ⟨rfl, rfl⟩ | hh)
            · exact .inl ⟨rfl, .inr hh⟩
            · exact .inl ⟨rfl, .inl rfl⟩
            · exact .inr hh
          · rintro (⟨rfl, rfl | hh⟩ | hh)
            · exact .inr (.inl ⟨rfl, rfl⟩)
            · exact .inl ⟨rfl, hh⟩
            · exact .inr (.inr hh)
      · exact .inr ⟨M2, f⟩
    · right; exact ⟨M1, by rw [e]; rfl⟩

/-- The key of a field, and its values. -/
def PieceVal (p k v : Bytes) : Prop :=
  ∃ a b, p = a ++ 0x3d :: b ∧ 0x3d ∉ a ∧ Means a k ∧ ∃ w ∈ splitOn 0x2c b, Means w v

theorem split_eq (p : Bytes) : 0x3d ∉ p ∨ ∃ a b, p = a ++ 0x3d :: b ∧ (0x3d : Byte) ∉ a := by
  induction p with
  | nil => left; simp
  | cons c cs ih =>
    by_cases hc : c = 0x3d
    · right; exact ⟨[], cs, by simp [hc], by simp⟩
    · rcases ih with h | ⟨a, b, rfl, h⟩
      · left; simp only [List.mem_cons, not_or]; exact ⟨Ne.symm hc, h⟩
      · right; exact ⟨c :: a, b, rfl, by simp only [List.mem_cons, not_or]; exact ⟨Ne.symm hc, h⟩⟩

theorem means_fun {t o o' : Bytes} (h : Means t o) (h' : Means t o') : o = o' := by
  have a := (means_iff _ _).2 h
  rw [(means_iff _ _).2 h'] at a
  cases a; rfl

theorem app_sep_inj {s : Byte} {a a' b b' : Bytes} (h : a ++ s :: b = a' ++ s :: b') (ha : s ∉ a)
    (ha' : s ∉ a') : a = a' ∧ b = b' := by
  have h1 := (takeWhile_app (b := b) ha).1
  have h2 := (takeWhile_app (b := b) ha).2
  rw [h] at h1 h2
  rw [(takeWhile_app ha').1] at h1
  rw [(takeWhile_app ha').2] at h2
  cases h1; cases h2
  exact ⟨rfl, rfl⟩

theorem procPiece_spec (p : Bytes) (M : TagMap) (h : MapOk M) :
    (∃ M', procPiece p M = (.ok (), M') ∧ MapOk M' ∧
      (∀ x, KeyIn M' x ↔ Means (p.takeWhile (· ≠ 0x3d)) x ∨ KeyIn M x) ∧
      (∀ x y, ValIn M' x y ↔ PieceVal p x y ∨ ValIn M x y)) ∨
    ∃ M', procPiece p M = (.throw .invalidArgument, M') := by
  rcases split_eq p with hp | ⟨a, b, rfl, ha⟩
  · rw [procPiece, (takeWhile_all hp).1, (takeWhile_all hp).2]
    simp only
    rw [tokKey]
    rcases urldecode_cases p with ⟨k, e1, e2⟩ | e
    · rw [e1]
      simp only
      by_cases hf : (mapFind k M).isSome
      · right; exact ⟨M, by rw [if_pos hf]⟩
      · left
        rw [if_neg hf]
        have hn : mapFind k M = none := by simpa using hf
        refine ⟨_, rfl, ?_, ?_, ?_⟩
        · exact mapOk_upd h (fun _ => .nil) fun s hs => .nil
        · intro x
          rw [keyIn_upd]
          constructor
          · rintro (rfl | hh)
            · exact .inl e2
            · exact .inr hh
          · rintro (hh | hh)
            · exact .inl (means_fun hh e2)
            · exact .inr hh
        · intro x y
          rw [valIn_upd h]
          have no : ¬ PieceVal p x y := by
            rintro ⟨a, b, rfl, -⟩
            exact hp (by simp)
          constructor
          · rintro (⟨-, hh⟩ | ⟨-, hh⟩)
            · exact .inr hh
            · cases hh
          · rintro (hh | hh)
            · exact absurd hh no
            · refine .inl ⟨?_, hh⟩
              rintro rfl
              obtain ⟨s, hs, -⟩ := hh
              rw [(mapFind_mem h).2 hs] at hn; cases hn
    · rw [e]; exact .inr ⟨M, rfl⟩
  · rw [procPiece, (takeWhile_app ha).1, (takeWhile_app ha).2]
    simp only
    rcases urldecode_cases a with ⟨k, e1, e2⟩ | e
    · rw [e1]
      simp only
      rcases procVals_spec k (splitOn 0x2c b) M h with ⟨M', f1, f2, f3, f4⟩ | hh
      · left
        refine ⟨M', f1, f2, ?_, ?_⟩
        · intro x
          rw [f3]
          constructor
          · rintro (⟨rfl, -⟩ | hh)
            · exact .inl e2
            · exact .inr hh
          · rintro (hh | hh)
            · exact .inl ⟨means_fun hh e2, splitOn_ne_nil _ _⟩
            · exact .inr hh
        · intro x y
          rw [f4]
          constructor
          · rintro (⟨rfl, hh⟩ | hh)
            · exact .inl ⟨a, b, rfl, ha, e2, hh⟩
            · exact .inr hh
          · rintro (⟨a', b', h1, h2, h3, h4⟩ | hh)
            · obtain ⟨rfl, rfl⟩ := app_sep_inj h1 ha h2
              exact .inl ⟨means_fun h3 e2, h4⟩
            · exact .inr hh
      · exact .inr hh
    · rw [e]; exact .inr ⟨M, rfl⟩

theorem procPieces_spec : ∀ (ps : List Bytes) (M : TagMap), MapOk M →
    (∃ M', procPieces ps M = (.ok (), M') ∧ MapOk M' ∧
      (∀ x, KeyIn M' x ↔ (∃ p ∈ ps, Means (p.takeWhile (· ≠ 0x3d)) x) ∨ KeyIn M x) ∧
      (∀ x y, ValIn M' x y ↔ (∃ p ∈ ps, PieceVal p x y) ∨ ValIn M x y)) ∨
    ∃ M', procPieces ps M = (.throw .invalidArgument, M') := by
  intro ps
  induction ps with
  | nil => intro M h; exact .inl ⟨M, rfl, h, by simp, by simp⟩
  | cons p ps ih =>
    intro M h
    rw [procPieces_cons]
    rcases procPiece_spec p M h with ⟨M1, e1, e2, e3, e4⟩ | ⟨M1, e⟩
    · rw [e1, andThen_ok]
      rcases ih M1 e2 with ⟨M2, f1, f2, f3, f4⟩ | hh
      · left
        refine ⟨M2, f1, f2, ?_, ?_⟩
        · intro x
          rw [f3, e3]
          simp only [List.mem_cons, exists_eq_or_imp]
          constructor
          · rintro (hh | hh | hh) <;> simp only [hh, true_or, or_true]
          · rintro ((hh | hh) | hh) <;> simp only [hh, true_or, or_true]
        · intro x y
          rw [f4, e4]
          simp only [List.mem_cons, exists_eq_or_imp]
          constructor
          · rintro (hh | hh | hh) <;> simp [hh]
          · rintro ((hh | hh) | hh) <;> simp [hh]
      · exact .inr hh
    · right; exact ⟨M1, by rw [e]; rfl⟩

theorem parse_spec (text : Bytes) :
    (∃ M, parseToMap text [] = (.ok (), M) ∧ MapOk M ∧ (∀ x, KeyIn M x ↔ MentionsKey text x) ∧
      (∀ x y, ValIn M x y ↔ MentionsVal text x y)) ∨
    ∃ M, parseToMap text [] = (.throw .invalidArgument, M) := by
  rw [parseToMap_eq]
  rcases procPieces_spec (splitOn 0x26 text) [] MapOk.nil with ⟨M, h1, h2, h3, h4⟩ | h
  · left
    refine ⟨M, h1, h2, ?_, ?_⟩
    · intro x; rw [h3]; simp [KeyIn, MentionsKey]
    · intro x y; rw [h4]; simp [ValIn, MentionsVal, PieceVal]
  · exact .inr h

/-! ## merge -/

theorem procVals_complete (key : Bytes) : ∀ (ws : List Bytes) (M : TagMap),
    (∀ w ∈ ws, ∃ v, Means w v) → ∃ M', procVals key ws M = (.ok (), M') := by
  intro ws
  induction ws with
  | nil => intro M _; exact ⟨M, rfl⟩
  | cons w ws ih =>
    intro M h
    obtain ⟨v, hv⟩ := h w (List.mem_cons_self ..)
    rw [procVals_cons, tokVal, (means_iff _ _).2 hv]
    simp only [andThen_ok]
    exact ih _ fun w hw => h w (List.mem_cons_of_mem _ hw)

theorem procPieces_complete : ∀ (ps : List Bytes) (M : TagMap),
    (∀ p ∈ ps, ∃ a b, p = a ++ 0x3d :: b ∧ 0x3d ∉ a ∧ (∃ k, Means a k) ∧
      ∀ w ∈ splitOn 0x2c b, ∃ v, Means w v) → ∃ M', procPieces ps M = (.ok (), M') := by
  intro ps
  induction ps with
  | nil => intro M _; exact ⟨M, rfl⟩
  | cons p ps ih =>
    intro M h
    obtain ⟨a, b, rfl, ha, ⟨k, hk⟩, hw⟩ := h p (List.mem_cons_self ..)
    rw [procPieces_cons, procPiece, (takeWhile_app ha).1, (takeWhile_app ha).2]
    simp only [(means_iff _ _).2 hk]
    obtain ⟨M', hM'⟩ := procVals_complete k (splitOn 0x2c b) M hw
    rw [hM', andThen_ok]
    exact ih _ fun w hw => h w (List.mem_cons_of_mem _ hw)

theorem parse_complete (text : Bytes)
    (hw : ∀ p ∈ splitOn 0x26 text, ∃ a b, p = a ++ 0x3d :: b ∧ 0x3d ∉ a ∧ (∃ k, Means a k) ∧
      ∀ w ∈ splitOn 0x2c b, ∃ v, Means w v) : ∃ M, parseToMap text [] = (.ok (), M) := by
  rw [parseToMap_eq]; exact procPieces_complete _ _ hw

theorem mergeEntry_spec (T : TagMap) (e : Bytes × List Bytes) (hT : MapOk T) (he : SetOk e.2) :
    MapOk (mergeEntry T e) ∧ (∀ x, KeyIn (mergeEntry T e) x ↔ x = e.1 ∨ KeyIn T x) ∧
    (∀ x y, ValIn (mergeEntry T e) x y ↔ (x = e.1 ∧ y ∈ e.2) ∨ ValIn T x y) := by
  unfold mergeEntry
  split
  · refine ⟨mapOk_upd hT (fun _ => setOk_foldl .nil) fun s hs => setOk_foldl (hT.2 _ hs),
      fun x => keyIn_upd, ?_⟩
    intro x y
    rw [valIn_upd hT, mem_foldl_setInsert, valIn_find hT]
    constructor
    · rintro (⟨-, hh⟩ | ⟨rfl, hh | hh⟩)
      · exact .inr hh
      · exact .inl ⟨rfl, hh⟩
      · exact .inr hh
    · rintro (⟨rfl, hh⟩ | hh)
      · exact .inr ⟨rfl, .inl hh⟩
      · by_cases hx : x = e.1
        · subst hx; exact .inr ⟨rfl, .inr hh⟩
        · exact .inl ⟨hx, hh⟩
  · rename_i hf
    have hn : mapFind e.1 T = none := by simpa using hf
    refine ⟨mapOk_upd hT (fun _ => he) (fun _ _ => he), fun x => keyIn_upd, ?_⟩
    intro x y
    rw [valIn_upd hT]
    constructor
    · rintro (⟨-, hh⟩ | ⟨rfl, hh⟩)
      · exact .inr hh
      · exact .inl ⟨rfl, hh⟩
    · rintro (⟨rfl, hh⟩ | hh)
      · exact .inr ⟨rfl, hh⟩
      · refine .inl ⟨?_, hh⟩
        rintro rfl
        obtain ⟨s, hs, -⟩ := hh
        rw [(mapFind_mem hT).2 hs] at hn; cases hn

theorem foldl_merge_spec (M : TagMap) : ∀ T : TagMap, MapOk T → (∀ e ∈ M, SetOk e.2) →
    MapOk (M.foldl mergeEntry T) ∧ (∀ x, KeyIn (M.foldl mergeEntry T) x ↔ KeyIn M x ∨ KeyIn T x) ∧
    (∀ x y, ValIn (M.foldl mergeEntry T) x y ↔ ValIn M x y ∨ ValIn T x y) := by
  induction M with
  | nil => intro T hT _; exact ⟨hT, by simp [KeyIn], by simp [ValIn]⟩
  | cons e r ih =>
    intro T hT hM
    obtain ⟨a1, a2, a3⟩ := mergeEntry_spec T e hT (hM e (List.mem_cons_self ..))
    obtain ⟨b1, b2, b3⟩ := ih (mergeEntry T e) a1 fun e he => hM e (List.mem_cons_of_mem _ he)
    rw [List.foldl_cons]
    refine ⟨b1, ?_, ?_⟩
    · intro x
      rw [b2, a2]
      have : KeyIn (e :: r) x ↔ x = e.1 ∨ KeyIn r x := by
        unfold KeyIn
        simp only [List.mem_cons]
        constructor
        · rintro ⟨s, rfl | hh⟩
          · exact .inl rfl
          · exact .inr ⟨s, hh⟩
        · rintro (rfl | ⟨s, hh⟩)
          · exact ⟨e.2, .inl rfl⟩
          · exact ⟨s, .inr hh⟩
      rw [this]
      constructor
      · rintro (hh | hh | hh) <;> simp [hh]
      · rintro ((hh | hh) | hh) <;> simp [hh]
    · intro x y
      rw [b3, a3]
      have : ValIn (e :: r) x y ↔ (x = e.1 ∧ y ∈ e.2) ∨ ValIn r x y := by
        unfold ValIn
        simp only [List.mem_cons]
        constructor
        · rintro ⟨s, rfl | hh, h2⟩
          · exact .inl ⟨rfl, h2⟩
          · exact .inr ⟨s, hh, h2⟩
        · rintro (⟨rfl, h2⟩ | ⟨s, hh, h2⟩)
          · exact ⟨e.2, .inl rfl, h2⟩
          · exact ⟨s, .inr hh, h2⟩
      rw [this]
      constructor
      · rintro (hh | hh | hh) <;> simp [hh]
      · rintro ((hh | hh) | hh) <;> simp [hh]

/-! ## text round trip -/

theorem hexDigit_plain {a : Byte} {x : Nat} (h : HexDigit a x) : a ≠ 0x26 ∧ a ≠ 0x3d ∧ a ≠ 0x2c := by
  have : ∀ c : Byte, c.toNat < 48 ∨ c.toNat = 61 → a ≠ c := by
    rintro c hc rfl
    rcases h with ⟨k, h1, h2, -⟩ | ⟨k, h1, h2, -⟩ | ⟨k, h1, h2, -⟩ <;> omega
  exact ⟨this _ (.inl (by decide)), this _ (.inr (by decide)), this _ (.inl (by decide))⟩

theorem encoded_plain {t : Bytes} (h : Encoded t) : ∀ c ∈ t, c ≠ 0x26 ∧ c ≠ 0x3d ∧ c ≠ 0x2c := by
  induction h with
  | nil => simp
  | plain hc _ ih =>
    rename_i c t
    intro d hd
    rcases List.mem_cons.1 hd with rfl | hd
    · refine ⟨?_, ?_, ?_⟩ <;> (rintro rfl; unfold Unreserved at hc; revert hc; decide)
    · exact ih d hd
  | esc ha hb _ ih =>
    intro d hd
    simp only [List.mem_cons] at hd
    rcases hd with rfl | rfl | rfl | hd
    · decide
    · exact hexDigit_plain ha
    · exact hexDigit_plain hb
    · exact ih d hd

theorem urlencode_plain (s : Bytes) : 0x26 ∉ urlencode s ∧ 0x3d ∉ urlencode s ∧ 0x2c ∉ urlencode s := by
  have := encoded_plain (urlencode_decodes s).2
  exact ⟨fun h => (this _ h).1 rfl, fun h => (this _ h).2.1 rfl, fun h => (this _ h).2.2 rfl⟩

theorem urldecode_urlencode (s : Bytes) : urldecode (urlencode s) = .ok s := by
  rw [urldecode_eq]; exact (udec_of_decodes (urlencode_decodes s).1).1

theorem splitOn_encVals : ∀ vs : List Bytes, vs ≠ [] → splitOn 0x2c (encVals vs) = vs.map urlencode
  | [], h => absurd rfl h
  | [v], _ => by rw [encVals, splitOn_none (urlencode_plain v).2.2]; rfl
  | v :: w :: ws, _ => by
    rw [encVals, splitOn_append (urlencode_plain v).2.2, splitOn_encVals (w :: ws) (by simp)]
    · rfl
    · simp

theorem encVals_plain : ∀ vs : List Bytes, 0x26 ∉ encVals vs
  | [] => by simp [encVals]
  | [v] => by rw [encVals]; exact (urlencode_plain v).1
  | v :: w :: ws => by
    rw [encVals]
    · simp only [List.mem_append, List.mem_cons, not_or]
      exact ⟨(urlencode_plain v).1, by decide, encVals_plain (w :: ws)⟩
    · simp

theorem encEntry_plain (e : Bytes × List Bytes) : 0x26 ∉ encEntry e := by
  unfold encEntry
  split
  · simpa using (urlencode_plain e.1).1
  · simp only [List.mem_append, List.mem_cons, not_or]
    exact ⟨(urlencode_plain e.1).1, by decide, encVals_plain e.2⟩

theorem splitOn_urlencoded : ∀ m : TagMap, m ≠ [] →
    splitOn 0x26 (urlencoded.go m) = m.map encEntry
  | [], h => absurd rfl h
  | [e], _ => by rw [urlencoded.go, splitOn_none (encEntry_plain e)]; rfl
  | e :: f :: r, _ => by
    rw [urlencoded.go, splitOn_append (encEntry_plain e), splitOn_urlencoded (f :: r) (by simp)]
    · rfl
    · simp

theorem procVals_enc (key : Bytes) : ∀ (vs done : List Bytes) (M : TagMap),
    (∀ e ∈ M, strLt e.1 key = true) → SetOk (done ++ vs) →
    procVals key (vs.map urlencode) (M ++ [(key, done)]) = (.ok (), M ++ [(key, done ++ vs)]) := by
  intro vs
  induction vs with
  | nil => intro done M _ _; simp [procVals]
  | cons v vs ih =>
    intro done M hM hs
    have h' := List.pairwise_append.1 hs
    rw [List.map_cons, procVals_cons, tokVal, urldecode_urlencode]
    simp only
    have : mapUpd key (setInsert v) (M ++ [(key, done)]) = M ++ [(key, done ++ [v])] := by
      clear ih
      induction M with
      | nil =>
        simp [mapUpd, setInsert_last fun w hw => h'.2.2 w hw v (List.mem_cons_self ..)]
      | cons e r ihM =>
        obtain ⟨k', s⟩ := e
        have hx := hM (k', s) (List.mem_cons_self ..)
        rw [List.cons_append, mapUpd, if_neg (strLt_ne hx).symm, if_neg (by simp [strLt_asymm hx]),
          ihM fun e he => hM e (List.mem_cons_of_mem _ he)]
        rfl
    rw [this, andThen_ok, ih (done ++ [v]) M hM (by simpa [SetOk] using hs)]
    simp

theorem procPiece_enc (e : Bytes × List Bytes) (M : TagMap) (hM : ∀ x ∈ M, strLt x.1 e.1 = true)
    (he : SetOk e.2) : procPiece (encEntry e) M = (.ok (), M ++ [e]) := by
  obtain ⟨k, vs⟩ := e
  have hk := (urlencode_plain k).2.1
  simp only at hM he
  cases vs with
  | nil =>
    unfold encEntry
    simp only [if_true, List.append_nil]
    rw [procPiece, (takeWhile_all hk).1, (takeWhile_all hk).2]
    simp only
    rw [tokKey, urldecode_urlencode]
    simp only
    have hn : mapFind k M = none := by
      clear he
      induction M with
      | nil => rfl
      | cons x r ih =>
        obtain ⟨k', s⟩ := x
        rw [mapFind, if_neg (strLt_ne (hM (k', s) (List.mem_cons_self ..))).symm]
        exact ih fun x hx => hM x (List.mem_cons_of_mem _ hx)
    rw [hn, if_neg (by simp), mapUpd_last hM]
  | cons v vs =>
    unfold encEntry
    rw [if_neg (by simp), procPiece, (takeWhile_app hk).1, (takeWhile_app hk).2]
    simp only
    rw [urldecode_urlencode, splitOn_encVals _ (by simp)]
    simp only
    rw [List.map_cons, procVals_cons, tokVal, urldecode_urlencode]
    simp only
    rw [mapUpd_last hM, andThen_ok]
    exact procVals_enc k vs [v] M hM he

theorem procPieces_enc : ∀ (m M : TagMap), MapOk (M ++ m) →
    procPieces (m.map encEntry) M = (.ok (), M ++ m) := by
  intro m
  induction m with
  | nil => intro M _; simp [procPieces]
  | cons e r ih =>
    intro M h
    have h' := List.pairwise_append.1 h.1
    rw [List.map_cons, procPieces_cons,
      procPiece_enc e M (fun x hx => h'.2.2 x hx e (List.mem_cons_self ..)) (h.2 e (by simp)), andThen_ok,
      ih (M ++ [e]) (by simpa using h)]
    simp

theorem urlencoded_parse (own : Bytes) (m : TagMap) (h : MapOk m) (hne : m ≠ []) :
    ofText own (urlencoded ⟨own, m⟩) = .ok ⟨own, m⟩ := by
  unfold ofText urlencoded
  rw [parseToMap_eq, splitOn_urlencoded m hne, procPieces_enc m [] h]
  rfl

end Scribbu.TagCloud
