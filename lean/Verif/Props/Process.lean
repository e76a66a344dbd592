import Verif.Spec.Process
import Verif.Props.Replace
import Verif.Props.Id3v1

/-! # C43: sub-commands modify only what they were told to -/

namespace Scribbu.Props
open Scribbu Path Backup Replace FM Process Spec

theorem res_bind_ok {r : Res α} {f : α → Res β} {b : β} (h : r.bind f = .ok b) : ∃ a, r = .ok a ∧ f a = .ok b := by
  cases r with
  | ok a => exact ⟨a, rfl, h⟩
  | throw e => cases h
  | ub u => cases h

/-! ## The loop over the tags -/

/-- A tag that the loop has changed is one of those asked for. -/
theorem scopeLoop_within {F : τ → Res (Bool × τ)} {ts : List τ} : ∀ {i : Nat} {ks : List Nat} {d : Bool} {ts' : List τ},
    scopeLoop F i ks ts = .ok (d, ts') → ts'.length = ts.length ∧
    (∀ j t, ts[j]? = some t → ts'[j]? = some t ∨ (i + j ∈ ks ∧ ∃ b t', F t = .ok (b, t') ∧ ts'[j]? = some t')) ∧
    (d = true → ∃ j t t', ts[j]? = some t ∧ i + j ∈ ks ∧ F t = .ok (true, t')) := by
  induction ts with
  | nil => intro i ks d ts' h; cases ks <;> simp [scopeLoop] at h <;> simp [h]
  | cons t ts ih =>
    intro i ks d ts' h
    cases ks with
    | nil => simp [scopeLoop] at h
    | cons k ks =>
      simp only [scopeLoop] at h
      by_cases hk : k = i
      · rw [if_pos hk] at h
        obtain ⟨⟨b, t'⟩, h1, h2⟩ := res_bind_ok h
        obtain ⟨⟨c, r⟩, h3, h4⟩ := res_bind_ok h2
        cases h4
        obtain ⟨h5, h6, h7⟩ := ih h3
        refine ⟨by simp [h5], ?_, ?_⟩
        · intro j x hx
          cases j with
          | zero =>
            simp only [List.getElem?_cons_zero, Option.some.injEq] at hx
            subst hx
            exact .inr ⟨by simp [hk], b, t', h1, by simp⟩
          | succ j =>
            simp only [List.getElem?_cons_succ] at hx ⊢
            rcases h6 j x hx with h8 | ⟨h8, h9⟩
            · exact .inl h8
            · exact .inr ⟨by rw [show i + (j + 1) = i + 1 + j by omega]; exact List.mem_cons_of_mem _ h8, h9⟩
        · intro hd
          cases hb : b with
          | true => exact ⟨0, t, t', by simp, by simp [hk], by rw [h1, hb]⟩
          | false =>
            rw [hb] at hd
            obtain ⟨j, x, x', h8, h9, h10⟩ := h7 (by simpa using hd)
            exact ⟨j + 1, x, x', by simpa using h8, by rw [show i + (j + 1) = i + 1 + j by omega]; exact List.mem_cons_of_mem _ h9, h10⟩
      · rw [if_neg hk] at h
        obtain ⟨⟨c, r⟩, h3, h4⟩ := res_bind_ok h
        cases h4
        obtain ⟨h5, h6, h7⟩ := ih h3
        refine ⟨by simp [h5], ?_, ?_⟩
        · intro j x hx
          cases j with
          | zero =>
            simp only [List.getElem?_cons_zero, Option.some.injEq] at hx
            subst hx
            exact .inl (by simp)
          | succ j =>
            simp only [List.getElem?_cons_succ] at hx ⊢
            rw [show i + (j + 1) = i + 1 + j by omega]
            exact h6 j x hx
        · intro hd
          obtain ⟨j, x, x', h8, h9, h10⟩ := h7 hd
          exact ⟨j + 1, x, x', by simpa using h8, by rw [show i + (j + 1) = i + 1 + j by omega]; exact h9, h10⟩

/-- If the indices are in order and do not run out, the loop processes what was asked for. -/
theorem scopeLoop_exact {F : τ → Res (Bool × τ)} {ts : List τ} : ∀ {i : Nat} {ks : List Nat}, ks.Pairwise (· < ·) →
    (∀ k ∈ ks, i ≤ k) → (ts ≠ [] → ∃ k ∈ ks, i + ts.length ≤ k + 1) →
    (∀ j t, ts[j]? = some t → i + j ∈ ks → ∃ b t', F t = .ok (b, t')) →
    ∃ d ts', scopeLoop F i ks ts = .ok (d, ts') ∧
      (∀ j t, ts[j]? = some t → i + j ∈ ks → ∃ b t', F t = .ok (b, t') ∧ ts'[j]? = some t') ∧
      ∀ j t t', ts[j]? = some t → i + j ∈ ks → F t = .ok (true, t') → d = true := by
  induction ts with
  | nil => intro i ks _ _ _ _; exact ⟨false, [], by cases ks <;> simp [scopeLoop], by simp, by simp⟩
  | cons t ts ih =>
    intro i ks hs hi hl hF
    cases ks with
    | nil => obtain ⟨k, hk, -⟩ := hl (by simp); cases hk
    | cons k ks =>
      have hs2 := List.pairwise_cons.1 hs
      simp only [scopeLoop]
      by_cases hk : k = i
      · subst hk
        obtain ⟨b, t', h1⟩ := hF 0 t (by simp) (by simp)
        obtain ⟨d, ts', h2, h3, h3'⟩ := ih (i := k + 1) (ks := ks) hs2.2 (fun x hx => hs2.1 x hx) (by
          intro hne
          obtain ⟨x, hx, hx2⟩ := hl (by simp)
          have hlen : 0 < ts.length := List.length_pos_iff.2 hne
          simp only [List.length_cons] at hx2
          rcases List.mem_cons.1 hx with rfl | hx
          · omega
          · exact ⟨x, hx, by omega⟩) (fun j x hx hj => hF (j + 1) x (by simpa using hx) (by
            rw [show k + (j + 1) = k + 1 + j by omega]; exact List.mem_cons_of_mem _ hj))
        refine ⟨b || d, t' :: ts', by rw [if_pos rfl, h1, Res.ok_bind]; simp only; rw [h2]; rfl, ?_, ?_⟩
        · intro j x hx hj
          cases j with
          | zero =>
            simp only [List.getElem?_cons_zero, Option.some.injEq] at hx
            subst hx
            exact ⟨b, t', h1, by simp⟩
          | succ j =>
            simp only [List.getElem?_cons_succ] at hx ⊢
            rw [show k + (j + 1) = k + 1 + j by omega] at hj
            rcases List.mem_cons.1 hj with h4 | h4
            · omega
            · exact h3 j x hx h4
        · intro j x x' hx hj hF
          cases j with
          | zero =>
            simp only [List.getElem?_cons_zero, Option.some.injEq] at hx
            subst hx
            rw [h1] at hF
            cases hF
            rfl
          | succ j =>
            simp only [List.getElem?_cons_succ] at hx
            rw [show k + (j + 1) = k + 1 + j by omega] at hj
            rcases List.mem_cons.1 hj with h4 | h4
            · omega
            · rw [h3' j x x' hx h4 hF, Bool.or_true]
      · have hik := hi k (by simp)
        obtain ⟨d, ts', h2, h3, h3'⟩ := ih (i := i + 1) (ks := k :: ks) hs (by
          intro x hx
          rcases List.mem_cons.1 hx with rfl | hx
          · omega
          · have := hs2.1 x hx; omega) (by
          intro hne
          obtain ⟨x, hx, hx2⟩ := hl (by simp)
          simp only [List.length_cons] at hx2
          exact ⟨x, hx, by omega⟩) (fun j x hx hj => hF (j + 1) x (by simpa using hx) (by
            rw [show i + (j + 1) = i + 1 + j by omega]; exact hj))
        refine ⟨d, t :: ts', by rw [if_neg hk, h2]; rfl, ?_, ?_⟩
        · intro j x hx hj
          cases j with
          | zero =>
            rcases List.mem_cons.1 hj with h4 | h4
            · omega
            · have := hs2.1 _ h4; omega
          | succ j =>
            simp only [List.getElem?_cons_succ] at hx ⊢
            rw [show i + (j + 1) = i + 1 + j by omega] at hj
            exact h3 j x hx hj
        · intro j x x' hx hj hF
          cases j with
          | zero =>
            rcases List.mem_cons.1 hj with h4 | h4
            · omega
            · have := hs2.1 _ h4; omega
          | succ j =>
            simp only [List.getElem?_cons_succ] at hx
            rw [show i + (j + 1) = i + 1 + j by omega] at hj
            exact h3' j x x' hx hj hF

theorem indices_scope {P : Processor τ} {n i : Nat} (hn : P.v2Scope ≠ .none) (hi : i < n) :
    i ∈ indices n P.v2Scope ↔ InScope P i := by
  unfold indices InScope
  cases h : P.v2Scope with
  | all => simp [hi]
  | none => exact absurd h hn
  | some tags => simp

/-! ## What becomes of the tags -/

/-- The ID3v2 tags when the code gets as far as writing. -/
theorem editV2_spec {P : Processor τ} {v2 : List τ} {v1 : Option V1Tag} {d : Bool} {v2' : List τ} {new : Option τ}
    (h : editV2 P v2 v1 = .ok (d, v2', new)) : v2'.length = v2.length ∧
    (∀ i t, v2[i]? = some t → v2'[i]? = some t ∨ (InScope P i ∧ ∃ b t', P.processV2 t = .ok (b, t') ∧ v2'[i]? = some t')) ∧
    ((new = none ∧ ¬ (v2 = [] ∧ MayCreate P.v2Create (v1 ≠ none))) ∨
     ∃ t, new = some t ∧ v2 = [] ∧ MayCreate P.v2Create (v1 ≠ none) ∧
      ((v1 = none ∧ P.createV2 = .ok t) ∨ ∃ o, v1 = some o ∧ P.createV2From o = .ok t)) ∧
    (d = true → (∃ i t t', v2[i]? = some t ∧ InScope P i ∧ P.processV2 t = .ok (true, t')) ∨
      (v2 = [] ∧ MayCreate P.v2Create (v1 ≠ none))) := by
  cases v2 with
  | nil =>
    cases v1 with
    | some o =>
      simp only [editV2] at h
      by_cases hc : P.v2Create = .never
      · rw [if_neg (by simpa using hc)] at h
        cases h
        exact ⟨rfl, by simp, .inl ⟨rfl, by simp [MayCreate, hc]⟩, by simp⟩
      · rw [if_pos hc] at h
        obtain ⟨t, h1, h2⟩ := res_bind_ok h
        cases h2
        have hm : MayCreate P.v2Create (some o ≠ none) := by unfold MayCreate; cases hx : P.v2Create <;> simp_all
        exact ⟨rfl, by simp, .inr ⟨t, rfl, rfl, hm, .inr ⟨o, rfl, h1⟩⟩, fun _ => .inr ⟨rfl, hm⟩⟩
    | none =>
      simp only [editV2] at h
      by_cases hc : P.v2Create = .always
      · rw [if_pos hc] at h
        obtain ⟨t, h1, h2⟩ := res_bind_ok h
        cases h2
        exact ⟨rfl, by simp, .inr ⟨t, rfl, rfl, .inl hc, .inl ⟨rfl, h1⟩⟩, fun _ => .inr ⟨rfl, .inl hc⟩⟩
      · rw [if_neg hc] at h
        cases h
        exact ⟨rfl, by simp, .inl ⟨rfl, by simp [MayCreate, hc]⟩, by simp⟩
  | cons t ts =>
    simp only [editV2] at h
    by_cases hn : P.v2Scope = .none
    · rw [if_pos hn] at h
      cases h
      exact ⟨rfl, fun i x hx => .inl hx, .inl ⟨rfl, by simp⟩, by simp⟩
    · rw [if_neg hn] at h
      obtain ⟨⟨d', r⟩, h1, h2⟩ := res_bind_ok h
      cases h2
      obtain ⟨h3, h4, h5⟩ := scopeLoop_within h1
      have hin : ∀ j x, (t :: ts)[j]? = some x → 0 + j ∈ indices (t :: ts).length P.v2Scope → InScope P j := by
        intro j x hx hj
        rw [Nat.zero_add] at hj
        exact (indices_scope hn (List.getElem?_eq_some_iff.1 hx).1).1 hj
      refine ⟨h3, ?_, .inl ⟨rfl, by simp⟩, ?_⟩
      · intro j x hx
        rcases h4 j x hx with h6 | ⟨h6, h7⟩
        · exact .inl h6
        · exact .inr ⟨hin j x hx h6, h7⟩
      · intro hd
        obtain ⟨j, x, x', h6, h7, h8⟩ := h5 hd
        exact .inl ⟨j, x, x', h6, hin j x h6 h7, h8⟩

theorem editV1_spec {P : Processor τ} {v2 v2' : List τ} {v1 : Option V1Tag} {d : Bool} {v1' : Option V1Tag}
    (hl : v2'.length = v2.length) (h : editV1 P v2' v1 = .ok (d, v1')) : V1After P v2 v2' v1 v1' ∧
    (d = true → (∃ t t', v1 = some t ∧ P.v1Scope = true ∧ P.processV1 t = .ok (true, t')) ∨
      (v1 = none ∧ MayCreate P.v1Create (v2 ≠ []))) := by
  have hemp : v2'.isEmpty = true ↔ v2 = [] := by
    rw [List.isEmpty_iff]
    constructor
    · rintro rfl; exact List.eq_nil_of_length_eq_zero hl.symm
    · rintro rfl; exact List.eq_nil_of_length_eq_zero hl
  cases v1 with
  | none =>
    simp only [editV1] at h
    by_cases hv : v2 = []
    · have he := hemp.2 hv
      rw [if_neg (by simp [he])] at h
      by_cases hc : P.v1Create = .always
      · rw [if_pos ⟨he, hc⟩] at h
        obtain ⟨t, h1, h2⟩ := res_bind_ok h
        cases h2
        refine ⟨⟨by simp, by simp, ?_, ?_⟩, fun _ => .inr ⟨rfl, .inl hc⟩⟩
        · intro _ hn; exact absurd (.inl hc) hn
        · intro _ _; exact ⟨t, rfl, .inl ⟨hv, h1⟩⟩
      · rw [if_neg (fun x => hc x.2)] at h
        cases h
        refine ⟨⟨by simp, by simp, fun _ _ => rfl, ?_⟩, by simp⟩
        intro _ hm
        rcases hm with hm | ⟨-, hm⟩
        · exact absurd hm hc
        · exact absurd hv hm
    · have he : v2'.isEmpty = false := by
        cases hx : v2'.isEmpty with
        | false => rfl
        | true => exact absurd (hemp.1 hx) hv
      by_cases hc : P.v1Create = .never
      · rw [if_neg (fun x => x.2 hc), if_neg (by simp [he])] at h
        cases h
        refine ⟨⟨by simp, by simp, fun _ _ => rfl, ?_⟩, by simp⟩
        intro _ hm
        rcases hm with hm | ⟨hm, -⟩ <;> rw [hc] at hm <;> cases hm
      · rw [if_pos ⟨by simp [he], hc⟩] at h
        obtain ⟨t, h1, h2⟩ := res_bind_ok h
        cases h2
        have hm : MayCreate P.v1Create (v2 ≠ []) := by unfold MayCreate; cases hx : P.v1Create <;> simp_all
        refine ⟨⟨by simp, by simp, ?_, ?_⟩, fun _ => .inr ⟨rfl, hm⟩⟩
        · intro _ hn; exact absurd hm hn
        · intro _ _; exact ⟨t, rfl, .inr ⟨hv, h1⟩⟩
  | some t =>
    simp only [editV1] at h
    cases hs : P.v1Scope with
    | true =>
      rw [hs, if_pos rfl] at h
      obtain ⟨⟨b, t'⟩, h1, h2⟩ := res_bind_ok h
      cases h2
      refine ⟨⟨?_, by simp [hs], by simp, by simp⟩, ?_⟩
      · intro x hx _; cases hx; exact ⟨_, _, h1, rfl⟩
      · intro hd; simp only at hd; exact .inl ⟨t, t', rfl, rfl, by rw [h1, hd]⟩
    | false =>
      rw [hs] at h
      cases h
      exact ⟨⟨by simp [hs], by rintro x hx -; exact hx, by simp, by simp⟩, by simp⟩

/-- **C43** (what is touched): whatever the indices, if the code gets as far as writing, a tag not asked for is as it was, a tag asked
for is as it was or processed; a tag is added only as the policies say; the ID3v1 tag is as the policies say; and there is
something to write only for one of the reasons there may be. -/
theorem C43_tags (P : Processor τ) (v2 : List τ) (v1 : Option V1Tag) (d : Bool) (v2' : List τ) (v1' : Option V1Tag)
    (h : edit P v2 v1 = .ok (d, v2', v1')) :
    (∀ i t, v2[i]? = some t → v2'[i]? = some t ∨ (InScope P i ∧ ∃ b t', P.processV2 t = .ok (b, t') ∧ v2'[i]? = some t')) ∧
    (¬ (v2 = [] ∧ MayCreate P.v2Create (v1 ≠ none)) → v2'.length = v2.length) ∧
    (v2 = [] ∧ MayCreate P.v2Create (v1 ≠ none) →
      ∃ t, v2' = [t] ∧ ((v1 = none ∧ P.createV2 = .ok t) ∨ ∃ o, v1 = some o ∧ P.createV2From o = .ok t)) ∧
    V1After P v2 (v2'.take v2.length) v1 v1' ∧ (d = true → Reason P v2 v1) := by
  unfold edit at h
  obtain ⟨⟨d2, w, new⟩, h1, h2⟩ := res_bind_ok h
  obtain ⟨⟨d1, o⟩, h3, h4⟩ := res_bind_ok h2
  cases h4
  obtain ⟨h5, h6, h7, h8⟩ := editV2_spec h1
  obtain ⟨h9, h10⟩ := editV1_spec h5 h3
  refine ⟨?_, ?_, ?_, ?_, ?_⟩
  · intro i t ht
    have hi : i < w.length := by have := (List.getElem?_eq_some_iff.1 ht).1; omega
    rw [List.getElem?_append_left hi]
    exact h6 i t ht
  · intro hn
    rcases h7 with ⟨rfl, -⟩ | ⟨t, -, h11, h12, -⟩
    · simp [h5]
    · exact absurd ⟨h11, h12⟩ hn
  · intro hm
    rcases h7 with ⟨-, hn⟩ | ⟨t, rfl, h11, -, h13⟩
    · exact absurd hm hn
    · have : w = [] := List.eq_nil_of_length_eq_zero (by rw [h5, h11]; rfl)
      subst this
      exact ⟨t, rfl, h13⟩
  · rw [← h5, List.take_left']
    · exact h9
    · rfl
  · intro hd
    rw [Bool.or_eq_true] at hd
    unfold Reason
    rcases hd with hd | hd
    · rcases h8 hd with h11 | h11
      · exact .inl h11
      · exact .inr (.inl h11)
    · rcases h10 hd with h11 | h11
      · exact .inr (.inr (.inl h11))
      · exact .inr (.inr (.inr h11))

/-- **C43** (dry run): with the dry-run flag, no file is ever changed. -/
theorem C43_dry_run (I : TagI τ) (mk2 mk3 mk4 : Id3v2Info → SM τ) (P : Processor τ) (e : Env) (pth : Path) (s : FS)
    (hd : P.dryRun = true) :
    (processFile I mk2 mk3 mk4 P e pth s).seen = [] ∧ (processFile I mk2 mk3 mk4 P e pth s).fs = s := by
  have hw : ∀ d v2 v1, writeTagset I P e pth d v2 v1 = pure () := by
    intro d v2 v1
    unfold writeTagset
    rw [hd]
    cases d <;> rfl
  have key : Holds (processFile I mk2 mk3 mk4 P e pth) (· = s) (fun _ => False) (fun _ x => x = s) := by
    unfold processFile
    refine Holds.bind (mid := fun _ x => x = s) (Holds.look _ (fun x hx => hx)) ?_
    intro old
    refine Holds.bind (mid := fun _ x => x = s) (Holds.lift _ ?_) ?_
    · rintro x rfl; cases readTagset mk2 mk3 mk4 old <;> rfl
    intro r
    refine Holds.bind (mid := fun _ x => x = s) (Holds.lift _ ?_) ?_
    · rintro x rfl; cases edit P r.1 r.2 <;> rfl
    intro w
    rw [hw]
    exact Holds.pure _ (fun x hx => hx)
  obtain ⟨h1, h2⟩ := key s rfl
  refine ⟨?_, h2⟩
  cases hs : (processFile I mk2 mk3 mk4 P e pth s).seen with
  | nil => rfl
  | cons x xs => exact absurd (h1 x (by rw [hs]; simp)) (by simp)

/-- **C43** (no reason, no change): if any file is changed, be it for a moment, then not in a dry run, and the tags of the file could be
read and there was a reason: a tag in scope reported a change, or a tag was to be created. -/
theorem C43_reason (I : TagI τ) (mk2 mk3 mk4 : Id3v2Info → SM τ) (P : Processor τ) (e : Env) (pth : Path) (s : FS)
    (h : (processFile I mk2 mk3 mk4 P e pth s).seen ≠ [] ∨ (processFile I mk2 mk3 mk4 P e pth s).fs ≠ s) :
    P.dryRun = false ∧ ∃ v2 v1, readTagset mk2 mk3 mk4 (s.get (absolute e.cwd pth)) = .ok (v2, v1) ∧ Reason P v2 v1 := by
  refine ⟨?_, ?_⟩
  · cases hd : P.dryRun with
    | false => rfl
    | true =>
      obtain ⟨h1, h2⟩ := C43_dry_run I mk2 mk3 mk4 P e pth s hd
      rcases h with h | h
      · exact absurd h1 h
      · exact absurd h2 h
  · have hu : processFile I mk2 mk3 mk4 P e pth s =
        FM.bind (FM.lift (readTagset mk2 mk3 mk4 (s.get (absolute e.cwd pth)))) (fun r => FM.bind (FM.lift (edit P r.1 r.2))
          fun w => writeTagset I P e pth w.1 w.2.1 w.2.2) s := rfl
    rw [hu] at h
    cases hr : readTagset mk2 mk3 mk4 (s.get (absolute e.cwd pth)) with
    | throw x => rw [hr] at h; simp [FM.bind, FM.lift] at h
    | ub u => rw [hr] at h; simp [FM.bind, FM.lift] at h
    | ok r =>
      obtain ⟨v2, v1⟩ := r
      refine ⟨v2, v1, rfl, ?_⟩
      cases he : edit P v2 v1 with
      | throw x => rw [hr] at h; simp [FM.bind, FM.lift, he] at h
      | ub u => rw [hr] at h; simp [FM.bind, FM.lift, he] at h
      | ok w =>
        obtain ⟨d, v2', v1'⟩ := w
        cases d with
        | true => exact (C43_tags P v2 v1 true v2' v1' he).2.2.2.2 rfl
        | false =>
          rw [hr] at h
          simp [FM.bind, FM.lift, he, writeTagset] at h
          rcases h with h | h
          · exact absurd rfl h
          · exact absurd rfl h

/-- **C43** as claimed: a sub-command that can process every tag (and create any) processes those in scope, leaves the others
alone, creates those that are to be created and no others, and has something to write only if there is a reason. -/
def C43_claim : Prop := ∀ (τ : Type) (P : Processor τ) (v2 : List τ) (v1 : Option V1Tag),
  (∀ t, ∃ b t', P.processV2 t = .ok (b, t')) → (∀ t, ∃ b t', P.processV1 t = .ok (b, t')) →
  (∀ l, ∃ t, P.createV1From l = .ok t) → (∃ t, P.createV1 = .ok t) → (∀ o, ∃ t, P.createV2From o = .ok t) →
  (∃ t, P.createV2 = .ok t) →
  ∃ d v2' v1', edit P v2 v1 = .ok (d, v2', v1') ∧ TagsAfter P v2 v1 v2' ∧ V1After P v2 (v2'.take v2.length) v1 v1' ∧
    (d = true ↔ Reason P v2 v1)

/-- A sub-command that adds one to every tag it is told to (tags are numbers here), and may be told only which. -/
def countUp (scope : V2Scope) : Processor Nat where
  v2Scope := scope
  v1Scope := true
  v2Create := .never
  v1Create := .never
  dryRun := false
  adjustUnsync := false
  createBackups := false
  createV1From _ := .ok (V1Tag.scratch false false)
  createV1 := .ok (V1Tag.scratch false false)
  createV2From _ := .ok 0
  createV2 := .ok 0
  processV1 t := .ok (false, t)
  processV2 n := .ok (true, n + 1)

theorem countUp_out (scope : V2Scope) : (∀ t, ∃ b t', (countUp scope).processV2 t = .ok (b, t')) ∧
    (∀ t, ∃ b t', (countUp scope).processV1 t = .ok (b, t')) ∧ (∀ l, ∃ t, (countUp scope).createV1From l = .ok t) ∧
    (∃ t, (countUp scope).createV1 = .ok t) ∧ (∀ o, ∃ t, (countUp scope).createV2From o = .ok t) ∧
    (∃ t, (countUp scope).createV2 = .ok t) :=
  ⟨fun _ => ⟨_, _, rfl⟩, fun _ => ⟨_, _, rfl⟩, fun _ => ⟨_, rfl⟩, ⟨_, rfl⟩, fun _ => ⟨_, rfl⟩, ⟨_, rfl⟩⟩

/-- C43 is refuted: told to process the first tag of a file with two, the code looks at the front of an empty queue. -/
theorem C43_refuted : ¬ C43_claim := by
  intro h
  obtain ⟨h1, h2, h3, h4, h5, h6⟩ := countUp_out (.some [0])
  obtain ⟨d, v2', v1', h7, -⟩ := h Nat (countUp (.some [0])) [10, 20] none h1 h2 h3 h4 h5 h6
  cases h7

/-- The loop when the indices are in order and run out. -/
theorem scopeLoop_short {F : τ → Res (Bool × τ)} {ts : List τ} : ∀ {i : Nat} {ks : List Nat}, ks.Pairwise (· < ·) →
    (∀ k ∈ ks, i ≤ k ∧ k + 1 < i + ts.length) → ts ≠ [] → (∀ t ∈ ts, ∃ b t', F t = .ok (b, t')) →
    scopeLoop F i ks ts = .ub .emptyContainer := by
  induction ts with
  | nil => intro i ks _ _ h; exact absurd rfl h
  | cons t ts ih =>
    intro i ks hs hi _ hF
    cases ks with
    | nil => rfl
    | cons k ks =>
      have hs2 := List.pairwise_cons.1 hs
      have hk0 := hi k (by simp)
      have hne : ts ≠ [] := by
        rintro rfl
        simp at hk0
        omega
      have hF' := fun x hx => hF x (List.mem_cons_of_mem t hx)
      simp only [scopeLoop]
      by_cases hk : k = i
      · obtain ⟨b, t', h1⟩ := hF t (by simp)
        rw [if_pos hk, h1, Res.ok_bind]
        simp only
        rw [ih hs2.2 (fun x hx => by
          have h2 := hs2.1 x hx
          have h3 := hi x (List.mem_cons_of_mem _ hx)
          simp only [List.length_cons] at h3
          omega) hne hF']
        rfl
      · rw [if_neg hk, ih hs (fun x hx => by
          have h3 := hi x hx
          simp only [List.length_cons] at h3
          rcases List.mem_cons.1 hx with rfl | hx
          · omega
          · have := hs2.1 x hx
            omega) hne hF']
        rfl

/-- So it is whenever the indices run out before the tags do, whatever the sub-command: undefined behaviour for every file with
more tags than the last index says. -/
theorem C43_refuted_short (P : Processor τ) (v2 : List τ) (v1 : Option V1Tag) (tags : List Nat) (hs : P.v2Scope = .some tags)
    (ho : tags.Pairwise (· < ·)) (hl : ∀ k ∈ tags, k + 1 < v2.length) (hv : v2 ≠ [])
    (hF : ∀ t ∈ v2, ∃ b t', P.processV2 t = .ok (b, t')) : edit P v2 v1 = .ub .emptyContainer := by
  cases v2 with
  | nil => exact absurd rfl hv
  | cons t ts =>
    unfold edit editV2
    simp only
    rw [if_neg (by rw [hs]; simp), hs]
    show ((scopeLoop P.processV2 0 tags (t :: ts)).bind _).bind _ = _
    rw [scopeLoop_short ho (fun k hk => ⟨Nat.zero_le _, by have := hl k hk; omega⟩) (by simp) hF]
    rfl

example : (countUp (.some [0, 2])).v2Scope = .some [0, 2] ∧ [0, 2].Pairwise (· < ·) ∧ ∀ k ∈ [0, 2], k + 1 < [10, 20, 30, 40].length := by
  decide

/-- Indices that are not in order are passed over: told to process the second tag and the first, the code processes the second only. -/
theorem C43_refuted_order : edit (countUp (.some [1, 0])) [10, 20] none = .ok (true, [10, 21], none) ∧
    ∀ v2', TagsAfter (countUp (.some [1, 0])) [10, 20] none v2' → v2' ≠ [10, 21] := by
  refine ⟨by rfl, ?_⟩
  rintro v2' ⟨h, -⟩ rfl
  obtain ⟨b, t', h1, h2⟩ := h 0 10 rfl (by simp [InScope, countUp])
  cases h1
  cases h2

/-- The part of C43 that holds: either all the tags are asked for, or none, or the indices are given in increasing order and the last of
them is that of the last tag, or a larger one; and what there is to process or create can be. -/
theorem C43_partial (P : Processor τ) (v2 : List τ) (v1 : Option V1Tag)
    (hF : ∀ i t, v2[i]? = some t → InScope P i → ∃ b t', P.processV2 t = .ok (b, t'))
    (hG : ∀ t, v1 = some t → P.v1Scope = true → ∃ b t', P.processV1 t = .ok (b, t'))
    (h1 : v1 = none → v2 ≠ [] → P.v1Create ≠ .never → ∀ l, l.length = v2.length → ∃ t, P.createV1From l = .ok t)
    (h2 : v1 = none → v2 = [] → P.v1Create = .always → ∃ t, P.createV1 = .ok t)
    (h3 : ∀ o, v1 = some o → v2 = [] → P.v2Create ≠ .never → ∃ t, P.createV2From o = .ok t)
    (h4 : v1 = none → v2 = [] → P.v2Create = .always → ∃ t, P.createV2 = .ok t)
    (ho : ∀ tags, P.v2Scope = .some tags → tags.Pairwise (· < ·) ∧ (v2 ≠ [] → ∃ k ∈ tags, v2.length ≤ k + 1)) :
    ∃ d v2' v1', edit P v2 v1 = .ok (d, v2', v1') ∧ TagsAfter P v2 v1 v2' ∧ V1After P v2 (v2'.take v2.length) v1 v1' ∧
      (d = true ↔ Reason P v2 v1) := by
  -- the ID3v2 tags
  have e2 : ∃ d w new, editV2 P v2 v1 = .ok (d, w, new) ∧ w.length = v2.length ∧
      (∀ i t, v2[i]? = some t → InScope P i → ∃ b t', P.processV2 t = .ok (b, t') ∧ w[i]? = some t') ∧
      ((∃ i t t', v2[i]? = some t ∧ InScope P i ∧ P.processV2 t = .ok (true, t')) ∨
        (v2 = [] ∧ MayCreate P.v2Create (v1 ≠ none)) → d = true) := by
    cases v2 with
    | nil =>
      cases v1 with
      | some o =>
        simp only [editV2]
        by_cases hc : P.v2Create ≠ .never
        · obtain ⟨t, ht⟩ := h3 o rfl rfl hc
          rw [if_pos hc, ht]; exact ⟨_, _, _, rfl, rfl, by simp, fun _ => rfl⟩
        · rw [if_neg hc]; exact ⟨_, _, _, rfl, rfl, by simp, by simp at hc; simp [MayCreate, hc]⟩
      | none =>
        simp only [editV2]
        by_cases hc : P.v2Create = .always
        · obtain ⟨t, ht⟩ := h4 rfl rfl hc
          rw [if_pos hc, ht]; exact ⟨_, _, _, rfl, rfl, by simp, fun _ => rfl⟩
        · rw [if_neg hc]; exact ⟨_, _, _, rfl, rfl, by simp, by simp [MayCreate, hc]⟩
    | cons t ts =>
      simp only [editV2]
      by_cases hn : P.v2Scope = .none
      · rw [if_pos hn]
        refine ⟨_, _, _, rfl, rfl, by intro i x _ hx; simp [InScope, hn] at hx, ?_⟩
        rintro (⟨i, x, x', -, hx, -⟩ | ⟨hx, -⟩)
        · simp [InScope, hn] at hx
        · cases hx
      · rw [if_neg hn]
        have hord : (indices (t :: ts).length P.v2Scope).Pairwise (· < ·) ∧
            ∃ k ∈ indices (t :: ts).length P.v2Scope, 0 + (t :: ts).length ≤ k + 1 := by
          cases hsc : P.v2Scope with
          | none => exact absurd hsc hn
          | all =>
            refine ⟨List.pairwise_lt_range, ts.length, ?_, by simp⟩
            simp [indices]
          | some tags =>
            obtain ⟨h5, h6⟩ := ho tags hsc
            obtain ⟨k, hk, hk2⟩ := h6 (by simp)
            exact ⟨h5, k, hk, by omega⟩
        obtain ⟨d, w, h5, h6, h6'⟩ := scopeLoop_exact (F := P.processV2) (ts := t :: ts) (i := 0) hord.1 (fun _ _ => Nat.zero_le _)
          (fun _ => hord.2) (fun j x hx hj => hF j x hx ((indices_scope hn (List.getElem?_eq_some_iff.1 hx).1).1 (by simpa using hj)))
        refine ⟨d, w, none, by rw [h5]; rfl, (scopeLoop_within h5).1, ?_, ?_⟩
        · intro i x hx hi
          exact h6 i x hx (by rw [Nat.zero_add]; exact (indices_scope hn (List.getElem?_eq_some_iff.1 hx).1).2 hi)
        · rintro (⟨i, x, x', hx, hi, hF⟩ | ⟨hx, -⟩)
          · exact h6' i x x' hx (by rw [Nat.zero_add]; exact (indices_scope hn (List.getElem?_eq_some_iff.1 hx).1).2 hi) hF
          · cases hx
  obtain ⟨d2, w, new, h5, hwl, h6, hd2⟩ := e2
  -- the ID3v1 tag
  have hwe : w.isEmpty = true ↔ v2 = [] := by
    rw [List.isEmpty_iff]
    constructor
    · rintro rfl; exact List.eq_nil_of_length_eq_zero hwl.symm
    · rintro rfl; exact List.eq_nil_of_length_eq_zero hwl
  have e1 : ∃ d o, editV1 P w v1 = .ok (d, o) ∧ ((∃ t t', v1 = some t ∧ P.v1Scope = true ∧ P.processV1 t = .ok (true, t')) ∨
      (v1 = none ∧ MayCreate P.v1Create (v2 ≠ [])) → d = true) := by
    cases v1 with
    | none =>
      simp only [editV1]
      by_cases hc : !w.isEmpty ∧ P.v1Create ≠ .never
      · obtain ⟨t, ht⟩ := h1 rfl (by
          rintro rfl
          have : w = [] := List.eq_nil_of_length_eq_zero (by simpa using hwl)
          subst this
          exact absurd hc.1 (by simp)) hc.2 w hwl
        rw [if_pos hc, ht]; exact ⟨_, _, rfl, fun _ => rfl⟩
      · rw [if_neg hc]
        by_cases hc' : w.isEmpty ∧ P.v1Create = .always
        · obtain ⟨t, ht⟩ := h2 rfl (List.eq_nil_of_length_eq_zero (by rw [← hwl]; simpa using hc'.1)) hc'.2
          rw [if_pos hc', ht]; exact ⟨_, _, rfl, fun _ => rfl⟩
        · rw [if_neg hc']
          refine ⟨_, _, rfl, ?_⟩
          rintro (⟨t, t', hx, -⟩ | ⟨-, hm⟩)
          · cases hx
          · by_cases hv : v2 = []
            · rcases hm with hm | ⟨-, hm⟩
              · exact absurd ⟨hwe.2 hv, hm⟩ hc'
              · exact absurd hv hm
            · have : w.isEmpty = false := by
                cases hx : w.isEmpty with
                | false => rfl
                | true => exact absurd (hwe.1 hx) hv
              refine absurd ⟨by simp [this], ?_⟩ hc
              rcases hm with hm | ⟨hm, -⟩ <;> rw [hm] <;> simp
    | some t =>
      simp only [editV1]
      cases hs : P.v1Scope with
      | true =>
        obtain ⟨b, t', ht⟩ := hG t rfl hs
        rw [if_pos rfl, ht]
        refine ⟨_, _, rfl, ?_⟩
        rintro (⟨x, x', hx, -, hp⟩ | ⟨hx, -⟩)
        · cases hx
          rw [ht] at hp
          cases hp
          rfl
        · cases hx
      | false =>
        refine ⟨_, _, rfl, ?_⟩
        rintro (⟨x, x', -, hx, -⟩ | ⟨hx, -⟩) <;> cases hx
  obtain ⟨d1, o, h7, hd1⟩ := e1
  have hed : edit P v2 v1 = .ok (d2 || d1, w ++ new.toList, o) := by
    unfold edit
    rw [h5, Res.ok_bind]
    simp only
    rw [h7]
    rfl
  obtain ⟨h8, h9, h10, h11, h12⟩ := C43_tags P v2 v1 _ _ _ hed
  refine ⟨_, _, _, hed, ⟨?_, ?_, h9, h10⟩, h11, h12, ?_⟩
  · intro i t ht hi
    obtain ⟨b, t', hb, hw⟩ := h6 i t ht hi
    have hl : i < w.length := (List.getElem?_eq_some_iff.1 hw).1
    exact ⟨b, t', hb, by rw [List.getElem?_append_left hl]; exact hw⟩
  · intro i t ht hi
    rcases h8 i t ht with h13 | ⟨h13, -⟩
    · exact h13
    · exact absurd h13 hi
  · rintro (h13 | h13 | h13 | h13)
    · rw [hd2 (.inl h13), Bool.true_or]
    · rw [hd2 (.inr h13), Bool.true_or]
    · rw [hd1 (.inl h13), Bool.or_true]
    · rw [hd1 (.inr h13), Bool.or_true]

example : edit (countUp (.some [0, 2])) [10, 20, 30] none = .ok (true, [11, 20, 31], none) := by rfl
example : edit (countUp .all) [10, 20, 30] none = .ok (true, [11, 21, 31], none) := by rfl
example : edit { countUp .none with v2Create := .whenOther } [] (some (V1Tag.scratch false false)) =
    .ok (true, [0], some (V1Tag.scratch false false)) := by rfl

/-! ## The files -/

/-- A file that has nothing to do with it: not the file, no backup of it, not the temporary file. -/
def Apart (e : Env) (pth q : Path) : Prop := q ≠ absolute e.cwd pth ∧ q ≠ e.tmp ∧ ∀ n, q ≠ absolute e.cwd pth ++ dot :: dec n

theorem overwrite_holds (p : Path) (new : Bytes) {pre inv : FS → Prop} {post : Res Unit → FS → Prop}
    (h1 : ∀ s c, pre s → inv (s.put p c)) (h2 : ∀ s, pre s → s.get p ≠ none → post (.ok ()) (s.put p new))
    (h3 : ∀ s, pre s → post (.throw .streamFailure) s) : Holds (overwrite p new) pre inv post := by
  intro s hs
  unfold overwrite
  cases hg : s.get p with
  | none => exact ⟨by simp, h3 s hs⟩
  | some old =>
    refine ⟨?_, h2 s hs (by simp [hg])⟩
    intro x hx
    obtain ⟨i, -, rfl⟩ := List.mem_map.1 hx
    exact h1 s _ hs

theorem append_holds (p : Path) (b : Bytes) {pre inv : FS → Prop} {post : Res Unit → FS → Prop}
    (h1 : ∀ s c, pre s → inv (s.put p c)) (h2 : ∀ s old, pre s → s.get p = some old → post (.ok ()) (s.put p (old ++ b)))
    (h3 : ∀ s, pre s → s.get p = none → post (.ok ()) (s.put p b)) : Holds (Process.append p b) pre inv post := by
  intro s hs
  unfold Process.append
  cases hg : s.get p with
  | none =>
    refine ⟨?_, h3 s hs hg⟩
    intro x hx
    obtain ⟨i, -, rfl⟩ := List.mem_map.1 hx
    exact h1 s _ hs
  | some old =>
    refine ⟨?_, h2 s old hs hg⟩
    intro x hx
    obtain ⟨i, -, rfl⟩ := List.mem_map.1 hx
    exact h1 s _ hs

theorem truncate_holds (p : Path) (n : Nat) {pre inv : FS → Prop} {post : Res Unit → FS → Prop}
    (h1 : ∀ s c, pre s → inv (s.put p c)) (h2 : ∀ s old, pre s → s.get p = some old → post (.ok ()) (s.put p (old.take n)))
    (h3 : ∀ s, pre s → post (.throw .fsError) s) : Holds (truncate p n) pre inv post := by
  intro s hs
  unfold truncate
  cases hg : s.get p with
  | none => exact ⟨by simp, h3 s hs⟩
  | some old =>
    refine ⟨?_, h2 s old hs hg⟩
    intro x hx
    simp only [List.mem_singleton] at hx
    subst hx
    exact h1 s _ hs

/-- The end of a call that returns: `post`; of one that does not: only that other files are as they were. -/
def Ended (e : Env) (pth : Path) (s0 : FS) (post : FS → Prop) (r : Res Unit) (s : FS) : Prop :=
  (∀ q, Apart e pth q → s.get q = s0.get q) ∧ (r = .ok () → post s)

theorem replace_ended (I : TagI τ) (e : Env) (pth : Path) (ts : List τ) (au : ApplyUnsync) (keep : Bool) (hf : Fit e pth) (s0 : FS)
    (old : Bytes) (h0 : s0.get (absolute e.cwd pth) = some old) :
    Holds (replaceTagsetCopy I e pth ts au keep) (· = s0) (fun x => ∀ q, Apart e pth q → x.get q = s0.get q)
      (Ended e pth s0 fun x => ∃ new ts', Tagset.copyContents I (some old) au ts = .ok (new, ts') ∧
        x.get (absolute e.cwd pth) = some new) := by
  have hap : ∀ x, Others e (absolute e.cwd pth) s0 x → ∀ q, Apart e pth q → x.get q = s0.get q := by
    rintro x h q ⟨h1, h2, h3⟩
    exact h q h1 h2 (by rintro ⟨n, rfl⟩; exact h3 n rfl)
  have key : ∃ new, ∀ b ts', Tagset.copyContents I (some old) au ts = .ok (b, ts') → new = b := by
    cases hc : Tagset.copyContents I (some old) au ts with
    | ok r => exact ⟨r.1, by rintro b ts' h; cases h; rfl⟩
    | throw x => exact ⟨old, by simp⟩
    | ub u => exact ⟨old, by simp⟩
  obtain ⟨new, hn⟩ := key
  refine (replace_holds I e pth ts au keep hf.1 hf.2.1 (fit_bk hf) old s0 h0 new hn).weaken (fun s h => h) (fun s h => hap s h.2) ?_
  intro r s h
  cases r with
  | ok u =>
    obtain ⟨⟨ts', h1⟩, h2, h3, -⟩ := h
    exact ⟨hap s h3, fun _ => ⟨new, ts', h1, h2⟩⟩
  | throw x => exact ⟨hap s h.2.1, by simp⟩
  | ub u => exact ⟨hap s h.2.1, by simp⟩

theorem apart_put {e : Env} {pth : Path} {s : FS} {c : Bytes} : ∀ q, Apart e pth q → (s.put (absolute e.cwd pth) c).get q = s.get q :=
  fun _ h => FS.get_put_ne _ _ h.1

theorem emplace_ended (I : TagI τ) (e : Env) (pth : Path) (ts : List τ) (au : ApplyUnsync) (hf : Fit e pth) (s0 : FS)
    (old : Bytes) (h0 : s0.get (absolute e.cwd pth) = some old) :
    Holds (maybeEmplaceSteps I e pth ts au) (· = s0) (fun x => ∀ q, Apart e pth q → x.get q = s0.get q)
      (Ended e pth s0 fun x => ∃ how new ts', Tagset.maybeEmplace I (some old) au .reducePaddingEvenly ts = .ok (how, new, ts') ∧
        x.get (absolute e.cwd pth) = some new) := by
  unfold maybeEmplaceSteps
  refine Holds.bind (mid := fun o s => o = some old ∧ s = s0) (Holds.look _ ?_) ?_
  · rintro s rfl
    exact ⟨h0, rfl⟩
  intro o
  by_cases ho : o = some old
  case neg => rintro s ⟨h, -⟩; exact absurd h ho
  subst ho
  cases hm : Tagset.maybeEmplace I (some old) au .reducePaddingEvenly ts with
  | throw x => exact Holds.lift _ (by rintro s ⟨-, rfl⟩; exact ⟨fun _ _ => rfl, by simp⟩)
  | ub u => exact Holds.lift _ (by rintro s ⟨-, rfl⟩; exact ⟨fun _ _ => rfl, by simp⟩)
  | ok r =>
    obtain ⟨how, new, ts'⟩ := r
    cases how with
    | emplaced =>
      refine overwrite_holds _ _ ?_ ?_ ?_
      · rintro s c ⟨-, rfl⟩; exact apart_put
      · rintro s ⟨-, rfl⟩ -; exact ⟨apart_put, fun _ => ⟨_, _, _, rfl, FS.get_put_same _ _ _⟩⟩
      · rintro s ⟨-, rfl⟩; exact ⟨fun _ _ => rfl, by simp⟩
    | created =>
      refine Holds.create _ _ _ _ ?_ ?_ ?_ ?_
      · rintro s c ⟨-, rfl⟩; exact apart_put
      · rintro s ⟨-, rfl⟩; exact ⟨apart_put, fun _ => ⟨_, _, _, rfl, FS.get_put_same _ _ _⟩⟩
      · rintro s ⟨-, rfl⟩; exact ⟨fun _ _ => rfl, by simp⟩
      · rintro s k ⟨-, rfl⟩; exact ⟨apart_put, by simp⟩
    | copied =>
      simp only
      refine Holds.bind (mid := fun r s => Tagset.sizes I au ts = .ok r ∧ s = s0) (Holds.lift _ ?_) ?_
      · rintro s ⟨-, rfl⟩
        cases hz : Tagset.sizes I au ts with
        | ok r => exact ⟨rfl, rfl⟩
        | throw x => exact ⟨fun _ _ => rfl, by simp⟩
        | ub u => exact ⟨fun _ _ => rfl, by simp⟩
      intro r
      obtain ⟨a, b, ts1⟩ := r
      by_cases hz : Tagset.sizes I au ts = .ok (a, b, ts1)
      case neg => rintro s ⟨h, -⟩; exact absurd h hz
      refine (replace_ended I e pth ts1 au false hf s0 old h0).weaken (fun s h => h.2) (fun s h => h) ?_
      rintro r s ⟨h1, h2⟩
      refine ⟨h1, fun hr => ?_⟩
      obtain ⟨new', ts2, h3, h4⟩ := h2 hr
      refine ⟨.copied, new, ts', rfl, ?_⟩
      have hc : Tagset.copyContents I (some old) au ts1 = .ok (new, ts') := by
        unfold Tagset.maybeEmplace at hm
        obtain ⟨c, hc1, hc2⟩ := res_bind_ok hm
        rw [hz, Res.ok_bind] at hc2
        simp only at hc2
        by_cases hle : a ≤ c
        · rw [if_pos hle] at hc2
          by_cases hlt : a < c
          · rw [if_pos hlt] at hc2
            obtain ⟨_, -, hc3⟩ := res_bind_ok hc2
            obtain ⟨⟨_, _⟩, -, hc4⟩ := res_bind_ok hc3
            cases hc4
          · rw [if_neg hlt] at hc2
            obtain ⟨⟨_, _⟩, -, hc4⟩ := res_bind_ok hc2
            cases hc4
        · rw [if_neg hle] at hc2
          by_cases hge : c ≥ a - b ∧ EmplaceStrategy.reducePaddingEvenly ≠ .onlyWithFullPadding
          · rw [if_pos hge] at hc2
            obtain ⟨_, -, hc3⟩ := res_bind_ok hc2
            obtain ⟨⟨_, _⟩, -, hc4⟩ := res_bind_ok hc3
            cases hc4
          · rw [if_neg hge] at hc2
            obtain ⟨⟨x, y⟩, hc3, hc4⟩ := res_bind_ok hc2
            cases hc4
            exact hc3
      rw [hc] at h3
      cases h3
      exact h4

theorem maybeRemove_prefix {d body : Bytes} (h : maybeRemoveId3v1 d = .ok body) : body = d.take body.length := by
  unfold maybeRemoveId3v1 at h
  split at h
  · cases h; simp
  · rename_i t _
    by_cases hs : t.size ≤ d.length
    · rw [if_pos hs] at h
      cases h
      simp
    · rw [if_neg hs] at h
      cases h
  · cases h
  · cases h

theorem v1_ended (e : Env) (pth : Path) (t : V1Tag) (s0 : FS) (old : Bytes) (h0 : s0.get (absolute e.cwd pth) = some old) :
    Holds (replaceId3v1Steps (absolute e.cwd pth) t) (· = s0) (fun x => ∀ q, Apart e pth q → x.get q = s0.get q)
      (Ended e pth s0 fun x => ∃ new, replaceId3v1 old t = .ok new ∧ x.get (absolute e.cwd pth) = some new) := by
  unfold replaceId3v1Steps
  refine Holds.bind (mid := fun o s => o = some old ∧ s = s0) (Holds.look _ ?_) ?_
  · rintro s rfl
    exact ⟨h0, rfl⟩
  intro o
  by_cases ho : o = some old
  case neg => rintro s ⟨h, -⟩; exact absurd h ho
  subst ho
  refine Holds.bind (mid := fun b s => maybeRemoveId3v1 old = .ok b ∧ s = s0) (Holds.lift _ ?_) ?_
  · rintro s ⟨-, rfl⟩
    cases hz : maybeRemoveId3v1 old with
    | ok r => exact ⟨rfl, rfl⟩
    | throw x => exact ⟨fun _ _ => rfl, by simp⟩
    | ub u => exact ⟨fun _ _ => rfl, by simp⟩
  intro body
  by_cases hb : maybeRemoveId3v1 old = .ok body
  case neg => rintro s ⟨h, -⟩; exact absurd h hb
  have hpre := maybeRemove_prefix hb
  refine Holds.bind (mid := fun _ s => (∀ q, Apart e pth q → s.get q = s0.get q) ∧ s.get (absolute e.cwd pth) = some body) ?_ ?_
  · by_cases hlt : body.length < old.length
    · rw [if_pos hlt]
      refine truncate_holds _ _ ?_ ?_ ?_
      · rintro s c ⟨-, rfl⟩; exact apart_put
      · rintro s o ⟨-, rfl⟩ ho
        rw [h0] at ho
        cases ho
        exact ⟨apart_put, by rw [FS.get_put_same, ← hpre]⟩
      · rintro s ⟨-, rfl⟩; exact ⟨fun _ _ => rfl, by simp⟩
    · rw [if_neg hlt]
      refine Holds.pure _ ?_
      rintro s ⟨-, rfl⟩
      refine ⟨fun _ _ => rfl, ?_⟩
      rw [h0, hpre, List.take_of_length_le (by omega)]
  intro _
  refine Holds.bind (mid := fun w s => t.write = .ok w ∧ (∀ q, Apart e pth q → s.get q = s0.get q) ∧
    s.get (absolute e.cwd pth) = some body) (Holds.lift _ ?_) ?_
  · rintro s ⟨h1, h2⟩
    cases hz : t.write with
    | ok r => exact ⟨rfl, h1, h2⟩
    | throw x => exact ⟨h1, by simp⟩
    | ub u => exact ⟨h1, by simp⟩
  intro w
  refine append_holds _ _ ?_ ?_ ?_
  · rintro s c ⟨-, h1, -⟩ q hq
    rw [apart_put q hq]; exact h1 q hq
  · rintro s o ⟨hw, h1, h2⟩ ho
    rw [h2] at ho
    cases ho
    refine ⟨fun q hq => by rw [apart_put q hq]; exact h1 q hq, fun _ => ⟨body ++ w, ?_, FS.get_put_same _ _ _⟩⟩
    unfold replaceId3v1
    rw [hb, Res.ok_bind, hw]
    rfl
  · rintro s ⟨-, -, h2⟩ ho
    rw [h2] at ho
    cases ho

/-- What `process_file` leaves, file by file. -/
theorem processFile_ended (I : TagI τ) (mk2 mk3 mk4 : Id3v2Info → SM τ) (P : Processor τ) (e : Env) (pth : Path) (hf : Fit e pth)
    (s0 : FS) (old : Bytes) (h0 : s0.get (absolute e.cwd pth) = some old) :
    Holds (processFile I mk2 mk3 mk4 P e pth) (· = s0) (fun x => ∀ q, Apart e pth q → x.get q = s0.get q)
      (Ended e pth s0 fun x => ∃ v2 v1 d v2' v1', readTagset mk2 mk3 mk4 (some old) = .ok (v2, v1) ∧
        edit P v2 v1 = .ok (d, v2', v1') ∧
        ((d = false ∨ P.dryRun = true) ∧ x = s0 ∨
         d = true ∧ P.dryRun = false ∧ ∃ mid, (∃ ts', (P.createBackups = true ∧
             Tagset.copyContents I (some old) (if P.adjustUnsync then .asNeeded else .never) v2' = .ok (mid, ts')) ∨
           (P.createBackups = false ∧ ∃ how, Tagset.maybeEmplace I (some old) (if P.adjustUnsync then .asNeeded else .never)
             .reducePaddingEvenly v2' = .ok (how, mid, ts'))) ∧
           ((v1' = none ∧ x.get (absolute e.cwd pth) = some mid) ∨
            ∃ t new, v1' = some t ∧ replaceId3v1 mid t = .ok new ∧ x.get (absolute e.cwd pth) = some new))) := by
  unfold processFile
  refine Holds.bind (mid := fun o s => o = some old ∧ s = s0) (Holds.look _ ?_) ?_
  · rintro s rfl
    exact ⟨h0, rfl⟩
  intro o
  by_cases ho : o = some old
  case neg => rintro s ⟨h, -⟩; exact absurd h ho
  subst ho
  refine Holds.bind (mid := fun r s => readTagset mk2 mk3 mk4 (some old) = .ok r ∧ s = s0) (Holds.lift _ ?_) ?_
  · rintro s ⟨-, rfl⟩
    cases hz : readTagset mk2 mk3 mk4 (some old) with
    | ok r => exact ⟨rfl, rfl⟩
    | throw x => exact ⟨fun _ _ => rfl, by simp⟩
    | ub u => exact ⟨fun _ _ => rfl, by simp⟩
  rintro ⟨v2, v1⟩
  by_cases hr : readTagset mk2 mk3 mk4 (some old) = .ok (v2, v1)
  case neg => rintro s ⟨h, -⟩; exact absurd h hr
  refine Holds.bind (mid := fun r s => edit P v2 v1 = .ok r ∧ s = s0) (Holds.lift _ ?_) ?_
  · rintro s ⟨-, rfl⟩
    cases hz : edit P v2 v1 with
    | ok r => exact ⟨rfl, rfl⟩
    | throw x => exact ⟨fun _ _ => rfl, by simp⟩
    | ub u => exact ⟨fun _ _ => rfl, by simp⟩
  rintro ⟨d, v2', v1'⟩
  by_cases he : edit P v2 v1 = .ok (d, v2', v1')
  case neg => rintro s ⟨h, -⟩; exact absurd h he
  unfold writeTagset
  cases d with
  | false =>
    refine Holds.pure _ ?_
    rintro s ⟨-, rfl⟩
    exact ⟨fun _ _ => rfl, fun _ => ⟨v2, v1, false, v2', v1', hr, he, .inl ⟨.inl rfl, rfl⟩⟩⟩
  | true =>
    cases hd : P.dryRun with
    | true =>
      refine Holds.pure _ ?_
      rintro s ⟨-, rfl⟩
      exact ⟨fun _ _ => rfl, fun _ => ⟨v2, v1, true, v2', v1', hr, he, .inl ⟨.inr rfl, rfl⟩⟩⟩
    | false =>
      simp only [if_true, Bool.false_eq_true, if_false]
      generalize hau : (if P.adjustUnsync then ApplyUnsync.asNeeded else .never) = au
      refine Holds.bind (mid := fun _ s => (∀ q, Apart e pth q → s.get q = s0.get q) ∧ ∃ mid, s.get (absolute e.cwd pth) = some mid ∧
        ∃ ts', (P.createBackups = true ∧ Tagset.copyContents I (some old) au v2' = .ok (mid, ts')) ∨
           (P.createBackups = false ∧ ∃ how, Tagset.maybeEmplace I (some old) au .reducePaddingEvenly v2' = .ok (how, mid, ts'))) ?_ ?_
      · cases hb : P.createBackups with
        | true =>
          refine (replace_ended I e pth v2' au true hf s0 old h0).weaken (fun s h => h.2) (fun s h => h) ?_
          rintro r s ⟨h1, h2⟩
          cases r with
          | ok u =>
            obtain ⟨new, ts', h3, h4⟩ := h2 rfl
            exact ⟨h1, new, h4, ts', .inl ⟨rfl, h3⟩⟩
          | throw x => exact ⟨h1, by simp⟩
          | ub u => exact ⟨h1, by simp⟩
        | false =>
          refine (emplace_ended I e pth v2' au hf s0 old h0).weaken (fun s h => h.2) (fun s h => h) ?_
          rintro r s ⟨h1, h2⟩
          cases r with
          | ok u =>
            obtain ⟨how, new, ts', h3, h4⟩ := h2 rfl
            exact ⟨h1, new, h4, ts', .inr ⟨rfl, how, h3⟩⟩
          | throw x => exact ⟨h1, by simp⟩
          | ub u => exact ⟨h1, by simp⟩
      intro _
      cases v1' with
      | none =>
        refine Holds.pure _ ?_
        rintro s ⟨h1, mid, h2, h3⟩
        exact ⟨h1, fun _ => ⟨v2, v1, true, v2', none, hr, he, .inr ⟨rfl, trivial, mid, h3, .inl ⟨rfl, h2⟩⟩⟩⟩
      | some t =>
        refine Holds.each ?_
        rintro s1 ⟨h1, mid, h2, h3⟩
        refine (v1_ended e pth t s1 mid h2).weaken (fun s h => h) (fun s h q hq => by rw [h q hq]; exact h1 q hq) ?_
        rintro r s ⟨h4, h5⟩
        refine ⟨fun q hq => by rw [h4 q hq]; exact h1 q hq, fun hok => ?_⟩
        obtain ⟨new, h6, h7⟩ := h5 hok
        exact ⟨v2, v1, true, v2', some t, hr, he, .inr ⟨rfl, trivial, mid, h3, .inr ⟨t, new, rfl, h6, h7⟩⟩⟩

/-- **C43** (other files): whatever happens and wherever the process dies, files that are neither the file, nor a backup of it, nor the
temporary file are as they were. -/
theorem C43_others (I : TagI τ) (mk2 mk3 mk4 : Id3v2Info → SM τ) (P : Processor τ) (e : Env) (pth : Path) (hf : Fit e pth)
    (s0 : FS) (old : Bytes) (h0 : s0.get (absolute e.cwd pth) = some old) :
    ∀ s, s ∈ (processFile I mk2 mk3 mk4 P e pth s0).seen ∨ s = (processFile I mk2 mk3 mk4 P e pth s0).fs →
      ∀ q, q ≠ absolute e.cwd pth → q ≠ e.tmp → (∀ n, q ≠ absolute e.cwd pth ++ dot :: dec n) → s.get q = s0.get q := by
  obtain ⟨h1, h2⟩ := processFile_ended I mk2 mk3 mk4 P e pth hf s0 old h0 s0 rfl
  rintro s (hs | rfl) q h3 h4 h5
  · exact h1 s hs q ⟨h3, h4, h5⟩
  · exact h2.1 q ⟨h3, h4, h5⟩

/-- **C43** (the file): if `process_file` returns, then either there was nothing to write, or it was a dry run, and nothing has changed;
or the file is what writing the edited ID3v2 tags in place of the old ones, and then the edited ID3v1 tag in place of the old one,
make of it. -/
theorem C43_written (I : TagI τ) (mk2 mk3 mk4 : Id3v2Info → SM τ) (P : Processor τ) (e : Env) (pth : Path) (hf : Fit e pth)
    (s0 : FS) (old : Bytes) (h0 : s0.get (absolute e.cwd pth) = some old)
    (hok : (processFile I mk2 mk3 mk4 P e pth s0).res = .ok ()) :
    ∃ v2 v1 d v2' v1', readTagset mk2 mk3 mk4 (some old) = .ok (v2, v1) ∧ edit P v2 v1 = .ok (d, v2', v1') ∧
      ((d = false ∨ P.dryRun = true) ∧ (processFile I mk2 mk3 mk4 P e pth s0).fs = s0 ∨
       d = true ∧ P.dryRun = false ∧ ∃ mid, (∃ ts', (P.createBackups = true ∧
             Tagset.copyContents I (some old) (if P.adjustUnsync then .asNeeded else .never) v2' = .ok (mid, ts')) ∨
           (P.createBackups = false ∧ ∃ how, Tagset.maybeEmplace I (some old) (if P.adjustUnsync then .asNeeded else .never)
             .reducePaddingEvenly v2' = .ok (how, mid, ts'))) ∧
         ((v1' = none ∧ (processFile I mk2 mk3 mk4 P e pth s0).fs.get (absolute e.cwd pth) = some mid) ∨
          ∃ t new, v1' = some t ∧ replaceId3v1 mid t = .ok new ∧
            (processFile I mk2 mk3 mk4 P e pth s0).fs.get (absolute e.cwd pth) = some new)) :=
  (processFile_ended I mk2 mk3 mk4 P e pth hf s0 old h0 s0 rfl).2.2 hok

/-- A sub-command that sets the genre of ID3v1 tags. -/
def genre17 : Processor AnyTag where
  v2Scope := .none
  v1Scope := true
  v2Create := .never
  v1Create := .never
  dryRun := false
  adjustUnsync := false
  createBackups := true
  createV1From _ := .throw .other
  createV1 := .throw .other
  createV2From _ := .throw .other
  createV2 := .throw .other
  processV1 t := .ok (true, t.apply (.setGenre 17))
  processV2 t := .ok (false, t)

/-- The hypotheses are met: a file with an ID3v1 tag, a backup asked for. -/
example : Fit (calm .done) fileF ∧
    FS.get [(fileF, [1, 2] ++ (sampleStd 3).image)] (absolute (calm .done).cwd fileF) = some ([1, 2] ++ (sampleStd 3).image) :=
  ⟨calm_fit .done .none, by decide +kernel⟩

example : (processFile (anyI zId) (fun _ => SM.throw .other) (fun _ => SM.throw .other) (fun _ => SM.throw .other) genre17 (calm .done)
    fileF [(fileF, [1, 2] ++ (sampleStd 3).image)]).res = .ok () := by decide +kernel
example : (processFile (anyI zId) (fun _ => SM.throw .other) (fun _ => SM.throw .other) (fun _ => SM.throw .other) genre17 (calm .done)
    fileF [(fileF, [1, 2] ++ (sampleStd 3).image)]).fs.get fileF = some ([1, 2] ++ ((sampleStd 3).image.take 127 ++ [17])) := by
  decide +kernel

end Scribbu.Props
