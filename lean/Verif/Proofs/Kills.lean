import Verif.Spec.Kills
import Verif.Proofs.Killed

/-! Lemmas for C194. -/

namespace Scribbu.History
open Scribbu Spec Process Path Backup Replace FM Scribbu.Props

theorem debris_nil : Debris [] := ⟨[], rfl, by simp⟩

theorem debris_v1 {v1 : Bytes} (h : v1 = [] ∨ V1Bytes v1) : Debris v1 := by
  rcases h with rfl | h
  · exact debris_nil
  · refine ⟨[v1], by simp, ?_⟩
    intro w hw
    simp only [List.mem_singleton] at hw
    subst hw
    refine ⟨?_, w, h, List.prefix_refl _⟩
    rintro rfl
    rcases h with ⟨t, h, -⟩ | ⟨x, t, h, -⟩ <;> simp [TAG, TAGP] at h

theorem debris_append {j w v : Bytes} (h : Debris j) (hv : V1Bytes v) (hw : w <+: v) : Debris (j ++ w) := by
  by_cases he : w = []
  · subst he; simpa using h
  · obtain ⟨ws, rfl, h1⟩ := h
    refine ⟨ws ++ [w], by simp, ?_⟩
    intro x hx
    rcases List.mem_append.1 hx with hx | hx
    · exact h1 x hx
    · simp only [List.mem_singleton] at hx
      subst hx
      exact ⟨he, v, hv, hw⟩

theorem debris_take {j : Bytes} (h : Debris j) (k : Nat) : Debris (j.take k) := by
  obtain ⟨ws, rfl, h1⟩ := h
  induction ws generalizing k with
  | nil => simpa using debris_nil
  | cons w ws ih =>
    obtain ⟨h2, v, h3, h4⟩ := h1 w (by simp)
    have ih' := fun k => ih k fun x hx => h1 x (by simp [hx])
    rw [List.flatten_cons, List.take_append]
    by_cases hk : k ≤ w.length
    · have : k - w.length = 0 := by omega
      rw [this, List.take_zero, List.append_nil]
      by_cases he : w.take k = []
      · rw [he]; exact debris_nil
      · refine ⟨[w.take k], by simp, ?_⟩
        intro x hx
        simp only [List.mem_singleton] at hx
        subst hx
        exact ⟨he, v, h3, (List.take_prefix _ _).trans h4⟩
    · rw [List.take_of_length_le (by omega)]
      obtain ⟨us, h5, h6⟩ := ih' (k - w.length)
      refine ⟨w :: us, by rw [List.flatten_cons, h5], ?_⟩
      intro x hx
      rcases List.mem_cons.1 hx with rfl | hx
      · exact ⟨h2, v, h3, h4⟩
      · exact h6 x hx

theorem v1_head {v : Bytes} (h : V1Bytes v) : v.head? = some 0x54 := by
  rcases h with ⟨t, rfl, -⟩ | ⟨x, t, rfl, -⟩ <;> rfl

theorem debris_head {x : Byte} {j : Bytes} (h : Debris (x :: j)) : x = 0x54 := by
  obtain ⟨ws, h1, h2⟩ := h
  cases ws with
  | nil => cases h1
  | cons w ws =>
    obtain ⟨h3, v, h4, r, h5⟩ := h2 w (by simp)
    cases w with
    | nil => exact absurd rfl h3
    | cons y w =>
      simp only [List.flatten_cons, List.cons_append, List.cons.injEq] at h1
      have := v1_head h4
      rw [← h5] at this
      simp only [List.cons_append, List.head?_cons, Option.some.injEq] at this
      rw [h1.1, this]

/-- Where "TAG" is, the audio is over. -/
theorem tag_place {p a j b t : Bytes} (ha : Clear a) (hj : Debris j) (h : p ++ (a ++ j) = b ++ TAG ++ t) (hb : p.length ≤ b.length) :
    (p ++ a).length ≤ b.length := by
  apply Classical.byContradiction
  intro hn
  rw [← List.append_assoc, List.append_assoc b] at h
  rcases List.append_eq_append_iff.1 h with ⟨c, h1, h2⟩ | ⟨c, h1, h2⟩
  · have := congrArg List.length h1
    simp only [List.length_append] at this hn
    omega
  · rcases c with _ | ⟨x, _ | ⟨y, _ | ⟨w, c⟩⟩⟩
    · have := congrArg List.length h1
      simp only [List.length_append, List.length_nil] at this hn
      omega
    · simp only [TAG, List.cons_append, List.nil_append, List.cons.injEq] at h2
      cases j with
      | nil => cases h2.2
      | cons u j =>
        have := debris_head hj
        simp only [List.cons.injEq] at h2
        rw [← h2.2.1] at this
        revert this; decide
    · simp only [TAG, List.cons_append, List.nil_append, List.cons.injEq] at h2
      cases j with
      | nil => cases h2.2.2
      | cons u j =>
        have := debris_head hj
        simp only [List.cons.injEq] at h2
        rw [← h2.2.2.1] at this
        revert this; decide
    · simp only [TAG, List.cons_append, List.nil_append, List.cons.injEq] at h2
      obtain ⟨rfl, rfl, rfl, -⟩ := h2
      rcases List.append_eq_append_iff.1 h1 with ⟨q, h3, h4⟩ | ⟨q, h3, h4⟩
      · exact ha.tag ⟨q, c, by rw [h4]; simp [TAG]⟩
      · have := congrArg List.length h3
        simp only [List.length_append] at this
        have hq : q = [] := List.length_eq_zero_iff.1 (by omega)
        subst hq
        exact ha.tag ⟨[], c, by simpa [TAG] using h4⟩

/-- Removing an ID3v1 tag takes nothing but debris away. -/
theorem remove_debris {p a j body : Bytes} (ha : Clear a) (hj : Debris j) (h : maybeRemoveId3v1 (p ++ (a ++ j)) = .ok body) :
    ∃ j', body = p ++ (a ++ j') ∧ Debris j' ∧ j' <+: j := by
  obtain ⟨r1, r2, r3, r4⟩ := C12_remove (p ++ (a ++ j))
  have hl := ha.long
  have cut : ∀ n, (p ++ a).length ≤ n → (p ++ (a ++ j)).take n = p ++ (a ++ j.take (n - (p ++ a).length)) := by
    intro n hn
    rw [← List.append_assoc, List.take_append, List.take_of_length_le hn, List.append_assoc]
  by_cases he : ∃ n, ExtAt (p ++ (a ++ j)) n
  · obtain ⟨n, he⟩ := he
    by_cases hs : ∃ n, StdAt (p ++ (a ++ j)) n
    · rw [r1 n he hs] at h
      cases h
      obtain ⟨b, t, h1, rfl, h3⟩ := he
      have hlen := congrArg List.length h1
      simp only [List.length_append, TAGP, List.length_cons, List.length_nil] at hlen
      have := tag_place (b := b) (t := 0x2b :: t) ha hj (by rw [h1]; simp [TAG, TAGP]) (by omega)
      exact ⟨_, cut _ this, debris_take hj _, List.take_prefix _ _⟩
    · rw [r2 n he hs] at h
      cases h
  · by_cases hs : ∃ n, StdAt (p ++ (a ++ j)) n
    · obtain ⟨n, hs⟩ := hs
      rw [r3 n he hs] at h
      cases h
      obtain ⟨b, t, h1, rfl, h3⟩ := hs
      have hlen := congrArg List.length h1
      simp only [List.length_append, TAG, List.length_cons, List.length_nil] at hlen
      have := tag_place ha hj h1 (by omega)
      exact ⟨_, cut _ this, debris_take hj _, List.take_prefix _ _⟩
    · rw [r4 he hs] at h
      cases h
      exact ⟨j, rfl, hj, List.prefix_refl _⟩

theorem noHeader_debris {a j : Bytes} (ha : Clear a) : NoHeader (a ++ j) := by
  rintro v r f n ⟨s0, s1, s2, s3, rest, he, -⟩
  have hl := ha.long
  rcases a with _ | ⟨b0, _ | ⟨b1, _ | ⟨b2, a⟩⟩⟩
  · simp at hl
  · simp at hl
  · simp at hl
  · simp only [List.cons_append, List.nil_append] at he; injection he with e1 e2; injection e2 with e2 e3; injection e3 with e3 e4
    subst e1 e2 e3
    exact ha.start ⟨a, rfl⟩

/-- The file is there, and bears the audio. -/
def Whole (a : Bytes) (p : Path) (s : FS) : Prop := ∃ d, s.get p = some d ∧ Bears a d

/-- On one file system, a replacement by copying leaves the file as it was, or as it is to be, at every moment. -/
theorem replace_atomic {τ : Type} (I : TagI τ) (e : Env) (pth : Path) (ts : List τ) (au : ApplyUnsync) (keep : Bool) (hf : Fit e pth) (hx : e.rename ≠ .crossDevice)
    (old : Bytes) (s0 : FS) (h0 : s0.get (absolute e.cwd pth) = some old) (Q : FS → Prop)
    (hold : ∀ s, s.get (absolute e.cwd pth) = some old → Q s)
    (hnew : ∀ b ts', Tagset.copyContents I (some old) au ts = .ok (b, ts') → ∀ s, s.get (absolute e.cwd pth) = some b → Q s) :
    Holds (replaceTagsetCopy I e pth ts au keep) (· = s0) Q (fun _ => Q) := by
  have hb := fit_bk hf
  obtain ⟨hP, ht, -⟩ := hf
  unfold replaceTagsetCopy
  have hput : ∀ b, (s0.put e.tmp b).get (absolute e.cwd pth) = some old := fun b => by rw [FS.get_put_ne _ _ ht.symm]; exact h0
  refine Holds.bind (mid := fun o s => o = some old ∧ s = s0) (Holds.look _ ?_) ?_
  · rintro s rfl
    exact ⟨h0, rfl⟩
  intro o
  by_cases ho : o = some old
  case neg => rintro s ⟨h, -⟩; exact absurd h ho
  subst ho
  cases hc : Tagset.copyContents I (some old) au ts with
  | ok r =>
    obtain ⟨new, ts'⟩ := r
    refine Holds.bind (mid := fun _ s => s.get (absolute e.cwd pth) = some old ∧ s.get e.tmp = some new) (Holds.create _ _ _ _ ?_ ?_ ?_ ?_) ?_
    · rintro s c ⟨-, rfl⟩; exact hold _ (hput c)
    · rintro s ⟨-, rfl⟩; exact ⟨hput _, FS.get_put_same _ _ _⟩
    · rintro s ⟨-, rfl⟩; exact hold _ h0
    · rintro s k ⟨-, rfl⟩; exact hold _ (hput _)
    intro _
    unfold shuffle
    have hPn : ¬ Bk (absolute e.cwd pth) (absolute e.cwd pth) := fun h => bk_ne h rfl
    refine Holds.bind (mid := fun _ s => s.get (absolute e.cwd pth) = some old ∧ s.get e.tmp = some new) ?_ ?_
    · cases keep with
      | false => exact Holds.pure _ fun s h => h
      | true =>
        refine Holds.bind (mid := fun _ s => s.get (absolute e.cwd pth) = some old ∧ s.get e.tmp = some new) ?_ ?_
        · refine Holds.each fun sA hA => ?_
          refine (makeBackup_holds e.cwd pth e.rmBackup e.backup hP sA).weaken (fun s h => h) ?_ ?_
          · intro s h
            exact hold _ (by rw [h _ hPn]; exact hA.1)
          · intro r s h
            cases r with
            | ok c =>
              have hct : e.tmp ≠ c := by rintro rfl; exact hb h.1
              exact ⟨by rw [h.2.2.2 _ (bk_ne h.1).symm]; exact hA.1, by rw [h.2.2.2 _ hct]; exact hA.2⟩
            | throw x => exact hold _ (by rw [h _ hPn]; exact hA.1)
            | ub u => cases h; exact hold _ hA.1
        · intro c
          exact Holds.pure _ fun s h => h
    intro c
    refine Holds.bind (mid := fun r s => r ≠ .crossDevice ∧ Q s) (Holds.rename _ _ _ ?_ ?_ ?_) ?_
    · rintro s d ⟨-, h1⟩ h2 -
      rw [h1] at h2
      cases h2
      have := hnew _ _ hc _ (FS.get_put_same (s.del e.tmp) (absolute e.cwd pth) new)
      exact ⟨this, by simp, this⟩
    · intro s _ h; exact absurd h hx
    · intro s h _; exact ⟨by simp, hold _ h.1⟩
    intro r
    cases r with
    | done => exact Holds.pure _ fun s h => h.2
    | crossDevice => rintro s ⟨h, -⟩; exact absurd rfl h
    | failed => exact Holds.lift _ fun s h => h.2
  | throw x =>
    refine Holds.bind (mid := fun _ s => s = s0.put e.tmp e.junk) (Holds.create _ _ _ _ ?_ ?_ ?_ ?_) ?_
    · rintro s c ⟨-, rfl⟩; exact hold _ (hput c)
    · rintro s ⟨-, rfl⟩; rfl
    · rintro s ⟨-, rfl⟩; exact hold _ h0
    · rintro s k ⟨-, rfl⟩; exact hold _ (hput _)
    intro _
    refine Holds.lift _ ?_
    rintro s rfl
    exact hold _ (hput _)
  | ub u =>
    refine Holds.lift _ ?_
    rintro s ⟨-, rfl⟩
    exact hold _ h0

theorem digits_inj {s0 s1 s2 s3 t0 t1 t2 t3 : Byte} (hs : ∀ b ∈ [s0, s1, s2, s3], b.toNat < 0x80) (ht : ∀ b ∈ [t0, t1, t2, t3], b.toNat < 0x80)
    (h : syncSafe [s0, s1, s2, s3] = syncSafe [t0, t1, t2, t3]) : s0 = t0 ∧ s1 = t1 ∧ s2 = t2 ∧ s3 = t3 := by
  simp only [List.mem_cons, List.not_mem_nil, or_false, forall_eq_or_imp, forall_eq] at hs ht
  simp only [syncSafe, List.map_cons, List.map_nil, ofDigits, List.foldl_cons, List.foldl_nil] at h
  refine ⟨UInt8.toNat_inj.1 ?_, UInt8.toNat_inj.1 ?_, UInt8.toNat_inj.1 ?_, UInt8.toNat_inj.1 ?_⟩ <;> omega

/-- Part of a tag, written over another of the same length. -/
theorem torn_complete {t u : Bytes} (ht : CompleteTag t) (hu : CompleteTag u) (hl : t.length = u.length) (i : Nat) : CompleteTag (t.take i ++ u.drop i) := by
  obtain ⟨v, r, f, n, ⟨s0, s1, s2, s3, x, rfl, h1, h2, h3, h4⟩, h5⟩ := ht
  obtain ⟨v', r', f', n', ⟨t0, t1, t2, t3, y, rfl, k1, k2, k3, k4⟩, k5⟩ := hu
  have hn : n = n' := by omega
  have hxy : x.length = y.length := by
    simp only [List.length_append, List.length_cons, List.length_nil] at hl
    omega
  obtain ⟨rfl, rfl, rfl, rfl⟩ := digits_inj h3 k3 (by rw [← h4, ← k4, hn])
  subst hn
  have hlen : n = x.length := by
    simp only [List.length_append, List.length_cons, List.length_nil] at h5
    omega
  have key : ∀ v r f z, v ≠ 0xff → r ≠ 0xff → z.length = n → CompleteTag ([0x49, 0x44, 0x33, v, r, f, s0, s1, s2, s3] ++ z) := by
    intro v r f z hv hr hz
    exact ⟨v, r, f, n, ⟨s0, s1, s2, s3, z, rfl, hv, hr, h3, h4⟩, by simp [hz]; omega⟩
  rcases i with _ | _ | _ | _ | _ | _ | _ | _ | _ | _ | i
  · exact key v' r' f' y k1 k2 (by omega)
  · exact key v' r' f' y k1 k2 (by omega)
  · exact key v' r' f' y k1 k2 (by omega)
  · exact key v' r' f' y k1 k2 (by omega)
  · exact key v r' f' y h1 k2 (by omega)
  · exact key v r f' y h1 h2 (by omega)
  · exact key v r f y h1 h2 (by omega)
  · exact key v r f y h1 h2 (by omega)
  · exact key v r f y h1 h2 (by omega)
  · exact key v r f y h1 h2 (by omega)
  · refine (congrArg CompleteTag ?_).mp (key v r f (x.take i ++ y.drop i) h1 h2 (by simp; omega))
    rfl

/-- The same for at most one tag. -/
theorem torn_tags {olds news : List Bytes} (ho : ∀ t ∈ olds, CompleteTag t) (hn : ∀ t ∈ news, CompleteTag t) (h1 : olds.length ≤ 1) (h2 : news.length ≤ 1)
    (hl : news.flatten.length = olds.flatten.length) (i : Nat) :
    ∃ tags : List Bytes, news.flatten.take i ++ olds.flatten.drop i = tags.flatten ∧ ∀ t ∈ tags, CompleteTag t := by
  have short : ∀ t, CompleteTag t → t.length ≠ 0 := by
    rintro t ⟨v, r, f, n, -, h⟩; omega
  rcases olds with _ | ⟨o, _ | ⟨_, _⟩⟩
  · have : news = [] := by
      rcases news with _ | ⟨m, ms⟩
      · rfl
      · simp only [List.flatten_cons, List.flatten_nil, List.length_append, List.length_nil] at hl
        exact absurd (by omega) (short m (hn m (by simp)))
    subst this
    exact ⟨[], by simp, by simp⟩
  · rcases news with _ | ⟨m, _ | ⟨_, _⟩⟩
    · simp only [List.flatten_cons, List.flatten_nil, List.append_nil, List.length_nil] at hl
      exact absurd hl.symm (short o (ho o (by simp)))
    · simp only [List.flatten_cons, List.flatten_nil, List.append_nil] at hl ⊢
      refine ⟨[m.take i ++ o.drop i], by simp, ?_⟩
      intro t ht
      simp only [List.mem_singleton] at ht
      subst ht
      exact torn_complete (hn m (by simp)) (ho o (by simp)) hl i
    · simp at h2
  · simp at h1

theorem overwrite_whole {p : Path} {a j : Bytes} {olds news : List Bytes} (ho : ∀ t ∈ olds, CompleteTag t) (hn : ∀ t ∈ news, CompleteTag t)
    (hj : Debris j) (h1 : olds.length ≤ 1) (h2 : news.length ≤ 1) (hl : news.flatten.length = olds.flatten.length) :
    Holds (overwrite p (news.flatten ++ (a ++ j))) (fun s => s.get p = some (olds.flatten ++ (a ++ j))) (Whole a p) (fun _ => Whole a p) := by
  intro s hs
  unfold overwrite
  rw [hs]
  refine ⟨?_, ⟨_, FS.get_put_same _ _ _, news, j, rfl, hn, hj⟩⟩
  intro x hx
  obtain ⟨i, -, rfl⟩ := List.mem_map.1 hx
  refine ⟨_, FS.get_put_same _ _ _, ?_⟩
  by_cases hi : i ≤ news.flatten.length
  · obtain ⟨tags, h3, h4⟩ := torn_tags ho hn h1 h2 hl i
    refine ⟨tags, j, ?_, h4, hj⟩
    rw [List.take_append_of_le_length hi, List.drop_append_of_le_length (by omega), ← h3, List.append_assoc]
  · refine ⟨news, j, ?_, hn, hj⟩
    have hi' : i = news.flatten.length + (i - news.flatten.length) := by omega
    have hi'' : i = olds.flatten.length + (i - news.flatten.length) := by omega
    have e1 : (news.flatten ++ (a ++ j)).take i = news.flatten ++ (a ++ j).take (i - news.flatten.length) := by
      conv => lhs; rw [hi']
      exact List.take_length_add_append _
    have e2 : (olds.flatten ++ (a ++ j)).drop i = (a ++ j).drop (i - news.flatten.length) := by
      conv => lhs; rw [hi'']
      exact List.drop_length_add_append _
    rw [e1, e2, List.append_assoc, List.take_append_drop]

theorem v1_whole {p : Path} {t : V1Tag} (ht : t.WF) {a : Bytes} (ha : Clear a) :
    Holds (replaceId3v1Steps p t) (Whole a p) (Whole a p) (fun _ => Whole a p) := by
  refine Holds.each ?_
  rintro s0 ⟨d, h0, tags, j, rfl, hT, hj⟩
  obtain ⟨w, hw, hwb⟩ := wf_bytes ht
  have kept : Whole a p s0 := ⟨_, h0, tags, j, rfl, hT, hj⟩
  unfold replaceId3v1Steps
  refine Holds.bind (mid := fun o s => o = some (tags.flatten ++ (a ++ j)) ∧ s = s0) (Holds.look _ ?_) ?_
  · rintro s rfl
    exact ⟨h0, rfl⟩
  intro o
  by_cases ho : o = some (tags.flatten ++ (a ++ j))
  case neg => rintro s ⟨h, -⟩; exact absurd h ho
  subst ho
  simp only
  rw [hw]
  refine Holds.bind (mid := fun b s => maybeRemoveId3v1 (tags.flatten ++ (a ++ j)) = .ok b ∧ s = s0) (Holds.lift _ ?_) ?_
  · rintro s ⟨-, rfl⟩
    cases hr : maybeRemoveId3v1 (tags.flatten ++ (a ++ j)) with
    | ok b => exact ⟨rfl, rfl⟩
    | throw x => exact kept
    | ub u => exact kept
  intro b
  by_cases hb : maybeRemoveId3v1 (tags.flatten ++ (a ++ j)) = .ok b
  case neg => rintro s ⟨h, -⟩; exact absurd h hb
  obtain ⟨j', rfl, hj', r, hr⟩ := remove_debris ha hj hb
  refine Holds.bind (mid := fun _ s => s.get p = some (tags.flatten ++ (a ++ j'))) ?_ ?_
  · by_cases hlt : (tags.flatten ++ (a ++ j')).length < (tags.flatten ++ (a ++ j)).length
    · rw [if_pos hlt]
      rintro s ⟨-, rfl⟩
      unfold truncate
      rw [h0]
      have ht : (tags.flatten ++ (a ++ j)).take (tags.flatten ++ (a ++ j')).length = tags.flatten ++ (a ++ j') := by
        have : tags.flatten ++ (a ++ j) = (tags.flatten ++ (a ++ j')) ++ r := by rw [← hr]; simp
        rw [this, List.take_left]
      simp only [ht]
      refine ⟨?_, FS.get_put_same _ _ _⟩
      intro x hx
      simp only [List.mem_singleton] at hx
      subst hx
      exact ⟨_, FS.get_put_same _ _ _, tags, j', rfl, hT, hj'⟩
    · rw [if_neg hlt]
      refine Holds.pure _ ?_
      rintro s ⟨-, rfl⟩
      have : r = [] := List.length_eq_zero_iff.1 (by rw [← hr] at hlt; simp only [List.length_append] at hlt; omega)
      subst this
      rw [List.append_nil] at hr
      rw [hr]
      exact h0
  intro _
  refine Holds.bind (mid := fun x s => x = w ∧ s.get p = some (tags.flatten ++ (a ++ j'))) (Holds.lift _ ?_) ?_
  · intro s h
    exact ⟨rfl, h⟩
  intro x
  rintro s ⟨rfl, h1⟩
  unfold Process.append
  rw [h1]
  refine ⟨?_, ⟨_, FS.get_put_same _ _ _, tags, j' ++ x, by simp, hT, debris_append hj' hwb (List.prefix_refl _)⟩⟩
  intro y hy
  obtain ⟨i, -, rfl⟩ := List.mem_map.1 hy
  exact ⟨_, FS.get_put_same _ _ _, tags, j' ++ x.take i, by simp, hT, debris_append hj' hwb (List.take_prefix _ _)⟩

/-- What is written in place is one tag over one. -/
def CanKill (mk2 mk3 mk4 : Id3v2Info → SM AnyTag) (P : Processor AnyTag) (d : Bytes) : Prop :=
  P.createBackups = false → OneTag d ∧ ∀ v2 v1 dirty v2' v1', readTagset mk2 mk3 mk4 (some d) = .ok (v2, v1) → edit P v2 v1 = .ok (dirty, v2', v1') → v2'.length ≤ 1

/-- One run, at every moment of it. -/
theorem process_whole {z : Zlib} {mk2 mk3 mk4 : Id3v2Info → SM AnyTag} {P : Processor AnyTag} {e : Env} {pth : Path} (hf : Fit e pth)
    (hx : e.rename ≠ .crossDevice) {a : Bytes} (ha : Clear a) {s0 : FS} {d : Bytes} (h0 : s0.get (absolute e.cwd pth) = some d) (hc : Bears a d)
    (hs : CanSave z mk2 mk3 mk4 P d) (hk : CanKill mk2 mk3 mk4 P d) :
    Holds (processFile (anyI z) mk2 mk3 mk4 P e pth) (· = s0) (Whole a (absolute e.cwd pth)) (fun _ => Whole a (absolute e.cwd pth)) := by
  have kept : Whole a (absolute e.cwd pth) s0 := ⟨d, h0, hc⟩
  unfold processFile
  refine Holds.bind (mid := fun o s => o = some d ∧ s = s0) (Holds.look _ ?_) ?_
  · rintro s rfl
    exact ⟨h0, rfl⟩
  intro o
  by_cases ho : o = some d
  case neg => rintro s ⟨h, -⟩; exact absurd h ho
  subst ho
  refine Holds.bind (mid := fun r s => readTagset mk2 mk3 mk4 (some d) = .ok r ∧ s = s0) (Holds.lift _ ?_) ?_
  · rintro s ⟨-, rfl⟩
    cases hz : readTagset mk2 mk3 mk4 (some d) with
    | ok r => exact ⟨rfl, rfl⟩
    | throw x => exact kept
    | ub u => exact kept
  rintro ⟨v2, v1⟩
  by_cases hr : readTagset mk2 mk3 mk4 (some d) = .ok (v2, v1)
  case neg => rintro s ⟨h, -⟩; exact absurd h hr
  refine Holds.bind (mid := fun r s => edit P v2 v1 = .ok r ∧ s = s0) (Holds.lift _ ?_) ?_
  · rintro s ⟨-, rfl⟩
    cases hz : edit P v2 v1 with
    | ok r => exact ⟨rfl, rfl⟩
    | throw x => exact kept
    | ub u => exact kept
  rintro ⟨dirty, v2', v1'⟩
  by_cases he : edit P v2 v1 = .ok (dirty, v2', v1')
  case neg => rintro s ⟨h, -⟩; exact absurd h he
  obtain ⟨hsz, hs⟩ := hs
  obtain ⟨c1, c2, c3, c4⟩ := hs v2 v1 dirty v2' v1' hr he
  unfold writeTagset
  cases dirty with
  | false =>
    refine Holds.pure _ ?_
    rintro s ⟨-, rfl⟩
    exact kept
  | true =>
    cases hd : P.dryRun with
    | true =>
      refine Holds.pure _ ?_
      rintro s ⟨-, rfl⟩
      exact kept
    | false =>
      simp only [if_true, Bool.false_eq_true, if_false]
      generalize hau : (if P.adjustUnsync then ApplyUnsync.asNeeded else .never) = au at c2
      have hc' := hc
      obtain ⟨tags, v, rfl, hT, hv⟩ := hc'
      have hnh := noHeader_debris (j := v) ha
      have hlen : tags.flatten.length < 2 ^ 28 := hsz _ (Tagset.tagsetSize_tags tags _ hT hnh)
      have hne : a ++ v ≠ [] := by
        intro h
        have := congrArg List.length h
        have := ha.long
        simp only [List.length_append, List.length_nil] at *
        omega
      refine Holds.bind (mid := fun _ => Whole a (absolute e.cwd pth)) ?_ ?_
      · cases hb : P.createBackups with
        | true =>
          refine (replace_atomic _ e pth v2' au true hf hx _ s0 h0 (Whole a (absolute e.cwd pth)) (fun s h => ⟨_, h, hc⟩) ?_).weaken (fun s h => h.2) (fun _ h => h) ?_
          · intro b ts' hcc s h
            obtain ⟨b', ts2, news, e1, e2, -, e4⟩ := C33_copy_partial z tags (a ++ v) au v2' hT hnh c1 c2
            rw [e1] at hcc
            cases hcc
            exact ⟨_, h, _, v, e2, news_complete e4, hv⟩
          · intro r s h
            cases r <;> exact h
        | false =>
          simp only [Bool.false_eq_true, if_false]
          unfold maybeEmplaceSteps
          refine Holds.bind (mid := fun o s => o = some (tags.flatten ++ (a ++ v)) ∧ s = s0) (Holds.look _ ?_) ?_
          · rintro s ⟨-, rfl⟩
            exact ⟨h0, rfl⟩
          intro o
          by_cases ho : o = some (tags.flatten ++ (a ++ v))
          case neg => rintro s ⟨h, -⟩; exact absurd h ho
          subst ho
          cases hm : Tagset.maybeEmplace (anyI z) (some (tags.flatten ++ (a ++ v))) au .reducePaddingEvenly v2' with
          | throw x => exact Holds.lift _ (by rintro s ⟨-, rfl⟩; exact kept)
          | ub u => exact Holds.lift _ (by rintro s ⟨-, rfl⟩; exact kept)
          | ok r =>
            obtain ⟨how, new, ts'⟩ := r
            obtain ⟨m1, news, m2, m3, m4⟩ := maybe_carries hT hnh hne c1 hlen c2 (c3 hb) hm
            have hnew : Bears a new := ⟨news, v, m2, m3, hv⟩
            cases how with
            | created => exact absurd rfl m1
            | emplaced =>
              subst m2
              obtain ⟨k1, k2⟩ := hk hb
              obtain ⟨m5, m6⟩ := m4 rfl
              refine (overwrite_whole hT m3 hv (k1 tags _ rfl hT) (by rw [m6]; exact k2 _ _ _ _ _ hr he) m5).weaken (fun s h => h.2 ▸ h0) (fun _ h => h) ?_
              intro r s h
              cases r <;> exact h
            | copied =>
              simp only
              refine Holds.bind (mid := fun r s => Tagset.sizes (anyI z) au v2' = .ok r ∧ s = s0) (Holds.lift _ ?_) ?_
              · rintro s ⟨-, rfl⟩
                cases hz : Tagset.sizes (anyI z) au v2' with
                | ok r => exact ⟨rfl, rfl⟩
                | throw x => exact kept
                | ub u => exact kept
              rintro ⟨n1, n2, ts1⟩
              by_cases hz : Tagset.sizes (anyI z) au v2' = .ok (n1, n2, ts1)
              case neg => rintro s ⟨h, -⟩; exact absurd h hz
              refine (replace_atomic _ e pth ts1 au false hf hx _ s0 h0 (Whole a (absolute e.cwd pth)) (fun s h => ⟨_, h, hc⟩) ?_).weaken (fun s h => h.2) (fun _ h => h) ?_
              · intro b ts2 hcc s h
                rw [copied_same hm hz] at hcc
                cases hcc
                exact ⟨_, h, hnew⟩
              · intro r s h
                cases r <;> exact h
      intro _
      cases v1' with
      | none => exact Holds.pure _ fun s h => h
      | some t => exact v1_whole (c4 t rfl) ha

end Scribbu.History
