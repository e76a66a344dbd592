import Verif.Model.SplitFiles
import Verif.Spec.SplitFiles
import Verif.Proofs.FileSys
import Verif.Proofs.Backup

/-! Lemmas about `Model/SplitFiles`. -/

namespace Scribbu.SplitFiles
open Scribbu Spec Spec.SplitFiles

/-! ## Names -/

theorem dec_numeral (n : Nat) : Backup.dec n = numeral n := by
  induction n using Nat.strongRecOn with
  | _ n ih =>
    have hd : ∀ k, k < 10 → UInt8.ofNat (48 + k) = UInt8.ofNat (Nat.digitChar k).toNat := by
      intro k hk
      have : k = 0 ∨ k = 1 ∨ k = 2 ∨ k = 3 ∨ k = 4 ∨ k = 5 ∨ k = 6 ∨ k = 7 ∨ k = 8 ∨ k = 9 := by omega
      rcases this with rfl | rfl | rfl | rfl | rfl | rfl | rfl | rfl | rfl | rfl <;> decide
    unfold Backup.dec numeral
    rw [Nat.toDigits_eq_if (by omega)]
    split
    · rename_i h
      rw [hd n h]; rfl
    · rename_i h
      rw [ih (n / 10) (by omega), hd _ (Nat.mod_lt _ (by omega))]
      simp [numeral]

theorem tagName_eq (E : Env) (n : Nat) : tagName E n = tagAt E.suffix n := by
  unfold tagName tagAt
  rw [dec_numeral]

theorem numeral_inj {m n : Nat} (h : numeral m = numeral n) : m = n := by
  rw [← dec_numeral, ← dec_numeral] at h
  have hm := (Backup.dec_digits m).2.2
  have hn := (Backup.dec_digits n).2.2
  rw [h] at hm
  exact hm.symm.trans hn

theorem tagAt_inj {S : Bytes} {m n : Nat} (h : tagAt S m = tagAt S n) : m = n := by
  unfold tagAt at h
  exact numeral_inj (List.append_cancel_left (List.append_cancel_right h))

theorem tagAt_track {S : Bytes} {n : Nat} : tagAt S n ≠ trackAt S := by
  intro h
  have : (tagAt S n).head? = (trackAt S).head? := by rw [h]
  revert this
  simp [tagAt, trackAt]

theorem v1_track {S : Bytes} : v1At S ≠ trackAt S := by
  intro h
  have : (v1At S).head? = (trackAt S).head? := by rw [h]
  revert this
  simp [v1At, trackAt]

theorem tagAt_v1 {S : Bytes} {n : Nat} : tagAt S n ≠ v1At S := by
  intro h
  have : (tagAt S n)[4]? = (v1At S)[4]? := by rw [h]
  revert this
  simp [tagAt, v1At]

/-! ## Only the files named are touched -/

/-- `t'` comes after `t`, and what is not named is as it was, in every state passed through. -/
def Keeps (S : Bytes) (t t' : St) : Prop :=
  (∀ p, ¬ OutName S p → t'.fs.get p = t.fs.get p) ∧
    ∀ x ∈ t'.seen, x ∈ t.seen ∨ ∀ p, ¬ OutName S p → x.get p = t.fs.get p

theorem Keeps.refl (S : Bytes) (t : St) : Keeps S t t := ⟨fun _ _ => rfl, fun _ h => .inl h⟩

theorem Keeps.trans {S : Bytes} {a b c : St} (h : Keeps S a b) (k : Keeps S b c) : Keeps S a c := by
  refine ⟨fun p hp => (k.1 p hp).trans (h.1 p hp), fun x hx => ?_⟩
  rcases k.2 x hx with hx | hx
  · exact h.2 x hx
  · exact .inr fun p hp => (hx p hp).trans (h.1 p hp)

theorem Keeps.put {S : Bytes} {t : St} {p : Path} (b : Bytes) (h : OutName S p) : Keeps S t (t.to (t.fs.put p b)) := by
  have hk : ∀ q, ¬ OutName S q → (t.fs.put p b).get q = t.fs.get q := by
    intro q hq
    exact FS.get_put_ne _ _ (by rintro rfl; exact hq h)
  refine ⟨hk, fun x hx => ?_⟩
  rcases List.mem_cons.1 hx with rfl | hx
  · exact .inr hk
  · exact .inl hx

theorem Keeps.stream {S : Bytes} {α : Type} (m : SM α) (t : St) : Keeps S t (SX.stream m t).2 := ⟨fun _ _ => rfl, fun _ h => .inl h⟩

theorem Keeps.bind {S : Bytes} {α β : Type} {m : SX α} {f : α → SX β} (hm : ∀ t, Keeps S t (m t).2) (hf : ∀ a t, Keeps S t (f a t).2)
    (t : St) : Keeps S t (m.bind f t).2 := by
  unfold SX.bind
  have := hm t
  generalize m t = r at this
  obtain ⟨r, t'⟩ := r
  cases r with
  | ok a => exact this.trans (hf a t')
  | throw e => exact this
  | ub u => exact this

theorem keeps_xfer (E : Env) (inp : Path) {name : Path} (i : Nat) (cb : Int) (h : OutName E.suffix name) (t : St) :
    Keeps E.suffix t (xfer E inp name i cb t).2 := by
  refine Keeps.bind (fun t => ?_) (fun _ => Keeps.bind (Keeps.stream _) fun p t => ?_) t
  · unfold opened
    split
    · exact Keeps.refl _ _
    · have := Keeps.put (t := t) [] h
      dsimp only
      split
      · exact this
      · exact this
  · unfold written
    split
    · exact Keeps.put _ h
    · exact Keeps.put _ h
    · exact Keeps.put _ h

theorem keeps_tags (E : Env) (inp : Path) (fuel : Nat) : ∀ (n : Nat) (t : St), Keeps E.suffix t (tags E inp fuel n t).2 := by
  induction fuel with
  | zero =>
    intro n t
    refine Keeps.bind (Keeps.stream _) (fun o t => ?_) t
    cases o <;> exact Keeps.refl _ _
  | succ fuel ih =>
    intro n t
    refine Keeps.bind (Keeps.stream _) (fun o t => ?_) t
    cases o with
    | none => exact Keeps.refl _ _
    | some i => exact Keeps.bind (keeps_xfer E inp n _ (tagName_eq E n ▸ .tag n)) (fun _ => ih (n + 1)) t

theorem keeps_split (E : Env) (inp : Path) (fuel : Nat) (t : St) : Keeps E.suffix t (split E inp fuel t).2 := by
  refine Keeps.bind (Keeps.stream _) (fun _ => Keeps.bind (keeps_tags E inp fuel 0) fun o t => ?_) t
  cases o with
  | none => exact Keeps.refl _ _
  | some n =>
    refine Keeps.bind (Keeps.stream _) (fun i => Keeps.bind (Keeps.stream _) fun here =>
      Keeps.bind (keeps_xfer E inp n _ .track) fun _ t => ?_) t
    split
    · exact Keeps.bind (keeps_xfer E inp (n + 1) _ .v1) (fun _ t => Keeps.refl _ _) t
    · exact Keeps.refl _ _

/-! ## What is written -/

/-- Files made one after the other. -/
def put2 (s : FS) (e : Path × Bytes) : FS := (s.put e.1 []).put e.1 e.2

theorem get_puts (l : List (Path × Bytes)) (h : (l.map (·.1)).Nodup) (s : FS) :
    (∀ e ∈ l, (l.foldl put2 s).get e.1 = some e.2) ∧ ∀ p, p ∉ l.map (·.1) → (l.foldl put2 s).get p = s.get p := by
  induction l generalizing s with
  | nil => exact ⟨by simp, fun _ _ => rfl⟩
  | cons a l ih =>
    rw [List.map_cons, List.nodup_cons] at h
    obtain ⟨i1, i2⟩ := ih h.2 (put2 s a)
    refine ⟨fun e he => ?_, fun p hp => ?_⟩
    · rcases List.mem_cons.1 he with rfl | he
      · rw [List.foldl_cons, i2 _ h.1]
        exact FS.get_put_same _ _ _
      · exact i1 e he
    · rw [List.map_cons, List.mem_cons, not_or] at hp
      rw [List.foldl_cons, i2 _ hp.2]
      unfold put2
      rw [FS.get_put_ne _ _ hp.1, FS.get_put_ne _ _ hp.1]

/-- The names of the tags from the `n`th on, with their contents. -/
def tagFiles (S : Bytes) : Nat → List Bytes → List (Path × Bytes)
  | _, [] => []
  | n, t :: ts => (tagAt S n, t) :: tagFiles S (n + 1) ts

theorem bind_inv {α β : Type} {m : SX α} {f : α → SX β} {t t' : St} {b : β} (h : m.bind f t = (.ok b, t')) :
    ∃ a t1, m t = (.ok a, t1) ∧ f a t1 = (.ok b, t') := by
  unfold SX.bind at h
  generalize m t = r at h
  obtain ⟨r, t1⟩ := r
  cases r with
  | ok a => exact ⟨a, t1, rfl, h⟩
  | throw e => cases h
  | ub u => cases h

theorem stream_inv {α : Type} {m : SM α} {t t' : St} {a : α} (h : SX.stream m t = (.ok a, t')) :
    m t.s = (.ok a, t'.s) ∧ t'.fs = t.fs := by
  have h1 := congrArg Prod.fst h
  have h2 := congrArg Prod.snd h
  simp only [SX.stream] at h1 h2
  subst h2
  exact ⟨Prod.ext h1 rfl, rfl⟩

theorem xfer_inv {E : Env} {inp name : Path} {i : Nat} {cb : Int} {t t' : St} (h : xfer E inp name i cb t = (.ok (), t'))
    (hn : name ≠ inp) (hl : ∀ k, E.plan i ≠ .lost k) : ∃ p, xferBytes cb t.s = (.ok p, t'.s) ∧ t'.fs = put2 t.fs (name, p) := by
  obtain ⟨_, t1, h1, h⟩ := bind_inv h
  obtain ⟨p, t2, h2, h3⟩ := bind_inv h
  obtain ⟨h2, h2'⟩ := stream_inv h2
  unfold opened at h1
  split at h1
  · cases h1
  · simp only at h1
    cases h1
    refine ⟨p, ?_⟩
    unfold written at h3
    split at h3
    · cases h3
    · rename_i k hk
      exact absurd hk (hl k)
    · cases h3
      exact ⟨h2, by simp only [St.to, put2, h2']⟩

theorem tags_inv {E : Env} {inp : Path} (hn : ∀ n, tagAt E.suffix n ≠ inp) (hl : ∀ i k, E.plan i ≠ .lost k) (fuel : Nat) :
    ∀ {n k : Nat} {t t' : St}, tags E inp fuel n t = (.ok (some k), t') →
      ∃ ts, splitTags fuel t.s = (.ok (some ts), t'.s) ∧ t'.fs = (tagFiles E.suffix n ts).foldl put2 t.fs := by
  induction fuel with
  | zero =>
    intro n k t t' h
    obtain ⟨o, t1, h1, h⟩ := bind_inv h
    obtain ⟨h1, h1'⟩ := stream_inv h1
    cases o with
    | none =>
      cases h
      refine ⟨[], ?_, h1'⟩
      unfold splitTags
      rw [SM.bind_ok h1]
      rfl
    | some i => cases h
  | succ fuel ih =>
    intro n k t t' h
    obtain ⟨o, t1, h1, h⟩ := bind_inv h
    obtain ⟨h1, h1'⟩ := stream_inv h1
    cases o with
    | none =>
      cases h
      refine ⟨[], ?_, h1'⟩
      unfold splitTags
      rw [SM.bind_ok h1]
      rfl
    | some i =>
      obtain ⟨_, t2, h2, h⟩ := bind_inv h
      rw [tagName_eq] at h2
      obtain ⟨p, h2, h2'⟩ := xfer_inv h2 (hn n) (hl n)
      obtain ⟨ts, h3, h3'⟩ := ih h
      refine ⟨p :: ts, ?_, ?_⟩
      · unfold splitTags
        rw [SM.bind_ok h1]
        dsimp only
        rw [SM.bind_ok h2, SM.bind_ok h3]
        rfl
      · rw [h3', h2', h1']
        rfl

/-- The files for the pieces. -/
def files (S : Bytes) (ts : List Bytes) (track : Bytes) (v1 : Option Bytes) : List (Path × Bytes) :=
  tagFiles S 0 ts ++ (trackAt S, track) :: v1.toList.map fun b => (v1At S, b)

theorem split_inv {E : Env} {inp : Path} (hn : ¬ OutName E.suffix inp) (hl : ∀ i k, E.plan i ≠ .lost k) {fuel : Nat} {t t' : St} {d : Bytes}
    {m : IoBits} (hs : t.s = ⟨d, 0, m, IoBits.none⟩) (h : split E inp fuel t = (.ok (some ()), t')) :
    ∃ ts track v1, (splitTags fuel ⟨d, 0, IoBits.all, IoBits.none⟩).1 = .ok (some ts) ∧
      (splitFile fuel t.s).1 = .ok (some (ts ++ track :: v1.toList)) ∧ t'.fs = (files E.suffix ts track v1).foldl put2 t.fs := by
  have n1 : ∀ n, tagAt E.suffix n ≠ inp := by rintro n rfl; exact hn (.tag n)
  have n2 : trackAt E.suffix ≠ inp := by rintro rfl; exact hn .track
  have n3 : v1At E.suffix ≠ inp := by rintro rfl; exact hn .v1
  obtain ⟨_, t1, h1, h⟩ := bind_inv h
  obtain ⟨h1, f1⟩ := stream_inv h1
  obtain ⟨o, t2, h2, h⟩ := bind_inv h
  cases o with
  | none => cases h
  | some n =>
    obtain ⟨ts, h2, f2⟩ := tags_inv n1 hl fuel h2
    obtain ⟨i, t3, h3, h⟩ := bind_inv h
    obtain ⟨h3, f3⟩ := stream_inv h3
    obtain ⟨here, t4, h4, h⟩ := bind_inv h
    obtain ⟨h4, f4⟩ := stream_inv h4
    obtain ⟨_, t5, h5, h⟩ := bind_inv h
    obtain ⟨track, h5, f5⟩ := xfer_inv h5 n2 (hl n)
    have hts : (splitTags fuel ⟨d, 0, IoBits.all, IoBits.none⟩).1 = .ok (some ts) := by
      rw [hs, SM.setExceptions_good] at h1
      have e := congrArg Prod.snd h1
      simp only at e
      rw [e, h2]
    have hf : splitFile fuel t.s = (if i.start ≠ i.stop then (do
        let v1 ← xferBytes (i.stop - i.start)
        pure (some (ts ++ [track, v1]))) else pure (some (ts ++ [track])) : SM _) t5.s := by
      unfold splitFile
      rw [SM.bind_ok h1, SM.bind_ok h2]
      dsimp only
      rw [SM.bind_ok h3, SM.bind_ok h4, SM.bind_ok h5]
    rw [hf]
    by_cases hi : i.start ≠ i.stop
    · rw [if_pos hi] at h
      obtain ⟨_, t6, h6, h⟩ := bind_inv h
      obtain ⟨v1, h6, f6⟩ := xfer_inv h6 n3 (hl _)
      cases h
      refine ⟨ts, track, some v1, hts, ?_, ?_⟩
      · rw [if_pos hi, SM.bind_ok h6]
        rfl
      · rw [f6, f5, f4, f3, f2, f1]
        simp [files, List.foldl_append, trackName, v1Name, trackAt, v1At]
    · rw [if_neg hi] at h
      cases h
      refine ⟨ts, track, none, hts, ?_, ?_⟩
      · rw [if_neg hi]
        rfl
      · rw [f5, f4, f3, f2, f1]
        simp [files, List.foldl_append, trackName, trackAt]

/-! ## If everything can be written -/

theorem bind_fwd {α β : Type} {m : SX α} {f : α → SX β} {t t1 : St} {a : α} (h : m t = (.ok a, t1)) : m.bind f t = f a t1 := by
  unfold SX.bind
  rw [h]

theorem stream_fwd {α : Type} {m : SM α} {t : St} {a : α} {s : IStream} (h : m t.s = (.ok a, s)) :
    SX.stream m t = (.ok a, { t with s := s }) := by
  unfold SX.stream
  rw [h]

theorem xfer_fwd {E : Env} {inp name : Path} {i : Nat} {cb : Int} {t : St} {p : Bytes} {s : IStream} (h : xferBytes cb t.s = (.ok p, s))
    (hn : name ≠ inp) (hd : E.plan i = .done) : ∃ t', xfer E inp name i cb t = (.ok (), t') ∧ t'.s = s := by
  have h1 : opened E inp name i t = (.ok (), t.to (t.fs.put name [])) := by
    unfold opened
    rw [if_neg (by rw [hd]; simp)]
    dsimp only
    rw [if_neg hn]
  unfold xfer
  rw [bind_fwd h1, bind_fwd (stream_fwd (t := t.to (t.fs.put name [])) h)]
  unfold written
  rw [hd]
  exact ⟨_, rfl, rfl⟩

theorem sbind_inv {α β : Type} {m : SM α} {f : α → SM β} {s s' : IStream} {b : β} (h : SM.bind m f s = (.ok b, s')) :
    ∃ a s1, m s = (.ok a, s1) ∧ f a s1 = (.ok b, s') := by
  unfold SM.bind at h
  generalize m s = r at h
  obtain ⟨r, s1⟩ := r
  cases r with
  | ok a => exact ⟨a, s1, rfl, h⟩
  | throw e => cases h
  | ub u => cases h

theorem tags_fwd {E : Env} {inp : Path} (hn : ∀ n, tagAt E.suffix n ≠ inp) (hd : ∀ i, E.plan i = .done) (fuel : Nat) :
    ∀ {n : Nat} {t : St} {ts : List Bytes} {s : IStream}, splitTags fuel t.s = (.ok (some ts), s) →
      ∃ k t', tags E inp fuel n t = (.ok (some k), t') ∧ t'.s = s := by
  induction fuel with
  | zero =>
    intro n t ts s h
    obtain ⟨o, s1, h1, h2⟩ := sbind_inv h
    cases o with
    | none =>
      cases h2
      exact ⟨n, _, bind_fwd (stream_fwd h1), rfl⟩
    | some i => cases h2
  | succ fuel ih =>
    intro n t ts s h
    obtain ⟨o, s1, h1, h2⟩ := sbind_inv h
    cases o with
    | none =>
      cases h2
      exact ⟨n, _, bind_fwd (stream_fwd h1), rfl⟩
    | some i =>
      obtain ⟨p, s2, hx, h3⟩ := sbind_inv h2
      obtain ⟨r, s3, h3, h4⟩ := sbind_inv h3
      cases r with
      | none => cases h4
      | some r =>
        cases h4
        obtain ⟨t2, h5, h6⟩ := xfer_fwd (E := E) (inp := inp) (name := tagAt E.suffix n) (i := n) (t := { t with s := s1 }) hx (hn n) (hd n)
        obtain ⟨k, t3, h7, h8⟩ := ih (n := n + 1) (t := t2) (by rw [h6]; exact h3)
        refine ⟨k, t3, (bind_fwd (stream_fwd h1)).trans ?_, h8⟩
        rw [← tagName_eq] at h5
        exact (bind_fwd h5).trans h7

theorem split_fwd {E : Env} {inp : Path} (hn : ¬ OutName E.suffix inp) (hd : ∀ i, E.plan i = .done) {fuel : Nat} {t : St}
    {ps : List Bytes} (h : (splitFile fuel t.s).1 = .ok (some ps)) : ∃ t', split E inp fuel t = (.ok (some ()), t') := by
  have n1 : ∀ n, tagAt E.suffix n ≠ inp := by rintro n rfl; exact hn (.tag n)
  have n2 : trackAt E.suffix ≠ inp := by rintro rfl; exact hn .track
  have n3 : v1At E.suffix ≠ inp := by rintro rfl; exact hn .v1
  obtain ⟨s', h⟩ : ∃ s', splitFile fuel t.s = (.ok (some ps), s') := ⟨_, Prod.ext h rfl⟩
  obtain ⟨_, s1, h1, h⟩ := sbind_inv h
  obtain ⟨o, s2, h2, h⟩ := sbind_inv h
  cases o with
  | none => cases h
  | some ts =>
    obtain ⟨i, s3, h3, h⟩ := sbind_inv h
    obtain ⟨here, s4, h4, h⟩ := sbind_inv h
    obtain ⟨track, s5, h5, h⟩ := sbind_inv h
    obtain ⟨n, t2, g2, e2⟩ := tags_fwd (E := E) (inp := inp) n1 hd fuel (n := 0) (t := { t with s := s1 }) h2
    subst e2
    obtain ⟨t5, g5, e5⟩ := xfer_fwd (E := E) (inp := inp) (i := n) (t := { t2 with s := s4 }) h5 n2 (hd n)
    subst e5
    have key : split E inp fuel t = (if i.start ≠ i.stop then (xfer E inp (v1Name E) (n + 1) (i.stop - i.start)).bind fun _ => fun t => (.ok (some ()), t)
        else fun t => (.ok (some ()), t) : SX _) t5 := by
      unfold split
      rw [bind_fwd (stream_fwd h1), bind_fwd g2]
      dsimp only
      rw [bind_fwd (stream_fwd h3), bind_fwd (stream_fwd (t := { t2 with s := s3 }) h4)]
      exact bind_fwd g5
    rw [key]
    by_cases hi : i.start ≠ i.stop
    · rw [if_pos hi] at h ⊢
      obtain ⟨v1, s6, h6, h⟩ := sbind_inv h
      obtain ⟨t6, g6, e6⟩ := xfer_fwd (E := E) (inp := inp) (i := n + 1) (t := t5) h6 n3 (hd _)
      exact ⟨t6, bind_fwd g6⟩
    · rw [if_neg hi]
      exact ⟨_, rfl⟩

/-! ## The files -/

theorem mem_tagFiles {S : Bytes} {n : Nat} {ts : List Bytes} {e : Path × Bytes} :
    e ∈ tagFiles S n ts ↔ ∃ i, ts[i]? = some e.2 ∧ e.1 = tagAt S (n + i) := by
  induction ts generalizing n with
  | nil => simp [tagFiles]
  | cons t ts ih =>
    simp only [tagFiles, List.mem_cons, ih]
    constructor
    · rintro (rfl | ⟨i, h1, h2⟩)
      · exact ⟨0, rfl, rfl⟩
      · exact ⟨i + 1, by simpa using h1, by rw [h2]; congr 1; omega⟩
    · rintro ⟨i, h1, h2⟩
      cases i with
      | zero => exact .inl (Prod.ext h2 (by simpa using h1.symm))
      | succ i => exact .inr ⟨i, by simpa using h1, by rw [h2]; congr 1; omega⟩

theorem nodup_tagFiles {S : Bytes} {n : Nat} {ts : List Bytes} : ((tagFiles S n ts).map (·.1)).Nodup := by
  induction ts generalizing n with
  | nil => simp [tagFiles]
  | cons t ts ih =>
    simp only [tagFiles, List.map_cons, List.nodup_cons]
    refine ⟨?_, ih⟩
    rw [List.mem_map]
    rintro ⟨e, he, hh⟩
    obtain ⟨i, _, h2⟩ := mem_tagFiles.1 he
    have := tagAt_inj (h2.symm.trans hh)
    omega

theorem nodup_files (S : Bytes) (ts : List Bytes) (track : Bytes) (v1 : Option Bytes) : ((files S ts track v1).map (·.1)).Nodup := by
  unfold files
  rw [List.map_append, List.nodup_append]
  refine ⟨nodup_tagFiles, ?_, ?_⟩
  · cases v1 with
    | none => simp
    | some b => simpa using fun h => v1_track h.symm
  · intro a ha b hb e
    subst e
    obtain ⟨e, he, rfl⟩ := List.mem_map.1 ha
    obtain ⟨i, _, h2⟩ := mem_tagFiles.1 he
    cases v1 with
    | none => exact tagAt_track (h2.symm.trans (by simpa using hb))
    | some b =>
      have hb : e.1 = trackAt S ∨ e.1 = v1At S := by simpa using hb
      rcases hb with hb | hb
      · exact tagAt_track (h2.symm.trans hb)
      · exact tagAt_v1 (h2.symm.trans hb)

theorem mem_files {S : Bytes} {ts : List Bytes} {track : Bytes} {v1 : Option Bytes} {e : Path × Bytes} :
    e ∈ files S ts track v1 ↔ (∃ i, ts[i]? = some e.2 ∧ e.1 = tagAt S i) ∨ e = (trackAt S, track) ∨ ∃ b, v1 = some b ∧ e = (v1At S, b) := by
  unfold files
  rw [List.mem_append, List.mem_cons, mem_tagFiles]
  simp only [Nat.zero_add]
  cases v1 <;> simp

end Scribbu.SplitFiles
