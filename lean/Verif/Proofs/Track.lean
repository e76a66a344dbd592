import Verif.Model.Track
import Verif.Proofs.Mp3Count
import Verif.Proofs.Id3v1Find

namespace Scribbu
open Spec

/-- `find_id3v1_tag` under a mask with failbit set. -/
theorem findId3v1Tag_spec (f : Bytes) (p : Nat) (m : IoBits) (hm : m.fail = true) :
    ∃ q, findId3v1Tag ⟨f, p, m, IoBits.none⟩ =
      (.ok ((p : Int), (findV1 f).start), ⟨f, q, m, IoBits.none⟩) := by
  have eall : IoBits.all.fail = true := rfl
  have tagE : TAG = [0x54, 0x41, 0x47] := rfl
  have tagpE : TAGP = [0x54, 0x41, 0x47, 0x2b] := rfl
  unfold findId3v1Tag
  rw [SM.bind_ok (SM.exceptions_apply _), SM.bind_ok (SM.setExceptions_good _ _ _ _),
    SM.bind_ok (SM.tellg_good _ _ _)]
  -- second probe
  have second : ∀ (q : Nat) (m' : IoBits), m'.fail = true → (¬ ∃ n, ExtAt f n) →
      ∃ q', ((SM.attempt (do
        SM.seekEnd (-128)
        let buf ← SM.read 3
        if buf.length ≠ 3 then SM.ub .uninit
        else if buf = [0x54, 0x41, 0x47] then do
          let t ← SM.tellg
          pure (t - 3)
        else do
          SM.seekEnd 0
          SM.tellg) >>= fun r2 => (match r2 with
      | some t => pure t
      | none => do
        SM.setExceptions IoBits.none
        SM.clear
        SM.seekEnd 0
        SM.tellg : SM Int)) >>= fun tag => SM.setExceptions m >>= fun _ => pure ((p : Int), tag))
        ⟨f, q, m', IoBits.none⟩ = (.ok ((p : Int), (findV1 f).start), ⟨f, q', m, IoBits.none⟩) := by
    intro q m' hm' hno
    by_cases hl : 128 ≤ f.length
    · have hse : SM.seekEnd (-128) ⟨f, q, m', IoBits.none⟩ = _ := SM.seekEnd_neg 128 f q m' hl
      have hr := SM.read_full 3 f (f.length - 128) m' (by omega)
      have hlen : ((f.drop (f.length - 128)).take 3).length = 3 := by simp; omega
      by_cases ht : (f.drop (f.length - 128)).take 3 = TAG
      · have hin : (SM.attempt (do
          SM.seekEnd (-128)
          let buf ← SM.read 3
          if buf.length ≠ 3 then SM.ub .uninit
          else if buf = [0x54, 0x41, 0x47] then do
            let t ← SM.tellg
            pure (t - 3)
          else do
            SM.seekEnd 0
            SM.tellg)) ⟨f, q, m', IoBits.none⟩ = (.ok (some ((f.length - 128 : Nat) : Int)),
              ⟨f, f.length - 128 + 3, m', IoBits.none⟩) := by
          apply SM.attempt_ok
          rw [SM.bind_ok hse, SM.bind_ok hr, if_neg (by simp [hlen]), if_pos (ht.trans tagE),
            SM.bind_ok (SM.tellg_good _ _ _)]
          simp only [SM.pure_apply']
          rw [show ((f.length - 128 + 3 : Nat) : Int) - 3 = ((f.length - 128 : Nat) : Int) by omega]
        rw [SM.bind_assoc, SM.bind_ok hin, SM.bind_ok (SM.pure_apply' _ _),
          SM.bind_ok (SM.setExceptions_good _ _ _ _)]
        have hs : ∃ n, StdAt f n := (stdAt_iff f).2 ⟨hl, ht⟩
        refine ⟨f.length - 128 + 3, ?_⟩
        simp only [SM.pure_apply', findV1, if_neg hno, if_pos hs]
        rw [show ((f.length - 128 : Nat) : Int) = (f.length : Int) - 128 by omega]
      · have hin : (SM.attempt (do
          SM.seekEnd (-128)
          let buf ← SM.read 3
          if buf.length ≠ 3 then SM.ub .uninit
          else if buf = [0x54, 0x41, 0x47] then do
            let t ← SM.tellg
            pure (t - 3)
          else do
            SM.seekEnd 0
            SM.tellg)) ⟨f, q, m', IoBits.none⟩ = (.ok (some (f.length : Int)),
              ⟨f, f.length, m', IoBits.none⟩) := by
          apply SM.attempt_ok
          rw [SM.bind_ok hse, SM.bind_ok hr, if_neg (by simp [hlen]), if_neg (fun h => ht (h.trans tagE.symm)),
            SM.bind_ok (SM.seekEnd_zero _ _ _), SM.tellg_good]
        rw [SM.bind_assoc, SM.bind_ok hin, SM.bind_ok (SM.pure_apply' _ _),
          SM.bind_ok (SM.setExceptions_good _ _ _ _)]
        have hs : ¬ ∃ n, StdAt f n := fun h => ht ((stdAt_iff f).1 h).2
        refine ⟨f.length, ?_⟩
        simp only [SM.pure_apply', findV1, if_neg hno, if_neg hs]
    · have hse : SM.seekEnd (-128) ⟨f, q, m', IoBits.none⟩ = _ :=
        SM.seekEnd_fail_throw 128 f q m' (by omega) hm'
      have hin : (SM.attempt (do
          SM.seekEnd (-128)
          let buf ← SM.read 3
          if buf.length ≠ 3 then SM.ub .uninit
          else if buf = [0x54, 0x41, 0x47] then do
            let t ← SM.tellg
            pure (t - 3)
          else do
            SM.seekEnd 0
            SM.tellg)) ⟨f, q, m', IoBits.none⟩ = (.ok none, _) :=
        SM.attempt_fail (SM.bind_throw hse)
      rw [SM.bind_assoc, SM.bind_ok hin]
      simp only
      rw [SM.bind_assoc, SM.bind_ok (SM.setExceptions_none _ _ _ _), SM.bind_assoc,
        SM.bind_ok (SM.clear_apply _), SM.bind_assoc, SM.bind_ok (SM.seekEnd_zero _ _ _),
        SM.bind_ok (SM.tellg_good _ _ _), SM.bind_ok (SM.setExceptions_good _ _ _ _)]
      have hs : ¬ ∃ n, StdAt f n := fun h => hl ((stdAt_iff f).1 h).1
      refine ⟨f.length, ?_⟩
      simp only [SM.pure_apply', findV1, if_neg hno, if_neg hs]
  by_cases hl : 355 ≤ f.length
  · have hse : SM.seekEnd (-355) ⟨f, p, IoBits.all, IoBits.none⟩ = _ :=
      SM.seekEnd_neg 355 f p IoBits.all hl
    have hr := SM.read_full 4 f (f.length - 355) IoBits.all (by omega)
    by_cases ht : (f.drop (f.length - 355)).take 4 = TAGP
    · rw [SM.bind_ok (SM.attempt_ok (s' := ⟨f, f.length - 355 + 4, IoBits.all, IoBits.none⟩)
        (a := some ((f.length - 355 : Nat) : Int)) (by
        rw [SM.bind_ok hse, SM.bind_ok hr, if_pos (ht.trans tagpE), SM.bind_ok (SM.tellg_good _ _ _)]
        simp only [SM.pure_apply']
        rw [show ((f.length - 355 + 4 : Nat) : Int) - 4 = ((f.length - 355 : Nat) : Int) by omega]))]
      simp only
      rw [SM.bind_ok (SM.pure_apply' _ _), SM.bind_ok (SM.pure_apply' _ _),
        SM.bind_ok (SM.setExceptions_good _ _ _ _)]
      have he : ∃ n, ExtAt f n := (extAt_iff f).2 ⟨hl, ht⟩
      refine ⟨f.length - 355 + 4, ?_⟩
      simp only [SM.pure_apply', findV1, if_pos he]
      rw [show ((f.length - 355 : Nat) : Int) = (f.length : Int) - 355 by omega]
    · have hno : ¬ ∃ n, ExtAt f n := fun h => ht ((extAt_iff f).1 h).2
      rw [SM.bind_ok (SM.attempt_ok (s' := ⟨f, f.length - 355 + 4, IoBits.all, IoBits.none⟩)
        (a := none) (by
        rw [SM.bind_ok hse, SM.bind_ok hr, if_neg (fun h => ht (h.trans tagpE.symm))]; rfl))]
      simp only
      rw [SM.bind_ok (SM.pure_apply' _ _)]
      exact second _ _ eall hno
  · have hse : SM.seekEnd (-355) ⟨f, p, IoBits.all, IoBits.none⟩ = _ :=
      SM.seekEnd_fail_throw 355 f p IoBits.all (by omega) eall
    have hno : ¬ ∃ n, ExtAt f n := fun h => hl ((extAt_iff f).1 h).1
    rw [SM.bind_ok (SM.attempt_fail (SM.bind_throw hse))]
    simp only
    rw [SM.bind_assoc, SM.bind_ok (SM.setExceptions_none _ _ _ _), SM.bind_assoc,
        SM.bind_ok (SM.clear_apply _), SM.bind_assoc, SM.bind_ok (SM.seekEnd_zero _ _ _),
        SM.bind_assoc, SM.bind_ok (SM.tellg_good _ _ _), SM.bind_assoc,
        SM.bind_ok (SM.setExceptions_good _ _ _ _), SM.bind_ok (SM.pure_apply' _ _)]
    exact second _ _ hm hno

theorem md5Loop_unfold (buf fuel : Nat) (nleft : Int) (acc : Bytes) :
    md5Loop buf fuel nleft acc =
      if 0 < nleft then
        match fuel with
        | 0 => pure none
        | fuel + 1 => do
          let n := if nleft < buf then nleft else (buf : Int)
          let b ← SM.read n.toNat
          md5Loop buf fuel (nleft - n) (acc ++ b)
      else pure (some acc) := by
  cases fuel <;> rfl

theorem md5Loop_spec (buf : Nat) (hb : 0 < buf) : ∀ (fuel n : Nat) (acc f : Bytes) (p : Nat)
    (m : IoBits), n ≤ fuel → p + n ≤ f.length →
    md5Loop buf fuel n acc ⟨f, p, m, IoBits.none⟩ =
      (.ok (some (acc ++ (f.drop p).take n)), ⟨f, p + n, m, IoBits.none⟩) := by
  intro fuel
  induction fuel with
  | zero =>
    intro n acc f p m hn hl
    have : n = 0 := by omega
    subst this
    simp [md5Loop_unfold]
  | succ fuel ih =>
    intro n acc f p m hn hl
    rw [md5Loop_unfold]
    by_cases h0 : n = 0
    · subst h0; simp
    · rw [if_pos (by omega)]
      simp only
      by_cases hlt : (n : Int) < buf
      · rw [if_pos hlt, Int.toNat_natCast, SM.bind_ok (SM.read_full n f p m hl)]
        have := ih 0 (acc ++ (f.drop p).take n) f (p + n) m (by omega) (by omega)
        rw [show (n : Int) - n = ((0 : Nat) : Int) by omega, this]
        simp
      · rw [if_neg hlt, Int.toNat_natCast, SM.bind_ok (SM.read_full buf f p m (by omega))]
        have := ih (n - buf) (acc ++ (f.drop p).take buf) f (p + buf) m (by omega) (by omega)
        rw [show (n : Int) - buf = ((n - buf : Nat) : Int) by omega, this]
        have e : (f.drop p).take n = (f.drop p).take buf ++ (f.drop (p + buf)).take (n - buf) := by
          rw [← List.drop_drop]
          conv => lhs; rw [show n = buf + (n - buf) by omega, List.take_add]
        rw [e, List.append_assoc, show p + buf + (n - buf) = p + n by omega]

/-- No exception under the scanning mask. -/
def Quiet {α : Type} (x : SM α) : Prop :=
  ∀ s, Wk s → (∃ a s', x s = (.ok a, s') ∧ Wk s' ∧ s'.data = s.data) ∨ ∃ u s', x s = (.ub u, s')

variable {α β : Type}

theorem Quiet.pure (a : α) : Quiet (Pure.pure a : SM α) :=
  fun s hs => .inl ⟨a, s, rfl, hs, rfl⟩
theorem Quiet.ub (u : UB) : Quiet (SM.ub u : SM α) := fun s _ => .inr ⟨u, s, rfl⟩
theorem Quiet.lift_isLame (b : Bytes) : Quiet (SM.lift (isLame b)) := by
  intro s hs
  unfold isLame
  split
  · exact .inl ⟨_, s, rfl, hs, rfl⟩
  · split
    · exact .inr ⟨_, s, rfl⟩
    · exact .inl ⟨_, s, rfl, hs, rfl⟩
theorem Quiet.bind {x : SM α} {f : α → SM β} (hx : Quiet x) (hf : ∀ a, Quiet (f a)) :
    Quiet (x >>= f) := by
  intro s hs
  rcases hx s hs with ⟨a, s1, h1, h2, h3⟩ | ⟨u, s1, h1⟩
  · rw [SM.bind_ok h1]
    rcases hf a s1 h2 with ⟨b, s2, e1, e2, e3⟩ | h
    · exact .inl ⟨b, s2, e1, e2, e3.trans h3⟩
    · exact .inr h
  · right; exact ⟨u, s1, by rw [SM.bind_apply, h1]⟩
theorem Quiet.ite {c : Prop} [Decidable c] {x y : SM α} (hx : Quiet x) (hy : Quiet y) :
    Quiet (if c then x else y) := by
  split <;> assumption
theorem Quiet.read (n : Nat) : Quiet (SM.read n) := by
  intro s hs
  left
  have hk := Keeps.read n s hs
  rcases hs.cases with ⟨d, p, rfl⟩ | hf
  · by_cases hn : n = 0
    · subst hn
      exact ⟨[], ⟨d, p, badOnly, IoBits.none⟩, by simp [SM.read], ⟨rfl, .inl rfl⟩, rfl⟩
    · by_cases hl : p + n ≤ d.length
      · exact ⟨_, _, SM.read_full n d p _ hl, ⟨rfl, .inl rfl⟩, rfl⟩
      · exact ⟨_, _, read_short_bad n d p (by omega) (by omega), ⟨rfl, .inr (.inl rfl)⟩, rfl⟩
  · exact ⟨_, _, hf.read n, hs, rfl⟩
theorem Quiet.tellg : Quiet SM.tellg := by
  intro s hs
  left
  rcases hs.cases with ⟨d, p, rfl⟩ | hf
  · exact ⟨_, _, SM.tellg_good d p _, hs, rfl⟩
  · exact ⟨_, _, hf.tellg, hs, rfl⟩
theorem Quiet.seekBeg (n : Int) : Quiet (SM.seekBeg n) := by
  intro s hs
  obtain ⟨s', h1, h2, h3⟩ := seekAbs_ok n s hs
  exact .inl ⟨(), s', h1, h2, h3⟩
theorem Quiet.seekCur (n : Int) : Quiet (SM.seekCur n) := by
  intro s hs
  obtain ⟨s', h1, h2, h3⟩ := seekAbs_ok ((s.pos : Int) + n) s hs
  exact .inl ⟨(), s', h1, h2, h3⟩

theorem quiet_readInit (n : Nat) : Quiet (readInit n) := by
  unfold readInit
  exact Quiet.bind (Quiet.read n) fun _ => Quiet.ite (Quiet.ub _) (Quiet.pure _)
theorem quiet_readOver (b : Bytes) (n : Nat) : Quiet (readOver b n) := by
  unfold readOver
  exact Quiet.bind (Quiet.read n) fun _ => Quiet.pure _

macro "quiet" : tactic => `(tactic| repeat (first
  | assumption
  | exact Quiet.pure _ | exact Quiet.ub _ | exact quiet_readInit _ | exact quiet_readOver _ _
  | exact Quiet.lift_isLame _ | exact Quiet.tellg | exact Quiet.read _
  | exact Quiet.seekBeg _ | exact Quiet.seekCur _
  | refine Quiet.bind ?_ (fun _ => ?_) | refine Quiet.ite ?_ ?_
  | split))

theorem quiet_xingTag : Quiet xingTag := by unfold xingTag; quiet
theorem quiet_lameTag : Quiet lameTag := by unfold lameTag; quiet
theorem quiet_vbriTag : Quiet vbriTag := by unfold vbriTag; quiet
theorem quiet_xingBranch (b : Bytes) : Quiet (xingBranch b) := by
  have := quiet_xingTag
  have := quiet_lameTag
  unfold xingBranch; quiet
theorem quiet_parseVbr (n : Nat) : Quiet (parseVbr n) := by
  have := quiet_xingBranch
  have := quiet_vbriTag
  unfold parseVbr
  repeat (first
    | exact quiet_xingBranch _ | assumption
    | exact Quiet.pure _ | exact quiet_readOver _ _ | exact Quiet.tellg
    | exact Quiet.seekBeg _ | exact Quiet.seekCur _
    | refine Quiet.bind ?_ (fun _ => ?_) | refine Quiet.ite ?_ ?_)

/-- A rejected header leaves a good stream where it was. -/
theorem parseHeader_throw {h : Hdr} {d : Bytes} {p : Nat} {e : Exc} {s' : IStream}
    (ht : parseHeader h ⟨d, p, badOnly, IoBits.none⟩ = (.throw e, s')) :
    s' = ⟨d, p, badOnly, IoBits.none⟩ := by
  by_cases hroom : bits h.b1 0 2 = 0 → p + 2 ≤ d.length
  · rw [parseHeader_good h d p badOnly hroom] at ht
    split at ht
    · cases ht
    · cases ht; rfl
  · have hc : bits h.b1 0 2 = 0 := Classical.byContradiction fun hn => hroom fun h => absurd h hn
    have hs : d.length < p + 2 := by
      apply Classical.byContradiction; intro hn; exact hroom fun _ => by omega
    have eof0 : IoBits.none.eof = false := rfl
    unfold parseHeader at ht
    rw [SM.bind_ok (SM.tellg_good _ _ _), parseHeaderBody_eq] at ht
    by_cases h1 : h.b0.toNat = 255 ∧ 224 ≤ h.b1.toNat
    · simp only [h1, and_self, not_true_eq_false, if_false] at ht
      cases hv : mpegVersion (bits h.b1 3 4) with
      | none => simp [hv, SM.onThrow, SM.state, eof0] at ht; exact ht.2.symm
      | some v =>
        simp only [hv] at ht
        by_cases h2 : bits h.b1 1 4 = 1
        · simp only [h2, ne_eq, not_true_eq_false, if_false] at ht
          have hcrc : crcStep h ⟨d, p, badOnly, IoBits.none⟩ =
              (.ub .uninit, ⟨d, p + ((d.drop p).take 2).length, badOnly, ⟨true, true, false⟩⟩) := by
            unfold crcStep
            rw [if_pos hc, SM.bind_ok (read_short_bad 2 d p hs (by omega))]
            rw [if_pos (by simp; omega)]
            rfl
          unfold SM.onThrow at ht
          rw [SM.bind_apply, hcrc] at ht
          cases ht
        · simp [h2, SM.onThrow, SM.state, eof0] at ht; exact ht.2.symm
    · simp [h1, SM.onThrow, SM.state, eof0] at ht; exact ht.2.symm

theorem mp3Frame_throw {h : Hdr} {b : Bool} {d : Bytes} {p : Nat} {e : Exc} {s' : IStream}
    (ht : mp3Frame h b ⟨d, p, badOnly, IoBits.none⟩ = (.throw e, s')) :
    s' = ⟨d, p, badOnly, IoBits.none⟩ := by
  unfold mp3Frame at ht
  rw [SM.bind_apply] at ht
  split at ht
  · rename_i f s1 hf
    exfalso
    have hk := keeps_parseHeader h _ ⟨rfl, .inl rfl⟩ _ _ hf
    have hq : Quiet ((if b = true then parseVbr f.sideInfo else Pure.pure none) >>= fun v =>
        SM.seekCur ((f.size : Int) - 4 - (if f.crc then 2 else 0) - f.sideInfo) >>= fun _ =>
        (Pure.pure (f, v) : SM (Mp3Frame × Option (Nat × Nat)))) := by
      have := quiet_parseVbr f.sideInfo
      quiet
    rcases hq s1 hk.1 with ⟨a, s2, e1, -⟩ | ⟨u, s2, e1⟩
    · rw [e1] at ht; cases ht
    · rw [e1] at ht; cases ht
  · rename_i e' s1 hf
    cases ht
    exact parseHeader_throw hf
  · cases ht

theorem countFrames_end : ∀ (fuel : Nat) (h : Hdr) (n : Nat) (s : IStream), Wk s →
    (∀ k s', countFrames fuel h n s = (.ok (some k), s') → s'.data = s.data ∧ s'.st = IoBits.none ∧
      s'.mask = badOnly) ∧
    (∀ e s', countFrames fuel h n s = (.throw e, s') → s'.data = s.data ∧ s'.st = IoBits.none) := by
  intro fuel
  induction fuel with
  | zero =>
    intro h n s hs
    rw [countFrames_unfold]
    obtain ⟨h', s1, e1, e2, e3⟩ := readHdr_wk h s hs
    rw [SM.bind_ok e1, SM.bind_ok (show SM.isOk s1 = (.ok _, s1) from rfl)]
    split
    · rw [SM.bind_ok (SM.clear_apply s1)]
      constructor
      · intro k s' hh; cases hh; exact ⟨e3, rfl, e2.1⟩
      · intro e s' hh; cases hh
    · constructor <;> (intro k s' hh; cases hh)
  | succ fuel ih =>
    intro h n s hs
    rw [countFrames_unfold]
    obtain ⟨h', s1, e1, e2, e3⟩ := readHdr_wk h s hs
    rw [SM.bind_ok e1, SM.bind_ok (show SM.isOk s1 = (.ok _, s1) from rfl)]
    split
    · rw [SM.bind_ok (SM.clear_apply s1)]
      constructor
      · intro k s' hh; cases hh; exact ⟨e3, rfl, e2.1⟩
      · intro e s' hh; cases hh
    · rename_i hc
      simp only
      rw [SM.bind_apply]
      rcases e2.cases with ⟨d1, p1, rfl⟩ | hf
      · generalize hq : mp3Frame h' false ⟨d1, p1, badOnly, IoBits.none⟩ = q
        rcases q with ⟨a | e | u, s2⟩
        · have hk := keeps_mp3Frame _ _ _ ⟨rfl, .inl rfl⟩ _ _ hq
          have := ih h' (n + 1) s2 hk.1
          have hdd : s2.data = s.data := hk.2.trans e3
          rw [hdd] at this
          exact this
        · constructor
          · intro k s' hh; cases hh
          · intro e' s' hh; cases hh
            have := mp3Frame_throw hq
            subst this
            exact ⟨e3, rfl⟩
        · constructor <;> (intro k s' hh; cases hh)
      · exfalso
        have := isOk_failed hf
        unfold SM.isOk at this
        simp only [Prod.mk.injEq, Res.ok.injEq, and_true] at this
        rw [this] at hc
        simp at hc

/-- How `get_mp3_duration` leaves the stream. -/
def EndsWell (d : Bytes) (m : IoBits) (r : Res (Option (Nat × Nat × Nat)) × IStream) : Prop :=
  (∀ k, r.1 = .ok (some k) → r.2.data = d ∧ r.2.st = IoBits.none) ∧
  (∀ e, r.1 = .throw e → r.2.data = d ∧
    (r.2.st = IoBits.none ∨ e = .streamFailure ∧ r.2.mask = m ∧ r.2.st.fail = true ∧ r.2.st.bad = false))

theorem EndsWell.ub (d : Bytes) (m : IoBits) (u : UB) (s : IStream) : EndsWell d m (.ub u, s) :=
  ⟨fun _ h => by (cases h), fun _ h => by (cases h)⟩

theorem endsWell_fin (d : Bytes) (m : IoBits) (hm : m.fail = true) (s1 : IStream)
    (k : Nat × Nat × Nat) (h1 : Wk s1) (h2 : s1.data = d) :
    EndsWell d m ((SM.setExceptions m >>= fun _ => (Pure.pure (some k) : SM _)) s1) := by
  rcases h1.cases with ⟨d1, p1, rfl⟩ | hf
  · rw [SM.bind_ok (SM.setExceptions_good _ _ _ _)]
    exact ⟨fun _ _ => ⟨h2, rfl⟩, fun _ h => by (cases h)⟩
  · obtain ⟨d1, p1, m1, st1⟩ := s1
    have : ∃ st : IoBits, st.fail = true ∧ st.bad = false ∧ (SM.setExceptions m >>= fun _ =>
        (Pure.pure (some k) : SM _)) ⟨d1, p1, m1, st1⟩ = (.throw .streamFailure, ⟨d1, p1, m, st⟩) := by
      obtain ⟨rfl, rfl | rfl⟩ := hf
      · exact ⟨⟨true, true, false⟩, rfl, rfl, by simp [SM.setExceptions, IoBits.meets, hm]⟩
      · exact ⟨⟨false, true, false⟩, rfl, rfl, by simp [SM.setExceptions, IoBits.meets, hm]⟩
    obtain ⟨st, hst, hsb, he⟩ := this
    rw [he]
    exact ⟨fun _ h => by (cases h), fun e h => by (cases h; exact ⟨h2, .inr ⟨rfl, rfl, hst, hsb⟩⟩)⟩

theorem durTail_end (fuel : Nat) (m : IoBits) (hm : m.fail = true) (here : Nat) (h : Hdr)
    (s : IStream) (hs : Wk s) : EndsWell s.data m (durTail fuel m here h s) := by
  unfold durTail
  rw [SM.bind_ok (show SM.isOk s = (.ok _, s) from rfl)]
  split
  · rw [SM.bind_ok (SM.clear_apply s), SM.bind_ok (SM.seekBeg_nat _ _ _ _)]
    exact ⟨fun _ _ => ⟨rfl, rfl⟩, fun _ h => by (cases h)⟩
  · rename_i hc
    have hgood : ∃ d p, s = ⟨d, p, badOnly, IoBits.none⟩ := by
      rcases hs.cases with h | hf
      · exact h
      · exfalso
        have := isOk_failed hf
        unfold SM.isOk at this
        simp only [Prod.mk.injEq, Res.ok.injEq, and_true] at this
        rw [this] at hc
        simp at hc
    obtain ⟨d, p, rfl⟩ := hgood
    rw [SM.bind_apply]
    generalize hq : mp3Frame h true ⟨d, p, badOnly, IoBits.none⟩ = q
    rcases q with ⟨⟨f, v⟩ | e | u, s'⟩
    · have hk := keeps_mp3Frame _ _ _ hs _ _ hq
      simp only
      cases v with
      | some v =>
        obtain ⟨fr, nb⟩ := v
        simp only
        obtain ⟨s2, e1, e2, e3⟩ := seekAbs_ok ((s'.pos : Int) + ((nb : Int) - f.size)) s' hk.1
        rw [SM.bind_ok (show SM.seekCur _ s' = _ from e1)]
        exact endsWell_fin _ m hm s2 _ e2 (e3.trans hk.2)
      | none =>
        simp only
        have hce := countFrames_end fuel h 1 s' hk.1
        rw [SM.bind_apply]
        generalize countFrames fuel h 1 s' = q at hce
        rcases q with ⟨r | e | u, s2⟩
        · cases r with
          | none => exact ⟨fun _ h => by (cases h), fun _ h => by (cases h)⟩
          | some n =>
            simp only
            obtain ⟨c1, c2, c3⟩ := hce.1 n s2 rfl
            exact endsWell_fin _ m hm s2 _ ⟨c3, .inl c2⟩ (c1.trans hk.2)
        · obtain ⟨c1, c2⟩ := hce.2 e s2 rfl
          exact ⟨fun _ h => by (cases h), fun _ h => ⟨c1.trans hk.2, .inl c2⟩⟩
        · exact EndsWell.ub _ _ _ _
    · have := mp3Frame_throw hq
      subst this
      exact ⟨fun _ h => by (cases h), fun _ h => ⟨rfl, .inl rfl⟩⟩
    · exact EndsWell.ub _ _ _ _

theorem mp3Duration_end (fuel : Nat) (d : Bytes) (p : Nat) (m : IoBits) (hm : m.fail = true)
    (hf : d.length < fuel) : EndsWell d m (mp3Duration fuel ⟨d, p, m, IoBits.none⟩) := by
  rw [mp3Duration_eq]
  obtain ⟨h, s1, h1, h2, h3⟩ := readHdr_wk ⟨0, 0, 0, 0⟩ ⟨d, p, badOnly, IoBits.none⟩ ⟨rfl, .inl rfl⟩
  rw [SM.bind_ok h1, SM.bind_ok (show SM.isOk s1 = (.ok _, s1) from rfl)]
  simp only at h3
  split
  · rename_i hcond
    rcases h2.cases with ⟨d1, p1, rfl⟩ | hfail
    · simp only at h3
      subst h3
      rcases findSync_total fuel d1 p1 (by omega) with ⟨s2, e1, e2, e3⟩ | ⟨s2, e1⟩
      · rw [SM.bind_ok e1]
        simp only
        obtain ⟨h', s3, e4, e5, e6⟩ := readHdr_wk h s2 e2
        rw [SM.bind_ok e4]
        have := durTail_end fuel m hm p h' s3 e5
        rw [e6, e3] at this
        exact this
      · rw [SM.bind_apply, e1]; exact EndsWell.ub _ _ _ _
    · have := isOk_failed hfail
      unfold SM.isOk at this
      simp only [Prod.mk.injEq, Res.ok.injEq, and_true] at this
      rw [this] at hcond
      simp at hcond
  · have := durTail_end fuel m hm p h s1 h2
    rw [h3] at this
    exact this

theorem findV1_le (f : Bytes) : 0 ≤ (findV1 f).start ∧ (findV1 f).start ≤ f.length := by
  unfold findV1
  split
  · rename_i h
    have := ((extAt_iff f).1 h).1
    simp only; omega
  · split
    · rename_i h
      have := ((stdAt_iff f).1 h).1
      simp only; omega
    · simp only; omega

/-- Everything `track_data`'s constructor does up to scanning for the duration, and
how it ends given the outcome of that scan. -/
theorem trackData_spec (f : Bytes) (p e fuel : Nat) (m : IoBits) (he : (e : Int) = (findV1 f).start)
    (hp : p ≤ e) (hf : f.length < fuel) :
    trackData fuel ⟨f, p, m, IoBits.none⟩ =
      match mp3Duration fuel ⟨f, p, IoBits.all, IoBits.none⟩ with
      | (.ok none, s) => (.ok none, s)
      | (.ok (some k), _) =>
        (.ok (some ⟨(e : Int) - p, (f.drop p).take (e - p), some k⟩), ⟨f, e, m, IoBits.none⟩)
      | (.throw x, s) => if s.st = IoBits.none then
          (.ok (some ⟨(e : Int) - p, (f.drop p).take (e - p), none⟩), ⟨f, e, m, IoBits.none⟩)
          else (.throw x, { s with st := { s.st with eof := false } })
      | (.ub u, s) => (.ub u, s) := by
  have hle := findV1_le f
  unfold trackData
  rw [SM.bind_ok (SM.exceptions_apply _), SM.bind_ok (SM.setExceptions_good _ _ _ _)]
  obtain ⟨q, hq⟩ := findId3v1Tag_spec f p IoBits.all rfl
  rw [SM.bind_ok hq, ← he]
  simp only
  rw [SM.bind_ok (SM.seekBeg_nat _ _ _ _)]
  have hmd : computeTrackMd5 fuel (some (e : Int)) ⟨f, p, IoBits.all, IoBits.none⟩ =
      (.ok (some ((f.drop p).take (e - p))), ⟨f, e, IoBits.all, IoBits.none⟩) := by
    unfold computeTrackMd5
    rw [SM.bind_ok (SM.exceptions_apply _), SM.bind_ok (SM.setExceptions_good _ _ _ _)]
    simp only
    rw [SM.bind_assoc, SM.bind_ok (SM.tellg_good _ _ _), SM.bind_ok (SM.pure_apply' _ _)]
    simp only
    have := md5Loop_spec 4194304 (by omega) fuel (e - p) [] f p IoBits.all (by omega) (by omega)
    rw [show (e : Int) - (p : Int) = ((e - p : Nat) : Int) by omega, SM.bind_ok this]
    simp only
    rw [SM.bind_ok (SM.setExceptions_good _ _ _ _), show p + (e - p) = e by omega]
    rfl
  rw [SM.bind_ok hmd]
  simp only
  rw [SM.bind_ok (SM.seekBeg_nat _ _ _ _), SM.bind_apply]
  have hend := mp3Duration_end fuel f p IoBits.all rfl hf
  unfold SM.catchAll
  generalize mp3Duration fuel ⟨f, p, IoBits.all, IoBits.none⟩ = r at hend
  obtain ⟨r, s⟩ := r
  have good : s.data = f → s.st = IoBits.none → ∀ d : Option (Option (Nat × Nat × Nat)),
      (SM.seekBeg (e : Int) >>= fun _ => SM.clear >>= fun _ => SM.setExceptions m >>= fun _ =>
        (Pure.pure (some (TrackData.mk ((e : Int) - p) ((f.drop p).take (e - p)) d.join)) :
          SM (Option TrackData))) s =
      (.ok (some ⟨(e : Int) - p, (f.drop p).take (e - p), d.join⟩), ⟨f, e, m, IoBits.none⟩) := by
    intro h1 h2 d
    obtain ⟨sd, sp, sm, ss⟩ := s
    simp only at h1 h2
    subst h1 h2
    rw [SM.bind_ok (SM.seekBeg_nat _ _ _ _), SM.bind_ok (SM.clear_apply _),
      SM.bind_ok (SM.setExceptions_good _ _ _ _)]
    rfl
  cases r with
  | ok k =>
    cases k with
    | none => rfl
    | some k =>
      obtain ⟨h1, h2⟩ := hend.1 k rfl
      exact good h1 h2 (some (some k))
  | throw x =>
    obtain ⟨h1, h2⟩ := hend.2 x rfl
    simp only
    by_cases hs : s.st = IoBits.none
    · rw [if_pos hs]
      exact good h1 hs none
    · rw [if_neg hs]
      rcases h2 with h2 | ⟨rfl, h2, h3, h4⟩
      · exact absurd h2 hs
      · obtain ⟨sd, sp, sm, ⟨b1, b2, b3⟩⟩ := s
        simp only at h1 h2 h3 h4
        subst h1 h2 h3 h4
        rw [SM.bind_apply]
        cases b1 <;> simp [SM.seekBeg, SM.seekAbs, IoBits.none, SM.setState, IoBits.or, IoBits.meets, IoBits.all]
  | ub u => rfl

end Scribbu
