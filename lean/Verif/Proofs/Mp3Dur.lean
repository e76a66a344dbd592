import Verif.Proofs.Mp3

namespace Scribbu
open Spec

/-- The mask `get_mp3_duration` works under. -/
abbrev badOnly : IoBits := ⟨false, false, true⟩

/-- Good or failed, under that mask. -/
def Wk (s : IStream) : Prop :=
  s.mask = badOnly ∧ (s.st = IoBits.none ∨ s.st = ⟨true, true, false⟩ ∨ s.st = ⟨false, true, false⟩)

/-- Failed, under that mask. -/
def Failed (s : IStream) : Prop :=
  s.mask = badOnly ∧ (s.st = ⟨true, true, false⟩ ∨ s.st = ⟨false, true, false⟩)

theorem Failed.wk {s : IStream} (h : Failed s) : Wk s := ⟨h.1, .inr h.2⟩

theorem Wk.cases {s : IStream} (h : Wk s) :
    (∃ d p, s = ⟨d, p, badOnly, IoBits.none⟩) ∨ Failed s := by
  obtain ⟨d, p, m, st⟩ := s
  obtain ⟨rfl, rfl | h⟩ := h
  · exact .inl ⟨d, p, rfl⟩
  · exact .inr ⟨rfl, h⟩

theorem Failed.read {s : IStream} (h : Failed s) (n : Nat) : SM.read n s = (.ok [], s) := by
  obtain ⟨d, p, m, st⟩ := s
  obtain ⟨rfl, rfl | rfl⟩ := h <;> rfl

theorem Failed.tellg {s : IStream} (h : Failed s) : SM.tellg s = (.ok (-1), s) := by
  obtain ⟨d, p, m, st⟩ := s
  obtain ⟨rfl, rfl | rfl⟩ := h <;> rfl

theorem Failed.seekAbs {s : IStream} (h : Failed s) (n : Int) :
    SM.seekAbs n s = (.ok (), ⟨s.data, s.pos, badOnly, ⟨false, true, false⟩⟩) := by
  obtain ⟨d, p, m, st⟩ := s
  obtain ⟨rfl, rfl | rfl⟩ := h <;> rfl

theorem read_short_bad (n : Nat) (d : Bytes) (p : Nat) (h : d.length < p + n) (hn : 0 < n) :
    SM.read n ⟨d, p, badOnly, IoBits.none⟩ =
      (.ok ((d.drop p).take n),
        ⟨d, p + ((d.drop p).take n).length, badOnly, ⟨true, true, false⟩⟩) := by
  have : ((d.drop p).take n).length ≠ n := by simp; omega
  simp only [SM.read, if_true, this, if_false]
  simp [SM.setState, IoBits.or, IoBits.none, IoBits.meets]

theorem seekAbs_wk (n : Int) (d : Bytes) (p : Nat) :
    ∃ s', SM.seekAbs n ⟨d, p, badOnly, IoBits.none⟩ = (.ok (), s') ∧ Wk s' ∧ s'.data = d := by
  by_cases h : 0 ≤ n
  · exact ⟨_, SM.seekAbs_good d p _ h, ⟨rfl, .inl rfl⟩, rfl⟩
  · have hn : n < 0 := by omega
    refine ⟨⟨d, p, badOnly, ⟨false, true, false⟩⟩, ?_, ⟨rfl, .inr (.inr rfl)⟩, rfl⟩
    simp [SM.seekAbs, IoBits.none, hn, SM.setState, IoBits.or, IoBits.meets]

/-- Successful runs keep the mask, the two kinds of state and the data. -/
def Keeps {α : Type} (x : SM α) : Prop :=
  ∀ s, Wk s → ∀ a s', x s = (.ok a, s') → Wk s' ∧ s'.data = s.data

variable {α β : Type}

theorem Keeps.pure (a : α) : Keeps (Pure.pure a : SM α) := by
  intro s hs a s' h; cases h; exact ⟨hs, rfl⟩

theorem Keeps.throw (e : Exc) : Keeps (SM.throw e : SM α) := by
  intro s hs a s' h; cases h

theorem Keeps.ub (e : UB) : Keeps (SM.ub e : SM α) := by
  intro s hs a s' h; cases h

theorem Keeps.lift (r : Res α) : Keeps (SM.lift r) := by
  intro s hs a s' h; cases h; exact ⟨hs, rfl⟩

theorem Keeps.isOk : Keeps SM.isOk := by
  intro s hs a s' h; cases h; exact ⟨hs, rfl⟩

theorem Keeps.clear : Keeps SM.clear := by
  intro s hs a s' h; cases h; exact ⟨⟨hs.1, .inl rfl⟩, rfl⟩

theorem Keeps.bind {x : SM α} {f : α → SM β} (hx : Keeps x) (hf : ∀ a, Keeps (f a)) :
    Keeps (x >>= f) := by
  intro s hs a s' h
  rw [SM.bind_apply] at h
  split at h
  · rename_i b s1 hb
    have h1 := hx s hs b s1 hb
    have h2 := hf b s1 h1.1 a s' h
    exact ⟨h2.1, h2.2.trans h1.2⟩
  · cases h
  · cases h

theorem Keeps.read (n : Nat) : Keeps (SM.read n) := by
  intro s hs a s' h
  rcases hs.cases with ⟨d, p, rfl⟩ | hf
  · by_cases hn : n = 0
    · subst hn
      simp only [SM.read, if_true, List.take_zero, List.length_nil] at h
      cases h; exact ⟨⟨rfl, .inl rfl⟩, rfl⟩
    · by_cases hl : p + n ≤ d.length
      · rw [SM.read_full n d p _ hl] at h
        cases h; exact ⟨⟨rfl, .inl rfl⟩, rfl⟩
      · rw [read_short_bad n d p (by omega) (by omega)] at h
        cases h; exact ⟨⟨rfl, .inr (.inl rfl)⟩, rfl⟩
  · rw [hf.read] at h; cases h; exact ⟨hs, rfl⟩

theorem Keeps.tellg : Keeps SM.tellg := by
  intro s hs a s' h
  rcases hs.cases with ⟨d, p, rfl⟩ | hf
  · rw [SM.tellg_good] at h; cases h; exact ⟨hs, rfl⟩
  · rw [hf.tellg] at h; cases h; exact ⟨hs, rfl⟩

theorem seekAbs_ok (n : Int) (s : IStream) (hs : Wk s) :
    ∃ s', SM.seekAbs n s = (.ok (), s') ∧ Wk s' ∧ s'.data = s.data := by
  rcases hs.cases with ⟨d, p, rfl⟩ | hf
  · exact seekAbs_wk n d p
  · exact ⟨_, hf.seekAbs n, ⟨rfl, .inr (.inr rfl)⟩, rfl⟩

theorem Keeps.seekBeg (n : Int) : Keeps (SM.seekBeg n) := by
  intro s hs a s' h
  obtain ⟨s1, h1, h2⟩ := seekAbs_ok n s hs
  rw [SM.seekBeg, h1] at h; cases h; exact h2

theorem Keeps.seekCur (n : Int) : Keeps (SM.seekCur n) := by
  intro s hs a s' h
  obtain ⟨s1, h1, h2⟩ := seekAbs_ok ((s.pos : Int) + n) s hs
  rw [SM.seekCur, h1] at h; cases h; exact h2

theorem Keeps.onThrow {x : SM α} (hx : Keeps x) (y : SM Unit) : Keeps (SM.onThrow x y) := by
  intro s hs a s' h
  apply hx s hs a s'
  unfold SM.onThrow at h
  split at h
  · split at h <;> cases h
  · exact h

theorem Keeps.ite {c : Prop} [Decidable c] {x y : SM α} (hx : Keeps x) (hy : Keeps y) :
    Keeps (if c then x else y) := by
  split <;> assumption

macro "keeps" : tactic => `(tactic| repeat (first
  | assumption
  | exact Keeps.pure _ | exact Keeps.throw _ | exact Keeps.ub _ | exact Keeps.lift _
  | exact Keeps.isOk | exact Keeps.clear | exact Keeps.tellg | exact Keeps.read _
  | exact Keeps.seekBeg _ | exact Keeps.seekCur _
  | refine Keeps.bind ?_ (fun _ => ?_) | refine Keeps.ite ?_ ?_ | refine Keeps.onThrow ?_ _
  | split))

theorem keeps_readInit (n : Nat) : Keeps (readInit n) := by unfold readInit; keeps
theorem keeps_readOver (b : Bytes) (n : Nat) : Keeps (readOver b n) := by unfold readOver; keeps
theorem keeps_readHdr (h : Hdr) : Keeps (readHdr h) := by unfold readHdr; keeps

theorem keeps_xingTag : Keeps xingTag := by
  have := keeps_readInit 4
  unfold xingTag; keeps

theorem keeps_lameTag : Keeps lameTag := by
  have h5 := keeps_readInit 5
  have h4 := keeps_readInit 4
  have h1 := keeps_readInit 1
  unfold lameTag; keeps

theorem keeps_vbriTag : Keeps vbriTag := by
  have h4 := keeps_readInit 4
  have h2 := keeps_readInit 2
  unfold vbriTag; keeps

theorem keeps_xingBranch (b : Bytes) : Keeps (xingBranch b) := by
  have h1 := keeps_xingTag
  have h2 := keeps_readOver b 4
  have h3 := keeps_lameTag
  unfold xingBranch; keeps

theorem keeps_parseVbr (n : Nat) : Keeps (parseVbr n) := by
  unfold parseVbr
  repeat (first
    | exact keeps_readOver _ _ | exact keeps_xingBranch _ | exact keeps_vbriTag
    | exact Keeps.pure _ | exact Keeps.tellg | exact Keeps.seekBeg _ | exact Keeps.seekCur _
    | refine Keeps.bind ?_ (fun _ => ?_) | refine Keeps.ite ?_ ?_)

theorem keeps_parseHeader (h : Hdr) : Keeps (parseHeader h) := by
  unfold parseHeader
  refine Keeps.bind Keeps.tellg fun here => Keeps.onThrow ?_ _
  unfold parseHeaderBody
  keeps

theorem keeps_mp3Frame (h : Hdr) (b : Bool) : Keeps (mp3Frame h b) := by
  unfold mp3Frame
  refine Keeps.bind (keeps_parseHeader h) fun f => Keeps.bind ?_ fun v => ?_
  · have := keeps_parseVbr f.sideInfo
    keeps
  · keeps

/-- Skipping one frame from a good stream either fails it or advances it by the
frame's size less the four header bytes already consumed. -/
theorem mp3Frame_false_good {h : Hdr} {d : Bytes} {p : Nat} {m : IoBits} {f : Mp3Frame}
    (hd : decodeHdr h = some f) (hroom : f.crc = true → p + 2 ≤ d.length) :
    mp3Frame h false ⟨d, p, m, IoBits.none⟩ =
      (.ok (f, none), ⟨d, p + (f.size - 4), m, IoBits.none⟩) := by
  obtain ⟨kb, hl, -, -, -, hle, -⟩ := decodeHdr_iff h f hd
  have hcrc : f.crc = decide (bits h.b1 0 2 = 0) := by
    rw [decodeHdr_eq] at hd
    split at hd
    · cases hd
    split at hd
    · cases hd
    split at hd
    · cases hd
    unfold tailFrame at hd
    split at hd
    · cases hd; rfl
    · cases hd
  have hp := parseHeader_good h d p m (by intro hb; apply hroom; simp [hcrc, hb])
  rw [hd] at hp
  unfold mp3Frame
  rw [SM.bind_ok hp]
  simp only [Bool.false_eq_true, if_false]
  rw [SM.bind_ok (SM.pure_apply' _ _), SM.bind_apply, SM.seekCur]
  have hnn : (0 : Int) ≤ ((p + (if f.crc then 2 else 0) + f.sideInfo : Nat) : Int) +
      ((f.size : Int) - 4 - (if f.crc then 2 else 0) - f.sideInfo) := by
    split <;> omega
  rw [SM.seekAbs_good _ _ _ hnn]
  simp only [SM.pure_apply']
  congr 2
  split <;> rename_i hc <;> simp only [hc] at hle <;> simp at hle <;> omega

theorem decodeHdr_crc {h : Hdr} {f : Mp3Frame} (hd : decodeHdr h = some f) :
    f.crc = decide (bits h.b1 0 2 = 0) := by
  rw [decodeHdr_eq] at hd
  split at hd
  · cases hd
  split at hd
  · cases hd
  split at hd
  · cases hd
  unfold tailFrame at hd
  split at hd
  · cases hd; rfl
  · cases hd

/-- A header announcing a CRC that is not there. -/
theorem parseHeader_short (h : Hdr) (d : Bytes) (p : Nat) (hs : d.length < p + 2)
    (hc : bits h.b1 0 2 = 0) {f : Mp3Frame} {s' : IStream} :
    parseHeader h ⟨d, p, badOnly, IoBits.none⟩ ≠ (.ok f, s') := by
  intro hok
  have hd := parseHeader_ok hok
  rw [decodeHdr_eq] at hd
  split at hd
  · cases hd
  rename_i h1
  split at hd
  · cases hd
  rename_i v hv
  split at hd
  · cases hd
  rename_i h2
  unfold parseHeader at hok
  rw [SM.bind_ok (SM.tellg_good _ _ _), parseHeaderBody_eq, if_neg h1, hv] at hok
  simp only [if_neg h2] at hok
  have hcrc : crcStep h ⟨d, p, badOnly, IoBits.none⟩ =
      (.ub .uninit, ⟨d, p + ((d.drop p).take 2).length, badOnly, ⟨true, true, false⟩⟩) := by
    unfold crcStep
    rw [if_pos hc, SM.bind_ok (read_short_bad 2 d p hs (by omega))]
    rw [if_pos (by simp; omega)]
    rfl
  unfold SM.onThrow at hok
  rw [SM.bind_apply, hcrc] at hok
  cases hok

theorem readHdr_full (h : Hdr) (d : Bytes) (p : Nat) (m : IoBits) (hl : p + 4 ≤ d.length) :
    ∃ a b c e, (d.drop p).take 4 = [a, b, c, e] ∧
      readHdr h ⟨d, p, m, IoBits.none⟩ = (.ok ⟨a, b, c, e⟩, ⟨d, p + 4, m, IoBits.none⟩) := by
  have hlen : ((d.drop p).take 4).length = 4 := by simp; omega
  unfold readHdr
  rw [SM.bind_ok (SM.read_full 4 d p m hl)]
  generalize (d.drop p).take 4 = l at hlen
  match l, hlen with
  | [a, b, c, e], _ => exact ⟨a, b, c, e, rfl, rfl⟩

theorem readHdr_short (h : Hdr) (d : Bytes) (p : Nat) (hl : d.length < p + 4) :
    ∃ h' p', readHdr h ⟨d, p, badOnly, IoBits.none⟩ =
      (.ok h', ⟨d, p', badOnly, ⟨true, true, false⟩⟩) := by
  have hlen : ((d.drop p).take 4).length < 4 := by simp; omega
  unfold readHdr
  rw [SM.bind_ok (read_short_bad 4 d p hl (by omega))]
  generalize p + ((d.drop p).take 4).length = q
  generalize (d.drop p).take 4 = l at hlen
  match l, hlen with
  | [], _ => exact ⟨_, q, rfl⟩
  | [_], _ => exact ⟨_, q, rfl⟩
  | [_, _], _ => exact ⟨_, q, rfl⟩
  | [_, _, _], _ => exact ⟨_, q, rfl⟩

theorem readHdr_failed (h : Hdr) {s : IStream} (hs : Failed s) : readHdr h s = (.ok h, s) := by
  unfold readHdr
  rw [SM.bind_ok (hs.read 4)]
  rfl

theorem isOk_failed {s : IStream} (hs : Failed s) : SM.isOk s = (.ok false, s) := by
  obtain ⟨d, p, m, st⟩ := s
  obtain ⟨rfl, rfl | rfl⟩ := hs <;> rfl

theorem countFrames_unfold (fuel : Nat) (h : Hdr) (n : Nat) :
    countFrames fuel h n = (readHdr h >>= fun h => SM.isOk >>= fun ok =>
      if !ok || !isSync h.b0 h.b1 then SM.clear >>= fun _ => pure (some n)
      else match fuel with
        | 0 => pure none
        | fuel + 1 => mp3Frame h false >>= fun _ => countFrames fuel h (n + 1)) := by
  rw [countFrames]
  cases fuel <;> rfl

/-- The counting loop ends: it needs no more iterations than bytes are left. -/
theorem countFrames_total : ∀ (fuel : Nat) (h : Hdr) (n : Nat) (s : IStream), Wk s →
    s.data.length < s.pos + fuel ∨ Failed s → (countFrames fuel h n s).1 ≠ .ok none := by
  intro fuel
  induction fuel with
  | zero =>
    intro h n s hs hlt
    rw [countFrames_unfold]
    rcases hs.cases with ⟨d, p, rfl⟩ | hf
    · have hlt : d.length < p := by
        rcases hlt with h | h
        · exact h
        · rcases h.2 with h | h <;> cases h
      obtain ⟨h', p', he⟩ := readHdr_short h d p (by omega)
      rw [SM.bind_ok he, SM.bind_ok (isOk_failed ⟨rfl, .inl rfl⟩)]
      simp
    · rw [SM.bind_ok (readHdr_failed h hf), SM.bind_ok (isOk_failed hf)]
      simp
  | succ fuel ih =>
    intro h n s hs hlt
    rw [countFrames_unfold]
    rcases hs.cases with ⟨d, p, rfl⟩ | hf
    · have hlt : d.length < p + (fuel + 1) := by
        rcases hlt with h | h
        · exact h
        · rcases h.2 with h | h <;> cases h
      by_cases hl : p + 4 ≤ d.length
      · obtain ⟨a, b, c, e, -, he⟩ := readHdr_full h d p badOnly hl
        rw [SM.bind_ok he, SM.bind_ok (show SM.isOk ⟨d, p + 4, badOnly, IoBits.none⟩ =
          (.ok true, ⟨d, p + 4, badOnly, IoBits.none⟩) from rfl)]
        by_cases hsy : isSync a b = true
        · simp only [hsy, Bool.not_true, Bool.or_self, Bool.false_eq_true, if_false]
          rw [SM.bind_apply]
          generalize hq : mp3Frame ⟨a, b, c, e⟩ false ⟨d, p + 4, badOnly, IoBits.none⟩ = q
          rcases q with ⟨⟨f, v⟩ | ex | u, s'⟩
          · simp only
            have hkeep := keeps_mp3Frame _ _ _ ⟨rfl, .inl rfl⟩ _ _ hq
            apply ih _ _ _ hkeep.1
            -- the header parsed, so it decodes
            have hparse : ∃ s1, parseHeader ⟨a, b, c, e⟩ ⟨d, p + 4, badOnly, IoBits.none⟩ =
                (.ok f, s1) := by
              unfold mp3Frame at hq
              rw [SM.bind_apply] at hq
              split at hq
              · rename_i f1 s1 hf1
                simp only [Bool.false_eq_true, if_false] at hq
                rw [SM.bind_ok (SM.pure_apply' _ _), SM.bind_apply] at hq
                split at hq
                · cases hq; exact ⟨s1, hf1⟩
                · cases hq
                · cases hq
              · cases hq
              · cases hq
            obtain ⟨s1, hparse⟩ := hparse
            have hd := parseHeader_ok hparse
            have hroom : f.crc = true → p + 4 + 2 ≤ d.length := by
              intro hc
              rw [decodeHdr_crc hd, decide_eq_true_eq] at hc
              apply Classical.byContradiction
              intro hno
              exact parseHeader_short _ d (p + 4) (by omega) hc hparse
            rw [mp3Frame_false_good hd hroom] at hq
            cases hq
            left
            simp only
            omega
          · simp
          · simp
        · simp [hsy]
      · obtain ⟨h', p', he⟩ := readHdr_short h d p (by omega)
        rw [SM.bind_ok he, SM.bind_ok (isOk_failed ⟨rfl, .inl rfl⟩)]
        simp
    · rw [SM.bind_ok (readHdr_failed h hf), SM.bind_ok (isOk_failed hf)]
      simp

theorem findSyncLoop_unfold (fuel : Nat) (here : Int) (b0 b1 : Byte) :
    findSyncLoop fuel here b0 b1 = (SM.isOk >>= fun ok =>
      if ok && !isSync b0 b1 then
        match fuel with
        | 0 => pure none
        | fuel + 1 => SM.seekBeg (here + (if b1 = 0xff then 1 else 2)) >>= fun _ =>
          SM.read 2 >>= fun got =>
          match got ++ [b0, b1].drop got.length with
          | [c0, c1] => findSyncLoop fuel (here + (if b1 = 0xff then 1 else 2)) c0 c1
          | _ => SM.ub .oobRead
      else pure (some (here, isSync b0 b1))) := by
  cases fuel <;> rfl

/-- The synchronisation search ends, and keeps the data and the mask. -/
theorem findSyncLoop_total : ∀ (fuel : Nat) (here : Int) (b0 b1 : Byte) (s : IStream), Wk s →
    0 ≤ here → (here + 2 ≤ s.data.length ∧ (s.data.length : Int) < here + 2 + fuel) ∨ Failed s →
    ∃ r s', findSyncLoop fuel here b0 b1 s = (.ok (some r), s') ∧ Wk s' ∧ s'.data = s.data ∧
      0 ≤ r.1 := by
  intro fuel
  induction fuel with
  | zero =>
    intro here b0 b1 s hs h0 hlt
    rcases hlt with hlt | hf
    · omega
    · rw [findSyncLoop_unfold, SM.bind_ok (isOk_failed hf)]
      exact ⟨_, _, rfl, hs, rfl, h0⟩
  | succ fuel ih =>
    intro here b0 b1 s hs h0 hlt
    rw [findSyncLoop_unfold]
    rcases hs.cases with ⟨d, p, rfl⟩ | hf
    · have hlt : here + 2 ≤ d.length ∧ (d.length : Int) < here + 2 + (fuel + 1) := by
        rcases hlt with h | h
        · simp only at h; omega
        · rcases h.2 with h | h <;> cases h
      rw [SM.bind_ok (show SM.isOk ⟨d, p, badOnly, IoBits.none⟩ =
          (.ok true, ⟨d, p, badOnly, IoBits.none⟩) from rfl)]
      by_cases hsy : isSync b0 b1 = true
      · simp only [hsy, Bool.not_true, Bool.and_false, Bool.false_eq_true, if_false]
        exact ⟨_, _, rfl, hs, rfl, h0⟩
      · simp only [hsy, Bool.not_false, Bool.and_self, if_true]
        generalize hh : here + (if b1 = 0xff then 1 else 2) = here'
        have hh' : here + 1 ≤ here' := by rw [← hh]; split <;> omega
        rw [SM.bind_ok (show SM.seekBeg here' ⟨d, p, badOnly, IoBits.none⟩ = _ from
          SM.seekAbs_good d p _ (by omega))]
        by_cases hl : here'.toNat + 2 ≤ d.length
        · rw [SM.bind_ok (SM.read_full 2 d _ _ hl)]
          have hlen : ((d.drop here'.toNat).take 2).length = 2 := by simp; omega
          generalize (d.drop here'.toNat).take 2 = l at hlen
          match l, hlen with
          | [c0, c1], _ =>
            apply ih here' c0 c1 _ ⟨rfl, .inl rfl⟩ (by omega)
            left; simp only; omega
        · rw [SM.bind_ok (read_short_bad 2 d _ (by omega) (by omega))]
          have hlen : ((d.drop here'.toNat).take 2).length < 2 := by simp; omega
          generalize here'.toNat + ((d.drop here'.toNat).take 2).length = q
          generalize (d.drop here'.toNat).take 2 = l at hlen
          match l, hlen with
          | [], _ => exact ih here' b0 b1 _ ⟨rfl, .inr (.inl rfl)⟩ (by omega) (.inr ⟨rfl, .inl rfl⟩)
          | [c], _ => exact ih here' c b1 _ ⟨rfl, .inr (.inl rfl)⟩ (by omega) (.inr ⟨rfl, .inl rfl⟩)
    · rw [SM.bind_ok (isOk_failed hf)]
      exact ⟨_, _, rfl, hs, rfl, h0⟩

theorem findSync_total (fuel : Nat) (d : Bytes) (p : Nat) (hf : d.length ≤ fuel) :
    (∃ s', findSync fuel ⟨d, p, badOnly, IoBits.none⟩ = (.ok (some ()), s') ∧ Wk s' ∧ s'.data = d) ∨
    ∃ s', findSync fuel ⟨d, p, badOnly, IoBits.none⟩ = (.ub .uninit, s') := by
  unfold findSync
  rw [SM.bind_ok (SM.setExceptions_good _ _ _ _), SM.bind_ok (SM.tellg_good _ _ _)]
  by_cases hl : p + 2 ≤ d.length
  · left
    rw [SM.bind_ok (SM.read_full 2 d p _ hl)]
    have hlen : ((d.drop p).take 2).length = 2 := by simp; omega
    generalize (d.drop p).take 2 = l at hlen
    match l, hlen with
    | [b0, b1], _ =>
      obtain ⟨⟨at', hit⟩, s', h1, h2, h3, h4⟩ := findSyncLoop_total fuel (p : Int) b0 b1
        ⟨d, p + 2, badOnly, IoBits.none⟩ ⟨rfl, .inl rfl⟩ (by omega)
        (.inl (by simp only; omega))
      simp only
      rw [SM.bind_ok h1]
      cases hit with
      | true =>
        obtain ⟨s2, e1, e2, e3⟩ := seekAbs_ok at' s' h2
        simp only [if_true]
        rw [SM.bind_ok (show SM.seekBeg at' s' = _ from e1)]
        exact ⟨s2, rfl, e2, e3.trans h3⟩
      | false => exact ⟨s', rfl, h2, h3⟩
  · right
    rw [SM.bind_ok (read_short_bad 2 d p (by omega) (by omega))]
    have hlen : ((d.drop p).take 2).length < 2 := by simp; omega
    generalize (d.drop p).take 2 = l at hlen ⊢
    match l, hlen with
    | [], _ => exact ⟨_, rfl⟩
    | [c], _ => exact ⟨_, rfl⟩

theorem readHdr_wk (h : Hdr) (s : IStream) (hs : Wk s) :
    ∃ h' s', readHdr h s = (.ok h', s') ∧ Wk s' ∧ s'.data = s.data := by
  rcases hs.cases with ⟨d, p, rfl⟩ | hf
  · by_cases hl : p + 4 ≤ d.length
    · obtain ⟨a, b, c, e, -, he⟩ := readHdr_full h d p badOnly hl
      exact ⟨_, _, he, ⟨rfl, .inl rfl⟩, rfl⟩
    · obtain ⟨h', p', he⟩ := readHdr_short h d p (by omega)
      exact ⟨_, _, he, ⟨rfl, .inr (.inl rfl)⟩, rfl⟩
  · exact ⟨h, s, readHdr_failed h hf, hs, rfl⟩

/-- Everything after the first synchronisation. -/
def durTail (fuel : Nat) (excMask : IoBits) (here : Int) (h : Hdr) : SM (Option (Nat × Nat × Nat)) :=
  SM.isOk >>= fun ok =>
  if !ok || !isSync h.b0 h.b1 then
    SM.clear >>= fun _ => SM.seekBeg here >>= fun _ => pure (some (0, 0, 1))
  else mp3Frame h true >>= fun fv =>
    match fv.2 with
    | some (frames, nbytes) =>
      SM.seekCur ((nbytes : Int) - fv.1.size) >>= fun _ => SM.setExceptions excMask >>= fun _ =>
        pure (some (fv.1.duration.1, frames, fv.1.duration.2))
    | none => countFrames fuel h 1 >>= fun r =>
      match r with
      | none => pure none
      | some n => SM.setExceptions excMask >>= fun _ =>
        pure (some (fv.1.duration.1, n, fv.1.duration.2))

theorem mp3Duration_eq (fuel : Nat) (d : Bytes) (p : Nat) (m : IoBits) :
    mp3Duration fuel ⟨d, p, m, IoBits.none⟩ =
      (readHdr ⟨0, 0, 0, 0⟩ >>= fun h => SM.isOk >>= fun ok =>
        if ok && !isSync h.b0 h.b1 then
          findSync fuel >>= fun r => match r with
            | none => pure none
            | some () => readHdr h >>= fun h => durTail fuel m (p : Int) h
        else durTail fuel m (p : Int) h) ⟨d, p, badOnly, IoBits.none⟩ := by
  unfold mp3Duration
  rw [SM.bind_ok (SM.exceptions_apply _), SM.bind_ok (SM.setExceptions_good _ _ _ _),
    SM.bind_ok (SM.tellg_good _ _ _)]
  refine congrFun (congrArg (readHdr ⟨0, 0, 0, 0⟩ >>= ·) (funext fun h => ?_)) _
  refine congrArg (SM.isOk >>= ·) (funext fun ok => ?_)
  by_cases hc : (ok && !isSync h.b0 h.b1) = true
  · rw [if_pos hc, if_pos hc, SM.bind_assoc]
    refine congrArg (findSync fuel >>= ·) (funext fun r => ?_)
    cases r with
    | none => rfl
    | some u =>
      cases u
      simp only
      rw [SM.bind_assoc]
      rfl
  · rw [if_neg hc, if_neg hc]
    rfl

theorem durTail_total (fuel : Nat) (m : IoBits) (here : Int) (h : Hdr) (s : IStream) (hs : Wk s)
    (hf : s.data.length < fuel) : (durTail fuel m here h s).1 ≠ .ok none := by
  unfold durTail
  rw [SM.bind_ok (show SM.isOk s = (.ok _, s) from rfl)]
  split
  · rw [SM.bind_ok (SM.clear_apply s)]
    obtain ⟨s2, e1, -⟩ := seekAbs_ok here { s with st := IoBits.none } ⟨hs.1, .inl rfl⟩
    rw [SM.bind_ok (show SM.seekBeg here _ = _ from e1)]
    simp
  · rw [SM.bind_apply]
    generalize hq : mp3Frame h true s = q
    rcases q with ⟨⟨f, v⟩ | e | u, s'⟩
    · have hk := keeps_mp3Frame _ _ _ hs _ _ hq
      simp only
      cases v with
      | some v =>
        obtain ⟨fr, nb⟩ := v
        simp only
        obtain ⟨s2, e1, e2, e3⟩ := seekAbs_ok ((s'.pos : Int) + ((nb : Int) - f.size)) s' hk.1
        rw [SM.bind_ok (show SM.seekCur _ s' = _ from e1), SM.bind_apply]
        split <;> simp
      | none =>
        simp only
        have := countFrames_total fuel h 1 s' hk.1 (.inl (by rw [hk.2]; omega))
        rw [SM.bind_apply]
        generalize countFrames fuel h 1 s' = q at this
        rcases q with ⟨r | e | u, s2⟩
        · cases r with
          | none => exact absurd rfl this
          | some n => 
            simp only
            rw [SM.bind_apply]
            split <;> simp
        · simp
        · simp
    · simp
    · simp

theorem mp3Duration_total (fuel : Nat) (d : Bytes) (p : Nat) (m : IoBits) (hf : d.length < fuel) :
    (mp3Duration fuel ⟨d, p, m, IoBits.none⟩).1 ≠ .ok none := by
  rw [mp3Duration_eq]
  obtain ⟨h, s1, h1, h2, h3⟩ := readHdr_wk ⟨0, 0, 0, 0⟩ ⟨d, p, badOnly, IoBits.none⟩ ⟨rfl, .inl rfl⟩
  rw [SM.bind_ok h1, SM.bind_ok (show SM.isOk s1 = (.ok _, s1) from rfl)]
  simp only at h3
  split
  · rename_i hcond
    rcases h2.cases with ⟨d1, p1, rfl⟩ | hfail
    · simp only at h3
      subst h3
      rcases findSync_total fuel d1 p1 (by omega) with ⟨s2, e1, e2, e3⟩ | ⟨s2, e1⟩
      · rw [SM.bind_ok e1]
        simp only
        obtain ⟨h', s3, e4, e5, e6⟩ := readHdr_wk h s2 e2
        rw [SM.bind_ok e4]
        exact durTail_total fuel m p h' s3 e5 (by rw [e6, e3]; exact hf)
      · rw [SM.bind_apply, e1]; simp
    · have := isOk_failed hfail
      unfold SM.isOk at this
      simp only [Prod.mk.injEq, Res.ok.injEq, and_true] at this
      rw [this] at hcond
      simp at hcond
  · exact durTail_total fuel m p h s1 h2 (by rw [h3]; exact hf)

end Scribbu
