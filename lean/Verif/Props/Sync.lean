import Verif.Spec.Sync
import Verif.Proofs.Mp3Count
import Verif.Props.Mp3

/-! # C155: the search for the first MP3 frame -/

namespace Scribbu.Props
open Scribbu Scribbu.Spec

theorem syncAt_iff {d : Bytes} {q : Nat} {b0 b1 : Byte} (h : (d.drop q).take 2 = [b0, b1]) :
    SyncAt d q ↔ isSync b0 b1 = true := by
  have h0 : d[q]? = some b0 := by
    have : ((d.drop q).take 2)[0]? = some b0 := by rw [h]; rfl
    rw [List.getElem?_take_of_lt (by decide), List.getElem?_drop] at this
    simpa using this
  have h1 : d[q + 1]? = some b1 := by
    have : ((d.drop q).take 2)[1]? = some b1 := by rw [h]; rfl
    rw [List.getElem?_take_of_lt (by decide), List.getElem?_drop] at this
    simpa using this
  rw [isSync_iff]
  unfold SyncAt
  rw [h0, h1]
  constructor
  · rintro ⟨h, b, hb, hl⟩
    simp only [Option.some.injEq] at h hb
    subst hb
    rw [h]
    exact ⟨rfl, hl⟩
  · rintro ⟨h, hl⟩
    exact ⟨by rw [show b0 = 0xff from UInt8.toNat_inj.1 h], b1, rfl, hl⟩

/-- No frame starts in a place without two bytes. -/
theorem syncAt_len {d : Bytes} {q : Nat} (h : SyncAt d q) : q + 2 ≤ d.length := by
  obtain ⟨-, b, hb, -⟩ := h
  have := (List.getElem?_eq_some_iff.1 hb).1
  omega

/-- What the loop does, from a place whose two bytes have been read. -/
theorem findSyncLoop_first : ∀ (fuel : Nat) (here : Nat) (b0 b1 : Byte) (d : Bytes), (d.drop here).take 2 = [b0, b1] →
    here + 2 ≤ d.length → d.length < here + 2 + fuel →
    (∃ q, FirstSync d here q ∧ findSyncLoop fuel (here : Int) b0 b1 ⟨d, here + 2, badOnly, IoBits.none⟩ =
      (.ok (some ((q : Int), true)), ⟨d, q + 2, badOnly, IoBits.none⟩)) ∨
    ((∀ q, here ≤ q → ¬ SyncAt d q) ∧ ∃ r s', findSyncLoop fuel (here : Int) b0 b1 ⟨d, here + 2, badOnly, IoBits.none⟩ =
      (.ok (some r), s') ∧ Failed s' ∧ s'.data = d) := by
  intro fuel
  induction fuel with
  | zero => intro here b0 b1 d _ h1 h2; omega
  | succ fuel ih =>
    intro here b0 b1 d hb hl hf
    rw [findSyncLoop_unfold, SM.bind_ok (show SM.isOk ⟨d, here + 2, badOnly, IoBits.none⟩ =
      (.ok true, ⟨d, here + 2, badOnly, IoBits.none⟩) from rfl)]
    by_cases hsy : isSync b0 b1 = true
    · left
      simp only [hsy, Bool.not_true, Bool.and_false, Bool.false_eq_true, if_false]
      exact ⟨here, ⟨Nat.le_refl _, (syncAt_iff hb).2 hsy, fun r h1 h2 => by omega⟩, rfl⟩
    · simp only [hsy, Bool.not_false, Bool.and_self, if_true]
      have hno : ¬ SyncAt d here := fun h => hsy ((syncAt_iff hb).1 h)
      obtain ⟨k, hk, hk2⟩ : ∃ k : Nat, (here : Int) + (if b1 = 0xff then 1 else 2) = (k : Int) ∧
          (k = here + 1 ∨ (k = here + 2 ∧ ¬ SyncAt d (here + 1))) := by
        by_cases hx : b1 = 0xff
        · exact ⟨here + 1, by rw [if_pos hx]; simp, .inl rfl⟩
        · refine ⟨here + 2, by rw [if_neg hx]; simp, .inr ⟨rfl, fun h => hx ?_⟩⟩
          have h1 : d[here + 1]? = some b1 := by
            have : ((d.drop here).take 2)[1]? = some b1 := by rw [hb]; rfl
            rw [List.getElem?_take_of_lt (by decide), List.getElem?_drop] at this
            simpa using this
          have := h.1
          rw [h1] at this
          simpa using this
      have hskip : ∀ r, here ≤ r → r < k → ¬ SyncAt d r := by
        intro r h1 h2
        rcases hk2 with rfl | ⟨rfl, h⟩
        · rw [show r = here by omega]; exact hno
        · by_cases hr : r = here
          · rw [hr]; exact hno
          · rw [show r = here + 1 by omega]; exact h
      rw [hk, SM.bind_ok (SM.seekBeg_nat _ _ _ _)]
      by_cases hl2 : k + 2 ≤ d.length
      · rw [SM.bind_ok (SM.read_full 2 d _ _ hl2)]
        have hlen : ((d.drop k).take 2).length = 2 := by simp; omega
        generalize hl' : (d.drop k).take 2 = l at hlen
        match l, hlen with
        | [c0, c1], _ =>
          rcases ih k c0 c1 d hl' hl2 (by omega) with ⟨q, ⟨h1, h2, h3⟩, h4⟩ | ⟨h1, r, s', h2, h3, h4⟩
          · refine .inl ⟨q, ⟨by omega, h2, fun r hr hq => ?_⟩, h4⟩
            by_cases hrk : r < k
            · exact hskip r hr hrk
            · exact h3 r (by omega) hq
          · refine .inr ⟨fun q hq => ?_, r, s', h2, h3, h4⟩
            by_cases hrk : q < k
            · exact hskip q hq hrk
            · exact h1 q (by omega)
      · right
        refine ⟨fun q hq => ?_, ?_⟩
        · by_cases hrk : q < k
          · exact hskip q hq hrk
          · intro h
            have := syncAt_len h
            omega
        · rw [SM.bind_ok (read_short_bad 2 d k (by omega) (by omega))]
          have hlen : ((d.drop k).take 2).length < 2 := by simp; omega
          generalize k + ((d.drop k).take 2).length = q
          generalize (d.drop k).take 2 = l at hlen
          have hfd : Failed ⟨d, q, badOnly, ⟨true, true, false⟩⟩ := ⟨rfl, .inl rfl⟩
          match l, hlen with
          | [], _ =>
            simp only [List.length_nil, List.drop_zero, List.nil_append]
            rw [findSyncLoop_unfold, SM.bind_ok (isOk_failed hfd)]
            exact ⟨_, _, rfl, hfd, rfl⟩
          | [c], _ =>
            simp only [List.length_cons, List.length_nil, Nat.zero_add, List.drop_succ_cons, List.drop_zero, List.cons_append, List.nil_append]
            rw [findSyncLoop_unfold, SM.bind_ok (isOk_failed hfd)]
            exact ⟨_, _, rfl, hfd, rfl⟩

/-- **C155**, for `find_sync`, in full: the stream is left at the first sync if there is one, and at its end, failed, otherwise, and the
caller's exception mask is as it was. -/
def C155_claim : Prop :=
  ∀ (d : Bytes) (p : Nat) (m : IoBits), m.fail = false → m.eof = false → p ≤ d.length →
    ∃ s', findSync d.length ⟨d, p, m, IoBits.none⟩ = (.ok (some ()), s') ∧ s'.data = d ∧ s'.mask = m ∧
      ((∃ q, FirstSync d p q ∧ s'.pos = q ∧ s'.Good) ∨ ((∀ q, p ≤ q → ¬ SyncAt d q) ∧ s'.st.fail = true))

/-- **Finding**: the exception mask of the caller is saved but never put back: after a successful search it is badbit. -/
theorem C155_refuted : ¬ C155_claim := by
  intro h
  obtain ⟨s', h1, -, h2, -⟩ := h [0xff, 0xfb] 0 IoBits.none rfl rfl (by decide)
  have : (findSync 2 ⟨[0xff, 0xfb], 0, IoBits.none, IoBits.none⟩).2.mask = badOnly := by decide +kernel
  rw [show ([0xff, 0xfb] : Bytes).length = 2 from rfl] at h1
  rw [h1, h2] at this
  cases this

/-- **Finding**: with fewer than two bytes left the search looks at two bytes of memory that nothing was read into. -/
theorem C155_refuted_short (d : Bytes) (p : Nat) (m : IoBits) (fuel : Nat) (h : d.length < p + 2) :
    (findSync fuel ⟨d, p, m, IoBits.none⟩).1 = .ub .uninit := by
  unfold findSync
  rw [SM.bind_ok (SM.setExceptions_good _ _ _ _), SM.bind_ok (SM.tellg_good _ _ _),
    SM.bind_ok (read_short_bad 2 d p (by omega) (by omega))]
  have hlen : ((d.drop p).take 2).length < 2 := by simp; omega
  generalize (d.drop p).take 2 = l at hlen ⊢
  match l, hlen with
  | [], _ => rfl
  | [c], _ => rfl

/-- **C155** `find_sync` on any stream with two bytes left or more: it leaves the stream good, at the first place where a frame may start; or there is
none, and the stream is failed. It never skips a sync and never stops at anything else. Missing: the last byte of a stream; the mask. -/
theorem C155_partial (d : Bytes) (p : Nat) (m : IoBits) (fuel : Nat) (hf : d.length ≤ fuel) (hp : p + 2 ≤ d.length) :
    (∃ q, FirstSync d p q ∧ findSync fuel ⟨d, p, m, IoBits.none⟩ = (.ok (some ()), ⟨d, q, badOnly, IoBits.none⟩)) ∨
    ((∀ q, p ≤ q → ¬ SyncAt d q) ∧ ∃ s', findSync fuel ⟨d, p, m, IoBits.none⟩ = (.ok (some ()), s') ∧ s'.st.fail = true ∧
      s'.data = d ∧ s'.mask = badOnly) := by
  unfold findSync
  rw [SM.bind_ok (SM.setExceptions_good _ _ _ _), SM.bind_ok (SM.tellg_good _ _ _), SM.bind_ok (SM.read_full 2 d p _ hp)]
  have hlen : ((d.drop p).take 2).length = 2 := by simp; omega
  generalize hl : (d.drop p).take 2 = l at hlen
  match l, hlen with
  | [b0, b1], _ =>
    simp only
    rcases findSyncLoop_first fuel p b0 b1 d hl hp (by omega) with ⟨q, h1, h2⟩ | ⟨h1, ⟨at', hit⟩, s', h2, h3, h4⟩
    · left
      refine ⟨q, h1, ?_⟩
      rw [SM.bind_ok h2]
      simp only [if_true]
      rw [SM.bind_ok (SM.seekBeg_nat _ _ _ _)]
      rfl
    · right
      refine ⟨h1, ?_⟩
      rw [SM.bind_ok h2]
      have hfl : s'.st.fail = true := by
        rcases h3.2 with h | h <;> rw [h]
      cases hit with
      | false => exact ⟨s', rfl, hfl, h4, h3.1⟩
      | true =>
        simp only [if_true]
        rw [SM.bind_ok (show SM.seekBeg at' s' = _ from h3.seekAbs at')]
        exact ⟨_, rfl, rfl, h4, rfl⟩

example : FirstSync [0x54, 0xff, 0x41, 0xff, 0xff, 0xfb] 0 3 := by
  refine ⟨by decide, ⟨rfl, 0xff, rfl, by decide⟩, fun r _ h => ?_⟩
  rintro ⟨h1, b, h2, h3⟩
  match r, h with
  | 0, _ => simp at h1
  | 1, _ => simp at h2; subst h2; simp at h3
  | 2, _ => simp at h1

/-- **C155**, for the duration, in full: bytes in which no frame starts, in front of the first frame, make no difference. -/
def C155_junk_claim : Prop :=
  ∀ (pre junk rest : Bytes) (m : IoBits) (fuel : Nat), (pre ++ junk ++ rest).length ≤ fuel → FirstSync (pre ++ junk ++ rest) pre.length (pre ++ junk).length →
    4 ≤ rest.length →
    mp3Duration fuel ⟨pre ++ junk ++ rest, pre.length, m, IoBits.none⟩ =
      mp3Duration fuel ⟨pre ++ junk ++ rest, (pre ++ junk).length, m, IoBits.none⟩

/-- **Finding**: the search for a sync starts only after the four bytes that turned out not to be a header: a frame that starts at the second, third or fourth byte is
missed. With one byte in front of three frames the track is reported as lasting two frames. -/
theorem C155_refuted_junk : ¬ C155_junk_claim := by
  intro h
  have hs : FirstSync ([] ++ [0] ++ (tinyFrame ++ tinyFrame ++ tinyFrame)) ([] : Bytes).length ([] ++ [0] : Bytes).length := by
    refine ⟨by decide, ⟨by decide, 0xf3, by decide, by decide⟩, fun r _ hr => ?_⟩
    have : r = 0 := by simp at hr; omega
    subst this
    rintro ⟨h1, -⟩
    revert h1
    decide
  have := h [] [0] (tinyFrame ++ tinyFrame ++ tinyFrame) IoBits.none 80 (by decide) hs (by decide)
  have h2 : (mp3Duration 80 ⟨[] ++ [0] ++ (tinyFrame ++ tinyFrame ++ tinyFrame), 0, IoBits.none, IoBits.none⟩).1 =
      .ok (some (576, 2, 24000)) := by decide +kernel
  have h3 : (mp3Duration 80 ⟨[] ++ [0] ++ (tinyFrame ++ tinyFrame ++ tinyFrame), 1, IoBits.none, IoBits.none⟩).1 =
      .ok (some (576, 3, 24000)) := by decide +kernel
  rw [show ([] : Bytes).length = 0 from rfl, show ([] ++ [0] : Bytes).length = 1 from rfl] at this
  rw [this, h3] at h2
  cases h2

/-- **C155** Four or more bytes in which no frame starts make no difference: neither to the duration nor to where and how the stream is left. -/
theorem C155_junk_partial (pre junk rest : Bytes) (m : IoBits) (fuel : Nat) (hf : (pre ++ junk ++ rest).length ≤ fuel)
    (hs : FirstSync (pre ++ junk ++ rest) pre.length (pre ++ junk).length) (h4 : 4 ≤ rest.length) (hj : 4 ≤ junk.length) :
    mp3Duration fuel ⟨pre ++ junk ++ rest, pre.length, m, IoBits.none⟩ =
      mp3Duration fuel ⟨pre ++ junk ++ rest, (pre ++ junk).length, m, IoBits.none⟩ := by
  obtain ⟨hs1, hs2, hs3⟩ := hs
  have hlen : (pre ++ junk ++ rest).length = pre.length + junk.length + rest.length := by simp; omega
  have hpl : (pre ++ junk).length = pre.length + junk.length := by simp
  have hdr : (pre ++ junk ++ rest).drop (pre ++ junk).length = rest := List.drop_left
  generalize hd : pre ++ junk ++ rest = d at *
  generalize hq : (pre ++ junk).length = q at *
  generalize pre.length = p at *
  obtain ⟨a, b, c, e, ht, he⟩ := readHdr_full ⟨0, 0, 0, 0⟩ d q badOnly (by omega)
  have htk : rest.take 4 = [a, b, c, e] := by rw [← hdr]; exact ht
  have hab : (d.drop q).take 2 = [a, b] := by
    have := congrArg (List.take 2) ht
    rw [List.take_take] at this
    simpa using this
  have hsy : isSync a b = true := (syncAt_iff hab).1 hs2
  rw [mp3Duration_at (h := ⟨a, b, c, e⟩) hdr h4 htk hsy, mp3Duration_eq]
  obtain ⟨a', b', c', e', ht', he'⟩ := readHdr_full ⟨0, 0, 0, 0⟩ d p badOnly (by omega)
  have hab' : (d.drop p).take 2 = [a', b'] := by
    have := congrArg (List.take 2) ht'
    rw [List.take_take] at this
    simpa using this
  have hns : ¬ isSync a' b' = true := fun h => hs3 p (Nat.le_refl _) (by omega) ((syncAt_iff hab').2 h)
  rw [SM.bind_ok he', SM.bind_ok (show SM.isOk ⟨d, p + 4, badOnly, IoBits.none⟩ = (.ok true, ⟨d, p + 4, badOnly, IoBits.none⟩) from rfl)]
  simp only [hns, Bool.not_false, Bool.and_self, if_true]
  have hfind : findSync fuel ⟨d, p + 4, badOnly, IoBits.none⟩ = (.ok (some ()), ⟨d, q, badOnly, IoBits.none⟩) := by
    rcases C155_partial d (p + 4) badOnly fuel hf (by omega) with ⟨q', ⟨g1, g2, g3⟩, g4⟩ | ⟨g1, -⟩
    · have : q' = q := by
        by_cases h1 : q' < q
        · exact absurd g2 (hs3 q' (by omega) h1)
        · by_cases h2 : q < q'
          · exact absurd hs2 (g3 q (by omega) h2)
          · omega
      rw [this] at g4
      exact g4
    · exact absurd hs2 (g1 q (by omega))
  rw [SM.bind_ok hfind]
  simp only
  obtain ⟨a2, b2, c2, e2, ht2, he2⟩ := readHdr_full ⟨a', b', c', e'⟩ d q badOnly (by omega)
  rw [ht] at ht2
  cases ht2
  rw [SM.bind_ok he2]
  unfold durTail
  rw [SM.bind_ok (show SM.isOk ⟨d, q + 4, badOnly, IoBits.none⟩ = (.ok true, ⟨d, q + 4, badOnly, IoBits.none⟩) from rfl),
    SM.bind_ok (show SM.isOk ⟨d, q + 4, badOnly, IoBits.none⟩ = (.ok true, ⟨d, q + 4, badOnly, IoBits.none⟩) from rfl)]
  simp only [hsy, Bool.not_true, Bool.or_self, Bool.false_eq_true, if_false]

/-- Five bytes of rubbish in front of three frames. -/
example : (mp3Duration 80 ⟨[0, 0xff, 0, 0xff, 1] ++ (tinyFrame ++ tinyFrame ++ tinyFrame), 0, IoBits.none, IoBits.none⟩).1 =
    .ok (some (576, 3, 24000)) := by decide +kernel

end Scribbu.Props
