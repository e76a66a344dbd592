import Verif.Proofs.Id3v1

namespace Scribbu
open Spec

theorem extAt_iff (f : Bytes) :
    (∃ n, ExtAt f n) ↔ 355 ≤ f.length ∧ (f.drop (f.length - 355)).take 4 = TAGP := by
  constructor
  · rintro ⟨n, b, t, rfl, rfl, ht⟩
    have : (b ++ TAGP ++ t).length = b.length + 355 := by simp [TAGP, ht]
    rw [this]
    refine ⟨by omega, ?_⟩
    simp [TAGP]
  · rintro ⟨h, ht⟩
    refine ⟨f.length - 355, f.take (f.length - 355), f.drop (f.length - 355 + 4), ?_, ?_, ?_⟩
    · rw [← ht, ← List.drop_drop, List.append_assoc, List.take_append_drop, List.take_append_drop]
    · simp
    · simp; omega

theorem extAt_pos {f : Bytes} {n : Nat} (h : ExtAt f n) : n = f.length - 355 ∧ 355 ≤ f.length := by
  obtain ⟨b, t, rfl, rfl, ht⟩ := h
  simp [TAGP, ht]

theorem stdAt_iff (f : Bytes) :
    (∃ n, StdAt f n) ↔ 128 ≤ f.length ∧ (f.drop (f.length - 128)).take 3 = TAG := by
  constructor
  · rintro ⟨n, b, t, rfl, rfl, ht⟩
    have : (b ++ TAG ++ t).length = b.length + 128 := by simp [TAG, ht]
    rw [this]
    refine ⟨by omega, ?_⟩
    simp [TAG]
  · rintro ⟨h, ht⟩
    refine ⟨f.length - 128, f.take (f.length - 128), f.drop (f.length - 128 + 3), ?_, ?_, ?_⟩
    · rw [← ht, ← List.drop_drop, List.append_assoc, List.take_append_drop, List.take_append_drop]
    · simp
    · simp; omega

theorem stdAt_pos {f : Bytes} {n : Nat} (h : StdAt f n) : n = f.length - 128 ∧ 128 ≤ f.length := by
  obtain ⟨b, t, rfl, rfl, ht⟩ := h
  simp [TAG, ht]

open Classical in
/-- What `ends_in_id3v1` should answer. -/
noncomputable def findV1 (f : Bytes) : V1Info :=
  if ∃ n, ExtAt f n then ⟨.v1Extended, f.length - 355, f.length⟩
  else if ∃ n, StdAt f n then ⟨.v1, f.length - 128, f.length⟩
  else ⟨.none, f.length, f.length⟩

theorem endsInId3v1_spec (f : Bytes) (p : Nat) (m : IoBits) :
    endsInId3v1 ⟨f, p, m, IoBits.none⟩ = (.ok (findV1 f), ⟨f, p, m, IoBits.none⟩) := by
  -- first probe
  have h1 : (SM.attempt (do
    SM.seekEnd 0
    let e ← SM.tellg
    if 355 ≤ e then do
      SM.seekEnd (-355)
      let buf ← SM.read 4
      if buf.length ≠ 4 then SM.ub .uninit
      else if buf = [0x54, 0x41, 0x47, 0x2b] then do
        let t ← SM.tellg
        pure (V1Info.mk .v1Extended (t - 4) e)
      else pure (V1Info.mk .none e e)
    else pure (V1Info.mk .none e e)) : SM (Option V1Info)) ⟨f, p, IoBits.failBad, IoBits.none⟩ =
    (.ok (some (if 355 ≤ f.length ∧ (f.drop (f.length - 355)).take 4 = TAGP then
        ⟨.v1Extended, f.length - 355, f.length⟩ else ⟨.none, f.length, f.length⟩)),
      ⟨f, if 355 ≤ f.length then f.length - 355 + 4 else f.length, IoBits.failBad, IoBits.none⟩) := by
    by_cases hl : 355 ≤ f.length
    · have hl' : (355 : Int) ≤ (f.length : Int) := by omega
      have hse := SM.seekEnd_neg 355 f f.length IoBits.failBad hl
      have hr := SM.read_full 4 f (f.length - 355) IoBits.failBad (by omega)
      have hlen : ((f.drop (f.length - 355)).take 4).length = 4 := by simp; omega
      have hcast : (-(355 : Nat) : Int) = -355 := rfl
      rw [hcast] at hse
      by_cases hm : (f.drop (f.length - 355)).take 4 = TAGP
      · have hm' : (f.drop (f.length - 355)).take 4 = [0x54, 0x41, 0x47, 0x2b] := hm
        simp only [SM.attempt, SM.bind_apply, SM.seekEnd_zero, SM.tellg_good, hl', if_true, hse,
          hr, ne_eq, hl, hm, true_and]
        rw [if_neg (by simp [TAGP]), if_pos (by rfl)]
        simp only [SM.bind_apply, SM.tellg_good, SM.pure_apply']
        rw [show ((f.length - 355 + 4 : Nat) : Int) - 4 = f.length - 355 by omega]
      · have hm' : ¬ (f.drop (f.length - 355)).take 4 = [0x54, 0x41, 0x47, 0x2b] := hm
        simp only [SM.attempt, SM.bind_apply, SM.seekEnd_zero, SM.tellg_good, hl', if_true, hse,
          hr, hlen, ne_eq, not_true_eq_false, if_false, hl, hm, hm', true_and]
        simp
    · have hl' : ¬ (355 : Int) ≤ (f.length : Int) := by omega
      simp only [SM.attempt, SM.bind_apply, SM.seekEnd_zero, SM.tellg_good, hl', if_false,
        hl, false_and, SM.pure_apply']
  unfold endsInId3v1
  rw [SM.bind_ok (SM.exceptions_apply _), SM.bind_ok (SM.setExceptions_good _ _ _ _),
    SM.bind_ok (SM.tellg_good _ _ _), SM.bind_ok h1]
  generalize (if 355 ≤ f.length then f.length - 355 + 4 else f.length) = q
  unfold findV1
  by_cases he : 355 ≤ f.length ∧ (f.drop (f.length - 355)).take 4 = TAGP
  · simp only [he, and_self, if_true, (extAt_iff f).2 he]
    simp
  · have he' : ¬ ∃ n, ExtAt f n := fun h => he ((extAt_iff f).1 h)
    simp only [if_neg he, if_neg he']
    rw [SM.bind_ok (SM.pure_apply' _ _)]
    simp only [if_true]
    by_cases hl : 128 ≤ f.length
    · have hse := SM.seekEnd_neg 128 f q IoBits.failBad hl
      have hr := SM.read_full 3 f (f.length - 128) IoBits.failBad (by omega)
      have hlen : ((f.drop (f.length - 128)).take 3).length = 3 := by simp; omega
      have hcast : (-(128 : Nat) : Int) = -128 := rfl
      rw [hcast] at hse
      by_cases hm : (f.drop (f.length - 128)).take 3 = TAG
      · have hs : ∃ n, StdAt f n := (stdAt_iff f).2 ⟨hl, hm⟩
        simp only [SM.attempt, SM.bind_apply, hse, hr, ne_eq, hm, hs, if_true]
        rw [if_neg (by simp [TAG]), if_pos (by rfl)]
        simp only [SM.bind_apply, SM.tellg_good, SM.pure_apply', SM.seekBeg_nat,
          SM.setExceptions_good]
        rw [show ((f.length - 128 + 3 : Nat) : Int) - 3 = f.length - 128 by omega]
      · have hm' : ¬ (f.drop (f.length - 128)).take 3 = [0x54, 0x41, 0x47] := hm
        have hs : ¬ ∃ n, StdAt f n := fun h => hm ((stdAt_iff f).1 h).2
        simp only [SM.attempt, SM.bind_apply, hse, hr, hlen, ne_eq, not_true_eq_false, if_false,
          hm', hs, SM.pure_apply', SM.seekBeg_nat, SM.setExceptions_good]
    · have hs : ¬ ∃ n, StdAt f n := fun h => hl ((stdAt_iff f).1 h).1
      have hse := SM.seekEnd_fail_throw 128 f q IoBits.failBad (by omega) rfl
      have hcast : (-(128 : Nat) : Int) = -128 := rfl
      rw [hcast] at hse
      simp only [SM.attempt, SM.bind_apply, hse, hs, if_false, SM.setExceptions_none,
        SM.clear_apply, SM.pure_apply', SM.seekBeg_nat, SM.setExceptions_good]

theorem drop_split (p : Bytes) (a n : Nat) :
    p.drop a = (p.drop a).take n ++ p.drop (a + n) := by
  rw [← List.drop_drop, List.take_append_drop]

/-! ### Splitting a raw image into its fields -/

theorem std_image_of_bytes {p : Bytes} (hp : p.length = 128) (hm : p.take 3 = TAG) :
    ∃ f : StdFields, f.Ok ∧ f.image = p := by
  refine ⟨⟨(p.drop 3).take 30, (p.drop 33).take 30, (p.drop 63).take 30, (p.drop 93).take 4,
    (p.drop 97).take 30, p[127]⟩, ?_, ?_⟩
  · simp [StdFields.Ok, hp]
  · simp only [StdFields.image]
    have e1 : p = p.take 3 ++ p.drop 3 := (List.take_append_drop 3 p).symm
    have e2 : p.drop 3 = (p.drop 3).take 30 ++ p.drop 33 := drop_split p 3 30
    have e3 : p.drop 33 = (p.drop 33).take 30 ++ p.drop 63 := drop_split p 33 30
    have e4 : p.drop 63 = (p.drop 63).take 30 ++ p.drop 93 := drop_split p 63 30
    have e5 : p.drop 93 = (p.drop 93).take 4 ++ p.drop 97 := drop_split p 93 4
    have e6 : p.drop 97 = (p.drop 97).take 30 ++ p.drop 127 := drop_split p 97 30
    have e7 : p.drop 127 = [p[127]] := by
      have h127 : 127 < p.length := by omega
      rw [List.drop_eq_getElem_cons h127, List.drop_eq_nil_of_le (by omega)]
    rw [← hm]; simp only [List.append_assoc]
    rw [← e7, ← e6, ← e5, ← e4, ← e3, ← e2, ← e1]

theorem ext_image_of_bytes {p : Bytes} (hp : p.length = 227) (hm : p.take 4 = TAGP) :
    ∃ f : ExtFields, f.Ok ∧ f.image = p := by
  refine ⟨⟨(p.drop 4).take 60, (p.drop 64).take 60, (p.drop 124).take 60, p[184],
    (p.drop 185).take 30, (p.drop 215).take 6, (p.drop 221).take 6⟩, ?_, ?_⟩
  · simp [ExtFields.Ok, hp]
  · simp only [ExtFields.image]
    have e1 : p = p.take 4 ++ p.drop 4 := (List.take_append_drop 4 p).symm
    have e2 : p.drop 4 = (p.drop 4).take 60 ++ p.drop 64 := drop_split p 4 60
    have e3 : p.drop 64 = (p.drop 64).take 60 ++ p.drop 124 := drop_split p 64 60
    have e4 : p.drop 124 = (p.drop 124).take 60 ++ p.drop 184 := drop_split p 124 60
    have e5 : p.drop 184 = [p[184]] ++ p.drop 185 := by
      rw [List.drop_eq_getElem_cons (by omega)]; rfl
    have e6 : p.drop 185 = (p.drop 185).take 30 ++ p.drop 215 := drop_split p 185 30
    have e7 : p.drop 215 = (p.drop 215).take 6 ++ (p.drop 221).take 6 := by
      have := drop_split p 215 6
      rw [List.take_of_length_le (l := p.drop 221) (by simp [hp])]
      exact this
    rw [← hm]; simp only [List.append_assoc]
    rw [← e7, ← e6, ← e5, ← e4, ← e3, ← e2, ← e1]

/-- Parse of an arbitrary standard image with the right magic. -/
theorem initStandard_write {p : Bytes} (hp : p.length = 128) (hm : p.take 3 = TAG) :
    ∃ t, V1Tag.initStandard p = .ok t ∧ t.write = .ok p ∧ t.extended = false := by
  obtain ⟨f, hf, rfl⟩ := std_image_of_bytes hp hm
  obtain ⟨a, b⟩ := initStandard_image f hf
  by_cases h : Is11 f.comment
  · obtain ⟨n, hn, hc, hr⟩ := a h
    exact ⟨_, hr, write_stdTag f hf _ _ _ (.inl ⟨rfl, n, rfl, hc⟩), rfl⟩
  · exact ⟨_, b h, write_stdTag f hf _ _ _ (.inr ⟨rfl, rfl⟩), rfl⟩

theorem initExtended_write {p : Bytes} (hp : p.length = 355) (hm : p.take 4 = TAGP)
    (hm2 : (p.drop 227).take 3 = TAG) :
    ∃ t, V1Tag.initExtended p = .ok t ∧ t.write = .ok p ∧ t.extended = true := by
  obtain ⟨e, he, hep⟩ := ext_image_of_bytes (p := p.take 227) (by simp [hp])
    (by rw [List.take_take]; exact hm)
  obtain ⟨f, hf, hfp⟩ := std_image_of_bytes (p := p.drop 227) (by simp [hp]) hm2
  have hpp : p = e.image ++ f.image := by rw [hep, hfp, List.take_append_drop]
  subst hpp
  obtain ⟨a, b⟩ := initExtended_image e f he hf
  by_cases h : Is11 f.comment
  · obtain ⟨n, hn, hc, hr⟩ := a h
    exact ⟨_, hr, write_extTag e f he hf _ _ _ (.inl ⟨rfl, n, rfl, hc⟩), rfl⟩
  · exact ⟨_, b h, write_extTag e f he hf _ _ _ (.inr ⟨rfl, rfl⟩), rfl⟩

theorem initExtended_bad {p : Bytes} (hp : p.length = 355) (hm : p.take 4 = TAGP)
    (hm2 : (p.drop 227).take 3 ≠ TAG) : V1Tag.initExtended p = .throw .invalidTag := by
  unfold V1Tag.initExtended
  have hs : ∀ a n, a + n ≤ 355 → slice p a n = .ok ((p.drop a).take n) := by
    intro a n h; simp [slice, hp, h]
  have hr : rd p 184 = .ok p[184] := by simp [rd, hp]
  have hm' : p.take 4 = [0x54, 0x41, 0x47, 0x2b] := hm
  simp only [hs _ _ (by decide : 0 + 4 ≤ 355), hs _ _ (by decide : 4 + 226 + 30 ≤ 355),
    hs _ _ (by decide : 4 + 60 ≤ 355), hs _ _ (by decide : 64 + 196 + 30 ≤ 355),
    hs _ _ (by decide : 64 + 60 ≤ 355), hs _ _ (by decide : 124 + 166 + 30 ≤ 355),
    hs _ _ (by decide : 124 + 60 ≤ 355), hr, hs _ _ (by decide : 185 + 30 ≤ 355),
    hs _ _ (by decide : 215 + 6 ≤ 355), hs _ _ (by decide : 221 + 6 ≤ 355),
    hs _ _ (by decide : 227 + 3 ≤ 355), Res.ok_bind, List.drop_zero, hm']
  simp only [ne_eq, not_true_eq_false, if_false]
  rw [if_pos (by exact hm2)]

theorem maybeRemove_spec (f : Bytes) :
    (∀ n, ExtAt f n → (∃ k, StdAt f k) → maybeRemoveId3v1 f = .ok (f.take n)) ∧
    (∀ n, ExtAt f n → (¬ ∃ k, StdAt f k) → maybeRemoveId3v1 f = .throw .invalidTag) ∧
    (∀ n, (¬ ∃ k, ExtAt f k) → StdAt f n → maybeRemoveId3v1 f = .ok (f.take n)) ∧
    ((¬ ∃ k, ExtAt f k) → (¬ ∃ k, StdAt f k) → maybeRemoveId3v1 f = .ok f) := by
  have key : ∀ off, off ≤ f.length →
      SM.seekBeg ((f.length : Int) - ((f.length - off : Nat) : Int)) ⟨f, 0, IoBits.all, IoBits.none⟩ =
      (.ok (), ⟨f, off, IoBits.all, IoBits.none⟩) := by
    intro off ho
    have : (f.length : Int) - ((f.length - off : Nat) : Int) = (off : Int) := by omega
    rw [this, SM.seekBeg_nat]
  have fin : ∀ n : Nat, (∃ k, ExtAt f k) → n = f.length - 355 →
      ∀ r, V1Tag.initExtended (f.drop n) = r → (∀ e, r = .throw e → e = .invalidTag) →
      maybeRemoveId3v1 f = match r with
        | .ok t => if t.size ≤ f.length then .ok (f.take (f.length - t.size)) else .throw .other
        | .throw e => .throw e
        | .ub u => .ub u := by
    intro n he hn r hr hthrow
    have h355 := ((extAt_iff f).1 he).1
    have hsplit : f = f.take n ++ f.drop n := (List.take_append_drop _ _).symm
    have hos := ofStream_355 (f.take n) (f.drop n) IoBits.all (by rw [List.length_drop]; omega)
    rw [← hsplit] at hos
    have hl : (f.take n).length = n := by rw [List.length_take]; omega
    rw [hl] at hos
    have hk := key n (by omega)
    have hk' : (f.length : Int) - ((f.length - n : Nat) : Int) = f.length - 355 := by
      omega
    rw [hk'] at hk
    unfold maybeRemoveId3v1 processId3v1
    rw [SM.bind_ok (endsInId3v1_spec f 0 IoBits.all)]
    simp only [findV1, he, if_true, ne_eq, reduceCtorEq, not_false_eq_true]
    rw [SM.bind_ok hk, SM.bind_apply, hos, hr]
    cases r with
    | ok t => simp
    | throw e => rw [hthrow e rfl]
    | ub u => simp
  refine ⟨?_, ?_, ?_, ?_⟩
  · intro n he hs
    obtain ⟨hn, h355⟩ := extAt_pos he
    obtain ⟨_, hm⟩ := (extAt_iff f).1 ⟨n, he⟩
    obtain ⟨_, hm2⟩ := (stdAt_iff f).1 hs
    obtain ⟨t, h1, h2, h3⟩ := initExtended_write (p := f.drop n) (by simp; omega)
      (by rw [hn]; exact hm)
      (by rw [List.drop_drop, hn]; rw [show f.length - 355 + 227 = f.length - 128 by omega]; exact hm2)
    rw [fin n ⟨n, he⟩ hn _ h1 (by simp)]
    simp [V1Tag.size, h3, h355, hn]
  · intro n he hs
    obtain ⟨hn, h355⟩ := extAt_pos he
    obtain ⟨_, hm⟩ := (extAt_iff f).1 ⟨n, he⟩
    have h1 := initExtended_bad (p := f.drop n) (by simp; omega)
      (by rw [hn]; exact hm)
      (by
        rw [List.drop_drop, hn, show f.length - 355 + 227 = f.length - 128 by omega]
        exact fun h => hs ((stdAt_iff f).2 ⟨by omega, h⟩))
    rw [fin n ⟨n, he⟩ hn _ h1 (by simp)]
  · intro n he hs
    obtain ⟨hn, h128⟩ := stdAt_pos hs
    obtain ⟨_, hm⟩ := (stdAt_iff f).1 ⟨n, hs⟩
    obtain ⟨t, h1, h2, h3⟩ := initStandard_write (p := f.drop n) (by simp; omega)
      (by rw [hn]; exact hm)
    have hsplit : f = f.take n ++ f.drop n := (List.take_append_drop _ _).symm
    have hos := ofStream_128 (f.take n) (f.drop n) IoBits.all (by simp; omega)
    rw [← hsplit] at hos
    have hl : (f.take n).length = n := by simp; omega
    rw [hl] at hos
    have hk := key n (by omega)
    have hk' : (f.length : Int) - ((f.length - n : Nat) : Int) = f.length - 128 := by
      omega
    rw [hk'] at hk
    unfold maybeRemoveId3v1 processId3v1
    rw [SM.bind_ok (endsInId3v1_spec f 0 IoBits.all)]
    have hs' : ∃ n, StdAt f n := ⟨n, hs⟩
    simp only [findV1, he, hs', if_true, if_false, ne_eq, reduceCtorEq, not_false_eq_true]
    rw [SM.bind_ok hk, SM.bind_apply, hos, h1]
    simp [V1Tag.size, h3, h128, hn]
  · intro he hs
    unfold maybeRemoveId3v1 processId3v1
    rw [SM.bind_ok (endsInId3v1_spec f 0 IoBits.all)]
    simp [findV1, he, hs]

end Scribbu
