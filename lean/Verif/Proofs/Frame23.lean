import Verif.Proofs.Tag22
import Verif.Spec.Tag23

namespace Scribbu
open Spec Props

theorem ofNat_mod (n : Nat) : UInt8.ofNat (n % 256) = UInt8.ofNat n := by
  apply UInt8.toNat_inj.1; simp [UInt8.toNat_ofNat']

theorem be32_of (n : Nat) :
    [UInt8.ofNat ((n &&& 0xff000000) >>> 24), UInt8.ofNat ((n &&& 0x00ff0000) >>> 16),
     UInt8.ofNat ((n &&& 0x0000ff00) >>> 8), UInt8.ofNat (n &&& 0x000000ff)] = be32 n := by
  have e0 : (n &&& 0xff000000) >>> 24 = n / 16777216 % 256 := by
    rw [Nat.shiftRight_and_distrib, Nat.shiftRight_eq_div_pow, show (0xff000000 >>> 24 : Nat) = 2 ^ 8 - 1 by decide,
      Nat.and_two_pow_sub_one_eq_mod]
  have e1 : (n &&& 0x00ff0000) >>> 16 = n / 65536 % 256 := by
    rw [Nat.shiftRight_and_distrib, Nat.shiftRight_eq_div_pow, show (0xff0000 >>> 16 : Nat) = 2 ^ 8 - 1 by decide,
      Nat.and_two_pow_sub_one_eq_mod]
  have e2 : (n &&& 0x0000ff00) >>> 8 = n / 256 % 256 := by
    rw [Nat.shiftRight_and_distrib, Nat.shiftRight_eq_div_pow, show (0xff00 >>> 8 : Nat) = 2 ^ 8 - 1 by decide,
      Nat.and_two_pow_sub_one_eq_mod]
  have e3 : n &&& 0x0000ff = n % 256 := by
    rw [show (0xff : Nat) = 2 ^ 8 - 1 by decide, Nat.and_two_pow_sub_one_eq_mod]
  rw [e0, e1, e2, e3, be32]
  simp only [ofNat_mod]

theorem htonl_eq (n : Nat) : Ext23.htonl n = be32 n := by
  simp only [Ext23.htonl, be32, Nat.shiftRight_eq_div_pow]

theorem be32_decode (n : Nat) (h : n < 2 ^ 32) :
    unsignedFromNonSyncSafe4 (UInt8.ofNat (n / 16777216)) (UInt8.ofNat (n / 65536)) (UInt8.ofNat (n / 256))
      (UInt8.ofNat n) = n := by
  rw [ns4_eq]
  simp only [UInt8.toNat_ofNat']
  omega

theorem ss28_of (n : Nat) (h : n < 2 ^ 28) : ∃ a b c d, syncSafeFromUnsigned n = .ok (a, b, c, d) ∧ [a, b, c, d] = ss28 n := by
  refine ⟨_, _, _, _, by unfold syncSafeFromUnsigned; rw [if_neg (by omega)], ?_⟩
  simp only [and_7f, Nat.shiftRight_eq_div_pow, ss28]

theorem ss28_decode (n : Nat) (h : n < 2 ^ 28) :
    unsignedFromSyncSafe4 (UInt8.ofNat (n / 2097152 % 128)) (UInt8.ofNat (n / 16384 % 128)) (UInt8.ofNat (n / 128 % 128))
      (UInt8.ofNat (n % 128)) = n := by
  rw [ss4_eq]
  simp only [UInt8.toNat_ofNat']
  omega

/-- The size of a frame is read back. -/
theorem size4_decode (ver : Ver) (n : Nat) (h : n < maxSize4 ver) :
    ∃ a b c d, size4 ver n = [a, b, c, d] ∧ frameSize4 ver a b c d = n := by
  cases ver with
  | v4 => exact ⟨_, _, _, _, rfl, ss28_decode n h⟩
  | v2 => exact ⟨_, _, _, _, rfl, be32_decode n h⟩
  | v3 => exact ⟨_, _, _, _, rfl, be32_decode n h⟩

theorem frame4_length (ver : Ver) (id : Id4) (f0 f1 : Byte) (w : Bytes) : (frame4 ver id f0 f1 w).length = 10 + w.length := by
  cases ver <;> simp [frame4, size4, be32, ss28] <;> omega

/-! ### The passes over the frames -/

theorem encrPass_unfold (z : Zlib) (ver : Ver) (buf : Bytes) (cb p : Nat) (ms : List Byte) (found : Bool) :
    encrPass z ver buf cb p ms found =
  if p < cb then
    (rd buf p).bind fun b0 =>
    if cb - p = 1 ∧ b0 = 0 then .ok (ms, found, cb - p)
    else
      (rd buf (p + 1)).bind fun b1 =>
      if cb - p = 2 ∧ b0 = 0 ∧ b1 = 0 then .ok (ms, found, cb - p)
      else
        (rd buf (p + 2)).bind fun b2 =>
        if cb - p = 3 ∧ b0 = 0 ∧ b1 = 0 ∧ b2 = 0 then .ok (ms, found, cb - p)
        else
          (rd buf (p + 3)).bind fun b3 =>
          if (⟨b0, b1, b2, b3⟩ : Id4) = ⟨0, 0, 0, 0⟩ then .ok (ms, found, cb - p)
          else if ver ≠ .v4 ∧ cb < p + 11 then .throw .invalidTag
          else
            (rd buf (p + 4)).bind fun s0 => (rd buf (p + 5)).bind fun s1 =>
            (rd buf (p + 6)).bind fun s2 => (rd buf (p + 7)).bind fun s3 =>
            if (⟨b0, b1, b2, b3⟩ : Id4) ≠ mkId4 'E' 'N' 'C' 'R' then
              encrPass z ver buf cb (p + frameSize4 ver s0 s1 s2 s3 + 10) ms found
            else if cb < p + 11 then .throw .invalidTag
            else
              (encrFrame z ver buf p (frameSize4 ver s0 s1 s2 s3) ms).bind fun (ms, skipped) =>
              encrPass z ver buf cb (p + frameSize4 ver s0 s1 s2 s3 + 10) ms (found || skipped)
  else .ok (ms, found, 0) := by
  rw [encrPass]

theorem framePass_unfold (z : Zlib) (ver : Ver) (ms : List Byte) (buf : Bytes) (cb p : Nat) :
    framePass z ver ms buf cb p =
  if p < cb then
    (rd buf p).bind fun b0 =>
    if cb - p = 1 ∧ b0 = 0 then .ok []
    else
      (rd buf (p + 1)).bind fun b1 =>
      if cb - p = 2 ∧ b0 = 0 ∧ b1 = 0 then .ok []
      else
        (rd buf (p + 2)).bind fun b2 =>
        if cb - p = 3 ∧ b0 = 0 ∧ b1 = 0 ∧ b2 = 0 then .ok []
        else
          (rd buf (p + 3)).bind fun b3 =>
          if (⟨b0, b1, b2, b3⟩ : Id4) = ⟨0, 0, 0, 0⟩ then .ok []
          else if cb < p + 11 then .throw .invalidTag
          else
            (rd buf (p + 4)).bind fun s0 => (rd buf (p + 5)).bind fun s1 =>
            (rd buf (p + 6)).bind fun s2 => (rd buf (p + 7)).bind fun s3 =>
            if cb ≤ frameSize4 ver s0 s1 s2 s3 then .throw .invalidTag
            else
              (readFrame4 z ver ms buf p (frameSize4 ver s0 s1 s2 s3) ⟨b0, b1, b2, b3⟩).bind fun f =>
              (framePass z ver ms buf cb (p + frameSize4 ver s0 s1 s2 s3 + 10)).bind fun fs => .ok (f :: fs)
  else .ok [] := by
  rw [framePass]

/-- What there is to be read at the beginning of a frame. -/
theorem frame4_rd (pre : Bytes) (ver : Ver) (id : Id4) (f0 f1 : Byte) (w post : Bytes) (h : w.length < maxSize4 ver) :
    ∃ a b c d, frameSize4 ver a b c d = w.length ∧
      rd (pre ++ frame4 ver id f0 f1 w ++ post) pre.length = .ok id.a ∧
      rd (pre ++ frame4 ver id f0 f1 w ++ post) (pre.length + 1) = .ok id.b ∧
      rd (pre ++ frame4 ver id f0 f1 w ++ post) (pre.length + 2) = .ok id.c ∧
      rd (pre ++ frame4 ver id f0 f1 w ++ post) (pre.length + 3) = .ok id.d ∧
      rd (pre ++ frame4 ver id f0 f1 w ++ post) (pre.length + 4) = .ok a ∧
      rd (pre ++ frame4 ver id f0 f1 w ++ post) (pre.length + 5) = .ok b ∧
      rd (pre ++ frame4 ver id f0 f1 w ++ post) (pre.length + 6) = .ok c ∧
      rd (pre ++ frame4 ver id f0 f1 w ++ post) (pre.length + 7) = .ok d ∧
      rd (pre ++ frame4 ver id f0 f1 w ++ post) (pre.length + 8) = .ok f0 ∧
      rd (pre ++ frame4 ver id f0 f1 w ++ post) (pre.length + 9) = .ok f1 ∧
      (pre ++ frame4 ver id f0 f1 w ++ post).drop (pre.length + 10) = w ++ post := by
  obtain ⟨a, b, c, d, h1, h2⟩ := size4_decode ver w.length h
  have e : pre ++ frame4 ver id f0 f1 w ++ post =
      pre ++ ([id.a, id.b, id.c, id.d, a, b, c, d, f0, f1] ++ (w ++ post)) := by
    simp [frame4, h1]
  have hc : ∀ k x, ([id.a, id.b, id.c, id.d, a, b, c, d, f0, f1] ++ (w ++ post))[k]? = some x →
      rd (pre ++ ([id.a, id.b, id.c, id.d, a, b, c, d, f0, f1] ++ (w ++ post))) (pre.length + k) = .ok x :=
    fun k x h => rd_append pre k _ x h
  refine ⟨a, b, c, d, h2, ?_⟩
  rw [e]
  refine ⟨hc 0 _ rfl, hc 1 _ rfl, hc 2 _ rfl, hc 3 _ rfl, hc 4 _ rfl, hc 5 _ rfl, hc 6 _ rfl, hc 7 _ rfl, hc 8 _ rfl,
    hc 9 _ rfl, ?_⟩
  rw [List.drop_append]
  simp

theorem encrPass_cons (z : Zlib) (ver : Ver) (pre : Bytes) (id : Id4) (f0 f1 : Byte) (w post : Bytes) (cb : Nat)
    (ms : List Byte) (found : Bool) (hid : id ≠ ⟨0, 0, 0, 0⟩) (hne : id ≠ mkId4 'E' 'N' 'C' 'R') (hw : w ≠ [])
    (hl : w.length < maxSize4 ver) (hcb : pre.length + 10 + w.length ≤ cb) :
    encrPass z ver (pre ++ frame4 ver id f0 f1 w ++ post) cb pre.length ms found =
      encrPass z ver (pre ++ frame4 ver id f0 f1 w ++ post) cb (pre ++ frame4 ver id f0 f1 w).length ms found := by
  have hw1 : 1 ≤ w.length := List.length_pos_iff.2 hw
  obtain ⟨a, b, c, d, hs, h0, h1, h2, h3, h4, h5, h6, h7, -⟩ := frame4_rd pre ver id f0 f1 w post hl
  rw [encrPass_unfold, if_pos (by omega), h0]
  simp only [Res.ok_bind]
  rw [if_neg (by omega), h1]
  simp only [Res.ok_bind]
  rw [if_neg (by omega), h2]
  simp only [Res.ok_bind]
  rw [if_neg (by omega), h3]
  simp only [Res.ok_bind]
  rw [if_neg hid, if_neg (by omega), h4, h5, h6, h7]
  simp only [Res.ok_bind]
  rw [if_pos hne, hs]
  congr 1
  rw [List.length_append, frame4_length]; omega

theorem framePass_step (z : Zlib) (ver : Ver) (ms : List Byte) (pre : Bytes) (id : Id4) (f0 f1 : Byte) (w post : Bytes) (cb : Nat)
    (hid : id ≠ ⟨0, 0, 0, 0⟩) (hw : w ≠ [])
    (hl : w.length < maxSize4 ver) (hcb : pre.length + 10 + w.length ≤ cb) :
    framePass z ver ms (pre ++ frame4 ver id f0 f1 w ++ post) cb pre.length =
      (readFrame4 z ver ms (pre ++ frame4 ver id f0 f1 w ++ post) pre.length w.length id).bind fun f =>
      (framePass z ver ms (pre ++ frame4 ver id f0 f1 w ++ post) cb (pre ++ frame4 ver id f0 f1 w).length).bind
        fun fs => .ok (f :: fs) := by
  have hw1 : 1 ≤ w.length := List.length_pos_iff.2 hw
  obtain ⟨a, b, c, d, hs, h0, h1, h2, h3, h4, h5, h6, h7, -⟩ := frame4_rd pre ver id f0 f1 w post hl
  rw [framePass_unfold, if_pos (by omega), h0]
  simp only [Res.ok_bind]
  rw [if_neg (by omega), h1]
  simp only [Res.ok_bind]
  rw [if_neg (by omega), h2]
  simp only [Res.ok_bind]
  rw [if_neg (by omega), h3]
  simp only [Res.ok_bind]
  rw [if_neg hid, if_neg (by omega), h4, h5, h6, h7]
  simp only [Res.ok_bind]
  rw [hs, if_neg (by omega)]
  congr 1
  funext f
  congr 2
  rw [List.length_append, frame4_length]; omega

/-- Reading a frame of whose second flag byte only the unsynchronisation bit of ID3v2.4 may be set. -/
theorem readFrame4_plain (z : Zlib) (ver : Ver) (ms : List Byte) (pre : Bytes) (id : Id4) (f0 : Byte) (u : Bool) (w post : Bytes)
    (hl : w.length < maxSize4 ver) (hu : u = true → ver = .v4) :
    readFrame4 z ver ms (pre ++ frame4 ver id f0 (if u then 2 else 0) w ++ post) pre.length w.length id =
      (Body.parse ver (kind4 id) (w ++ post) w.length).bind fun body =>
        .ok (Frame4.new id body (attrs ver f0).1 (attrs ver f0).2.1 (attrs ver f0).2.2 false none none u none) := by
  obtain ⟨a, b, c, d, hs, -, -, -, -, -, -, -, -, h8, h9, h10⟩ := frame4_rd pre ver id f0 (if u then 2 else 0) w post hl
  unfold readFrame4
  rw [h8, h9]
  simp only [Res.ok_bind]
  have hx : extras ver (pre ++ frame4 ver id f0 (if u then 2 else 0) w ++ post) (pre.length + 10) (if u then 2 else 0) =
      .ok ⟨none, false, none, u, none, 0⟩ := by
    cases ver <;> cases u
    case v4.true =>
      have e1 : decide ((2 : Byte) &&& 0x40 ≠ 0) = false := by decide
      have e2 : decide ((2 : Byte) &&& 0x04 ≠ 0) = false := by decide
      have e3 : decide ((2 : Byte) &&& 0x01 ≠ 0) = false := by decide
      have e4 : decide ((2 : Byte) &&& 0x80 ≠ 0) = false := by decide
      have e5 : decide ((2 : Byte) &&& 0x02 ≠ 0) = true := by decide
      simp only [extras, optRead, optSize, if_true, e1, e2, e3, e4, e5, Bool.false_eq_true, if_false, Res.ok_bind,
        Nat.sub_self]
    all_goals simp [extras, optRead, optSize] at hu ⊢
  rw [hx]
  simp only [Res.ok_bind, payloadOf, Nat.add_zero, h10, Nat.sub_zero]
  rw [if_neg (by omega)]
  simp only [Res.ok_bind]
  congr 1
  funext body
  cases ver <;> rfl

/-- Padding. -/
theorem encrPass_pad (z : Zlib) (ver : Ver) (pre : Bytes) (pad : Nat) (post : Bytes) (ms : List Byte) (found : Bool) :
    encrPass z ver (pre ++ List.replicate pad 0 ++ post) (pre.length + pad) pre.length ms found = .ok (ms, found, pad) := by
  rw [encrPass_unfold]
  by_cases h0 : pad = 0
  · subst h0; rw [if_neg (by omega)]
  · rw [if_pos (by omega), Nat.add_sub_cancel_left]
    rw [show pre ++ List.replicate pad 0 ++ post = pre ++ (List.replicate pad 0 ++ post) by simp]
    have hc : ∀ k, k < pad → rd (pre ++ (List.replicate pad 0 ++ post)) (pre.length + k) = .ok 0 := fun k h =>
      rd_append pre k _ 0 (by rw [List.getElem?_append_left (by simpa using h)]; simp [h])
    have e0 : rd (pre ++ (List.replicate pad 0 ++ post)) pre.length = .ok 0 := hc 0 (by omega)
    rw [e0]
    simp only [Res.ok_bind]
    by_cases h1 : pad = 1
    · subst h1; simp
    · rw [if_neg (by omega), hc 1 (by omega)]
      simp only [Res.ok_bind]
      by_cases h2 : pad = 2
      · subst h2; simp
      · rw [if_neg (by omega), hc 2 (by omega)]
        simp only [Res.ok_bind]
        by_cases h3 : pad = 3
        · subst h3; simp
        · rw [if_neg (by omega), hc 3 (by omega)]
          simp

theorem framePass_pad (z : Zlib) (ver : Ver) (pre : Bytes) (pad : Nat) (post : Bytes) (ms : List Byte) :
    framePass z ver ms (pre ++ List.replicate pad 0 ++ post) (pre.length + pad) pre.length = .ok [] := by
  rw [framePass_unfold]
  by_cases h0 : pad = 0
  · subst h0; rw [if_neg (by omega)]
  · rw [if_pos (by omega), Nat.add_sub_cancel_left]
    rw [show pre ++ List.replicate pad 0 ++ post = pre ++ (List.replicate pad 0 ++ post) by simp]
    have hc : ∀ k, k < pad → rd (pre ++ (List.replicate pad 0 ++ post)) (pre.length + k) = .ok 0 := fun k h =>
      rd_append pre k _ 0 (by rw [List.getElem?_append_left (by simpa using h)]; simp [h])
    have e0 : rd (pre ++ (List.replicate pad 0 ++ post)) pre.length = .ok 0 := hc 0 (by omega)
    rw [e0]
    simp only [Res.ok_bind]
    by_cases h1 : pad = 1
    · subst h1; simp
    · rw [if_neg (by omega), hc 1 (by omega)]
      simp only [Res.ok_bind]
      by_cases h2 : pad = 2
      · subst h2; simp
      · rw [if_neg (by omega), hc 2 (by omega)]
        simp only [Res.ok_bind]
        by_cases h3 : pad = 3
        · subst h3; simp
        · rw [if_neg (by omega), hc 3 (by omega)]
          simp

/-- A frame on its way: identifier, first flag byte, unsynchronisation bit, payload, body. -/
structure Raw where
  id : Id4
  f0 : Byte
  u : Bool
  w : Bytes
  body : Body

/-- The bytes of it. -/
def Raw.bytes (ver : Ver) (r : Raw) : Bytes := frame4 ver r.id r.f0 (if r.u then 2 else 0) r.w

/-- The frame that is made of it. -/
def Raw.frame (ver : Ver) (r : Raw) : Frame4 :=
  .new r.id r.body (attrs ver r.f0).1 (attrs ver r.f0).2.1 (attrs ver r.f0).2.2 false none none r.u none

def Raw.Ok (ver : Ver) (r : Raw) : Prop :=
  r.id ≠ ⟨0, 0, 0, 0⟩ ∧ r.w ≠ [] ∧ r.w.length < maxSize4 ver ∧ r.id ≠ mkId4 'E' 'N' 'C' 'R' ∧
    (r.u = true → ver = .v4) ∧ ∀ post, Body.parse ver (kind4 r.id) (r.w ++ post) r.w.length = .ok r.body

/-- The bytes of several. -/
def rawBytes (ver : Ver) (rs : List Raw) : Bytes := (rs.map (Raw.bytes ver)).flatten

theorem rawBytes_cons (ver : Ver) (r : Raw) (rs : List Raw) : rawBytes ver (r :: rs) = r.bytes ver ++ rawBytes ver rs := by
  simp [rawBytes]

theorem Raw.length (ver : Ver) (r : Raw) : (r.bytes ver).length = 10 + r.w.length := frame4_length _ _ _ _ _

theorem encrPass_layout (z : Zlib) (ver : Ver) (rs : List Raw) (pad : Nat) (post : Bytes) (ms : List Byte) (found : Bool) :
    ∀ pre : Bytes, (∀ r ∈ rs, r.Ok ver) →
    encrPass z ver (pre ++ rawBytes ver rs ++ List.replicate pad 0 ++ post)
      (pre.length + (rawBytes ver rs).length + pad) pre.length ms found = .ok (ms, found, pad) := by
  induction rs with
  | nil =>
    intro pre _
    simp only [rawBytes, List.map_nil, List.flatten_nil, List.append_nil, List.length_nil, Nat.add_zero]
    exact encrPass_pad z ver pre pad post ms found
  | cons r rs ih =>
    intro pre h
    obtain ⟨h1, h2, h3, h4, h5, h6⟩ := h r (by simp)
    have hlen := Raw.length ver r
    have a1 := encrPass_cons z ver pre r.id r.f0 (if r.u then 2 else 0) r.w (rawBytes ver rs ++ List.replicate pad 0 ++ post)
      (pre.length + (rawBytes ver (r :: rs)).length + pad) ms found h1 h4 h2 h3
      (by rw [rawBytes_cons, List.length_append, hlen]; omega)
    have a2 := ih (pre ++ r.bytes ver) (fun g hg => h g (by simp [hg]))
    have e : pre ++ rawBytes ver (r :: rs) ++ List.replicate pad 0 ++ post =
      pre ++ r.bytes ver ++ (rawBytes ver rs ++ List.replicate pad 0 ++ post) := by simp [rawBytes_cons]
    have e2 : pre ++ r.bytes ver ++ rawBytes ver rs ++ List.replicate pad 0 ++ post =
      pre ++ r.bytes ver ++ (rawBytes ver rs ++ List.replicate pad 0 ++ post) := by simp
    rw [e2] at a2
    rw [e]
    refine Eq.trans a1 ?_
    rw [show pre.length + (rawBytes ver (r :: rs)).length + pad =
      (pre ++ r.bytes ver).length + (rawBytes ver rs).length + pad by rw [rawBytes_cons]; simp; omega]
    exact a2

theorem framePass_layout (z : Zlib) (ver : Ver) (rs : List Raw) (pad : Nat) (post : Bytes) (ms : List Byte) :
    ∀ pre : Bytes, (∀ r ∈ rs, r.Ok ver) →
    framePass z ver ms (pre ++ rawBytes ver rs ++ List.replicate pad 0 ++ post)
      (pre.length + (rawBytes ver rs).length + pad) pre.length = .ok (rs.map (Raw.frame ver)) := by
  induction rs with
  | nil =>
    intro pre _
    simp only [rawBytes, List.map_nil, List.flatten_nil, List.append_nil, List.length_nil, Nat.add_zero]
    exact framePass_pad z ver pre pad post ms
  | cons r rs ih =>
    intro pre h
    obtain ⟨h1, h2, h3, h4, h5, h6⟩ := h r (by simp)
    have hlen := Raw.length ver r
    have a1 := framePass_step z ver ms pre r.id r.f0 (if r.u then 2 else 0) r.w (rawBytes ver rs ++ List.replicate pad 0 ++ post)
      (pre.length + (rawBytes ver (r :: rs)).length + pad) h1 h2 h3
      (by rw [rawBytes_cons, List.length_append, hlen]; omega)
    rw [readFrame4_plain z ver ms pre r.id r.f0 r.u r.w _ h3 h5, h6] at a1
    simp only [Res.ok_bind] at a1
    have a2 := ih (pre ++ r.bytes ver) (fun g hg => h g (by simp [hg]))
    have e : pre ++ rawBytes ver (r :: rs) ++ List.replicate pad 0 ++ post =
      pre ++ r.bytes ver ++ (rawBytes ver rs ++ List.replicate pad 0 ++ post) := by simp [rawBytes_cons]
    have e2 : pre ++ r.bytes ver ++ rawBytes ver rs ++ List.replicate pad 0 ++ post =
      pre ++ r.bytes ver ++ (rawBytes ver rs ++ List.replicate pad 0 ++ post) := by simp
    rw [e2] at a2
    rw [e]
    refine Eq.trans a1 ?_
    rw [show pre.length + (rawBytes ver (r :: rs)).length + pad =
      (pre ++ r.bytes ver).length + (rawBytes ver rs).length + pad by rw [rawBytes_cons]; simp; omega]
    have a2' : framePass z ver ms (pre ++ frame4 ver r.id r.f0 (if r.u = true then 2 else 0) r.w ++
        (rawBytes ver rs ++ List.replicate pad 0 ++ post)) ((pre ++ r.bytes ver).length + (rawBytes ver rs).length + pad)
        (pre ++ frame4 ver r.id r.f0 (if r.u = true then 2 else 0) r.w).length = .ok (rs.map (Raw.frame ver)) := a2
    rw [a2']
    rfl

theorem encrScan_layout (z : Zlib) (ver : Ver) (rs : List Raw) (pad : Nat) (post pre : Bytes) (h : ∀ r ∈ rs, r.Ok ver) :
    encrScan z ver (pre ++ rawBytes ver rs ++ List.replicate pad 0 ++ post)
      (pre.length + (rawBytes ver rs).length + pad) pre.length = .ok ([], pad) := by
  unfold encrScan encrLoop
  rw [encrPass_layout z ver rs pad post [] false pre h]
  rfl

/-! ### Unsynchronisation -/

theorem rs_unsync_gen (l : Bool) (a rest : Bytes) :
    rs false (unsynchronise l a ++ rest) = a ++ rs (!l && a.getLast? == some 0xff) rest := by
  induction a with
  | nil => simp [unsynchronise]
  | cons b r ih =>
    cases r with
    | nil =>
      by_cases hb : b = 0xff
      · subst hb
        cases l <;> simp [unsynchronise, rs]
      · have e : (b == 255) = false := by simpa using hb
        have e2 : (some b == some (255 : Byte)) = false := by simpa using hb
        have e3 : unsynchronise l [b] = [b] := by simp [unsynchronise, hb]
        have e4 : ([b].getLast? == some (255 : Byte)) = false := e2
        rw [e3, e4, Bool.and_false]
        simp only [List.cons_append, List.nil_append, rs, Bool.false_and, Bool.false_eq_true, if_false, e]
    | cons c r =>
      have hl : (b :: c :: r).getLast? = (c :: r).getLast? := by simp
      rw [hl]
      obtain ⟨t, ht⟩ := unsync_head l c r
      unfold unsynchronise
      by_cases hb : b = 0xff
      · subst hb
        rw [if_pos rfl]
        by_cases hc : unsyncTest c = true
        · simp only [hc, if_true]
          rw [List.cons_append, List.cons_append]
          simp only [rs, Bool.false_and, Bool.false_eq_true, if_false, beq_self_eq_true, Bool.and_self, if_true, ih,
            List.cons_append]
        · simp only [hc]
          have hc0 : c ≠ 0 := by rintro rfl; simp [unsyncTest] at hc
          rw [ht] at ih ⊢
          simp only [Bool.false_eq_true, if_false, List.cons_append, rs, Bool.false_and] at ih ⊢
          simp only [beq_self_eq_true, Bool.true_and, beq_iff_eq, hc0, if_false]
          rw [ih]
      · rw [if_neg hb]
        simp only [List.cons_append, rs, Bool.false_and, Bool.false_eq_true, if_false]
        rw [show (b == 255) = false by simpa using hb, ih]
        rfl

theorem rs_plain_append (a rest : Bytes) (h : ¬ NeedsStuffing a) :
    rs false (a ++ rest) = a ++ rs (a.getLast? == some 0xff) rest := by
  have e : unsynchronise false a = a := (C06_unchanged_iff_partial a).2 h
  have := rs_unsync_gen false a rest
  rw [e] at this
  simpa using this

theorem rs_head {a : Bytes} (h : a.head? ≠ some 0) (p : Bool) : rs p a = rs false a := by
  cases a with
  | nil => simp [rs]
  | cons b r => simp only [List.head?_cons, ne_eq, Option.some.injEq] at h; simp [rs, h]

theorem rs_true_zeros (n : Nat) : rs true (List.replicate n 0) = List.replicate (n - 1) 0 := by
  cases n with
  | zero => rfl
  | succ n => simp [List.replicate_succ, rs, rs_zeros]

/-! ### Writing -/

/-- The first flag byte that is written. -/
def f0w (ver : Ver) (f : Frame4) : Byte :=
  match ver with
  | .v4 => Frame4.bit f.tap 32 ||| Frame4.bit f.fap 16 ||| Frame4.bit f.ro 8
  | _ => Frame4.bit f.tap 64 ||| Frame4.bit f.fap 32 ||| Frame4.bit f.ro 16

/-- It is read back shifted by one. -/
theorem attrs_f0w (ver : Ver) (f : Frame4) : attrs ver (f0w ver f) = (false, f.tap, f.fap) := by
  unfold f0w
  cases ver <;> cases f.tap <;> cases f.fap <;> cases f.ro <;> decide

/-- The unsynchronisation bit that is written. -/
def uw (ver : Ver) (f : Frame4) : Bool :=
  match ver with
  | .v4 => f.unsynch
  | _ => false

/-- The frame that is written, for a payload `w`. -/
def rawOf (ver : Ver) (f : Frame4) (w : Bytes) : Raw := ⟨f.id, f0w ver f, uw ver f, w, f.body⟩

theorem rawOf_copy {ver : Ver} {f g : Frame4} (h : f.copy = g.copy) (w : Bytes) : rawOf ver f w = rawOf ver g w := by
  obtain ⟨_, _, _, _, _, _, _, _, _, _, _, _, _, _⟩ := f
  obtain ⟨_, _, _, _, _, _, _, _, _, _, _, _, _, _⟩ := g
  simp only [Frame4.copy, Frame4.mk.injEq] at h
  obtain ⟨rfl, rfl, rfl, rfl, rfl, rfl, rfl, rfl, rfl, rfl, -⟩ := h
  rfl

theorem header_plain (ver : Ver) (f : Frame4) (n k : Nat) (hp : PlainFrame f) (hs : f.body.size = n) (hl : n < maxSize4 ver) :
    f.header ver n k = .ok ([f.id.a, f.id.b, f.id.c, f.id.d] ++ size4 ver n ++ [f0w ver f, if uw ver f then 2 else 0]) := by
  obtain ⟨h1, h2, h3, h4⟩ := hp
  have h23 : ∀ hl : n < 2 ^ 32, f.header23 n k = .ok ([f.id.a, f.id.b, f.id.c, f.id.d] ++ be32 n ++
      [Frame4.bit f.tap 64 ||| Frame4.bit f.fap 32 ||| Frame4.bit f.ro 16, 0]) := by
    intro hl
    unfold Frame4.header23
    rw [if_neg (by omega), h1, h2, h3]
    simp only [Bool.false_eq_true, if_false, Option.isSome_none, Nat.add_zero, be32_of, Frame4.bit, Frame4.optByte,
      List.append_nil]
    rfl
  cases ver with
  | v2 => exact h23 hl
  | v3 => exact h23 hl
  | v4 =>
    obtain ⟨a, b, c, d, h5, h6⟩ := ss28_of n hl
    unfold Frame4.header Frame4.header24
    rw [hs, h5]
    simp only [Res.ok_bind]
    rw [h6, h1, h2, h3, h4]
    cases hu : f.unsynch <;>
      simp [Frame4.bit, Frame4.optByte, size4, f0w, uw, hu]

theorem fresh4_dirty (z : Zlib) (ver : Ver) (f : Frame4) (last : Bool) (w : Bytes) (hd : f.dirty = true)
    (hw : f.body.serialize = .ok w) (hp : PlainFrame f) (hs : f.body.size = w.length) (hl : w.length < maxSize4 ver) :
    f.fresh z ver last = .ok { f with
      dirty := false, plain := (rawOf ver f w).bytes ver, unsynced := unsynchronise last ((rawOf ver f w).bytes ver)
      nfs := countSyncs true ((rawOf ver f w).bytes ver) +
        (if last ∧ ((rawOf ver f w).bytes ver).getLast? = some 0xff then 1 else 0) } := by
  have hh := header_plain ver f w.length w.length hp hs hl
  unfold Frame4.fresh
  rw [if_pos hd, hw]
  simp only [Res.ok_bind]
  rw [if_neg (by rw [hp.2.1]; decide), hp.1]
  simp only [Bool.false_eq_true, if_false, Res.ok_bind, hh]
  have e : [f.id.a, f.id.b, f.id.c, f.id.d] ++ size4 ver w.length ++ [f0w ver f, if uw ver f = true then 2 else 0] ++ w =
      (rawOf ver f w).bytes ver := rfl
  rw [e]

theorem fresh4_clean (z : Zlib) (ver : Ver) {f : Frame4} (last : Bool) (h : f.dirty = false) : f.fresh z ver last = .ok f := by
  simp [Frame4.fresh, h]

theorem fresh4_ok_clean {z : Zlib} {ver : Ver} {f g : Frame4} {last : Bool} (h : f.fresh z ver last = .ok g) :
    g.dirty = false ∧ g.copy = f.copy := by
  unfold Frame4.fresh at h
  split at h
  · rw [Res.bind_eq_ok] at h
    obtain ⟨w, _, h⟩ := h
    split at h
    · cases h
    · rw [Res.bind_eq_ok] at h
      obtain ⟨w', _, h⟩ := h
      rw [Res.bind_eq_ok] at h
      obtain ⟨w'', _, h⟩ := h
      cases h
      exact ⟨rfl, rfl⟩
  · cases h; simp_all

/-- Two lists whose elements are related pairwise. -/
inductive Paired {α β : Type} (R : α → β → Prop) : List α → List β → Prop
  | nil : Paired R [] []
  | cons {a b as bs} : R a b → Paired R as bs → Paired R (a :: as) (b :: bs)

/-- `g` is `f` with its caches filled, for the payload `w`. -/
def Refreshed (ver : Ver) (w : Frame4 → Bytes) (f g : Frame4) : Prop :=
  g.copy = f.copy ∧ g.dirty = false ∧ g.plain = (rawOf ver f (w f)).bytes ver ∧ ∃ l, g.unsynced = unsynchronise l g.plain

/-- `g` is `f` with its caches filled or not. -/
def Ready (ver : Ver) (w : Frame4 → Bytes) (f g : Frame4) : Prop := g.copy = f.copy ∧ (g.dirty = true ∨ Refreshed ver w f g)

/-- What is assumed of a frame to be written. -/
def Writable (ver : Ver) (f : Frame4) (w : Bytes) : Prop :=
  f.body.serialize = .ok w ∧ f.body.size = w.length ∧ w.length < maxSize4 ver ∧ PlainFrame f

theorem copy_body {f g : Frame4} (h : g.copy = f.copy) : g.body = f.body := by simpa [Frame4.copy] using congrArg Frame4.body h

theorem copy_plain {f g : Frame4} (h : g.copy = f.copy) (hp : PlainFrame f) : PlainFrame g := by
  obtain ⟨h1, h2, h3, h4⟩ := hp
  have e1 : g.compressed = f.compressed := by simpa [Frame4.copy] using congrArg Frame4.compressed h
  have e2 : g.enc = f.enc := by simpa [Frame4.copy] using congrArg Frame4.enc h
  have e3 : g.gid = f.gid := by simpa [Frame4.copy] using congrArg Frame4.gid h
  have e4 : g.dli = f.dli := by simpa [Frame4.copy] using congrArg Frame4.dli h
  exact ⟨by rw [e1, h1], by rw [e2, h2], by rw [e3, h3], by rw [e4, h4]⟩

theorem fresh4_ready (z : Zlib) {ver : Ver} {w : Frame4 → Bytes} {f g : Frame4} (last : Bool) (h : Ready ver w f g)
    (hw : Writable ver f (w f)) : ∃ g', g.fresh z ver last = .ok g' ∧ Refreshed ver w f g' := by
  obtain ⟨hc, hd | hr⟩ := h
  · refine ⟨_, fresh4_dirty z ver g last (w f) hd (by rw [copy_body hc, hw.1]) (copy_plain hc hw.2.2.2)
      (by rw [copy_body hc, hw.2.1]) hw.2.2.1, ?_⟩
    refine ⟨by rw [← hc]; rfl, rfl, by rw [rawOf_copy hc], last, rfl⟩
  · exact ⟨g, fresh4_clean z ver last hr.2.1, hr⟩

theorem sizeAll_ready (z : Zlib) {ver : Ver} {w : Frame4 → Bytes} (u noPad : Bool) {fs gs : List Frame4}
    (h : Paired (Ready ver w) fs gs) (hw : ∀ f ∈ fs, Writable ver f (w f)) :
    ∃ gs', Frame4.sizeAll z ver u noPad gs =
        .ok (((gs'.map fun g => if u then g.unsynced else g.plain).flatten).length, gs') ∧
      Paired (Refreshed ver w) fs gs' := by
  induction h with
  | nil => exact ⟨[], rfl, .nil⟩
  | @cons f g fs gs h1 h2 ih =>
    obtain ⟨gs', h3, h4⟩ := ih (fun f hf => hw f (by simp [hf]))
    obtain ⟨g', h5, h6⟩ := fresh4_ready z (noPad && gs.isEmpty) h1 (hw f (by simp))
    refine ⟨g' :: gs', ?_, .cons h6 h4⟩
    simp only [Frame4.sizeAll, Frame4.serializedSize, h5, Res.ok_bind, h3, List.map_cons, List.flatten_cons,
      List.length_append]

theorem crcAll_ready (z : Zlib) {ver : Ver} {w : Frame4 → Bytes} {fs gs : List Frame4}
    (h : Paired (Ready ver w) fs gs) (hw : ∀ f ∈ fs, Writable ver f (w f)) (c : Nat) :
    ∃ gs', Frame4.crcAll z ver c gs = .ok ((fs.map fun f => (rawOf ver f (w f)).bytes ver).foldl z.crc32 c, gs') ∧
      Paired (Refreshed ver w) fs gs' := by
  induction h generalizing c with
  | nil => exact ⟨[], rfl, .nil⟩
  | @cons f g fs gs h1 h2 ih =>
    obtain ⟨g', h5, h6⟩ := fresh4_ready z false h1 (hw f (by simp))
    obtain ⟨gs', h3, h4⟩ := ih (fun f hf => hw f (by simp [hf])) (z.crc32 c g'.plain)
    refine ⟨g' :: gs', ?_, .cons h6 h4⟩
    simp only [Frame4.crcAll, Frame4.crc, h5, Res.ok_bind, h3, List.map_cons, List.foldl_cons]
    rw [h6.2.2.1]

/-! Lists of frames whose caches are filled. -/

theorem sizeAll_clean {z : Zlib} {ver : Ver} {u noPad : Bool} {fs fs' : List Frame4} {n : Nat}
    (h : Frame4.sizeAll z ver u noPad fs = .ok (n, fs')) : (∀ f ∈ fs', f.dirty = false) ∧
      fs'.map Frame4.copy = fs.map Frame4.copy ∧
      n = ((fs'.map fun g => if u then g.unsynced else g.plain).flatten).length := by
  induction fs generalizing n fs' with
  | nil => cases h; simp
  | cons f fs ih =>
    simp only [Frame4.sizeAll, Frame4.serializedSize] at h
    rw [Res.bind_eq_ok] at h
    obtain ⟨⟨m, g⟩, h1, h⟩ := h
    rw [Res.bind_eq_ok] at h1
    obtain ⟨g', h1, h1'⟩ := h1
    cases h1'
    rw [Res.bind_eq_ok] at h
    obtain ⟨⟨k, gs⟩, h2, h⟩ := h
    cases h
    obtain ⟨i1, i2, i3⟩ := ih h2
    refine ⟨?_, by simp [i2, (fresh4_ok_clean h1).2], by simp [i3]⟩
    intro f' hf
    simp only [List.mem_cons] at hf
    rcases hf with rfl | hf
    · exact (fresh4_ok_clean h1).1
    · exact i1 f' hf

theorem crcAll_clean {z : Zlib} {ver : Ver} {fs fs' : List Frame4} {c c' : Nat}
    (h : Frame4.crcAll z ver c fs = .ok (c', fs')) : (∀ f ∈ fs', f.dirty = false) ∧
      fs'.map Frame4.copy = fs.map Frame4.copy ∧ c' = (fs'.map Frame4.plain).foldl z.crc32 c := by
  induction fs generalizing c c' fs' with
  | nil => cases h; simp
  | cons f fs ih =>
    simp only [Frame4.crcAll, Frame4.crc] at h
    rw [Res.bind_eq_ok] at h
    obtain ⟨⟨m, g⟩, h1, h⟩ := h
    rw [Res.bind_eq_ok] at h1
    obtain ⟨g', h1, h1'⟩ := h1
    cases h1'
    rw [Res.bind_eq_ok] at h
    obtain ⟨⟨k, gs⟩, h2, h⟩ := h
    cases h
    obtain ⟨i1, i2, i3⟩ := ih h2
    refine ⟨?_, by simp [i2, (fresh4_ok_clean h1).2], by simp [i3]⟩
    intro f' hf
    simp only [List.mem_cons] at hf
    rcases hf with rfl | hf
    · exact (fresh4_ok_clean h1).1
    · exact i1 f' hf

theorem writeAll_of_clean (z : Zlib) (ver : Ver) (u : Bool) {fs : List Frame4} (h : ∀ f ∈ fs, f.dirty = false) :
    Frame4.writeAll z ver u fs = .ok ((fs.map fun g => if u then g.unsynced else g.plain).flatten, fs) := by
  induction fs with
  | nil => rfl
  | cons f fs ih =>
    simp only [Frame4.writeAll, Frame4.write, fresh4_clean z ver false (h f (by simp)), Res.ok_bind,
      ih (fun f hf => h f (by simp [hf])), List.map_cons, List.flatten_cons]

theorem sizeAll_of_clean (z : Zlib) (ver : Ver) (u np : Bool) {fs : List Frame4} (h : ∀ f ∈ fs, f.dirty = false) :
    Frame4.sizeAll z ver u np fs = .ok (((fs.map fun g => if u then g.unsynced else g.plain).flatten).length, fs) := by
  induction fs with
  | nil => rfl
  | cons f fs ih =>
    simp only [Frame4.sizeAll, Frame4.serializedSize, fresh4_clean z ver _ (h f (by simp)), Res.ok_bind,
      ih (fun f hf => h f (by simp [hf])), List.map_cons, List.flatten_cons, List.length_append]

theorem crcAll_of_clean (z : Zlib) (ver : Ver) (c : Nat) {fs : List Frame4} (h : ∀ f ∈ fs, f.dirty = false) :
    Frame4.crcAll z ver c fs = .ok ((fs.map Frame4.plain).foldl z.crc32 c, fs) := by
  induction fs generalizing c with
  | nil => rfl
  | cons f fs ih =>
    simp only [Frame4.crcAll, Frame4.crc, fresh4_clean z ver _ (h f (by simp)), Res.ok_bind,
      ih _ (fun f hf => h f (by simp [hf])), List.map_cons, List.foldl_cons]

theorem refreshed_clean {ver : Ver} {w : Frame4 → Bytes} {fs gs : List Frame4} (h : Paired (Refreshed ver w) fs gs) :
    (∀ g ∈ gs, g.dirty = false) ∧ gs.map Frame4.copy = fs.map Frame4.copy ∧
      (gs.map Frame4.plain).flatten = rawBytes ver (fs.map fun f => rawOf ver f (w f)) := by
  induction h with
  | nil => simp [rawBytes]
  | cons h1 h2 ih =>
    refine ⟨?_, by simp [ih.2.1, h1.1], ?_⟩
    · intro g hg
      simp only [List.mem_cons] at hg
      rcases hg with rfl | hg
      · exact h1.2.1
      · exact ih.1 g hg
    · simp only [List.map_cons, List.flatten_cons, rawBytes_cons, ih.2.2, h1.2.2.1]

theorem refreshed_ready {ver : Ver} {w : Frame4 → Bytes} {fs gs : List Frame4} (h : Paired (Refreshed ver w) fs gs) :
    Paired (Ready ver w) fs gs := by
  induction h with
  | nil => exact .nil
  | cons h1 h2 ih => exact .cons ⟨h1.1, .inr h1⟩ ih

/-- Resynchronising frames each of which was unsynchronised on its own. -/
theorem rs_frames {ver : Ver} {w : Frame4 → Bytes} {fs gs : List Frame4} (pad : Nat)
    (h : Paired (Refreshed ver w) fs gs) (hid : ∀ f ∈ fs, f.id.a ≠ 0) (hw : ∀ f ∈ fs, w f ≠ []) :
    ∃ pad', rs false ((gs.map Frame4.unsynced).flatten ++ List.replicate pad 0) =
        rawBytes ver (fs.map fun f => rawOf ver f (w f)) ++ List.replicate pad' 0 ∧
      (pad' = pad ∨ pad' + 1 = pad) ∧ ((∀ f ∈ fs, (w f).getLast? ≠ some 0xff) → pad' = pad) := by
  induction h with
  | nil => exact ⟨pad, by simp [rawBytes, rs_zeros]⟩
  | @cons f g fs gs h1 h2 ih =>
    obtain ⟨pad', i1, i2, i3⟩ := ih (fun f hf => hid f (by simp [hf])) (fun f hf => hw f (by simp [hf]))
    obtain ⟨-, -, hp, l, hl⟩ := h1
    simp only [List.map_cons, List.flatten_cons, List.append_assoc, rawBytes_cons]
    have hlast : ((rawOf ver f (w f)).bytes ver).getLast? = (w f).getLast? := by
      unfold Raw.bytes frame4
      rw [List.getLast?_append]
      have : (rawOf ver f (w f)).w = w f := rfl
      rw [this]
      have hne := hw f (by simp)
      cases hx : (w f).getLast? with
      | none => rw [List.getLast?_eq_none_iff] at hx; exact absurd hx hne
      | some x => rfl
    rw [hl, rs_unsync_gen, hp, hlast]
    cases gs with
    | cons g2 gs2 =>
      have hh : ((List.map Frame4.unsynced (g2 :: gs2)).flatten ++ List.replicate pad 0).head? ≠ some 0 := by
        cases h2 with
        | @cons f2 _ fs2 _ h3 h4 =>
          obtain ⟨-, -, hp2, l2, hl2⟩ := h3
          have : g2.plain = f2.id.a :: (g2.plain).tail := by rw [hp2]; rfl
          obtain ⟨t, ht⟩ := unsync_head l2 f2.id.a (g2.plain).tail
          rw [← this, ← hl2] at ht
          simp only [List.map_cons, List.flatten_cons, ht, List.cons_append, List.head?_cons, ne_eq, Option.some.injEq]
          exact hid f2 (by simp)
      rw [rs_head hh, i1]
      exact ⟨pad', rfl, i2, fun h => i3 fun f hf => h f (by simp [hf])⟩
    | nil =>
      cases h2
      simp only [List.map_nil, List.flatten_nil, List.nil_append, rawBytes]
      cases hc : (!l && (w f).getLast? == some 255) with
      | false => exact ⟨pad, by rw [rs_zeros], .inl rfl, fun _ => rfl⟩
      | true =>
        refine ⟨pad - 1, by rw [rs_true_zeros], by omega, fun h => ?_⟩
        simp only [Bool.and_eq_true, beq_iff_eq] at hc
        exact absurd hc.2 (h f (by simp))

end Scribbu
