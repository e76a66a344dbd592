import Verif.Proofs.Tag23

namespace Scribbu
open Spec Props

/-! ### Extended headers of ID3v2.4 -/

theorem ext24_write {e : Ext24} {b : Bytes} (h : e.write = .ok b) :
    b.length = 6 + (if e.update then 1 else 0) + (if e.fcrc then 5 else 0) + (if e.restricted then 1 else 0) ∧ e.size < 2 ^ 28 := by
  unfold Ext24.write at h
  rw [Res.bind_eq_ok] at h
  obtain ⟨⟨a, b', c, d⟩, h1, h⟩ := h
  have hs : e.size < 2 ^ 28 := by
    apply Nat.lt_of_not_le
    intro hn
    rw [(C01_sync_safe_encode_decode e.size).2 (by omega)] at h1
    cases h1
  simp only [Res.bind_eq_ok] at h
  obtain ⟨crc, h2, r, h3, h⟩ := h
  simp only [Res.ok.injEq] at h
  have hc : crc.length = if e.fcrc then 5 else 0 := by
    unfold Ext24.crcBytes at h2
    split at h2
    · rename_i hf
      rw [if_pos hf]
      split at h2
      · cases h2
      · rw [Res.bind_eq_ok] at h2
        obtain ⟨⟨a, b, c, d⟩, -, h2⟩ := h2
        cases h2
        rfl
    · rename_i hf
      rw [if_neg hf]
      cases h2
      rfl
  have hr : r.length = if e.restricted then 1 else 0 := by
    unfold Ext24.restrBytes at h3
    split at h3
    · rename_i hf
      rw [if_pos hf]
      split at h3
      · cases h3
      · cases h3; rfl
    · rename_i hf
      rw [if_neg hf]
      cases h3
      rfl
  refine ⟨?_, hs⟩
  rw [← h]
  simp only [List.length_append, hc, hr, List.length_cons, List.length_nil]
  cases e.update <;> simp

/-- An extended header without checksum and restrictions is read back. -/
theorem ext24_parse (e : Ext24) (rest : Bytes) (hs : e.size = if e.update then 7 else 6) (hf : e.fcrc = false) (hr : e.restricted = false) :
    ∃ b, e.write = .ok b ∧ b.length = e.size ∧
      Ext24.parse (b ++ rest) (b ++ rest).length = .ok ⟨e.size, e.update, false, false, none, none⟩ := by
  obtain ⟨sz, upd, fc, re, crc, res⟩ := e
  simp only at hs hf hr
  subst hf hr
  have s6 : syncSafeFromUnsigned 6 = .ok (0, 0, 0, 6) := by decide
  have s7 : syncSafeFromUnsigned 7 = .ok (0, 0, 0, 7) := by decide
  have hz : (0 : Byte) &&& 64 = 0 := by decide
  have hz2 : (0 : Byte) &&& 32 = 0 := by decide
  have hz3 : (0 : Byte) &&& 16 = 0 := by decide
  have hz4 : (64 : Byte) &&& 64 ≠ 0 := by decide
  have hz5 : (64 : Byte) &&& 32 = 0 := by decide
  have hz6 : (64 : Byte) &&& 16 = 0 := by decide
  cases upd with
  | false =>
    simp only [Bool.false_eq_true, if_false] at hs
    subst hs
    refine ⟨[0, 0, 0, 6, 1, 0], by unfold Ext24.write; simp only [s6, Res.ok_bind, Ext24.crcBytes, Ext24.restrBytes, Bool.false_eq_true, if_false]; simp [Ext24.flagByte], rfl, ?_⟩
    unfold Ext24.parse
    simp only [List.cons_append, List.nil_append, List.length_cons, rd, List.getElem?_cons_zero, List.getElem?_cons_succ, Res.ok_bind]
    rw [if_neg (by omega), if_neg (by decide)]
    simp only [hz, hz2, hz3, ne_eq, not_true, if_false, Res.ok_bind, decide_false]
    rfl
  | true =>
    simp only [if_true] at hs
    subst hs
    refine ⟨[0, 0, 0, 7, 1, 64, 0], by unfold Ext24.write; simp only [s7, Res.ok_bind, Ext24.crcBytes, Ext24.restrBytes, Bool.false_eq_true, if_false]; simp [Ext24.flagByte], rfl, ?_⟩
    unfold Ext24.parse
    have e6 : 5 + (1 : Byte).toNat = 6 := by decide
    simp only [List.cons_append, List.nil_append, List.length_cons, rd, List.getElem?_cons_zero, List.getElem?_cons_succ, Res.ok_bind, e6]
    rw [if_neg (by omega), if_neg (by decide), if_pos hz4, if_neg (by omega), if_neg (by decide)]
    simp only [hz4, hz5, hz6, ne_eq, not_true, if_false, Res.ok_bind, decide_false, not_false_eq_true, decide_true]
    rfl

/-- Reading an extended header never reads outside of it. -/
theorem ext24_safe (buf : Bytes) : (Ext24.parse buf buf.length).safe := by
  have hrd : ∀ i, i < buf.length → ∃ b, rd buf i = .ok b := by
    intro i hi
    exact ⟨buf[i], by unfold rd; rw [List.getElem?_eq_getElem hi]⟩
  unfold Ext24.parse
  by_cases h6 : buf.length < 6
  · rw [if_pos h6]; trivial
  rw [if_neg h6]
  obtain ⟨a, ha⟩ := hrd 0 (by omega)
  obtain ⟨b, hb⟩ := hrd 1 (by omega)
  obtain ⟨c, hc⟩ := hrd 2 (by omega)
  obtain ⟨d, hd⟩ := hrd 3 (by omega)
  obtain ⟨n, hn⟩ := hrd 4 (by omega)
  obtain ⟨fl, hfl⟩ := hrd 5 (by omega)
  rw [ha, hb, hc, hd, hn, hfl]
  simp only [Res.ok_bind]
  by_cases h0 : n = 0
  · rw [if_pos h0]; trivial
  rw [if_neg h0]
  generalize 5 + n.toNat = p
  have step : ∀ {α β : Type} (x : Res α) (f : α → Res β), x.safe → (∀ a, x = .ok a → (f a).safe) → (x.bind f).safe := by
    intro α β x f hx hf
    cases x with
    | ok a => exact hf a rfl
    | throw e => trivial
    | ub e => exact hx.elim
  apply step
  · split
    · split
      · trivial
      · obtain ⟨x, hx⟩ := hrd p (by omega)
        rw [hx]
        simp only [Res.ok_bind]
        split <;> trivial
    · trivial
  intro p _
  apply step
  · split
    · split
      · trivial
      · obtain ⟨x, hx⟩ := hrd p (by omega)
        rw [hx]
        simp only [Res.ok_bind]
        split
        · trivial
        · obtain ⟨x1, h1⟩ := hrd (p + 1) (by omega)
          obtain ⟨x2, h2⟩ := hrd (p + 2) (by omega)
          obtain ⟨x3, h3⟩ := hrd (p + 3) (by omega)
          obtain ⟨x4, h4⟩ := hrd (p + 4) (by omega)
          obtain ⟨x5, h5⟩ := hrd (p + 5) (by omega)
          rw [h1, h2, h3, h4, h5]
          simp only [Res.ok_bind]
          split <;> trivial
    · trivial
  intro q _
  obtain ⟨crc, q⟩ := q
  apply step
  · simp only
    split
    · split
      · trivial
      · obtain ⟨x, hx⟩ := hrd q (by omega)
        rw [hx]
        simp only [Res.ok_bind]
        split
        · trivial
        · obtain ⟨x1, h1⟩ := hrd (q + 1) (by omega)
          rw [h1]
          trivial
    · trivial
  intro _ _
  trivial

/-! ### Reading -/

theorem parse24_full (z : Zlib) (extended : Bool) (size : Nat) (d : Bytes) (p : Nat) (m : IoBits) (h : p + size ≤ d.length) :
    Tag24.parse z extended size ⟨d, p, m, IoBits.none⟩ =
      match Tag24.parseBuf z extended ((d.drop p).take size) with
      | .ok r => (.ok r, ⟨d, p + size, m, IoBits.none⟩)
      | .throw e => (.throw e, ⟨d, p, m, IoBits.none⟩)
      | .ub e => (.ub e, ⟨d, p + size, IoBits.all, IoBits.none⟩) := by
  have hr := SM.read_full size d p IoBits.all h
  unfold Tag24.parse
  simp only [SM.bind_apply, SM.exceptions_apply, SM.setExceptions_good, SM.tellg_good, SM.onThrow, SM.lift_apply, hr]
  cases Tag24.parseBuf z extended ((d.drop p).take size) with
  | ok r => simp
  | throw e => simp
  | ub e => simp

/-- Reading a tag that is there. -/
theorem maybeRead24 (z : Zlib) (pre hdr body post : Bytes) (fl : Byte) (m : IoBits)
    (hh : hdr.length = 10) (hi : ∀ rest, IsHeader (hdr ++ rest) 4 0 fl body.length)
    (r : Option Ext24 × Nat × List Frame4)
    (hb : Tag24.parseBuf z (decide (fl &&& 0x40 ≠ 0)) body = .ok r)
    (mk2 mk3 : Id3v2Info → SM Tag24) :
    maybeReadId3v2 mk2 mk3 (Tag24.read z) ⟨pre ++ (hdr ++ body) ++ post, pre.length, m, IoBits.none⟩ =
      (.ok (some ⟨some (decide (fl &&& 0x80 ≠ 0)), decide (fl &&& 0x20 ≠ 0), decide (fl &&& 0x10 ≠ 0), r.1, r.2.1, r.2.2⟩),
        ⟨pre ++ (hdr ++ body) ++ post, (pre ++ (hdr ++ body)).length, m, IoBits.none⟩) := by
  obtain ⟨o, h1, h2⟩ := lookingAt_spec (pre ++ (hdr ++ body) ++ post) pre.length m false
  have ho : o = some ⟨4, 0, fl, body.length⟩ := by
    rw [h2]
    have : (pre ++ (hdr ++ body) ++ post).drop pre.length = hdr ++ (body ++ post) := by
      simp [List.append_assoc]
    rw [this]
    exact hi _
  subst ho
  unfold maybeReadId3v2
  rw [SM.bind_apply, h1]
  simp only [Option.isSome_some, Bool.not_false, Bool.and_true, if_true, SM.bind_apply]
  unfold mkId3v2
  simp only [show ¬ ((4 : Byte) = 2) by decide, show ¬ ((4 : Byte) = 3) by decide, if_false, if_true]
  unfold Tag24.read
  simp only [SM.bind_apply]
  rw [parse24_full _ _ _ _ _ _ (by simp [hh]; omega)]
  have : ((pre ++ (hdr ++ body) ++ post).drop (pre.length + 10)).take body.length = body := by
    rw [show pre ++ (hdr ++ body) ++ post = (pre ++ hdr) ++ (body ++ post) by simp,
      show pre.length + 10 = (pre ++ hdr).length by simp [hh], List.drop_left, List.take_left]
  rw [this, hb]
  simp only [SM.pure_apply']
  congr 2
  simp [hh]; omega

/-! ### Writing -/

theorem writeHeader24_spec (fl : Byte) (cb : Nat) (h : cb < 2 ^ 28) :
    ∃ hdr, Tag24.writeHeader false fl cb = .ok hdr ∧ hdr.length = 10 ∧ ∀ rest, IsHeader (hdr ++ rest) 4 0 fl cb := by
  obtain ⟨b0, b1, b2, b3, h1, h2, h3, h4⟩ := (C01_sync_safe_encode_decode cb).1 (by omega)
  refine ⟨[0x49, 0x44, 0x33, 4, 0, fl, b0, b1, b2, b3], ?_, rfl, fun rest => ?_⟩
  · unfold Tag24.writeHeader; rw [h1]; rfl
  · exact ⟨b0, b1, b2, b3, rest, rfl, by decide, by decide, h2, h3.symm⟩

theorem writeHeader24_large (ft : Bool) (fl : Byte) (cb : Nat) (h : 2 ^ 28 ≤ cb) :
    Tag24.writeHeader ft fl cb = .throw .invalidArgument := by
  unfold Tag24.writeHeader
  rw [(C01_sync_safe_encode_decode _).2 (by omega)]
  rfl

/-- The footer repeats the header, with the letters the other way round. -/
theorem writeHeader24_footer {fl : Byte} {cb : Nat} {hdr : Bytes} (h : Tag24.writeHeader false fl cb = .ok hdr) :
    Tag24.writeHeader true fl cb = .ok ([0x33, 0x44, 0x49] ++ hdr.drop 3) := by
  unfold Tag24.writeHeader at h ⊢
  rw [Res.bind_eq_ok] at h
  obtain ⟨⟨a, b, c, d⟩, h1, h2⟩ := h
  rw [h1]
  simp only [Bool.false_eq_true, if_false, Res.ok.injEq] at h2
  rw [← h2]
  rfl

theorem flags24_bits (t : Tag24) :
    ((t.flags &&& 0x80 ≠ 0) ↔ t.unsync = some true) ∧ ((t.flags &&& 0x40 ≠ 0) ↔ t.ext.isSome = true) ∧
    ((t.flags &&& 0x20 ≠ 0) ↔ t.experimental = true) ∧ ((t.flags &&& 0x10 ≠ 0) ↔ t.footer = true) := by
  unfold Tag24.flags
  by_cases h : t.unsync = some true <;> cases t.ext <;> cases t.experimental <;> cases t.footer <;>
    simp only [h, Option.isSome_some, Option.isSome_none] <;> decide

theorem size24_ok {z : Zlib} {t t' : Tag24} {u : Bool} {n : Nat} (h : t.size z u = .ok (n, t')) :
    t' = { t with frames := t'.frames } ∧ t'.frames.map Frame4.copy = t.frames.map Frame4.copy ∧
    (∀ f ∈ t'.frames, f.dirty = false) ∧ t'.size z u = .ok (n, t') ∧
    n = t.extSize + ((t'.frames.map fun g => if u then g.unsynced else g.plain).flatten).length + 2 * t.padding +
      (if t.footer then 10 else 0) := by
  unfold Tag24.size at h
  simp only at h
  rw [Res.bind_eq_ok] at h
  obtain ⟨⟨m, fs⟩, h1, h2⟩ := h
  obtain ⟨l1, l2, l3⟩ := sizeAll_clean h1
  simp only [Res.ok.injEq, Prod.mk.injEq] at h2
  obtain ⟨h2, rfl⟩ := h2
  refine ⟨rfl, l2, l1, ?_, by rw [← h2, ← l3]; omega⟩
  unfold Tag24.size
  simp only
  rw [sizeAll_of_clean z .v4 u _ l1]
  simp only [Res.ok_bind, Tag24.extSize, ← l3, Res.ok.injEq, Prod.mk.injEq, and_true]
  rw [← h2]
  rfl

/-- The footer that is written. -/
def footer24 (t : Tag24) (hdr : Bytes) : Bytes := if t.footer then [0x33, 0x44, 0x49] ++ hdr.drop 3 else []

theorem write24_eq {z : Zlib} {t t' : Tag24} {u : Bool} {n : Nat} (h : t.size z u = .ok (n, t')) :
    t.write z u = (Tag24.writeHeader false t.flags n).bind fun hdr => (Tag24.extBytes t.ext).bind fun x =>
      .ok (hdr ++ x ++ (t'.frames.map fun g => if u then g.unsynced else g.plain).flatten ++ List.replicate t.padding 0 ++ footer24 t hdr,
        10 + x.length + ((t'.frames.map fun g => if u then g.unsynced else g.plain).flatten).length + t.padding + (footer24 t hdr).length, t') := by
  obtain ⟨k1, k2, k3, k4, k5⟩ := size24_ok h
  obtain ⟨a, b, c, d, e, fs⟩ := t'
  obtain ⟨a', b', c', d', e', fs'⟩ := t
  simp only [Tag24.mk.injEq] at k1
  obtain ⟨rfl, rfl, rfl, rfl, rfl, -⟩ := k1
  have e1 : (⟨a, b, c, d, e, fs⟩ : Tag24).flags = (⟨a, b, c, d, e, fs'⟩ : Tag24).flags := rfl
  unfold Tag24.write
  rw [h]
  simp only [Res.ok_bind, e1]
  cases hh : Tag24.writeHeader false (⟨a, b, c, d, e, fs'⟩ : Tag24).flags n with
  | throw e => rfl
  | ub e => rfl
  | ok hdr =>
    simp only [Res.ok_bind]
    cases Tag24.extBytes d with
    | throw e => rfl
    | ub e => rfl
    | ok x =>
      simp only [Res.ok_bind, writeAll_of_clean z .v4 u k3]
      unfold footer24
      cases c with
      | false => simp only [Bool.false_eq_true, if_false, Res.ok_bind]
      | true => simp only [if_true, k4, Res.ok_bind, e1, writeHeader24_footer hh]

end Scribbu
