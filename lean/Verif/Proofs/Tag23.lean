import Verif.Proofs.Frame23
import Verif.Model.Read

namespace Scribbu
open Spec Props

/-! ### Extended headers of ID3v2.3 -/

theorem ext23_length (cbpad : Nat) (crc : Option Nat) : (ext23 cbpad crc).length = if crc.isSome then 14 else 10 := by
  cases crc <;> rfl

theorem ext23_fresh (e : Ext23) (h : e.dirty = true) :
    e.fresh = { e with dirty := false, nfs := countSyncs true (ext23 e.cbpad e.crc), plain := ext23 e.cbpad e.crc,
                       unsynced := unsynchronise false (ext23 e.cbpad e.crc) } := by
  obtain ⟨cbpad, crc, d, n, p, u⟩ := e
  unfold Ext23.fresh
  rw [if_pos h]
  cases crc <;> simp only [htonl_eq, Ext23.size, ext23, Option.isSome_none, Option.isSome_some, if_true, Bool.false_eq_true,
    if_false, List.append_nil]

theorem ext23_parse (cbpad : Nat) (crc : Option Nat) (rest : Bytes) (hp : cbpad < 2 ^ 32) (hc : ∀ c, crc = some c → c < 2 ^ 32) :
    Ext23.parse (ext23 cbpad crc ++ rest) = .ok (.new cbpad crc) := by
  have hd := be32_decode cbpad hp
  have h6 := be32_decode 6 (by decide)
  have h10 := be32_decode 10 (by decide)
  cases crc with
  | none =>
    unfold Ext23.parse
    simp only [ext23, be32, List.cons_append, List.nil_append, rd, List.getElem?_cons_zero, List.getElem?_cons_succ,
      Res.ok_bind, hd, h6]
    rw [if_neg (by decide), if_neg (by decide)]
  | some c =>
    have hc := be32_decode c (hc c rfl)
    unfold Ext23.parse
    simp only [ext23, be32, List.cons_append, List.nil_append, rd, List.getElem?_cons_zero, List.getElem?_cons_succ,
      Res.ok_bind, hd, h10, hc]
    rw [if_neg (by decide), if_pos (by decide)]

/-! ### Reading -/

theorem parseAll_layout (z : Zlib) (x : Option (Nat × Option Nat)) (rs : List Raw) (pad : Nat) (post : Bytes)
    (hx : ∀ a c, x = some (a, c) → a < 2 ^ 32 ∧ ∀ v, c = some v → v < 2 ^ 32) (h : ∀ r ∈ rs, r.Ok .v3) :
    Tag23.parseAll z x.isSome (extBytes x ++ rawBytes .v3 rs ++ List.replicate pad 0 ++ post)
      ((extBytes x).length + (rawBytes .v3 rs).length + pad) =
      .ok (x.map fun x => .new x.1 x.2, pad, rs.map (Raw.frame .v3)) := by
  unfold Tag23.parseAll
  have he : ((if x.isSome = true then
      (Ext23.parse (extBytes x ++ rawBytes .v3 rs ++ List.replicate pad 0 ++ post)).bind fun e => .ok (some e, e.size + 4)
      else .ok (none, 0)) : Res (Option Ext23 × Nat)) = .ok (x.map fun x => .new x.1 x.2, (extBytes x).length) := by
    cases x with
    | none => rfl
    | some x =>
      obtain ⟨a, c⟩ := x
      have := hx a c rfl
      rw [Option.isSome_some, if_pos rfl]
      simp only [extBytes, List.append_assoc]
      rw [ext23_parse a c _ this.1 this.2, ext23_length]
      simp only [Res.ok_bind, Option.map_some]
      congr 2
      cases c <;> rfl
  rw [he]
  simp only [Res.ok_bind]
  rw [encrScan_layout z .v3 rs pad post (extBytes x) h]
  simp only [Res.ok_bind]
  rw [framePass_layout z .v3 rs pad post [] (extBytes x) h]
  rfl

theorem parseBuf23_of (z : Zlib) (unsync : Bool) (buf : Bytes) (x : Option (Nat × Option Nat)) (fs : List Raw) (pad : Nat)
    (hx : ∀ a c, x = some (a, c) → a < 2 ^ 32 ∧ ∀ v, c = some v → v < 2 ^ 32) (h : ∀ r ∈ fs, r.Ok .v3)
    (hb : (if unsync then rs false buf else buf) = extBytes x ++ rawBytes .v3 fs ++ List.replicate pad 0) :
    Tag23.parseBuf z unsync x.isSome buf = .ok (x.map fun x => .new x.1 x.2, pad, fs.map (Raw.frame .v3)) := by
  have hlay := fun post => parseAll_layout z x fs pad post hx h
  have hlen : (extBytes x ++ rawBytes .v3 fs ++ List.replicate pad 0).length =
      (extBytes x).length + (rawBytes .v3 fs).length + pad := by
    rw [List.length_append, List.length_append, List.length_replicate]
  generalize extBytes x ++ rawBytes .v3 fs ++ List.replicate pad 0 = L at hb hlay hlen
  rw [← hlen] at hlay
  cases unsync with
  | false =>
    simp only [Bool.false_eq_true, if_false] at hb
    subst hb
    unfold Tag23.parseBuf
    rw [if_neg (by decide)]
    have := hlay []
    rwa [List.append_nil] at this
  | true =>
    simp only [if_true] at hb
    unfold Tag23.parseBuf
    rw [if_pos rfl]
    obtain ⟨p', n, h1, h2, h3, h4⟩ := resynchronise_spec buf
    rw [h1]
    simp only [Res.ok_bind]
    rw [hb] at h4
    have hp : p' = L ++ p'.drop n := by rw [← h4, List.take_append_drop]
    have hn : n = L.length := by
      have := congrArg List.length h4
      rw [List.length_take] at this
      omega
    have := hlay (p'.drop n)
    rw [← hp, ← hn] at this
    exact this

theorem parse23_full (z : Zlib) (unsync extended : Bool) (size : Nat) (d : Bytes) (p : Nat) (m : IoBits) (h : p + size ≤ d.length) :
    Tag23.parse z unsync extended size ⟨d, p, m, IoBits.none⟩ =
      match Tag23.parseBuf z unsync extended ((d.drop p).take size) with
      | .ok r => (.ok r, ⟨d, p + size, m, IoBits.none⟩)
      | .throw e => (.throw e, ⟨d, p, m, IoBits.none⟩)
      | .ub e => (.ub e, ⟨d, p + size, IoBits.all, IoBits.none⟩) := by
  have hr := SM.read_full size d p IoBits.all h
  unfold Tag23.parse
  simp only [SM.bind_apply, SM.exceptions_apply, SM.setExceptions_good, SM.tellg_good, SM.onThrow, SM.lift_apply, hr]
  cases Tag23.parseBuf z unsync extended ((d.drop p).take size) with
  | ok r => simp
  | throw e => simp
  | ub e => simp

/-- Reading a tag that is there. -/
theorem maybeRead23 (z : Zlib) (pre hdr body post : Bytes) (fl : Byte) (m : IoBits)
    (hh : hdr.length = 10) (hi : ∀ rest, IsHeader (hdr ++ rest) 3 0 fl body.length)
    (r : Option Ext23 × Nat × List Frame4)
    (hb : Tag23.parseBuf z (decide (fl &&& 0x80 ≠ 0)) (decide (fl &&& 0x40 ≠ 0)) body = .ok r)
    (mk2 mk4 : Id3v2Info → SM Tag23) :
    maybeReadId3v2 mk2 (Tag23.read z) mk4 ⟨pre ++ (hdr ++ body) ++ post, pre.length, m, IoBits.none⟩ =
      (.ok (some ⟨some (decide (fl &&& 0x80 ≠ 0)), decide (fl &&& 0x20 ≠ 0), r.1, r.2.1, r.2.2⟩),
        ⟨pre ++ (hdr ++ body) ++ post, (pre ++ (hdr ++ body)).length, m, IoBits.none⟩) := by
  obtain ⟨o, h1, h2⟩ := lookingAt_spec (pre ++ (hdr ++ body) ++ post) pre.length m false
  have ho : o = some ⟨3, 0, fl, body.length⟩ := by
    rw [h2]
    have : (pre ++ (hdr ++ body) ++ post).drop pre.length = hdr ++ (body ++ post) := by
      simp [List.append_assoc]
    rw [this]
    exact hi _
  subst ho
  unfold maybeReadId3v2
  rw [SM.bind_apply, h1]
  simp only [Option.isSome_some, Bool.not_false, Bool.and_true, if_true, SM.bind_apply]
  unfold mkId3v2
  simp only [show ¬ ((3 : Byte) = 2) by decide, if_false, if_true]
  unfold Tag23.read
  simp only [SM.bind_apply]
  rw [parse23_full _ _ _ _ _ _ _ (by simp [hh]; omega)]
  have : ((pre ++ (hdr ++ body) ++ post).drop (pre.length + 10)).take body.length = body := by
    rw [show pre ++ (hdr ++ body) ++ post = (pre ++ hdr) ++ (body ++ post) by simp,
      show pre.length + 10 = (pre ++ hdr).length by simp [hh], List.drop_left, List.take_left]
  rw [this, hb]
  simp only [SM.pure_apply']
  congr 2
  simp [hh]; omega

/-! ### Writing -/

theorem writeHeader23_spec (fl : Byte) (cb : Nat) (h : cb < 2 ^ 28) :
    ∃ hdr, Tag23.writeHeader fl cb = .ok hdr ∧ hdr.length = 10 ∧ ∀ rest, IsHeader (hdr ++ rest) 3 0 fl cb := by
  obtain ⟨b0, b1, b2, b3, h1, h2, h3, h4⟩ := (C01_sync_safe_encode_decode cb).1 (by omega)
  refine ⟨[0x49, 0x44, 0x33, 3, 0, fl, b0, b1, b2, b3], ?_, rfl, fun rest => ?_⟩
  · unfold Tag23.writeHeader; rw [h1]; rfl
  · exact ⟨b0, b1, b2, b3, rest, rfl, by decide, by decide, h2, h3.symm⟩

theorem writeHeader23_large (fl : Byte) (cb : Nat) (h : 2 ^ 28 ≤ cb) : Tag23.writeHeader fl cb = .throw .invalidArgument := by
  unfold Tag23.writeHeader
  rw [(C01_sync_safe_encode_decode _).2 (by omega)]
  rfl

/-- The flags byte that is written. -/
def wflags23 (t : Tag23) (u : Bool) : Byte := if u then t.flags ||| 0x80 else t.flags

theorem wflags23_bits (t : Tag23) (u : Bool) :
    ((wflags23 t u &&& 0x80 ≠ 0) ↔ (t.unsync = some true ∨ u = true)) ∧
    ((wflags23 t u &&& 0x40 ≠ 0) ↔ t.ext.isSome = true) ∧ ((wflags23 t u &&& 0x20 ≠ 0) ↔ t.experimental = true) := by
  unfold wflags23 Tag23.flags
  by_cases h : t.unsync = some true <;> cases t.ext <;> cases t.experimental <;> cases u <;>
    simp only [h, Option.isSome_some, Option.isSome_none] <;> decide

/-- What the first step of writing does. -/
theorem updateCrc_ok {z : Zlib} {t t1 : Tag23} (h : t.updateCrc z = .ok t1) :
    t1 = { t with ext := t1.ext, frames := t1.frames } ∧ t1.frames.map Frame4.copy = t.frames.map Frame4.copy ∧
    (t1.ext.isSome = t.ext.isSome) ∧
    ((∀ f ∈ t1.frames, f.dirty = false) → t1.updateCrc z = .ok t1) ∧
    (∀ e, t1.ext = some e → e.crc.isSome = true → ∀ f ∈ t1.frames, f.dirty = false) := by
  unfold Tag23.updateCrc at h
  cases hx : t.ext with
  | none =>
    rw [hx] at h
    simp only [Res.ok.injEq] at h
    subst h
    exact ⟨rfl, rfl, by rw [hx], fun _ => by unfold Tag23.updateCrc; rw [hx], by simp [hx]⟩
  | some e =>
    rw [hx] at h
    simp only at h
    by_cases hc : e.crc.isSome = true
    · rw [if_pos hc, Res.bind_eq_ok] at h
      obtain ⟨⟨c, fs⟩, h1, h2⟩ := h
      simp only [Res.ok.injEq] at h2
      subst h2
      obtain ⟨k1, k2, k3⟩ := crcAll_clean h1
      refine ⟨rfl, k2, rfl, fun _ => ?_, fun _ _ _ => k1⟩
      unfold Tag23.updateCrc
      have hs : (e.setCrc c).crc = some c := by
        unfold Ext23.setCrc; split
        · assumption
        · rfl
      have hs1 : ∀ e' : Ext23, e'.crc = some c → e'.setCrc c = e' := fun e' h => by unfold Ext23.setCrc; rw [if_pos h]
      have hs2 : (e.setCrc c).setCrc c = e.setCrc c := hs1 _ hs
      simp only
      rw [if_pos (by rw [hs]; rfl), crcAll_of_clean z .v3 0 k1, ← k3]
      simp only [Res.ok_bind, hs2]
    · rw [if_neg hc] at h
      simp only [Res.ok.injEq] at h
      subst h
      exact ⟨rfl, rfl, by rw [hx], fun _ => by unfold Tag23.updateCrc; rw [hx]; simp only; rw [if_neg hc],
        fun e' he' hc' => by rw [hx] at he'; cases he'; exact absurd hc' hc⟩

theorem ext23_fresh_idem (e : Ext23) : e.fresh.fresh = e.fresh := by
  by_cases h : e.dirty = true
  · rw [ext23_fresh e h]; rfl
  · have : e.fresh = e := by simp [Ext23.fresh, h]
    rw [this, this]

theorem ext23_fresh_clean (e : Ext23) : e.fresh.dirty = false ∧ e.fresh.crc = e.crc ∧ e.fresh.cbpad = e.cbpad := by
  by_cases h : e.dirty = true
  · rw [ext23_fresh e h]; exact ⟨rfl, rfl, rfl⟩
  · have : e.fresh = e := by simp [Ext23.fresh, h]
    rw [this]; exact ⟨by simpa using h, rfl, rfl⟩

/-- The bytes of the extended header in the form used for measuring, or in the one used for writing. -/
def extForm (e : Option Ext23) (plain : Bool) : Bytes :=
  match e with
  | none => []
  | some e => if plain then e.plain else e.unsynced

/-- What `size` computes and leaves behind. -/
theorem size23_ok {z : Zlib} {t t' : Tag23} {u : Bool} {n : Nat} (h : t.size z u = .ok (n, t')) :
    t' = { t with ext := t'.ext, frames := t'.frames } ∧ t'.frames.map Frame4.copy = t.frames.map Frame4.copy ∧
    (∀ f ∈ t'.frames, f.dirty = false) ∧ t'.ext.isSome = t.ext.isSome ∧ (∀ e, t'.ext = some e → e.dirty = false) ∧
    n = (extForm t'.ext (!u)).length + ((t'.frames.map fun g => if u then g.unsynced else g.plain).flatten).length +
      t.padding ∧ t'.updateCrc z = .ok t' := by
  unfold Tag23.size at h
  rw [Res.bind_eq_ok] at h
  obtain ⟨t1, h1, h2⟩ := h
  obtain ⟨k1, k2, k3, k4, k5⟩ := updateCrc_ok h1
  rw [Res.bind_eq_ok] at h2
  obtain ⟨⟨m, fs⟩, h2, h3⟩ := h2
  obtain ⟨l1, l2, l3⟩ := sizeAll_clean h2
  simp only [Res.ok.injEq, Prod.mk.injEq] at h3
  obtain ⟨h3, h4⟩ := h3
  have hpad : t1.padding = t.padding := by rw [k1]
  have hext : t'.ext = t1.ext.map Ext23.fresh := by
    rw [← h4]; cases t1.ext <;> rfl
  have hfr : t'.frames = fs := by rw [← h4]
  have hcl : ∀ e, t'.ext = some e → e.dirty = false := by
    intro e he
    rw [hext, Option.map_eq_some_iff] at he
    obtain ⟨e0, -, rfl⟩ := he
    exact (ext23_fresh_clean e0).1
  have hn : n = (extForm t'.ext (!u)).length + ((t'.frames.map fun g => if u then g.unsynced else g.plain).flatten).length +
      t.padding := by
    rw [← h3, hpad, hfr, ← l3, hext]
    congr 2
    cases t1.ext with
    | none => rfl
    | some e => cases u <;> rfl
  refine ⟨?_, by rw [hfr, l2, k2], by rw [hfr]; exact l1, by rw [hext, Option.isSome_map, k3], hcl, hn, ?_⟩
  · rw [← h4]
    obtain ⟨a, b, c, d, e⟩ := t
    obtain ⟨a', b', c', d', e'⟩ := t1
    simp only [Tag23.mk.injEq] at k1
    obtain ⟨rfl, rfl, -, rfl, -⟩ := k1
    rfl
  · -- the checksum does not change any more
    by_cases hcrc : ∃ e, t1.ext = some e ∧ e.crc.isSome = true
    · obtain ⟨e, he, hc⟩ := hcrc
      have hcl1 := k5 e he hc
      have hsz := sizeAll_of_clean z .v3 u (t1.padding == 0) hcl1
      rw [hsz] at h2
      simp only [Res.ok.injEq, Prod.mk.injEq] at h2
      have hfs : fs = t1.frames := h2.2.symm
      have h6 := k4 hcl1
      unfold Tag23.updateCrc at h6 ⊢
      rw [he] at h6
      simp only at h6
      rw [if_pos hc, crcAll_of_clean z .v3 0 hcl1] at h6
      simp only [Res.ok_bind, Res.ok.injEq] at h6
      have h7 : (e.setCrc ((t1.frames.map Frame4.plain).foldl z.crc32 0)) = e := by
        have := congrArg Tag23.ext h6
        rw [he] at this
        simpa using this
      have h8 : e.crc = some ((t1.frames.map Frame4.plain).foldl z.crc32 0) := by
        unfold Ext23.setCrc at h7
        split at h7
        · assumption
        · rw [← h7]
      have hte : t'.ext = some e.fresh := by rw [hext, he]; rfl
      rw [hte]
      simp only
      have hfc := (ext23_fresh_clean e).2.1
      rw [if_pos (by rw [hfc]; exact hc), hfr, crcAll_of_clean z .v3 0 (hfs ▸ hcl1)]
      simp only [Res.ok_bind]
      have h9 : e.fresh.setCrc ((fs.map Frame4.plain).foldl z.crc32 0) = e.fresh := by
        unfold Ext23.setCrc
        rw [if_pos (by rw [hfc, h8, hfs])]
      rw [h9, ← hte, ← hfr]
    · unfold Tag23.updateCrc
      cases hte : t'.ext with
      | none => rfl
      | some e' =>
        simp only
        rw [if_neg]
        intro hc
        rw [hext, Option.map_eq_some_iff] at hte
        obtain ⟨e0, he0, rfl⟩ := hte
        exact hcrc ⟨e0, he0, by rw [← (ext23_fresh_clean e0).2.1]; exact hc⟩

theorem write23_eq {z : Zlib} {t t' : Tag23} {u : Bool} {n : Nat} (h : t.size z u = .ok (n, t')) :
    t.write z u = (Tag23.writeHeader (wflags23 t u) n).bind fun hdr =>
      .ok (hdr ++ extForm t'.ext u ++ (t'.frames.map fun g => if u then g.unsynced else g.plain).flatten ++
        List.replicate t.padding 0,
        10 + (extForm t'.ext u).length + ((t'.frames.map fun g => if u then g.unsynced else g.plain).flatten).length + t.padding,
        t') := by
  obtain ⟨k1, k2, k3, k4, k5, k6, k7⟩ := size23_ok h
  unfold Tag23.write
  rw [h]
  simp only [Res.ok_bind]
  have : (if u = true then t.flags ||| 0x80 else t.flags) = wflags23 t u := rfl
  rw [this]
  cases Tag23.writeHeader (wflags23 t u) n with
  | throw e => rfl
  | ub e => rfl
  | ok hdr =>
    simp only [Res.ok_bind, k7, writeAll_of_clean z .v3 u k3]
    have hp : t'.padding = t.padding := by rw [k1]
    cases hx : t'.ext with
    | none =>
      simp only [extForm, hp]
      congr 3
      rw [← hx, ← hp]
    | some e =>
      have hf : e.fresh = e := by simp [Ext23.fresh, k5 e hx]
      simp only [extForm, hp, Ext23.write, hf]
      congr 3
      rw [← hx, ← hp]

/-! ### Tags that can be stored -/

theorem frameOf_eq (ver : Ver) (f : Frame4) (w : Bytes) : frameOf ver f w = (rawOf ver f w).bytes ver := by
  have h : flagsWritten ver f = f0w ver f := by
    unfold flagsWritten f0w flags0
    cases ver <;> cases f.tap <;> cases f.fap <;> cases f.ro <;> decide
  unfold frameOf Raw.bytes
  rw [h]
  cases ver <;> rfl

theorem frames_eq (ver : Ver) (fs : List Frame4) (w : Frame4 → Bytes) :
    (fs.map fun f => frameOf ver f (w f)).flatten = rawBytes ver (fs.map fun f => rawOf ver f (w f)) := by
  simp only [rawBytes, List.map_map, Function.comp_def, frameOf_eq]

theorem storable_writable {z : Zlib} {ver : Ver} {fs : List Frame4} {w : Frame4 → Bytes} (h : StorableFrames z ver fs w) :
    ∀ f ∈ fs, Writable ver f (w f) := by
  intro f hf
  obtain ⟨-, h2, h3, h4, -, -, h7⟩ := h f hf
  obtain ⟨w', e, hl, -⟩ := body_rt ver _ _ h3
  rw [h4] at e
  cases e
  exact ⟨h4, hl.symm, h7, h2⟩

theorem current_ready {z : Zlib} {ver : Ver} {f : Frame4} {w : Frame4 → Bytes} (hc : Current4 z ver f)
    (hw : Writable ver f (w f)) : Ready ver w f f := by
  refine ⟨rfl, ?_⟩
  rcases hc with h | ⟨f0, last, hd, hf⟩
  · exact .inl h
  · right
    obtain ⟨h1, h2⟩ := fresh4_ok_clean hf
    have hb : f0.body = f.body := copy_body h2.symm
    have := fresh4_dirty z ver f0 last (w f) hd (by rw [hb]; exact hw.1) (copy_plain h2.symm hw.2.2.2)
      (by rw [hb]; exact hw.2.1) hw.2.2.1
    rw [this, Res.ok.injEq] at hf
    have e1 := congrArg Frame4.plain hf
    have e2 := congrArg Frame4.unsynced hf
    simp only at e1 e2
    rw [rawOf_copy h2.symm] at e1 e2
    exact ⟨rfl, h1, e1.symm, last, by rw [← e1, ← e2]⟩

theorem storable_ready {z : Zlib} {ver : Ver} {fs : List Frame4} {w : Frame4 → Bytes} (h : StorableFrames z ver fs w) :
    Paired (Ready ver w) fs fs := by
  have hw := storable_writable h
  induction fs with
  | nil => exact .nil
  | cons f fs ih =>
    refine .cons (current_ready (h f (by simp)).1 (hw f (by simp))) (ih (fun g hg => h g (by simp [hg])) fun g hg => hw g (by simp [hg]))

theorem storable_raw {z : Zlib} {ver : Ver} {fs : List Frame4} {w : Frame4 → Bytes} (h : StorableFrames z ver fs w) :
    ∀ r ∈ fs.map fun f => rawOf ver f (w f), r.Ok ver := by
  intro r hr
  simp only [List.mem_map] at hr
  obtain ⟨f, hf, rfl⟩ := hr
  obtain ⟨-, h2, h3, h4, h5, h6, h7⟩ := h f hf
  obtain ⟨w', e, -, hrt⟩ := body_rt ver _ _ h3
  rw [h4] at e
  cases e
  refine ⟨h5, h6, h7, ?_, ?_, hrt⟩
  · intro e
    have e : f.id = mkId4 'E' 'N' 'C' 'R' := e
    rw [e] at h3
    have : kind4 (mkId4 'E' 'N' 'C' 'R') = .encr := by decide
    rw [this] at h3
    revert h3
    cases f.body <;> exact id
  · cases ver <;> simp [rawOf, uw]

/-- An extended header whose caches are filled with what it says. -/
def FreshExt (e : Ext23) : Prop :=
  e.dirty = false ∧ e.plain = ext23 e.cbpad e.crc ∧ e.unsynced = unsynchronise false (ext23 e.cbpad e.crc)

theorem freshExt (e : Ext23) (h : CurrentExt e) : FreshExt e.fresh := by
  rcases h with h | ⟨e0, h0, rfl⟩
  · rw [ext23_fresh e h]; exact ⟨rfl, rfl, rfl⟩
  · rw [ext23_fresh_idem, ext23_fresh e0 h0]; exact ⟨rfl, rfl, rfl⟩

theorem currentExt_setCrc (e : Ext23) (h : CurrentExt e) (c : Nat) : CurrentExt (e.setCrc c) := by
  unfold Ext23.setCrc
  split
  · exact h
  · exact .inl rfl

theorem setCrc_val (e : Ext23) (c : Nat) : (e.setCrc c).crc = some c ∧ (e.setCrc c).cbpad = e.cbpad := by
  unfold Ext23.setCrc
  split
  · exact ⟨by assumption, rfl⟩
  · exact ⟨rfl, rfl⟩

/-- What `size` leaves behind, for a tag that can be stored. -/
theorem size23_ready (z : Zlib) (t : Tag23) (u : Bool) (w : Frame4 → Bytes) (hf : StorableFrames z .v3 t.frames w)
    (he : ∀ e, t.ext = some e → CurrentExt e) :
    ∃ n t', t.size z u = .ok (n, t') ∧ Paired (Refreshed .v3 w) t.frames t'.frames ∧
      (t'.ext.map fun e => (e.cbpad, e.crc)) = extOf z t w ∧
      extForm t'.ext true = extBytes (extOf z t w) ∧
      extForm t'.ext false = unsynchronise false (extBytes (extOf z t w)) := by
  have hw := storable_writable hf
  have hr := storable_ready hf
  -- the checksum
  have h1 : ∃ t1, t.updateCrc z = .ok t1 ∧ t1 = { t with ext := t1.ext, frames := t1.frames } ∧
      Paired (Ready .v3 w) t.frames t1.frames ∧ (∀ e, t1.ext = some e → CurrentExt e) ∧
      (t1.ext.map fun e => (e.cbpad, e.crc)) = extOf z t w := by
    unfold Tag23.updateCrc extOf
    cases hx : t.ext with
    | none => exact ⟨t, rfl, rfl, hr, by simp [hx], by simp [hx]⟩
    | some e =>
      simp only
      by_cases hc : e.crc.isSome = true
      · rw [if_pos hc]
        obtain ⟨gs, h2, h3⟩ := crcAll_ready z hr hw 0
        rw [h2]
        simp only [Res.ok_bind]
        refine ⟨_, rfl, rfl, refreshed_ready h3, ?_, ?_⟩
        · intro e' he'
          simp only [Option.some.injEq] at he'
          subst he'
          exact currentExt_setCrc e (he e hx) _
        · obtain ⟨c, hc⟩ := Option.isSome_iff_exists.1 hc
          simp only [Option.map_some, setCrc_val, hc, frameOf_eq]
      · rw [if_neg hc]
        refine ⟨t, rfl, rfl, hr, he, ?_⟩
        have : e.crc = none := by simpa using hc
        simp [hx, this]
  obtain ⟨t1, h1, h2, h3, h4, h5⟩ := h1
  obtain ⟨gs, h6, h7⟩ := sizeAll_ready z u (t1.padding == 0) h3 hw
  unfold Tag23.size
  rw [h1]
  simp only [Res.ok_bind, h6]
  refine ⟨_, _, rfl, h7, ?_⟩
  cases hx : t1.ext with
  | none =>
    rw [hx] at h5
    rw [← h5]
    exact ⟨rfl, rfl, rfl⟩
  | some e =>
    obtain ⟨k1, k2, k3⟩ := freshExt e (h4 e hx)
    obtain ⟨-, k4, k5⟩ := ext23_fresh_clean e
    rw [hx] at h5
    rw [← h5]
    simp only [Option.map_some, Ext23.serializedSize, extForm, if_true, Bool.false_eq_true, if_false, extBytes, k2, k3, k4, k5,
      and_self]

/-- The bytes of a tag that can be stored are read back. -/
theorem parseBuf23_storable (z : Zlib) (t : Tag23) (u : Bool) (w : Frame4 → Bytes) (h : Storable23 z t u w) :
    ∃ n t', t.size z u = .ok (n, t') ∧ ∃ pad',
      Tag23.parseBuf z (decide (wflags23 t u &&& 0x80 ≠ 0)) (decide (wflags23 t u &&& 0x40 ≠ 0))
        (extForm t'.ext u ++ (t'.frames.map fun g => if u then g.unsynced else g.plain).flatten ++ List.replicate t.padding 0) =
        .ok ((extOf z t w).map fun x => .new x.1 x.2, pad', (t.frames.map fun f => rawOf .v3 f (w f)).map (Raw.frame .v3)) ∧
      (pad' = t.padding ∨ u = true ∧ pad' + 1 = t.padding ∧ ∃ f ∈ t.frames, (w f).getLast? = some 0xff) ∧
      n = (extForm t'.ext (!u)).length + ((t'.frames.map fun g => if u then g.unsynced else g.plain).flatten).length + t.padding ∧
      (extForm t'.ext u).length = (extForm t'.ext (!u)).length ∧
      (t'.ext.map fun e => (e.cbpad, e.crc)) = extOf z t w := by
  obtain ⟨n, t', h1, h2, h3, h4, h5⟩ := size23_ready z t u w h.frames fun e he => (h.ext e he).1
  have hsz := size23_ok h1
  have hnst : ¬ NeedsStuffing (extBytes (extOf z t w)) := by
    rcases h.stuffing with ⟨-, -, h⟩ | ⟨-, -, h⟩ | ⟨-, h, -⟩
    · exact h
    · intro hp
      apply h
      rw [List.append_assoc]
      exact hasPair_append_left hp
    · exact h
  have hext : ∀ b, extForm t'.ext b = extBytes (extOf z t w) := by
    intro b
    cases b with
    | true => exact h4
    | false => rw [h5]; exact (C06_unchanged_iff_partial _).2 hnst
  refine ⟨n, t', h1, ?_⟩
  have hisSome : decide (wflags23 t u &&& 0x40 ≠ 0) = (extOf z t w).isSome := by
    rw [Bool.eq_iff_iff, decide_eq_true_iff, (wflags23_bits t u).2.1]
    unfold extOf
    rw [Option.isSome_map]
  have hx : ∀ a c, extOf z t w = some (a, c) → a < 2 ^ 32 ∧ ∀ v, c = some v → v < 2 ^ 32 := by
    intro a c he
    unfold extOf at he
    rw [Option.map_eq_some_iff] at he
    obtain ⟨e, he, hac⟩ := he
    simp only [Prod.mk.injEq] at hac
    obtain ⟨rfl, rfl⟩ := hac
    refine ⟨(h.ext e he).2, fun v hv => ?_⟩
    rw [Option.map_eq_some_iff] at hv
    obtain ⟨c0, -, rfl⟩ := hv
    generalize (t.frames.map fun f => frameOf .v3 f (w f)) = bs
    have : ∀ (bs : List Bytes) (c : Nat), c < 2 ^ 32 → bs.foldl z.crc32 c < 2 ^ 32 := by
      intro bs
      induction bs with
      | nil => intro c hc; exact hc
      | cons b bs ih => intro c _; exact ih _ (h.crc c b)
    exact this bs 0 (by decide)
  have hfr := storable_raw h.frames
  rw [hext u, hisSome]
  have key : ∃ pad', (if decide (wflags23 t u &&& 0x80 ≠ 0) = true then
        rs false (extBytes (extOf z t w) ++ (t'.frames.map fun g => if u then g.unsynced else g.plain).flatten ++ List.replicate t.padding 0)
        else extBytes (extOf z t w) ++ (t'.frames.map fun g => if u then g.unsynced else g.plain).flatten ++ List.replicate t.padding 0) =
      extBytes (extOf z t w) ++ rawBytes .v3 (t.frames.map fun f => rawOf .v3 f (w f)) ++ List.replicate pad' 0 ∧
      (pad' = t.padding ∨ u = true ∧ pad' + 1 = t.padding ∧ ∃ f ∈ t.frames, (w f).getLast? = some 0xff) := by
    have hpl : (t'.frames.map Frame4.plain).flatten = rawBytes .v3 (t.frames.map fun f => rawOf .v3 f (w f)) :=
      (refreshed_clean h2).2.2
    rcases h.stuffing with ⟨rfl, hu, -⟩ | ⟨rfl, hu, hn⟩ | ⟨rfl, -, hl, hid⟩
    · have : decide (wflags23 t false &&& 0x80 ≠ 0) = false := by
        rw [decide_eq_false_iff_not, (wflags23_bits t false).1]
        simp [hu]
      rw [this]
      simp only [Bool.false_eq_true, if_false]
      exact ⟨t.padding, by rw [hpl], .inl rfl⟩
    · have : decide (wflags23 t false &&& 0x80 ≠ 0) = true := by
        rw [decide_eq_true_iff, (wflags23_bits t false).1]
        exact .inl hu
      rw [this]
      simp only [Bool.false_eq_true, if_false, if_true]
      refine ⟨t.padding, ?_, .inl rfl⟩
      rw [frames_eq] at hn
      rw [hpl, rs_of_noPair _ hn]
    · have : decide (wflags23 t true &&& 0x80 ≠ 0) = true := by
        rw [decide_eq_true_iff, (wflags23_bits t true).1]
        exact .inr rfl
      rw [this]
      simp only [if_true]
      obtain ⟨pad', i1, i2, i3⟩ := rs_frames t.padding h2 hid fun f hf => (h.frames f hf).2.2.2.2.2.1
      refine ⟨pad', ?_, ?_⟩
      · rw [List.append_assoc, rs_plain_append _ _ hnst]
        have : ((extBytes (extOf z t w)).getLast? == some 255) = false := by simpa using hl
        rw [this, i1]
        simp
      · by_cases hp : pad' = t.padding
        · exact .inl hp
        · right
          refine ⟨trivial, i2.resolve_left hp, ?_⟩
          apply Classical.byContradiction
          intro hno
          apply hp
          apply i3
          intro f hf e
          exact hno ⟨f, hf, e⟩
  obtain ⟨pad', k1, k2⟩ := key
  refine ⟨pad', parseBuf23_of z _ _ _ _ pad' hx hfr k1, k2, ?_, by rw [hext], h3⟩
  rw [hsz.2.2.2.2.2.1]

end Scribbu
