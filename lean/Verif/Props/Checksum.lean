import Verif.Spec.Checksum
import Verif.Props.Tag23
import Verif.Props.Tag24
import Verif.Props.Unsync

/-! # C158: checksums of tags -/

namespace Scribbu.Props
open Scribbu Scribbu.Spec

theorem crc32_streaming : Streaming crc32 := by
  refine ⟨by decide, fun c a b => ?_⟩
  unfold crc32
  rw [List.foldl_append, Nat.xor_assoc, Nat.xor_self, Nat.xor_zero]

example : crc32 0 [0x31, 0x32, 0x33, 0x34, 0x35, 0x36, 0x37, 0x38, 0x39] = 0xcbf43926 := by decide +kernel

theorem streaming_flatten {f : Nat → Bytes → Nat} (h : Streaming f) (l : List Bytes) (c : Nat) (hc : l = [] → f c [] = c) :
    l.foldl f c = f c l.flatten := by
  induction l generalizing c with
  | nil => exact (hc rfl).symm
  | cons a l ih =>
    rw [List.foldl_cons, ih, List.flatten_cons, h.2]
    intro _
    rw [← h.2, List.append_nil]

/-- Computing the checksum of frames and writing them look at the same bytes. -/
theorem crcAll_writes {z : Zlib} {ver : Ver} : ∀ {fs fs' : List Frame4} {c c' : Nat}, Frame4.crcAll z ver c fs = .ok (c', fs') →
    Frame4.writeAll z ver false fs = .ok ((fs'.map Frame4.plain).flatten, fs')
  | [], _, _, _, h => by cases h; rfl
  | f :: fs, fs', c, c', h => by
    simp only [Frame4.crcAll, Frame4.crc] at h
    rw [Res.bind_eq_ok] at h
    obtain ⟨⟨m, g⟩, h1, h⟩ := h
    rw [Res.bind_eq_ok] at h1
    obtain ⟨g', h1, h1'⟩ := h1
    cases h1'
    rw [Res.bind_eq_ok] at h
    obtain ⟨⟨k, gs⟩, h2, h⟩ := h
    cases h
    simp only [Frame4.writeAll, Frame4.write, h1, Res.ok_bind, crcAll_writes h2, List.map_cons, List.flatten_cons, Bool.false_eq_true, if_false]

/-- What is written for a tag with a checksum. -/
theorem write_checksum {z : Zlib} {t t' : Tag23} {e : Ext23} {u : Bool} {out : Bytes} {n : Nat} (hz : Streaming z.crc32) (he : t.ext = some e)
    (hcur : CurrentExt e) (hcrc : e.crc.isSome = true) (hw : t.write z u = .ok (out, n, t')) :
    ∃ hdr fb fb' fs, hdr.length = 10 ∧ Frame4.writeAll z .v3 false t.frames = .ok (fb, fs) ∧ (u = false → fb' = fb) ∧
      out = hdr ++ (if u then ext23 e.cbpad (some (z.crc32 0 fb)) else unsynchronise false (ext23 e.cbpad (some (z.crc32 0 fb)))) ++ fb' ++
        List.replicate t.padding 0 := by
  unfold Tag23.write at hw
  simp only at hw
  rw [Res.bind_eq_ok] at hw
  obtain ⟨⟨cb, t1⟩, h1, hw⟩ := hw
  rw [Res.bind_eq_ok] at hw
  obtain ⟨hdr, h2, hw⟩ := hw
  obtain ⟨k1, k2, k3, k4, k5, k6, k7⟩ := size23_ok h1
  simp only [k7, Res.ok_bind, writeAll_of_clean z .v3 u k3] at hw
  -- what `size` has done
  unfold Tag23.size at h1
  rw [Res.bind_eq_ok] at h1
  obtain ⟨t0, h1, h3⟩ := h1
  unfold Tag23.updateCrc at h1
  rw [he] at h1
  simp only [hcrc, if_true] at h1
  rw [Res.bind_eq_ok] at h1
  obtain ⟨⟨c, fs⟩, h4, h5⟩ := h1
  simp only [Res.ok.injEq] at h5
  subst h5
  obtain ⟨l1, l2, l3⟩ := crcAll_clean h4
  have hwr := crcAll_writes h4
  simp only [sizeAll_of_clean z .v3 u _ l1, Res.ok_bind, Res.ok.injEq, Prod.mk.injEq, Ext23.serializedSize] at h3
  obtain ⟨h3, h6⟩ := h3
  have hfr : t1.frames = fs := by rw [← h6]
  have hex : t1.ext = some (e.setCrc c).fresh := by rw [← h6]
  have hpad : t1.padding = t.padding := by rw [← h6]
  obtain ⟨f1, f2, f3⟩ := freshExt _ (currentExt_setCrc e hcur c)
  obtain ⟨g1, g2, g3⟩ := ext23_fresh_clean (e.setCrc c)
  obtain ⟨v1, v2⟩ := setCrc_val e c
  rw [g2, g3, v1, v2] at f2 f3
  have hc : c = z.crc32 0 (fs.map Frame4.plain).flatten := by
    rw [l3, streaming_flatten hz _ _ (fun _ => hz.1)]
  have hlen : hdr.length = 10 := by
    unfold Tag23.writeHeader at h2
    rw [Res.bind_eq_ok] at h2
    obtain ⟨⟨a, b, c, d⟩, -, h2⟩ := h2
    cases h2
    rfl
  refine ⟨hdr, _, (t1.frames.map fun g => if u then g.unsynced else g.plain).flatten, fs, hlen, hwr, ?_, ?_⟩
  · rintro rfl
    simp only [hfr, Bool.false_eq_true, if_false]
  · rw [hex, hpad] at hw
    simp only [Res.ok.injEq, Prod.mk.injEq, Ext23.write, ext23_fresh_idem] at hw
    rw [← hw.1, f2, f3, ← hc]

theorem checksum_layout {out hdr fb : Bytes} {cbpad crc pad : Nat} (h1 : hdr.length = 10)
    (h : out = hdr ++ ext23 cbpad (some crc) ++ fb ++ List.replicate pad 0) (hc : crc = crc32 0 fb) : Checksum23 out pad := by
  have hl : (ext23 cbpad (some crc)).length = 14 := rfl
  have e1 : (out.drop 24).take (out.length - 24 - pad) = fb := by
    have e2 : out.drop 24 = fb ++ List.replicate pad 0 := by
      rw [h, List.append_assoc, show 24 = (hdr ++ ext23 cbpad (some crc)).length by rw [List.length_append, h1, hl], List.drop_left]
    have e3 : out.length - 24 - pad = fb.length := by
      rw [h]; simp only [List.length_append, h1, hl, List.length_replicate]; omega
    rw [e2, e3, List.take_left]
  unfold Checksum23
  rw [e1, h]
  simp only [List.append_assoc]
  rw [show 20 = hdr.length + 10 by omega, ← List.drop_drop, List.drop_left, hc]
  rfl

theorem ext24_written {z : Zlib} {t : Tag24} {u : Bool} {o : Bytes × Nat × Tag24} {e : Ext24} (he : t.ext = some e) (h : t.write z u = .ok o) :
    ∃ x, e.write = .ok x ∧ (o.1.drop 10).take x.length = x := by
  unfold Tag24.write at h
  rw [Res.bind_eq_ok] at h
  obtain ⟨⟨cb, t1⟩, h1, h⟩ := h
  rw [Res.bind_eq_ok] at h
  obtain ⟨hdr, h2, h⟩ := h
  rw [Res.bind_eq_ok] at h
  obtain ⟨x, h3, h⟩ := h
  rw [Res.bind_eq_ok] at h
  obtain ⟨⟨b, fs⟩, h4, h⟩ := h
  simp only at h
  rw [Res.bind_eq_ok] at h
  obtain ⟨⟨ftr, t2⟩, h5, h⟩ := h
  cases h
  have hx : t1.ext = t.ext := by
    unfold Tag24.size at h1
    simp only at h1
    rw [Res.bind_eq_ok] at h1
    obtain ⟨⟨m, fs⟩, -, h1⟩ := h1
    cases h1
    rfl
  have hlen : hdr.length = 10 := by
    unfold Tag24.writeHeader at h2
    rw [Res.bind_eq_ok] at h2
    obtain ⟨⟨a, b, c, d⟩, -, h2⟩ := h2
    cases h2
    rfl
  rw [hx, he] at h3
  refine ⟨x, h3, ?_⟩
  simp only [List.append_assoc]
  rw [← hlen, List.drop_left, List.take_left]

/-- **C158**, for ID3v2.3, in full: a tag with a checksum that has been written has the checksum of its frames. -/
def C158_claim : Prop :=
  ∀ (z : Zlib) (t t' : Tag23) (e : Ext23) (out : Bytes) (n : Nat), z.crc32 = crc32 → t.ext = some e → CurrentExt e → e.crc.isSome = true →
    t.write z false = .ok (out, n, t') → Checksum23 out t.padding

/-- zlib, as far as checksums go. -/
def zCrc : Zlib := ⟨.ok, fun b _ => .ok b, crc32⟩

/-- A tag with a title. -/
def summedTitle (text : Bytes) : Tag23 :=
  { Tag23.scratch 0 false (some true) with
    frames := [.new (mkId4 'T' 'I' 'T' '2') (.text 0 text) false false false false none none false none] }

/-- **Finding** C158 is refuted: a tag with the title "eo" has the checksum 8CFFFB22; it is written as 8C FF 00 FB 22, for the extended header is unsynchronised
if, and only if, the rest of the tag is not. -/
theorem C158_refuted : ¬ C158_claim := by
  intro h
  have h2 : (match (summedTitle [0x65, 0x6f]).write zCrc false with
    | .ok (out, _, _) => decide (¬ (out.drop 20).take 4 = be32 (crc32 0 ((out.drop 24).take (out.length - 24 - 0))))
    | _ => false) = true := by decide +kernel
  cases h3 : (summedTitle [0x65, 0x6f]).write zCrc false with
  | throw e => rw [h3] at h2; cases h2
  | ub u => rw [h3] at h2; cases h2
  | ok r =>
    obtain ⟨out, n, t'⟩ := r
    rw [h3] at h2
    exact of_decide_eq_true h2 (h zCrc (summedTitle [0x65, 0x6f]) t' (.new 0 (some 0)) out n rfl rfl (.inl rfl) rfl h3)

/-- **C158** for ID3v2.3, if there is nothing in the extended header that looks like a synchronisation: the checksum written is that of the frames written, whatever had
been done to the tag and its frames before. Missing: extended headers in which FF is followed by 00 or by E0 or more. -/
theorem C158_partial (z : Zlib) (t t' : Tag23) (e : Ext23) (out fb : Bytes) (n : Nat) (fs : List Frame4) (hz : z.crc32 = crc32) (he : t.ext = some e)
    (hcur : CurrentExt e) (hcrc : e.crc.isSome = true) (hw : t.write z false = .ok (out, n, t'))
    (hfb : Frame4.writeAll z .v3 false t.frames = .ok (fb, fs))
    (hno : ¬ HasPair 0xff (fun c => c = 0 ∨ 0xe0 ≤ c.toNat) (ext23 e.cbpad (some (crc32 0 fb)))) :
    Checksum23 out t.padding := by
  obtain ⟨hdr, fb1, fb', fs', h1, h2, h3, h4⟩ := write_checksum (by rw [hz]; exact crc32_streaming) he hcur hcrc hw
  rw [h2] at hfb
  cases hfb
  rw [h3 rfl, hz] at h4
  simp only [Bool.false_eq_true, if_false, (C06_unchanged_iff_partial _).2 hno] at h4
  exact checksum_layout h1 h4 rfl

/-- Not met by "eo", but by most titles. -/
example : (match (summedTitle [0x65, 0x70]).write zCrc false with
    | .ok (out, _, _) => decide ((out.drop 20).take 4 = [0x01, 0xf7, 0xf6, 0xd7])
    | _ => false) = true ∧
    ¬ HasPair 0xff (fun c => c = 0 ∨ 0xe0 ≤ c.toNat) (ext23 0 (some 0x1f7f6d7)) :=
  ⟨by decide +kernel, fun ⟨l, r, c, h, hc⟩ => by
    have h2 : 0xff ∈ ext23 0 (some 0x1f7f6d7) := by rw [h]; simp
    revert h2; decide +kernel⟩

/-- **C158** for ID3v2.3 tags that are unsynchronised on writing: the checksum written, at its place in the extended header, is that of the frames before they are
unsynchronised, as the standard wants it. -/
theorem C158_unsync_partial (z : Zlib) (t t' : Tag23) (e : Ext23) (out : Bytes) (n : Nat) (hz : z.crc32 = crc32) (he : t.ext = some e)
    (hcur : CurrentExt e) (hcrc : e.crc.isSome = true) (hw : t.write z true = .ok (out, n, t')) :
    ∃ fb fs, Frame4.writeAll z .v3 false t.frames = .ok (fb, fs) ∧ (out.drop 20).take 4 = be32 (crc32 0 fb) := by
  obtain ⟨hdr, fb1, fb', fs', h1, h2, -, h4⟩ := write_checksum (by rw [hz]; exact crc32_streaming) he hcur hcrc hw
  refine ⟨fb1, fs', h2, ?_⟩
  rw [h4, hz, if_pos rfl]
  simp only [List.append_assoc]
  rw [show 20 = hdr.length + 10 by omega, ← List.drop_drop, List.drop_left]
  rfl

example : (match (summedTitle [0x65, 0xff]).write zCrc true with
    | .ok (out, _, _) => decide ((out.drop 20).take 4 = be32 (crc32 0 [0x54, 0x49, 0x54, 0x32, 0, 0, 0, 3, 0, 0, 0, 0x65, 0xff]))
    | _ => false) = true := by decide +kernel

/-- **C158**, for ID3v2.4, in full. -/
def C158_v24_claim : Prop :=
  ∀ (z : Zlib) (t t' : Tag24) (e : Ext24) (out : Bytes) (n : Nat), z.crc32 = crc32 → t.ext = some e → e.update = false → e.restricted = false →
    e.fcrc = true → t.footer = false → t.write z false = .ok (out, n, t') → Checksum24 out

/-- **Finding** C158 is refuted for ID3v2.4: whatever checksum a tag was read with is written again (and not in five bytes, nor with the byte that says how many there are). -/
theorem C158_refuted_v24 : ¬ C158_v24_claim := by
  intro h
  have h2 : (match (⟨none, false, false, some ⟨12, false, true, false, some 5, none⟩, 0, []⟩ : Tag24).write zCrc false with
    | .ok (out, _, _) => decide (¬ (out.drop 16).take 6 = [5] ++ crcSyncSafe (crc32 0 (out.drop 22)))
    | _ => false) = true := by decide +kernel
  cases h3 : (⟨none, false, false, some ⟨12, false, true, false, some 5, none⟩, 0, []⟩ : Tag24).write zCrc false with
  | throw e => rw [h3] at h2; cases h2
  | ub u => rw [h3] at h2; cases h2
  | ok r =>
    obtain ⟨out, n, t'⟩ := r
    rw [h3] at h2
    exact of_decide_eq_true h2 (h zCrc _ t' _ out n rfl rfl rfl rfl rfl rfl h3)

/-- **Finding**: whatever is done to the frames and the padding of an ID3v2.4 tag, what is written as its extended header, checksum included, stays the same. -/
theorem C158_refuted_stale (z : Zlib) (t : Tag24) (fs : List Frame4) (pad : Nat) (u : Bool) (o1 o2 : Bytes × Nat × Tag24) (e : Ext24) (he : t.ext = some e)
    (h1 : t.write z u = .ok o1) (h2 : ({ t with frames := fs, padding := pad } : Tag24).write z u = .ok o2) :
    ∃ x, e.write = .ok x ∧ (o1.1.drop 10).take x.length = x ∧ (o2.1.drop 10).take x.length = x := by
  obtain ⟨x, hx, h3⟩ := ext24_written he h1
  obtain ⟨x', hx', h4⟩ := ext24_written (t := { t with frames := fs, padding := pad }) he h2
  rw [hx] at hx'
  cases hx'
  exact ⟨x, hx, h3, h4⟩

/-- With padding or without, the same eleven bytes follow the header. -/
example : ((⟨none, false, false, some ⟨12, false, true, false, some 5, none⟩, 0, []⟩ : Tag24).write zCrc false).bind
      (fun o => .ok ((o.1.drop 10).take 11)) = .ok [0, 0, 0, 12, 1, 0x20, 0, 0, 0, 5, 1] ∧
    ((⟨none, false, false, some ⟨12, false, true, false, some 5, none⟩, 4, []⟩ : Tag24).write zCrc false).bind
      (fun o => .ok ((o.1.drop 10).take 11)) = .ok [0, 0, 0, 12, 1, 0x20, 0, 0, 0, 5, 1] := ⟨rfl, rfl⟩

/-- An ID3v2.3 tag with the title "eo" and a checksum of nought. -/
def wrongCrc : Bytes :=
  [0x49, 0x44, 0x33, 3, 0, 0x40, 0, 0, 0, 0x1b] ++ [0, 0, 0, 10, 0x80, 0, 0, 0, 0, 0, 0, 0, 0, 0] ++
    [0x54, 0x49, 0x54, 0x32, 0, 0, 0, 3, 0, 0, 0, 0x65, 0x6f]

/-- **C158**, of reading: a tag whose checksum is not that of its frames is not read as if nothing were wrong. -/
def C158_read_claim : Prop :=
  ∀ (z : Zlib) (out : Bytes) (m : IoBits) (t : Tag23) (s : IStream) (e : Ext23), z.crc32 = crc32 →
    maybeReadId3v2 (fun _ => SM.throw .other) (Tag23.read z) (fun _ => SM.throw .other) ⟨out, 0, m, IoBits.none⟩ = (.ok (some t), s) →
    t.unsync = some false → t.ext = some e → e.crc.isSome = true → Checksum23 out t.padding

/-- **Finding** It is: checksums are never compared. -/
theorem C158_refuted_read : ¬ C158_read_claim := by
  intro h
  have h2 : (match maybeReadId3v2 (fun _ => SM.throw .other) (Tag23.read zCrc) (fun _ => SM.throw .other) ⟨wrongCrc, 0, IoBits.none, IoBits.none⟩ with
    | (.ok (some t), _) => decide (t.unsync = some false) && decide ((t.ext.bind (·.crc)).isSome = true) &&
        decide (¬ (wrongCrc.drop 20).take 4 = be32 (crc32 0 ((wrongCrc.drop 24).take (wrongCrc.length - 24 - t.padding))))
    | _ => false) = true := by decide +kernel
  cases h3 : maybeReadId3v2 (fun _ => SM.throw .other) (Tag23.read zCrc) (fun _ => SM.throw .other) ⟨wrongCrc, 0, IoBits.none, IoBits.none⟩ with
  | mk r s =>
    rw [h3] at h2
    match r, h2, h3 with
    | .ok (some t), h2, h3 =>
      simp only [Bool.and_eq_true, decide_eq_true_eq] at h2
      obtain ⟨⟨h4, h5⟩, h6⟩ := h2
      cases he : t.ext with
      | none => rw [he] at h5; cases h5
      | some e =>
        rw [he] at h5
        exact h6 (h zCrc wrongCrc _ t s e rfl h3 h4 he h5)

end Scribbu.Props
