import Verif.Proofs.Tag24
import Verif.Props.Tag23

/-! Properties C26, C27, C29, C46, C54 and C55: ID3v2.4 tags. -/

namespace Scribbu.Props
open Scribbu Scribbu.Spec

/-- A tag with a title and a link, and an extended header that says it is an update. -/
def tag4 : Tag24 := ⟨none, true, false, some ⟨7, true, false, false, none, none⟩, 0, [tit2, woar]⟩

theorem write24_ok {z : Zlib} {t t' : Tag24} {u : Bool} {b : Bytes} {n : Nat} (h : t.write z u = .ok (b, n, t')) :
    ∃ sz hdr x, t.size z u = .ok (sz, t') ∧ sz < 2 ^ 28 ∧ hdr.length = 10 ∧ Tag24.extBytes t.ext = .ok x ∧
      (∀ rest, IsHeader (hdr ++ rest) 4 0 t.flags sz) ∧
      b = hdr ++ (x ++ ((t'.frames.map fun g => if u then g.unsynced else g.plain).flatten ++
        (List.replicate t.padding 0 ++ footer24 t hdr))) ∧
      n = 10 + x.length + ((t'.frames.map fun g => if u then g.unsynced else g.plain).flatten).length +
        t.padding + (footer24 t hdr).length := by
  have h' := h
  unfold Tag24.write at h'
  rw [Res.bind_eq_ok] at h'
  obtain ⟨⟨sz, t1⟩, h1, -⟩ := h'
  rw [write24_eq h1, Res.bind_eq_ok] at h
  obtain ⟨hdr, h2, h⟩ := h
  rw [Res.bind_eq_ok] at h
  obtain ⟨x, h3, h⟩ := h
  simp only [Res.ok.injEq, Prod.mk.injEq] at h
  obtain ⟨h4, h5, rfl⟩ := h
  by_cases hs : sz < 2 ^ 28
  · obtain ⟨hdr', h6, h7, h8⟩ := writeHeader24_spec t.flags sz hs
    rw [h2] at h6
    cases h6
    exact ⟨sz, hdr, x, h1, hs, h7, h3, h8, by rw [← h4]; simp, h5.symm⟩
  · rw [writeHeader24_large _ _ _ (by omega)] at h2
    cases h2

/-! ### C26 -/

/-- **C26** as claimed, for ID3v2.4 tags. -/
def C26_v24_claim : Prop := ∀ (z : Zlib) (t t' : Tag24) (u : Bool) (b : Bytes) (n : Nat), t.write z u = .ok (b, n, t') →
  ∃ fl sz, IsHeader b 4 0 fl sz ∧ (fl &&& 0x80 ≠ 0 ↔ u = true)

theorem C26_v24_refuted : ¬ C26_v24_claim := by
  intro h
  obtain ⟨fl, sz, ⟨s0, s1, s2, s3, rest, h1, -⟩, h2⟩ := h zId (.scratch 0 false) (.scratch 0 false) true
    [0x49, 0x44, 0x33, 4, 0, 0, 0, 0, 0, 0] 10 (by decide)
  simp only [List.cons_append, List.nil_append, List.cons.injEq] at h1
  obtain ⟨-, -, -, -, -, h1, -⟩ := h1
  rw [← h1] at h2
  revert h2
  decide

/-- **C26** (partial) What was asked for makes no difference to the mark: that is set if the tag has it already. -/
theorem C26_v24_partial (z : Zlib) (t t' : Tag24) (u : Bool) (b : Bytes) (n : Nat) (h : t.write z u = .ok (b, n, t')) :
    ∃ fl sz, IsHeader b 4 0 fl sz ∧ (fl &&& 0x80 ≠ 0 ↔ t.unsync = some true) := by
  obtain ⟨sz, hdr, x, -, -, -, -, h1, h2, -⟩ := write24_ok h
  rw [h2]
  exact ⟨_, sz, h1 _, (flags24_bits t).1⟩

/-! ### C27 -/

/-- **C27** as claimed, for ID3v2.4: `write` emits `10 + size` bytes. -/
def C27_v24_claim : Prop := ∀ (z : Zlib) (t t' : Tag24) (u : Bool) (b : Bytes) (n sz : Nat),
  t.write z u = .ok (b, n, t') → t.size z u = .ok (sz, t') → b.length = 10 + sz

/-- Any tag with padding. -/
theorem C27_v24_refuted : ¬ C27_v24_claim := by
  intro h
  have := h zId (.scratch 5 false) _ false _ _ _ rfl rfl
  revert this
  decide

/-- **C27** (partial: ID3v2.4) Whenever a tag can be written, the number of bytes written is the number returned. `size(unsync)`,
which is the size in the header, is that less ten, plus the padding again, plus
what the extended header is said to have but has not. -/
theorem C27_v24_partial (z : Zlib) (t : Tag24) (u : Bool) (b : Bytes) (n : Nat) (t' : Tag24) (h : t.write z u = .ok (b, n, t')) :
    b.length = n ∧ ∃ sz fl, t.size z u = .ok (sz, t') ∧ IsHeader b 4 0 fl sz ∧
      (t.ext = none → n + t.padding = 10 + sz) ∧
      ∀ e, t.ext = some e → n + t.padding + e.size =
        10 + sz + (6 + (if e.update then 1 else 0) + (if e.fcrc then 5 else 0) + (if e.restricted then 1 else 0)) := by
  obtain ⟨sz, hdr, x, h1, -, h2, hx, h3, rfl, rfl⟩ := write24_ok h
  obtain ⟨-, -, -, -, hn⟩ := size24_ok h1
  have hft : (footer24 t hdr).length = if t.footer then 10 else 0 := by
    unfold footer24
    cases t.footer
    · rfl
    · simp [h2]
  refine ⟨by simp [h2]; omega, sz, _, h1, h3 _, fun he => ?_, fun e he => ?_⟩
  · rw [he] at hx
    simp only [Tag24.extBytes, Res.ok.injEq] at hx
    subst hx
    rw [hn, Tag24.extSize, he, hft]
    simp only [List.length_nil]
    omega
  · rw [he] at hx
    have := (ext24_write hx).1
    rw [hn, Tag24.extSize, he, hft, ← this]
    simp only
    omega

/-- The hypotheses are met: a tag with padding and a footer. -/
example : ((⟨none, false, true, none, 3, [tit2]⟩ : Tag24).write zId false).bind (fun r => .ok (r.1, r.2.1)) =
    .ok ([0x49, 0x44, 0x33, 4, 0, 0x10, 0, 0, 0, 29, 0x54, 0x49, 0x54, 0x32, 0, 0, 0, 3, 0, 0, 0, 0x48, 0x69, 0, 0, 0,
      0x33, 0x44, 0x49, 4, 0, 0x10, 0, 0, 0, 29], 36) := by decide

/-! ### C54 -/

/-- **C54** as claimed: a tag is read back as it was written. -/
def C54_claim : Prop := ∀ (z : Zlib) (t t' : Tag24) (u : Bool) (b post : Bytes) (n : Nat),
  (∀ f ∈ t.frames, f.dirty = true ∧ PlainFrame f ∧ WFBody .v4 (kind4 f.id) f.body ∧ f.id ≠ ⟨0, 0, 0, 0⟩) →
  t.write z u = .ok (b, n, t') →
  ∃ t2 s, maybeReadId3v2 (fun _ => SM.throw .other) (fun _ => SM.throw .other) (Tag24.read z)
      ⟨b ++ post, 0, IoBits.none, IoBits.none⟩ = (.ok (some t2), s) ∧ s.pos = b.length ∧
    t2.frames.map (fun f => (f.id, f.body)) = t.frames.map fun f => (f.id, f.body)

theorem C54_refuted_of (t : Tag24) (u : Bool) (post : Bytes) (h : ∀ f ∈ t.frames, f.dirty = true ∧ PlainFrame f ∧ WFBody .v4 (kind4 f.id) f.body ∧ f.id ≠ ⟨0, 0, 0, 0⟩)
    (r : Bytes × Nat × Tag24) (hw : t.write zId u = .ok r)
    (hne : (maybeReadId3v2 (fun _ => SM.throw .other) (fun _ => SM.throw .other) (Tag24.read zId)
        ⟨r.1 ++ post, 0, IoBits.none, IoBits.none⟩).1.bind (fun o => .ok (o.map fun t => t.frames.map fun f => (f.id, f.body))) ≠
      .ok (some (t.frames.map fun f => (f.id, f.body))) ∨
      (maybeReadId3v2 (fun _ => SM.throw .other) (fun _ => SM.throw .other) (Tag24.read zId)
        ⟨r.1 ++ post, 0, IoBits.none, IoBits.none⟩).2.pos ≠ r.1.length) : ¬ C54_claim := by
  intro hc
  obtain ⟨t2, s, h1, h2, h3⟩ := hc zId t r.2.2 u r.1 post r.2.1 h hw
  rw [h1] at hne
  rcases hne with hne | hne
  · apply hne
    simp only [Res.ok_bind, Option.map_some, h3]
  · exact hne h2

/-- A tag with padding at the end of a file: its header announces more bytes than there are. -/
theorem C54_refuted : ¬ C54_claim :=
  C54_refuted_of ⟨none, false, false, none, 3, [tit2]⟩ false [] (by
    intro f hf
    simp only [List.mem_singleton] at hf
    subst hf
    exact ⟨rfl, by unfold PlainFrame; decide, trivial, by decide⟩) _ rfl (.inl (by decide +kernel))

/-- In front of audio data it takes some of that to be part of the tag. -/
theorem C54_refuted_swallows : (maybeReadId3v2 (fun _ => SM.throw .other) (fun _ => SM.throw .other) (Tag24.read zId)
      ⟨[0x49, 0x44, 0x33, 4, 0, 0, 0, 0, 0, 21, 0x54, 0x49, 0x54, 0x32, 0, 0, 0, 3, 0, 0, 0, 0x48, 0x69, 0, 0, 0, 0] ++
        [0xff, 0xfb, 0x90, 0x64, 0, 0], 0, IoBits.none, IoBits.none⟩).2.pos = 31 ∧
    ((⟨none, false, false, none, 4, [tit2]⟩ : Tag24).write zId false).bind (fun r => .ok (r.1, r.2.1)) =
      .ok ([0x49, 0x44, 0x33, 4, 0, 0, 0, 0, 0, 21, 0x54, 0x49, 0x54, 0x32, 0, 0, 0, 3, 0, 0, 0, 0x48, 0x69, 0, 0, 0, 0], 27) := by
  constructor
  · decide +kernel
  · decide

/-- A tag with a footer, although without padding: the footer is taken to be a frame. -/
theorem C54_refuted_footer : ¬ C54_claim :=
  C54_refuted_of ⟨none, false, true, none, 0, [tit2]⟩ false [] (by
    intro f hf
    simp only [List.mem_singleton] at hf
    subst hf
    exact ⟨rfl, by unfold PlainFrame; decide, trivial, by decide⟩) _ rfl (.inl (by decide +kernel))

/-- A text in UTF-16 that is unsynchronised when written, and not resynchronised when read. -/
theorem C54_refuted_unsync : ¬ C54_claim :=
  C54_refuted_of ⟨none, false, false, none, 0, [.new (mkId4 'T' 'I' 'T' '2') (.text 1 [0xff, 0xfe, 0x41, 0x00]) false false false false none none false none]⟩ true [] (by
    intro f hf
    simp only [List.mem_singleton] at hf
    subst hf
    exact ⟨rfl, by unfold PlainFrame; decide, trivial, by decide⟩) _ rfl (.inl (by decide +kernel))

/-- A tag with a checksum. -/
theorem C54_refuted_crc : ¬ C54_claim :=
  C54_refuted_of ⟨none, false, false, some ⟨12, false, true, false, some 5, none⟩, 0, []⟩ false [] (by simp) _ rfl (.inl (by decide +kernel))

theorem unsync_same (a : Bytes) (l : Bool) (h : ¬ NeedsStuffing a) (hl : a.getLast? ≠ some 0xff) : unsynchronise l a = a := by
  have h0 : unsynchronise false a = a := (C06_unchanged_iff_partial a).2 h
  cases l with
  | false => exact h0
  | true =>
    have hlen := unsync_length_last a
    have e : ∀ a : Bytes, a.getLast? ≠ some 0xff → unsynchronise true a = unsynchronise false a := by
      intro a
      induction a with
      | nil => intro _; rfl
      | cons b r ih =>
        intro h
        unfold unsynchronise
        cases r with
        | nil =>
          have : b ≠ 0xff := by intro e; subst e; simp at h
          simp [this, unsynchronise]
        | cons c r =>
          have : (c :: r).getLast? ≠ some 0xff := by
            rw [List.getLast?_cons_cons] at h; exact h
          rw [ih this]
    rw [e a hl, h0]

/-- **C54** (partial) A tag without padding and footer, whose extended header, if there is one, has neither a checksum nor restrictions and
knows its own size, can be written (if its size is below 2^28 bytes) and, wherever the bytes are put, is read back with the same frames in the
same order, the same flags and the same extended header. The reader stops at the end of the tag. The attributes of
the frames are shifted (C24). Missing: padding, footers, checksums, restrictions and unsynchronised frames, for all of which the claim is
false; empty payloads; frames that are compressed, encrypted or grouped. -/
theorem C54_partial (z : Zlib) (t : Tag24) (u : Bool) (w : Frame4 → Bytes) (h : StorableFrames z .v4 t.frames w)
    (hu : u = true → ∀ f ∈ t.frames, ¬ NeedsStuffing (frameOf .v4 f (w f)) ∧ (w f).getLast? ≠ some 0xff)
    (hp : t.padding = 0) (hf : t.footer = false)
    (hx : ∀ e, t.ext = some e → e.fcrc = false ∧ e.restricted = false ∧ e.size = if e.update then 7 else 6)
    (sz : Nat) (t1 : Tag24) (hsz : t.size z u = .ok (sz, t1)) (hlt : sz < 2 ^ 28) :
    ∃ b n t', t.write z u = .ok (b, n, t') ∧ b.length = 10 + sz ∧
      ∀ (mk2 mk3 : Id3v2Info → SM Tag24) (pre post : Bytes) (m : IoBits), ∃ t2,
        maybeReadId3v2 mk2 mk3 (Tag24.read z) ⟨pre ++ b ++ post, pre.length, m, IoBits.none⟩ =
          (.ok (some t2), ⟨pre ++ b ++ post, (pre ++ b).length, m, IoBits.none⟩) ∧
        t2.frames.map shape = t.frames.map (fun f => (f.id, f.body, false, f.tap, f.fap)) ∧
        t2.experimental = t.experimental ∧ t2.footer = false ∧ t2.unsync = some (decide (t.unsync = some true)) ∧ t2.padding = 0 ∧
        t2.ext.map (fun e => (e.size, e.update, e.fcrc, e.restricted)) =
          t.ext.map (fun e => (e.size, e.update, e.fcrc, e.restricted)) := by
  -- what is written
  have hr : Paired (Refreshed .v4 w) t.frames t1.frames := by
    obtain ⟨gs, h6, h7⟩ := sizeAll_ready z u (t.padding == 0) (storable_ready h) (storable_writable h)
    unfold Tag24.size at hsz
    rw [h6] at hsz
    simp only [Res.ok_bind, Res.ok.injEq, Prod.mk.injEq] at hsz
    rw [← hsz.2]
    exact h7
  have hbytes : (t1.frames.map fun g => if u then g.unsynced else g.plain).flatten =
      rawBytes .v4 (t.frames.map fun f => rawOf .v4 f (w f)) := by
    rw [← (refreshed_clean hr).2.2]
    cases u with
    | false => rfl
    | true =>
      have hu := hu rfl
      simp only [if_true]
      have hne : ∀ f ∈ t.frames, w f ≠ [] := fun f hf => (h f hf).2.2.2.2.2.1
      clear hsz h
      generalize t.frames = ts, t1.frames = ts1 at hr hu hne
      induction hr with
      | nil => rfl
      | @cons f g fs gs h1 h2 ih =>
        obtain ⟨a1, a2⟩ := hu f (by simp)
        obtain ⟨-, -, h3, l, h4⟩ := h1
        have e : g.unsynced = g.plain := by
          rw [h4]
          apply unsync_same
          · rw [h3, ← frameOf_eq]; exact a1
          · rw [h3]
            unfold Raw.bytes frame4
            rw [List.getLast?_append]
            have : w f ≠ [] := hne f (by simp)
            simp only [rawOf]
            cases hl : (w f).getLast? with
            | none => exact absurd (List.getLast?_eq_none_iff.1 hl) this
            | some x => rw [hl] at a2; simpa using a2
        rw [List.map_cons, List.map_cons, List.flatten_cons, List.flatten_cons, e,
          ih (fun f hf => hu f (by simp [hf])) (fun f hf => hne f (by simp [hf]))]
  obtain ⟨k1, k2, k3, k4, k5⟩ := size24_ok hsz
  obtain ⟨hdr, h7, h8, h9⟩ := writeHeader24_spec t.flags sz hlt
  -- the extended header
  have hext : ∃ x, Tag24.extBytes t.ext = .ok x ∧ x.length = t.extSize ∧ ∃ e2 : Option Ext24, (∀ rest : Bytes,
      (if t.ext.isSome then (Ext24.parse (x ++ rest) (x ++ rest).length).bind fun e => .ok (some e, e.size) else .ok (none, 0)) =
        (.ok (e2, x.length) : Res (Option Ext24 × Nat))) ∧
      e2.map (fun e => (e.size, e.update, e.fcrc, e.restricted)) = t.ext.map (fun e => (e.size, e.update, e.fcrc, e.restricted)) := by
    unfold Tag24.extSize
    cases he : t.ext with
    | none => exact ⟨[], rfl, rfl, none, fun rest => rfl, rfl⟩
    | some e =>
      obtain ⟨a1, a2, a3⟩ := hx e he
      obtain ⟨b, b1, b2, -⟩ := ext24_parse e [] a3 a1 a2
      refine ⟨b, b1, b2, some ⟨e.size, e.update, false, false, none, none⟩, fun rest => ?_, by simp [a1, a2]⟩
      obtain ⟨b', c1, c2, c3⟩ := ext24_parse e rest a3 a1 a2
      rw [b1] at c1
      cases c1
      rw [Option.isSome_some, if_pos rfl, c3, b2]
      rfl
  obtain ⟨x, x1, x2, e2, x3, x4⟩ := hext
  have hw := write24_eq hsz
  rw [h7, x1] at hw
  simp only [Res.ok_bind, hbytes, hp, List.replicate_zero, footer24, hf, Bool.false_eq_true, if_false, List.append_nil,
    List.append_assoc] at hw
  have hBl : (x ++ rawBytes .v4 (t.frames.map fun f => rawOf .v4 f (w f))).length = sz := by
    rw [List.length_append, x2, ← hbytes, k5, hp, hf]
    simp only [Bool.false_eq_true, if_false]
    omega
  refine ⟨_, _, _, hw, by rw [List.length_append, h8, hBl], fun mk2 mk3 pre post m => ?_⟩
  have hparse : Tag24.parseBuf z (decide (t.flags &&& 0x40 ≠ 0)) (x ++ rawBytes .v4 (t.frames.map fun f => rawOf .v4 f (w f))) =
      .ok (e2, 0, (t.frames.map fun f => rawOf .v4 f (w f)).map (Raw.frame .v4)) := by
    have hd : decide (t.flags &&& 0x40 ≠ 0) = t.ext.isSome := by
      rw [Bool.eq_iff_iff, decide_eq_true_iff]; exact (flags24_bits t).2.1
    have l1 := encrScan_layout z .v4 _ 0 [] x (storable_raw h)
    have l2 := framePass_layout z .v4 _ 0 [] [] x (storable_raw h)
    simp only [List.replicate_zero, List.append_nil, Nat.add_zero] at l1 l2
    unfold Tag24.parseBuf
    rw [hd, x3]
    simp only [Res.ok_bind]
    rw [List.length_append, l1]
    simp only [Res.ok_bind]
    rw [l2]
    rfl
  have hrd := maybeRead24 z pre hdr _ post t.flags m h8 (by rw [hBl]; exact h9) _ hparse mk2 mk3
  refine ⟨_, hrd, ?_, ?_, ?_, ?_, rfl, x4⟩
  · simp only [List.map_map, Function.comp_def, shape, Raw.frame, Frame4.new, rawOf, attrs_f0w]
  · simp only
    rw [Bool.eq_iff_iff, decide_eq_true_iff]
    exact (flags24_bits t).2.2.1
  · simp only
    rw [decide_eq_false_iff_not, (flags24_bits t).2.2.2, hf]
    decide
  · simp only [Option.some.injEq]
    rw [Bool.eq_iff_iff, decide_eq_true_iff, decide_eq_true_iff]
    exact (flags24_bits t).1

theorem tag4_storable : StorableFrames zId .v4 tag4.frames
    (fun f => match f.body with | .text a t => a :: t | .unknown b => b | _ => []) := by
  intro f hf
  simp only [tag4, List.mem_cons, List.not_mem_nil, or_false] at hf
  rcases hf with rfl | rfl
  · exact ⟨.inl rfl, by unfold PlainFrame; decide, trivial, rfl, by decide, by decide, by decide⟩
  · exact ⟨.inl rfl, by unfold PlainFrame; decide, trivial, rfl, by decide, by decide, by decide⟩

example : (tag4.size zId false).bind (fun r => .ok r.1) = .ok 32 ∧ tag4.padding = 0 ∧ tag4.footer = false := by decide

/-! ### C55 -/

/-- **C55** as claimed, for ID3v2.4: an extended header is read back as it was written. -/
def C55_v24_claim : Prop := ∀ (e : Ext24) (b rest : Bytes), e.write = .ok b →
  ∃ e', Ext24.parse (b ++ rest) (b ++ rest).length = .ok e' ∧ (e.fcrc = true → e'.crc = e.crc) ∧
    (e.restricted = true → e'.restrictions = e.restrictions)

/-- With a checksum: neither the length of the field nor its fifth byte is written. -/
theorem C55_v24_refuted : ¬ C55_v24_claim := by
  intro h
  obtain ⟨e', h1, -⟩ := h ⟨12, false, true, false, some 5, none⟩ [0, 0, 0, 12, 1, 32, 0, 0, 0, 5, 1] [] (by decide)
  have : Ext24.parse ([0, 0, 0, 12, 1, 32, 0, 0, 0, 5, 1] ++ []) ([0, 0, 0, 12, 1, 32, 0, 0, 0, 5, 1] ++ [] : Bytes).length = .throw .other := by
    decide
  rw [this] at h1
  cases h1

/-- With restrictions: the length of the field is not written. -/
theorem C55_v24_refuted_restrictions : ¬ C55_v24_claim := by
  intro h
  obtain ⟨e', h1, -⟩ := h ⟨7, false, false, true, none, some ⟨1, false, 0, false, 0⟩⟩ [0, 0, 0, 7, 1, 16, 64] [0, 0] (by decide)
  have : Ext24.parse ([0, 0, 0, 7, 1, 16, 64] ++ [0, 0]) ([0, 0, 0, 7, 1, 16, 64] ++ [0, 0] : Bytes).length = .throw .other := by
    decide
  rw [this] at h1
  cases h1

/-- **C55** (partial: ID3v2.4) An extended header with neither is read back, whatever comes after it. Restrictions are encoded and decoded alike:
for every byte, decoding and encoding again gives that byte, and for all values of the fields, encoding and
decoding again gives those values. -/
theorem C55_v24_partial :
    (∀ (e : Ext24) (rest : Bytes), e.size = (if e.update then 7 else 6) → e.fcrc = false → e.restricted = false →
      ∃ b, e.write = .ok b ∧ b.length = e.size ∧
        Ext24.parse (b ++ rest) (b ++ rest).length = .ok ⟨e.size, e.update, false, false, none, none⟩) ∧
    (∀ b : Byte, Ext24.restrictionsByte (Ext24.restrictionsOf b) = b) ∧
    (∀ r : Restrictions, r.tagSize < 4 → r.textSize < 4 → r.imageSize < 4 → Ext24.restrictionsOf (Ext24.restrictionsByte r) = r) := by
  refine ⟨fun e rest h1 h2 h3 => ext24_parse e rest h1 h2 h3, ?_, ?_⟩
  · intro b
    have : ∀ n : Fin 256, Ext24.restrictionsByte (Ext24.restrictionsOf (UInt8.ofNat n.1)) = UInt8.ofNat n.1 := by decide +kernel
    have := this ⟨b.toNat, b.toNat_lt⟩
    simpa using this
  · have : ∀ (a : Fin 4) (b : Bool) (c : Fin 4) (d : Bool) (e : Fin 4),
        Ext24.restrictionsOf (Ext24.restrictionsByte ⟨a.1, b, c.1, d, e.1⟩) = ⟨a.1, b, c.1, d, e.1⟩ := by decide +kernel
    intro r h1 h2 h3
    exact this ⟨_, h1⟩ r.textEnc ⟨_, h2⟩ r.imageEnc ⟨_, h3⟩

example : Ext24.restrictionsOf 0x5a = ⟨1, false, 3, false, 2⟩ := by decide

/-! ### C29 -/

/-- **C29** as claimed, for ID3v2.4. -/
def C29_v24_claim : Prop := ∀ (extended : Bool) (buf : Bytes), (Tag24.parseBuf zId extended buf).safe

/-- A tag of a single byte other than zero. -/
theorem C29_v24_refuted : ¬ C29_v24_claim := by
  intro h
  have := h false [0x54]
  revert this
  decide +kernel

/-- Seven bytes after the last frame: the first pass reads the size beyond the end. -/
theorem C29_v24_refuted_size : ¬ (Tag24.parseBuf zId false [0x54, 0x49, 0x54, 0x32, 0, 0, 0]).safe := by decide +kernel

/-- **C29** (ID3v2.4) Reading an extended header never reads outside of its buffer. -/
theorem C29_v24_ext (buf : Bytes) : (Ext24.parse buf buf.length).safe := ext24_safe buf

/-- **C29** (partial) A tag of ID3v2.4 that has an extended header that is refused, or one that ends where the frames begin, or none, and
a sequence of frames, each complete, neither compressed nor encrypted nor grouped, and acceptable to the constructor for its kind of
frame, followed by nothing, by padding or by something that is too short or announces too much, is read without reading outside its
buffer. Missing: up to seven nonzero bytes at the end; frames that announce more than is left but less than the whole tag; ENCR frames; the payloads
on which the constructors misbehave (C21 and C48). -/
theorem C29_v24_partial (z : Zlib) (extended : Bool) (pre : Bytes) (fs : List (Id4 × Byte × Bytes)) (rest : Bytes)
    (hx : if extended then ∀ e, Ext24.parse (pre ++ frames4 .v4 fs ++ rest) (pre ++ frames4 .v4 fs ++ rest).length = .ok e → e.size = pre.length
      else pre = [])
    (hf : FramesOk4 .v4 fs) (hr : TailOk4 .v4 (pre ++ frames4 .v4 fs ++ rest).length rest) :
    (Tag24.parseBuf z extended (pre ++ frames4 .v4 fs ++ rest)).safe := by
  have h := passes_safe z .v4 pre fs rest [] hf hr
  rw [List.append_nil] at h
  have key : ∀ e : Option Ext24, ((encrScan z .v4 (pre ++ frames4 .v4 fs ++ rest) (pre ++ frames4 .v4 fs ++ rest).length pre.length).bind fun (ms, pad) =>
      (framePass z .v4 ms (pre ++ frames4 .v4 fs ++ rest) (pre ++ frames4 .v4 fs ++ rest).length pre.length).bind fun fs =>
      (.ok (e, pad, fs) : Res (Option Ext24 × Nat × List Frame4))).safe := by
    intro e
    revert h
    cases encrScan z .v4 (pre ++ frames4 .v4 fs ++ rest) (pre ++ frames4 .v4 fs ++ rest).length pre.length with
    | throw e => intro _; trivial
    | ub e => intro h; exact h.elim
    | ok r =>
      simp only [Res.ok_bind]
      cases framePass z .v4 r.1 (pre ++ frames4 .v4 fs ++ rest) (pre ++ frames4 .v4 fs ++ rest).length pre.length with
      | ok r => intro _; trivial
      | throw e => intro _; trivial
      | ub e => intro h; exact h.elim
  unfold Tag24.parseBuf
  cases extended with
  | false =>
    simp only [Bool.false_eq_true, if_false] at hx
    subst hx
    exact key none
  | true =>
    simp only [if_true] at hx ⊢
    have hs := ext24_safe (pre ++ frames4 .v4 fs ++ rest)
    revert hs hx
    cases Ext24.parse (pre ++ frames4 .v4 fs ++ rest) (pre ++ frames4 .v4 fs ++ rest).length with
    | ok e =>
      intro hx _
      simp only [Res.ok_bind]
      rw [hx e rfl]
      exact key (some e)
    | throw e => intro _ _; trivial
    | ub e => intro _ h; exact h.elim

example : Ext24.parse ([0, 0, 0, 7, 1, 64, 0] ++ frames4 .v4 [(mkId4 'T' 'I' 'T' '2', 0x40, [0, 0x41])] ++ [0, 0])
    ([0, 0, 0, 7, 1, 64, 0] ++ frames4 .v4 [(mkId4 'T' 'I' 'T' '2', 0x40, [0, 0x41])] ++ [0, 0] : Bytes).length =
      .ok ⟨7, true, false, false, none, none⟩ := by decide

/-! ### C46 -/

/-- **C46** as claimed, for ID3v2.4. -/
def C46_v24_claim : Prop := ∀ (z : Zlib) (h : Id3v2Info) (s s' : IStream) (e : Exc), s.Good → Tag24.read z h s = (.throw e, s') →
  s'.pos = s.pos ∧ s'.mask = s.mask

theorem C46_v24_refuted : ¬ C46_v24_claim := by
  intro h
  have := h zId ⟨4, 0, 0, 5⟩ ⟨[1, 2, 3], 0, IoBits.none, IoBits.none⟩ _ .streamFailure rfl rfl
  revert this
  decide

/-- **C46** (partial) It holds for every failure other than running out of bytes, and the stream is good again. -/
theorem C46_v24_partial (z : Zlib) (h : Id3v2Info) (s s' : IStream) (e : Exc) (hs : s.Good)
    (hl : s.pos + h.size ≤ s.data.length) (he : Tag24.read z h s = (.throw e, s')) : s' = s := by
  obtain ⟨d, p, m, st⟩ := s
  simp only [IStream.Good] at hs
  subst hs
  unfold Tag24.read at he
  simp only [SM.bind_apply] at he
  rw [parse24_full _ _ _ _ _ _ hl] at he
  revert he
  cases Tag24.parseBuf z (decide (h.flags &&& 0x40 ≠ 0)) ((d.drop p).take h.size) with
  | ok r => intro he; simp at he
  | throw e' => intro he; simp only [Prod.mk.injEq] at he; exact he.2.symm
  | ub e' => intro he; simp at he

example : Tag24.read zId ⟨4, 0, 0x40, 5⟩ ⟨[9, 0x54, 0x49, 0x54, 0x32, 0], 1, IoBits.failBad, IoBits.none⟩ =
    (.throw .other, ⟨[9, 0x54, 0x49, 0x54, 0x32, 0], 1, IoBits.failBad, IoBits.none⟩) := by decide +kernel

end Scribbu.Props
