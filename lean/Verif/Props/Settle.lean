import Verif.Proofs.Settle
import Verif.Props.Tag24

/-! Property C195: tags that are read and written again, unchanged, any number of times. -/

namespace Scribbu.Props
open Scribbu Scribbu.Spec

/-! ### What is claimed -/

/-- **C195** as claimed, for ID3v2.3: writing a tag that was read from bytes the library wrote gives these bytes. -/
def C195_v23_claim : Prop := ∀ (z : Zlib) (t t' : Tag23) (b : Bytes) (n : Nat),
  (∀ f ∈ t.frames, f.dirty = true ∧ PlainFrame f ∧ WFBody .v3 (kind4 f.id) f.body ∧ f.id ≠ ⟨0, 0, 0, 0⟩) → t.ext = none →
  t.write z false = .ok (b, n, t') → Rewritten23 z b b

/-- **C195** as claimed, for ID3v2.2, and weakened: the tag can at least be written and read any number of times. -/
def C195_v22_claim : Prop := ∀ (t t' : Tag22) (b : Bytes) (n : Nat),
  (∀ f ∈ t.frames, f.dirty = true ∧ WFBody .v2 (kind22 f.id) f.body ∧ f.id ≠ ⟨0, 0, 0⟩) →
  t.write false = .ok (b, n, t') → ∃ B, B 0 = b ∧ RewriteChain Rewritten22 B

/-- **C195** as claimed, for ID3v2.4, and weakened likewise. -/
def C195_v24_claim : Prop := ∀ (z : Zlib) (t t' : Tag24) (b : Bytes) (n : Nat),
  (∀ f ∈ t.frames, f.dirty = true ∧ PlainFrame f ∧ WFBody .v4 (kind4 f.id) f.body ∧ f.id ≠ ⟨0, 0, 0, 0⟩) → t.ext = none →
  t.write z false = .ok (b, n, t') → ∃ B, B 0 = b ∧ RewriteChain (Rewritten24 z) B

/-! ### Why it is false -/

/-- Rewriting has one outcome at most. -/
theorem rewritten23_unique {z : Zlib} {b c d : Bytes} (h : Rewritten23 z b c) (h' : Rewritten23 z b d) : c = d := by
  obtain ⟨t, s, x, h1, h2⟩ := h
  obtain ⟨t', s', x', h1', h2'⟩ := h'
  rw [h1] at h1'
  cases h1'
  rw [h2] at h2'
  cases h2'
  rfl

theorem rewritten22_unique {b c d : Bytes} (h : Rewritten22 b c) (h' : Rewritten22 b d) : c = d := by
  obtain ⟨t, s, x, h1, h2⟩ := h
  obtain ⟨t', s', x', h1', h2'⟩ := h'
  rw [h1] at h1'
  cases h1'
  rw [h2] at h2'
  cases h2'
  rfl

/-- A title that is to be discarded when the tag is altered. -/
def fleeting : Tag23 :=
  ⟨none, false, none, 2, [.new (mkId4 'T' 'I' 'T' '2') (.text 0 [0x41]) true false false false none none false none]⟩

/-- Its bytes. -/
def fleeting0 : Bytes := [73, 68, 51, 3, 0, 0, 0, 0, 0, 14, 84, 73, 84, 50, 0, 0, 0, 2, 64, 0, 0, 65, 0, 0]

/-- **Finding** A title marked as to be discarded when the tag is altered: the mark is written in the place of the next
one, to be discarded when the file is altered, so that the tag, read and written again without a change, says that, and after
another time that the frame is read only. -/
theorem C195_refuted : ¬ C195_v23_claim := by
  intro h
  have hw : ∃ n t', fleeting.write zId false = .ok (fleeting0, n, t') := ⟨_, _, by rfl⟩
  obtain ⟨n, t', hw⟩ := hw
  obtain ⟨t, s, x, h1, h2⟩ := h zId fleeting t' fleeting0 n (by
    intro f hf
    simp only [fleeting, List.mem_singleton] at hf
    subst hf
    exact ⟨rfl, by unfold PlainFrame; decide, trivial, by decide⟩) rfl hw
  have h1' := congrArg (fun r : Res (Option Tag23) × IStream => r.1.bind fun o => match o with
    | some t => (t.write zId false).bind fun x => (.ok x.1 : Res Bytes)
    | none => .throw .other) h1
  simp only [Res.ok_bind, h2] at h1'
  revert h1'
  decide +kernel

/-- The first two sets of bytes for an artist in UCS-2, with its byte order mark. -/
def grown0 : Bytes := [73, 68, 51, 2, 0, 0, 0, 0, 0, 12, 84, 80, 49, 0, 0, 5, 1, 255, 0, 254, 72, 0]
def grown1 : Bytes := [73, 68, 51, 2, 0, 0, 0, 0, 0, 13, 84, 80, 49, 0, 0, 5, 1, 255, 0, 0, 254, 72, 0]

theorem grown_rewritten : Rewritten22 grown0 grown1 := by
  have e : ∃ x, (Tag22.write ⟨some false, some false, some 1, [.new (mkId3 'T' 'P' '1') (.text 1 [0xff, 0, 0xfe, 0x48])]⟩ false) = .ok (grown1, x) :=
    ⟨_, rfl⟩
  obtain ⟨x, e⟩ := e
  have h : (maybeReadId3v2 Tag22.read (fun _ => SM.throw .other) (fun _ => SM.throw .other)
      ⟨grown0, 0, IoBits.none, IoBits.none⟩).1 =
      .ok (some ⟨some false, some false, some 1, [.new (mkId3 'T' 'P' '1') (.text 1 [0xff, 0, 0xfe, 0x48])]⟩) := by decide +kernel
  exact ⟨_, _, x, Prod.ext h rfl, e⟩

/-- **Finding** An artist in UCS-2 in an ID3v2.2 tag: whatever is asked for, the frame is written unsynchronised and not
marked as that, with the size it had before. Every rewriting puts another zero after the FF and pushes another byte of the text out
of the frame. Once a byte other than zero is pushed out it is taken for the beginning of another
frame, and the reader reads beyond the end of the tag: after having been read and written twice, without a change, the tag
cannot be read. -/
theorem C195_refuted_v22 : ¬ C195_v22_claim := by
  intro h
  obtain ⟨B, h0, hB⟩ := h ⟨some false, some false, some 0, [tp1]⟩ _ _ _
    (by intro f hf; simp only [List.mem_singleton] at hf; subst hf; exact ⟨rfl, trivial, by decide⟩) rfl
  have k0 : Rewritten22 grown0 (B 1) := by
    have := hB 0
    rw [h0] at this
    exact this
  have e1 : B 1 = grown1 := rewritten22_unique k0 grown_rewritten
  have k1 := hB 1
  rw [e1] at k1
  obtain ⟨t, s, x, k1, -⟩ := k1
  have : (maybeReadId3v2 Tag22.read (fun _ => SM.throw .other) (fun _ => SM.throw .other)
      ⟨grown1, 0, IoBits.none, IoBits.none⟩).1 = .ub .oobRead := by decide +kernel
  rw [k1] at this
  cases this

/-- **Finding** An ID3v2.4 tag with three bytes of padding: its header counts the padding twice, so that there are not as many bytes as
it announces, and what was written cannot be read. -/
theorem C195_refuted_v24 : ¬ C195_v24_claim := by
  intro h
  have hw : ∃ n t', (⟨none, false, false, none, 3, [tit2]⟩ : Tag24).write zId false =
    .ok ([0x49, 0x44, 0x33, 4, 0, 0, 0, 0, 0, 19, 0x54, 0x49, 0x54, 0x32, 0, 0, 0, 3, 0, 0, 0, 0x48, 0x69, 0, 0, 0], n, t') := ⟨_, _, by rfl⟩
  obtain ⟨n, t', hw⟩ := hw
  obtain ⟨B, h0, hB⟩ := h zId _ t' _ n (by
    intro f hf
    simp only [List.mem_singleton] at hf
    subst hf
    exact ⟨rfl, by unfold PlainFrame; decide, trivial, by decide⟩) rfl hw
  obtain ⟨t, s, x, k, -⟩ := hB 0
  rw [h0] at k
  have k := congrArg (fun r : Res (Option Tag24) × IStream => match r.1 with | .ok (some _) => true | _ => false) k
  revert k
  simp only
  decide +kernel

/-! ### What holds -/

/-- The payloads are what the frames serialise to. -/
theorem pack_eq {z : Zlib} {ver : Ver} {fs : List Frame4} {w : Frame4 → Bytes} (hf : StorableFrames z ver fs w) :
    StorableFrames z ver fs packOf ∧ (fs.map fun f => 10 + (packOf f).length) = fs.map fun f => 10 + (w f).length := by
  have e : ∀ f ∈ fs, packOf f = w f := by
    intro f hm
    obtain ⟨-, -, -, h4, -⟩ := hf f hm
    unfold packOf
    rw [h4]
  constructor
  · intro f hm
    rw [e f hm]
    exact hf f hm
  · apply List.map_congr_left
    intro f hm
    rw [e f hm]

/-- **C195** (partial: ID3v2.3) A tag without extended header that is not marked as unsynchronised, and whose frames can be stored
(`StorableFrames`), of less than 2^28 bytes, can be written, and what is written can be read and written again any number of times. All
these sets of bytes have the same length, and from the fourth on they are the same. If no frame has an attribute set they are
all the same. Missing: the attributes, which move by one place each time; tags marked as unsynchronised; extended headers; empty
payloads; frames that are compressed, encrypted or grouped. -/
theorem C195_v23_partial (z : Zlib) (hz : ∀ c b, z.crc32 c b < 2 ^ 32) (t : Tag23) (w : Frame4 → Bytes)
    (hf : StorableFrames z .v3 t.frames w) (he : t.ext = none) (hu : t.unsync ≠ some true)
    (hlt : (t.frames.map fun f => 10 + (w f).length).sum + t.padding < 2 ^ 28) :
    ∃ B : Nat → Bytes, (∃ x, t.write z false = .ok (B 0, x)) ∧ RewriteChain (Rewritten23 z) B ∧
      (∀ n, (B n).length = 10 + (t.frames.map fun f => 10 + (w f).length).sum + t.padding) ∧
      (∀ n, 3 ≤ n → B n = B 3) ∧
      ((∀ f ∈ t.frames, f.tap = false ∧ f.fap = false ∧ f.ro = false) → ∀ n, B n = B 0) := by
  obtain ⟨hs, e⟩ := pack_eq hf
  rw [← e] at hlt ⊢
  obtain ⟨hdr, h1, h2, h3⟩ := chain23 hz hs he hu hlt
  obtain ⟨k1, k2, k3⟩ := chain_facts (ver := .v3) (fs := t.frames) hdr (List.replicate t.padding 0)
  rw [h1, List.length_replicate] at k1
  exact ⟨fun n => hdr ++ (rawBytes .v3 (laidOf .v3 (framesAfter .v3 t.frames n)) ++ List.replicate t.padding 0), h2, h3, k1, k2, k3⟩

/-- **C195** (partial: ID3v2.4) The same for tags without padding, footer and extended header. Missing: the attributes; padding and footers,
with which the tag cannot be read again or is read with part of what comes after it (C54); extended headers; empty
payloads; frames that are compressed, encrypted or grouped. -/
theorem C195_v24_partial (z : Zlib) (t : Tag24) (w : Frame4 → Bytes)
    (hf : StorableFrames z .v4 t.frames w) (he : t.ext = none) (hp : t.padding = 0) (hft : t.footer = false)
    (hlt : (t.frames.map fun f => 10 + (w f).length).sum < 2 ^ 28) :
    ∃ B : Nat → Bytes, (∃ x, t.write z false = .ok (B 0, x)) ∧ RewriteChain (Rewritten24 z) B ∧
      (∀ n, (B n).length = 10 + (t.frames.map fun f => 10 + (w f).length).sum) ∧
      (∀ n, 3 ≤ n → B n = B 3) ∧
      ((∀ f ∈ t.frames, f.tap = false ∧ f.fap = false ∧ f.ro = false) → ∀ n, B n = B 0) := by
  obtain ⟨hs, e⟩ := pack_eq hf
  rw [← e] at hlt ⊢
  obtain ⟨hdr, h1, h2, h3⟩ := chain24 hs he hp hft hlt
  obtain ⟨k1, k2, k3⟩ := chain_facts (ver := .v4) (fs := t.frames) hdr []
  rw [h1, List.length_nil] at k1
  exact ⟨fun n => hdr ++ (rawBytes .v4 (laidOf .v4 (framesAfter .v4 t.frames n)) ++ []), h2, h3, k1, k2, k3⟩

/-- A title that is to be discarded when the file is altered, in a tag of ID3v2.4 that is marked as experimental. -/
example : ∃ B : Nat → Bytes, (∃ x, (⟨none, true, false, none, 0,
    [.new (mkId4 'T' 'I' 'T' '2') (.text 0 [0x41]) false true false false none none false none]⟩ : Tag24).write zId false = .ok (B 0, x)) ∧
    RewriteChain (Rewritten24 zId) B ∧ (∀ n, (B n).length = 22) ∧ ∀ n, 3 ≤ n → B n = B 3 := by
  obtain ⟨B, h1, h2, h3, h4, -⟩ := C195_v24_partial zId ⟨none, true, false, none, 0,
    [.new (mkId4 'T' 'I' 'T' '2') (.text 0 [0x41]) false true false false none none false none]⟩ (fun _ => [0, 0x41])
    (by
      intro f hf
      simp only [List.mem_singleton] at hf
      subst hf
      exact ⟨.inl rfl, by unfold PlainFrame; decide, trivial, rfl, by decide, by decide, by decide⟩) rfl rfl rfl (by decide)
  exact ⟨B, h1, h2, h3, h4⟩

/-- The bytes of `fleeting`, and what they become. -/
example : ∃ B : Nat → Bytes, (∃ x, fleeting.write zId false = .ok (B 0, x)) ∧ RewriteChain (Rewritten23 zId) B ∧
    (∀ n, (B n).length = 24) ∧ ∀ n, 3 ≤ n → B n = B 3 := by
  obtain ⟨B, h1, h2, h3, h4, -⟩ := C195_v23_partial zId (fun c b => Nat.mod_lt _ (by decide)) fleeting (fun _ => [0, 0x41])
    (by
      intro f hf
      simp only [fleeting, List.mem_singleton] at hf
      subst hf
      exact ⟨.inl rfl, by unfold PlainFrame; decide, trivial, rfl, by decide, by decide, by decide⟩) rfl (by decide) (by decide)
  exact ⟨B, h1, h2, h3, h4⟩

/-- **C195** (partial: ID3v2.2) A tag that can be stored with `unsync` false (`Storable`), of less than 2^28 bytes, can be written,
and writing what is read from that gives the same bytes. Missing: frames in which an FF is followed by 00 or by E0 or
more, unless the tag is marked as unsynchronised; empty payloads. -/
theorem C195_v22_partial (t : Tag22) (w : Frame22 → Bytes) (c : Bool) (pad : Nat) (h : Storable t false w c pad)
    (sz : Nat) (t1 : Tag22) (hsz : t.size false = .ok (sz, t1)) (hlt : sz < 2 ^ 28) :
    ∃ b x, t.write false = .ok (b, x) ∧ Rewritten22 b b := by
  obtain ⟨b, fs', hw, hp⟩ := storable_bytes t false w c pad h
  obtain ⟨k1, k2⟩ := write_eq t false c pad b fs' h.comp h.padding hw
  rw [hsz] at k1
  cases k1
  obtain ⟨hdr, g1, g2, g3⟩ := writeHeader_spec (wflags t c false) _ hlt
  rw [g1] at k2
  simp only [Res.ok_bind, List.append_assoc] at k2
  refine ⟨_, _, k2, ?_⟩
  have hr := maybeRead_tag (fun _ => SM.throw .other) (fun _ => SM.throw .other) [] hdr (b ++ List.replicate pad 0) []
    (wflags t c false) IoBits.none g2 (by rw [List.length_append, List.length_replicate, Nat.add_comm]; exact g3) _ hp
  simp only [List.nil_append, List.append_nil, List.length_nil] at hr
  -- what is written next
  obtain ⟨gs, q1, -⟩ := framesWrite_current false w t.frames fun f hf => ⟨(h.frames f hf).1, (h.frames f hf).2.2.2.2⟩
  rw [hw] at q1
  cases q1
  obtain ⟨gs', q2, -⟩ := framesWrite_current false (fun f => match f.body.serialize with | .ok b => b | _ => [])
    (t.frames.map fun f => Frame22.new f.id f.body) (by
      intro g hg
      obtain ⟨f, hf, rfl⟩ := List.mem_map.1 hg
      obtain ⟨h1, -, -, -, h5⟩ := h.frames f hf
      have e : (match (Frame22.new f.id f.body).body.serialize with | .ok b => b | _ => []) = w f := by
        show (match f.body.serialize with | .ok b => b | _ => []) = w f
        rw [h1.1]
      rw [e]
      exact ⟨⟨h1.1, .inl rfl⟩, h5⟩)
  have e : ((t.frames.map fun f => Frame22.new f.id f.body).map fun f =>
      if false = true then frame22 f.id (match f.body.serialize with | .ok b => b | _ => [])
      else unsynchronise false (frame22 f.id (match f.body.serialize with | .ok b => b | _ => []))) =
      t.frames.map fun f => if false = true then frame22 f.id (w f) else unsynchronise false (frame22 f.id (w f)) := by
    rw [List.map_map]
    apply List.map_congr_left
    intro f hf
    have e : (match f.body.serialize with | .ok b => b | _ => []) = w f := by rw [(h.frames f hf).1.1]
    show (if false = true then frame22 f.id (match f.body.serialize with | .ok b => b | _ => [])
      else unsynchronise false (frame22 f.id (match f.body.serialize with | .ok b => b | _ => []))) = _
    rw [e]
  rw [e] at q2
  have hc : decide (wflags t c false &&& 0x40 ≠ 0) = c := by
    rw [Bool.eq_iff_iff, decide_eq_true_iff, wflags_compression]
  have k3 := (write_eq ⟨some (decide (wflags t c false &&& 0x80 ≠ 0)), some (decide (wflags t c false &&& 0x40 ≠ 0)), some pad,
    t.frames.map fun f => Frame22.new f.id f.body⟩ false c pad _ gs' (by rw [hc]) rfl q2).2
  have hfl : wflags ⟨some (decide (wflags t c false &&& 0x80 ≠ 0)), some (decide (wflags t c false &&& 0x40 ≠ 0)), some pad,
      t.frames.map fun f => Frame22.new f.id f.body⟩ c false = wflags t c false := by
    have e : decide (wflags t c false &&& 0x80 ≠ 0) = decide (t.unsync = some true) := by
      rw [Bool.eq_iff_iff, decide_eq_true_iff, decide_eq_true_iff, wflags_unsync]
      simp
    rw [e]
    unfold wflags
    by_cases hu : t.unsync = some true <;> simp [hu]
  rw [hfl, g1] at k3
  simp only [Res.ok_bind, List.append_assoc] at k3
  exact ⟨_, _, _, hr, k3⟩

/-- A tag that is marked as unsynchronised, with an artist in UCS-2. -/
def markedTag : Tag22 := ⟨some true, some false, some 3, [tp1]⟩

theorem markedTag_storable : Storable markedTag false (fun _ => [1, 0xff, 0xfe, 0x48, 0]) false 3 where
  comp := rfl
  padding := rfl
  frames := by
    intro f hf
    simp only [markedTag, List.mem_singleton] at hf
    subst hf
    exact ⟨⟨rfl, .inl rfl⟩, trivial, by decide, by decide, by decide⟩
  stuffing := .inr ⟨rfl, rfl, by intro f _; decide⟩

example : ∃ b x, markedTag.write false = .ok (b, x) ∧ Rewritten22 b b :=
  C195_v22_partial markedTag _ false 3 markedTag_storable _ _ rfl (by decide)

end Scribbu.Props
