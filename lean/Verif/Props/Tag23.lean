import Verif.Proofs.Tag23
import Verif.Props.Frame23
import Verif.Props.Tag22

/-! Properties C26, C27, C29, C46, C53 and C55: ID3v2.3 tags. -/

namespace Scribbu.Props
open Scribbu Scribbu.Spec

/-- A tag with a title, a link and three bytes of padding, and with an extended header that has a checksum. -/
def tag3 : Tag23 := ⟨none, true, some (.new 3 (some 0)), 3, [tit2, woar]⟩

/-! ### C26 -/

/-- **C26** as claimed, for ID3v2.3 tags: the header marks the tag as unsynchronised exactly if that was
asked for. -/
def C26_v23_claim : Prop := ∀ (z : Zlib) (t t' : Tag23) (u : Bool) (b : Bytes) (n : Nat), t.write z u = .ok (b, n, t') →
  ∃ fl sz, IsHeader b 3 0 fl sz ∧ (fl &&& 0x80 ≠ 0 ↔ u = true)

theorem C26_v23_refuted : ¬ C26_v23_claim := by
  intro h
  obtain ⟨fl, sz, ⟨s0, s1, s2, s3, rest, h1, -⟩, h2⟩ := h zId ⟨some true, false, none, 0, []⟩ _ false _ _ rfl
  simp only [List.nil_append, List.cons_append, List.cons.injEq, List.append_nil] at h1
  obtain ⟨-, -, -, -, -, h1, -⟩ := h1
  rw [← h1] at h2
  revert h2
  decide

theorem write23_ok {z : Zlib} {t t' : Tag23} {u : Bool} {b : Bytes} {n : Nat} (h : t.write z u = .ok (b, n, t')) :
    ∃ sz hdr, t.size z u = .ok (sz, t') ∧ sz < 2 ^ 28 ∧ hdr.length = 10 ∧
      (∀ rest, IsHeader (hdr ++ rest) 3 0 (wflags23 t u) sz) ∧
      b = hdr ++ (extForm t'.ext u ++ ((t'.frames.map fun g => if u then g.unsynced else g.plain).flatten ++
        List.replicate t.padding 0)) ∧
      n = 10 + (extForm t'.ext u).length + ((t'.frames.map fun g => if u then g.unsynced else g.plain).flatten).length +
        t.padding := by
  have h' := h
  unfold Tag23.write at h'
  simp only at h'
  rw [Res.bind_eq_ok] at h'
  obtain ⟨⟨sz, t1⟩, h1, -⟩ := h'
  rw [write23_eq h1, Res.bind_eq_ok] at h
  obtain ⟨hdr, h2, h3⟩ := h
  simp only [Res.ok.injEq, Prod.mk.injEq] at h3
  obtain ⟨h3, h4, rfl⟩ := h3
  by_cases hs : sz < 2 ^ 28
  · obtain ⟨hdr', h5, h6, h7⟩ := writeHeader23_spec (wflags23 t u) sz hs
    rw [h2] at h5
    cases h5
    exact ⟨sz, hdr, h1, hs, h6, h7, by rw [← h3]; simp, h4.symm⟩
  · rw [writeHeader23_large _ _ (by omega)] at h2
    cases h2

/-- **C26** (partial) The mark is set if it was asked for or if the tag has it already. -/
theorem C26_v23_partial (z : Zlib) (t t' : Tag23) (u : Bool) (b : Bytes) (n : Nat) (h : t.write z u = .ok (b, n, t')) :
    ∃ fl sz, IsHeader b 3 0 fl sz ∧ (fl &&& 0x80 ≠ 0 ↔ (t.unsync = some true ∨ u = true)) := by
  obtain ⟨sz, hdr, -, -, -, h1, h2, -⟩ := write23_ok h
  rw [h2]
  exact ⟨_, sz, h1 _, (wflags23_bits t u).1⟩

/-- **C26** as claimed, for the extended header of ID3v2.3. -/
def C26_v23_ext_claim : Prop := ∀ (cbpad : Nat) (crc : Option Nat) (u : Bool),
  ((Ext23.new cbpad crc).write u).1 = if u then unsynchronise false (ext23 cbpad crc) else ext23 cbpad crc

/-- The two forms are swapped. -/
theorem C26_v23_ext_refuted : ¬ C26_v23_ext_claim := by
  intro h
  have := h 0xff00 none true
  revert this
  decide

/-- **C26** (partial) The two forms of the extended header are the wrong way round; the argument is honoured exactly if they
are the same. -/
theorem C26_v23_ext_partial (cbpad : Nat) (crc : Option Nat) :
    (∀ u, ((Ext23.new cbpad crc).write u).1 = if u then ext23 cbpad crc else unsynchronise false (ext23 cbpad crc)) ∧
    (¬ NeedsStuffing (ext23 cbpad crc) ↔
      ∀ u, ((Ext23.new cbpad crc).write u).1 = if u then unsynchronise false (ext23 cbpad crc) else ext23 cbpad crc) := by
  have h : ∀ u, ((Ext23.new cbpad crc).write u).1 = if u then ext23 cbpad crc else unsynchronise false (ext23 cbpad crc) := by
    intro u
    unfold Ext23.write
    simp only
    rw [ext23_fresh _ rfl]
    rfl
  refine ⟨h, ⟨fun hn u => ?_, fun hu => ?_⟩⟩
  · rw [h, (C06_unchanged_iff_partial _).2 hn]
  · have := hu true
    rw [h] at this
    exact (C06_unchanged_iff_partial _).1 this.symm

example : NeedsStuffing (ext23 0xff00 none) := ⟨[0, 0, 0, 6, 0, 0, 0, 0], 0, [], rfl, by decide⟩
example : ¬ NeedsStuffing (ext23 1024 (some 77)) := by
  rw [NeedsStuffing, ← growth_eq_zero_iff]
  decide

/-! ### C27 -/

/-- **C27** as claimed, for ID3v2.3: `write` emits `10 + size` bytes. -/
def C27_v23_claim : Prop := ∀ (z : Zlib) (t t' : Tag23) (u : Bool) (b : Bytes) (n sz : Nat),
  t.write z u = .ok (b, n, t') → t.size z u = .ok (sz, t') → b.length = 10 + sz

/-- A tag with 65280 bytes of padding announced in its extended header. -/
theorem C27_v23_refuted : ¬ C27_v23_claim := by
  intro h
  have := h zId ⟨none, false, some (.new 0xff00 none), 0, []⟩ _ false _ _ _ rfl rfl
  revert this
  decide

/-- **C27** (partial: ID3v2.3) Whenever a tag can be written, the number of bytes written is the number
returned; `size(unsync)` is the size in the header and, if the tag has no extended header, the number of bytes
after it. A tag whose size can be computed can be written exactly if that is below 2^28 bytes. -/
theorem C27_v23_partial (z : Zlib) (t : Tag23) (u : Bool) :
    (∀ b n t', t.write z u = .ok (b, n, t') →
      b.length = n ∧ ∃ sz fl, t.size z u = .ok (sz, t') ∧ IsHeader b 3 0 fl sz ∧ (t.ext = none → n = 10 + sz)) ∧
    (∀ sz t', t.size z u = .ok (sz, t') →
      (sz < 2 ^ 28 → ∃ b n, t.write z u = .ok (b, n, t')) ∧ (2 ^ 28 ≤ sz → t.write z u = .throw .invalidArgument)) := by
  constructor
  · intro b n t' h
    obtain ⟨sz, hdr, h1, -, h2, h3, rfl, rfl⟩ := write23_ok h
    refine ⟨by simp [h2]; omega, sz, _, h1, h3 _, fun hx => ?_⟩
    obtain ⟨-, -, -, h4, -, h5, -⟩ := size23_ok h1
    rw [hx] at h4
    have : t'.ext = none := by simpa using h4
    rw [h5, this]
    simp only [extForm, List.length_nil]
    omega
  · intro sz t' h
    rw [write23_eq h]
    constructor
    · intro hs
      obtain ⟨hdr, h5, -⟩ := writeHeader23_spec (wflags23 t u) sz hs
      rw [h5]
      exact ⟨_, _, rfl⟩
    · intro hs
      rw [writeHeader23_large _ _ hs]
      rfl

/-- **C27** (partial: ID3v2.3) With an extended header, exactly if that does not need unsynchronisation. -/
theorem C27_v23_ext_partial (z : Zlib) (t : Tag23) (u : Bool) (w : Frame4 → Bytes) (hf : StorableFrames z .v3 t.frames w)
    (he : ∀ e, t.ext = some e → CurrentExt e) (b : Bytes) (n : Nat) (t' : Tag23) (h : t.write z u = .ok (b, n, t')) :
    ∃ sz, t.size z u = .ok (sz, t') ∧ (n = 10 + sz ↔ ¬ NeedsStuffing (extBytes (extOf z t w))) := by
  obtain ⟨sz, hdr, h1, -, h2, h3, rfl, rfl⟩ := write23_ok h
  refine ⟨sz, h1, ?_⟩
  obtain ⟨n', t'', k1, -, -, k4, k5⟩ := size23_ready z t u w hf he
  rw [h1] at k1
  cases k1
  obtain ⟨-, -, -, -, -, h5, -⟩ := size23_ok h1
  rw [h5, NeedsStuffing, ← growth_eq_zero_iff]
  have hl := unsync_length (extBytes (extOf z t w))
  cases u with
  | true =>
    simp only [Bool.not_true, k4, k5, hl]
    omega
  | false =>
    simp only [Bool.not_false, k4, k5, hl]
    omega

example : (tag3.write zId true).bind (fun r => .ok (r.1, r.2.1)) =
    .ok ([0x49, 0x44, 0x33, 3, 0, 0xe0, 0, 0, 0, 42, 0, 0, 0, 10, 0x80, 0, 0, 0, 0, 3, 0, 0, 0, 25,
      0x54, 0x49, 0x54, 0x32, 0, 0, 0, 3, 0, 0, 0, 0x48, 0x69, 0x57, 0x4f, 0x41, 0x52, 0, 0, 0, 2, 112, 0, 1, 2, 0, 0, 0], 52) ∧
    (tag3.size zId true).bind (fun r => .ok r.1) = .ok 42 := by decide

/-! ### C53 -/

/-- A frame as read back: its identifier and content, and its attributes. -/
def shape (f : Frame4) : Id4 × Body × Bool × Bool × Bool := (f.id, f.body, f.tap, f.fap, f.ro)

/-- **C53** as claimed: a tag is read back as it was written. -/
def C53_claim : Prop := ∀ (z : Zlib) (t t' : Tag23) (u : Bool) (b post : Bytes) (n : Nat),
  (∀ f ∈ t.frames, f.dirty = true ∧ PlainFrame f ∧ WFBody .v3 (kind4 f.id) f.body ∧ f.id ≠ ⟨0, 0, 0, 0⟩) →
  t.write z u = .ok (b, n, t') →
  ∃ t2 s, maybeReadId3v2 (fun _ => SM.throw .other) (Tag23.read z) (fun _ => SM.throw .other)
      ⟨b ++ post, 0, IoBits.none, IoBits.none⟩ = (.ok (some t2), s) ∧
    t2.frames.map (fun f => (f.id, f.body)) = t.frames.map fun f => (f.id, f.body)

/-- A tag that is marked as unsynchronised, but written with `unsync` false: its frames are not unsynchronised,
but it is still marked. -/
theorem C53_refuted : ¬ C53_claim := by
  intro h
  obtain ⟨t2, s, h1, h2⟩ := h zId ⟨some true, false, none, 0,
      [.new (mkId4 'T' 'I' 'T' '2') (.text 0 [0xff, 0, 0x41]) false false false false none none false none]⟩ _ false _ [] _
    (by
      intro f hf
      simp only [List.mem_singleton] at hf
      subst hf
      exact ⟨rfl, by unfold PlainFrame; decide, trivial, by decide⟩) rfl
  have e : (maybeReadId3v2 (fun _ => SM.throw .other) (Tag23.read zId) (fun _ => SM.throw .other)
      ⟨[0x49, 0x44, 0x33, 3, 0, 0x80, 0, 0, 0, 14, 0x54, 0x49, 0x54, 0x32, 0, 0, 0, 4, 0, 0, 0, 0xff, 0, 0x41] ++ [], 0,
        IoBits.none, IoBits.none⟩).1.bind (fun o => .ok (o.map fun t => t.frames.map fun f => (f.id, f.body))) ≠
      .ok (some [(mkId4 'T' 'I' 'T' '2', .text 0 [0xff, 0, 0x41])]) := by decide +kernel
  have h1' := congrArg (fun r : Res (Option Tag23) × IStream => r.1.bind fun o =>
    (.ok (o.map fun t => t.frames.map fun f => (f.id, f.body)) : Res _)) h1
  apply e
  refine Eq.trans h1' ?_
  simp only [Res.ok_bind, Option.map_some, h2]
  rfl

/-- **C53** (partial) A tag that meets the conditions of `Storable23` and whose size is below 2^28 bytes can be written
and, wherever the bytes are put, is read back with the same frames in the same order, the same
experimental flag, and an extended header that has the same padding size and the checksum of the frames. The reader
stops at the end of the tag. The attributes of the frames are shifted (C24). The padding is the same, except that
one byte of it is lost if the tag is unsynchronised and ends in FF. Missing: tags marked as unsynchronised, but written
with `unsync` false, with frames in need of that; extended headers in need of it; empty payloads; frames that are
compressed, encrypted or grouped. -/
theorem C53_partial (z : Zlib) (t : Tag23) (u : Bool) (w : Frame4 → Bytes) (h : Storable23 z t u w)
    (sz : Nat) (t1 : Tag23) (hsz : t.size z u = .ok (sz, t1)) (hlt : sz < 2 ^ 28) :
    ∃ b n t', t.write z u = .ok (b, n, t') ∧ b.length = 10 + sz ∧
      ∀ (mk2 mk4 : Id3v2Info → SM Tag23) (pre post : Bytes) (m : IoBits), ∃ t2,
        maybeReadId3v2 mk2 (Tag23.read z) mk4 ⟨pre ++ b ++ post, pre.length, m, IoBits.none⟩ =
          (.ok (some t2), ⟨pre ++ b ++ post, (pre ++ b).length, m, IoBits.none⟩) ∧
        t2.frames.map shape = t.frames.map (fun f => (f.id, f.body, false, f.tap, f.fap)) ∧
        t2.experimental = t.experimental ∧
        t2.ext.map (fun e => (e.cbpad, e.crc)) = extOf z t w ∧
        (t2.padding = t.padding ∨ u = true ∧ t2.padding + 1 = t.padding ∧ ∃ f ∈ t.frames, (w f).getLast? = some 0xff) := by
  obtain ⟨n, t', h1, pad', h2, h3, h4, h5, h6⟩ := parseBuf23_storable z t u w h
  rw [h1] at hsz
  cases hsz
  obtain ⟨hdr, h7, h8, h9⟩ := writeHeader23_spec (wflags23 t u) sz hlt
  have hw := write23_eq h1
  rw [h7] at hw
  simp only [Res.ok_bind] at hw
  generalize hB : extForm t1.ext u ++ (t1.frames.map fun g => if u then g.unsynced else g.plain).flatten ++
    List.replicate t.padding 0 = B at h2
  have hBl : B.length = sz := by
    rw [← hB, h4, ← h5]
    simp only [List.length_append, List.length_replicate]
  rw [show ∀ a b c d : Bytes, a ++ b ++ c ++ d = a ++ (b ++ c ++ d) by intros; simp, hB] at hw
  refine ⟨_, _, _, hw, by rw [List.length_append, h8, hBl], fun mk2 mk4 pre post m => ?_⟩
  have hr := maybeRead23 z pre hdr B post (wflags23 t u) m h8 (by rw [hBl]; exact h9) _ h2 mk2 mk4
  refine ⟨_, hr, ?_, ?_, ?_, h3⟩
  · simp only [List.map_map, Function.comp_def, shape, Raw.frame, Frame4.new, rawOf, attrs_f0w]
  · simp only
    rw [Bool.eq_iff_iff, decide_eq_true_iff]
    exact (wflags23_bits t u).2.2
  · simp only
    cases extOf z t w <;> rfl

theorem tag3_storable (u : Bool) : Storable23 zId tag3 u
    (fun f => match f.body with | .text a t => a :: t | .unknown b => b | _ => []) where
  frames := by
    intro f hf
    simp only [tag3, List.mem_cons, List.not_mem_nil, or_false] at hf
    rcases hf with rfl | rfl
    · exact ⟨.inl rfl, by unfold PlainFrame; decide, trivial, rfl, by decide, by decide, by decide⟩
    · exact ⟨.inl rfl, by unfold PlainFrame; decide, trivial, rfl, by decide, by decide, by decide⟩
  ext := by
    intro e he
    simp only [tag3, Option.some.injEq] at he
    subst he
    exact ⟨.inl rfl, by decide⟩
  crc := by
    intro c b
    exact Nat.mod_lt _ (by decide)
  stuffing := by
    cases u with
    | false =>
      left
      refine ⟨rfl, by decide, ?_⟩
      rw [NeedsStuffing, ← growth_eq_zero_iff]
      decide
    | true =>
      right; right
      refine ⟨rfl, ?_, by decide, by decide⟩
      rw [NeedsStuffing, ← growth_eq_zero_iff]
      decide

example : (tag3.size zId true).bind (fun r => .ok r.1) = .ok 42 := by decide

/-- The size, and hence the checksum, of a tag that can be stored can always be computed. -/
theorem storable23_size (z : Zlib) (t : Tag23) (u : Bool) (w : Frame4 → Bytes) (h : Storable23 z t u w) :
    ∃ sz t', t.size z u = .ok (sz, t') := by
  obtain ⟨n, t', h1, -⟩ := parseBuf23_storable z t u w h
  exact ⟨n, t', h1⟩

/-! ### C55 -/

/-- **C55** (ID3v2.3) Every extended header that can be written in 32-bit fields is read back, whatever comes
after it. -/
theorem C55_v23 (cbpad : Nat) (crc : Option Nat) (rest : Bytes) (hp : cbpad < 2 ^ 32) (hc : ∀ c, crc = some c → c < 2 ^ 32) :
    (Ext23.new cbpad crc).serializedSize false = (if crc.isSome then 14 else 10, (Ext23.new cbpad crc).fresh) ∧
    Ext23.parse ((Ext23.new cbpad crc).fresh.plain ++ rest) = .ok (.new cbpad crc) := by
  rw [ext23_fresh _ rfl]
  refine ⟨?_, ext23_parse cbpad crc rest hp hc⟩
  unfold Ext23.serializedSize
  rw [ext23_fresh _ rfl]
  simp only [Bool.false_eq_true, if_false, Ext23.new, ext23_length]

example : Ext23.parse [0, 0, 0, 10, 0x80, 0, 0, 0, 4, 0, 0xde, 0xad, 0xbe, 0xef, 0x54] = .ok (.new 1024 (some 0xdeadbeef)) := by decide

/-! ### C29 -/

/-- **C29** as claimed, for ID3v2.3: whatever the bytes, reading the tag yields a tag or throws. -/
def C29_v23_claim : Prop := ∀ (unsync extended : Bool) (buf : Bytes), (Tag23.parseBuf zId unsync extended buf).safe

/-- A tag of a single byte other than zero: the identifier is read from beyond the end. -/
theorem C29_v23_refuted : ¬ C29_v23_claim := by
  intro h
  have := h false false [0x54]
  revert this
  decide +kernel

/-- A tag too short for the extended header it says it has. -/
theorem C29_v23_refuted_ext : ¬ (Tag23.parseBuf zId false true [0, 0, 0, 6]).safe := by decide +kernel

/-- A frame that announces six bytes where there is one. -/
theorem C29_v23_refuted_overrun : ¬ (Tag23.parseBuf zId false false [0x57, 0x4f, 0x41, 0x52, 0, 0, 0, 6, 0, 0, 1]).safe := by
  decide +kernel


/-- A compressed frame shorter than the field for its decompressed size: the size of its payload wraps around. -/
theorem C29_v23_refuted_wrap :
    ¬ (Tag23.parseBuf zId false false [0x57, 0x4f, 0x41, 0x52, 0, 0, 0, 3, 0, 0x80, 0, 0, 0, 0]).safe := by
  decide +kernel

/-- An ENCR frame that is encrypted itself: reading does not end (C30). -/
theorem C29_v23_refuted_loop :
    ¬ (Tag23.parseBuf zId false false [0x45, 0x4e, 0x43, 0x52, 0, 0, 0, 2, 0, 0x40, 1, 0]).safe := by
  decide +kernel

/-- Frames, each complete and without any of the attributes of the second flag byte, whose payload is nonempty and
acceptable to the constructor for its kind of frame. -/
def FramesOk4 (ver : Ver) (fs : List (Id4 × Byte × Bytes)) : Prop := ∀ f ∈ fs,
  f.1 ≠ ⟨0, 0, 0, 0⟩ ∧ [f.1.a, f.1.b, f.1.c, f.1.d] ≠ ascii "ENCR" ∧ f.2.2 ≠ [] ∧ f.2.2.length < maxSize4 ver ∧
  ∀ post, (Body.parse ver (kind4 f.1) (f.2.2 ++ post) f.2.2.length).safe

/-- Their bytes. -/
def frames4 (ver : Ver) (fs : List (Id4 × Byte × Bytes)) : Bytes := (fs.map fun f => frame4 ver f.1 f.2.1 0 f.2.2).flatten

/-- What may follow the frames in a tag of `cb` bytes: nothing, padding (after four zeros anything goes), or something
that does not fit: a few bytes, or a frame larger than the tag. -/
def TailOk4 (ver : Ver) (cb : Nat) (rest : Bytes) : Prop :=
  (∀ b ∈ rest, b = 0) ∨
  (∃ t, rest = 0 :: 0 :: 0 :: 0 :: t) ∨
  ((match ver with | .v4 => 8 | _ => 4) ≤ rest.length ∧ rest.length < 11) ∨
  (∃ id n t, rest = id ++ size4 ver n ++ t ∧ id.length = 4 ∧ id ≠ ascii "ENCR" ∧ 3 ≤ t.length ∧ cb ≤ n ∧ n < maxSize4 ver)

theorem encrId : mkId4 'E' 'N' 'C' 'R' = ⟨0x45, 0x4e, 0x43, 0x52⟩ := by decide

/-- The first pass ends with the exception or without having found an encrypted ENCR frame. -/
def Fine (r : Res (List Byte × Bool × Nat)) : Prop := (∃ e, r = .throw e) ∨ ∃ ms pad, r = .ok (ms, false, pad)

theorem encrScan_fine {z : Zlib} {ver : Ver} {buf : Bytes} {cb p : Nat} (h : Fine (encrPass z ver buf cb p [] false)) :
    (∃ e, encrScan z ver buf cb p = .throw e) ∨ ∃ r, encrScan z ver buf cb p = .ok r := by
  rcases h with ⟨e, h⟩ | ⟨ms, pad, h⟩
  · left; exact ⟨e, by unfold encrScan encrLoop; rw [h]⟩
  · right; exact ⟨(ms, pad), by unfold encrScan encrLoop; rw [h]; rfl⟩

/-- After the frames. -/
theorem pass_tail (z : Zlib) (ver : Ver) (pre rest post : Bytes) (h : TailOk4 ver (pre ++ rest).length rest) (ms : List Byte) :
    Fine (encrPass z ver (pre ++ rest ++ post) (pre ++ rest).length pre.length ms false) ∧
    (framePass z ver ms (pre ++ rest ++ post) (pre ++ rest).length pre.length).safe := by
  have hcell : ∀ k b, rest[k]? = some b → rd (pre ++ rest ++ post) (pre.length + k) = .ok b := by
    intro k b hk
    rw [List.append_assoc]
    apply rd_append
    have : k < rest.length := (List.getElem?_eq_some_iff.1 hk).1
    rw [List.getElem?_append_left this, hk]
  have hcell0 : ∀ b, rest[0]? = some b → rd (pre ++ rest ++ post) pre.length = .ok b := fun b hb => hcell 0 b hb
  rcases h with h | ⟨t, rfl⟩ | ⟨h1, h2⟩ | ⟨id, n, t, rfl, h4, he, ht, hcb, hn⟩
  · have e : rest = List.replicate rest.length 0 := List.eq_replicate_iff.2 ⟨rfl, h⟩
    have a1 := encrPass_pad z ver pre rest.length post ms false
    have a2 := framePass_pad z ver pre rest.length post ms
    rw [← e] at a1 a2
    rw [List.length_append, a1, a2]
    exact ⟨.inr ⟨_, _, rfl⟩, trivial⟩
  · rw [encrPass_unfold, framePass_unfold, if_pos (by simp), if_pos (by simp), hcell0 0 rfl, hcell 1 0 rfl, hcell 2 0 rfl,
      hcell 3 0 rfl]
    simp only [Res.ok_bind]
    rw [if_neg (by simp), if_neg (by simp), if_neg (by simp), if_pos trivial, if_neg (by simp), if_neg (by simp),
      if_neg (by simp), if_pos trivial]
    exact ⟨.inr ⟨_, _, rfl⟩, trivial⟩
  · have hlen : 4 ≤ rest.length := by cases ver <;> simp at h1 <;> omega
    match rest, hlen with
    | a :: b :: c :: d :: t, _ =>
      simp only [List.length_cons] at h2
      have hf : (framePass z ver ms (pre ++ (a :: b :: c :: d :: t) ++ post) (pre ++ (a :: b :: c :: d :: t)).length pre.length).safe := by
        rw [framePass_unfold, if_pos (by simp), hcell0 a rfl, hcell 1 b rfl, hcell 2 c rfl, hcell 3 d rfl]
        simp only [Res.ok_bind]
        rw [if_neg (by simp), if_neg (by simp), if_neg (by simp)]
        split
        · trivial
        · rw [if_pos (by simp; omega)]
          trivial
      refine ⟨?_, hf⟩
      rw [encrPass_unfold, if_pos (by simp), hcell0 a rfl, hcell 1 b rfl, hcell 2 c rfl, hcell 3 d rfl]
      simp only [Res.ok_bind]
      rw [if_neg (by simp), if_neg (by simp), if_neg (by simp)]
      split
      · exact .inr ⟨_, _, rfl⟩
      · by_cases hv : ver = .v4
        · subst hv
          rw [if_neg (by simp)]
          simp only [List.length_cons] at h1
          match t, (by omega : 4 ≤ t.length) with
          | s0 :: s1 :: s2 :: s3 :: t', _ =>
            rw [hcell 4 s0 rfl, hcell 5 s1 rfl, hcell 6 s2 rfl, hcell 7 s3 rfl]
            simp only [Res.ok_bind]
            split
            · rw [encrPass_unfold, if_neg (by simp at h2 ⊢; omega)]
              exact .inr ⟨_, _, rfl⟩
            · rw [if_pos (by simp at h2 ⊢; omega)]
              exact .inl ⟨_, rfl⟩
        · rw [if_pos ⟨hv, by simp; omega⟩]
          exact .inl ⟨_, rfl⟩
  · match id, h4 with
    | [a, b, c, d], _ =>
      obtain ⟨s0, s1, s2, s3, k1, k2⟩ := size4_decode ver n hn
      rw [k1] at hcell hcell0 hcb ⊢
      have hne : (⟨a, b, c, d⟩ : Id4) ≠ mkId4 'E' 'N' 'C' 'R' := by
        rw [encrId]
        intro e
        cases e
        apply he
        decide
      simp only [List.cons_append, List.nil_append] at hcell hcell0 hcb ⊢
      simp only [List.length_append, List.length_cons] at hcb
      have hl : (pre ++ (a :: b :: c :: d :: s0 :: s1 :: s2 :: s3 :: t)).length = pre.length + (t.length + 8) := by simp
      constructor
      · rw [encrPass_unfold, if_pos (by rw [hl]; omega), hcell0 a rfl, hcell 1 b rfl, hcell 2 c rfl, hcell 3 d rfl, hcell 4 s0 rfl,
          hcell 5 s1 rfl, hcell 6 s2 rfl, hcell 7 s3 rfl]
        simp only [Res.ok_bind]
        rw [if_neg (by rw [hl]; omega), if_neg (by rw [hl]; omega), if_neg (by rw [hl]; omega)]
        split
        · exact .inr ⟨_, _, rfl⟩
        · rw [if_neg (by rw [hl]; omega), encrPass_unfold, if_neg (by rw [hl, k2]; omega)]
          exact .inr ⟨_, _, rfl⟩
      · rw [framePass_unfold, if_pos (by rw [hl]; omega), hcell0 a rfl, hcell 1 b rfl, hcell 2 c rfl, hcell 3 d rfl, hcell 4 s0 rfl,
          hcell 5 s1 rfl, hcell 6 s2 rfl, hcell 7 s3 rfl]
        simp only [Res.ok_bind]
        rw [if_neg (by rw [hl]; omega), if_neg (by rw [hl]; omega), if_neg (by rw [hl]; omega)]
        split
        · trivial
        · rw [if_neg (by rw [hl]; omega), if_pos (by rw [hl, k2]; omega)]
          trivial

/-- Frames before something that does no harm. -/
theorem pass_frames (z : Zlib) (ver : Ver) (fs : List (Id4 × Byte × Bytes)) (rest : Bytes) (cb : Nat) (ms : List Byte)
    (h : FramesOk4 ver fs) (pre : Bytes) (hcb : (pre ++ frames4 ver fs).length ≤ cb)
    (h1 : Fine (encrPass z ver (pre ++ frames4 ver fs ++ rest) cb (pre ++ frames4 ver fs).length ms false))
    (h2 : (framePass z ver ms (pre ++ frames4 ver fs ++ rest) cb (pre ++ frames4 ver fs).length).safe) :
    Fine (encrPass z ver (pre ++ frames4 ver fs ++ rest) cb pre.length ms false) ∧
    (framePass z ver ms (pre ++ frames4 ver fs ++ rest) cb pre.length).safe := by
  induction fs generalizing pre with
  | nil => simp only [frames4, List.map_nil, List.flatten_nil, List.append_nil] at h1 h2 ⊢; exact ⟨h1, h2⟩
  | cons f fs ih =>
    obtain ⟨k1, k2, k3, k4, k5⟩ := h f (by simp)
    have hne : f.1 ≠ mkId4 'E' 'N' 'C' 'R' := by
      rw [encrId]
      intro e
      rw [e] at k2
      exact k2 (by decide)
    have e : frames4 ver (f :: fs) = frame4 ver f.1 f.2.1 0 f.2.2 ++ frames4 ver fs := by simp [frames4]
    have hf := frame4_length ver f.1 f.2.1 0 f.2.2
    rw [e] at h1 h2 hcb ⊢
    have a2 := ih (fun g hg => h g (by simp [hg])) (pre ++ frame4 ver f.1 f.2.1 0 f.2.2)
    rw [show pre ++ frame4 ver f.1 f.2.1 0 f.2.2 ++ frames4 ver fs ++ rest =
        pre ++ frame4 ver f.1 f.2.1 0 f.2.2 ++ (frames4 ver fs ++ rest) by simp,
      show pre ++ frame4 ver f.1 f.2.1 0 f.2.2 ++ frames4 ver fs =
        pre ++ (frame4 ver f.1 f.2.1 0 f.2.2 ++ frames4 ver fs) by simp] at a2
    rw [show pre ++ (frame4 ver f.1 f.2.1 0 f.2.2 ++ frames4 ver fs) ++ rest =
        pre ++ frame4 ver f.1 f.2.1 0 f.2.2 ++ (frames4 ver fs ++ rest) by simp] at h1 h2 ⊢
    obtain ⟨a3, a4⟩ := a2 hcb h1 h2
    have hcb' : pre.length + 10 + f.2.2.length ≤ cb := by
      simp only [List.length_append, hf] at hcb; omega
    rw [encrPass_cons z ver pre f.1 f.2.1 0 f.2.2 (frames4 ver fs ++ rest) cb ms false k1 hne k3 k4 hcb',
      framePass_step z ver ms pre f.1 f.2.1 0 f.2.2 (frames4 ver fs ++ rest) cb k1 k3 k4 hcb']
    refine ⟨a3, ?_⟩
    have hr := readFrame4_plain z ver ms pre f.1 f.2.1 false f.2.2 (frames4 ver fs ++ rest) k4 (by simp)
    simp only [Bool.false_eq_true, if_false] at hr
    rw [hr]
    have hs := k5 (frames4 ver fs ++ rest)
    revert hs a4
    cases Body.parse ver (kind4 f.1) (f.2.2 ++ (frames4 ver fs ++ rest)) f.2.2.length with
    | ok body =>
      simp only [Res.ok_bind]
      cases framePass z ver ms (pre ++ frame4 ver f.1 f.2.1 0 f.2.2 ++ (frames4 ver fs ++ rest)) cb
        (pre ++ frame4 ver f.1 f.2.1 0 f.2.2).length with
      | ok r => intro _ _; trivial
      | throw e => intro _ _; trivial
      | ub e => intro h _; exact h.elim
    | throw e => intro _ _; trivial
    | ub e => intro _ h; exact h.elim

/-- Both passes. -/
theorem passes_safe (z : Zlib) (ver : Ver) (pre : Bytes) (fs : List (Id4 × Byte × Bytes)) (rest post : Bytes)
    (hf : FramesOk4 ver fs) (hr : TailOk4 ver (pre ++ frames4 ver fs ++ rest).length rest) :
    ((encrScan z ver (pre ++ frames4 ver fs ++ rest ++ post) (pre ++ frames4 ver fs ++ rest).length pre.length).bind fun r =>
      framePass z ver r.1 (pre ++ frames4 ver fs ++ rest ++ post) (pre ++ frames4 ver fs ++ rest).length pre.length).safe := by
  have h1 := fun ms => pass_tail z ver (pre ++ frames4 ver fs) rest post hr ms
  have h2 := fun ms => pass_frames z ver fs (rest ++ post) (pre ++ frames4 ver fs ++ rest).length ms hf pre (by simp)
    (by simpa using (h1 ms).1) (by simpa using (h1 ms).2)
  have e : pre ++ frames4 ver fs ++ (rest ++ post) = pre ++ frames4 ver fs ++ rest ++ post := by simp
  rw [e] at h2
  rcases encrScan_fine (h2 []).1 with ⟨x, h⟩ | ⟨r, h⟩
  · rw [h]; trivial
  · rw [h]; exact (h2 r.1).2

/-- **C29** (partial) A tag of ID3v2.3 that, after resynchronisation if it is marked as unsynchronised, is a complete extended
header, if it is to have one, and a sequence of frames, each complete, neither compressed nor encrypted nor grouped, and
acceptable to the constructor for its kind of frame, followed by nothing, by padding or by
something that is too short or announces too much, is read without reading outside its buffer. Missing: short extended
headers; one to three nonzero bytes at the end; frames that announce more than is left but less than the whole tag; ENCR frames;
the payloads on which the constructors misbehave (C21 and C48). -/
theorem C29_v23_partial (z : Zlib) (unsync : Bool) (buf : Bytes) (x : Option (Nat × Option Nat)) (fs : List (Id4 × Byte × Bytes))
    (rest : Bytes) (hx : ∀ a c, x = some (a, c) → a < 2 ^ 32 ∧ ∀ v, c = some v → v < 2 ^ 32) (hf : FramesOk4 .v3 fs)
    (hb : (if unsync then dropStuffing buf else buf) = extBytes x ++ frames4 .v3 fs ++ rest)
    (hr : TailOk4 .v3 (extBytes x ++ frames4 .v3 fs ++ rest).length rest) :
    (Tag23.parseBuf z unsync x.isSome buf).safe := by
  have key : ∀ post, (Tag23.parseAll z x.isSome (extBytes x ++ frames4 .v3 fs ++ rest ++ post)
      (extBytes x ++ frames4 .v3 fs ++ rest).length).safe := by
    intro post
    have h := passes_safe z .v3 (extBytes x) fs rest post hf hr
    have he : ((if x.isSome = true then
        (Ext23.parse (extBytes x ++ frames4 .v3 fs ++ rest ++ post)).bind fun e => .ok (some e, e.size + 4)
        else .ok (none, 0)) : Res (Option Ext23 × Nat)) = .ok (x.map fun x => .new x.1 x.2, (extBytes x).length) := by
      cases x with
      | none => rfl
      | some x =>
        obtain ⟨a, c⟩ := x
        have := hx a c rfl
        rw [Option.isSome_some, if_pos rfl]
        simp only [extBytes, List.append_assoc]
        rw [ext23_parse a c _ this.1 this.2, ext23_length]
        simp only [Res.ok_bind, Option.map_some]
        congr 2
        cases c <;> rfl
    unfold Tag23.parseAll
    rw [he]
    simp only [Res.ok_bind]
    revert h
    cases encrScan z .v3 (extBytes x ++ frames4 .v3 fs ++ rest ++ post) (extBytes x ++ frames4 .v3 fs ++ rest).length (extBytes x).length with
    | throw e => intro _; trivial
    | ub e => intro h; exact h.elim
    | ok r =>
      simp only [Res.ok_bind]
      cases framePass z .v3 r.1 (extBytes x ++ frames4 .v3 fs ++ rest ++ post) (extBytes x ++ frames4 .v3 fs ++ rest).length
        (extBytes x).length with
      | ok r => intro _; trivial
      | throw e => intro _; trivial
      | ub e => intro h; exact h.elim
  unfold Tag23.parseBuf
  cases unsync with
  | false =>
    simp only [Bool.false_eq_true, if_false] at hb ⊢
    have := key []
    rw [List.append_nil] at this
    rw [hb]
    exact this
  | true =>
    simp only [if_true] at hb ⊢
    obtain ⟨p', n, h1, h2, h3, h4⟩ := C05_resynchronise_exact buf
    rw [h1]
    simp only [Res.ok_bind]
    rw [hb] at h4
    have hp : p' = extBytes x ++ frames4 .v3 fs ++ rest ++ p'.drop n := by rw [← h4, List.take_append_drop]
    have hn : n = (extBytes x ++ frames4 .v3 fs ++ rest).length := by
      have := congrArg List.length h4
      rw [List.length_take] at this
      omega
    rw [hp, hn]
    have := key (p'.drop n)
    rwa [hn] at this

example : FramesOk4 .v3 [(mkId4 'T' 'I' 'T' '2', 0xe0, [1, 0xff, 0xfe, 0]), (mkId4 'W' 'O' 'A' 'R', 0, [1])] := by
  intro f hf
  simp only [List.mem_cons, List.not_mem_nil, or_false] at hf
  rcases hf with rfl | rfl
  · exact ⟨by decide, by decide, by decide, by decide, fun post => C29_bodies_partial _ _ _ _ (by simp) (by decide)⟩
  · exact ⟨by decide, by decide, by decide, by decide, fun post => C29_bodies_partial _ _ _ _ (by simp) (by decide)⟩
example : TailOk4 .v3 100 [0x54, 0x49, 0x54, 0x32, 0, 0, 1, 0, 0, 0, 0x41] :=
  .inr (.inr (.inr ⟨[0x54, 0x49, 0x54, 0x32], 256, [0, 0, 0x41], rfl, rfl, by decide, by decide, by decide, by decide⟩))

/-! ### C46 -/

/-- **C46** as claimed, for ID3v2.3. -/
def C46_v23_claim : Prop := ∀ (z : Zlib) (h : Id3v2Info) (s s' : IStream) (e : Exc), s.Good → Tag23.read z h s = (.throw e, s') →
  s'.pos = s.pos ∧ s'.mask = s.mask

/-- A tag that announces more bytes than there are. -/
theorem C46_v23_refuted : ¬ C46_v23_claim := by
  intro h
  have := h zId ⟨3, 0, 0, 5⟩ ⟨[1, 2, 3], 0, IoBits.none, IoBits.none⟩ _ .streamFailure rfl rfl
  revert this
  decide

/-- **C46** (partial) It holds for every failure other than running out of bytes, and the stream is
good again. -/
theorem C46_v23_partial (z : Zlib) (h : Id3v2Info) (s s' : IStream) (e : Exc) (hs : s.Good)
    (hl : s.pos + h.size ≤ s.data.length) (he : Tag23.read z h s = (.throw e, s')) : s' = s := by
  obtain ⟨d, p, m, st⟩ := s
  simp only [IStream.Good] at hs
  subst hs
  unfold Tag23.read at he
  simp only [SM.bind_apply] at he
  rw [parse23_full _ _ _ _ _ _ _ hl] at he
  revert he
  cases Tag23.parseBuf z (decide (h.flags &&& 0x80 ≠ 0)) (decide (h.flags &&& 0x40 ≠ 0)) ((d.drop p).take h.size) with
  | ok r => intro he; simp at he
  | throw e' => intro he; simp only [Prod.mk.injEq] at he; exact he.2.symm
  | ub e' => intro he; simp at he

example : Tag23.read zId ⟨3, 0, 0, 5⟩ ⟨[9, 0x54, 0x49, 0x54, 0x32, 0], 1, IoBits.failBad, IoBits.none⟩ =
    (.throw .invalidTag, ⟨[9, 0x54, 0x49, 0x54, 0x32, 0], 1, IoBits.failBad, IoBits.none⟩) := by decide +kernel

end Scribbu.Props
