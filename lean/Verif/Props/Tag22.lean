import Verif.Proofs.Tag22

/-! Properties C09, C23, C25-C29 and C46: ID3v2.2 frames and tags. -/

namespace Scribbu.Props
open Scribbu Scribbu.Spec

/-- A text frame as most programs write it: the title "Hi" in ISO-8859-1. -/
def tt2 : Frame22 := .new (mkId3 'T' 'T' '2') (.text 0 [0x48, 0x69])
/-- The artist in UCS-2 with a byte order mark. -/
def tp1 : Frame22 := .new (mkId3 'T' 'P' '1') (.text 1 [0xff, 0xfe, 0x48, 0x00])
/-- A tag holding a title and a play counter, and three bytes of padding. -/
def tag1 : Tag22 := ⟨some false, some false, some 3, [tt2, .new (mkId3 'C' 'N' 'T') (.pcnt [0, 0, 1, 2])]⟩

/-! ### C23 -/

/-- **C23** Whatever the identifier and the contents of a frame: if its payload is below 2^24 bytes
the header is the identifier and a three byte big-endian size, and otherwise writing the frame
is refused with `std::runtime_error`. -/
theorem C23_header (id : Id3) (body : Body) (w : Bytes) (hw : body.serialize = .ok w) :
    (w.length < 2 ^ 24 → ∃ h m l f', (Frame22.new id body).write true = .ok ([id.a, id.b, id.c, h, m, l] ++ w, f') ∧
      be [h, m, l] = w.length ∧ unsignedFromNonSyncSafe3 h m l = w.length) ∧
    (2 ^ 24 ≤ w.length → ∀ u, (Frame22.new id body).write u = .throw .runtimeError) := by
  constructor
  · intro hl
    have hd := be24_decode w.length hl
    have hb : be [UInt8.ofNat (w.length / 65536), UInt8.ofNat (w.length / 256), UInt8.ofNat w.length] = w.length := by
      rw [← (C02_big_endian_decoders _ _ _ 0).1]
      exact hd
    unfold Frame22.write
    rw [fresh_dirty _ w rfl hw hl]
    exact ⟨_, _, _, _, rfl, hb, hd⟩
  · intro hl u
    unfold Frame22.write Frame22.fresh Frame22.header
    have : (Frame22.new id body).body = body := rfl
    have hd : (Frame22.new id body).dirty = true := rfl
    rw [this, if_pos hd, hw]
    simp only [Res.ok_bind]
    rw [if_pos (by omega)]
    rfl

/-- **C23** A frame of any identifier that the library has no special class for, with any payload,
is read back from what was written. -/
theorem C23_read_back (id : Id3) (w : Bytes) (hk : kind22 id = .unknown) (h0 : id ≠ ⟨0, 0, 0⟩) (hw : w ≠ [])
    (hl : w.length < 2 ^ 24) :
    ∃ b f', (Frame22.new id (.unknown w)).write true = .ok (b, f') ∧
      Tag22.parseBuf false b = .ok ([.new id (.unknown w)], 0) := by
  refine ⟨frame22 id w, _, by unfold Frame22.write; rw [fresh_dirty _ w rfl rfl hl]; rfl, ?_⟩
  have := parseBuf_of false (frame22 id w) (frame22 id w) [(id, w, .unknown w)] 0
    (by
      intro f hf
      simp only [List.mem_singleton] at hf
      subst hf
      refine ⟨h0, hw, hl, fun post => ?_⟩
      rw [hk]
      exact (body_rt .v2 .unknown (.unknown w) trivial).elim fun x hx => by
        obtain ⟨a, -, b⟩ := hx
        cases a
        exact b post)
    (by simp [frames22]) rfl
  exact this

example : kind22 (mkId3 'W' 'A' 'F') = .unknown ∧ mkId3 'W' 'A' 'F' ≠ ⟨0, 0, 0⟩ := by decide
example : ((Frame22.new (mkId3 'W' 'A' 'F') (.unknown [1, 2])).write true).bind (fun r => .ok r.1) =
    .ok [0x57, 0x41, 0x46, 0, 0, 2, 1, 2] := by decide

/-! ### C25 -/

/-- What can be done with a frame. -/
inductive FrameOp
  | edit (g : Body → Body)
  | size (unsync : Bool)
  | needsUnsync
  | write (unsync : Bool)

/-- Is this an operation other than an edit? -/
def FrameOp.looks : FrameOp → Prop
  | .edit _ => False
  | _ => True

/-- Doing it. -/
def FrameOp.run (f : Frame22) : FrameOp → Res Frame22
  | .edit g => .ok (f.edit g)
  | .size u => (f.serializedSize u).bind fun r => .ok r.2
  | .needsUnsync => f.needsUnsync.bind fun r => .ok r.2
  | .write u => (f.write u).bind fun r => .ok r.2

/-- A history. -/
def runOps : List FrameOp → Frame22 → Res Frame22
  | [], f => .ok f
  | op :: ops, f => (op.run f).bind (runOps ops)

/-- **C25** as claimed: after any history, what is written is the frame's current content, in one of the
two forms. -/
def C25_claim : Prop := ∀ (id : Id3) (body : Body) (ops : List FrameOp) (f f' : Frame22) (u : Bool) (b w : Bytes),
  runOps ops (.new id body) = .ok f → f.write u = .ok (b, f') → f.body.serialize = .ok w →
  b = frame22 f.id w ∨ b = unsynchronise false (frame22 f.id w)

/-- A frame whose text is changed after its size was asked for writes the old text. -/
theorem C25_refuted : ¬ C25_claim := by
  intro h
  have := h (mkId3 'T' 'T' '2') (.text 0 [0x48]) [.size false, .edit fun _ => .text 0 [0x49]] _ _ true _ _ rfl rfl rfl
  revert this
  decide

theorem runOps_append (a b : List FrameOp) (f : Frame22) :
    runOps (a ++ b) f = (runOps a f).bind (runOps b) := by
  induction a generalizing f with
  | nil => rfl
  | cons op ops ih =>
    simp only [List.cons_append, runOps]
    cases op.run f with
    | ok g => simp only [Res.ok_bind, ih]
    | throw e => rfl
    | ub e => rfl

/-- Edits only. -/
theorem runOps_edits (gs : List (Body → Body)) (f : Frame22) :
    runOps (gs.map .edit) f = .ok { f with body := gs.foldl (fun b g => g b) f.body } := by
  induction gs generalizing f with
  | nil => rfl
  | cons g gs ih =>
    simp only [List.map_cons, runOps, FrameOp.run, Res.ok_bind, ih]
    rfl

/-- Once clean, the copies stay. -/
theorem runOps_clean (ops : List FrameOp) (f : Frame22) (hd : f.dirty = false) :
    ∃ b, runOps ops f = .ok { f with body := b } ∧ ((∀ op ∈ ops, op.looks) → b = f.body) := by
  induction ops generalizing f with
  | nil => exact ⟨f.body, rfl, fun _ => rfl⟩
  | cons op ops ih =>
    have hf : f.fresh = .ok f := by simp [Frame22.fresh, hd]
    cases op with
    | edit g =>
      obtain ⟨b, h, -⟩ := ih (f.edit g) hd
      refine ⟨b, by simp only [runOps, FrameOp.run, Res.ok_bind, h]; rfl, fun hl => ?_⟩
      exact (hl (.edit g) (by simp)).elim
    | _ =>
      obtain ⟨b, h, hb⟩ := ih f hd
      refine ⟨b, ?_, fun hl => hb fun op hop => hl op (by simp [hop])⟩
      simp only [runOps, FrameOp.run, Frame22.serializedSize, Frame22.needsUnsync, Frame22.write, hf, Res.ok_bind, h]

/-- **C25** (partial) Edits made before a frame is first measured or written are reflected, and
go on being reflected however often it is measured or written again. What is missing from the
claim is edits made after that: see `C25_frozen_partial`. -/
theorem C25_current_partial (id : Id3) (body : Body) (gs : List (Body → Body)) (ops : List FrameOp) (w : Bytes)
    (hops : ∀ op ∈ ops, op.looks) (hw : (gs.foldl (fun b g => g b) body).serialize = .ok w) (hl : w.length < 2 ^ 24) :
    ∃ f, runOps (gs.map .edit ++ ops) (.new id body) = .ok f ∧ f.body = gs.foldl (fun b g => g b) body ∧
      ∀ u, ∃ f', f.write u = .ok (if u then frame22 id w else unsynchronise false (frame22 id w), f') := by
  rw [runOps_append, runOps_edits]
  simp only [Res.ok_bind, Frame22.new]
  have hf := fresh_dirty ⟨id, gs.foldl (fun b g => g b) body, true, 0, [], []⟩ w rfl hw hl
  cases ops with
  | nil =>
    refine ⟨_, rfl, rfl, fun u => ?_⟩
    unfold Frame22.write
    rw [hf]
    exact ⟨_, rfl⟩
  | cons op ops =>
    have hlook := hops op (by simp)
    have hrun : op.run ⟨id, gs.foldl (fun b g => g b) body, true, 0, [], []⟩ =
        .ok ⟨id, gs.foldl (fun b g => g b) body, false, countSyncs true (frame22 id w), frame22 id w,
          unsynchronise false (frame22 id w)⟩ := by
      cases op with
      | edit g => exact hlook.elim
      | _ =>
        simp only [FrameOp.run, Frame22.serializedSize, Frame22.needsUnsync, Frame22.write, hf, Res.ok_bind]
    simp only [runOps, hrun, Res.ok_bind]
    obtain ⟨b, h, hb⟩ := runOps_clean ops ⟨id, gs.foldl (fun b g => g b) body, false, countSyncs true (frame22 id w),
      frame22 id w, unsynchronise false (frame22 id w)⟩ rfl
    refine ⟨_, h, hb fun op hop => hops op (by simp [hop]), fun u => ⟨_, rfl⟩⟩

/-- **C25** (partial) The precise behaviour otherwise: from the moment a frame is first measured or
written on, it writes the content it had then, whatever happens to it. -/
theorem C25_frozen_partial (id : Id3) (body : Body) (gs : List (Body → Body)) (op : FrameOp) (ops : List FrameOp)
    (w : Bytes) (hop : op.looks) (hw : (gs.foldl (fun b g => g b) body).serialize = .ok w) (hl : w.length < 2 ^ 24) :
    ∃ f, runOps (gs.map .edit ++ op :: ops) (.new id body) = .ok f ∧
      ∀ u, ∃ f', f.write u = .ok (if u then frame22 id w else unsynchronise false (frame22 id w), f') := by
  obtain ⟨f, h1, h2, -⟩ := C25_current_partial id body gs [op] w (by simpa using hop) hw hl
  have hf := fresh_dirty ⟨id, gs.foldl (fun b g => g b) body, true, 0, [], []⟩ w rfl hw hl
  rw [runOps_append, runOps_edits]
  simp only [Res.ok_bind, Frame22.new]
  have hrun : op.run ⟨id, gs.foldl (fun b g => g b) body, true, 0, [], []⟩ =
      .ok ⟨id, gs.foldl (fun b g => g b) body, false, countSyncs true (frame22 id w), frame22 id w,
        unsynchronise false (frame22 id w)⟩ := by
    cases op with
    | edit g => exact hop.elim
    | _ =>
      simp only [FrameOp.run, Frame22.serializedSize, Frame22.needsUnsync, Frame22.write, hf, Res.ok_bind]
  simp only [runOps, hrun, Res.ok_bind]
  obtain ⟨b, h, -⟩ := runOps_clean ops ⟨id, gs.foldl (fun b g => g b) body, false, countSyncs true (frame22 id w),
    frame22 id w, unsynchronise false (frame22 id w)⟩ rfl
  exact ⟨_, h, fun u => ⟨_, rfl⟩⟩

/-- **C25** At any time `serialized_size(unsync)` is the number of bytes `write(os, unsync)` emits, for every
frame whatever its history. -/
theorem C25_size (f : Frame22) (u : Bool) :
    (∀ b f', f.write u = .ok (b, f') → f.serializedSize u = .ok (b.length, f') ∧ f'.write u = .ok (b, f')) ∧
    (∀ n f', f.serializedSize u = .ok (n, f') → ∃ b, f.write u = .ok (b, f') ∧ b.length = n) := by
  constructor
  · intro b f' h
    unfold Frame22.write at h
    rw [Res.bind_eq_ok] at h
    obtain ⟨g, h1, h2⟩ := h
    cases h2
    simp only [Frame22.serializedSize, Frame22.write, h1, fresh_idem h1, Res.ok_bind, and_self]
  · intro n f' h
    unfold Frame22.serializedSize at h
    rw [Res.bind_eq_ok] at h
    obtain ⟨g, h1, h2⟩ := h
    cases h2
    exact ⟨_, by simp only [Frame22.write, h1, Res.ok_bind], rfl⟩

example : runOps [.edit fun _ => .text 0 [0x49], .size true, .needsUnsync, .write false] tt2 =
    .ok ⟨mkId3 'T' 'T' '2', .text 0 [0x49], false, 0, [0x54, 0x54, 0x32, 0, 0, 2, 0, 0x49],
      [0x54, 0x54, 0x32, 0, 0, 2, 0, 0x49]⟩ := by decide

/-! ### C26 -/

/-- **C26** as claimed, for ID3v2.2 frames: `write` with `unsync` false emits the plain bytes and with `unsync`
true the unsynchronised ones. -/
def C26_claim : Prop := ∀ (id : Id3) (body : Body) (w : Bytes), body.serialize = .ok w → w.length < 2 ^ 24 →
  ∀ u, ∃ f', (Frame22.new id body).write u =
    .ok (if u then unsynchronise false (frame22 id w) else frame22 id w, f')

/-- A UCS-2 text with its byte order mark. -/
theorem C26_refuted : ¬ C26_claim := by
  intro h
  obtain ⟨f', h⟩ := h (mkId3 'T' 'P' '1') (.text 1 [0xff, 0xfe, 0x48, 0x00]) _ rfl (by decide) true
  have := congrArg (fun r : Res (Bytes × Frame22) => r.bind fun x => .ok x.1) h
  revert this
  simp only [Res.ok_bind]
  decide

/-- **C26** (partial) The two forms are emitted the wrong way round, so the argument is honoured exactly for
those frames that unsynchronisation does not change. -/
theorem C26_partial (id : Id3) (body : Body) (w : Bytes) (hw : body.serialize = .ok w) (hl : w.length < 2 ^ 24) :
    (∀ u, ∃ f', (Frame22.new id body).write u =
      .ok (if u then frame22 id w else unsynchronise false (frame22 id w), f')) ∧
    (¬ NeedsStuffing (frame22 id w) ↔ ∀ u, ∃ f', (Frame22.new id body).write u =
      .ok (if u then unsynchronise false (frame22 id w) else frame22 id w, f')) := by
  have h : ∀ u, ∃ f', (Frame22.new id body).write u =
      .ok (if u then frame22 id w else unsynchronise false (frame22 id w), f') := fun u => by
    unfold Frame22.write
    rw [fresh_dirty _ w rfl hw hl]
    exact ⟨_, rfl⟩
  refine ⟨h, ?_, ?_⟩
  · intro hn u
    obtain ⟨f', h⟩ := h u
    have e : unsynchronise false (frame22 id w) = frame22 id w := (C06_unchanged_iff_partial _).2 hn
    refine ⟨f', ?_⟩
    rw [e] at h ⊢
    simpa using h
  · intro h'
    obtain ⟨f1, h1⟩ := h true
    obtain ⟨f2, h2⟩ := h' true
    rw [h1] at h2
    simp only [if_true, Res.ok.injEq, Prod.mk.injEq] at h2
    exact (C06_unchanged_iff_partial _).1 h2.1.symm

example : NeedsStuffing (frame22 (mkId3 'T' 'P' '1') [1, 0xff, 0xfe, 0x48, 0]) :=
  ⟨[0x54, 0x50, 0x31, 0, 0, 5, 1], 0xfe, [0x48, 0], rfl, by decide⟩

/-- **C26** as claimed, for ID3v2.2 tags: the header marks the tag as unsynchronised exactly if
that was asked for. -/
def C26_tag_claim : Prop := ∀ (t t' : Tag22) (u : Bool) (b : Bytes) (n : Nat), t.write u = .ok (b, n, t') →
  ∃ fl sz, IsHeader b 2 0 fl sz ∧ (fl &&& 0x80 ≠ 0 ↔ u = true)

theorem C26_tag_refuted : ¬ C26_tag_claim := by
  intro h
  obtain ⟨fl, sz, ⟨s0, s1, s2, s3, rest, h1, -⟩, h2⟩ := h ⟨some true, some false, some 0, []⟩ _ false _ _ rfl
  simp only [List.nil_append, List.cons_append, List.cons.injEq, List.append_nil] at h1
  obtain ⟨-, -, -, -, -, h1, -⟩ := h1
  rw [← h1] at h2
  revert h2
  decide

/-- **C26** (partial) The mark is set if it was asked for or if the tag has it already. -/
theorem C26_tag_partial (t t' : Tag22) (u : Bool) (b : Bytes) (n : Nat) (h : t.write u = .ok (b, n, t')) :
    ∃ fl sz, IsHeader b 2 0 fl sz ∧ (fl &&& 0x80 ≠ 0 ↔ (t.unsync = some true ∨ u = true)) := by
  have h' := h
  unfold Tag22.write Tag22.flags Tag22.size at h'
  rw [Res.bind_eq_ok] at h'
  obtain ⟨fl, h1, h2⟩ := h'
  rw [Res.bind_eq_ok] at h1
  obtain ⟨c, h1, -⟩ := h1
  have hc : t.compression = some c := by
    unfold Tag22.use at h1
    split at h1
    · cases h1; assumption
    · cases h1
  simp only at h2
  rw [Res.bind_eq_ok] at h2
  obtain ⟨⟨sz, t1⟩, h3, -⟩ := h2
  rw [Res.bind_eq_ok] at h3
  obtain ⟨pad, h3, h4⟩ := h3
  have hp : t.padding = some pad := by
    unfold Tag22.use at h3
    split at h3
    · cases h3; assumption
    · cases h3
  rw [framesSize_eq, Res.bind_eq_ok] at h4
  obtain ⟨⟨m, fs⟩, h4, -⟩ := h4
  rw [Res.bind_eq_ok] at h4
  obtain ⟨⟨b1, fs'⟩, hw, -⟩ := h4
  rw [(write_eq t u c pad b1 fs' hc hp hw).2, Res.bind_eq_ok] at h
  obtain ⟨hdr, h5, h6⟩ := h
  by_cases hs : pad + b1.length < 2 ^ 28
  · obtain ⟨hdr', h7, -, h9⟩ := writeHeader_spec (wflags t c u) _ hs
    rw [h5] at h7
    cases h7
    simp only [Res.ok.injEq, Prod.mk.injEq] at h6
    refine ⟨wflags t c u, pad + b1.length, ?_, wflags_unsync t c u⟩
    rw [← h6.1, List.append_assoc]
    exact h9 _
  · unfold Tag22.writeHeader at h5
    rw [(C01_sync_safe_encode_decode _).2 (by omega)] at h5
    cases h5

/-! ### C27 -/

/-- **C27** as claimed, for ID3v2.2: a tag made from scratch or read, and then filled with frames, can be
written unless it is too large, and `write` emits `10 + size` bytes with that size in the header. -/
def C27_v22_claim : Prop := ∀ (cbpad : Nat) (fexp u : Bool) (fs : List Frame22), (∀ f ∈ fs, f.body.serialize.safe) →
  ({ Tag22.scratch cbpad fexp with frames := fs }.write u).safe

/-- A tag made from scratch has neither its padding nor its compression flag initialised. -/
theorem C27_v22_refuted : ¬ C27_v22_claim := by
  intro h
  have := h 16 false false [] (by simp)
  revert this
  decide

/-- **C27** (partial: ID3v2.2, tags that have been read) Whenever a tag can be written, the number of bytes
written is the number returned and is 10 more than `size(unsync)`, which is also the size in the header. It can be
written whenever its size can be computed, it is below 2^28 bytes and its flags are initialised; at 2^28
bytes or more it is refused. -/
theorem C27_v22_partial (t : Tag22) (u : Bool) :
    (∀ b n t', t.write u = .ok (b, n, t') →
      b.length = n ∧ ∃ sz fl, t.size u = .ok (sz, t') ∧ n = 10 + sz ∧ IsHeader b 2 0 fl sz) ∧
    (∀ sz t' c, t.size u = .ok (sz, t') → t.compression = some c →
      (sz < 2 ^ 28 → ∃ b n, t.write u = .ok (b, n, t')) ∧
      (2 ^ 28 ≤ sz → t.write u = .throw .invalidArgument)) := by
  have key : ∀ sz t' c, t.size u = .ok (sz, t') → t.compression = some c →
      ∃ pad b1 fs', t.padding = some pad ∧ Tag22.framesWrite u t.frames = .ok (b1, fs') ∧ sz = pad + b1.length ∧
        t' = { t with frames := fs' } := by
    intro sz t' c hs hc
    unfold Tag22.size at hs
    rw [Res.bind_eq_ok] at hs
    obtain ⟨pad, h3, h4⟩ := hs
    have hp : t.padding = some pad := by
      unfold Tag22.use at h3
      split at h3
      · cases h3; assumption
      · cases h3
    rw [framesSize_eq, Res.bind_eq_ok] at h4
    obtain ⟨⟨m, fs⟩, h4, h5⟩ := h4
    rw [Res.bind_eq_ok] at h4
    obtain ⟨⟨b1, fs'⟩, hw, h6⟩ := h4
    cases h6
    cases h5
    exact ⟨pad, b1, _, hp, hw, rfl, rfl⟩
  refine ⟨?_, ?_⟩
  · intro b n t' h
    have h' := h
    unfold Tag22.write Tag22.flags at h'
    rw [Res.bind_eq_ok] at h'
    obtain ⟨fl, h1, h2⟩ := h'
    rw [Res.bind_eq_ok] at h1
    obtain ⟨c, h1, -⟩ := h1
    have hc : t.compression = some c := by
      unfold Tag22.use at h1
      split at h1
      · cases h1; assumption
      · cases h1
    simp only at h2
    rw [Res.bind_eq_ok] at h2
    obtain ⟨⟨sz, t1⟩, h3, -⟩ := h2
    obtain ⟨pad, b1, fs', hp, hw, rfl, rfl⟩ := key sz t1 c h3 hc
    rw [(write_eq t u c pad b1 fs' hc hp hw).2, Res.bind_eq_ok] at h
    obtain ⟨hdr, h5, h6⟩ := h
    by_cases hs : pad + b1.length < 2 ^ 28
    · obtain ⟨hdr', h7, h8, h9⟩ := writeHeader_spec (wflags t c u) _ hs
      rw [h5] at h7
      cases h7
      simp only [Res.ok.injEq, Prod.mk.injEq] at h6
      obtain ⟨rfl, rfl, rfl⟩ := h6
      refine ⟨by simp [h8]; omega, _, wflags t c u, h3, by omega, ?_⟩
      rw [List.append_assoc]
      exact h9 _
    · unfold Tag22.writeHeader at h5
      rw [(C01_sync_safe_encode_decode _).2 (by omega)] at h5
      cases h5
  · intro sz t' c hs hc
    obtain ⟨pad, b1, fs', hp, hw, rfl, rfl⟩ := key sz t' c hs hc
    rw [(write_eq t u c pad b1 fs' hc hp hw).2]
    constructor
    · intro hlt
      obtain ⟨hdr', h7, h8, h9⟩ := writeHeader_spec (wflags t c u) _ hlt
      rw [h7]
      exact ⟨_, _, rfl⟩
    · intro hge
      unfold Tag22.writeHeader
      rw [(C01_sync_safe_encode_decode _).2 (by omega)]
      rfl

example : (tag1.write false).bind (fun r => .ok (r.1, r.2.1)) =
    .ok ([0x49, 0x44, 0x33, 2, 0, 0, 0, 0, 0, 22, 0x54, 0x54, 0x32, 0, 0, 3, 0, 0x48, 0x69,
      0x43, 0x4e, 0x54, 0, 0, 4, 0, 0, 1, 2, 0, 0, 0], 32) ∧
    (tag1.size false).bind (fun r => .ok r.1) = .ok 22 := by decide

/-! ### C28 -/

/-- **C28** as claimed: a tag is read back as it was written. -/
def C28_claim : Prop := ∀ (t t' : Tag22) (u c : Bool) (pad : Nat) (b post : Bytes) (n : Nat),
  t.compression = some c → t.padding = some pad →
  (∀ f ∈ t.frames, f.dirty = true ∧ WFBody .v2 (kind22 f.id) f.body ∧ f.id ≠ ⟨0, 0, 0⟩) →
  t.write u = .ok (b, n, t') →
  ∃ t2 s, maybeReadId3v2 Tag22.read (fun _ => SM.throw .other) (fun _ => SM.throw .other)
      ⟨b ++ post, 0, IoBits.none, IoBits.none⟩ = (.ok (some t2), s) ∧
    t2.frames.map (fun f => (f.id, f.body)) = t.frames.map fun f => (f.id, f.body)

/-- A title in UCS-2 does not survive: it is written unsynchronised but not marked as such. -/
theorem C28_refuted : ¬ C28_claim := by
  intro h
  obtain ⟨t2, s, h1, h2⟩ := h ⟨some false, some false, some 0, [tp1]⟩ _ false false 0 _ [] _ rfl rfl
    (by intro f hf; simp only [List.mem_singleton] at hf; subst hf; exact ⟨rfl, trivial, by decide⟩) rfl
  have e : (maybeReadId3v2 Tag22.read (fun _ => SM.throw .other) (fun _ => SM.throw .other)
      ⟨[0x49, 0x44, 0x33, 2, 0, 0, 0, 0, 0, 12, 0x54, 0x50, 0x31, 0, 0, 5, 1, 0xff, 0, 0xfe, 0x48, 0] ++ [], 0,
        IoBits.none, IoBits.none⟩).1.bind (fun o => .ok (o.map fun t => t.frames.map fun f => (f.id, f.body))) =
      .ok (some [(mkId3 'T' 'P' '1', .text 1 [0xff, 0, 0xfe, 0x48])]) := by decide +kernel
  have h1' := congrArg (fun r : Res (Option Tag22) × IStream => r.1.bind fun o =>
    (.ok (o.map fun t => t.frames.map fun f => (f.id, f.body)) : Res _)) h1
  have h3 := h1'.symm.trans e
  simp only [Res.ok_bind, Option.map_some, h2, Res.ok.injEq, Option.some.injEq] at h3
  revert h3
  decide

/-- What is written, for a tag that can be stored. -/
theorem storable_bytes (t : Tag22) (u : Bool) (w : Frame22 → Bytes) (c : Bool) (pad : Nat) (h : Storable t u w c pad) :
    ∃ b fs', Tag22.framesWrite u t.frames = .ok (b, fs') ∧
      Tag22.parseBuf (decide (wflags t c u &&& 0x80 ≠ 0)) (b ++ List.replicate pad 0) =
        .ok (t.frames.map fun f => Frame22.new f.id f.body, pad) := by
  obtain ⟨fs', hw, -⟩ := framesWrite_current u w t.frames fun f hf => ⟨(h.frames f hf).1, (h.frames f hf).2.2.2.2⟩
  refine ⟨_, fs', hw, ?_⟩
  have hp := parseBuf_of (decide (wflags t c u &&& 0x80 ≠ 0))
    ((t.frames.map fun f => if u then frame22 f.id (w f) else unsynchronise false (frame22 f.id (w f))).flatten ++
      List.replicate pad 0)
    (frames22 (t.frames.map fun f => (f.id, w f)) ++ List.replicate pad 0)
    (t.frames.map fun f => (f.id, w f, f.body)) pad
    (by
      intro g hg
      simp only [List.mem_map] at hg
      obtain ⟨f, hf, rfl⟩ := hg
      obtain ⟨h1, h2, h3, h4, h5⟩ := h.frames f hf
      refine ⟨h3, h4, h5, fun post => ?_⟩
      obtain ⟨w', e, -, hrt⟩ := body_rt .v2 _ _ h2
      rw [h1.1] at e
      cases e
      exact hrt post)
    (by simp [List.map_map, Function.comp_def])
    (by
      rcases h.stuffing with hn | ⟨hu, ha, hl⟩
      · have e : (t.frames.map fun f => if u then frame22 f.id (w f) else unsynchronise false (frame22 f.id (w f))).flatten =
            frames22 (t.frames.map fun f => (f.id, w f)) := by
          simp only [frames22, List.map_map, Function.comp_def]
          congr 1
          apply List.map_congr_left
          intro f hf
          cases u with
          | true => rfl
          | false =>
            simp only [Bool.false_eq_true, if_false]
            apply (C06_unchanged_iff_partial _).2
            intro hp
            apply hn
            apply hasPair_append_left
            obtain ⟨a, b, e⟩ := List.append_of_mem hf
            rw [e]
            simp only [frames22, List.map_append, List.map_cons, List.flatten_append, List.flatten_cons, List.map_map,
              Function.comp_def]
            exact hasPair_append_right (hasPair_append_left hp)
        rw [e, rs_of_noPair _ hn]
        simp
      · have hf : wflags t c u &&& 0x80 ≠ 0 := (wflags_unsync t c u).2 (Or.inl hu)
        subst ha
        simp only [hf, decide_true, if_true, Bool.false_eq_true, if_false, ne_eq, not_false_eq_true]
        have : ∀ fs : List Frame22, (∀ f ∈ fs, (w f).getLast? ≠ some 0xff ∧ w f ≠ []) →
            rs false ((fs.map fun f => unsynchronise false (frame22 f.id (w f))).flatten ++ List.replicate pad 0) =
              frames22 (fs.map fun f => (f.id, w f)) ++ List.replicate pad 0 := by
          intro fs hfs
          induction fs with
          | nil => simp [frames22, rs_zeros]
          | cons f fs ih =>
            have h1 := hfs f (by simp)
            have hlast : (frame22 f.id (w f)).getLast? ≠ some 0xff := by
              unfold frame22
              rw [List.getLast?_append]
              cases e : (w f).getLast? with
              | none => exact absurd (List.getLast?_eq_none_iff.1 e) h1.2
              | some x =>
                rw [e] at h1
                simpa using h1.1
            simp only [List.map_cons, List.flatten_cons, List.append_assoc, frames22]
            rw [rs_unsync_append _ _ hlast, ih fun g hg => hfs g (by simp [hg])]
            simp [frames22]
        exact this t.frames fun f hf => ⟨hl f hf, (h.frames f hf).2.2.2.1⟩)
  rw [hp]
  simp [List.map_map, Function.comp_def]

/-- **C28** (partial) A tag that meets the conditions of `Storable`, and whose size is below 2^28 bytes, can be
written and, wherever the bytes are put, is read back with the same frames in the same order, the same
padding and the same compression flag; the reader stops at the end of the tag. Missing: frames in which an FF is
followed by 00 or by E0 or more (unless the tag is marked as unsynchronised and written with `unsync` false), and empty
payloads. -/
theorem C28_partial (t : Tag22) (u : Bool) (w : Frame22 → Bytes) (c : Bool) (pad : Nat) (h : Storable t u w c pad)
    (sz : Nat) (t1 : Tag22) (hsz : t.size u = .ok (sz, t1)) (hlt : sz < 2 ^ 28) :
    ∃ b n t', t.write u = .ok (b, n, t') ∧
      ∀ (mk3 mk4 : Id3v2Info → SM Tag22) (pre post : Bytes) (m : IoBits), ∃ t2,
        maybeReadId3v2 Tag22.read mk3 mk4 ⟨pre ++ b ++ post, pre.length, m, IoBits.none⟩ =
          (.ok (some t2), ⟨pre ++ b ++ post, (pre ++ b).length, m, IoBits.none⟩) ∧
        t2.frames.map (fun f => (f.id, f.body)) = t.frames.map (fun f => (f.id, f.body)) ∧
        t2.padding = some pad ∧ t2.compression = some c := by
  obtain ⟨b, fs', hw, hp⟩ := storable_bytes t u w c pad h
  obtain ⟨h1, h2⟩ := write_eq t u c pad b fs' h.comp h.padding hw
  rw [h1] at hsz
  cases hsz
  obtain ⟨hdr, h3, h4, h5⟩ := writeHeader_spec (wflags t c u) _ hlt
  rw [h3] at h2
  simp only [Res.ok_bind] at h2
  refine ⟨_, _, _, h2, fun mk3 mk4 pre post m => ?_⟩
  have h5' : ∀ rest, IsHeader (hdr ++ rest) 2 0 (wflags t c u) (b ++ List.replicate pad 0).length := by
    intro rest
    have := h5 rest
    rw [List.length_append, List.length_replicate, Nat.add_comm]
    exact this
  have hr := maybeRead_tag mk3 mk4 pre hdr (b ++ List.replicate pad 0) post (wflags t c u) m h4 h5' _ hp
  rw [show hdr ++ b ++ List.replicate pad 0 = hdr ++ (b ++ List.replicate pad 0) by simp]
  refine ⟨_, hr, ?_, rfl, ?_⟩
  · simp [List.map_map, Function.comp_def, Frame22.new]
  · simp only
    have := wflags_compression t c u
    cases c <;> simp at this ⊢ <;> assumption

theorem tag1_storable (u : Bool) : ∃ w, Storable tag1 u w false 3 := by
  refine ⟨fun f => match f.body with | .text a t => a :: t | .pcnt x => x | _ => [], rfl, rfl, ?_, Or.inl ?_⟩
  · intro f hf
    simp only [tag1, List.mem_cons, List.not_mem_nil, or_false] at hf
    rcases hf with rfl | rfl
    · exact ⟨⟨rfl, Or.inl rfl⟩, trivial, by decide, by decide, by decide⟩
    · exact ⟨⟨rfl, Or.inl rfl⟩, trivial, by decide, by decide, by decide⟩
  · rw [NeedsStuffing, ← growth_eq_zero_iff]
    decide

/-- Tags as bytes, each of which is read as the tag `t` wherever it is. -/
def ReadsAs (mk2 mk3 mk4 : Id3v2Info → SM α) (b : Bytes) (t : α) : Prop := ∀ (pre post : Bytes) (m : IoBits),
  maybeReadId3v2 mk2 mk3 mk4 ⟨pre ++ b ++ post, pre.length, m, IoBits.none⟩ =
    (.ok (some t), ⟨pre ++ b ++ post, (pre ++ b).length, m, IoBits.none⟩)

/-- **C28** Reading all the tags at the beginning of a file: `read_all_id3v2` gives exactly the tags that were
written one after the other, and leaves the stream where the audio begins. -/
theorem C28_read_all (mk2 mk3 mk4 : Id3v2Info → SM α) (ts : List (Bytes × α)) (audio : Bytes) (fuel : Nat)
    (h : ∀ t ∈ ts, ReadsAs mk2 mk3 mk4 t.1 t.2) (ha : ∀ v r f n, ¬ IsHeader audio v r f n) (hf : ts.length < fuel)
    (pre : Bytes) (m : IoBits) :
    readAllId3v2 mk2 mk3 mk4 fuel ⟨pre ++ (ts.map (·.1)).flatten ++ audio, pre.length, m, IoBits.none⟩ =
      (.ok (some (ts.map (·.2))),
        ⟨pre ++ (ts.map (·.1)).flatten ++ audio, (pre ++ (ts.map (·.1)).flatten).length, m, IoBits.none⟩) := by
  induction ts generalizing pre fuel with
  | nil =>
    obtain ⟨fuel, rfl⟩ : ∃ k, fuel = k + 1 := ⟨fuel - 1, by simp at hf; omega⟩
    unfold readAllId3v2 maybeReadId3v2
    obtain ⟨o, h1, h2⟩ := lookingAt_spec (pre ++ audio) pre.length m false
    have : o = none := by
      cases o with
      | none => rfl
      | some x =>
        have := (h2 x.version x.revision x.flags x.size).1 rfl
        rw [List.drop_left] at this
        exact absurd this (ha _ _ _ _)
    subst this
    simp only [List.map_nil, List.flatten_nil, SM.bind_apply, h1, SM.pure_apply', List.append_nil, Option.isSome_none,
      Bool.false_and, Bool.false_eq_true, if_false]
  | cons t ts ih =>
    obtain ⟨fuel, rfl⟩ : ∃ k, fuel = k + 1 := ⟨fuel - 1, by simp at hf; omega⟩
    have h1 := h t (by simp) pre ((ts.map (·.1)).flatten ++ audio) m
    have h2 := ih fuel (fun x hx => h x (by simp [hx])) (by simp at hf; omega) (pre ++ t.1)
    simp only [List.map_cons, List.flatten_cons]
    rw [show pre ++ (t.1 ++ (ts.map (·.1)).flatten) ++ audio = pre ++ t.1 ++ ((ts.map (·.1)).flatten ++ audio) by simp]
    rw [show pre ++ t.1 ++ (ts.map (·.1)).flatten ++ audio = pre ++ t.1 ++ ((ts.map (·.1)).flatten ++ audio) by simp] at h2
    unfold readAllId3v2
    simp only [SM.bind_apply, h1, h2, SM.pure_apply']
    simp

/-- The premise of `C28_read_all` is what `C28_partial` provides. -/
example : ∃ b t2, ReadsAs Tag22.read (fun _ => SM.throw .other) (fun _ => SM.throw .other) b t2 ∧ b.length = 32 := by
  obtain ⟨w, hs⟩ := tag1_storable false
  obtain ⟨b, fs', hw, hp⟩ := storable_bytes tag1 false w false 3 hs
  obtain ⟨h1, h2⟩ := write_eq tag1 false false 3 b fs' rfl rfl hw
  have hb : b.length = 19 := by
    have : (tag1.size false).bind (fun r => .ok r.1) = .ok 22 := by decide
    rw [h1] at this
    simp only [Res.ok_bind, Res.ok.injEq] at this
    omega
  obtain ⟨hdr, h3, h4, h5⟩ := writeHeader_spec (wflags tag1 false false) (3 + b.length) (by omega)
  refine ⟨hdr ++ (b ++ List.replicate 3 0), _, fun pre post m => maybeRead_tag _ _ pre hdr _ post _ m h4 ?_ _ hp, by
    simp [h4, hb]⟩
  intro rest
  have := h5 rest
  rw [List.length_append, List.length_replicate, Nat.add_comm]
  exact this

/-! ### C09 -/

/-- **C09** as claimed: by index one gets what one gets by reading in sequence. -/
def C09_claim : Prop := ∀ (ts : List (Bytes × Tag22)) (audio : Bytes) (idx : Nat) (t : Bytes × Tag22),
  (∀ t ∈ ts, ReadsAs Tag22.read (fun _ => SM.throw .other) (fun _ => SM.throw .other) t.1 t.2) →
  ts[idx]? = some t →
  (readId3v2 Tag22.read (fun _ => SM.throw .other) (fun _ => SM.throw .other) idx
    ⟨(ts.map (·.1)).flatten ++ audio, 0, IoBits.none, IoBits.none⟩).1 = .ok t.2

/-- The tag of one frame that the header of `rd0` announces. -/
def rd0 : Bytes := [0x49, 0x44, 0x33, 2, 0, 0, 0, 0, 0, 9, 0x54, 0x54, 0x32, 0, 0, 3, 0, 0x48, 0x69]

theorem rd0_reads : ReadsAs Tag22.read (fun _ => SM.throw .other) (fun _ => SM.throw .other) rd0
    ⟨some false, some false, some 0, [tt2]⟩ := by
  intro pre post m
  have h4 : ([0x49, 0x44, 0x33, 2, 0, 0, 0, 0, 0, 9] : Bytes).length = 10 := rfl
  have := maybeRead_tag (fun _ => SM.throw .other) (fun _ => SM.throw .other) pre
    [0x49, 0x44, 0x33, 2, 0, 0, 0, 0, 0, 9] [0x54, 0x54, 0x32, 0, 0, 3, 0, 0x48, 0x69] post 0 m h4
    (fun rest => ⟨0, 0, 0, 9, rest, rfl, by decide, by decide, by decide, by decide⟩) ([tt2], 0) (by decide +kernel)
  exact this

/-- The header is taken for the first frame. -/
theorem C09_refuted : ¬ C09_claim := by
  intro h
  have := h [(rd0, _)] [] 0 _ (by intro t ht; simp only [List.mem_singleton] at ht; subst ht; exact rd0_reads) rfl
  revert this
  decide +kernel

/-- **C09** (partial) The stream is positioned at the right tag, the constructor for that tag's version is
called with that tag's header, and an index beyond the last tag is refused with `std::invalid_argument`. Missing: the
constructor expects the stream to be behind the header, but it is in front of it. -/
theorem C09_position_partial (mk2 mk3 mk4 : Id3v2Info → SM α) (ts : List (Id3v2Info × Bytes)) (audio : Bytes) (m : IoBits)
    (h : ∀ t ∈ ts, (∀ rest, IsHeader (t.2 ++ rest) t.1.version t.1.revision t.1.flags t.1.size) ∧
      t.2.length = t.1.size + 10) (pre : Bytes) :
    (∀ idx t, ts[idx]? = some t →
      readId3v2 mk2 mk3 mk4 idx ⟨pre ++ (ts.map (·.2)).flatten ++ audio, pre.length, m, IoBits.none⟩ =
        mkId3v2 mk2 mk3 mk4 t.1 ⟨pre ++ (ts.map (·.2)).flatten ++ audio,
          (pre ++ ((ts.take idx).map (·.2)).flatten).length, m, IoBits.none⟩) ∧
    (∀ idx, ts.length ≤ idx → (∀ v r f n, ¬ IsHeader audio v r f n) →
      (readId3v2 mk2 mk3 mk4 idx ⟨pre ++ (ts.map (·.2)).flatten ++ audio, pre.length, m, IoBits.none⟩).1 =
        .throw .invalidArgument) := by
  have hno : ∀ (pre : Bytes), (∀ v r f n, ¬ IsHeader audio v r f n) →
      lookingAtId3v2 true ⟨pre ++ audio, pre.length, m, IoBits.none⟩ =
        (.ok none, ⟨pre ++ audio, pre.length, m, IoBits.none⟩) := by
    intro pre ha
    obtain ⟨o, h1, h2⟩ := lookingAt_spec (pre ++ audio) pre.length m true
    have : o = none := by
      cases o with
      | none => rfl
      | some x =>
        have := (h2 x.version x.revision x.flags x.size).1 rfl
        rw [List.drop_left] at this
        exact absurd this (ha _ _ _ _)
    subst this
    simpa using h1
  have hyes : ∀ (pre rest : Bytes) (t : Id3v2Info × Bytes), t ∈ ts →
      lookingAtId3v2 true ⟨pre ++ (t.2 ++ rest), pre.length, m, IoBits.none⟩ =
        (.ok (some t.1), ⟨pre ++ (t.2 ++ rest), pre.length, m, IoBits.none⟩) := by
    intro pre rest t ht
    obtain ⟨o, h1, h2⟩ := lookingAt_spec (pre ++ (t.2 ++ rest)) pre.length m true
    have : o = some t.1 := by
      have := (h2 t.1.version t.1.revision t.1.flags t.1.size).2
      rw [List.drop_left] at this
      exact this ((h t ht).1 rest)
    subst this
    simpa using h1
  have hlen : ∀ t ∈ ts, t.2.length = t.1.size + 10 := fun t ht => (h t ht).2
  clear h
  have hseek : ∀ (pre rest : Bytes) (t : Id3v2Info × Bytes) (hl : t.2.length = t.1.size + 10),
      SM.seekCur ((t.1.size : Int) + 10) ⟨pre ++ (t.2 ++ rest), pre.length, m, IoBits.none⟩ =
        (.ok (), ⟨pre ++ (t.2 ++ rest), (pre ++ t.2).length, m, IoBits.none⟩) := by
    intro pre rest t hl
    unfold SM.seekCur
    rw [SM.seekAbs_good _ _ _ (by simp only; omega)]
    congr 2
    rw [List.length_append, hl]
    simp only
    omega
  induction ts generalizing pre with
  | nil =>
    refine ⟨by simp, fun idx _ ha => ?_⟩
    simp only [List.map_nil, List.flatten_nil, List.append_nil]
    cases idx with
    | zero => simp only [readId3v2, skipId3v2, SM.bind_apply, SM.pure_apply', hno pre ha, SM.throw_apply]
    | succ n => simp only [readId3v2, skipId3v2, SM.bind_apply, hno pre ha, SM.throw_apply]
  | cons t ts ih =>
    have ih := ih (pre ++ t.2) (fun pre rest t ht => hyes pre rest t (by simp [ht])) (fun t ht => hlen t (by simp [ht]))
    have e : pre ++ ((t :: ts).map (·.2)).flatten ++ audio = pre ++ (t.2 ++ ((ts.map (·.2)).flatten ++ audio)) := by simp
    have e' : pre ++ t.2 ++ (ts.map (·.2)).flatten ++ audio = pre ++ (t.2 ++ ((ts.map (·.2)).flatten ++ audio)) := by simp
    rw [e'] at ih
    rw [e]
    have h1 := hyes pre ((ts.map (·.2)).flatten ++ audio) t (by simp)
    have h2 := hseek pre ((ts.map (·.2)).flatten ++ audio) t (hlen t (by simp))
    have hs : ∀ n, readId3v2 mk2 mk3 mk4 (n + 1) ⟨pre ++ (t.2 ++ ((ts.map (·.2)).flatten ++ audio)), pre.length, m, IoBits.none⟩ =
        readId3v2 mk2 mk3 mk4 n ⟨pre ++ (t.2 ++ ((ts.map (·.2)).flatten ++ audio)), (pre ++ t.2).length, m, IoBits.none⟩ := by
      intro n
      simp only [readId3v2, skipId3v2, SM.bind_apply, h1, h2]
    constructor
    · intro idx x hx
      cases idx with
      | zero =>
        simp only [List.getElem?_cons_zero, Option.some.injEq] at hx
        subst hx
        simp only [readId3v2, skipId3v2, SM.bind_apply, SM.pure_apply', h1, List.take_zero, List.map_nil, List.flatten_nil,
          List.append_nil]
      | succ n =>
        rw [hs, ih.1 n x (by simpa using hx)]
        simp
    · intro idx hi ha
      cases idx with
      | zero => simp at hi
      | succ n =>
        rw [hs]
        exact ih.2 n (by simp at hi; omega) ha

example : (readId3v2 Tag22.read (fun _ => SM.throw .other) (fun _ => SM.throw .other) 2
    ⟨rd0 ++ rd0 ++ [0xff, 0xfb], 0, IoBits.none, IoBits.none⟩).1 = .throw .invalidArgument := by decide +kernel

/-- **C09** A tag of a version other than 2.2, 2.3 and 2.4 is refused with `unknown_version`; of these, each
goes to its own class. -/
theorem C09_version (mk2 mk3 mk4 : Id3v2Info → SM α) (s : IStream) (hs : s.Good) (h : Id3v2Info)
    (hh : IsHeader (s.data.drop s.pos) h.version h.revision h.flags h.size) :
    ∃ mk : Id3v2Info → SM α,
      (∀ r s', mk h { s with pos := s.pos + 10 } = (.ok r, s') → maybeReadId3v2 mk2 mk3 mk4 s = (.ok (some r), s')) ∧
      (∀ e s', mk h { s with pos := s.pos + 10 } = (.throw e, s') → maybeReadId3v2 mk2 mk3 mk4 s = (.throw e, s')) ∧
      (h.version = 2 → mk h = mk2 h) ∧ (h.version = 3 → mk h = mk3 h) ∧ (h.version = 4 → mk h = mk4 h) ∧
      (h.version ≠ 2 → h.version ≠ 3 → h.version ≠ 4 → mk h = SM.throw .unknownVersion) := by
  obtain ⟨d, p, m, st⟩ := s
  simp only [IStream.Good] at hs
  subst hs
  obtain ⟨o, h1, h2⟩ := lookingAt_spec d p m false
  have ho := (h2 _ _ _ _).2 hh
  subst ho
  refine ⟨mkId3v2 mk2 mk3 mk4, ?_, ?_, ?_⟩
  · intro r s' hr
    unfold maybeReadId3v2
    rw [SM.bind_apply, h1]
    simp only [Option.isSome_some, Bool.not_false, Bool.and_true, if_true, SM.bind_apply]
    rw [hr]
    rfl
  · intro r s' hr
    unfold maybeReadId3v2
    rw [SM.bind_apply, h1]
    simp only [Option.isSome_some, Bool.not_false, Bool.and_true, if_true, SM.bind_apply]
    rw [hr]
  · unfold mkId3v2
    refine ⟨fun e => by simp [e], fun e => by simp [e], fun e => by simp [e], fun e1 e2 e3 => by simp [e1, e2, e3]⟩

example : (maybeReadId3v2 Tag22.read (fun _ => SM.throw .other) (fun _ => SM.throw .other)
    ⟨[0x49, 0x44, 0x33, 5, 0, 0, 0, 0, 0, 0], 0, IoBits.none, IoBits.none⟩).1 = .throw .unknownVersion := by decide +kernel

/-! ### C29 -/

/-- **C29** as claimed, for ID3v2.2: whatever the bytes, reading the tag yields a tag or throws. -/
def C29_v22_claim : Prop := ∀ (unsync : Bool) (buf : Bytes), (Tag22.parseBuf unsync buf).safe

/-- A tag of a single byte other than zero: the identifier is read from beyond the end. -/
theorem C29_v22_refuted : ¬ C29_v22_claim := by
  intro h
  have := h false [0x54]
  revert this
  decide +kernel

/-- So it does for a tag with room for all it reads itself: a frame announcing six bytes where there is
one. -/
theorem C29_v22_refuted_overrun : ¬ (Tag22.parseBuf false [0x57, 0x41, 0x46, 0, 0, 6, 1]).safe := by decide +kernel

/-- And a text frame of no bytes. -/
theorem C29_v22_refuted_empty : ¬ (Tag22.parseBuf false [0x54, 0x54, 0x32, 0, 0, 0, 0]).safe := by decide +kernel

/-- A sequence of frames, each with a nonempty payload on which the constructor for its kind of
frame does not misbehave, whatever comes after it. -/
def FramesOk (fs : List (Id3 × Bytes)) : Prop := ∀ f ∈ fs, f.1 ≠ ⟨0, 0, 0⟩ ∧ f.2 ≠ [] ∧ f.2.length < 2 ^ 24 ∧
  ∀ post, (Body.parse .v2 (kind22 f.1) (f.2 ++ post) f.2.length).safe

theorem parseFrames_prefix_safe (fs : List (Id3 × Bytes)) (rest : Bytes) (cb : Nat) (h : FramesOk fs) (pre : Bytes)
    (hcb : (pre ++ frames22 fs).length ≤ cb)
    (hr : (Tag22.parseFrames (pre ++ frames22 fs ++ rest) cb (pre ++ frames22 fs).length).safe) :
    (Tag22.parseFrames (pre ++ frames22 fs ++ rest) cb pre.length).safe := by
  induction fs generalizing pre with
  | nil => simpa [frames22] using hr
  | cons f fs ih =>
    obtain ⟨h1, h2, h3, h4⟩ := h f (by simp)
    have e : frames22 (f :: fs) = frame22 f.1 f.2 ++ frames22 fs := by simp [frames22]
    have hf : (frame22 f.1 f.2).length = 6 + f.2.length := by simp [frame22, be24]; omega
    rw [e] at hr hcb ⊢
    have a2 := ih (fun g hg => h g (by simp [hg])) (pre ++ frame22 f.1 f.2)
    rw [show pre ++ frame22 f.1 f.2 ++ frames22 fs ++ rest = pre ++ frame22 f.1 f.2 ++ (frames22 fs ++ rest) by simp,
      show pre ++ frame22 f.1 f.2 ++ frames22 fs = pre ++ (frame22 f.1 f.2 ++ frames22 fs) by simp] at a2
    rw [show pre ++ (frame22 f.1 f.2 ++ frames22 fs) ++ rest = pre ++ frame22 f.1 f.2 ++ (frames22 fs ++ rest) by simp] at hr ⊢
    have a3 := a2 hcb hr
    have hcb' : pre.length + 6 + f.2.length ≤ cb := by
      simp only [List.length_append, hf] at hcb; omega
    have hs := h4 (frames22 fs ++ rest)
    rw [parseFrames_step pre f.1 f.2 (frames22 fs ++ rest) cb h1 h2 h3 hcb']
    revert hs a3
    cases Body.parse .v2 (kind22 f.1) (f.2 ++ (frames22 fs ++ rest)) f.2.length with
    | ok body =>
      simp only [Res.ok_bind]
      cases Tag22.parseFrames (pre ++ frame22 f.1 f.2 ++ (frames22 fs ++ rest)) cb (pre ++ frame22 f.1 f.2).length with
      | ok r => intro _ _; trivial
      | throw e => intro _ _; trivial
      | ub e => intro h _; exact h.elim
    | throw e => intro _ _; trivial
    | ub e => intro _ h; exact h.elim

/-- What may follow the frames in a tag of `cb` bytes: nothing, padding (after three zeros anything goes), or something
that does not fit: a few bytes, or a frame larger than the tag. -/
def TailOk (cb : Nat) (rest : Bytes) : Prop :=
  (∀ b ∈ rest, b = 0) ∨
  (∃ t, rest = 0 :: 0 :: 0 :: t) ∨
  (3 ≤ rest.length ∧ rest.length < 7) ∨
  (∃ a b c h m l t, rest = a :: b :: c :: h :: m :: l :: t ∧ t ≠ [] ∧ cb ≤ be [h, m, l])

theorem parseFrames_tail (pre rest post : Bytes) (h : TailOk (pre ++ rest).length rest) :
    (Tag22.parseFrames (pre ++ rest ++ post) (pre ++ rest).length pre.length).safe := by
  have hcell : ∀ k b, rest[k]? = some b → rd (pre ++ rest ++ post) (pre.length + k) = .ok b := by
    intro k b hk
    rw [List.append_assoc]
    apply rd_append
    have : k < rest.length := (List.getElem?_eq_some_iff.1 hk).1
    rw [List.getElem?_append_left this, hk]
  have hcell0 : ∀ b, rest[0]? = some b → rd (pre ++ rest ++ post) pre.length = .ok b := fun b hb => hcell 0 b hb
  rcases h with h | ⟨t, rfl⟩ | ⟨h1, h2⟩ | ⟨a, b, c, hh, m, l, t, rfl, ht, hbe⟩
  · have e : rest = List.replicate rest.length 0 := List.eq_replicate_iff.2 ⟨rfl, h⟩
    have := parseFrames_pad pre rest.length post
    rw [← e] at this
    rw [List.length_append, this]
    trivial
  · rw [parseFrames_unfold, if_pos (by simp), hcell0 0 rfl, hcell 1 0 rfl, hcell 2 0 rfl]
    simp only [Res.ok_bind]
    rw [if_neg (by simp), if_neg (by simp), if_pos trivial]
    trivial
  · match rest, h1 with
    | a :: b :: c :: t, _ =>
      simp only [List.length_cons] at h2
      rw [parseFrames_unfold, if_pos (by simp), hcell0 a rfl, hcell 1 b rfl, hcell 2 c rfl]
      simp only [Res.ok_bind]
      rw [if_neg (by simp), if_neg (by simp)]
      split
      · trivial
      · rw [if_pos (by simp; omega)]
        trivial
  · have ht1 : 1 ≤ t.length := List.length_pos_iff.2 ht
    rw [parseFrames_unfold, if_pos (by simp), hcell0 a rfl, hcell 1 b rfl, hcell 2 c rfl]
    simp only [Res.ok_bind]
    rw [if_neg (by simp), if_neg (by simp)]
    split
    · trivial
    · rw [if_neg (by simp; omega), hcell 3 hh rfl, hcell 4 m rfl, hcell 5 l rfl]
      simp only [Res.ok_bind]
      rw [if_pos (by rw [(C02_big_endian_decoders hh m l 0).1]; exact hbe)]
      trivial

/-- **C29** (partial) A tag that, after resynchronisation if it is marked as unsynchronised, is a sequence of frames, each
complete and acceptable to the constructor for its kind of frame, followed by nothing, by padding or by
something that is too short or announces too much, is read without reading outside its buffer. Missing: one or two
nonzero bytes at the end, a frame that announces more than is left but less than the whole tag, and the payloads
on which the constructors misbehave (see C21 and C48). -/
theorem C29_v22_partial (unsync : Bool) (buf : Bytes) (fs : List (Id3 × Bytes)) (rest : Bytes) (hf : FramesOk fs)
    (hb : (if unsync then dropStuffing buf else buf) = frames22 fs ++ rest)
    (hr : TailOk (frames22 fs ++ rest).length rest) : (Tag22.parseBuf unsync buf).safe := by
  have key : ∀ post, (Tag22.parseFrames (frames22 fs ++ rest ++ post) (frames22 fs ++ rest).length 0).safe := by
    intro post
    have h1 := parseFrames_tail (frames22 fs) rest post hr
    have h2 := parseFrames_prefix_safe fs (rest ++ post) (frames22 fs ++ rest).length hf [] (by simp)
      (by simpa using h1)
    simpa using h2
  unfold Tag22.parseBuf
  cases unsync with
  | false =>
    simp only [Bool.false_eq_true, if_false] at hb ⊢
    have := key []
    rw [List.append_nil] at this
    rw [hb]
    exact this
  | true =>
    simp only [if_true] at hb ⊢
    obtain ⟨p', n, h1, h2, h3, h4⟩ := C05_resynchronise_exact buf
    rw [h1]
    simp only [Res.ok_bind]
    rw [hb] at h4
    have hp : p' = frames22 fs ++ rest ++ p'.drop n := by rw [← h4, List.take_append_drop]
    have hn : n = (frames22 fs ++ rest).length := by
      have := congrArg List.length h4
      rw [List.length_take] at this
      omega
    rw [hp, hn]
    have := key (p'.drop n)
    rwa [hn] at this

/-- **C29** (partial) For identifiers without a class of their own, unique file identifiers, text and play
counters every nonempty payload is acceptable. -/
theorem C29_bodies_partial (ver : Ver) (k : Kind) (w post : Bytes) (hw : w ≠ [])
    (hk : k = .unknown ∨ k = .ufid ∨ k = .text ∨ k = .pcnt) :
    (Body.parse ver k (w ++ post) w.length).safe := by
  rcases hk with rfl | rfl | rfl | rfl
  · simp [Body.parse, slice_prefix]
  · simp [Body.parse, slice_prefix]
  · simp only [Body.parse, slice_prefix, Res.ok_bind]
    cases w with
    | nil => exact absurd rfl hw
    | cons a t => trivial
  · simp [Body.parse, slice_prefix]

example : FramesOk [(mkId3 'T' 'T' '2', [1, 0xff, 0xfe, 0]), (mkId3 'W' 'A' 'F', [1])] := by
  intro f hf
  simp only [List.mem_cons, List.not_mem_nil, or_false] at hf
  rcases hf with rfl | rfl
  · exact ⟨by decide, by decide, by decide, fun post => C29_bodies_partial _ _ _ _ (by simp) (by decide)⟩
  · exact ⟨by decide, by decide, by decide, fun post => C29_bodies_partial _ _ _ _ (by simp) (by decide)⟩
example : TailOk 100 [0x54, 0x54, 0x32, 1, 0, 0, 0x41] := Or.inr (Or.inr (Or.inr ⟨_, _, _, _, _, _, _, rfl, by decide, by decide⟩))

/-! ### C52 -/

/-- **C52** (ID3v2.2) Exactly the identifiers that id3v2-00 lists as text information frames (4.2.1) become text frames; and
COM, CNT, POP, UFI, TXX and the library's own XTG, and nothing else, become the frames they stand for. -/
theorem C52_v22 (id : Id3) :
    (kind22 id = .text ↔ [id.a, id.b, id.c] ∈ textFrames22.map ascii) ∧
    (kind22 id = .comm ↔ [id.a, id.b, id.c] = ascii "COM") ∧
    (kind22 id = .pcnt ↔ [id.a, id.b, id.c] = ascii "CNT") ∧
    (kind22 id = .popm ↔ [id.a, id.b, id.c] = ascii "POP") ∧
    (kind22 id = .ufid ↔ [id.a, id.b, id.c] = ascii "UFI") ∧
    (kind22 id = .txxx ↔ [id.a, id.b, id.c] = ascii "TXX") ∧
    (kind22 id = .xtag ↔ [id.a, id.b, id.c] = ascii "XTG") ∧
    kind22 id ≠ .encr ∧ kind22 id ≠ .priv := by
  have inj : ∀ x y z, ([id.a, id.b, id.c] = [x, y, z]) ↔ id = ⟨x, y, z⟩ := by
    intro x y z
    obtain ⟨a, b, c⟩ := id
    simp
  have ht : [id.a, id.b, id.c] ∈ textFrames22.map ascii ↔ id ∈ textIds22 := by
    have h1 : ∀ x ∈ textIds22, [x.a, x.b, x.c] ∈ textFrames22.map ascii := by decide
    have h2 : ∀ y ∈ textFrames22.map ascii, ∃ x ∈ textIds22, [x.a, x.b, x.c] = y := by decide
    constructor
    · intro h
      obtain ⟨x, hx, e⟩ := h2 _ h
      have := (inj x.a x.b x.c).1 e.symm
      rw [this]
      exact hx
    · exact h1 id
  have e1 : ascii "COM" = [(mkId3 'C' 'O' 'M').a, (mkId3 'C' 'O' 'M').b, (mkId3 'C' 'O' 'M').c] := by decide
  have e2 : ascii "CNT" = [(mkId3 'C' 'N' 'T').a, (mkId3 'C' 'N' 'T').b, (mkId3 'C' 'N' 'T').c] := by decide
  have e3 : ascii "POP" = [(mkId3 'P' 'O' 'P').a, (mkId3 'P' 'O' 'P').b, (mkId3 'P' 'O' 'P').c] := by decide
  have e4 : ascii "UFI" = [(mkId3 'U' 'F' 'I').a, (mkId3 'U' 'F' 'I').b, (mkId3 'U' 'F' 'I').c] := by decide
  have e5 : ascii "TXX" = [(mkId3 'T' 'X' 'X').a, (mkId3 'T' 'X' 'X').b, (mkId3 'T' 'X' 'X').c] := by decide
  have e6 : ascii "XTG" = [(mkId3 'X' 'T' 'G').a, (mkId3 'X' 'T' 'G').b, (mkId3 'X' 'T' 'G').c] := by decide
  rw [ht, e1, e2, e3, e4, e5, e6]
  simp only [inj]
  unfold kind22
  by_cases h1 : id = mkId3 'C' 'O' 'M'
  · subst h1; decide
  by_cases h2 : id = mkId3 'C' 'N' 'T'
  · subst h2; decide
  by_cases h3 : id = mkId3 'P' 'O' 'P'
  · subst h3; decide
  by_cases h4 : id = mkId3 'U' 'F' 'I'
  · subst h4; decide
  by_cases h5 : id = mkId3 'T' 'X' 'X'
  · subst h5; decide
  by_cases h6 : id = mkId3 'X' 'T' 'G'
  · subst h6; decide
  by_cases h7 : id ∈ textIds22 <;> simp [h1, h2, h3, h4, h5, h6, h7]

example : kind22 ⟨0x54, 0x41, 0x4c⟩ = .text ∧ kind22 ⟨0x54, 0x58, 0x58⟩ = .txxx ∧ kind22 ⟨0x50, 0x49, 0x43⟩ = .unknown := by decide

/-! ### C46 -/

/-- **C46** as claimed, for ID3v2.2: when reading a tag fails, the caller's get pointer and exception
mask are as they were. -/
def C46_v22_claim : Prop := ∀ (h : Id3v2Info) (s s' : IStream) (e : Exc), s.Good → Tag22.read h s = (.throw e, s') →
  s'.pos = s.pos ∧ s'.mask = s.mask

/-- A tag that announces more bytes than there are: `seekg` throws in the handler, since it is called on the failed
stream, and the mask stays as the library set it. -/
theorem C46_v22_refuted : ¬ C46_v22_claim := by
  intro h
  have := h ⟨2, 0, 0, 5⟩ ⟨[1, 2, 3], 0, IoBits.none, IoBits.none⟩ _ .streamFailure rfl rfl
  revert this
  decide

/-- **C46** (partial) It holds for every failure other than running out of bytes, and the stream is
good again. -/
theorem C46_v22_partial (h : Id3v2Info) (s s' : IStream) (e : Exc) (hs : s.Good) (hl : s.pos + h.size ≤ s.data.length)
    (he : Tag22.read h s = (.throw e, s')) : s' = s := by
  obtain ⟨d, p, m, st⟩ := s
  simp only [IStream.Good] at hs
  subst hs
  unfold Tag22.read at he
  simp only [SM.bind_apply] at he
  rw [parse_full _ _ _ _ _ hl] at he
  revert he
  cases Tag22.parseBuf (decide (h.flags &&& 0x80 ≠ 0)) ((d.drop p).take h.size) with
  | ok r => intro he; simp at he
  | throw e' => intro he; simp only [Prod.mk.injEq] at he; exact he.2.symm
  | ub e' => intro he; simp at he

example : Tag22.read ⟨2, 0, 0, 5⟩ ⟨[9, 0x54, 0x54, 0x32, 0, 0, 7], 1, IoBits.failBad, IoBits.none⟩ =
    (.throw .invalidTag, ⟨[9, 0x54, 0x54, 0x32, 0, 0, 7], 1, IoBits.failBad, IoBits.none⟩) := by decide +kernel

end Scribbu.Props
