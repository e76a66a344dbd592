import Verif.Proofs.Frame23

/-! Properties C24, C25, C26, C30 and C52: ID3v2.3 and ID3v2.4 frames. -/

namespace Scribbu.Props
open Scribbu Scribbu.Spec

/-- A zlib for examples: "compresses" by doing nothing. -/
def zId : Zlib := ⟨fun b => .ok b, fun b n => if b.length = n then .ok b else .throw .other, fun c b => (c + b.length) % 2 ^ 32⟩

/-- A title. -/
def tit2 : Frame4 := .new (mkId4 'T' 'I' 'T' '2') (.text 0 [0x48, 0x69]) false false false false none none false none
/-- An artist in UCS-2 with a byte order mark. -/
def tpe1 : Frame4 := .new (mkId4 'T' 'P' 'E' '1') (.text 1 [0xff, 0xfe, 0x48, 0x00]) false false false false none none false none
/-- A link, with all three attributes of the first flag byte. -/
def woar : Frame4 := .new (mkId4 'W' 'O' 'A' 'R') (.unknown [1, 2]) true true true false none none false none

/-- Reading a sequence of frames that fills a buffer. -/
def readFrames (z : Zlib) (ver : Ver) (b : Bytes) : Res (List Frame4) := framePass z ver [] b b.length 0

/-! ### C24 -/

/-- **C24** as claimed, for a version: what is written as a frame is read as one frame with the same
attributes. -/
def C24_claim (ver : Ver) : Prop := ∀ (z : Zlib) (f f' : Frame4) (w b : Bytes), kind4 f.id = .unknown → f.id.a ≠ 0 →
  f.body = .unknown w → w ≠ [] → f.dirty = true → f.write z ver false = .ok (b, f') →
  ∃ g, readFrames z ver b = .ok [g] ∧ g.tap = f.tap ∧ g.fap = f.fap ∧ g.ro = f.ro ∧ g.compressed = f.compressed ∧
    g.enc = f.enc ∧ g.gid = f.gid

/-- A read-only frame is not read-only any more. -/
theorem C24_v23_refuted : ¬ C24_claim .v3 := by
  intro h
  obtain ⟨g, h1, -, -, h2, -⟩ := h zId { woar with tap := false, fap := false } _ _ _ (by decide) (by decide) rfl (by decide) rfl rfl
  have e : (readFrames zId .v3 [0x57, 0x4f, 0x41, 0x52, 0, 0, 0, 2, 16, 0, 1, 2]).bind (fun l => .ok (l.map Frame4.ro)) =
      .ok [false] := by decide +kernel
  have h3 := congrArg (fun r : Res (List Frame4) => r.bind fun l => (.ok (l.map Frame4.ro) : Res _)) h1
  have h4 := h3.symm.trans e
  simp only [Res.ok_bind, List.map_cons, List.map_nil, h2] at h4
  revert h4
  decide

theorem C24_v24_refuted : ¬ C24_claim .v4 := by
  intro h
  obtain ⟨g, h1, -, -, h2, -⟩ := h zId { woar with tap := false, fap := false } _ _ _ (by decide) (by decide) rfl (by decide) rfl rfl
  have e : (readFrames zId .v4 [0x57, 0x4f, 0x41, 0x52, 0, 0, 0, 2, 8, 0, 1, 2]).bind (fun l => .ok (l.map Frame4.ro)) =
      .ok [false] := by decide +kernel
  have h3 := congrArg (fun r : Res (List Frame4) => r.bind fun l => (.ok (l.map Frame4.ro) : Res _)) h1
  have h4 := h3.symm.trans e
  simp only [Res.ok_bind, List.map_cons, List.map_nil, h2] at h4
  revert h4
  decide

/-- The bytes of a frame, when they are computed anew. -/
def freshBytes (z : Zlib) (ver : Ver) (f : Frame4) : Res Bytes :=
  f.body.serialize.bind fun w =>
  if f.enc.isSome then .throw .logicError
  else
    (if f.compressed then z.compress w else .ok w).bind fun p =>
    (Frame4.header ver f p.length w.length).bind fun h => .ok (h ++ p)

theorem fresh_eq (z : Zlib) (ver : Ver) (f : Frame4) (l : Bool) (hd : f.dirty = true) :
    f.fresh z ver l = (freshBytes z ver f).bind fun p => .ok { f with
      dirty := false, plain := p, unsynced := unsynchronise l p,
      nfs := countSyncs true p + (if l ∧ p.getLast? = some 0xff then 1 else 0) } := by
  unfold Frame4.fresh freshBytes
  rw [if_pos hd]
  cases f.body.serialize with
  | throw e => rfl
  | ub e => rfl
  | ok w =>
    simp only [Res.ok_bind]
    by_cases he : f.enc.isSome = true
    · rw [if_pos he, if_pos he]; rfl
    · rw [if_neg he, if_neg he]
      cases (if f.compressed = true then z.compress w else .ok w) with
      | throw e => rfl
      | ub e => rfl
      | ok p =>
        simp only [Res.ok_bind]
        cases Frame4.header ver f p.length w.length <;> rfl

theorem freshBytes_copy (z : Zlib) (ver : Ver) (f : Frame4) : freshBytes z ver f.copy = freshBytes z ver f := by
  have : ∀ a b, Frame4.header ver f.copy a b = Frame4.header ver f a b := by intro a b; cases ver <;> rfl
  unfold freshBytes
  simp only [this]
  rfl

theorem write_dirty (z : Zlib) (ver : Ver) (f : Frame4) (u : Bool) (hd : f.dirty = true) :
    ∃ g : Bytes → Frame4, f.write z ver u =
      (freshBytes z ver f).bind fun p => .ok (if u then unsynchronise false p else p, g p) := by
  refine ⟨fun p => { f with
      dirty := false, plain := p, unsynced := unsynchronise false p,
      nfs := countSyncs true p + (if false ∧ p.getLast? = some 0xff then 1 else 0) }, ?_⟩
  unfold Frame4.write
  rw [fresh_eq z ver f false hd]
  cases freshBytes z ver f <;> rfl

/-- What a plain frame is written as. -/
theorem write_plain (z : Zlib) (ver : Ver) (f : Frame4) (w : Bytes) (u : Bool) (hp : PlainFrame f) (hd : f.dirty = true)
    (hw : f.body.serialize = .ok w) (hs : f.body.size = w.length) (hl : w.length < maxSize4 ver) :
    ∃ f', f.write z ver u =
      .ok (if u then unsynchronise false ((rawOf ver f w).bytes ver) else (rawOf ver f w).bytes ver, f') := by
  unfold Frame4.write
  rw [fresh4_dirty z ver f false w hd hw hp hs hl]
  exact ⟨_, rfl⟩

/-- **C24** (partial) A frame that is neither compressed nor encrypted nor grouped is read back with its
identifier and its content, but with the three attributes shifted by one: what was "tag alter
preservation" becomes "file alter preservation", that becomes "read only", and "read only" is lost. So the
attributes survive exactly if none of them is set. -/
theorem C24_shift_partial (z : Zlib) (ver : Ver) (f : Frame4) (hp : PlainFrame f) (hd : f.dirty = true)
    (hb : WFBody ver (kind4 f.id) f.body) (hid : f.id ≠ ⟨0, 0, 0, 0⟩) (hs0 : f.body.size ≠ 0) (hs : f.body.size < maxSize4 ver) :
    ∃ b f' g, f.write z ver false = .ok (b, f') ∧ readFrames z ver b = .ok [g] ∧
      g.id = f.id ∧ g.body = f.body ∧ g.tap = false ∧ g.fap = f.tap ∧ g.ro = f.fap ∧
      g.compressed = false ∧ g.enc = none ∧ g.gid = none ∧
      ((g.tap = f.tap ∧ g.fap = f.fap ∧ g.ro = f.ro) ↔ (f.tap = false ∧ f.fap = false ∧ f.ro = false)) := by
  obtain ⟨w, h1, h2, h3⟩ := body_rt ver _ _ hb
  obtain ⟨f', hw⟩ := write_plain z ver f w false hp hd h1 h2.symm (by omega)
  have hne : f.id ≠ mkId4 'E' 'N' 'C' 'R' := by
    intro e
    rw [e] at hb
    have : kind4 (mkId4 'E' 'N' 'C' 'R') = .encr := by decide
    rw [this] at hb
    cases f.body <;> exact hb
  have hlay := framePass_layout z ver [rawOf ver f w] 0 [] [] [] (by
    intro r hr
    simp only [List.mem_singleton] at hr
    subst hr
    refine ⟨hid, by rintro rfl; simp at h2; omega, by show w.length < _; omega, hne, ?_, h3⟩
    cases ver <;> simp [rawOf, uw])
  simp only [rawBytes, List.map_cons, List.map_nil, List.flatten_cons, List.flatten_nil, List.append_nil, List.nil_append,
    List.replicate_zero, List.length_nil, Nat.zero_add, Nat.add_zero] at hlay
  refine ⟨_, f', _, hw, hlay, rfl, rfl, ?_⟩
  have ha := attrs_f0w ver f
  simp only [Raw.frame, rawOf, Frame4.new, ha]
  refine ⟨trivial, trivial, trivial, trivial, trivial, trivial, ?_⟩
  cases f.tap <;> cases f.fap <;> cases f.ro <;> decide

example : PlainFrame woar ∧ woar.dirty = true ∧ WFBody .v3 (kind4 woar.id) woar.body ∧ woar.id ≠ ⟨0, 0, 0, 0⟩ ∧
    woar.body.size < maxSize4 .v3 := ⟨by unfold PlainFrame; decide, rfl, trivial, by decide, by decide⟩
example : readFrames zId .v4 [0x57, 0x4f, 0x41, 0x52, 0, 0, 0, 2, 56, 0, 1, 2] =
    .ok [{ woar with tap := false }] := by decide +kernel

/-- **C24** (partial: the other side) In ID3v2.3 every compressed frame that the library has written is
unreadable to it, since the bit for compression is taken for that for encryption. -/
theorem C24_v23_compressed_partial (z : Zlib) (f : Frame4) (buf c : Bytes) (hd : f.dirty = true) (hc : f.compressed = true)
    (he : f.enc = none) (hid : f.id ≠ ⟨0, 0, 0, 0⟩) (hb : f.body.serialize = .ok buf) (hz : z.compress buf = .ok c)
    (hl : c.length + 5 < 2 ^ 32) :
    ∃ b f', f.write z .v3 false = .ok (b, f') ∧ readFrames z .v3 b = .throw .logicError := by
  let f0 := Frame4.bit f.tap 64 ||| Frame4.bit f.fap 32 ||| Frame4.bit f.ro 16
  let f1 : Byte := 64 ||| Frame4.bit f.gid.isSome 16
  let w := Frame4.hostOrder4 buf.length ++ Frame4.optByte f.gid ++ c
  have hwl : w.length = c.length + 4 + (if f.gid.isSome then 1 else 0) := by
    show (Frame4.hostOrder4 buf.length ++ Frame4.optByte f.gid ++ c).length = _
    cases f.gid <;> simp [Frame4.hostOrder4, Frame4.optByte] <;> omega
  have hwlt : w.length < 2 ^ 32 := by rw [hwl]; split <;> omega
  have hw : ∃ f', f.write z .v3 false = .ok (frame4 .v3 f.id f0 f1 w, f') := by
    obtain ⟨g, hg⟩ := write_dirty z .v3 f false hd
    have hf : freshBytes z .v3 f = .ok (frame4 .v3 f.id f0 f1 w) := by
      unfold freshBytes Frame4.header Frame4.header23
      rw [hb]
      simp only [Res.ok_bind]
      rw [if_neg (by rw [he]; decide), hc]
      simp only [if_true, hz, Res.ok_bind]
      rw [if_neg (by omega)]
      simp only [Res.ok_bind, he, Option.isSome_none, Bool.false_eq_true, if_false, be32_of, Nat.add_zero, Res.ok.injEq]
      unfold frame4
      rw [hwl]
      simp only [size4, Frame4.optByte, List.append_nil, List.append_assoc, f0, f1, w, Frame4.bit, if_true]
      simp
    rw [hg, hf]
    exact ⟨_, rfl⟩
  obtain ⟨f', hw⟩ := hw
  refine ⟨_, f', hw, ?_⟩
  have hst := framePass_step z .v3 [] [] f.id f0 f1 w [] (frame4 .v3 f.id f0 f1 w).length hid
    (by
      intro e
      rw [e] at hwl
      simp at hwl
      omega) hwlt
    (by rw [frame4_length]; simp)
  obtain ⟨s0, s1, s2, s3, -, -, -, -, -, -, -, -, -, r8, r9, r10⟩ := frame4_rd [] .v3 f.id f0 f1 w [] hwlt
  simp only [List.nil_append, List.append_nil, List.length_nil] at hst r8 r9 r10
  unfold readFrames
  rw [hst]
  unfold readFrame4
  rw [r8, r9]
  simp only [Res.ok_bind]
  have hx : ∃ m q, extras .v3 (frame4 .v3 f.id f0 f1 w) (0 + 10) f1 = .ok ⟨none, false, some m, false, none, q⟩ := by
    have hr : ∃ m, rd (frame4 .v3 f.id f0 f1 w) (0 + 10) = .ok m := by
      have : 0 + 10 < (frame4 .v3 f.id f0 f1 w).length := by rw [frame4_length, hwl]; omega
      exact ⟨_, by unfold rd; rw [List.getElem?_eq_getElem this]⟩
    obtain ⟨m, hm⟩ := hr
    have e1 : decide (f1 &&& 0x80 ≠ 0) = false := by
      show decide ((64 ||| Frame4.bit f.gid.isSome 16) &&& 0x80 ≠ 0) = false
      cases f.gid.isSome <;> decide
    have e2 : decide (f1 &&& 0x40 ≠ 0) = true := by
      show decide ((64 ||| Frame4.bit f.gid.isSome 16) &&& 0x40 ≠ 0) = true
      cases f.gid.isSome <;> decide
    have e3 : decide (f1 &&& 0x20 ≠ 0) = false := by
      show decide ((64 ||| Frame4.bit f.gid.isSome 16) &&& 0x20 ≠ 0) = false
      cases f.gid.isSome <;> decide
    unfold extras
    simp only [optSize, optRead, e1, e2, e3, Bool.false_eq_true, if_false, if_true, Res.ok_bind, hm, Option.isSome_none]
    exact ⟨_, _, rfl⟩
  obtain ⟨m, q, hx⟩ := hx
  rw [hx]
  rfl

example : zId.compress [0, 0x48] = .ok [0, 0x48] ∧ (Body.text 0 [0x48]).serialize = .ok [0, 0x48] := by decide

/-- **C24** (partial: the other side) In ID3v2.3 the group of a frame is not read as such: it becomes the
first byte of the payload. -/
theorem C24_v23_grouped_partial (z : Zlib) (f : Frame4) (w : Bytes) (x : Byte) (hd : f.dirty = true) (hc : f.compressed = false)
    (he : f.enc = none) (hg : f.gid = some x) (hk : kind4 f.id = .unknown) (hid : f.id ≠ ⟨0, 0, 0, 0⟩)
    (hb : f.body = .unknown w) (hl : w.length + 1 < 2 ^ 32) :
    ∃ b f' g, f.write z .v3 false = .ok (b, f') ∧ readFrames z .v3 b = .ok [g] ∧ g.gid = none ∧
      g.body = .unknown (x :: w) := by
  let f0 := Frame4.bit f.tap 64 ||| Frame4.bit f.fap 32 ||| Frame4.bit f.ro 16
  have hw : ∃ f', f.write z .v3 false = .ok (frame4 .v3 f.id f0 16 (x :: w), f') := by
    obtain ⟨g, hg'⟩ := write_dirty z .v3 f false hd
    have hf : freshBytes z .v3 f = .ok (frame4 .v3 f.id f0 16 (x :: w)) := by
      unfold freshBytes Frame4.header Frame4.header23
      rw [hb]
      simp only [Body.serialize, Res.ok_bind]
      rw [if_neg (by rw [he]; decide), hc]
      simp only [Bool.false_eq_true, if_false, Res.ok_bind]
      rw [if_neg (by omega)]
      simp only [Res.ok_bind, he, hg, Option.isSome_none, Option.isSome_some, Bool.false_eq_true, if_false, if_true, be32_of,
        Nat.add_zero, Res.ok.injEq]
      simp [frame4, size4, Frame4.optByte, f0, Frame4.bit]
    rw [hg', hf]
    exact ⟨_, rfl⟩
  obtain ⟨f', hw⟩ := hw
  have hlt : (x :: w).length < maxSize4 .v3 := by simpa [maxSize4] using hl
  have hst := framePass_step z .v3 [] [] f.id f0 16 (x :: w) [] (frame4 .v3 f.id f0 16 (x :: w)).length hid (by simp) hlt
    (by rw [frame4_length]; simp)
  obtain ⟨s0, s1, s2, s3, -, -, -, -, -, -, -, -, -, r8, r9, r10⟩ := frame4_rd [] .v3 f.id f0 16 (x :: w) [] hlt
  simp only [List.nil_append, List.append_nil, List.length_nil] at hst r8 r9 r10
  have hend : framePass z .v3 [] (frame4 .v3 f.id f0 16 (x :: w)) (frame4 .v3 f.id f0 16 (x :: w)).length
      (frame4 .v3 f.id f0 16 (x :: w)).length = .ok [] := by
    rw [framePass_unfold, if_neg (by omega)]
  have hx : extras .v3 (frame4 .v3 f.id f0 16 (x :: w)) (0 + 10) 16 = .ok ⟨none, false, none, false, none, 0⟩ := by
    have e1 : decide ((16 : Byte) &&& 0x80 ≠ 0) = false := by decide
    have e2 : decide ((16 : Byte) &&& 0x40 ≠ 0) = false := by decide
    have e3 : decide ((16 : Byte) &&& 0x20 ≠ 0) = false := by decide
    simp only [extras, optSize, optRead, e1, e2, e3, Bool.false_eq_true, if_false, Res.ok_bind, Option.isSome_none, Nat.sub_self]
  have hsl := slice_prefix (x :: w) []
  rw [List.append_nil] at hsl
  have hread : readFrame4 z .v3 [] (frame4 .v3 f.id f0 16 (x :: w)) 0 (x :: w).length f.id =
      .ok (Frame4.new f.id (.unknown (x :: w)) (attrs .v3 f0).1 (attrs .v3 f0).2.1 (attrs .v3 f0).2.2 false none none false none) := by
    unfold readFrame4
    rw [r8, r9]
    simp only [Res.ok_bind, hx, payloadOf, Nat.add_zero, r10, Nat.sub_zero, hk]
    rw [if_neg (by omega)]
    simp only [Res.ok_bind, Body.parse, hsl]
  rw [hread, hend] at hst
  refine ⟨_, f', _, hw, hst, rfl, rfl⟩

example : ({ woar with gid := some 7 }.write zId .v3 false).bind (fun r => readFrames zId .v3 r.1) =
    .ok [{ woar with tap := false, body := .unknown [7, 1, 2] }] := by decide +kernel

/-- In ID3v2.4 the same happens, and as the size of the frame does not count the group, what follows the
frame is read one byte too early; here that byte is the last one in the tag, and reading goes on beyond it. -/
theorem C24_v24_grouped_refuted : ¬ (({ woar with gid := some 7 }.write zId .v4 false).bind fun r => readFrames zId .v4 r.1).safe := by
  decide +kernel

/-- **C24** (partial) An encrypted frame cannot be written at all. -/
theorem C24_encrypted_partial (z : Zlib) (ver : Ver) (f : Frame4) (u : Bool) (w : Bytes) (hd : f.dirty = true)
    (he : f.enc.isSome = true) (hw : f.body.serialize = .ok w) : f.write z ver u = .throw .logicError := by
  unfold Frame4.write Frame4.fresh
  rw [if_pos hd, hw]
  simp only [Res.ok_bind]
  rw [if_pos he]
  rfl

example : ({ woar with enc := some 7 }.write zId .v3 false).bind (fun r => .ok r.1) = .throw .logicError := by decide

/-! ### C25 -/

/-- What can be done with a frame. -/
inductive Frame4Op
  | edit (g : Body → Body)
  | size (unsync last : Bool)
  | needsUnsync (last : Bool)
  | write (unsync : Bool)
  | crc (c : Nat)

/-- Is this an operation other than an edit? -/
def Frame4Op.looks : Frame4Op → Prop
  | .edit _ => False
  | _ => True

/-- Doing it. -/
def Frame4Op.run (z : Zlib) (ver : Ver) (f : Frame4) : Frame4Op → Res Frame4
  | .edit g => .ok (f.edit g)
  | .size u l => (f.serializedSize z ver u l).bind fun r => .ok r.2
  | .needsUnsync l => (f.needsUnsync z ver l).bind fun r => .ok r.2
  | .write u => (f.write z ver u).bind fun r => .ok r.2
  | .crc c => (f.crc z ver c).bind fun r => .ok r.2

/-- A history. -/
def runOps4 (z : Zlib) (ver : Ver) : List Frame4Op → Frame4 → Res Frame4
  | [], f => .ok f
  | op :: ops, f => (op.run z ver f).bind (runOps4 z ver ops)

/-- **C25** as claimed, for ID3v2.3 and ID3v2.4: after any history, what a frame writes is what a new frame with
the same content writes. -/
def C25_v234_claim (ver : Ver) : Prop := ∀ (z : Zlib) (f g g' : Frame4) (ops : List Frame4Op) (b : Bytes), f.dirty = true →
  runOps4 z ver ops f = .ok g → g.write z ver false = .ok (b, g') → ∃ h, g.copy.write z ver false = .ok (b, h)

/-- A frame whose text is changed after its size was asked for writes the old text. -/
theorem C25_v23_refuted : ¬ C25_v234_claim .v3 := by
  intro h
  obtain ⟨g, h⟩ := h zId tit2 _ _ [.size false false, .edit fun _ => .text 0 [0x49]] _ rfl rfl rfl
  have := congrArg (fun r : Res (Bytes × Frame4) => r.bind fun x => .ok x.1) h
  revert this
  simp only [Res.ok_bind]
  decide

theorem C25_v24_refuted : ¬ C25_v234_claim .v4 := by
  intro h
  obtain ⟨g, h⟩ := h zId tit2 _ _ [.size false false, .edit fun _ => .text 0 [0x49]] _ rfl rfl rfl
  have := congrArg (fun r : Res (Bytes × Frame4) => r.bind fun x => .ok x.1) h
  revert this
  simp only [Res.ok_bind]
  decide

theorem runOps4_append (z : Zlib) (ver : Ver) (a b : List Frame4Op) (f : Frame4) :
    runOps4 z ver (a ++ b) f = (runOps4 z ver a f).bind (runOps4 z ver b) := by
  induction a generalizing f with
  | nil => rfl
  | cons op ops ih =>
    simp only [List.cons_append, runOps4]
    cases op.run z ver f with
    | ok g => simp only [Res.ok_bind, ih]
    | throw e => rfl
    | ub e => rfl

theorem runOps4_edits (z : Zlib) (ver : Ver) (gs : List (Body → Body)) (f : Frame4) :
    runOps4 z ver (gs.map .edit) f = .ok { f with body := gs.foldl (fun b g => g b) f.body } := by
  induction gs generalizing f with
  | nil => rfl
  | cons g gs ih =>
    simp only [List.map_cons, runOps4, Frame4Op.run, Res.ok_bind, ih]
    rfl

/-- Once clean, the copies stay. -/
theorem runOps4_clean (z : Zlib) (ver : Ver) (ops : List Frame4Op) (f : Frame4) (hd : f.dirty = false) :
    ∃ b, runOps4 z ver ops f = .ok { f with body := b } ∧ ((∀ op ∈ ops, op.looks) → b = f.body) := by
  induction ops generalizing f with
  | nil => exact ⟨f.body, rfl, fun _ => rfl⟩
  | cons op ops ih =>
    have hf : ∀ l, f.fresh z ver l = .ok f := fun l => fresh4_clean z ver l hd
    cases op with
    | edit g =>
      obtain ⟨b, h, -⟩ := ih (f.edit g) hd
      refine ⟨b, by simp only [runOps4, Frame4Op.run, Res.ok_bind, h]; rfl, fun hl => ?_⟩
      exact (hl (.edit g) (by simp)).elim
    | _ =>
      obtain ⟨b, h, hb⟩ := ih f hd
      refine ⟨b, ?_, fun hl => hb fun op hop => hl op (by simp [hop])⟩
      simp only [runOps4, Frame4Op.run, Frame4.serializedSize, Frame4.needsUnsync, Frame4.write, Frame4.crc, hf, Res.ok_bind, h]

/-- An operation other than an edit fills the caches. -/
theorem looks_fresh (z : Zlib) (ver : Ver) (f g : Frame4) (op : Frame4Op) (hl : op.looks) (h : op.run z ver f = .ok g) :
    ∃ l, f.fresh z ver l = .ok g := by
  cases op with
  | edit g => exact hl.elim
  | _ =>
    simp only [Frame4Op.run, Frame4.serializedSize, Frame4.needsUnsync, Frame4.write, Frame4.crc] at h
    rw [Res.bind_eq_ok] at h
    obtain ⟨⟨_, g'⟩, h1, h2⟩ := h
    rw [Res.bind_eq_ok] at h1
    obtain ⟨g'', h1, h3⟩ := h1
    cases h3
    cases h2
    exact ⟨_, h1⟩

/-- The plain form does not depend on the flag. -/
theorem fresh4_plain_eq (z : Zlib) (ver : Ver) (f g g' : Frame4) (l l' : Bool) (h : f.fresh z ver l = .ok g)
    (h' : f.fresh z ver l' = .ok g') : g.plain = g'.plain := by
  by_cases hd : f.dirty = true
  · rw [fresh_eq z ver f _ hd, Res.bind_eq_ok] at h h'
    obtain ⟨p, hp, h⟩ := h
    obtain ⟨p', hp', h'⟩ := h'
    rw [hp] at hp'
    cases hp'
    cases h
    cases h'
    rfl
  · rw [fresh4_clean z ver _ (by simpa using hd)] at h h'
    cases h
    cases h'
    rfl

/-- **C25** (partial: ID3v2.3 and ID3v2.4) Edits made before a frame is first measured, checksummed or written are
reflected, and go on being reflected: after any edits followed by any other operations, a frame writes what a new
frame with the same content and attributes writes. Missing: edits made later, see `C25_v234_frozen_partial`. -/
theorem C25_v234_current_partial (z : Zlib) (ver : Ver) (f g g' : Frame4) (gs : List (Body → Body)) (ops : List Frame4Op)
    (b : Bytes) (hd : f.dirty = true) (hops : ∀ op ∈ ops, op.looks)
    (hr : runOps4 z ver (gs.map .edit ++ ops) f = .ok g) (hw : g.write z ver false = .ok (b, g')) :
    g.body = gs.foldl (fun b g => g b) f.body ∧ ∃ h, g.copy.write z ver false = .ok (b, h) := by
  rw [runOps4_append, runOps4_edits] at hr
  simp only [Res.ok_bind] at hr
  generalize hf1 : ({ f with body := gs.foldl (fun b g => g b) f.body } : Frame4) = f1 at hr
  have hb1 : f1.body = gs.foldl (fun b g => g b) f.body := by rw [← hf1]
  have hd1 : f1.dirty = true := by rw [← hf1]; exact hd
  have hc1 : ∀ x : Frame4, x.dirty = true → ∀ b x', x.write z ver false = .ok (b, x') →
      ∃ h, x.copy.write z ver false = .ok (b, h) := by
    intro x hx b x' hxw
    obtain ⟨k, hk⟩ := write_dirty z ver x false hx
    obtain ⟨k', hk'⟩ := write_dirty z ver x.copy false rfl
    rw [hk, Res.bind_eq_ok] at hxw
    obtain ⟨p, hp, h⟩ := hxw
    rw [hk', freshBytes_copy, hp]
    cases h
    exact ⟨_, rfl⟩
  cases ops with
  | nil =>
    cases hr
    exact ⟨hb1, hc1 _ hd1 b g' hw⟩
  | cons op ops =>
    simp only [runOps4] at hr
    rw [Res.bind_eq_ok] at hr
    obtain ⟨f2, h2, h3⟩ := hr
    obtain ⟨l, h4⟩ := looks_fresh z ver f1 f2 op (hops op (by simp)) h2
    obtain ⟨h5, h6⟩ := fresh4_ok_clean h4
    obtain ⟨b', h7, h8⟩ := runOps4_clean z ver ops f2 h5
    have h8 := h8 fun op hop => hops op (by simp [hop])
    rw [h7] at h3
    simp only [Res.ok.injEq] at h3
    have hg : g = f2 := by rw [← h3, h8]
    subst hg
    refine ⟨by rw [copy_body h6, hb1], ?_⟩
    -- what `f1` would have written
    have hp : b = g.plain := by
      unfold Frame4.write at hw
      rw [fresh4_clean z ver false h5] at hw
      simp only [Res.ok_bind, Bool.false_eq_true, if_false, Res.ok.injEq, Prod.mk.injEq] at hw
      exact hw.1.symm
    have hff : ∃ g2, f1.fresh z ver false = .ok g2 := by
      rw [fresh_eq z ver f1 _ hd1, Res.bind_eq_ok] at h4
      obtain ⟨p, hp, -⟩ := h4
      rw [fresh_eq z ver f1 _ hd1, hp]
      exact ⟨_, rfl⟩
    obtain ⟨g2, hg2⟩ := hff
    have he : g2.plain = g.plain := fresh4_plain_eq z ver f1 g2 g false l hg2 h4
    obtain ⟨h, hh⟩ := hc1 f1 hd1 g2.plain g2 (by unfold Frame4.write; rw [hg2]; rfl)
    rw [hp, ← he]
    rw [h6]
    exact ⟨h, hh⟩

/-- **C25** (partial: ID3v2.3 and ID3v2.4) The precise behaviour otherwise: from the moment a frame is first measured,
checksummed or written on, it writes the content it had then, whatever happens to it. -/
theorem C25_v234_frozen_partial (z : Zlib) (ver : Ver) (f f1 : Frame4) (op : Frame4Op) (hop : op.looks)
    (h1 : op.run z ver f = .ok f1) (ops : List Frame4Op) (u : Bool) :
    ∃ b f2 f3, f1.write z ver u = .ok (b, f1) ∧ runOps4 z ver ops f1 = .ok f2 ∧ f2.write z ver u = .ok (b, f3) := by
  obtain ⟨l, h2⟩ := looks_fresh z ver f f1 op hop h1
  have hc := (fresh4_ok_clean h2).1
  obtain ⟨b', h3, -⟩ := runOps4_clean z ver ops f1 hc
  refine ⟨if u then f1.unsynced else f1.plain, _, { f1 with body := b' }, ?_, h3, ?_⟩
  · unfold Frame4.write
    rw [fresh4_clean z ver false hc]
    rfl
  · unfold Frame4.write
    rw [fresh4_clean z ver false (show ({ f1 with body := b' } : Frame4).dirty = false from hc)]
    rfl

example : (runOps4 zId .v3 [.edit fun _ => .text 0 [0x49], .size true true, .crc 0, .write false] tit2).bind
    (fun f => .ok (f.plain, f.dirty)) = .ok ([0x54, 0x49, 0x54, 0x32, 0, 0, 0, 2, 0, 0, 0, 0x49], false) := by decide

/-- **C25** (ID3v2.3 and ID3v2.4) At any time `serialized_size(unsync, false)` is the number of bytes `write(os, unsync)`
emits, for every frame whatever its history. -/
theorem C25_v234_size (z : Zlib) (ver : Ver) (f f' : Frame4) (u : Bool) (b : Bytes) (h : f.write z ver u = .ok (b, f')) :
    f.serializedSize z ver u false = .ok (b.length, f') ∧ f'.write z ver u = .ok (b, f') ∧
      ∀ l, f'.serializedSize z ver u l = .ok (b.length, f') := by
  unfold Frame4.write at h
  rw [Res.bind_eq_ok] at h
  obtain ⟨g, h1, h2⟩ := h
  cases h2
  have hc := fun l => fresh4_clean z ver l (fresh4_ok_clean h1).1
  simp only [Frame4.serializedSize, Frame4.write, h1, hc, Res.ok_bind, and_self, implies_true]

/-! ### C26 -/

/-- **C26** (ID3v2.3 and ID3v2.4 frames) `write` with `unsync` false emits a header and the payload, and with `unsync` true
the same unsynchronised; from the latter the former can be recovered, and it contains no false syncs. -/
theorem C26_v234_frames (z : Zlib) (ver : Ver) (f f' : Frame4) (b : Bytes) (hd : f.dirty = true)
    (h : f.write z ver false = .ok (b, f')) :
    ∃ b' f'', f.write z ver true = .ok (b', f'') ∧ dropStuffing b' = b ∧ ¬ HasFalseSync b' := by
  unfold Frame4.write at h ⊢
  rw [Res.bind_eq_ok] at h
  obtain ⟨g, h1, h2⟩ := h
  rw [h1]
  simp only [Bool.false_eq_true, if_false, Res.ok.injEq, Prod.mk.injEq] at h2
  refine ⟨g.unsynced, g, rfl, ?_⟩
  have : g.unsynced = unsynchronise false g.plain := by
    rw [fresh_eq z ver f _ hd, Res.bind_eq_ok] at h1
    obtain ⟨p, _, h1⟩ := h1
    cases h1
    rfl
  rw [this, dropStuffing_eq_rs, rs_unsync, h2.1]
  exact ⟨rfl, unsync_no_false_sync false _⟩

example : (tpe1.write zId .v3 true).bind (fun r => .ok r.1) =
    .ok [0x54, 0x50, 0x45, 0x31, 0, 0, 0, 5, 0, 0, 1, 0xff, 0, 0xfe, 0x48, 0] := by decide

/-! ### C30 -/

/-- **C30** as claimed: whatever the bytes, the search for encryption methods ends. -/
def C30_claim : Prop := ∀ (z : Zlib) (ver : Ver) (buf : Bytes) (p : Nat), ∃ n r,
  encrLoop z ver buf buf.length p n [] false = some r

/-- Having found an encrypted ENCR frame before makes no difference. -/
theorem encrPass_found (z : Zlib) (ver : Ver) (buf : Bytes) (cb p : Nat) (ms : List Byte) (found : Bool) :
    encrPass z ver buf cb p ms found =
      (encrPass z ver buf cb p ms false).bind fun r => .ok (r.1, found || r.2.1, r.2.2) := by
  induction hn : cb - p using Nat.strongRecOn generalizing p ms found with
  | ind n ih =>
    rw [encrPass_unfold, encrPass_unfold z ver buf cb p ms false]
    split
    · cases rd buf p with
      | throw e => rfl
      | ub e => rfl
      | ok b0 =>
      simp only [Res.ok_bind]
      split
      · simp only [Res.ok_bind, Bool.or_false]
      · cases rd buf (p + 1) with
        | throw e => rfl
        | ub e => rfl
        | ok b1 =>
        simp only [Res.ok_bind]
        split
        · simp only [Res.ok_bind, Bool.or_false]
        · cases rd buf (p + 2) with
          | throw e => rfl
          | ub e => rfl
          | ok b2 =>
          simp only [Res.ok_bind]
          split
          · simp only [Res.ok_bind, Bool.or_false]
          · cases rd buf (p + 3) with
            | throw e => rfl
            | ub e => rfl
            | ok b3 =>
            simp only [Res.ok_bind]
            split
            · simp only [Res.ok_bind, Bool.or_false]
            · split
              · rfl
              · cases rd buf (p + 4) with
                | throw e => rfl
                | ub e => rfl
                | ok s0 =>
                cases rd buf (p + 5) with
                | throw e => rfl
                | ub e => rfl
                | ok s1 =>
                cases rd buf (p + 6) with
                | throw e => rfl
                | ub e => rfl
                | ok s2 =>
                cases rd buf (p + 7) with
                | throw e => rfl
                | ub e => rfl
                | ok s3 =>
                simp only [Res.ok_bind]
                split
                · exact ih _ (by omega) _ _ _ rfl
                · split
                  · rfl
                  · cases encrFrame z ver buf p (frameSize4 ver s0 s1 s2 s3) ms with
                    | throw e => rfl
                    | ub e => rfl
                    | ok r =>
                      obtain ⟨ms', sk⟩ := r
                      simp only [Res.ok_bind]
                      rw [ih _ (by omega) (p + frameSize4 ver s0 s1 s2 s3 + 10) ms' (found || sk) rfl,
                        ih _ (by omega) (p + frameSize4 ver s0 s1 s2 s3 + 10) ms' (false || sk) rfl]
                      cases encrPass z ver buf cb (p + frameSize4 ver s0 s1 s2 s3 + 10) ms' false with
                      | throw e => rfl
                      | ub e => rfl
                      | ok r => simp only [Res.ok_bind, Bool.false_or, Bool.or_assoc]
    · simp only [Res.ok_bind, Bool.or_false]

/-- What handling an ENCR frame can do. -/
theorem encrFrame_cases (z : Zlib) (ver : Ver) (buf : Bytes) (p n : Nat) :
    (∃ r : Res Unit, (∀ u, r ≠ .ok u) ∧ ∀ ms, encrFrame z ver buf p n ms = r.bind fun _ => .throw .other) ∨
    (∃ m, ∀ ms, encrFrame z ver buf p n ms = if m ∈ ms then .throw .logicError else .ok (ms, true)) ∨
    (∃ m e, ∀ ms, encrFrame z ver buf p n ms = if m ∈ ms then .throw e else .ok (m :: ms, false)) := by
  have stop : ∀ {α : Type} (x : Res α), (∀ a, x ≠ .ok a) → ∃ r : Res Unit, (∀ u, r ≠ .ok u) ∧
      ∀ (β γ : Type) (k : α → Res β) (l : Unit → Res β), x.bind k = r.bind l := by
    intro α x hx
    cases x with
    | ok a => exact absurd rfl (hx a)
    | throw e => exact ⟨.throw e, by simp, fun _ _ _ _ => rfl⟩
    | ub e => exact ⟨.ub e, by simp, fun _ _ _ _ => rfl⟩
  have dec : ∀ {α : Type} (x : Res α), (∃ a, x = .ok a) ∨ ∀ a, x ≠ .ok a := by
    intro α x
    cases x with
    | ok a => exact .inl ⟨a, rfl⟩
    | throw e => exact .inr (by simp)
    | ub e => exact .inr (by simp)
  have tail : ∀ (y : Res (Bytes × Nat)) (ex : Exc) (F : List Byte → Res (List Byte × Bool)),
      (∀ ms, F ms = y.bind fun x => (slice x.1 0 x.2).bind fun b => match (Encr.parse b).method with
        | none => .ub .uninit
        | some m => if m ∈ ms then .throw ex else .ok (m :: ms, false)) →
      (∃ r : Res Unit, (∀ u, r ≠ .ok u) ∧ ∀ ms, F ms = r.bind fun _ => .throw .other) ∨
      (∃ m, ∀ ms, F ms = if m ∈ ms then .throw .logicError else .ok (ms, true)) ∨
      (∃ m e, ∀ ms, F ms = if m ∈ ms then .throw e else .ok (m :: ms, false)) := by
    intro y ex F hF
    rcases dec y with ⟨⟨mem, k⟩, h3⟩ | h3
    · rw [h3] at hF
      simp only [Res.ok_bind] at hF
      rcases dec (slice mem 0 k) with ⟨b, h4⟩ | h4
      · rw [h4] at hF
        simp only [Res.ok_bind] at hF
        cases hm : (Encr.parse b).method with
        | none => exact .inl ⟨.ub .uninit, by simp, fun ms => by rw [hF, hm]; rfl⟩
        | some m =>
          refine .inr (.inr ⟨m, ex, fun ms => ?_⟩)
          rw [hF, hm]
      · obtain ⟨r, hr, he⟩ := stop _ h4
        exact .inl ⟨r, hr, fun ms => by rw [hF]; exact he _ Unit _ _⟩
    · obtain ⟨r, hr, he⟩ := stop _ h3
      exact .inl ⟨r, hr, fun ms => by rw [hF]; exact he _ Unit _ _⟩
  unfold encrFrame
  rcases dec (rd buf (p + 9)) with ⟨f1, h1⟩ | h1
  · rw [h1]
    simp only [Res.ok_bind]
    rcases dec (extras ver buf (p + 10) f1) with ⟨x, h2⟩ | h2
    · rw [h2]
      simp only [Res.ok_bind]
      cases hx : x.enc with
      | some m => exact .inr (.inl ⟨m, fun ms => rfl⟩)
      | none =>
        simp only
        exact tail _ _ _ fun ms => rfl
    · obtain ⟨r, hr, he⟩ := stop _ h2
      exact .inl ⟨r, hr, fun ms => he _ Unit _ _⟩
  · obtain ⟨r, hr, he⟩ := stop _ h1
    exact .inl ⟨r, hr, fun ms => he _ Unit _ _⟩

/-- Methods are only ever added; and a second pass cannot succeed if the first registered something. -/
theorem encrPass_twice (z : Zlib) (ver : Ver) (buf : Bytes) (cb p : Nat) (ms ms1 : List Byte) (f1 : Bool) (pad1 : Nat)
    (h : encrPass z ver buf cb p ms false = .ok (ms1, f1, pad1)) :
    (∀ m ∈ ms, m ∈ ms1) ∧
    ∀ ms', (∀ m ∈ ms1, m ∈ ms') → ∀ r, encrPass z ver buf cb p ms' false = .ok r → ms1 = ms := by
  induction hn : cb - p using Nat.strongRecOn generalizing p ms ms1 f1 pad1 with
  | ind n ih =>
    rw [encrPass_unfold] at h
    have key : ∀ ms', encrPass z ver buf cb p ms' false = _ := fun ms' => encrPass_unfold z ver buf cb p ms' false
    split at h
    · next hp =>
      rw [Res.bind_eq_ok] at h
      obtain ⟨b0, h0, h⟩ := h
      split at h
      · cases h; exact ⟨fun _ h => h, fun _ _ _ _ => rfl⟩
      · next g1 =>
        rw [Res.bind_eq_ok] at h
        obtain ⟨b1, h1, h⟩ := h
        split at h
        · cases h; exact ⟨fun _ h => h, fun _ _ _ _ => rfl⟩
        · next g2 =>
          rw [Res.bind_eq_ok] at h
          obtain ⟨b2, h2, h⟩ := h
          split at h
          · cases h; exact ⟨fun _ h => h, fun _ _ _ _ => rfl⟩
          · next g3 =>
            rw [Res.bind_eq_ok] at h
            obtain ⟨b3, h3, h⟩ := h
            split at h
            · cases h; exact ⟨fun _ h => h, fun _ _ _ _ => rfl⟩
            · next g4 =>
              split at h
              · cases h
              · next g5 =>
                rw [Res.bind_eq_ok] at h
                obtain ⟨s0, h4, h⟩ := h
                rw [Res.bind_eq_ok] at h
                obtain ⟨s1, h5, h⟩ := h
                rw [Res.bind_eq_ok] at h
                obtain ⟨s2, h6, h⟩ := h
                rw [Res.bind_eq_ok] at h
                obtain ⟨s3, h7, h⟩ := h
                have key2 : ∀ ms', encrPass z ver buf cb p ms' false =
                    if (⟨b0, b1, b2, b3⟩ : Id4) ≠ mkId4 'E' 'N' 'C' 'R' then
                      encrPass z ver buf cb (p + frameSize4 ver s0 s1 s2 s3 + 10) ms' false
                    else if cb < p + 11 then .throw .invalidTag
                    else
                      (encrFrame z ver buf p (frameSize4 ver s0 s1 s2 s3) ms').bind fun r =>
                      encrPass z ver buf cb (p + frameSize4 ver s0 s1 s2 s3 + 10) r.1 (false || r.2) := by
                  intro ms'
                  rw [key ms', if_pos hp, h0]
                  simp only [Res.ok_bind]
                  rw [if_neg g1, h1]
                  simp only [Res.ok_bind]
                  rw [if_neg g2, h2]
                  simp only [Res.ok_bind]
                  rw [if_neg g3, h3]
                  simp only [Res.ok_bind]
                  rw [if_neg g4, if_neg g5, h4, h5, h6, h7]
                  rfl
                split at h
                · next g6 =>
                  obtain ⟨i1, i2⟩ := ih _ (by omega) _ _ _ _ _ h rfl
                  refine ⟨i1, fun ms' hs r hr => i2 ms' hs r ?_⟩
                  rw [key2, if_pos g6] at hr
                  exact hr
                · next g6 =>
                  split at h
                  · cases h
                  · next g7 =>
                    rw [Res.bind_eq_ok] at h
                    obtain ⟨⟨ms2, sk⟩, h8, h⟩ := h
                    simp only at h
                    rw [encrPass_found, Res.bind_eq_ok] at h
                    obtain ⟨⟨ms3, f3, pad3⟩, h9, h⟩ := h
                    cases h
                    obtain ⟨i1, i2⟩ := ih _ (by omega) _ _ _ _ _ h9 rfl
                    rcases encrFrame_cases z ver buf p (frameSize4 ver s0 s1 s2 s3) with ⟨r0, hr0, hr1⟩ | ⟨m, hm⟩ | ⟨m, e, hm⟩
                    · rw [hr1] at h8
                      cases r0 with
                      | ok a => exact absurd rfl (hr0 a)
                      | throw e => cases h8
                      | ub e => cases h8
                    · rw [hm] at h8
                      split at h8
                      · cases h8
                      · cases h8
                        refine ⟨i1, fun ms' hs r hr => ?_⟩
                        rw [key2, if_neg g6, if_neg g7, hm] at hr
                        split at hr
                        · cases hr
                        · simp only [Res.ok_bind] at hr
                          rw [encrPass_found, Res.bind_eq_ok] at hr
                          obtain ⟨r', hr', -⟩ := hr
                          exact i2 ms' hs r' hr'
                    · rw [hm] at h8
                      split at h8
                      · cases h8
                      · cases h8
                        refine ⟨fun x hx => i1 x (by simp [hx]), fun ms' hs r hr => ?_⟩
                        have : m ∈ ms' := hs m (i1 m (by simp))
                        rw [key2, if_neg g6, if_neg g7, hm, if_pos this] at hr
                        cases hr
    · cases h; exact ⟨fun _ h => h, fun _ _ _ _ => rfl⟩

/-- **C30** (partial) When the search for encryption methods does not end: exactly if its first pass finds an
encrypted ENCR frame and registers no method; and it has ended after two passes if it ends at all. -/
theorem C30_never_ends_iff_partial (z : Zlib) (ver : Ver) (buf : Bytes) (cb p : Nat) :
    ((∀ n, encrLoop z ver buf cb p n [] false = none) ↔ ∃ pad, encrPass z ver buf cb p [] false = .ok ([], true, pad)) ∧
    (encrLoop z ver buf cb p 2 [] false = none ↔ ∃ pad, encrPass z ver buf cb p [] false = .ok ([], true, pad)) := by
  have a : (∃ pad, encrPass z ver buf cb p [] false = .ok ([], true, pad)) → ∀ n b, encrLoop z ver buf cb p n [] b = none := by
    rintro ⟨pad, h⟩ n
    induction n with
    | zero => intro b; rfl
    | succ n ih =>
      intro b
      unfold encrLoop
      rw [encrPass_found, h]
      simp only [Res.ok_bind, Bool.or_true, if_true]
      exact ih true
  have b : encrLoop z ver buf cb p 2 [] false = none → ∃ pad, encrPass z ver buf cb p [] false = .ok ([], true, pad) := by
    intro h
    unfold encrLoop at h
    cases h1 : encrPass z ver buf cb p [] false with
    | throw e => rw [h1] at h; cases h
    | ub e => rw [h1] at h; cases h
    | ok r =>
      obtain ⟨ms, f, pad⟩ := r
      rw [h1] at h
      simp only at h
      cases f with
      | false => simp at h
      | true =>
        simp only [if_true] at h
        unfold encrLoop at h
        cases h2 : encrPass z ver buf cb p ms true with
        | throw e => rw [h2] at h; cases h
        | ub e => rw [h2] at h; cases h
        | ok r =>
          rw [encrPass_found, Res.bind_eq_ok] at h2
          obtain ⟨r', h2, -⟩ := h2
          have := (encrPass_twice z ver buf cb p [] ms true pad h1).2 ms (fun _ h => h) _ h2
          subst this
          exact ⟨pad, rfl⟩
  exact ⟨⟨fun h => b (h 2), fun h n => a h n false⟩, ⟨b, fun h => a h 2 false⟩⟩

/-- A tag whose only frame is an ENCR frame that is marked as encrypted. -/
theorem C30_refuted : ¬ C30_claim := by
  intro h
  obtain ⟨n, r, h⟩ := h zId .v3 [0x45, 0x4e, 0x43, 0x52, 0, 0, 0, 2, 0, 0x40, 1, 0] 0
  rw [(C30_never_ends_iff_partial _ _ _ _ _).1.2 ⟨0, by decide +kernel⟩ n] at h
  cases h

theorem C30_v24_refuted : ∀ n, encrLoop zId .v4 [0x45, 0x4e, 0x43, 0x52, 0, 0, 0, 2, 0, 0x04, 1, 0] 12 0 n [] false = none :=
  (C30_never_ends_iff_partial _ _ _ _ _).1.2 ⟨0, by decide +kernel⟩

/-- No ENCR frame, nothing found. -/
theorem encrPass_no_encr (z : Zlib) (ver : Ver) (buf : Bytes) (cb p : Nat) (ms ms1 : List Byte) (f : Bool) (pad : Nat)
    (hn : ∀ q, ¬ (rd buf q = .ok 0x45 ∧ rd buf (q + 1) = .ok 0x4e ∧ rd buf (q + 2) = .ok 0x43 ∧ rd buf (q + 3) = .ok 0x52))
    (h : encrPass z ver buf cb p ms false = .ok (ms1, f, pad)) : f = false ∧ ms1 = ms := by
  induction hk : cb - p using Nat.strongRecOn generalizing p with
  | ind n ih =>
    rw [encrPass_unfold] at h
    split at h
    · rw [Res.bind_eq_ok] at h
      obtain ⟨b0, h0, h⟩ := h
      split at h
      · cases h; exact ⟨rfl, rfl⟩
      · rw [Res.bind_eq_ok] at h
        obtain ⟨b1, h1, h⟩ := h
        split at h
        · cases h; exact ⟨rfl, rfl⟩
        · rw [Res.bind_eq_ok] at h
          obtain ⟨b2, h2, h⟩ := h
          split at h
          · cases h; exact ⟨rfl, rfl⟩
          · rw [Res.bind_eq_ok] at h
            obtain ⟨b3, h3, h⟩ := h
            split at h
            · cases h; exact ⟨rfl, rfl⟩
            · split at h
              · cases h
              · rw [Res.bind_eq_ok] at h
                obtain ⟨s0, h4, h⟩ := h
                rw [Res.bind_eq_ok] at h
                obtain ⟨s1, h5, h⟩ := h
                rw [Res.bind_eq_ok] at h
                obtain ⟨s2, h6, h⟩ := h
                rw [Res.bind_eq_ok] at h
                obtain ⟨s3, h7, h⟩ := h
                split at h
                · exact ih _ (by omega) _ h rfl
                · next g =>
                  exfalso
                  simp only [ne_eq, Decidable.not_not] at g
                  have e : mkId4 'E' 'N' 'C' 'R' = ⟨0x45, 0x4e, 0x43, 0x52⟩ := by decide
                  rw [e] at g
                  cases g
                  exact hn p ⟨h0, h1, h2, h3⟩
    · cases h; exact ⟨rfl, rfl⟩

/-- **C30** (partial) In a tag in which the bytes "ENCR" do not occur, it ends after one pass. Missing: tags with an
encrypted ENCR frame. -/
theorem C30_no_encr_partial (z : Zlib) (ver : Ver) (buf : Bytes) (cb p : Nat)
    (hn : ¬ ∃ pre post, buf = pre ++ ascii "ENCR" ++ post) : ∃ r, encrLoop z ver buf cb p 1 [] false = some r := by
  have hn' : ∀ q, ¬ (rd buf q = .ok 0x45 ∧ rd buf (q + 1) = .ok 0x4e ∧ rd buf (q + 2) = .ok 0x43 ∧ rd buf (q + 3) = .ok 0x52) := by
    rintro q ⟨h0, h1, h2, h3⟩
    apply hn
    have cell : ∀ k b, rd buf k = .ok b → buf[k]? = some b := by
      intro k b h
      unfold rd at h
      split at h
      · cases h; assumption
      · cases h
    have a0 := cell _ _ h0
    have a1 := cell _ _ h1
    have a2 := cell _ _ h2
    have a3 := cell _ _ h3
    refine ⟨buf.take q, buf.drop (q + 4), ?_⟩
    have e : ascii "ENCR" = [0x45, 0x4e, 0x43, 0x52] := by decide
    rw [e]
    apply List.ext_getElem?
    intro i
    have hq : q + 3 < buf.length := (List.getElem?_eq_some_iff.1 a3).1
    have hlen : (buf.take q).length = q := by rw [List.length_take]; omega
    by_cases hi : i < q
    · rw [List.append_assoc, List.getElem?_append_left (by omega), List.getElem?_take_of_lt hi]
    · rw [List.append_assoc, List.getElem?_append_right (by omega), hlen]
      by_cases h4 : i - q < 4
      · rw [List.getElem?_append_left (by simpa using h4)]
        obtain h | h | h | h : i = q ∨ i = q + 1 ∨ i = q + 2 ∨ i = q + 3 := by omega
        · subst h; rw [a0]; simp
        · subst h; rw [a1, show q + 1 - q = 1 by omega]; rfl
        · subst h; rw [a2, show q + 2 - q = 2 by omega]; rfl
        · subst h; rw [a3, show q + 3 - q = 3 by omega]; rfl
      · rw [List.getElem?_append_right (by simp only [List.length_cons, List.length_nil]; omega), List.getElem?_drop]
        congr 1
        simp only [List.length_cons, List.length_nil]
        omega
  unfold encrLoop
  cases h : encrPass z ver buf cb p [] false with
  | throw e => exact ⟨_, rfl⟩
  | ub e => exact ⟨_, rfl⟩
  | ok r =>
    obtain ⟨ms, f, pad⟩ := r
    obtain ⟨rfl, rfl⟩ := encrPass_no_encr z ver buf cb p [] ms f pad hn' h
    exact ⟨_, rfl⟩

example : encrLoop zId .v3 [0x45, 0x4e, 0x43, 0x52, 0, 0, 0, 2, 0, 0, 1, 0] 12 0 1 [] false = some (.ub .uninit) ∨
    encrLoop zId .v3 [0x54, 0x49, 0x54, 0x32, 0, 0, 0, 2, 0, 0, 0, 0x48, 0, 0] 14 0 1 [] false = some (.ok ([], 2)) := by
  right; decide +kernel

/-! ### C52 -/

/-- **C52** for a version, given its list of text frames. -/
def C52_claim (text : List String) : Prop := ∀ id : Id4,
    (kind4 id = .text ↔ [id.a, id.b, id.c, id.d] ∈ text.map ascii) ∧
    (kind4 id = .comm ↔ [id.a, id.b, id.c, id.d] = ascii "COMM") ∧
    (kind4 id = .pcnt ↔ [id.a, id.b, id.c, id.d] = ascii "PCNT") ∧
    (kind4 id = .popm ↔ [id.a, id.b, id.c, id.d] = ascii "POPM") ∧
    (kind4 id = .priv ↔ [id.a, id.b, id.c, id.d] = ascii "PRIV") ∧
    (kind4 id = .ufid ↔ [id.a, id.b, id.c, id.d] = ascii "UFID") ∧
    (kind4 id = .encr ↔ [id.a, id.b, id.c, id.d] = ascii "ENCR") ∧
    (kind4 id = .txxx ↔ [id.a, id.b, id.c, id.d] = ascii "TXXX") ∧
    (kind4 id = .xtag ↔ [id.a, id.b, id.c, id.d] = ascii "XTAG")

theorem inj4 (id : Id4) (x y z w : Byte) : [id.a, id.b, id.c, id.d] = [x, y, z, w] ↔ id = ⟨x, y, z, w⟩ := by
  obtain ⟨a, b, c, d⟩ := id
  simp

theorem kind4_spec (id : Id4) :
    (kind4 id = .text ↔ id ∈ textIds4) ∧
    (kind4 id = .comm ↔ [id.a, id.b, id.c, id.d] = ascii "COMM") ∧
    (kind4 id = .pcnt ↔ [id.a, id.b, id.c, id.d] = ascii "PCNT") ∧
    (kind4 id = .popm ↔ [id.a, id.b, id.c, id.d] = ascii "POPM") ∧
    (kind4 id = .priv ↔ [id.a, id.b, id.c, id.d] = ascii "PRIV") ∧
    (kind4 id = .ufid ↔ [id.a, id.b, id.c, id.d] = ascii "UFID") ∧
    (kind4 id = .encr ↔ [id.a, id.b, id.c, id.d] = ascii "ENCR") ∧
    (kind4 id = .txxx ↔ [id.a, id.b, id.c, id.d] = ascii "TXXX") ∧
    (kind4 id = .xtag ↔ [id.a, id.b, id.c, id.d] = ascii "XTAG") := by
  have e : ∀ x y z w : Char, ∀ s, s = [UInt8.ofNat x.toNat, UInt8.ofNat y.toNat, UInt8.ofNat z.toNat, UInt8.ofNat w.toNat] →
      ([id.a, id.b, id.c, id.d] = s ↔ id = mkId4 x y z w) := by
    rintro x y z w s rfl
    exact inj4 id _ _ _ _
  rw [e 'C' 'O' 'M' 'M' _ (by decide), e 'P' 'C' 'N' 'T' _ (by decide), e 'P' 'O' 'P' 'M' _ (by decide),
    e 'P' 'R' 'I' 'V' _ (by decide), e 'U' 'F' 'I' 'D' _ (by decide), e 'E' 'N' 'C' 'R' _ (by decide),
    e 'T' 'X' 'X' 'X' _ (by decide), e 'X' 'T' 'A' 'G' _ (by decide)]
  unfold kind4
  by_cases h1 : id = mkId4 'C' 'O' 'M' 'M'
  · subst h1; decide
  by_cases h2 : id = mkId4 'P' 'C' 'N' 'T'
  · subst h2; decide
  by_cases h3 : id = mkId4 'P' 'O' 'P' 'M'
  · subst h3; decide
  by_cases h4 : id = mkId4 'P' 'R' 'I' 'V'
  · subst h4; decide
  by_cases h5 : id = mkId4 'U' 'F' 'I' 'D'
  · subst h5; decide
  by_cases h6 : id = mkId4 'E' 'N' 'C' 'R'
  · subst h6; decide
  by_cases h7 : id = mkId4 'T' 'X' 'X' 'X'
  · subst h7; decide
  by_cases h8 : id = mkId4 'X' 'T' 'A' 'G'
  · subst h8; decide
  by_cases h9 : id ∈ textIds4 <;> simp [h1, h2, h3, h4, h5, h6, h7, h8, h9]

/-- **C52** (ID3v2.3) Exactly the identifiers that id3v2.3.0 lists as text information frames (4.2.1) become text frames; and
COMM, PCNT, POPM, PRIV, UFID, ENCR, TXXX and the library's own XTAG, and nothing else, become the frames they
stand for. -/
theorem C52_v23 : C52_claim textFrames23 := by
  intro id
  refine ⟨?_, (kind4_spec id).2⟩
  rw [(kind4_spec id).1]
  have h1 : ∀ x ∈ textIds4, [x.a, x.b, x.c, x.d] ∈ textFrames23.map ascii := by decide
  have h2 : ∀ y ∈ textFrames23.map ascii, ∃ x ∈ textIds4, [x.a, x.b, x.c, x.d] = y := by decide
  constructor
  · exact h1 id
  · intro h
    obtain ⟨x, hx, e⟩ := h2 _ h
    have := (inj4 id x.a x.b x.c x.d).1 e.symm
    rw [this]
    exact hx

/-- ID3v2.4 has other text frames; its recording time (TDRC) is not one to the library. -/
theorem C52_v24_refuted : ¬ C52_claim textFrames24 := by
  intro h
  have := (h (mkId4 'T' 'D' 'R' 'C')).1
  revert this
  decide

/-- **C52** (partial: ID3v2.4) The identifiers of id3v2.4.0 that stand for the same in ID3v2.3 become text frames. Missing:
TDEN, TDOR, TDRC, TDRL, TDTG, TIPL, TMCL, TMOO, TPRO, TSOA, TSOP, TSOT and TSST. -/
theorem C52_v24_partial (id : Id4) :
    ([id.a, id.b, id.c, id.d] ∈ textFrames24.map ascii →
      (kind4 id = .text ↔ [id.a, id.b, id.c, id.d] ∈ textFrames23.map ascii) ∧
      (kind4 id ≠ .text → [id.a, id.b, id.c, id.d] ∈ ["TDEN", "TDOR", "TDRC", "TDRL", "TDTG", "TIPL", "TMCL", "TMOO", "TPRO",
        "TSOA", "TSOP", "TSOT", "TSST"].map ascii)) := by
  intro h
  refine ⟨(C52_v23 id).1, fun hk => ?_⟩
  rw [Ne, (C52_v23 id).1] at hk
  revert h hk
  generalize [id.a, id.b, id.c, id.d] = x
  have : ∀ x ∈ textFrames24.map ascii, x ∉ textFrames23.map ascii → x ∈ ["TDEN", "TDOR", "TDRC", "TDRL", "TDTG", "TIPL", "TMCL",
    "TMOO", "TPRO", "TSOA", "TSOP", "TSOT", "TSST"].map ascii := by decide
  exact fun h hk => this x h hk

example : kind4 (mkId4 'T' 'Y' 'E' 'R') = .text ∧ kind4 (mkId4 'T' 'D' 'R' 'C') = .unknown := by decide

end Scribbu.Props
