import Verif.Props.NeedsUnsync
import Verif.Spec.Foreign

/-! Property C57: frames and extended headers as the standards lay them out are read. -/

namespace Scribbu.Props
open Scribbu Scribbu.Spec

theorem rd_drop (B xs : Bytes) (n k : Nat) (h : B.drop n = xs) : rd B (n + k) = rd xs k := by
  subst h
  simp [rd]

theorem slice_drop (B xs : Bytes) (n k m : Nat) (h : B.drop n = xs) (hn : n ≤ B.length) : slice B (n + k) m = slice xs k m := by
  subst h
  unfold slice
  simp only [List.drop_drop, List.length_drop]
  by_cases hc : n + k + m ≤ B.length
  · rw [if_pos hc, if_pos (by omega)]
  · rw [if_neg hc, if_neg (by omega)]

theorem slice_mid (a w post : Bytes) : slice (a ++ w ++ post) a.length w.length = .ok w := by
  simp [slice]

theorem rd_cons (B xs : Bytes) (n : Nat) (x : Byte) (h : B.drop n = x :: xs) : rd B n = .ok x ∧ B.drop (n + 1) = xs := by
  refine ⟨?_, ?_⟩
  · have := rd_drop B _ n 0 h
    rw [Nat.add_zero] at this
    rw [this]
    rfl
  · rw [← List.drop_drop, h]
    rfl

theorem optRead_spec (B rest : Bytes) (n : Nat) (g : Option Byte) (h : B.drop n = gidBytes g ++ rest) :
    optRead B n g.isSome = .ok (g, n + (gidBytes g).length) := by
  cases g with
  | none => simp [optRead, gidBytes]
  | some x =>
    obtain ⟨h1, -⟩ := rd_cons B rest n x h
    simp [optRead, gidBytes, h1]

theorem optSize_spec (dec : Byte → Byte → Byte → Byte → Nat) (enc : Nat → Bytes) (B rest : Bytes) (n : Nat) (s : Option Nat)
    (he : ∀ m, s = some m → ∃ a b c d, enc m = [a, b, c, d] ∧ dec a b c d = m)
    (h : B.drop n = sizeBytes enc s ++ rest) : optSize dec B n s.isSome = .ok (s, n + (sizeBytes enc s).length) := by
  cases s with
  | none => simp [optSize, sizeBytes]
  | some m =>
    obtain ⟨a, b, c, d, h1, h2⟩ := he m rfl
    simp only [sizeBytes, h1, List.cons_append, List.nil_append] at h
    obtain ⟨r1, h⟩ := rd_cons _ _ _ _ h
    obtain ⟨r2, h⟩ := rd_cons _ _ _ _ h
    obtain ⟨r3, h⟩ := rd_cons _ _ _ _ h
    obtain ⟨r4, h⟩ := rd_cons _ _ _ _ h
    simp [optSize, sizeBytes, h1, h2, r1, r2, r3, r4]

theorem extras23 (B rest : Bytes) (n : Nat) (f : StdFrame) (hs : ∀ m, f.size = some m → m < 2 ^ 32)
    (h : B.drop n = sizeBytes be32 f.size ++ gidBytes f.gid ++ rest) :
    extras .v3 B n (f.flags1 .v3) =
      .ok ⟨f.gid, f.size.isSome, none, false, f.size, (sizeBytes be32 f.size ++ gidBytes f.gid).length⟩ := by
  have e1 : decide (f.flags1 .v3 &&& 0x80 ≠ 0) = f.size.isSome :=
    (by decide : ∀ a b : Bool, decide (((if a then 0x80 else 0) + (if b then 0x20 else 0) : Byte) &&& 0x80 ≠ 0) = a) _ _
  have e2 : decide (f.flags1 .v3 &&& 0x40 ≠ 0) = false :=
    (by decide : ∀ a b : Bool, decide (((if a then 0x80 else 0) + (if b then 0x20 else 0) : Byte) &&& 0x40 ≠ 0) = false) _ _
  have e3 : decide (f.flags1 .v3 &&& 0x20 ≠ 0) = f.gid.isSome :=
    (by decide : ∀ a b : Bool, decide (((if a then 0x80 else 0) + (if b then 0x20 else 0) : Byte) &&& 0x20 ≠ 0) = b) _ _
  have h1 := optSize_spec unsignedFromNonSyncSafe4 be32 B (gidBytes f.gid ++ rest) n f.size
    (fun m hm => ⟨_, _, _, _, rfl, be32_decode m (hs m hm)⟩) (by simpa using h)
  have h2 := optRead_spec B rest (n + (sizeBytes be32 f.size).length) f.gid (by
    rw [← List.drop_drop, h, List.append_assoc, List.drop_left])
  simp only [extras, e1, e2, e3, h1, Res.ok_bind]
  rw [show optRead B (n + (sizeBytes be32 f.size).length) false = .ok (none, n + (sizeBytes be32 f.size).length) by simp [optRead]]
  simp only [Res.ok_bind, h2, List.length_append, Res.ok.injEq, Extras.mk.injEq, true_and]
  omega

theorem extras24 (B rest : Bytes) (n : Nat) (f : StdFrame) (hs : ∀ m, f.size = some m → m < 2 ^ 28)
    (h : B.drop n = gidBytes f.gid ++ sizeBytes ss28 f.size ++ rest) :
    extras .v4 B n (f.flags1 .v4) =
      .ok ⟨f.gid, false, none, f.unsynch, f.size, (gidBytes f.gid ++ sizeBytes ss28 f.size).length⟩ := by
  have e1 : decide (f.flags1 .v4 &&& 0x40 ≠ 0) = f.gid.isSome :=
    (by decide : ∀ a b c d : Bool, decide (((if a then 0x40 else 0) + (if b then 0x08 else 0) + (if c then 0x02 else 0) +
      (if d then 0x01 else 0) : Byte) &&& 0x40 ≠ 0) = a) _ _ _ _
  have e2 : decide (f.flags1 .v4 &&& 0x04 ≠ 0) = false :=
    (by decide : ∀ a b c d : Bool, decide (((if a then 0x40 else 0) + (if b then 0x08 else 0) + (if c then 0x02 else 0) +
      (if d then 0x01 else 0) : Byte) &&& 0x04 ≠ 0) = false) _ _ _ _
  have e3 : decide (f.flags1 .v4 &&& 0x01 ≠ 0) = f.size.isSome :=
    (by decide : ∀ a b c d : Bool, decide (((if a then 0x40 else 0) + (if b then 0x08 else 0) + (if c then 0x02 else 0) +
      (if d then 0x01 else 0) : Byte) &&& 0x01 ≠ 0) = d) _ _ _ _
  have e4 : decide (f.flags1 .v4 &&& 0x80 ≠ 0) = false :=
    (by decide : ∀ a b c d : Bool, decide (((if a then 0x40 else 0) + (if b then 0x08 else 0) + (if c then 0x02 else 0) +
      (if d then 0x01 else 0) : Byte) &&& 0x80 ≠ 0) = false) _ _ _ _
  have e5 : decide (f.flags1 .v4 &&& 0x02 ≠ 0) = f.unsynch :=
    (by decide : ∀ a b c d : Bool, decide (((if a then 0x40 else 0) + (if b then 0x08 else 0) + (if c then 0x02 else 0) +
      (if d then 0x01 else 0) : Byte) &&& 0x02 ≠ 0) = c) _ _ _ _
  have h1 := optRead_spec B (sizeBytes ss28 f.size ++ rest) n f.gid (by simpa using h)
  have h2 := optSize_spec unsignedFromSyncSafe4 ss28 B rest (n + (gidBytes f.gid).length) f.size
    (fun m hm => ⟨_, _, _, _, rfl, ss28_decode m (hs m hm)⟩) (by
    rw [← List.drop_drop, h, List.append_assoc, List.drop_left])
  simp only [extras, e1, e2, e3, e4, e5, h1, Res.ok_bind]
  rw [show optRead B (n + (gidBytes f.gid).length) false = .ok (none, n + (gidBytes f.gid).length) by simp [optRead]]
  simp only [Res.ok_bind, h2, List.length_append, Res.ok.injEq, Extras.mk.injEq, true_and]
  omega

theorem attrs_flags0 (ver : Ver) (a b c : Bool) : attrs ver (flags0 ver a b c) = (a, b, c) := by
  cases ver <;> cases a <;> cases b <;> cases c <;> decide

/-- The payload: what follows the optional bytes, decompressed if a size is given. -/
theorem payloadOf_spec (z : Zlib) (ver : Ver) (k : Kind) (body : Body) (B opt data post : Bytes) (n : Nat) (size : Option Nat) (w : Bytes)
    (h : B.drop n = opt ++ data ++ post) (hB : n ≤ B.length) (hp : ∀ post, Body.parse ver k (w ++ post) w.length = .ok body)
    (hd : (size = none ∧ data = w) ∨ (size = some w.length ∧ z.uncompress data w.length = .ok w)) :
    ((payloadOf z B n (opt ++ data).length opt.length size).bind fun (mem, n) => Body.parse ver k mem n) = .ok body := by
  unfold payloadOf
  rw [if_neg (by simp)]
  have e : (opt ++ data).length - opt.length = data.length := by simp
  rw [e]
  rcases hd with ⟨rfl, rfl⟩ | ⟨rfl, hu⟩
  · simp only [Res.ok_bind]
    rw [← List.drop_drop, h, List.append_assoc, List.drop_left]
    exact hp post
  · simp only
    rw [slice_drop B _ n _ _ h hB, slice_mid]
    simp only [Res.ok_bind, hu]
    have := hp []
    rwa [List.append_nil] at this

/-- A frame that can be there. -/
def StdOk (ver : Ver) (f : StdFrame) : Prop :=
  f.id ≠ ⟨0, 0, 0, 0⟩ ∧ f.payload ver ≠ [] ∧ (f.payload ver).length < maxSize4 ver

/-- The data of a frame hold the serialisation of a body: plainly, or compressed with the size before compression given. -/
def Holds (z : Zlib) (ver : Ver) (f : StdFrame) (compressed : Bool) (body : Body) : Prop :=
  WFBody ver (kind4 f.id) body ∧ ∃ w, body.serialize = .ok w ∧ w.length < maxSize4 ver ∧
    ((compressed = false ∧ (f.size = none ∨ f.size = some w.length) ∧ f.data = w) ∨
     (compressed = true ∧ f.size = some w.length ∧ z.uncompress f.data w.length = .ok w))

/-- The frame of ID3v2.3 that it stands for. -/
def frame23 (f : StdFrame) (body : Body) : Frame4 :=
  .new f.id body f.tap f.fap f.ro f.size.isSome none f.gid false none

/-- The frame of ID3v2.4 that it stands for. -/
def frame24 (f : StdFrame) (body : Body) : Frame4 :=
  .new f.id body f.tap f.fap f.ro f.compressed none f.gid f.unsynch f.size

/-- Reading one frame. `x` is what its second flag byte makes of it. -/
theorem readStd (z : Zlib) (ver : Ver) (ms : List Byte) (f : StdFrame) (body : Body) (pre post w : Bytes) (hok : StdOk ver f)
    (hwf : WFBody ver (kind4 f.id) body) (hser : body.serialize = .ok w) (hv : ver = .v3 ∨ ver = .v4)
    (hd : (f.size = none ∧ f.data = w) ∨ (f.size = some w.length ∧ w.length < maxSize4 ver ∧ z.uncompress f.data w.length = .ok w)) :
    readFrame4 z ver ms (pre ++ f.bytes ver ++ post) pre.length (f.payload ver).length f.id =
      .ok (match ver with
        | .v4 => .new f.id body f.tap f.fap f.ro false none f.gid f.unsynch f.size
        | _ => frame23 f body) := by
  obtain ⟨-, -, hl⟩ := hok
  obtain ⟨w', hw', hlen, hparse⟩ := body_rt ver _ _ hwf
  rw [hser] at hw'
  cases hw'
  obtain ⟨a, b, c, d, hs, -, -, -, -, -, -, -, -, h8, h9, h10⟩ := frame4_rd pre ver f.id (flags0 ver f.tap f.fap f.ro)
    (f.flags1 ver) _ post hl
  have hB : pre.length + 10 ≤ (pre ++ f.bytes ver ++ post).length := by
    simp only [StdFrame.bytes, List.length_append, frame4_length]; omega
  change rd (pre ++ f.bytes ver ++ post) _ = _ at h8
  change rd (pre ++ f.bytes ver ++ post) _ = _ at h9
  change (pre ++ f.bytes ver ++ post).drop _ = _ at h10
  have hsz : ∀ m, f.size = some m → m < maxSize4 ver := by
    intro m hm
    rcases hd with ⟨h, -⟩ | ⟨h, h', -⟩
    · rw [h] at hm; cases hm
    · rw [h] at hm; cases hm; exact h'
  have hd' : (f.size = none ∧ f.data = w) ∨ (f.size = some w.length ∧ z.uncompress f.data w.length = .ok w) := by
    rcases hd with h | ⟨h, -, h'⟩
    · exact .inl h
    · exact .inr ⟨h, h'⟩
  unfold readFrame4
  rw [h8, h9]
  simp only [Res.ok_bind, attrs_flags0]
  generalize (pre ++ f.bytes ver ++ post) = B at *
  rcases hv with rfl | rfl
  · have hp := payloadOf_spec z .v3 (kind4 f.id) body B _ f.data post _ f.size w h10 hB hparse hd'
    rw [extras23 B (f.data ++ post) _ f hsz (by rw [h10]; simp [StdFrame.payload])]
    simp only [Res.ok_bind]
    change ((payloadOf z B (pre.length + 10) (f.payload .v3).length _ _).bind _) = _ at hp
    obtain ⟨x, hx, hx'⟩ := Res.bind_eq_ok.1 hp
    rw [hx]
    simp only [Res.ok_bind, hx', frame23]
  · have hp := payloadOf_spec z .v4 (kind4 f.id) body B _ f.data post _ f.size w h10 hB hparse hd'
    rw [extras24 B (f.data ++ post) _ f hsz (by rw [h10]; simp [StdFrame.payload])]
    simp only [Res.ok_bind]
    change ((payloadOf z B (pre.length + 10) (f.payload .v4).length _ _).bind _) = _ at hp
    obtain ⟨x, hx, hx'⟩ := Res.bind_eq_ok.1 hp
    rw [hx]
    simp only [Res.ok_bind, hx']

/-- Reading a sequence of frames, each of which is read wherever it is. -/
theorem framePass_std (z : Zlib) (ver : Ver) (ms : List Byte) (fs : List StdFrame) (gs : List Frame4) (pad : Nat) (post : Bytes)
    (h : Paired (fun f g => StdOk ver f ∧ ∀ pre post, readFrame4 z ver ms (pre ++ f.bytes ver ++ post) pre.length
      (f.payload ver).length f.id = .ok g) fs gs) :
    ∀ pre : Bytes, framePass z ver ms (pre ++ (fs.map (StdFrame.bytes ver)).flatten ++ List.replicate pad 0 ++ post)
      (pre.length + (fs.map (StdFrame.bytes ver)).flatten.length + pad) pre.length = .ok gs := by
  induction h with
  | nil =>
    intro pre
    simp only [List.map_nil, List.flatten_nil, List.append_nil, List.length_nil, Nat.add_zero]
    exact framePass_pad z ver pre pad post ms
  | @cons f g fs gs hfg _ ih =>
    intro pre
    obtain ⟨⟨h1, h2, h3⟩, h4⟩ := hfg
    have hlen : (f.bytes ver).length = 10 + (f.payload ver).length := frame4_length _ _ _ _ _
    have a1 := framePass_step z ver ms pre f.id (flags0 ver f.tap f.fap f.ro) (f.flags1 ver) (f.payload ver)
      ((fs.map (StdFrame.bytes ver)).flatten ++ List.replicate pad 0 ++ post)
      (pre.length + ((f :: fs).map (StdFrame.bytes ver)).flatten.length + pad) h1 h2 h3
      (by simp only [List.map_cons, List.flatten_cons, List.length_append, hlen]; omega)
    change framePass z ver ms (pre ++ f.bytes ver ++ _) _ _ = (readFrame4 z ver ms (pre ++ f.bytes ver ++ _) _ _ _).bind _ at a1
    rw [h4] at a1
    simp only [Res.ok_bind] at a1
    have a2 := ih (pre ++ f.bytes ver)
    have e : pre ++ ((f :: fs).map (StdFrame.bytes ver)).flatten ++ List.replicate pad 0 ++ post =
      pre ++ f.bytes ver ++ ((fs.map (StdFrame.bytes ver)).flatten ++ List.replicate pad 0 ++ post) := by simp
    have e2 : pre ++ f.bytes ver ++ (fs.map (StdFrame.bytes ver)).flatten ++ List.replicate pad 0 ++ post =
      pre ++ f.bytes ver ++ ((fs.map (StdFrame.bytes ver)).flatten ++ List.replicate pad 0 ++ post) := by simp
    rw [e2] at a2
    rw [e]
    refine Eq.trans a1 ?_
    rw [show pre.length + ((f :: fs).map (StdFrame.bytes ver)).flatten.length + pad =
      (pre ++ f.bytes ver).length + (fs.map (StdFrame.bytes ver)).flatten.length + pad by simp; omega]
    have a2' : framePass z ver ms (pre ++ frame4 ver f.id (flags0 ver f.tap f.fap f.ro) (f.flags1 ver) (f.payload ver) ++
        ((fs.map (StdFrame.bytes ver)).flatten ++ List.replicate pad 0 ++ post))
        ((pre ++ f.bytes ver).length + (fs.map (StdFrame.bytes ver)).flatten.length + pad)
        (pre ++ frame4 ver f.id (flags0 ver f.tap f.fap f.ro) (f.flags1 ver) (f.payload ver)).length = .ok gs := a2
    change (framePass z ver ms _ _ (pre ++ frame4 ver f.id (flags0 ver f.tap f.fap f.ro) (f.flags1 ver) (f.payload ver)).length).bind _ = _
    rw [show pre ++ f.bytes ver = pre ++ frame4 ver f.id (flags0 ver f.tap f.fap f.ro) (f.flags1 ver) (f.payload ver) from rfl] at *
    rw [a2']
    rfl

/-- **C57** (ID3v2.3) Frames as the standard lays them out, with any attributes, compressed or not, grouped or not, are read in
order with their attributes, groups and contents, up to the padding. -/
theorem C57_v23 (z : Zlib) (fs : List StdFrame) (body : StdFrame → Body) (pad : Nat)
    (h : ∀ f ∈ fs, StdOk .v3 f ∧ Holds z .v3 f f.size.isSome (body f)) :
    readFrames z .v3 ((fs.map (StdFrame.bytes .v3)).flatten ++ List.replicate pad 0) = .ok (fs.map fun f => frame23 f (body f)) := by
  have := framePass_std z .v3 [] fs (fs.map fun f => frame23 f (body f)) pad [] (by
    induction fs with
    | nil => exact .nil
    | cons f fs ih =>
      refine .cons ⟨(h f (by simp)).1, fun pre post => ?_⟩ (ih fun g hg => h g (by simp [hg]))
      obtain ⟨h1, hwf, w, hs, hl, hc⟩ := h f (by simp)
      refine readStd z .v3 [] f (body f) pre post w h1 hwf hs (.inl rfl) ?_
      rcases hc with ⟨hc, -, hd⟩ | ⟨hc, hs, hu⟩
      · exact .inl ⟨by simpa using hc, hd⟩
      · exact .inr ⟨hs, hl, hu⟩) []
  simpa [readFrames] using this

/-- A URL frame, grouped and compressed. -/
def std1 : StdFrame := ⟨mkId4 'W' 'O' 'A' 'R', true, false, true, some 7, some 2, true, false, [1, 2]⟩
/-- A text frame without any of that. -/
def std2 : StdFrame := ⟨mkId4 'T' 'I' 'T' '2', false, true, false, none, none, false, false, [0, 0x48, 0x69]⟩

example : (StdOk .v3 std1 ∧ Holds zId .v3 std1 true (.unknown [1, 2])) ∧ StdOk .v3 std2 ∧ Holds zId .v3 std2 false (.text 0 [0x48, 0x69]) :=
  ⟨⟨⟨by decide, by decide, by decide⟩, trivial, [1, 2], rfl, by decide, .inr ⟨rfl, rfl, rfl⟩⟩,
   ⟨by decide, by decide, by decide⟩, trivial, [0, 0x48, 0x69], rfl, by decide, .inl ⟨rfl, .inl rfl, rfl⟩⟩
example : std1.bytes .v3 = [0x57, 0x4f, 0x41, 0x52, 0, 0, 0, 7, 0xa0, 0xa0, 0, 0, 0, 2, 7, 1, 2] := by decide

/-- **C57** as claimed, for ID3v2.4. -/
def C57_v24_claim : Prop := ∀ (z : Zlib) (f : StdFrame) (body : Body), StdOk .v4 f → Holds z .v4 f f.compressed body →
  f.unsynch = false → readFrames z .v4 (f.bytes .v4) = .ok [frame24 f body]

/-- The bit that means compression is not looked at: a compressed frame is not known to be. -/
theorem C57_v24_refuted : ¬ C57_v24_claim := by
  intro h
  have := h zId std1 (.unknown [1, 2]) ⟨by decide, by decide, by decide⟩
    ⟨trivial, [1, 2], rfl, by decide, .inr ⟨rfl, rfl, rfl⟩⟩ rfl
  revert this
  decide +kernel

/-- A data length indicator alone makes the library decompress the data, compressed or not. Here decompression
fails, as it would for any data that are not in zlib's format. -/
theorem C57_v24_refuted_indicator : ¬ C57_v24_claim := by
  intro h
  have := h ⟨fun _ => .throw .other, fun _ _ => .throw .other, fun _ _ => 0⟩ { std1 with compressed := false } (.unknown [1, 2])
    ⟨by decide, by decide, by decide⟩ ⟨trivial, [1, 2], rfl, by decide, .inl ⟨rfl, .inr rfl, rfl⟩⟩ rfl
  revert this
  decide +kernel

/-- **C57** (partial: ID3v2.4) Frames with any attributes, grouped or not, are read in order with their attributes, groups and
contents if they are compressed exactly if they have a data length indicator, and except that a compressed frame is not marked
as compressed. The unsynchronisation bit is kept; the data are not resynchronised. -/
theorem C57_v24_partial (z : Zlib) (fs : List StdFrame) (body : StdFrame → Body) (pad : Nat)
    (h : ∀ f ∈ fs, StdOk .v4 f ∧ f.size.isSome = f.compressed ∧ Holds z .v4 f f.compressed (body f)) :
    readFrames z .v4 ((fs.map (StdFrame.bytes .v4)).flatten ++ List.replicate pad 0) =
      .ok (fs.map fun f => { frame24 f (body f) with compressed := false }) := by
  have := framePass_std z .v4 [] fs (fs.map fun f => { frame24 f (body f) with compressed := false }) pad [] (by
    induction fs with
    | nil => exact .nil
    | cons f fs ih =>
      refine .cons ⟨(h f (by simp)).1, fun pre post => ?_⟩ (ih fun g hg => h g (by simp [hg]))
      obtain ⟨h1, hsc, hwf, w, hs, hl, hc⟩ := h f (by simp)
      refine readStd z .v4 [] f (body f) pre post w h1 hwf hs (.inr rfl) ?_
      rcases hc with ⟨hc, -, hd⟩ | ⟨hc, hs, hu⟩
      · rw [hc] at hsc
        exact .inl ⟨by simpa using hsc, hd⟩
      · exact .inr ⟨hs, hl, hu⟩) []
  simpa [readFrames] using this

example : (StdOk .v4 std1 ∧ std1.size.isSome = std1.compressed ∧ Holds zId .v4 std1 true (.unknown [1, 2])) ∧ StdOk .v4 std2 ∧
    std2.size.isSome = std2.compressed ∧ Holds zId .v4 std2 false (.text 0 [0x48, 0x69]) :=
  ⟨⟨⟨by decide, by decide, by decide⟩, rfl, trivial, [1, 2], rfl, by decide, .inr ⟨rfl, rfl, rfl⟩⟩,
   ⟨by decide, by decide, by decide⟩, rfl, trivial, [0, 0x48, 0x69], rfl, by decide, .inl ⟨rfl, .inl rfl, rfl⟩⟩

/-- **C24** (partial: the other side) In ID3v2.4, too, the group of a frame becomes the first byte of its payload when
it is written and read; the last byte of the payload is then outside of the frame (here it is zero, which is taken for padding). -/
theorem C24_v24_grouped_partial (z : Zlib) (f : Frame4) (w : Bytes) (x : Byte) (hd : f.dirty = true) (hc : f.compressed = false)
    (he : f.enc = none) (hg : f.gid = some x) (hu : f.unsynch = false) (hdl : f.dli = none) (hk : kind4 f.id = .unknown)
    (hid : f.id ≠ ⟨0, 0, 0, 0⟩) (hb : f.body = .unknown (w ++ [0])) (hl : w.length + 1 < 2 ^ 28) :
    ∃ b f' g, f.write z .v4 false = .ok (b, f') ∧ readFrames z .v4 b = .ok [g] ∧ g.gid = none ∧ g.body = .unknown (x :: w) := by
  let f0 := Frame4.bit f.tap 32 ||| Frame4.bit f.fap 16 ||| Frame4.bit f.ro 8
  have hlt : (x :: w).length < maxSize4 .v4 := by simpa [maxSize4] using hl
  have hw : ∃ f', f.write z .v4 false = .ok (frame4 .v4 f.id f0 32 (x :: w) ++ [0], f') := by
    obtain ⟨g, hg'⟩ := write_dirty z .v4 f false hd
    have hf : freshBytes z .v4 f = .ok (frame4 .v4 f.id f0 32 (x :: w) ++ [0]) := by
      obtain ⟨a, b, c, d, hs, hs'⟩ := ss28_of (x :: w).length hlt
      unfold freshBytes Frame4.header Frame4.header24
      rw [hb]
      simp only [Body.serialize, Res.ok_bind]
      rw [if_neg (by rw [he]; decide), hc]
      simp only [Bool.false_eq_true, if_false, Res.ok_bind, Body.size, List.length_append, List.length_singleton]
      rw [List.length_cons] at hs hs'
      rw [hs]
      simp only [Res.ok_bind, he, hg, hu, hdl, Option.isSome_none, Option.isSome_some, Bool.false_eq_true, if_false, Res.ok.injEq]
      simp [frame4, size4, Frame4.optByte, f0, Frame4.bit, ← hs']
    rw [hg', hf]
    exact ⟨_, rfl⟩
  obtain ⟨f', hw⟩ := hw
  have hst := framePass_step z .v4 [] [] f.id f0 32 (x :: w) [0] ((frame4 .v4 f.id f0 32 (x :: w)).length + 1) hid (by simp) hlt
    (by rw [frame4_length]; simp)
  obtain ⟨s0, s1, s2, s3, -, -, -, -, -, -, -, -, -, r8, r9, r10⟩ := frame4_rd [] .v4 f.id f0 32 (x :: w) [0] hlt
  have hend := framePass_pad z .v4 (frame4 .v4 f.id f0 32 (x :: w)) 1 [] []
  simp only [List.nil_append, List.append_nil, List.length_nil, List.replicate_one] at hst r8 r9 r10 hend
  have hx : extras .v4 (frame4 .v4 f.id f0 32 (x :: w) ++ [0]) (0 + 10) 32 = .ok ⟨none, false, none, false, none, 0⟩ := by
    have e1 : decide ((32 : Byte) &&& 0x80 ≠ 0) = false := by decide
    have e2 : decide ((32 : Byte) &&& 0x40 ≠ 0) = false := by decide
    have e3 : decide ((32 : Byte) &&& 0x04 ≠ 0) = false := by decide
    have e4 : decide ((32 : Byte) &&& 0x02 ≠ 0) = false := by decide
    have e5 : decide ((32 : Byte) &&& 0x01 ≠ 0) = false := by decide
    simp only [extras, optSize, optRead, e1, e2, e3, e4, e5, Bool.false_eq_true, if_false, Res.ok_bind, Nat.sub_self]
  have hsl := slice_prefix (x :: w) [0]
  have hread : readFrame4 z .v4 [] (frame4 .v4 f.id f0 32 (x :: w) ++ [0]) 0 (x :: w).length f.id =
      .ok (Frame4.new f.id (.unknown (x :: w)) (attrs .v4 f0).1 (attrs .v4 f0).2.1 (attrs .v4 f0).2.2 false none none false none) := by
    unfold readFrame4
    rw [r8, r9]
    simp only [Res.ok_bind, hx, payloadOf, Nat.add_zero, r10, Nat.sub_zero, hk]
    rw [if_neg (by omega)]
    simp only [Res.ok_bind, Body.parse, hsl]
  rw [hread, hend] at hst
  refine ⟨_, f', Frame4.new f.id (.unknown (x :: w)) (attrs .v4 f0).1 (attrs .v4 f0).2.1 (attrs .v4 f0).2.2 false none none false none,
    hw, ?_, rfl, rfl⟩
  unfold readFrames
  rw [List.length_append]
  exact hst

example : ({ woar with gid := some 7, body := .unknown [1, 0] }.write zId .v4 false).bind (fun r => readFrames zId .v4 r.1) =
    .ok [{ woar with tap := false, body := .unknown [7, 1] }] := by decide +kernel

/-- **C57** Extended headers of ID3v2.4 as the standard lays them out are read, whatever follows. -/
theorem C57_ext24 (update : Bool) (crc : Option Nat) (restr : Option Byte) (rest : Bytes) (hc : ∀ c, crc = some c → c < 2 ^ 32) :
    Ext24.parse (ext24 update crc restr ++ rest) (ext24 update crc restr ++ rest).length =
      .ok ⟨(ext24 update crc restr).length, update, crc.isSome, restr.isSome, crc, restr.map Ext24.restrictionsOf⟩ := by
  have e6 : 5 + (1 : Byte).toNat = 6 := by decide
  have bit0 : ∀ a b c : Bool, ((((if a then 0x40 else 0) + (if b then 0x20 else 0) + (if c then 0x10 else 0) : Byte) &&& 0x40 ≠ 0) ↔ a = true) ∧
    ((((if a then 0x40 else 0) + (if b then 0x20 else 0) + (if c then 0x10 else 0) : Byte) &&& 0x20 ≠ 0) ↔ b = true) ∧
    ((((if a then 0x40 else 0) + (if b then 0x20 else 0) + (if c then 0x10 else 0) : Byte) &&& 0x10 ≠ 0) ↔ c = true) := by decide
  obtain ⟨b1, b2, b3⟩ := bit0 update crc.isSome restr.isSome
  have hcrc : ∀ c, crc = some c → unsignedFromSyncSafe5 (UInt8.ofNat (c / 268435456 % 16)) (UInt8.ofNat (c / 2097152 % 128))
      (UInt8.ofNat (c / 16384 % 128)) (UInt8.ofNat (c / 128 % 128)) (UInt8.ofNat (c % 128)) = c := by
    intro c h
    have := hc c h
    rw [ss5_eq]
    simp only [UInt8.toNat_ofNat']
    omega
  have lo : ∀ n, ¬ (0x0f < UInt8.ofNat (n % 16)) := by
    intro n
    rw [UInt8.lt_iff_toNat_lt, UInt8.toNat_ofNat']
    show ¬ (15 < n % 16 % 2 ^ 8)
    omega
  have hi : ∀ n, ¬ (0x7f < UInt8.ofNat (n % 128)) := by
    intro n
    rw [UInt8.lt_iff_toNat_lt, UInt8.toNat_ofNat']
    show ¬ (127 < n % 128 % 2 ^ 8)
    omega
  unfold ext24
  generalize (if update = true then (0x40 : Byte) else 0) + (if crc.isSome = true then 0x20 else 0) +
    (if restr.isSome = true then 0x10 else 0) = fl at *
  have hsz : ∀ n, n < 2 ^ 28 → unsignedFromSyncSafe4 (UInt8.ofNat (n / 2097152 % 128)) (UInt8.ofNat (n / 16384 % 128)) (UInt8.ofNat (n / 128 % 128))
      (UInt8.ofNat (n % 128)) = n := ss28_decode
  have hn : ∀ k m, m ≤ k → ¬ (rest.length + k < m) := fun k m h => by omega
  unfold Ext24.parse
  cases update <;> cases crc <;> cases restr <;>
    simp only [ss28, ss35, List.cons_append, List.nil_append, List.append_nil, List.length_cons, List.length_nil, rd, List.getElem?_cons_zero, List.getElem?_cons_succ,
      Res.ok_bind, e6, Bool.false_eq_true, if_false, if_true, b1, b2, b3, Option.isSome_none, Option.isSome_some, Option.map_none, Option.map_some,
      hi, lo, or_self, decide_false, decide_true, Nat.reduceAdd, not_true, ne_eq] <;>
    (try rw [hcrc _ rfl]) <;> (try rw [hsz _ (by decide)]) <;> simp [hn, Nat.add_assoc] <;>
    simp only [hi, lo, or_self, if_false, hcrc _ rfl, Res.ok_bind] <;> simp [hn, Nat.add_assoc]

example : ext24 true (some 5) (some 0x40) = [0, 0, 0, 15, 1, 0x70, 0, 5, 0, 0, 0, 0, 5, 1, 0x40] := by decide

end Scribbu.Props
