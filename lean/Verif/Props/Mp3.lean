import Verif.Proofs.Mp3Count

/-! Properties C36, C37: MPEG layer III frame headers and the duration of a track. -/

namespace Scribbu.Props
open Scribbu Scribbu.Spec

/-- **C36** Whatever state the stream is in, a header `parse_header` accepts is a
legal MPEG-1/2/2.5 layer III header, the frame reports that header's bit rate,
sampling rate and padding, its size is the standard's formula, and that size has
room for the header, the CRC (if announced) and the side information. -/
theorem C36_accepted_valid (h : Hdr) (s s' : IStream) (f : Mp3Frame)
    (hok : parseHeader h s = (.ok f, s')) :
    ∃ v crc kb hz pad mono, IsLayerIII h v crc kb hz pad mono ∧
      f.version = v ∧ f.crc = crc ∧ f.bitrate = 1000 * kb ∧ f.sampleRate = hz ∧ f.padded = pad ∧
      f.sideInfo = sideBytes v mono ∧
      f.size = frameBytes v kb hz pad ∧
      4 + (if crc then 2 else 0) + sideBytes v mono ≤ f.size := by
  obtain ⟨kb, h1, h2, h3, h4, h5, -⟩ := decodeHdr_iff h f (parseHeader_ok hok)
  refine ⟨_, _, kb, _, _, _, h1, rfl, rfl, by omega, rfl, rfl, h4, h3, ?_⟩
  rw [← h4]; exact h5

/-- **C36** Conversely, on a good stream that has the two bytes a CRC would take,
every layer III header is accepted, and the get pointer ends up just past the side
information; every other header is rejected with the stream as it was. -/
theorem C36_valid_accepted (h : Hdr) (d : Bytes) (p : Nat) (m : IoBits) (hroom : p + 2 ≤ d.length) :
    (∀ v crc kb hz pad mono, IsLayerIII h v crc kb hz pad mono →
      ∃ f, parseHeader h ⟨d, p, m, IoBits.none⟩ =
        (.ok f, ⟨d, p + (if crc then 2 else 0) + sideBytes v mono, m, IoBits.none⟩)) ∧
    ((¬ ∃ v crc kb hz pad mono, IsLayerIII h v crc kb hz pad mono) →
      parseHeader h ⟨d, p, m, IoBits.none⟩ = (.throw .mp3Error, ⟨d, p, m, IoBits.none⟩)) := by
  have hp := parseHeader_good h d p m (fun _ => hroom)
  constructor
  · intro v crc kb hz pad mono hl
    obtain ⟨f, hdec, e1, e2, e3, e4, e5, e6, e7, e8⟩ := decodeHdr_of hl
    rw [hdec] at hp
    refine ⟨f, ?_⟩
    rw [hp]
    simp only [e2, e8]
  · intro hno
    cases hdec : decodeHdr h with
    | none => rw [hdec] at hp; exact hp
    | some f =>
      obtain ⟨kb, h1, -⟩ := decodeHdr_iff h f hdec
      exact absurd ⟨_, _, _, _, _, _, h1⟩ hno

/-- MPEG-1 layer III, no CRC, 128 kbit/s, 44.1 kHz, padded, joint stereo. -/
example : IsLayerIII ⟨0xff, 0xfb, 0x92, 0x64⟩ .v1 false 128 44100 true false :=
  ⟨by decide, ⟨3, by decide, by decide⟩, ⟨9, 0, 0, by decide, by decide, by decide, by decide⟩,
   ⟨1, 36, by decide, by decide, by decide, by decide⟩⟩
example : (parseHeader ⟨0xff, 0xfb, 0x92, 0x64⟩
    ⟨List.replicate 40 7, 3, IoBits.all, IoBits.none⟩).1 =
    .ok ⟨.v1, false, 128000, 44100, true, false, 1, 32, 418⟩ := by decide +kernel
example : frameBytes .v1 128 44100 true = 418 := by decide
/-- Layer II is rejected. -/
example : (parseHeader ⟨0xff, 0xfd, 0x92, 0x64⟩
    ⟨List.replicate 40 7, 3, IoBits.all, IoBits.none⟩).1 = .throw .mp3Error := by decide +kernel

/-- **C37** Scanning ends on every stream: neither the search for the first frame
nor the loop counting frames ever needs more iterations than the stream has bytes. -/
theorem C37_terminates (s : IStream) (hs : s.Good) (fuel : Nat) (hf : s.data.length < fuel) :
    (mp3Duration fuel s).1 ≠ .ok none := by
  obtain ⟨d, p, m, st⟩ := s
  simp only [IStream.Good] at hs
  subst hs
  exact mp3Duration_total fuel d p m hf

/-- The second half of C37: for a stream of valid frames (without a VBR header) followed by
something that is not a frame, the duration reported is the sum of the frames'
durations. -/
def C37_sum_claim : Prop :=
  ∀ (fs : List (Bytes × (Nat × Nat))) (rest : Bytes) (m : IoBits),
    fs ≠ [] → (∀ f ∈ fs, IsFrame f.1 f.2) → NoSync rest →
    NoVbr ((fs.map (·.1)).flatten ++ rest) → 42 ≤ ((fs.map (·.1)).flatten ++ rest).length →
    ∃ num n den s', mp3Duration ((fs.map (·.1)).flatten ++ rest).length
        ⟨(fs.map (·.1)).flatten ++ rest, 0, m, IoBits.none⟩ = (.ok (some (num, n, den)), s') ∧
      (num : Rat) * n / den = (fs.map fun f => (f.2.1 : Rat) / f.2.2).sum

/-- MPEG-2 layer III, 8 kbit/s, 24 kHz, mono: 24 bytes, 576/24000 s. -/
def tinyFrame : Bytes := [0xff, 0xf3, 0x14, 0xc0] ++ List.replicate 20 0
/-- MPEG-2 layer III, 8 kbit/s, 16 kHz, mono: 36 bytes, 576/16000 s. -/
def slowFrame : Bytes := [0xff, 0xf3, 0x18, 0xc0] ++ List.replicate 32 0

theorem tinyFrame_ok : IsFrame tinyFrame (576, 24000) :=
  ⟨⟨0xff, 0xf3, 0x14, 0xc0⟩, .v2, false, 8, 24000, false, true,
    ⟨by decide, ⟨2, by decide, by decide⟩, ⟨1, 1, 0, by decide, by decide, by decide, by decide⟩,
     ⟨3, 0, by decide, by decide, by decide, by decide⟩⟩, by decide, by decide, by decide⟩

theorem slowFrame_ok : IsFrame slowFrame (576, 16000) :=
  ⟨⟨0xff, 0xf3, 0x18, 0xc0⟩, .v2, false, 8, 16000, false, true,
    ⟨by decide, ⟨2, by decide, by decide⟩, ⟨1, 2, 0, by decide, by decide, by decide, by decide⟩,
     ⟨3, 0, by decide, by decide, by decide, by decide⟩⟩, by decide, by decide, by decide⟩

theorem tiny_noVbr (rest : Bytes) (h : 16 ≤ rest.length)
    (hv : rest.take 16 = slowFrame.take 16 ∨ rest.take 16 = tinyFrame.take 16) :
    NoVbr (tinyFrame ++ rest) := by
  have key : ∀ a b : Nat, a + b ≤ 40 →
      ((tinyFrame ++ rest).drop a).take b = ((tinyFrame ++ rest.take 16).drop a).take b := by
    intro a b hab
    have : (tinyFrame ++ rest) = (tinyFrame ++ rest.take 16) ++ rest.drop 16 := by
      rw [List.append_assoc, List.take_append_drop]
    rw [this, List.drop_append_of_le_length (by simp [tinyFrame]; omega),
      List.take_append_of_le_length (by simp [tinyFrame]; omega)]
  refine ⟨13, false, ⟨⟨0xff, 0xf3, 0x14, 0xc0⟩, .v2, 8, 24000, false, true,
    ⟨by decide, ⟨2, by decide, by decide⟩, ⟨1, 1, 0, by decide, by decide, by decide, by decide⟩,
     ⟨3, 0, by decide, by decide, by decide, by decide⟩⟩, rfl, by decide⟩, ?_⟩
  rw [key 13 4 (by omega), key 11 4 (by omega),
    key (36 + if false = true then 2 else 0) 4 (by simp)]
  rcases hv with hv | hv <;> rw [hv] <;> decide

/-- **Finding**: every frame is counted with the *first* frame's duration. A 24 kHz
frame followed by a 16 kHz frame lasts 24 + 36 = 60 ms; 48 ms are reported. -/
theorem C37_refuted : ¬ C37_sum_claim := by
  intro h
  obtain ⟨num, n, den, s', h1, h2⟩ := h [(tinyFrame, (576, 24000)), (slowFrame, (576, 16000))] []
    IoBits.all (by simp) (by
      intro f hf
      simp only [List.mem_cons, List.not_mem_nil, or_false] at hf
      rcases hf with rfl | rfl
      · exact tinyFrame_ok
      · exact slowFrame_ok) (.inl (by decide))
    (by
      have := tiny_noVbr slowFrame (by decide) (.inl rfl)
      simpa using this) (by decide)
  have hr : (mp3Duration 60 ⟨tinyFrame ++ slowFrame, 0, IoBits.all, IoBits.none⟩).1 =
      .ok (some (576, 2, 24000)) := by decide +kernel
  have h1' : mp3Duration 60 ⟨tinyFrame ++ slowFrame, 0, IoBits.all, IoBits.none⟩ =
      (.ok (some (num, n, den)), s') := by
    simpa [show (tinyFrame ++ slowFrame).length = 60 from rfl,
      show (tinyFrame.length + slowFrame.length) = 60 from rfl] using h1
  rw [h1'] at hr
  simp only [Res.ok.injEq, Option.some.injEq, Prod.mk.injEq] at hr
  obtain ⟨rfl, rfl, rfl⟩ := hr
  revert h2
  decide +kernel

/-- **C37** (constant sampling rate) If all frames last equally long, which is what
a constant sampling rate means, the sum is reported: `n` frames of `num/den`
seconds. The stream's mask is restored and it is left good. Missing from the full
claim: streams that change sampling rate or MPEG version, and streams (a single
frame) shorter than 42 bytes. -/
theorem C37_sum_partial (fs : List (Bytes × (Nat × Nat))) (rest pre : Bytes) (m : IoBits)
    (num den : Nat) (hne : fs ≠ []) (hall : ∀ f ∈ fs, IsFrame f.1 f.2)
    (hsame : ∀ f ∈ fs, f.2 = (num, den)) (hns : NoSync rest)
    (hv : NoVbr ((fs.map (·.1)).flatten ++ rest))
    (h42 : 42 ≤ ((fs.map (·.1)).flatten ++ rest).length)
    (fuel : Nat) (hf : (pre ++ ((fs.map (·.1)).flatten ++ rest)).length < fuel) :
    ∃ q, mp3Duration fuel ⟨pre ++ ((fs.map (·.1)).flatten ++ rest), pre.length, m, IoBits.none⟩ =
        (.ok (some (num, fs.length, den)),
          ⟨pre ++ ((fs.map (·.1)).flatten ++ rest), q, m, IoBits.none⟩) ∧
      (num : Rat) * (fs.length : Nat) / den = (fs.map fun f => (f.2.1 : Rat) / f.2.2).sum := by
  match fs, hne with
  | f0 :: fs, _ =>
    have hlen : fs.length ≤ fuel := by
      have : ∀ l : List (Bytes × (Nat × Nat)), (∀ f ∈ l, IsFrame f.1 f.2) →
          l.length ≤ ((l.map (·.1)).flatten).length := by
        intro l hl
        induction l with
        | nil => simp
        | cons a l ih =>
          obtain ⟨h, f, _, _, _, e, _, hle⟩ := isFrame_facts (hl a (by simp))
          have := ih (fun f hf => hl f (by simp [hf]))
          simp only [List.map_cons, List.flatten_cons, List.length_append, List.length_cons]
          omega
      have := this _ hall
      simp only [List.length_append, List.length_cons] at this hf
      omega
    obtain ⟨q, hq⟩ := mp3Duration_cbr f0 fs rest _ pre.length fuel m hall hns
      (List.drop_left) hv h42 hlen
    have h0 := hsame f0 (by simp)
    refine ⟨q, ?_, ?_⟩
    · rw [hq, h0, List.length_cons, Nat.add_comm]
    · have hsum : ∀ l : List (Bytes × (Nat × Nat)), (∀ f ∈ l, f.2 = (num, den)) →
          (num : Rat) * (l.length : Nat) / den = (l.map fun f => (f.2.1 : Rat) / f.2.2).sum := by
        intro l hl
        induction l with
        | nil => simp [Rat.div_def]
        | cons a l ih =>
          have hi := ih (fun f hf => hl f (by simp [hf]))
          simp only [List.map_cons, List.sum_cons, ← hi, hl a (by simp), List.length_cons]
          simp only [Rat.div_def, Rat.natCast_add]
          have h1 : ((1 : Nat) : Rat) = 1 := rfl
          rw [h1, Rat.mul_add, Rat.mul_one, Rat.add_mul, Rat.add_comm]
      exact hsum _ hsame

/-- Two 24 kHz frames followed by an ID3v1 tag's first bytes: 48 ms. -/
example : (mp3Duration 60 ⟨[1, 2] ++ (tinyFrame ++ tinyFrame ++ [0x54, 0x41, 0x47, 0x20]), 2,
    IoBits.all, IoBits.none⟩).1 = .ok (some (576, 2, 24000)) := by decide +kernel
example : NoVbr (tinyFrame ++ (tinyFrame ++ [0x54, 0x41, 0x47, 0x20])) :=
  tiny_noVbr _ (by decide) (.inr rfl)

/-- **C37** (VBR) If the first frame carries, right after its side information, a
"Xing" or "Info" header with a frame count and a byte count, the duration reported is
that many frames of the first frame's duration, wherever the frames themselves are;
and the get pointer is moved past that many bytes. The header must be followed by
enough bytes for its optional parts, and not by the letters "L3." where an encoder
signature is expected (`is_lame` would read past its buffer). -/
theorem C37_xing_partial (pre t : Bytes) (m : IoBits) (fuel n : Nat)
    (h : Hdr) (v : MpegVersion) (crc : Bool) (kb hz : Nat) (pad mono : Bool)
    (hl : IsLayerIII h v crc kb hz pad mono) (ht4 : t.take 4 = [h.b0, h.b1, h.b2, h.b3])
    (hn : n = 4 + (if crc then 2 else 0) + sideBytes v mono)
    (id : Bytes) (hid : id = xing ∨ id = info)
    (a b c fl f3 f2 f1 f0 b3 b2 b1 b0 : Byte) (tl : Bytes)
    (htn : t.drop n = id ++ [a, b, c, fl] ++ [f3, f2, f1, f0] ++ [b3, b2, b1, b0] ++ tl)
    (hframes : fl.toNat % 2 = 1) (hbytes : fl.toNat / 2 % 2 = 1) (htl : 136 ≤ tl.length)
    (hno : (tl.drop ((if fl.toNat / 4 % 2 = 1 then 100 else 0) +
        (if fl.toNat / 8 % 2 = 1 then 4 else 0))).take 3 ≠ [0x4c, 0x33, 0x2e]) :
    mp3Duration fuel ⟨pre ++ t, pre.length, m, IoBits.none⟩ =
      (.ok (some (samples v,
        f3.toNat * 2 ^ 24 + f2.toNat * 2 ^ 16 + f1.toNat * 2 ^ 8 + f0.toNat, hz)),
       ⟨pre ++ t, pre.length +
        (b3.toNat * 2 ^ 24 + b2.toNat * 2 ^ 16 + b1.toNat * 2 ^ 8 + b0.toNat), m, IoBits.none⟩) := by
  have hid' : id = XING ∨ id = INFO := hid
  have := mp3Duration_xing (d := pre ++ t) (fuel := fuel) (m := m) List.drop_left hl ht4 hn id hid' a b c fl
    [f3, f2, f1, f0] [b3, b2, b1, b0] tl rfl rfl (by rw [htn]; simp) hframes hbytes htl hno
  rw [this]
  have e : ∀ w x y z : Byte, beVal [w, x, y, z] =
      w.toNat * 2 ^ 24 + x.toNat * 2 ^ 16 + y.toNat * 2 ^ 8 + z.toNat := by
    intro w x y z
    simp [beVal]; omega
  rw [e, e]

/-- A Xing header announcing 5 frames in 200 bytes, without table of contents. -/
example : (mp3Duration 1 ⟨[0xff, 0xf3, 0x14, 0xc0] ++ List.replicate 9 0 ++ XING ++ [0, 0, 0, 3] ++
    [0, 0, 0, 5] ++ [0, 0, 0, 200] ++ List.replicate 150 0, 0, IoBits.all, IoBits.none⟩).1 =
    .ok (some (576, 5, 24000)) := by decide +kernel

/-- **Finding**: the scan is not free of undefined behaviour. On a stream of five bytes
without a frame, `find_sync` examines a buffer the failed read left uninitialised. -/
theorem C37_uninit_refuted : ¬ ∀ s : IStream, s.Good →
    ∀ fuel, s.data.length < fuel → ∀ u, (mp3Duration fuel s).1 ≠ .ub u := by
  intro h
  exact h ⟨[0, 0, 0, 0, 0], 0, IoBits.none, IoBits.none⟩ rfl 6 (by decide) .uninit (by decide +kernel)

/-- **Finding**: a "VBRI" header always makes the constructor write past a two-byte
object. -/
theorem C37_vbri_refuted : ¬ ∀ s : IStream, s.Good →
    ∀ fuel, s.data.length < fuel → ∀ u, (mp3Duration fuel s).1 ≠ .ub u := by
  intro h
  exact h ⟨[0xff, 0xf3, 0x14, 0xc0] ++ List.replicate 32 0 ++ VBRI ++ List.replicate 60 1,
    0, IoBits.none, IoBits.none⟩ rfl 101 (by decide) .oobWrite (by decide +kernel)

end Scribbu.Props
