import Verif.Spec.Mp3
import Verif.Proofs.Stream

namespace Scribbu
open Spec

/-- The whole of the header decoding, apart from the stream. -/
def decodeHdr (h : Hdr) : Option Mp3Frame :=
  if h.b0.toNat = 255 ∧ 224 ≤ h.b1.toNat ∧ bits h.b1 1 4 = 1 then
    match mpegVersion (bits h.b1 3 4) with
    | none => none
    | some v =>
      match kbps v (bits h.b2 4 16), hertz v (bits h.b2 2 4) with
      | some kb, some hz =>
        some { version := v, crc := decide (bits h.b1 0 2 = 0), bitrate := kb * 1000,
               sampleRate := hz, padded := decide (bits h.b2 1 2 ≠ 0),
               priv := decide (bits h.b2 0 2 ≠ 0), channelMode := bits h.b3 6 4,
               sideInfo := sideBytes v (decide (bits h.b3 6 4 = 3)),
               size := frameBytes v kb hz (decide (bits h.b2 1 2 ≠ 0)) }
      | _, _ => none
  else none

theorem isSync_iff (b0 b1 : Byte) : isSync b0 b1 = true ↔ b0.toNat = 255 ∧ 224 ≤ b1.toNat := by
  unfold isSync
  rw [Bool.and_eq_true, beq_iff_eq, decide_eq_true_eq, UInt8.le_iff_toNat_le, ← UInt8.toNat_inj]
  rfl

theorem bits_lt (b : Byte) (k m : Nat) (h : 0 < m) : bits b k m < m := Nat.mod_lt _ h

def vIdx : MpegVersion → Nat
  | .v1 => 0 | .v2 => 1 | .v25 => 2

theorem kbps_table (v : MpegVersion) : ∀ j < 16, j ≠ 0 → j ≠ 15 →
    rd2 bitratesBps (if v = .v1 then 0 else 1) (j - 1) = .ok ((kbps v j).getD 0 * 1000) ∧
    (kbps v j).isSome = true := by
  cases v <;> decide +kernel

theorem kbps_none (v : MpegVersion) : kbps v 0 = none ∧ kbps v 15 = none := by
  cases v <;> decide +kernel

theorem hertz_table (v : MpegVersion) : ∀ j < 4, j ≠ 3 →
    rd2 sampleRateHz (vIdx v) j = .ok ((hertz v j).getD 0) ∧ (hertz v j).isSome = true := by
  cases v <;> decide +kernel

theorem hertz_none (v : MpegVersion) : hertz v 3 = none := by
  cases v <;> decide +kernel

theorem size_table (v : MpegVersion) : ∀ bi < 16, ∀ si < 4, ∀ kb, kbps v bi = some kb →
    ∀ hz, hertz v si = some hz →
    (if v = .v1 then 1152 else 576) * (kb * 1000) / 8 / hz = frameBytes v kb hz false ∧
    24 ≤ frameBytes v kb hz false ∧ 0 < hz ∧
    (v = .v1 → 96 ≤ frameBytes v kb hz false) := by
  have key : ∀ (bi : Fin 16) (si : Fin 4), (kbps v bi).isSome = true ∧ (hertz v si).isSome = true →
    (if v = .v1 then 1152 else 576) * ((kbps v bi).getD 0 * 1000) / 8 / (hertz v si).getD 0
      = frameBytes v ((kbps v bi).getD 0) ((hertz v si).getD 0) false ∧
    24 ≤ frameBytes v ((kbps v bi).getD 0) ((hertz v si).getD 0) false ∧
    0 < (hertz v si).getD 0 ∧
    (v = .v1 → 96 ≤ frameBytes v ((kbps v bi).getD 0) ((hertz v si).getD 0) false) := by
    cases v <;> decide +kernel
  intro bi hbi si hsi kb hkb hz hhz
  have := key ⟨bi, hbi⟩ ⟨si, hsi⟩ ⟨by simp [hkb], by simp [hhz]⟩
  simpa [hkb, hhz] using this

theorem kbps_lt {v : MpegVersion} {i kb : Nat} (h : kbps v i = some kb) : i < 15 ∧ i ≠ 0 := by
  unfold kbps at h
  split at h
  · cases h
  · rename_i h0
    refine ⟨?_, h0⟩
    split at h <;> exact (List.getElem?_eq_some_iff.1 h).1

theorem hertz_lt {v : MpegVersion} {i hz : Nat} (h : hertz v i = some hz) : i < 3 := by
  unfold hertz at h
  rw [Option.map_eq_some_iff] at h
  obtain ⟨r, h, -⟩ := h
  exact (List.getElem?_eq_some_iff.1 h).1

/-- `decodeHdr` accepts exactly the layer III headers, with their field values. -/
theorem decodeHdr_iff (h : Hdr) (f : Mp3Frame) :
    decodeHdr h = some f →
    ∃ kb, IsLayerIII h f.version f.crc kb f.sampleRate f.padded (decide (f.channelMode = 3)) ∧
      f.bitrate = kb * 1000 ∧ f.size = frameBytes f.version kb f.sampleRate f.padded ∧
      f.sideInfo = sideBytes f.version (decide (f.channelMode = 3)) ∧
      4 + (if f.crc then 2 else 0) + f.sideInfo ≤ f.size ∧ 0 < f.sampleRate := by
  intro hd
  unfold decodeHdr at hd
  split at hd
  case isFalse => cases hd
  rename_i h0
  obtain ⟨h0, h1, h2⟩ := h0
  split at hd
  · cases hd
  rename_i v hv
  split at hd
  case h_2 => cases hd
  rename_i kb hz hkb hhz
  simp only [Option.some.injEq] at hd
  subst hd
  have hb2 := bits_lt h.b2 4 16 (by omega)
  have hb3 := bits_lt h.b2 2 4 (by omega)
  have hst := size_table v _ hb2 _ hb3 kb hkb hz hhz
  refine ⟨kb, ⟨h0, ⟨bits h.b1 3 4, hv, ?_⟩, ⟨bits h.b2 4 16, bits h.b2 2 4, bits h.b2 0 2, hkb, hhz,
    bits_lt _ _ _ (by omega), ?_⟩, ⟨bits h.b3 6 4, h.b3.toNat % 64, bits_lt _ _ _ (by omega),
    Nat.mod_lt _ (by omega), ?_, rfl⟩⟩, rfl, rfl, rfl, ?_, hst.2.2.1⟩
  · have := h.b1.toNat_lt
    simp only [bits] at h2 ⊢
    by_cases hc : h.b1.toNat / 2 ^ 0 % 2 = 0
    · simp only [hc, decide_true, if_true]; omega
    · simp only [hc, decide_false]
      simp only [Bool.false_eq_true, if_false]; omega
  · have := h.b2.toNat_lt
    simp only [bits]
    by_cases hc : h.b2.toNat / 2 ^ 1 % 2 ≠ 0
    · simp [hc]; omega
    · simp at hc; simp [hc]; omega
  · have := h.b3.toNat_lt
    simp only [bits]; omega
  · have hle : frameBytes v kb hz false ≤ frameBytes v kb hz (decide (bits h.b2 1 2 ≠ 0)) := by
      unfold frameBytes; simp
    have h24 := hst.2.1
    have h96 := hst.2.2.2
    cases v <;> cases hm : decide (bits h.b3 6 4 = 3) <;>
      (try have h96 := h96 rfl) <;> simp only [sideBytes] <;> split <;> omega

theorem decodeHdr_of {h : Hdr} {v : MpegVersion} {crc : Bool} {kb hz : Nat} {pad mono : Bool}
    (hl : IsLayerIII h v crc kb hz pad mono) : ∃ f, decodeHdr h = some f ∧
      f.version = v ∧ f.crc = crc ∧ f.bitrate = kb * 1000 ∧ f.sampleRate = hz ∧ f.padded = pad ∧
      decide (f.channelMode = 3) = mono ∧ f.size = frameBytes v kb hz pad ∧
      f.sideInfo = sideBytes v mono := by
  obtain ⟨h0, ⟨vb, hv, h1⟩, ⟨bi, si, pr, hkb, hhz, hpr, h2⟩, ⟨ch, low, hch, hlow, h3, hm⟩⟩ := hl
  have hvb : vb < 4 := by
    unfold mpegVersion at hv; split at hv <;> first | omega | cases hv
  have hbi := kbps_lt hkb
  have hsi := hertz_lt hhz
  have e1 : bits h.b1 3 4 = vb := by
    simp only [bits]; cases crc <;> simp at h1 <;> omega
  have e2 : bits h.b1 1 4 = 1 := by
    simp only [bits]; cases crc <;> simp at h1 <;> omega
  have e3 : decide (bits h.b1 0 2 = 0) = crc := by
    simp only [bits]; cases crc <;> simp at h1 ⊢ <;> omega
  have e4 : bits h.b2 4 16 = bi := by
    simp only [bits]; cases pad <;> simp at h2 <;> omega
  have e5 : bits h.b2 2 4 = si := by
    simp only [bits]; cases pad <;> simp at h2 <;> omega
  have e6 : decide (bits h.b2 1 2 ≠ 0) = pad := by
    simp only [bits]; cases pad <;> simp at h2 ⊢ <;> omega
  have e7 : bits h.b3 6 4 = ch := by
    simp only [bits]; omega
  refine ⟨_, by
    unfold decodeHdr
    rw [if_pos ⟨h0, by cases crc <;> simp at h1 <;> omega, e2⟩, e1, hv]
    simp only [e4, e5, hkb, hhz]
    rfl, ?_⟩
  simp only [e6, e7, e3]
  exact ⟨trivial, trivial, trivial, trivial, trivial, hm.symm, trivial, by rw [hm]⟩

/-- What `parse_header` does after the version and layer checks, given whether a
CRC was read. -/
def hdrTail (h : Hdr) (here : Int) (v : MpegVersion) (crc : Bool) : SM Mp3Frame := do
  let i := if v = .v1 then 0 else 1
  let j := bits h.b2 4 16
  if j = 0 then do
    SM.seekBeg here
    SM.throw .mp3Error
  else if j = 15 then do
    SM.seekBeg here
    SM.throw .mp3Error
  else do
  let bitrate ← SM.lift (rd2 bitratesBps i (j - 1))
  let i := match v with | .v1 => 0 | .v2 => 1 | .v25 => 2
  let j := bits h.b2 2 4
  if j = 3 then do
    SM.seekBeg here
    SM.throw .mp3Error
  else do
  let rate ← SM.lift (rd2 sampleRateHz i j)
  let padded := bits h.b2 1 2 ≠ 0
  let priv := bits h.b2 0 2 ≠ 0
  let ch := bits h.b3 6 4
  let side : Nat := if v = .v1 then (if ch = 3 then 17 else 32) else (if ch = 3 then 9 else 17)
  SM.seekCur side
  let spf := if v = .v1 then 1152 else 576
  let size := spf * bitrate / 8 / rate + (if padded then 1 else 0)
  pure { version := v, crc := crc, bitrate := bitrate, sampleRate := rate, padded := padded,
         priv := priv, channelMode := ch, sideInfo := side, size := size }

/-- The frame `hdrTail` builds. -/
def tailFrame (h : Hdr) (v : MpegVersion) (crc : Bool) : Option Mp3Frame :=
  match kbps v (bits h.b2 4 16), hertz v (bits h.b2 2 4) with
  | some kb, some hz =>
    some { version := v, crc := crc, bitrate := kb * 1000,
           sampleRate := hz, padded := decide (bits h.b2 1 2 ≠ 0),
           priv := decide (bits h.b2 0 2 ≠ 0), channelMode := bits h.b3 6 4,
           sideInfo := sideBytes v (decide (bits h.b3 6 4 = 3)),
           size := frameBytes v kb hz (decide (bits h.b2 1 2 ≠ 0)) }
  | _, _ => none

def hdrIdx (v : MpegVersion) : Nat := match v with | .v1 => 0 | .v2 => 1 | .v25 => 2

theorem hdrTail_eq (h : Hdr) (here : Int) (v : MpegVersion) (crc : Bool) :
    hdrTail h here v crc =
      match tailFrame h v crc with
      | some f => SM.seekCur f.sideInfo >>= fun _ => pure f
      | none => SM.seekBeg here >>= fun _ => SM.throw .mp3Error := by
  have hb2 := bits_lt h.b2 4 16 (by omega)
  have hb3 := bits_lt h.b2 2 4 (by omega)
  unfold hdrTail tailFrame
  by_cases h0 : bits h.b2 4 16 = 0
  · simp only [h0, if_true, (kbps_none v).1]
  by_cases h15 : bits h.b2 4 16 = 15
  · simp only [h15, if_true, (kbps_none v).2]; rfl
  obtain ⟨ht, hs⟩ := kbps_table v _ hb2 h0 h15
  obtain ⟨kb, hkb⟩ := Option.isSome_iff_exists.1 hs
  simp only [h0, h15, if_false, ht, hkb]
  by_cases h3 : bits h.b2 2 4 = 3
  · simp only [h3, if_true, hertz_none]; rfl
  obtain ⟨ht', hs'⟩ := hertz_table v _ hb3 h3
  obtain ⟨hz, hhz⟩ := Option.isSome_iff_exists.1 hs'
  obtain ⟨hsz, -⟩ := size_table v _ hb2 _ hb3 kb hkb hz hhz
  have hi : hdrIdx v = vIdx v := by cases v <;> rfl
  simp only [hdrIdx] at hi
  simp only [h3, if_false, hi, ht', hhz, Option.getD_some]
  have hside : (if v = .v1 then (if bits h.b3 6 4 = 3 then 17 else 32)
      else (if bits h.b3 6 4 = 3 then 9 else 17)) =
      sideBytes v (decide (bits h.b3 6 4 = 3)) := by
    cases v <;> by_cases hc : bits h.b3 6 4 = 3 <;> simp [hc, sideBytes]
  have hsize : (if v = .v1 then 1152 else 576) * (kb * 1000) / 8 / hz +
      (if bits h.b2 1 2 ≠ 0 then 1 else 0) =
      frameBytes v kb hz (decide (bits h.b2 1 2 ≠ 0)) := by
    rw [hsz]; unfold frameBytes; simp
  funext s
  simp only [SM.bind_apply, SM.lift_apply, hside, hsize]

/-- The CRC step. -/
def crcStep (h : Hdr) : SM Bool :=
  if bits h.b1 0 2 = 0 then do
      let b ← SM.read 2
      if b.length ≠ 2 then SM.ub .uninit else pure true
    else pure false

theorem parseHeaderBody_eq (h : Hdr) (here : Int) :
    parseHeaderBody h here =
      if ¬ (h.b0.toNat = 255 ∧ 224 ≤ h.b1.toNat) then SM.throw .mp3Error
      else match mpegVersion (bits h.b1 3 4) with
        | none => SM.throw .mp3Error
        | some v => if bits h.b1 1 4 ≠ 1 then SM.seekBeg here >>= fun _ => SM.throw .mp3Error
          else crcStep h >>= fun crc => hdrTail h here v crc := by
  unfold parseHeaderBody
  by_cases hs : isSync h.b0 h.b1 = true
  · have := (isSync_iff _ _).1 hs
    simp only [hs, Bool.not_true, Bool.false_eq_true, if_false, this, and_self, not_true_eq_false]
    have hb := bits_lt h.b1 3 4 (by omega)
    generalize bits h.b1 3 4 = vb at hb
    match vb, hb with
    | 0, _ => rfl
    | 1, _ => rfl
    | 2, _ => rfl
    | 3, _ => rfl
  · have hn : ¬ (h.b0.toNat = 255 ∧ 224 ≤ h.b1.toNat) := fun c => hs ((isSync_iff _ _).2 c)
    simp only [hs, Bool.not_false, if_true, hn, not_false_eq_true]

theorem decodeHdr_eq (h : Hdr) : decodeHdr h =
    if ¬ (h.b0.toNat = 255 ∧ 224 ≤ h.b1.toNat) then none
      else match mpegVersion (bits h.b1 3 4) with
        | none => none
        | some v => if bits h.b1 1 4 ≠ 1 then none
          else tailFrame h v (decide (bits h.b1 0 2 = 0)) := by
  unfold decodeHdr tailFrame
  by_cases h1 : h.b0.toNat = 255 ∧ 224 ≤ h.b1.toNat
  · by_cases h2 : bits h.b1 1 4 = 1
    · simp only [h1.1, h1.2, h2, and_self, if_true, not_true_eq_false, if_false, ne_eq]
    · simp only [h1.1, h1.2, h2, and_false, if_true, not_true_eq_false, if_false, ne_eq,
        not_false_eq_true, and_self]
      cases mpegVersion (bits h.b1 3 4) <;> rfl
  · rw [if_pos h1, if_neg (fun c => h1 ⟨c.1, c.2.1⟩)]

/-- On a good stream that still has the CRC (if one is announced). -/
theorem parseHeader_good (h : Hdr) (d : Bytes) (p : Nat) (m : IoBits)
    (hroom : bits h.b1 0 2 = 0 → p + 2 ≤ d.length) :
    parseHeader h ⟨d, p, m, IoBits.none⟩ =
      match decodeHdr h with
      | some f => (.ok f, ⟨d, p + (if f.crc then 2 else 0) + f.sideInfo, m, IoBits.none⟩)
      | none => (.throw .mp3Error, ⟨d, p, m, IoBits.none⟩) := by
  have crc_ok : crcStep h ⟨d, p, m, IoBits.none⟩ =
      (.ok (decide (bits h.b1 0 2 = 0)),
        ⟨d, p + (if bits h.b1 0 2 = 0 then 2 else 0), m, IoBits.none⟩) := by
    unfold crcStep
    by_cases hc : bits h.b1 0 2 = 0
    · have hl : ((d.drop p).take 2).length = 2 := by
        have := hroom hc; simp; omega
      simp only [hc, if_true, SM.bind_ok (SM.read_full 2 d p m (hroom hc)), hl, ne_eq,
        not_true_eq_false, if_false, decide_true]
      rfl
    · simp only [hc, if_false, decide_false]; rfl
  have eof0 : IoBits.none.eof = false := rfl
  unfold parseHeader
  rw [SM.bind_ok (SM.tellg_good d p m), parseHeaderBody_eq, decodeHdr_eq]
  by_cases h1 : h.b0.toNat = 255 ∧ 224 ≤ h.b1.toNat
  · simp only [h1, and_self, not_true_eq_false, if_false]
    cases hv : mpegVersion (bits h.b1 3 4) with
    | none => simp [SM.onThrow, SM.state, eof0]
    | some v =>
      simp only
      by_cases h2 : bits h.b1 1 4 = 1
      · simp only [h2, ne_eq, not_true_eq_false, if_false]
        unfold SM.onThrow
        rw [SM.bind_ok crc_ok, hdrTail_eq]
        cases ht : tailFrame h v (decide (bits h.b1 0 2 = 0)) with
        | none => simp [SM.state, eof0]
        | some f =>
          have hcr : f.crc = decide (bits h.b1 0 2 = 0) := by
            unfold tailFrame at ht
            split at ht
            · cases ht; rfl
            · cases ht
          simp only [SM.bind_apply, SM.seekCur]
          rw [SM.seekAbs_good _ _ _ (by omega), hcr]
          simp only [SM.pure_apply', decide_eq_true_eq]
          congr 2
      · simp [h2, SM.onThrow, SM.state, eof0]
  · simp [h1, SM.onThrow, SM.state, eof0]

/-- Whatever the stream's state, an accepted header decodes. -/
theorem parseHeader_ok {h : Hdr} {s s' : IStream} {f : Mp3Frame}
    (hok : parseHeader h s = (.ok f, s')) : decodeHdr h = some f := by
  unfold parseHeader at hok
  rw [SM.bind_apply] at hok
  split at hok
  case h_2 => cases hok
  case h_3 => cases hok
  rename_i here s1 _
  unfold SM.onThrow at hok
  rw [parseHeaderBody_eq] at hok
  rw [decodeHdr_eq]
  by_cases h1 : h.b0.toNat = 255 ∧ 224 ≤ h.b1.toNat
  rotate_left
  · simp only [h1, not_false_eq_true, if_true, SM.throw_apply] at hok
    split at hok <;> cases hok
  simp only [h1, and_self, not_true_eq_false, if_false] at hok ⊢
  cases hv : mpegVersion (bits h.b1 3 4) with
  | none =>
    simp only [hv, SM.throw_apply] at hok
    split at hok <;> cases hok
  | some v =>
    simp only [hv] at hok ⊢
    by_cases h2 : bits h.b1 1 4 = 1
    rotate_left
    · exfalso
      simp only [h2, ne_eq, not_false_eq_true, if_true, SM.bind_apply, SM.throw_apply] at hok
      split at hok
      · split at hok <;> cases hok
      · rename_i hne hx
        generalize SM.seekBeg here s1 = q at hok
        rcases q with ⟨_ | _ | _, _⟩ <;> simp at hok
    simp only [h2, ne_eq, not_true_eq_false, if_false] at hok ⊢
    rw [SM.bind_apply] at hok
    have hcrc : ∀ b s2, crcStep h s1 = (.ok b, s2) → b = decide (bits h.b1 0 2 = 0) := by
      intro b s2 hb
      unfold crcStep at hb
      split at hb
      · rename_i hc
        rw [SM.bind_apply] at hb
        split at hb
        · split at hb
          · cases hb
          · cases hb; simp [hc]
        · cases hb
        · cases hb
      · rename_i hc; cases hb; simp [hc]
    generalize crcStep h s1 = q at hok hcrc
    rcases q with ⟨b | e | u, s2⟩
    · have hb := hcrc b s2 rfl
      simp only [hdrTail_eq] at hok
      rw [← hb]
      cases ht : tailFrame h v b with
      | none =>
        exfalso
        simp only [ht, SM.bind_apply, SM.throw_apply] at hok
        generalize SM.seekBeg here s2 = q at hok
        rcases q with ⟨_ | _ | _, _⟩ <;> simp only at hok
        all_goals first | (split at hok <;> cases hok) | cases hok
      | some g =>
        simp only [ht, SM.bind_apply] at hok
        generalize SM.seekCur g.sideInfo s2 = q at hok
        rcases q with ⟨_ | _ | _, _⟩ <;> simp only at hok
        · cases hok; rfl
        · split at hok <;> cases hok
        · cases hok
    · simp only at hok; split at hok <;> cases hok
    · simp only at hok; cases hok

end Scribbu
