import Verif.Proofs.Mp3Dur

namespace Scribbu
open Spec

theorem take4_of_drop {d t : Bytes} {p : Nat} (h : d.drop p = t) (hl : 4 ≤ t.length) :
    p + 4 ≤ d.length ∧ (d.drop p).take 4 = t.take 4 := by
  have : (d.drop p).length = t.length := by rw [h]
  rw [List.length_drop] at this
  exact ⟨by omega, by rw [h]⟩

theorem layerIII_sync {h : Hdr} {v : MpegVersion} {crc : Bool} {kb hz : Nat} {pad mono : Bool}
    (hl : IsLayerIII h v crc kb hz pad mono) : isSync h.b0 h.b1 = true := by
  rw [isSync_iff]
  obtain ⟨h0, ⟨vb, hv, h1⟩, -⟩ := hl
  refine ⟨h0, ?_⟩
  omega

/-- The facts about one frame that the proofs below use. -/
theorem isFrame_facts {bs : Bytes} {dur : Nat × Nat} (hf : IsFrame bs dur) :
    ∃ h f, decodeHdr h = some f ∧ isSync h.b0 h.b1 = true ∧ bs.take 4 = [h.b0, h.b1, h.b2, h.b3] ∧
      bs.length = f.size ∧ f.duration = dur ∧
      4 + (if f.crc then 2 else 0) + f.sideInfo ≤ f.size := by
  obtain ⟨h, v, crc, kb, hz, pad, mono, hl, ht, hlen, hd⟩ := hf
  obtain ⟨f, hdec, e1, e2, e3, e4, e5, e6, e7, e8⟩ := decodeHdr_of hl
  obtain ⟨kb', -, -, -, -, hle, -⟩ := decodeHdr_iff h f hdec
  refine ⟨h, f, hdec, layerIII_sync hl, ht, by rw [hlen, e7], ?_, hle⟩
  rw [hd, Mp3Frame.duration, e1, e4]
  cases v <;> rfl

theorem countFrames_count : ∀ (fs : List (Bytes × (Nat × Nat))) (rest d : Bytes) (p fuel : Nat)
    (h : Hdr) (n : Nat), (∀ f ∈ fs, IsFrame f.1 f.2) → NoSync rest →
    d.drop p = (fs.map (·.1)).flatten ++ rest → fs.length ≤ fuel →
    ∃ p', countFrames fuel h n ⟨d, p, badOnly, IoBits.none⟩ =
      (.ok (some (n + fs.length)), ⟨d, p', badOnly, IoBits.none⟩) := by
  intro fs
  induction fs with
  | nil =>
    intro rest d p fuel h n _ hns hd _
    simp only [List.map_nil, List.flatten_nil, List.nil_append] at hd
    rw [countFrames_unfold]
    by_cases hl : p + 4 ≤ d.length
    · obtain ⟨a, b, c, e, ht, he⟩ := readHdr_full h d p badOnly hl
      rw [SM.bind_ok he, SM.bind_ok (show SM.isOk ⟨d, p + 4, badOnly, IoBits.none⟩ =
          (.ok true, ⟨d, p + 4, badOnly, IoBits.none⟩) from rfl)]
      have hno : isSync a b = false := by
        rw [hd] at ht
        rcases hns with hs | ⟨a', b', r, hr, hn⟩
        · have := congrArg List.length ht
          simp at this; omega
        · rw [hr] at ht
          simp at ht
          obtain ⟨rfl, rfl, -⟩ := ht
          rw [← Bool.not_eq_true, isSync_iff]; exact hn
      simp only [hno, Bool.not_false, Bool.or_true, if_true]
      exact ⟨_, rfl⟩
    · obtain ⟨h', p', he⟩ := readHdr_short h d p (by omega)
      rw [SM.bind_ok he, SM.bind_ok (isOk_failed ⟨rfl, .inl rfl⟩)]
      exact ⟨_, rfl⟩
  | cons f fs ih =>
    intro rest d p fuel h n hall hns hd hfuel
    obtain ⟨h', fr, hdec, hsy, ht, hlen, hdur, hle⟩ := isFrame_facts (hall f (by simp))
    have h4 : 4 ≤ f.1.length := by rw [hlen]; omega
    simp only [List.map_cons, List.flatten_cons, List.append_assoc] at hd
    obtain ⟨hroom, htk⟩ := take4_of_drop hd (by simp; omega)
    have hdl : d.length = p + (f.1.length + ((fs.map (·.1)).flatten ++ rest).length) := by
      have := congrArg List.length hd
      rw [List.length_drop, List.length_append] at this
      omega
    obtain ⟨a, b, c, e, ht2, he⟩ := readHdr_full h d p badOnly hroom
    rw [htk, List.take_append_of_le_length h4, ht] at ht2
    simp only [List.cons.injEq, and_true] at ht2
    obtain ⟨rfl, rfl, rfl, rfl⟩ := ht2
    rw [countFrames_unfold, SM.bind_ok he, SM.bind_ok (show SM.isOk ⟨d, p + 4, badOnly, IoBits.none⟩ =
          (.ok true, ⟨d, p + 4, badOnly, IoBits.none⟩) from rfl)]
    simp only [hsy, Bool.not_true, Bool.or_self, Bool.false_eq_true, if_false]
    match fuel, hfuel with
    | fuel + 1, hfuel =>
      simp only
      rw [SM.bind_ok (mp3Frame_false_good hdec (by
        intro hc; simp only [hc, if_true] at hle; omega))]
      have hp : p + 4 + (fr.size - 4) = p + f.1.length := by rw [hlen]; omega
      rw [hp]
      obtain ⟨p', hp'⟩ := ih rest d (p + f.1.length) fuel ⟨h'.b0, h'.b1, h'.b2, h'.b3⟩ (n + 1)
        (fun g hg => hall g (by simp [hg])) hns (by
          rw [← List.drop_drop, hd, List.drop_left]) (by simp at hfuel; omega)
      refine ⟨p', ?_⟩
      rw [hp', List.length_cons, Nat.add_assoc, Nat.add_comm 1]

theorem readOver_full (buf : Bytes) (n : Nat) (d : Bytes) (p : Nat) (m : IoBits)
    (hb : buf.length = n) (h : p + n ≤ d.length) :
    readOver buf n ⟨d, p, m, IoBits.none⟩ = (.ok ((d.drop p).take n), ⟨d, p + n, m, IoBits.none⟩) := by
  unfold readOver
  rw [SM.bind_ok (SM.read_full n d p m h)]
  have : ((d.drop p).take n).length = n := by simp; omega
  rw [this, List.drop_of_length_le (Nat.le_of_eq hb), List.append_nil]
  rfl

theorem readInit_full (n : Nat) (d : Bytes) (p : Nat) (m : IoBits) (h : p + n ≤ d.length) :
    readInit n ⟨d, p, m, IoBits.none⟩ = (.ok ((d.drop p).take n), ⟨d, p + n, m, IoBits.none⟩) := by
  unfold readInit
  rw [SM.bind_ok (SM.read_full n d p m h)]
  have : ((d.drop p).take n).length = n := by simp; omega
  rw [this, if_neg (by simp)]
  rfl

theorem seekCur_good {n : Int} (d : Bytes) (p : Nat) (m : IoBits) (h : 0 ≤ (p : Int) + n) :
    SM.seekCur n ⟨d, p, m, IoBits.none⟩ = (.ok (), ⟨d, ((p : Int) + n).toNat, m, IoBits.none⟩) :=
  SM.seekAbs_good d p m h

theorem parseVbr_none (d : Bytes) (q side : Nat) (m : IoBits) (hq : 2 ≤ q) (hs : side ≤ q + 32)
    (h1 : q + 4 ≤ d.length) (h3 : q + 32 - side + 4 ≤ d.length)
    (n1 : (d.drop q).take 4 ≠ XING) (n2 : (d.drop q).take 4 ≠ INFO)
    (n3 : (d.drop (q - 2)).take 4 ≠ XING) (n4 : (d.drop (q - 2)).take 4 ≠ INFO)
    (n5 : (d.drop (q + 32 - side)).take 4 ≠ VBRI) :
    parseVbr side ⟨d, q, m, IoBits.none⟩ = (.ok none, ⟨d, q, m, IoBits.none⟩) := by
  unfold parseVbr
  rw [SM.bind_ok (SM.tellg_good _ _ _), SM.bind_ok (readOver_full _ 4 d q m rfl h1)]
  rw [if_neg (by simp [n1, n2]), SM.bind_assoc,
    SM.bind_ok (seekCur_good d _ m (by omega))]
  rw [show (((q + 4 : Nat) : Int) + -6).toNat = q - 2 by omega]
  rw [SM.bind_assoc, SM.bind_ok (readOver_full _ 4 d (q - 2) m (by simp; omega) (by omega))]
  rw [if_neg (by simp [n3, n4]), SM.bind_assoc, SM.bind_ok (seekCur_good d _ m (by omega))]
  rw [show (((q - 2 + 4 : Nat) : Int) + (32 - (side : Int) - 2)).toNat = q + 32 - side by omega]
  rw [SM.bind_assoc, SM.bind_ok (readOver_full _ 4 d _ m (by simp; omega) (by omega))]
  rw [if_neg n5, SM.bind_ok (SM.pure_apply' _ _), SM.bind_ok (SM.seekBeg_nat _ _ _ _)]
  rfl

theorem drop_take_add {d : Bytes} {p : Nat} {t : Bytes} (h : d.drop p = t) (k : Nat) :
    d.drop (p + k) = t.drop k := by rw [← h, List.drop_drop]

/-- The first frame, with the check for a VBR header finding none. -/
theorem mp3Frame_true_none {h : Hdr} {f : Mp3Frame} {d t : Bytes} {p : Nat} {m : IoBits}
    (hd : decodeHdr h = some f) (ht : d.drop p = t) (hlen : f.size ≤ t.length)
    (h42 : 42 ≤ t.length)
    (n1 : (t.drop (4 + (if f.crc then 2 else 0) + f.sideInfo)).take 4 ≠ XING ∧
          (t.drop (4 + (if f.crc then 2 else 0) + f.sideInfo)).take 4 ≠ INFO)
    (n2 : (t.drop (4 + (if f.crc then 2 else 0) + f.sideInfo - 2)).take 4 ≠ XING ∧
          (t.drop (4 + (if f.crc then 2 else 0) + f.sideInfo - 2)).take 4 ≠ INFO)
    (n3 : (t.drop (36 + (if f.crc then 2 else 0))).take 4 ≠ VBRI) :
    mp3Frame h true ⟨d, p + 4, m, IoBits.none⟩ =
      (.ok (f, none), ⟨d, p + f.size, m, IoBits.none⟩) := by
  obtain ⟨kb, -, -, -, hside, hle, -⟩ := decodeHdr_iff h f hd
  have hdl : d.length = p + t.length := by
    have := congrArg List.length ht
    rw [List.length_drop] at this
    omega
  have h32 : f.sideInfo ≤ 32 := by
    rw [hside]; cases f.version <;> cases decide (f.channelMode = 3) <;> simp [sideBytes]
  have h32' : f.version = .v1 → 96 ≤ f.size := by
    intro hv
    obtain ⟨kb, ⟨_, _, ⟨bi, si, _, hk, hh, _⟩, _⟩, _, hsz, _⟩ := decodeHdr_iff h f hd
    have := (size_table f.version bi (by have := kbps_lt hk; omega) si
      (by have := hertz_lt hh; omega) kb hk _ hh).2.2.2 hv
    rw [hsz]
    unfold frameBytes at this ⊢
    simp at this; omega
  have h17 : f.version ≠ .v1 → f.sideInfo ≤ 17 := by
    intro hv; rw [hside]
    cases hc : f.version <;> cases decide (f.channelMode = 3) <;> simp_all [sideBytes]
  have hfit : 4 + (if f.crc then 2 else 0) + f.sideInfo + 4 ≤ t.length := by
    by_cases hv : f.version = .v1
    · have := h32' hv; split <;> omega
    · have := h17 hv; split <;> omega
  have hp := parseHeader_good h d (p + 4) m (by
    intro hb
    omega)
  rw [hd] at hp
  unfold mp3Frame
  rw [SM.bind_ok hp]
  simp only [if_true]
  have hkI : (if f.crc then (2 : Int) else 0) = (((if f.crc then 2 else 0 : Nat)) : Int) := by
    split <;> rfl
  rw [hkI]
  clear hkI hp
  have hk2 : (if f.crc then 2 else 0) ≤ 2 := by split <;> omega
  generalize (if f.crc then 2 else 0) = k at *
  rw [SM.bind_ok (parseVbr_none d (p + 4 + k + f.sideInfo) f.sideInfo m (by omega) (by omega)
    (by omega) (by omega) ?_ ?_ ?_ ?_ ?_)]
  · rw [SM.bind_ok (seekCur_good _ _ _ (by omega))]
    simp only [SM.pure_apply']
    congr 2
    omega
  · rw [show p + 4 + k + f.sideInfo = p + (4 + k + f.sideInfo) by omega, drop_take_add ht]; exact n1.1
  · rw [show p + 4 + k + f.sideInfo = p + (4 + k + f.sideInfo) by omega, drop_take_add ht]; exact n1.2
  · rw [show p + 4 + k + f.sideInfo - 2 = p + (4 + k + f.sideInfo - 2) by omega, drop_take_add ht]
    exact n2.1
  · rw [show p + 4 + k + f.sideInfo - 2 = p + (4 + k + f.sideInfo - 2) by omega, drop_take_add ht]
    exact n2.2
  · rw [show p + 4 + k + f.sideInfo + 32 - f.sideInfo = p + (36 + k) by omega, drop_take_add ht]
    exact n3

theorem durTail_cbr {h : Hdr} {f : Mp3Frame} {d : Bytes} {p : Nat} {m : IoBits} {here : Int}
    {fuel n q : Nat}
    (hsy : isSync h.b0 h.b1 = true)
    (hfr : mp3Frame h true ⟨d, p + 4, badOnly, IoBits.none⟩ =
      (.ok (f, none), ⟨d, p + f.size, badOnly, IoBits.none⟩))
    (hc : countFrames fuel h 1 ⟨d, p + f.size, badOnly, IoBits.none⟩ =
      (.ok (some n), ⟨d, q, badOnly, IoBits.none⟩)) :
    durTail fuel m here h ⟨d, p + 4, badOnly, IoBits.none⟩ =
      (.ok (some (f.duration.1, n, f.duration.2)), ⟨d, q, m, IoBits.none⟩) := by
  unfold durTail
  rw [SM.bind_ok (show SM.isOk ⟨d, p + 4, badOnly, IoBits.none⟩ =
          (.ok true, ⟨d, p + 4, badOnly, IoBits.none⟩) from rfl)]
  simp only [hsy, Bool.not_true, Bool.or_self, Bool.false_eq_true, if_false]
  rw [SM.bind_ok hfr]
  simp only
  rw [SM.bind_ok hc]
  simp only
  rw [SM.bind_ok (SM.setExceptions_good _ _ _ _)]
  rfl

/-- `get_mp3_duration` on a stream positioned at a frame. -/
theorem mp3Duration_at {d t : Bytes} {p : Nat} (ht : d.drop p = t) (h4 : 4 ≤ t.length) {h : Hdr}
    (htk : t.take 4 = [h.b0, h.b1, h.b2, h.b3]) (hsy : isSync h.b0 h.b1 = true)
    (m : IoBits) (fuel : Nat) :
    mp3Duration fuel ⟨d, p, m, IoBits.none⟩ =
      durTail fuel m (p : Int) h ⟨d, p + 4, badOnly, IoBits.none⟩ := by
  rw [mp3Duration_eq]
  obtain ⟨hroom, htk'⟩ := take4_of_drop ht h4
  obtain ⟨a, b, c, e, ht2, he⟩ := readHdr_full ⟨0, 0, 0, 0⟩ d p badOnly hroom
  rw [htk', htk] at ht2
  simp only [List.cons.injEq, and_true] at ht2
  obtain ⟨rfl, rfl, rfl, rfl⟩ := ht2
  rw [SM.bind_ok he, SM.bind_ok (show SM.isOk ⟨d, p + 4, badOnly, IoBits.none⟩ =
          (.ok true, ⟨d, p + 4, badOnly, IoBits.none⟩) from rfl)]
  simp only [hsy, Bool.not_true, Bool.and_false, Bool.false_eq_true, if_false]

theorem take4_eq {h h' : Hdr} {t : Bytes} (h1 : t.take 4 = [h.b0, h.b1, h.b2, h.b3])
    (h2 : t.take 4 = [h'.b0, h'.b1, h'.b2, h'.b3]) : h = h' := by
  rw [h1] at h2
  simp only [List.cons.injEq, and_true] at h2
  obtain ⟨a, b, c, d⟩ := h
  obtain ⟨a', b', c', d'⟩ := h'
  simp only at h2
  obtain ⟨rfl, rfl, rfl, rfl⟩ := h2
  rfl

/-- Constant-bit-rate streams: the first frame's duration times the number of frames. -/
theorem mp3Duration_cbr (f0 : Bytes × (Nat × Nat)) (fs : List (Bytes × (Nat × Nat)))
    (rest d : Bytes) (p fuel : Nat) (m : IoBits)
    (hall : ∀ f ∈ f0 :: fs, IsFrame f.1 f.2) (hns : NoSync rest)
    (hd : d.drop p = ((f0 :: fs).map (·.1)).flatten ++ rest)
    (hv : NoVbr (((f0 :: fs).map (·.1)).flatten ++ rest))
    (h42 : 42 ≤ (((f0 :: fs).map (·.1)).flatten ++ rest).length) (hfuel : fs.length ≤ fuel) :
    ∃ q, mp3Duration fuel ⟨d, p, m, IoBits.none⟩ =
      (.ok (some (f0.2.1, 1 + fs.length, f0.2.2)), ⟨d, q, m, IoBits.none⟩) := by
  obtain ⟨h, fr, hdec, hsy, ht, hlen, hdur, hle⟩ := isFrame_facts (hall f0 (by simp))
  generalize htt : ((f0 :: fs).map (·.1)).flatten ++ rest = t at *
  have htl : t = f0.1 ++ ((fs.map (·.1)).flatten ++ rest) := by rw [← htt]; simp
  have h4 : 4 ≤ f0.1.length := by rw [hlen]; omega
  have ht4 : t.take 4 = [h.b0, h.b1, h.b2, h.b3] := by
    rw [htl, List.take_append_of_le_length h4, ht]
  rw [mp3Duration_at hd (by omega) ht4 hsy]
  obtain ⟨n, crc, ⟨h', v, kb, hz, pad, mono, hl', ht', hn⟩, n1, n2, n3, n4, n5⟩ := hv
  have hh := take4_eq ht4 ht'
  subst hh
  obtain ⟨g, hg, e1, e2, e3, e4, e5, e6, e7, e8⟩ := decodeHdr_of hl'
  rw [hdec] at hg
  cases hg
  rw [← e2, ← e8] at hn
  rw [← e2] at n5
  rw [hn] at n1 n2 n3 n4
  have hfr := mp3Frame_true_none (m := badOnly) hdec hd (by rw [htl, List.length_append, hlen]; omega)
    h42 ⟨n1, n2⟩ ⟨n3, n4⟩ n5
  obtain ⟨q, hq⟩ := countFrames_count fs rest d (p + fr.size) fuel h 1
    (fun f hf => hall f (by simp [hf])) hns (by
      rw [drop_take_add hd, htl, ← hlen, List.drop_left]) hfuel
  refine ⟨q, ?_⟩
  rw [durTail_cbr hsy hfr hq, hdur]

/-- The optional parts of a Xing header, after the two counts: all present, or the
stream is long enough not to notice. -/
theorem xingTag_ok (d : Bytes) (q : Nat) (m : IoBits) (a b c fl : Byte) (fr by' : Bytes) (tl : Bytes)
    (hfr : fr.length = 4) (hby : by'.length = 4)
    (hd : d.drop q = [a, b, c, fl] ++ (fr ++ (by' ++ tl)))
    (h0 : fl.toNat % 2 = 1) (h1 : fl.toNat / 2 % 2 = 1) (htl : 104 ≤ tl.length) :
    xingTag ⟨d, q, m, IoBits.none⟩ = (.ok (some (beVal fr), some (beVal by')),
      ⟨d, q + 12 + (if fl.toNat / 4 % 2 = 1 then 100 else 0) +
        (if fl.toNat / 8 % 2 = 1 then 4 else 0), m, IoBits.none⟩) := by
  have hdl : d.length = q + (12 + tl.length) := by
    have := congrArg List.length hd
    simp only [List.length_drop, List.length_append, hfr, hby, List.length_cons,
      List.length_nil] at this
    omega
  have hd1 : d.drop (q + 4) = fr ++ (by' ++ tl) := by rw [drop_take_add hd]; rfl
  have hd2 : d.drop (q + 4 + 4) = by' ++ tl := by
    rw [drop_take_add hd1, ← hfr, List.drop_left]
  unfold xingTag
  rw [SM.bind_ok (readInit_full 4 d q m (by omega)), hd]
  have e1 : List.take 4 ([a, b, c, fl] ++ (fr ++ (by' ++ tl))) = [a, b, c, fl] := by
    rw [List.take_append_of_le_length (by simp)]; rfl
  simp only [e1, List.getLast?_cons_cons, List.getLast?_singleton, Option.getD_some, h0, h1, if_true]
  rw [SM.bind_assoc, SM.bind_ok (readInit_full 4 d _ m (by omega)), SM.bind_ok (SM.pure_apply' _ _), hd1,
    SM.bind_assoc, SM.bind_ok (readInit_full 4 d _ m (by omega)), SM.bind_ok (SM.pure_apply' _ _), hd2]
  rw [List.take_append_of_le_length (by omega), List.take_append_of_le_length (by omega),
    List.take_of_length_le (by omega), List.take_of_length_le (by omega)]
  by_cases h2 : fl.toNat / 4 % 2 = 1
  · simp only [h2, if_true]
    rw [SM.bind_ok (SM.read_full 100 d _ m (by omega))]
    by_cases h3 : fl.toNat / 8 % 2 = 1
    · simp only [h3, if_true]
      rw [SM.bind_ok (readInit_full 4 d _ m (by omega))]
      simp
    · simp only [h3, if_false]
      simp
  · simp only [h2, if_false]
    by_cases h3 : fl.toNat / 8 % 2 = 1
    · simp only [h3, if_true]
      rw [SM.bind_ok (readInit_full 4 d _ m (by omega))]
      simp
    · simp only [h3, if_false]
      simp

theorem lameTag_ok (d : Bytes) (q : Nat) (m : IoBits) (h : q + 28 ≤ d.length) :
    lameTag ⟨d, q, m, IoBits.none⟩ = (.ok (), ⟨d, q + 28, m, IoBits.none⟩) := by
  unfold lameTag
  rw [SM.bind_ok (readInit_full 5 d q m (by omega)), SM.bind_ok (readInit_full 1 d _ m (by omega)),
    SM.bind_ok (seekCur_good _ _ _ (by omega)),
    show (((q + 5 + 1 : Nat) : Int) + 10).toNat = q + 16 by omega,
    SM.bind_ok (readInit_full 1 d _ m (by omega)),
    SM.bind_ok (seekCur_good _ _ _ (by omega)),
    show (((q + 16 + 1 : Nat) : Int) + 7).toNat = q + 24 by omega,
    SM.bind_ok (readInit_full 4 d _ m (by omega))]
  rfl

theorem xingBranch_ok (buf : Bytes) (hb : buf.length = 4) (d : Bytes) (q : Nat) (m : IoBits)
    (a b c fl : Byte) (fr by' : Bytes) (tl : Bytes)
    (hfr : fr.length = 4) (hby : by'.length = 4)
    (hd : d.drop q = [a, b, c, fl] ++ (fr ++ (by' ++ tl)))
    (h0 : fl.toNat % 2 = 1) (h1 : fl.toNat / 2 % 2 = 1) (htl : 136 ≤ tl.length)
    (hno : (tl.drop ((if fl.toNat / 4 % 2 = 1 then 100 else 0) +
        (if fl.toNat / 8 % 2 = 1 then 4 else 0))).take 3 ≠ [0x4c, 0x33, 0x2e]) :
    ∃ q', xingBranch buf ⟨d, q, m, IoBits.none⟩ = (.ok (some (beVal fr, beVal by')),
      ⟨d, q', m, IoBits.none⟩) := by
  have hdl : d.length = q + (12 + tl.length) := by
    have := congrArg List.length hd
    simp only [List.length_drop, List.length_append, hfr, hby, List.length_cons,
      List.length_nil] at this
    omega
  have hd1 : d.drop (q + 4) = fr ++ (by' ++ tl) := by rw [drop_take_add hd]; rfl
  have hd2 : d.drop (q + 4 + 4) = by' ++ tl := by
    rw [drop_take_add hd1, ← hfr, List.drop_left]
  have hd3 : d.drop (q + 12) = tl := by
    rw [show q + 12 = q + 4 + 4 + 4 by omega, drop_take_add hd2, ← hby, List.drop_left]
  unfold xingBranch
  rw [SM.bind_ok (xingTag_ok d q m a b c fl fr by' tl hfr hby hd h0 h1 (by omega))]
  simp only
  generalize hA : (if fl.toNat / 4 % 2 = 1 then 100 else 0) = A at *
  generalize hB : (if fl.toNat / 8 % 2 = 1 then 4 else 0) = B at *
  have hA' : A ≤ 100 := by rw [← hA]; split <;> omega
  have hB' : B ≤ 4 := by rw [← hB]; split <;> omega
  rw [SM.bind_ok (readOver_full buf 4 d _ m hb (by omega))]
  rw [show q + 12 + A + B = q + 12 + (A + B) by omega, drop_take_add hd3]
  generalize hx : (tl.drop (A + B)) = x at *
  have hl : isLame (x.take 4) = .ok true ∨ isLame (x.take 4) = .ok false := by
    unfold isLame
    split
    · exact .inl rfl
    · rw [List.take_take, if_neg (by simpa using hno)]; exact .inr rfl
  rcases hl with hl | hl
  · rw [SM.bind_apply, SM.lift_apply, hl]
    simp only [if_true]
    rw [SM.bind_ok (lameTag_ok d _ m (by omega))]
    exact ⟨_, rfl⟩
  · rw [SM.bind_apply, SM.lift_apply, hl]
    simp only [Bool.false_eq_true, if_false]
    exact ⟨_, rfl⟩

/-- A stream whose first frame carries a Xing (or Info) header with both counts. -/
theorem mp3Duration_xing {d t : Bytes} {p n fuel : Nat} {m : IoBits} (hd : d.drop p = t)
    {h : Hdr} {v : MpegVersion} {crc : Bool} {kb hz : Nat} {pad mono : Bool}
    (hl : IsLayerIII h v crc kb hz pad mono) (ht4 : t.take 4 = [h.b0, h.b1, h.b2, h.b3])
    (hn : n = 4 + (if crc then 2 else 0) + sideBytes v mono)
    (id : Bytes) (hid : id = XING ∨ id = INFO)
    (a b c fl : Byte) (fr by' : Bytes) (tl : Bytes)
    (hfr : fr.length = 4) (hby : by'.length = 4)
    (htn : t.drop n = id ++ ([a, b, c, fl] ++ (fr ++ (by' ++ tl))))
    (h0 : fl.toNat % 2 = 1) (h1 : fl.toNat / 2 % 2 = 1) (htl : 136 ≤ tl.length)
    (hno : (tl.drop ((if fl.toNat / 4 % 2 = 1 then 100 else 0) +
        (if fl.toNat / 8 % 2 = 1 then 4 else 0))).take 3 ≠ [0x4c, 0x33, 0x2e]) :
    mp3Duration fuel ⟨d, p, m, IoBits.none⟩ = (.ok (some (samples v, beVal fr, hz)),
      ⟨d, p + beVal by', m, IoBits.none⟩) := by
  obtain ⟨f, hdec, e1, e2, e3, e4, e5, e6, e7, e8⟩ := decodeHdr_of hl
  obtain ⟨kb', -, -, -, -, hle, -⟩ := decodeHdr_iff h f hdec
  have hsy := layerIII_sync hl
  have hidl : id.length = 4 := by rcases hid with rfl | rfl <;> rfl
  have htlen : t.length = n + (16 + tl.length) := by
    have hb := congrArg List.length htn
    simp only [List.length_drop, List.length_append, hfr, hby, List.length_cons,
      List.length_nil, hidl] at hb
    omega
  have hdl : d.length = p + t.length := by
    have := congrArg List.length hd
    rw [List.length_drop] at this
    omega
  rw [mp3Duration_at hd (by omega) ht4 hsy]
  have hp := parseHeader_good h d (p + 4) badOnly (by intro hb; omega)
  rw [hdec] at hp
  simp only [e2, e8] at hp
  rw [show p + 4 + (if crc then 2 else 0) + sideBytes v mono = p + n by omega] at hp
  have hq : d.drop (p + n) = id ++ ([a, b, c, fl] ++ (fr ++ (by' ++ tl))) := by
    rw [drop_take_add hd, htn]
  have hq4 : d.drop (p + n + 4) = [a, b, c, fl] ++ (fr ++ (by' ++ tl)) := by
    rw [drop_take_add hq, ← hidl, List.drop_left]
  obtain ⟨q', hx⟩ := xingBranch_ok id hidl d (p + n + 4) badOnly a b c fl fr by' tl hfr hby hq4
    h0 h1 htl hno
  have hv : parseVbr f.sideInfo ⟨d, p + n, badOnly, IoBits.none⟩ =
      (.ok (some (beVal fr, beVal by')), ⟨d, p + n, badOnly, IoBits.none⟩) := by
    unfold parseVbr
    rw [SM.bind_ok (SM.tellg_good _ _ _),
      SM.bind_ok (readOver_full _ 4 d _ badOnly rfl (by omega)), hq,
      List.take_append_of_le_length (by omega), List.take_of_length_le (by omega),
      if_pos hid, SM.bind_ok hx, SM.bind_ok (SM.seekBeg_nat _ _ _ _)]
    rfl
  have hfr' : mp3Frame h true ⟨d, p + 4, badOnly, IoBits.none⟩ =
      (.ok (f, some (beVal fr, beVal by')), ⟨d, p + f.size, badOnly, IoBits.none⟩) := by
    unfold mp3Frame
    rw [SM.bind_ok hp]
    simp only [if_true]
    rw [e2, e8] at hle
    have hkI : (if f.crc = true then (2 : Int) else 0) = (((if crc then 2 else 0 : Nat)) : Int) := by
      rw [e2]; split <;> rfl
    rw [SM.bind_ok hv, hkI, e8, SM.bind_ok (seekCur_good _ _ _ (by omega))]
    simp only [SM.pure_apply']
    congr 2
    omega
  unfold durTail
  rw [SM.bind_ok (show SM.isOk ⟨d, p + 4, badOnly, IoBits.none⟩ =
          (.ok true, ⟨d, p + 4, badOnly, IoBits.none⟩) from rfl)]
  simp only [hsy, Bool.not_true, Bool.or_self, Bool.false_eq_true, if_false]
  rw [SM.bind_ok hfr']
  have hdu : f.duration = (samples v, hz) := by
    rw [Mp3Frame.duration, e1, e4]; cases v <;> rfl
  simp only [hdu]
  rw [SM.bind_ok (seekCur_good _ _ _ (by omega)), SM.bind_ok (SM.setExceptions_good _ _ _ _)]
  simp only [SM.pure_apply']
  congr 2
  omega

end Scribbu
