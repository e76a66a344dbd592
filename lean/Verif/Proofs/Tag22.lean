import Verif.Model.Tag22
import Verif.Model.Read
import Verif.Spec.Tag22
import Verif.Props.Bodies
import Verif.Props.TagCloud
import Verif.Props.SyncSafe
import Verif.Props.Unsync
import Verif.Proofs.Header
import Verif.Proofs.Unsync

namespace Scribbu
open Spec Props

/-! ### Bodies -/

theorem slice_prefix (w post : Bytes) : slice (w ++ post) 0 w.length = .ok w := by
  simp [slice]

/-- A well-formed body is read back from its serialisation, wherever that is in memory. -/
theorem body_rt (ver : Ver) (k : Kind) (b : Body) (h : WFBody ver k b) :
    ∃ w, b.serialize = .ok w ∧ w.length = b.size ∧
      ∀ post, Body.parse ver k (w ++ post) w.length = .ok b := by
  cases k <;> cases b <;> simp only [WFBody] at h
  · exact ⟨_, rfl, rfl, fun post => by simp [Body.parse, slice_prefix]⟩
  · rename_i u
    refine ⟨_, rfl, by simp [Ufid.write, Body.size, Ufid.size]; omega, fun post => ?_⟩
    simp only [Body.parse, slice_prefix, Res.ok_bind]
    congr 2
    unfold Ufid.parse Ufid.write
    simp only
    rw [show u.owner ++ [0] ++ u.ident = u.owner ++ 0 :: u.ident by simp, takeWhile_nul h]
    simp
  · exact ⟨_, rfl, by simp [Body.size]; omega, fun post => by simp [Body.parse, slice]⟩
  · rename_i t
    refine ⟨_, rfl, (C22_txxx ver t [] h.1 h.2).2, fun post => ?_⟩
    simp only [Body.parse]
    rw [(C22_txxx ver t post h.1 h.2).1]
    rfl
  · rename_i c
    obtain ⟨u, l, h1, h2, h3, h4, h5, h6, h7⟩ := h
    obtain ⟨w, a, -, d⟩ := C22_comm ver c u l [] h1 h2 h3 h4 h5 h6 h7
    refine ⟨w, a, d, fun post => ?_⟩
    obtain ⟨w', a', b', -⟩ := C22_comm ver c u l post h1 h2 h3 h4 h5 h6 h7
    rw [a] at a'
    cases a'
    simp only [Body.parse, b', Res.ok_bind]
  · exact ⟨_, rfl, rfl, fun post => by simp [Body.parse, slice_prefix]⟩
  · rename_i p
    refine ⟨_, rfl, (C21_popm p h).2, fun post => ?_⟩
    simp only [Body.parse, slice_prefix, Res.ok_bind]
    rw [(C21_popm p h).1]
    rfl
  · rename_i t
    refine ⟨_, rfl, C18_size t, fun post => ?_⟩
    simp only [Body.parse, slice_prefix, Res.ok_bind]
    rw [C18_binary_partial t h.1 h.2.1 h.2.2]
    rfl
  · rename_i p
    refine ⟨_, rfl, by simp [Priv.write, Body.size, Priv.size]; omega, fun post => ?_⟩
    simp only [Body.parse, slice_prefix, Res.ok_bind]
    unfold Priv.parse Priv.write
    simp only
    rw [show p.email ++ [0] ++ p.contents = p.email ++ 0 :: p.contents by simp, takeWhile_nul h]
    simp

/-! ### Frame headers -/

theorem be24_of (cb : Nat) (h : cb < 2 ^ 24) :
    [UInt8.ofNat ((cb &&& 0xff0000) >>> 16), UInt8.ofNat ((cb &&& 0x00ff00) >>> 8),
      UInt8.ofNat (cb &&& 0x0000ff)] = be24 cb := by
  have e1 : (cb &&& 0xff0000) >>> 16 = cb / 65536 := by
    rw [Nat.shiftRight_and_distrib, Nat.shiftRight_eq_div_pow]
    have : cb / 2 ^ 16 < 256 := by omega
    rw [show (0xff0000 >>> 16 : Nat) = 2 ^ 8 - 1 by decide, Nat.and_two_pow_sub_one_eq_mod]
    omega
  have e2 : (cb &&& 0x00ff00) >>> 8 = cb / 256 % 256 := by
    rw [Nat.shiftRight_and_distrib, Nat.shiftRight_eq_div_pow]
    rw [show (0xff00 >>> 8 : Nat) = 2 ^ 8 - 1 by decide, Nat.and_two_pow_sub_one_eq_mod]
  have e3 : cb &&& 0x0000ff = cb % 256 := by
    rw [show (0xff : Nat) = 2 ^ 8 - 1 by decide, Nat.and_two_pow_sub_one_eq_mod]
  rw [e1, e2, e3, be24]
  have h1 : UInt8.ofNat (cb / 256 % 256) = UInt8.ofNat (cb / 256) := by
    apply UInt8.toNat_inj.1; simp [UInt8.toNat_ofNat']
  have h2 : UInt8.ofNat (cb % 256) = UInt8.ofNat cb := by
    apply UInt8.toNat_inj.1; simp [UInt8.toNat_ofNat']
  rw [h1, h2]

theorem header_ok (id : Id3) (cb : Nat) (h : cb < 2 ^ 24) :
    Frame22.header id cb = .ok ([id.a, id.b, id.c] ++ be24 cb) := by
  unfold Frame22.header
  rw [if_neg (by omega), ← be24_of cb h]
  rfl

theorem be24_decode (n : Nat) (h : n < 2 ^ 24) :
    unsignedFromNonSyncSafe3 (UInt8.ofNat (n / 65536)) (UInt8.ofNat (n / 256)) (UInt8.ofNat n) = n := by
  unfold unsignedFromNonSyncSafe3
  simp only [UInt8.toNat_ofNat']
  rw [Nat.shiftLeft_eq, Nat.shiftLeft_eq]
  have e1 : n / 65536 % 2 ^ 8 = n / 65536 := by omega
  rw [e1, show (2 : Nat) ^ 16 = 2 ^ 8 * 2 ^ 8 by decide, ← Nat.mul_assoc]
  have : (n / 65536 * 2 ^ 8 * 2 ^ 8 ||| n / 256 % 2 ^ 8 * 2 ^ 8) = (n / 65536 * 2 ^ 8 ||| n / 256 % 2 ^ 8) * 2 ^ 8 := by
    have := @Nat.shiftLeft_or_distrib 8 (n / 65536 * 2 ^ 8) (n / 256 % 2 ^ 8)
    simp only [Nat.shiftLeft_eq] at this
    exact this.symm
  rw [this]
  rw [Nat.mul_comm (n / 65536), ← Nat.two_pow_add_eq_or_of_lt (Nat.mod_lt _ (by decide)), Nat.mul_comm,
    ← Nat.two_pow_add_eq_or_of_lt (Nat.mod_lt _ (by decide))]
  omega

/-! ### Frames -/

theorem fresh_dirty (f : Frame22) (w : Bytes) (hd : f.dirty = true) (hw : f.body.serialize = .ok w)
    (hl : w.length < 2 ^ 24) :
    f.fresh = .ok { f with dirty := false, nfs := countSyncs true (frame22 f.id w), plain := frame22 f.id w,
                           unsynced := unsynchronise false (frame22 f.id w) } := by
  unfold Frame22.fresh
  rw [if_pos hd, hw]
  simp only [Res.ok_bind]
  rw [header_ok _ _ hl]
  rfl

theorem rd_append (pre : Bytes) (k : Nat) (w : Bytes) (b : Byte) (h : w[k]? = some b) :
    rd (pre ++ w) (pre.length + k) = .ok b := by
  unfold rd
  rw [List.getElem?_append_right (by omega), Nat.add_sub_cancel_left, h]

theorem parseFrames_unfold (buf : Bytes) (cb p : Nat) : Tag22.parseFrames buf cb p =
  if p < cb then
    (rd buf p).bind fun b0 =>
    if cb - p = 1 ∧ b0 = 0 then .ok ([], cb - p)
    else
      (rd buf (p + 1)).bind fun b1 =>
      if cb - p = 2 ∧ b0 = 0 ∧ b1 = 0 then .ok ([], cb - p)
      else
        (rd buf (p + 2)).bind fun b2 =>
        if (⟨b0, b1, b2⟩ : Id3) = ⟨0, 0, 0⟩ then .ok ([], cb - p)
        else if cb < p + 7 then .throw .invalidTag
        else
          (rd buf (p + 3)).bind fun s0 => (rd buf (p + 4)).bind fun s1 => (rd buf (p + 5)).bind fun s2 =>
          if cb ≤ unsignedFromNonSyncSafe3 s0 s1 s2 then .throw .invalidTag
          else
            (Body.parse .v2 (kind22 ⟨b0, b1, b2⟩) (buf.drop (p + 6)) (unsignedFromNonSyncSafe3 s0 s1 s2)).bind fun body =>
            (Tag22.parseFrames buf cb (p + unsignedFromNonSyncSafe3 s0 s1 s2 + 6)).bind fun (fs, pad) =>
              .ok (Frame22.new ⟨b0, b1, b2⟩ body :: fs, pad)
  else .ok ([], 0) := by
  rw [Tag22.parseFrames]

/-- One frame. -/
theorem parseFrames_step (pre : Bytes) (id : Id3) (w post : Bytes) (cb : Nat)
    (hid : id ≠ ⟨0, 0, 0⟩) (hw : w ≠ []) (hl : w.length < 2 ^ 24)
    (hcb : pre.length + 6 + w.length ≤ cb) :
    Tag22.parseFrames (pre ++ frame22 id w ++ post) cb pre.length =
      (Body.parse .v2 (kind22 id) (w ++ post) w.length).bind fun body =>
      (Tag22.parseFrames (pre ++ frame22 id w ++ post) cb (pre ++ frame22 id w).length).bind fun (fs, pad) =>
        .ok (Frame22.new id body :: fs, pad) := by
  have hw1 : 1 ≤ w.length := List.length_pos_iff.2 hw
  rw [parseFrames_unfold, if_pos (by omega)]
  rw [show pre ++ frame22 id w ++ post = pre ++ (frame22 id w ++ post) by simp]
  have hc : ∀ k b, (frame22 id w ++ post)[k]? = some b → rd (pre ++ (frame22 id w ++ post)) (pre.length + k) = .ok b :=
    fun k b h => rd_append pre k _ b h
  have h0 := hc 0 id.a rfl
  have h1 := hc 1 id.b rfl
  have h2 := hc 2 id.c rfl
  have h3 := hc 3 (UInt8.ofNat (w.length / 65536)) rfl
  have h4 := hc 4 (UInt8.ofNat (w.length / 256)) rfl
  have h5 := hc 5 (UInt8.ofNat w.length) rfl
  have h0' : rd (pre ++ (frame22 id w ++ post)) pre.length = .ok id.a := h0
  rw [h0']
  simp only [Res.ok_bind]
  rw [if_neg (by omega), h1]
  simp only [Res.ok_bind]
  rw [if_neg (by omega), h2]
  simp only [Res.ok_bind]
  rw [if_neg hid, if_neg (by omega), h3, h4, h5]
  simp only [Res.ok_bind]
  rw [be24_decode _ hl, if_neg (by omega)]
  have hd : (pre ++ (frame22 id w ++ post)).drop (pre.length + 6) = w ++ post := by
    rw [List.drop_append]
    simp [frame22, be24]
  rw [hd]
  have : pre.length + w.length + 6 = (pre ++ frame22 id w).length := by
    simp [frame22, be24]; omega
  rw [this]

theorem parseFrames_cons (pre : Bytes) (id : Id3) (w post : Bytes) (cb : Nat) (body : Body)
    (hid : id ≠ ⟨0, 0, 0⟩) (hw : w ≠ []) (hl : w.length < 2 ^ 24)
    (hb : Body.parse .v2 (kind22 id) (w ++ post) w.length = .ok body)
    (hcb : pre.length + 6 + w.length ≤ cb) :
    Tag22.parseFrames (pre ++ frame22 id w ++ post) cb pre.length =
      (Tag22.parseFrames (pre ++ frame22 id w ++ post) cb (pre ++ frame22 id w).length).bind fun (fs, pad) =>
        .ok (Frame22.new id body :: fs, pad) := by
  rw [parseFrames_step pre id w post cb hid hw hl hcb, hb]
  rfl

/-- Padding. -/
theorem parseFrames_pad (pre : Bytes) (pad : Nat) (post : Bytes) :
    Tag22.parseFrames (pre ++ List.replicate pad 0 ++ post) (pre.length + pad) pre.length = .ok ([], pad) := by
  rw [parseFrames_unfold]
  by_cases h0 : pad = 0
  · subst h0; rw [if_neg (by omega)]
  · rw [if_pos (by omega), Nat.add_sub_cancel_left]
    rw [show pre ++ List.replicate pad 0 ++ post = pre ++ (List.replicate pad 0 ++ post) by simp]
    have hc : ∀ k, k < pad → rd (pre ++ (List.replicate pad 0 ++ post)) (pre.length + k) = .ok 0 := fun k h =>
      rd_append pre k _ 0 (by rw [List.getElem?_append_left (by simpa using h)]; simp [h])
    have e0 : rd (pre ++ (List.replicate pad 0 ++ post)) pre.length = .ok 0 := hc 0 (by omega)
    rw [e0]
    simp only [Res.ok_bind]
    by_cases h1 : pad = 1
    · subst h1; simp
    · rw [if_neg (by omega), hc 1 (by omega)]
      simp only [Res.ok_bind]
      by_cases h2 : pad = 2
      · subst h2; simp
      · rw [if_neg (by omega), hc 2 (by omega)]
        simp

theorem parseFrames_layout (fs : List (Id3 × Bytes × Body)) (pad : Nat) (post : Bytes) :
    ∀ pre : Bytes,
    (∀ f ∈ fs, f.1 ≠ ⟨0, 0, 0⟩ ∧ f.2.1 ≠ [] ∧ f.2.1.length < 2 ^ 24 ∧
      ∀ post, Body.parse .v2 (kind22 f.1) (f.2.1 ++ post) f.2.1.length = .ok f.2.2) →
    Tag22.parseFrames (pre ++ frames22 (fs.map fun f => (f.1, f.2.1)) ++ List.replicate pad 0 ++ post)
      (pre.length + (frames22 (fs.map fun f => (f.1, f.2.1))).length + pad) pre.length =
      .ok (fs.map fun f => Frame22.new f.1 f.2.2, pad) := by
  induction fs with
  | nil =>
    intro pre _
    simp only [List.map_nil, frames22, List.flatten_nil, List.append_nil, List.length_nil, Nat.add_zero]
    exact parseFrames_pad pre pad post
  | cons f fs ih =>
    intro pre h
    obtain ⟨h1, h2, h3, h4⟩ := h f (by simp)
    have e : frames22 ((f :: fs).map fun f => (f.1, f.2.1)) =
        frame22 f.1 f.2.1 ++ frames22 (fs.map fun f => (f.1, f.2.1)) := by simp [frames22]
    have hf : (frame22 f.1 f.2.1).length = 6 + f.2.1.length := by simp [frame22, be24]; omega
    rw [e]
    have a1 := parseFrames_cons pre f.1 f.2.1 (frames22 (fs.map fun f => (f.1, f.2.1)) ++ List.replicate pad 0 ++ post)
      (pre.length + (frame22 f.1 f.2.1 ++ frames22 (fs.map fun f => (f.1, f.2.1))).length + pad) f.2.2 h1 h2 h3
      (h4 _) (by simp [hf]; omega)
    have a2 := ih (pre ++ frame22 f.1 f.2.1) (fun g hg => h g (by simp [hg]))
    rw [show pre ++ (frame22 f.1 f.2.1 ++ frames22 (fs.map fun f => (f.1, f.2.1))) ++ List.replicate pad 0 ++ post =
      pre ++ frame22 f.1 f.2.1 ++ (frames22 (fs.map fun f => (f.1, f.2.1)) ++ List.replicate pad 0 ++ post) by simp, a1]
    rw [show pre ++ frame22 f.1 f.2.1 ++ frames22 (fs.map fun f => (f.1, f.2.1)) ++ List.replicate pad 0 ++ post =
      pre ++ frame22 f.1 f.2.1 ++ (frames22 (fs.map fun f => (f.1, f.2.1)) ++ List.replicate pad 0 ++ post) by simp] at a2
    rw [show pre.length + (frame22 f.1 f.2.1 ++ frames22 (fs.map fun f => (f.1, f.2.1))).length + pad =
      (pre ++ frame22 f.1 f.2.1).length + (frames22 (fs.map fun f => (f.1, f.2.1))).length + pad by simp; omega, a2]
    rfl

/-! ### Unsynchronisation of a sequence of frames -/

theorem rs_unsync_append (a rest : Bytes) (h : a.getLast? ≠ some 0xff) :
    rs false (unsynchronise false a ++ rest) = a ++ rs false rest := by
  induction a with
  | nil => simp [unsynchronise]
  | cons b r ih =>
    cases r with
    | nil =>
      have hb : b ≠ 0xff := by simpa using h
      simp only [unsynchronise, hb, if_false, List.cons_append, List.nil_append, rs, Bool.false_and,
        Bool.false_eq_true]
      rw [show (b == 255) = false by simpa using hb]
    | cons c r =>
      have ih := ih (by simpa using h)
      obtain ⟨t, ht⟩ := unsync_head false c r
      unfold unsynchronise
      by_cases hb : b = 0xff
      · subst hb
        rw [if_pos rfl]
        by_cases hc : unsyncTest c = true
        · simp only [hc, if_true]
          rw [List.cons_append, List.cons_append]
          simp [rs, ih]
        · simp only [hc]
          have hc0 : c ≠ 0 := by rintro rfl; simp [unsyncTest] at hc
          rw [ht] at ih ⊢
          simp only [Bool.false_eq_true, if_false, List.cons_append, rs, Bool.false_and] at ih ⊢
          simp only [beq_self_eq_true, Bool.true_and, beq_iff_eq, hc0, if_false]
          rw [ih]
      · rw [if_neg hb]
        simp only [List.cons_append, rs, Bool.false_and, Bool.false_eq_true, if_false]
        rw [show (b == 255) = false by simpa using hb, ih]
        simp

theorem rs_zeros (n : Nat) : rs false (List.replicate n 0) = List.replicate n 0 := by
  induction n with
  | zero => rfl
  | succ n ih => simp [List.replicate_succ, rs, ih]

theorem rs_of_noPair (b : Bytes) (h : ¬ NeedsStuffing b) : rs false b = b := by
  have := (C06_unchanged_iff_partial b).2 h
  have h2 := rs_unsync false b
  rw [this] at h2
  exact h2

theorem hasPair_append_left {x : Byte} {q : Byte → Prop} {a b : Bytes} (h : HasPair x q a) : HasPair x q (a ++ b) := by
  obtain ⟨pre, c, post, rfl, hq⟩ := h
  exact ⟨pre, c, post ++ b, by simp, hq⟩

theorem hasPair_append_right {x : Byte} {q : Byte → Prop} {a b : Bytes} (h : HasPair x q b) : HasPair x q (a ++ b) := by
  obtain ⟨pre, c, post, rfl, hq⟩ := h
  exact ⟨a ++ pre, c, post, by simp, hq⟩

theorem parseBuf_of (unsync : Bool) (buf L : Bytes) (fs : List (Id3 × Bytes × Body)) (pad : Nat)
    (hf : ∀ f ∈ fs, f.1 ≠ ⟨0, 0, 0⟩ ∧ f.2.1 ≠ [] ∧ f.2.1.length < 2 ^ 24 ∧
      ∀ post, Body.parse .v2 (kind22 f.1) (f.2.1 ++ post) f.2.1.length = .ok f.2.2)
    (hL : L = frames22 (fs.map fun f => (f.1, f.2.1)) ++ List.replicate pad 0)
    (hb : (if unsync then rs false buf else buf) = L) :
    Tag22.parseBuf unsync buf = .ok (fs.map fun f => Frame22.new f.1 f.2.2, pad) := by
  cases unsync with
  | false =>
    simp only [Bool.false_eq_true, if_false] at hb
    subst hb
    unfold Tag22.parseBuf
    rw [if_neg (by decide)]
    have := parseFrames_layout fs pad [] [] hf
    simp only [List.nil_append, List.append_nil, List.length_nil, Nat.zero_add] at this
    rw [hL, List.length_append, List.length_replicate]
    exact this
  | true =>
    simp only [if_true] at hb
    unfold Tag22.parseBuf
    rw [if_pos rfl]
    obtain ⟨p', n, h1, h2, h3, h4⟩ := resynchronise_spec buf
    rw [h1]
    simp only [Res.ok_bind]
    rw [hb] at h4
    have hp : p' = L ++ p'.drop n := by rw [← h4, List.take_append_drop]
    have hn : n = L.length := by
      have := congrArg List.length h4
      rw [List.length_take] at this
      omega
    have := parseFrames_layout fs pad (p'.drop n) [] hf
    simp only [List.nil_append, List.length_nil, Nat.zero_add] at this
    rw [← hL] at this
    have hl : L.length = (frames22 (fs.map fun f => (f.1, f.2.1))).length + pad := by
      rw [hL, List.length_append, List.length_replicate]
    rw [← hl, ← hp, ← hn] at this
    exact this

/-! ### Writing -/

theorem fresh_idem {f g : Frame22} (h : f.fresh = .ok g) : g.fresh = .ok g := by
  have : g.dirty = false := by
    unfold Frame22.fresh at h
    split at h
    · rw [Res.bind_eq_ok] at h
      obtain ⟨w, _, h⟩ := h
      rw [Res.bind_eq_ok] at h
      obtain ⟨w', _, h⟩ := h
      cases h
      rfl
    · cases h; simp_all
  simp [Frame22.fresh, this]

theorem framesSize_write (u : Bool) (fs fs' : List Frame22) (n : Nat) (h : Tag22.framesSize u fs = .ok (n, fs')) :
    ∃ b, Tag22.framesWrite u fs' = .ok (b, fs') ∧ b.length = n := by
  induction fs generalizing fs' n with
  | nil => cases h; exact ⟨[], rfl, rfl⟩
  | cons f fs ih =>
    simp only [Tag22.framesSize, Frame22.serializedSize] at h
    rw [Res.bind_eq_ok] at h
    obtain ⟨⟨m, g⟩, h1, h⟩ := h
    rw [Res.bind_eq_ok] at h1
    obtain ⟨g', h1, h1'⟩ := h1
    cases h1'
    rw [Res.bind_eq_ok] at h
    obtain ⟨⟨k, gs⟩, h2, h⟩ := h
    cases h
    obtain ⟨b, hb, hl⟩ := ih gs k h2
    refine ⟨(if u then g.plain else g.unsynced) ++ b, ?_, by rw [List.length_append, hl]⟩
    simp only [Tag22.framesWrite, Frame22.write, fresh_idem h1, Res.ok_bind, hb]

theorem framesSize_eq (u : Bool) (fs : List Frame22) :
    Tag22.framesSize u fs = (Tag22.framesWrite u fs).bind fun r => .ok (r.1.length, r.2) := by
  induction fs with
  | nil => rfl
  | cons f fs ih =>
    simp only [Tag22.framesSize, Tag22.framesWrite, Frame22.serializedSize, Frame22.write, ih]
    cases f.fresh with
    | throw e => rfl
    | ub e => rfl
    | ok g =>
      simp only [Res.ok_bind]
      cases Tag22.framesWrite u fs with
      | throw e => rfl
      | ub e => rfl
      | ok r => simp only [Res.ok_bind, List.length_append]

theorem framesWrite_idem {u : Bool} {fs fs' : List Frame22} {b : Bytes} (h : Tag22.framesWrite u fs = .ok (b, fs')) :
    Tag22.framesWrite u fs' = .ok (b, fs') := by
  induction fs generalizing fs' b with
  | nil => cases h; rfl
  | cons f fs ih =>
    simp only [Tag22.framesWrite, Frame22.write] at h
    rw [Res.bind_eq_ok] at h
    obtain ⟨⟨m, g⟩, h1, h⟩ := h
    rw [Res.bind_eq_ok] at h1
    obtain ⟨g', h1, h1'⟩ := h1
    cases h1'
    rw [Res.bind_eq_ok] at h
    obtain ⟨⟨k, gs⟩, h2, h⟩ := h
    cases h
    simp only [Tag22.framesWrite, Frame22.write, fresh_idem h1, Res.ok_bind, ih h2]

theorem fresh_current {f : Frame22} {w : Bytes} (h : Current f w) (hl : w.length < 2 ^ 24) :
    ∃ g, f.fresh = .ok g ∧ g.plain = frame22 f.id w ∧ g.unsynced = unsynchronise false (frame22 f.id w) ∧
      g.id = f.id ∧ g.body = f.body := by
  obtain ⟨h1, h2⟩ := h
  by_cases hd : f.dirty = true
  · exact ⟨_, fresh_dirty f w hd h1 hl, rfl, rfl, rfl, rfl⟩
  · rcases h2 with h2 | h2
    · exact absurd h2 hd
    · exact ⟨f, by simp [Frame22.fresh, hd], h2.1, h2.2, rfl, rfl⟩

theorem framesWrite_current (u : Bool) (w : Frame22 → Bytes) (fs : List Frame22)
    (h : ∀ f ∈ fs, Current f (w f) ∧ (w f).length < 2 ^ 24) :
    ∃ fs', Tag22.framesWrite u fs = .ok ((fs.map fun f => if u then frame22 f.id (w f) else
      unsynchronise false (frame22 f.id (w f))).flatten, fs') ∧
      fs'.map (fun f => (f.id, f.body)) = fs.map (fun f => (f.id, f.body)) := by
  induction fs with
  | nil => exact ⟨[], rfl, rfl⟩
  | cons f fs ih =>
    obtain ⟨g, h1, h2, h3, h4, h5⟩ := fresh_current (h f (by simp)).1 (h f (by simp)).2
    obtain ⟨gs, h6, h7⟩ := ih (fun f hf => h f (by simp [hf]))
    refine ⟨g :: gs, ?_, by simp [h4, h5, h7]⟩
    simp only [Tag22.framesWrite, Frame22.write, h1, Res.ok_bind, h6, h2, h3, List.map_cons, List.flatten_cons]

theorem writeHeader_spec (fl : Byte) (cb : Nat) (h : cb < 2 ^ 28) :
    ∃ hdr, Tag22.writeHeader fl cb = .ok hdr ∧ hdr.length = 10 ∧ ∀ rest, IsHeader (hdr ++ rest) 2 0 fl cb := by
  obtain ⟨b0, b1, b2, b3, h1, h2, h3, h4⟩ := (C01_sync_safe_encode_decode cb).1 (by omega)
  refine ⟨[0x49, 0x44, 0x33, 2, 0, fl, b0, b1, b2, b3], ?_, rfl, fun rest => ?_⟩
  · unfold Tag22.writeHeader; rw [h1]; rfl
  · exact ⟨b0, b1, b2, b3, rest, rfl, by decide, by decide, h2, h3.symm⟩

/-- The flags byte that is written. -/
def wflags (t : Tag22) (c u : Bool) : Byte :=
  let f := (if t.unsync = some true then 0x80 else 0) ||| (if c then 0x40 else 0)
  if u then f ||| 0x80 else f

theorem wflags_unsync (t : Tag22) (c u : Bool) : (wflags t c u &&& 0x80 ≠ 0) ↔ (t.unsync = some true ∨ u = true) := by
  unfold wflags
  by_cases h : t.unsync = some true <;> cases c <;> cases u <;> simp only [h] <;> decide

theorem wflags_compression (t : Tag22) (c u : Bool) : (wflags t c u &&& 0x40 ≠ 0) ↔ c = true := by
  unfold wflags
  by_cases h : t.unsync = some true <;> cases c <;> cases u <;> simp only [h] <;> decide

theorem write_eq (t : Tag22) (u c : Bool) (pad : Nat) (b : Bytes) (fs' : List Frame22)
    (hc : t.compression = some c) (hp : t.padding = some pad) (hw : Tag22.framesWrite u t.frames = .ok (b, fs')) :
    t.size u = .ok (pad + b.length, { t with frames := fs' }) ∧
    t.write u = (Tag22.writeHeader (wflags t c u) (pad + b.length)).bind fun hdr =>
      .ok (hdr ++ b ++ List.replicate pad 0, 10 + b.length + pad, { t with frames := fs' }) := by
  have hs : t.size u = .ok (pad + b.length, { t with frames := fs' }) := by
    simp [Tag22.size, hp, Tag22.use, framesSize_eq, hw, Res.ok_bind]
  refine ⟨hs, ?_⟩
  unfold Tag22.write
  rw [hs]
  simp only [Tag22.flags, hc, Tag22.use, Res.ok_bind]
  have : (if u = true then ((if t.unsync = some true then (0x80 : Byte) else 0) ||| if c = true then 0x40 else 0) ||| 0x80
      else (if t.unsync = some true then 0x80 else 0) ||| if c = true then 0x40 else 0) = wflags t c u := rfl
  rw [this]
  cases Tag22.writeHeader (wflags t c u) (pad + b.length) with
  | throw e => rfl
  | ub e => rfl
  | ok hdr => simp only [Res.ok_bind, framesWrite_idem hw, hp]

/-! ### Reading -/

theorem parse_full (unsync : Bool) (size : Nat) (d : Bytes) (p : Nat) (m : IoBits) (h : p + size ≤ d.length) :
    Tag22.parse unsync size ⟨d, p, m, IoBits.none⟩ =
      match Tag22.parseBuf unsync ((d.drop p).take size) with
      | .ok r => (.ok r, ⟨d, p + size, m, IoBits.none⟩)
      | .throw e => (.throw e, ⟨d, p, m, IoBits.none⟩)
      | .ub e => (.ub e, ⟨d, p + size, IoBits.all, IoBits.none⟩) := by
  have hr := SM.read_full size d p IoBits.all h
  unfold Tag22.parse
  simp only [SM.bind_apply, SM.exceptions_apply, SM.setExceptions_good, SM.tellg_good, SM.onThrow, SM.lift_apply, hr]
  cases Tag22.parseBuf unsync ((d.drop p).take size) with
  | ok r => simp
  | throw e => simp
  | ub e => simp

/-- Reading a tag that is there. -/
theorem maybeRead_tag (mk3 mk4 : Id3v2Info → SM Tag22) (pre hdr body post : Bytes) (fl : Byte) (m : IoBits)
    (hh : hdr.length = 10) (hi : ∀ rest, IsHeader (hdr ++ rest) 2 0 fl body.length)
    (r : List Frame22 × Nat) (hb : Tag22.parseBuf (decide (fl &&& 0x80 ≠ 0)) body = .ok r) :
    maybeReadId3v2 Tag22.read mk3 mk4 ⟨pre ++ (hdr ++ body) ++ post, pre.length, m, IoBits.none⟩ =
      (.ok (some ⟨some (decide (fl &&& 0x80 ≠ 0)), some (decide (fl &&& 0x40 ≠ 0)), some r.2, r.1⟩),
        ⟨pre ++ (hdr ++ body) ++ post, (pre ++ (hdr ++ body)).length, m, IoBits.none⟩) := by
  obtain ⟨o, h1, h2⟩ := lookingAt_spec (pre ++ (hdr ++ body) ++ post) pre.length m false
  have ho : o = some ⟨2, 0, fl, body.length⟩ := by
    rw [h2]
    have : (pre ++ (hdr ++ body) ++ post).drop pre.length = hdr ++ (body ++ post) := by
      simp [List.append_assoc]
    rw [this]
    exact hi _
  subst ho
  unfold maybeReadId3v2
  rw [SM.bind_apply, h1]
  simp only [Option.isSome_some, Bool.not_false, Bool.and_true, if_true, SM.bind_apply]
  unfold mkId3v2
  simp only [if_true]
  unfold Tag22.read
  simp only [SM.bind_apply]
  rw [parse_full _ _ _ _ _ (by simp [hh]; omega)]
  have : ((pre ++ (hdr ++ body) ++ post).drop (pre.length + 10)).take body.length = body := by
    rw [show pre ++ (hdr ++ body) ++ post = (pre ++ hdr) ++ (body ++ post) by simp,
      show pre.length + 10 = (pre ++ hdr).length by simp [hh], List.drop_left, List.take_left]
  rw [this, hb]
  simp only [SM.pure_apply']
  congr 2
  simp [hh]; omega

end Scribbu
