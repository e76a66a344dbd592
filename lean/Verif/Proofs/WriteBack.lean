import Verif.Spec.WriteBack
import Verif.Props.Settle
import Verif.Proofs.SchemeWrite

/-! Reading the tags of a file and writing them back: lemmas. -/

namespace Scribbu.WriteBack
open Scribbu Scribbu.Spec Scribbu.Props Scribbu.Tagset

/-- The readers of `Scheme.readTags`. -/
abbrev r2 : Id3v2Info → SM AnyTag := fun h => Tag22.read h >>= fun t => pure (.inl t)
abbrev r3 (z : Zlib) : Id3v2Info → SM AnyTag := fun h => Tag23.read z h >>= fun t => pure (.inr (.inl t))
abbrev r4 (z : Zlib) : Id3v2Info → SM AnyTag := fun h => Tag24.read z h >>= fun t => pure (.inr (.inr t))

/-! ### Tags whose size and bytes stay the same however often they are asked for -/

/-- `size(false)` gives `n` and `write(os, false)` the bytes `b`, and the padding is `p`, whichever of these calls have been made before. -/
def Steady (I : TagI τ) (n p : Nat) (b : Bytes) (t : τ) : Prop := ∃ S : τ → Prop, S t ∧ ∀ x, S x →
  (∃ x', I.size x false = .ok (n, x') ∧ S x' ∧ I.padding x' = .ok p) ∧ ∃ x', I.write x false = .ok (b, x') ∧ S x'

theorem Steady.size {I : TagI τ} {n p : Nat} {b : Bytes} {t : τ} (h : Steady I n p b t) :
    ∃ t', I.size t false = .ok (n, t') ∧ I.padding t' = .ok p ∧ Steady I n p b t' := by
  obtain ⟨S, h1, h2⟩ := h
  obtain ⟨⟨t', h3, h4, h5⟩, -⟩ := h2 t h1
  exact ⟨t', h3, h5, S, h4, h2⟩

theorem Steady.write {I : TagI τ} {n p : Nat} {b : Bytes} {t : τ} (h : Steady I n p b t) : ∃ t', I.write t false = .ok (b, t') := by
  obtain ⟨S, h1, h2⟩ := h
  obtain ⟨-, t', h3, -⟩ := h2 t h1
  exact ⟨t', h3⟩

theorem steady_sim {I : TagI τ} {R0 R1 : τ → View → Nat → Prop} (S : Sim I R0 R1) {t : τ} {V : View} {p : Nat} (h : R0 t V p)
    (hs : V.cb false + p < 2 ^ 28) : Steady I (V.cb false + p) p (V.bytes false p) t := by
  refine ⟨fun x => R0 x V p, h, fun x hx => ⟨?_, ?_⟩⟩
  · obtain ⟨x', h1, h2⟩ := S.size false hx
    exact ⟨x', h1, S.sub h2, S.pad h2⟩
  · obtain ⟨x', h1, h2⟩ := S.write false hx hs
    exact ⟨x', h1, S.sub h2⟩

theorem Steady.inr {I : TagI τ} {J : TagI σ} {n p : Nat} {b : Bytes} {t : σ} (h : Steady J n p b t) : Steady (I.sum J) n p b (.inr t) := by
  obtain ⟨S, h1, h2⟩ := h
  refine ⟨fun y => ∃ x, y = .inr x ∧ S x, ⟨t, rfl, h1⟩, ?_⟩
  rintro _ ⟨x, rfl, hx⟩
  obtain ⟨⟨x', h3, h4, h5⟩, x'', h6, h7⟩ := h2 x hx
  exact ⟨⟨.inr x', by simp only [TagI.sum, h3, Res.ok_bind], ⟨x', rfl, h4⟩, h5⟩, .inr x'', by simp only [TagI.sum, h6, Res.ok_bind], x'', rfl, h7⟩

/-- A tag, its size, its padding and its bytes. -/
structure Held (τ : Type) where
  tag : τ
  n : Nat
  p : Nat
  b : Bytes

theorem sizes_steady {I : TagI τ} {hs : List (Held τ)} (h : ∀ x ∈ hs, Steady I x.n x.p x.b x.tag) :
    ∃ hs' : List (Held τ), sizes I .never (hs.map (·.tag)) = .ok ((hs.map fun x => x.n + 10).sum, (hs.map (·.p)).sum, hs'.map (·.tag)) ∧
      (∀ x ∈ hs', Steady I x.n x.p x.b x.tag) ∧ hs'.map (·.b) = hs.map (·.b) ∧ hs'.map (·.n) = hs.map (·.n) := by
  induction hs with
  | nil => exact ⟨[], rfl, by simp, rfl, rfl⟩
  | cons x hs ih =>
    obtain ⟨hs', h1, h2, h3, h4⟩ := ih fun y hy => h y (by simp [hy])
    obtain ⟨t', k1, k2, k3⟩ := (h x (by simp)).size
    refine ⟨⟨t', x.n, x.p, x.b⟩ :: hs', ?_, ?_, by simp [h3], by simp [h4]⟩
    · simp only [List.map_cons, sizes, computeApplyUnsync, Res.ok_bind, k1, k2, h1, List.sum_cons]
    · intro y hy
      rcases List.mem_cons.1 hy with rfl | hy
      · exact k3
      · exact h2 y hy

theorem writeAll_steady {I : TagI τ} {hs : List (Held τ)} (h : ∀ x ∈ hs, Steady I x.n x.p x.b x.tag) :
    ∃ ts, writeAll I .never (hs.map (·.tag)) = .ok ((hs.map (·.b)).flatten, ts) := by
  induction hs with
  | nil => exact ⟨[], rfl⟩
  | cons x hs ih =>
    obtain ⟨ts, h1⟩ := ih fun y hy => h y (by simp [hy])
    obtain ⟨t', k1⟩ := (h x (by simp)).write
    exact ⟨t' :: ts, by simp only [List.map_cons, writeAll, computeApplyUnsync, Res.ok_bind, k1, h1, List.flatten_cons]⟩

theorem sum_add_ten (l : List Nat) : (l.map (· + 10)).sum = l.sum + 10 * l.length := by
  induction l with
  | nil => rfl
  | cons a l ih => simp only [List.map_cons, List.sum_cons, ih, List.length_cons]; omega

/-- Tags that take exactly the room of those in the file. -/
theorem emplace_steady {I : TagI τ} {hs : List (Held τ)} (h : ∀ x ∈ hs, Steady I x.n x.p x.b x.tag) (st : EmplaceStrategy)
    (olds : List Bytes) (audio : Bytes) (ho : ∀ b ∈ olds, CompleteTag b) (hr : NoHeader audio) (hne : olds.flatten ++ audio ≠ [])
    (hn : (hs.map fun x => x.n + 10).sum = olds.flatten.length) (hb : (hs.map (·.b)).flatten.length = olds.flatten.length) :
    ∃ ts', maybeEmplace I (some (olds.flatten ++ audio)) .never st (hs.map (·.tag)) =
      .ok (.emplaced, (hs.map (·.b)).flatten ++ audio, ts') := by
  have hsz := tagsetSize_tags olds audio ho hr
  obtain ⟨hs1, h1, h2, h3, h4⟩ := sizes_steady h
  obtain ⟨hs2, k1, k2, k3, k4⟩ := sizes_steady h2
  obtain ⟨ts, k5⟩ := writeAll_steady k2
  have e : (hs1.map fun x => x.n + 10).sum = olds.flatten.length := by
    rw [← hn]
    have a1 := sum_add_ten (hs1.map (·.n))
    have a2 := sum_add_ten (hs.map (·.n))
    rw [List.map_map] at a1 a2
    rw [h4] at a1
    exact a1.trans a2.symm
  refine ⟨ts, ?_⟩
  have hre : replaceEmplace I (some (olds.flatten ++ audio)) .never (hs1.map (·.tag)) = .ok ((hs.map (·.b)).flatten ++ audio, ts) := by
    unfold replaceEmplace
    rw [hsz]
    simp only [Res.ok_bind, k1]
    rw [if_neg (by omega)]
    have := overlay_exact olds.flatten (hs.map (·.b)).flatten audio hb.symm
    rw [k3, h3] at k5
    generalize olds.flatten ++ audio = d at this hne
    cases d with
    | nil => exact absurd rfl hne
    | cons x xs => simp only [k5, Res.ok_bind, this]
  unfold maybeEmplace
  rw [hsz]
  simp only [Res.ok_bind, h1]
  rw [if_pos (by omega), if_neg (by omega), hre]
  rfl

/-- The bytes `b` are read as a tag that is written as `b'`, in the same room. -/
def Step (z : Zlib) (b b' : Bytes) : Prop := ∃ t n p, ReadsAs r2 (r3 z) (r4 z) b t ∧ Steady (anyI z) n p b' t ∧
  n + 10 = b.length ∧ b'.length = b.length ∧ CompleteTag b

theorem steps {z : Zlib} {bs bs' : List Bytes} (h : Pairs (Step z) bs bs') :
    ∃ (ts : List (Bytes × AnyTag)) (hs : List (Held AnyTag)), ts.map (·.1) = bs ∧ (∀ t ∈ ts, ReadsAs r2 (r3 z) (r4 z) t.1 t.2) ∧
      hs.map (·.tag) = ts.map (·.2) ∧ (∀ x ∈ hs, Steady (anyI z) x.n x.p x.b x.tag) ∧ hs.map (·.b) = bs' ∧
      (hs.map fun x => x.n + 10).sum = bs.flatten.length ∧ bs'.flatten.length = bs.flatten.length ∧ ∀ b ∈ bs, CompleteTag b := by
  induction h with
  | nil => exact ⟨[], [], rfl, by simp, rfl, by simp, rfl, rfl, rfl, by simp⟩
  | @cons b b' bs bs' h _ ih =>
    obtain ⟨ts, hs, h1, h2, h3, h4, h5, h6, h7, h8⟩ := ih
    obtain ⟨t, n, p, k1, k2, k3, k4, k5⟩ := h
    refine ⟨(b, t) :: ts, ⟨t, n, p, b'⟩ :: hs, by simp [h1], ?_, by simp [h3], ?_, by simp [h5], ?_, ?_, ?_⟩
    · intro x hx
      rcases List.mem_cons.1 hx with rfl | hx
      · exact k1
      · exact h2 x hx
    · intro x hx
      rcases List.mem_cons.1 hx with rfl | hx
      · exact k2
      · exact h4 x hx
    · simp only [List.map_cons, List.sum_cons, List.flatten_cons, List.length_append, h6, k3]
    · simp only [List.flatten_cons, List.length_append, h7, k4]
    · intro x hx
      rcases List.mem_cons.1 hx with rfl | hx
      · exact k5
      · exact h8 x hx

theorem written_back {z : Zlib} {bs bs' : List Bytes} (h : Pairs (Step z) bs bs') (st : EmplaceStrategy) (audio : Bytes)
    (hr : NoHeader audio) (hne : bs.flatten ++ audio ≠ []) :
    WrittenBack z st (bs.flatten ++ audio) (bs'.flatten ++ audio) := by
  obtain ⟨ts, hs, rfl, h2, h3, h4, rfl, h6, h7, h8⟩ := steps h
  have hl : ts.length ≤ (ts.map (·.1)).flatten.length := by
    have := tags_length h8
    rw [List.length_map] at this
    omega
  have hrd := C28_read_all r2 (r3 z) (r4 z) ts audio ((ts.map (·.1)).flatten ++ audio).length.succ h2 hr
    (by rw [List.length_append]; omega) [] IoBits.all
  simp only [List.nil_append, List.length_nil] at hrd
  obtain ⟨ts2, k3⟩ := emplace_steady h4 st (ts.map (·.1)) audio h8 hr hne h6 h7
  rw [h3] at k3
  refine ⟨ts.map (·.2), .emplaced, ts2, ?_, k3⟩
  unfold Scheme.readTags
  rw [hrd]
  rfl

/-! ### ID3v2.3 -/

theorem back23 {z : Zlib} (hz : ∀ c b, z.crc32 c b < 2 ^ 32) {t : Tag23}
    (hfr : StorableFrames z .v3 t.frames packOf) (hext : t.ext = none) (hun : t.unsync ≠ some true)
    (hlt : (rawBytes .v3 (laidOf .v3 t.frames)).length + t.padding < 2 ^ 28) (hdr : Bytes)
    (hh : Tag23.writeHeader t.flags ((rawBytes .v3 (laidOf .v3 t.frames)).length + t.padding) = .ok hdr) :
    (∃ V, W0 z (.inr (.inl t)) V t.padding ∧
      V.bytes false t.padding = hdr ++ (rawBytes .v3 (laidOf .v3 t.frames) ++ List.replicate t.padding 0) ∧
      V.cb false = (rawBytes .v3 (laidOf .v3 t.frames)).length) ∧
    CompleteTag (hdr ++ (rawBytes .v3 (laidOf .v3 t.frames) ++ List.replicate t.padding 0)) ∧
      ReadsAs r2 (r3 z) (r4 z) (hdr ++ (rawBytes .v3 (laidOf .v3 t.frames) ++ List.replicate t.padding 0))
        (.inr (.inl ⟨some false, t.experimental, none, t.padding, (laidOf .v3 t.frames).map (Raw.frame .v3)⟩)) := by
  have hst : Storable23 z t false packOf :=
    ⟨hfr, (by rw [hext]; exact nofun), hz, .inl ⟨rfl, hun, by
      rw [extOf, hext]
      rintro ⟨a, c, d, e, -⟩
      simp [extBytes] at e⟩⟩
  obtain ⟨n, t', h1, pad', h2, h3, h4, h5, h6⟩ := parseBuf23_storable z t false packOf hst
  have hx : extOf z t packOf = none := by rw [extOf, hext]; rfl
  rw [hx] at h6 h2
  have he : t'.ext = none := by simpa using h6
  obtain ⟨n', t'', k1, k2, -⟩ := size23_ready z t false packOf hfr (by rw [hext]; exact nofun)
  rw [h1] at k1
  cases k1
  have hpl : (t'.frames.map Frame4.plain).flatten = rawBytes .v3 (laidOf .v3 t.frames) := (refreshed_clean k2).2.2
  have hpad : pad' = t.padding := by
    rcases h3 with h3 | ⟨h3, -⟩
    · exact h3
    · cases h3
  subst hpad
  simp only [he, extForm, Bool.false_eq_true, if_false, List.nil_append, List.length_nil, Nat.zero_add, Option.map_none] at h2 h4
  rw [hpl] at h2 h4
  obtain ⟨hdr', g1, g2, g3⟩ := writeHeader23_spec (wflags23 t false) n (by omega)
  have hw := write23_eq h1
  have ehdr : hdr' = hdr := by
    have : Tag23.writeHeader t.flags n = .ok hdr' := g1
    rw [h4, hh] at this
    cases this
    rfl
  subst ehdr
  rw [g1] at hw
  simp only [Res.ok_bind, he, extForm, Bool.false_eq_true, if_false, List.append_nil, hpl, List.append_assoc] at hw
  have e1 : decide (wflags23 t false &&& 0x80 ≠ 0) = false := by
    rw [decide_eq_false_iff_not, (wflags23_bits t false).1]
    simp [hun]
  have e2 : decide (wflags23 t false &&& 0x20 ≠ 0) = t.experimental := by
    rw [Bool.eq_iff_iff, decide_eq_true_iff, (wflags23_bits t false).2.2]
  refine ⟨?_, ⟨3, 0, wflags23 t false, n, g3 _, ?_⟩, fun pre post m => ?_⟩
  · obtain ⟨V, p, q1, q2⟩ := canWrite_look (canWrite_plain (z := z) hext h1)
    have hp : p = t.padding := by cases q2; rfl
    subst hp
    obtain ⟨t2, q3, -⟩ := (simAny z).size false q1
    have hcb : V.cb false + t.padding = n := by
      have := congrArg (fun r : Res (Nat × AnyTag) => r.bind fun r => .ok r.1) q3
      simp only [Res.ok_bind, anyI, TagI.sum, tag23I, h1, Res.ok.injEq] at this
      exact this.symm
    obtain ⟨t3, q4, -⟩ := (simAny z).write false q1 (by omega)
    refine ⟨V, q1, ?_, by omega⟩
    have := congrArg (fun r : Res (Bytes × AnyTag) => r.bind fun r => .ok r.1) q4
    simp only [Res.ok_bind, anyI, TagI.sum, tag23I, hw, Res.ok.injEq] at this
    exact this.symm
  · rw [List.length_append, List.length_append, List.length_replicate, g2, h4]
  · have hr := Proofs.Scheme.maybeRead_any z pre hdr' (rawBytes .v3 (laidOf .v3 t.frames) ++ List.replicate t.padding 0) post (wflags23 t false) m
      (fun t => (.inr (.inl t) : AnyTag)) g2 (by rw [List.length_append, List.length_replicate, ← h4]; exact g3) _ h2 r2 (r4 z)
    rw [e1, e2] at hr
    exact hr

/-- Bytes that come from each other, in the same room, and settle; they do not change at all if `still`. -/
def Settles (z : Zlib) (still : Prop) (C : Nat → Bytes) : Prop := (∀ n, Step z (C n) (C (n + 1))) ∧ (∀ n, (C n).length = (C 0).length) ∧
  (∀ n, 3 ≤ n → C n = C 3) ∧ (still → ∀ n, C n = C 0)

theorem settles23 {z : Zlib} (hz : ∀ c b, z.crc32 c b < 2 ^ 32) {t : Tag23}
    (hfr : StorableFrames z .v3 t.frames packOf) (hext : t.ext = none) (hun : t.unsync ≠ some true)
    (hlt : (t.frames.map fun f => 10 + (packOf f).length).sum + t.padding < 2 ^ 28) :
    ∃ C, (∃ x, t.write z false = .ok (C 0, x)) ∧ Settles z (Unmarked t.frames) C := by
  have key : ∀ n, ∃ hdr x, Tag23.writeHeader t.flags ((t.frames.map fun f => 10 + (packOf f).length).sum + t.padding) = .ok hdr ∧
      hdr.length = 10 ∧ (tagAfter23 t n).write z false =
        .ok (hdr ++ (rawBytes .v3 (laidOf .v3 (framesAfter .v3 t.frames n)) ++ List.replicate t.padding 0), x) ∧
      (∃ V, W0 z (.inr (.inl (tagAfter23 t n))) V t.padding ∧
        V.bytes false t.padding = hdr ++ (rawBytes .v3 (laidOf .v3 (framesAfter .v3 t.frames n)) ++ List.replicate t.padding 0) ∧
        V.cb false = (t.frames.map fun f => 10 + (packOf f).length).sum) ∧
      CompleteTag (hdr ++ (rawBytes .v3 (laidOf .v3 (framesAfter .v3 t.frames n)) ++ List.replicate t.padding 0)) ∧
      ReadsAs r2 (r3 z) (r4 z) (hdr ++ (rawBytes .v3 (laidOf .v3 (framesAfter .v3 t.frames n)) ++ List.replicate t.padding 0))
        (.inr (.inl (tagAfter23 t (n + 1)))) := by
    intro n
    have hl := framesAfter_length .v3 t.frames n
    have hs := framesAfter_storable hfr n
    have hfl := flags_after23 hext hun n
    have e1 : (tagAfter23 t n).frames = framesAfter .v3 t.frames n := by cases n <;> rfl
    have e2 : (tagAfter23 t n).padding = t.padding := by cases n <;> rfl
    have e3 : (tagAfter23 t n).experimental = t.experimental := by cases n <;> rfl
    have e4 : (tagAfter23 t n).ext = none := by cases n; exact hext; rfl
    have e5 : (tagAfter23 t n).unsync ≠ some true := by cases n; exact hun; exact nofun
    rw [laid_length .v3 t.frames] at hl
    have hlt' : (rawBytes .v3 (laidOf .v3 (tagAfter23 t n).frames)).length + (tagAfter23 t n).padding < 2 ^ 28 := by
      rw [e1, e2, hl]; exact hlt
    obtain ⟨hdr, x, k1, k2, k3, -⟩ := settle23_write hz (t := tagAfter23 t n) (by rw [e1]; exact hs) e4 e5 hlt'
    obtain ⟨q1, q2, q3⟩ := back23 hz (t := tagAfter23 t n) (by rw [e1]; exact hs) e4 e5 hlt' hdr k1
    rw [e1, e2] at k1 k3 q1 q2 q3
    rw [hl, hfl] at k1
    rw [hl] at q1
    rw [e3] at q3
    exact ⟨hdr, x, k1, k2, k3, q1, q2, q3⟩
  obtain ⟨hdr, x, g1, g2, g3, -⟩ := key 0
  obtain ⟨f1, f2, f3⟩ := chain_facts (ver := .v3) (fs := t.frames) hdr (List.replicate t.padding 0)
  refine ⟨fun n => hdr ++ (rawBytes .v3 (laidOf .v3 (framesAfter .v3 t.frames n)) ++ List.replicate t.padding 0), ⟨x, g3⟩, fun n => ?_,
    fun n => by rw [f1, f1], f2, f3⟩
  obtain ⟨hdr1, x1, k1, -, -, -, k2, k3⟩ := key n
  obtain ⟨hdr2, x2, k4, -, -, ⟨V, k5, k6, k7⟩, -⟩ := key (n + 1)
  rw [g1] at k1 k4
  cases k1
  cases k4
  have hst := steady_sim (simAny z) k5 (by omega)
  rw [k6] at hst
  refine ⟨_, _, t.padding, k3, hst, ?_, by rw [f1, f1], k2⟩
  rw [f1, k7, g2, List.length_replicate]
  omega

/-! ### ID3v2.2 -/

theorem maybeRead_any22 {α : Type} (g : Tag22 → α) (mk3 mk4 : Id3v2Info → SM α) (pre hdr body post : Bytes) (fl : Byte) (m : IoBits)
    (hh : hdr.length = 10) (hi : ∀ rest, IsHeader (hdr ++ rest) 2 0 fl body.length)
    (r : List Frame22 × Nat) (hb : Tag22.parseBuf (decide (fl &&& 0x80 ≠ 0)) body = .ok r) :
    maybeReadId3v2 (fun h => Tag22.read h >>= fun t => pure (g t)) mk3 mk4 ⟨pre ++ (hdr ++ body) ++ post, pre.length, m, IoBits.none⟩ =
      (.ok (some (g ⟨some (decide (fl &&& 0x80 ≠ 0)), some (decide (fl &&& 0x40 ≠ 0)), some r.2, r.1⟩)),
        ⟨pre ++ (hdr ++ body) ++ post, (pre ++ (hdr ++ body)).length, m, IoBits.none⟩) := by
  obtain ⟨o, h1, h2⟩ := lookingAt_spec (pre ++ (hdr ++ body) ++ post) pre.length m false
  have ho : o = some ⟨2, 0, fl, body.length⟩ := by
    rw [h2]
    have : (pre ++ (hdr ++ body) ++ post).drop pre.length = hdr ++ (body ++ post) := by
      simp [List.append_assoc]
    rw [this]
    exact hi _
  subst ho
  unfold maybeReadId3v2
  rw [SM.bind_apply, h1]
  simp only [Option.isSome_some, Bool.not_false, Bool.and_true, if_true, SM.bind_apply]
  unfold mkId3v2
  simp only [if_true]
  unfold Tag22.read
  simp only [SM.bind_apply]
  rw [parse_full _ _ _ _ _ (by simp [hh]; omega)]
  have : ((pre ++ (hdr ++ body) ++ post).drop (pre.length + 10)).take body.length = body := by
    rw [show pre ++ (hdr ++ body) ++ post = (pre ++ hdr) ++ (body ++ post) by simp,
      show pre.length + 10 = (pre ++ hdr).length by simp [hh], List.drop_left, List.take_left]
  rw [this, hb]
  simp only [SM.pure_apply']
  congr 2
  simp [hh]; omega

theorem settles22 (z : Zlib) (t : Tag22) (w : Frame22 → Bytes) (c : Bool) (pad : Nat) (h : Storable t false w c pad)
    (sz : Nat) (t1 : Tag22) (hsz : t.size false = .ok (sz, t1)) (hlt : sz < 2 ^ 28) :
    ∃ C, (∃ x, t.write false = .ok (C 0, x)) ∧ Settles z True C := by
  obtain ⟨b, fs', hw, hp⟩ := storable_bytes t false w c pad h
  obtain ⟨k1, k2⟩ := write_eq t false c pad b fs' h.comp h.padding hw
  rw [hsz] at k1
  cases k1
  obtain ⟨hdr, g1, g2, g3⟩ := writeHeader_spec (wflags t c false) _ hlt
  rw [g1] at k2
  simp only [Res.ok_bind, List.append_assoc] at k2
  -- what is written next
  obtain ⟨gs, q1, -⟩ := framesWrite_current false w t.frames fun f hf => ⟨(h.frames f hf).1, (h.frames f hf).2.2.2.2⟩
  rw [hw] at q1
  cases q1
  obtain ⟨gs', q2, -⟩ := framesWrite_current false (fun f => match f.body.serialize with | .ok b => b | _ => [])
    (t.frames.map fun f => Frame22.new f.id f.body) (by
      intro g hg
      obtain ⟨f, hf, rfl⟩ := List.mem_map.1 hg
      obtain ⟨h1, -, -, -, h5⟩ := h.frames f hf
      have e : (match (Frame22.new f.id f.body).body.serialize with | .ok b => b | _ => []) = w f := by
        show (match f.body.serialize with | .ok b => b | _ => []) = w f
        rw [h1.1]
      rw [e]
      exact ⟨⟨h1.1, .inl rfl⟩, h5⟩)
  have e : ((t.frames.map fun f => Frame22.new f.id f.body).map fun f =>
      if false = true then frame22 f.id (match f.body.serialize with | .ok b => b | _ => [])
      else unsynchronise false (frame22 f.id (match f.body.serialize with | .ok b => b | _ => []))) =
      t.frames.map fun f => if false = true then frame22 f.id (w f) else unsynchronise false (frame22 f.id (w f)) := by
    rw [List.map_map]
    apply List.map_congr_left
    intro f hf
    have e : (match f.body.serialize with | .ok b => b | _ => []) = w f := by rw [(h.frames f hf).1.1]
    show (if false = true then frame22 f.id (match f.body.serialize with | .ok b => b | _ => [])
      else unsynchronise false (frame22 f.id (match f.body.serialize with | .ok b => b | _ => []))) = _
    rw [e]
  rw [e] at q2
  have hc : decide (wflags t c false &&& 0x40 ≠ 0) = c := by
    rw [Bool.eq_iff_iff, decide_eq_true_iff, wflags_compression]
  have k3 := write_eq ⟨some (decide (wflags t c false &&& 0x80 ≠ 0)), some (decide (wflags t c false &&& 0x40 ≠ 0)), some pad,
    t.frames.map fun f => Frame22.new f.id f.body⟩ false c pad _ gs' (by rw [hc]) rfl q2
  have hfl : wflags ⟨some (decide (wflags t c false &&& 0x80 ≠ 0)), some (decide (wflags t c false &&& 0x40 ≠ 0)), some pad,
      t.frames.map fun f => Frame22.new f.id f.body⟩ c false = wflags t c false := by
    have e : decide (wflags t c false &&& 0x80 ≠ 0) = decide (t.unsync = some true) := by
      rw [Bool.eq_iff_iff, decide_eq_true_iff, decide_eq_true_iff, wflags_unsync]
      simp
    rw [e]
    unfold wflags
    by_cases hu : t.unsync = some true <;> simp [hu]
  rw [hfl, g1] at k3
  simp only [Res.ok_bind, List.append_assoc] at k3
  obtain ⟨k3, k4⟩ := k3
  refine ⟨fun _ => _, ⟨_, k2⟩, fun _ => ?_, fun _ => rfl, fun _ _ => rfl, fun _ _ => rfl⟩
  obtain ⟨V, p, s1, s2⟩ := canWrite_look (z := z) (t := .inl ⟨some (decide (wflags t c false &&& 0x80 ≠ 0)),
    some (decide (wflags t c false &&& 0x40 ≠ 0)), some pad, t.frames.map fun f => Frame22.new f.id f.body⟩) ⟨rfl, _, _, k3⟩
  have hpp : p = pad := by cases s2; rfl
  subst hpp
  obtain ⟨t2, s3, -⟩ := (simAny z).size false s1
  have hcb := congrArg (fun r : Res (Nat × AnyTag) => r.bind fun r => .ok r.1) s3
  simp only [Res.ok_bind, anyI, TagI.sum, tag22I, k3, Res.ok.injEq] at hcb
  obtain ⟨t3, s4, -⟩ := (simAny z).write false s1 (by omega)
  have hby := congrArg (fun r : Res (Bytes × AnyTag) => r.bind fun r => .ok r.1) s4
  simp only [Res.ok_bind, anyI, TagI.sum, tag22I, k4, Res.ok.injEq] at hby
  have hst := steady_sim (simAny z) s1 (by omega)
  rw [← hby] at hst
  refine ⟨_, _, p, fun pre post m => ?_, hst, ?_, rfl, 2, 0, _, _, g3 _, ?_⟩
  · exact maybeRead_any22 (fun t => (.inl t : AnyTag)) (r3 z) (r4 z) pre hdr _ post (wflags t c false) m g2
      (by rw [List.length_append, List.length_replicate, Nat.add_comm]; exact g3) _ hp
  · simp only [List.length_append, List.length_replicate, g2]
    omega
  · simp only [List.length_append, List.length_replicate, g2]
    omega

/-! ### ID3v2.4 -/

theorem maybeRead_any24 {α : Type} (z : Zlib) (g : Tag24 → α) (pre hdr body post : Bytes) (fl : Byte) (m : IoBits)
    (hh : hdr.length = 10) (hi : ∀ rest, IsHeader (hdr ++ rest) 4 0 fl body.length)
    (r : Option Ext24 × Nat × List Frame4)
    (hb : Tag24.parseBuf z (decide (fl &&& 0x40 ≠ 0)) body = .ok r)
    (mk2 mk3 : Id3v2Info → SM α) :
    maybeReadId3v2 mk2 mk3 (fun h => Tag24.read z h >>= fun t => pure (g t)) ⟨pre ++ (hdr ++ body) ++ post, pre.length, m, IoBits.none⟩ =
      (.ok (some (g ⟨some (decide (fl &&& 0x80 ≠ 0)), decide (fl &&& 0x20 ≠ 0), decide (fl &&& 0x10 ≠ 0), r.1, r.2.1, r.2.2⟩)),
        ⟨pre ++ (hdr ++ body) ++ post, (pre ++ (hdr ++ body)).length, m, IoBits.none⟩) := by
  obtain ⟨o, h1, h2⟩ := lookingAt_spec (pre ++ (hdr ++ body) ++ post) pre.length m false
  have ho : o = some ⟨4, 0, fl, body.length⟩ := by
    rw [h2]
    have : (pre ++ (hdr ++ body) ++ post).drop pre.length = hdr ++ (body ++ post) := by
      simp [List.append_assoc]
    rw [this]
    exact hi _
  subst ho
  unfold maybeReadId3v2
  rw [SM.bind_apply, h1]
  simp only [Option.isSome_some, Bool.not_false, Bool.and_true, if_true, SM.bind_apply]
  unfold mkId3v2
  simp only [show ¬ ((4 : Byte) = 2) by decide, show ¬ ((4 : Byte) = 3) by decide, if_false, if_true]
  unfold Tag24.read
  simp only [SM.bind_apply]
  rw [parse24_full _ _ _ _ _ _ (by simp [hh]; omega)]
  have : ((pre ++ (hdr ++ body) ++ post).drop (pre.length + 10)).take body.length = body := by
    rw [show pre ++ (hdr ++ body) ++ post = (pre ++ hdr) ++ (body ++ post) by simp,
      show pre.length + 10 = (pre ++ hdr).length by simp [hh], List.drop_left, List.take_left]
  rw [this, hb]
  simp only [SM.pure_apply']
  congr 2
  simp [hh]; omega

/-- A tag without extended header, padding and footer. -/
theorem steady24 {z : Zlib} {t : Tag24} (h : StorableFrames z .v4 t.frames packOf) (hext : t.ext = none)
    (hp : t.padding = 0) (hf : t.footer = false) (hdr : Bytes)
    (hh : Tag24.writeHeader false t.flags (rawBytes .v4 (laidOf .v4 t.frames)).length = .ok hdr) :
    Steady (tag24I z) (rawBytes .v4 (laidOf .v4 t.frames)).length 0 (hdr ++ (rawBytes .v4 (laidOf .v4 t.frames) ++ [])) t := by
  have key : ∀ x : Tag24, x.ext = none → x.padding = 0 → x.footer = false → Paired (Ready .v4 packOf) t.frames x.frames →
      ∃ gs, x.size z false = .ok ((rawBytes .v4 (laidOf .v4 t.frames)).length, { x with frames := gs }) ∧ Paired (Ready .v4 packOf) t.frames gs ∧
        (gs.map Frame4.plain).flatten = rawBytes .v4 (laidOf .v4 t.frames) := by
    intro x h1 h2 h3 h4
    obtain ⟨gs, h6, h7⟩ := sizeAll_ready z false (x.padding == 0) h4 (storable_writable h)
    have hbytes : (gs.map Frame4.plain).flatten = rawBytes .v4 (laidOf .v4 t.frames) := (refreshed_clean h7).2.2
    refine ⟨gs, ?_, ?_, hbytes⟩
    · unfold Tag24.size Tag24.extSize
      rw [h6, h1, ← hbytes]
      simp only [Res.ok_bind, h2, h3, Bool.false_eq_true, if_false, Nat.zero_add, Nat.add_zero]
    · clear h6 h4 hbytes h hh
      generalize t.frames = fs at h7
      induction h7 with
      | nil => exact .nil
      | cons a _ ih => exact .cons ⟨a.1, .inr a⟩ ih
  refine ⟨fun x => x.ext = none ∧ x.padding = 0 ∧ x.footer = false ∧ x.flags = t.flags ∧ Paired (Ready .v4 packOf) t.frames x.frames,
    ⟨hext, hp, hf, rfl, storable_ready h⟩, ?_⟩
  rintro x ⟨h1, h2, h3, h4, h5⟩
  obtain ⟨gs, k1, k2, k3⟩ := key x h1 h2 h3 h5
  refine ⟨⟨{ x with frames := gs }, k1, ⟨h1, h2, h3, h4, k2⟩, by simp only [tag24I, h2]⟩, { x with frames := gs }, ?_, h1, h2, h3, h4, k2⟩
  have hw := write24_eq k1
  rw [h4, hh] at hw
  have hb : (gs.map fun g => if false = true then g.unsynced else g.plain).flatten = rawBytes .v4 (laidOf .v4 t.frames) := k3
  simp only [Res.ok_bind, h1, Tag24.extBytes, h2, List.replicate_zero, footer24, h3, Bool.false_eq_true, if_false, List.append_nil] at hw
  simp only [Bool.false_eq_true, if_false] at hb
  rw [hb] at hw
  simp only [tag24I, hw, Res.ok_bind, List.append_nil, h1, h2, h3]

theorem back24 {z : Zlib} {t : Tag24} (h : StorableFrames z .v4 t.frames packOf) (hext : t.ext = none)
    (hf : t.footer = false) (hlt : (rawBytes .v4 (laidOf .v4 t.frames)).length < 2 ^ 28) (hdr : Bytes)
    (hh : Tag24.writeHeader false t.flags (rawBytes .v4 (laidOf .v4 t.frames)).length = .ok hdr) :
    CompleteTag (hdr ++ (rawBytes .v4 (laidOf .v4 t.frames) ++ [])) ∧
      ReadsAs r2 (r3 z) (r4 z) (hdr ++ (rawBytes .v4 (laidOf .v4 t.frames) ++ []))
        (.inr (.inr ⟨some (decide (t.unsync = some true)), t.experimental, false, none, 0, (laidOf .v4 t.frames).map (Raw.frame .v4)⟩)) := by
  obtain ⟨hdr', g1, g2, g3⟩ := writeHeader24_spec t.flags _ hlt
  rw [hh] at g1
  cases g1
  rw [List.append_nil]
  refine ⟨⟨4, 0, t.flags, _, g3 _, by rw [List.length_append, g2]⟩, fun pre post m => ?_⟩
  have hparse : Tag24.parseBuf z (decide (t.flags &&& 0x40 ≠ 0)) (rawBytes .v4 (laidOf .v4 t.frames)) =
      .ok (none, 0, (laidOf .v4 t.frames).map (Raw.frame .v4)) := by
    have hd : decide (t.flags &&& 0x40 ≠ 0) = false := by
      rw [decide_eq_false_iff_not, (flags24_bits t).2.1, hext]; exact nofun
    have l1 := encrScan_layout z .v4 _ 0 [] [] (storable_raw h)
    have l2 := framePass_layout z .v4 _ 0 [] [] [] (storable_raw h)
    simp only [List.replicate_zero, List.append_nil, Nat.add_zero, List.nil_append, List.length_nil, Nat.zero_add] at l1 l2
    unfold Tag24.parseBuf
    rw [hd]
    simp only [Bool.false_eq_true, if_false, Res.ok_bind]
    unfold laidOf
    rw [l1]
    simp only [Res.ok_bind]
    rw [l2]
    rfl
  have hr := maybeRead_any24 z (fun t => (.inr (.inr t) : AnyTag)) pre hdr _ post t.flags m g2 g3 _ hparse r2 (r3 z)
  have e1 : decide (t.flags &&& 0x80 ≠ 0) = decide (t.unsync = some true) := by
    rw [Bool.eq_iff_iff, decide_eq_true_iff, decide_eq_true_iff, (flags24_bits t).1]
  have e2 : decide (t.flags &&& 0x20 ≠ 0) = t.experimental := by
    rw [Bool.eq_iff_iff, decide_eq_true_iff, (flags24_bits t).2.2.1]
  have e3 : decide (t.flags &&& 0x10 ≠ 0) = false := by
    rw [decide_eq_false_iff_not, (flags24_bits t).2.2.2, hf]; exact nofun
  rw [e1, e2, e3] at hr
  exact hr

theorem settles24 {z : Zlib} {t : Tag24} (hfr : StorableFrames z .v4 t.frames packOf) (hext : t.ext = none)
    (hp : t.padding = 0) (hf : t.footer = false) (hlt : (t.frames.map fun f => 10 + (packOf f).length).sum < 2 ^ 28) :
    ∃ C, (∃ x, t.write z false = .ok (C 0, x)) ∧ Settles z (Unmarked t.frames) C := by
  have key : ∀ n, ∃ hdr x, Tag24.writeHeader false t.flags (t.frames.map fun f => 10 + (packOf f).length).sum = .ok hdr ∧
      hdr.length = 10 ∧ (tagAfter24 t n).write z false =
        .ok (hdr ++ (rawBytes .v4 (laidOf .v4 (framesAfter .v4 t.frames n)) ++ []), x) ∧
      Steady (tag24I z) (t.frames.map fun f => 10 + (packOf f).length).sum 0
        (hdr ++ (rawBytes .v4 (laidOf .v4 (framesAfter .v4 t.frames n)) ++ [])) (tagAfter24 t n) ∧
      CompleteTag (hdr ++ (rawBytes .v4 (laidOf .v4 (framesAfter .v4 t.frames n)) ++ [])) ∧
      ReadsAs r2 (r3 z) (r4 z) (hdr ++ (rawBytes .v4 (laidOf .v4 (framesAfter .v4 t.frames n)) ++ []))
        (.inr (.inr (tagAfter24 t (n + 1)))) := by
    intro n
    have hl := framesAfter_length .v4 t.frames n
    have hs := framesAfter_storable hfr n
    have hfl := flags_after24 hext hf n
    have e1 : (tagAfter24 t n).frames = framesAfter .v4 t.frames n := by cases n <;> rfl
    have e2 : (tagAfter24 t n).padding = 0 := by cases n; exact hp; rfl
    have e3 : (tagAfter24 t n).experimental = t.experimental := by cases n <;> rfl
    have e4 : (tagAfter24 t n).ext = none := by cases n; exact hext; rfl
    have e5 : (tagAfter24 t n).footer = false := by cases n; exact hf; rfl
    have e6 : decide ((tagAfter24 t n).unsync = some true) = decide (t.unsync = some true) := by
      cases n with
      | zero => rfl
      | succ n => simp [tagAfter24]
    rw [laid_length .v4 t.frames] at hl
    have hs' : StorableFrames z .v4 (tagAfter24 t n).frames packOf := by rw [e1]; exact hs
    have hlt' : (rawBytes .v4 (laidOf .v4 (tagAfter24 t n).frames)).length < 2 ^ 28 := by rw [e1, hl]; exact hlt
    obtain ⟨hdr, x, k1, k2, k3, -⟩ := settle24_write hs' e4 e2 e5 hlt'
    have q1 := steady24 hs' e4 e2 e5 hdr k1
    obtain ⟨q2, q3⟩ := back24 hs' e4 e5 hlt' hdr k1
    rw [e1] at k1 k3 q1 q2 q3
    rw [hl, hfl] at k1
    rw [hl] at q1
    rw [e3, e6] at q3
    exact ⟨hdr, x, k1, k2, k3, q1, q2, q3⟩
  obtain ⟨hdr, x, g1, g2, g3, -⟩ := key 0
  obtain ⟨f1, f2, f3⟩ := chain_facts (ver := .v4) (fs := t.frames) hdr []
  refine ⟨fun n => hdr ++ (rawBytes .v4 (laidOf .v4 (framesAfter .v4 t.frames n)) ++ []), ⟨x, g3⟩, fun n => ?_,
    fun n => by rw [f1, f1], f2, f3⟩
  obtain ⟨hdr1, x1, k1, -, -, -, k2, k3⟩ := key n
  obtain ⟨hdr2, x2, k4, -, -, k5, -⟩ := key (n + 1)
  rw [g1] at k1 k4
  cases k1
  cases k4
  refine ⟨_, _, 0, k3, k5.inr.inr, ?_, by rw [f1, f1], k2⟩
  rw [f1, g2, List.length_nil]
  omega

end Scribbu.WriteBack
