import Verif.Proofs.Tag24
import Verif.Props.Tag22
import Verif.Spec.Settle

/-! Rewriting a tag: what the bytes are, and what is read back. -/

namespace Scribbu
open Scribbu.Spec Scribbu.Props

/-- The payload of a frame. -/
def packOf (f : Frame4) : Bytes := match f.body.serialize with | .ok b => b | _ => []

/-- Frames as laid out. -/
def laidOf (ver : Ver) (fs : List Frame4) : List Raw := fs.map fun f => rawOf ver f (packOf f)

/-- Frames after they have been written and read `n` times. -/
def framesAfter (ver : Ver) (fs : List Frame4) : Nat → List Frame4
  | 0 => fs
  | n + 1 => (laidOf ver (framesAfter ver fs n)).map (Raw.frame ver)

theorem framesAfter_storable {z : Zlib} {ver : Ver} {fs : List Frame4} (h : StorableFrames z ver fs packOf) (n : Nat) :
    StorableFrames z ver (framesAfter ver fs n) packOf := by
  induction n with
  | zero => exact h
  | succ n ih =>
    intro f hf
    simp only [framesAfter, laidOf, List.map_map, List.mem_map, Function.comp_def] at hf
    obtain ⟨g, hg, rfl⟩ := hf
    obtain ⟨-, -, h3, h4, h5, h6, h7⟩ := ih g hg
    exact ⟨.inl rfl, ⟨rfl, rfl, rfl, rfl⟩, h3, h4, h5, h6, h7⟩

theorem laid_length (ver : Ver) (fs : List Frame4) :
    (rawBytes ver (laidOf ver fs)).length = (fs.map fun f => 10 + (packOf f).length).sum := by
  unfold laidOf
  induction fs with
  | nil => rfl
  | cons f fs ih =>
    simp only [List.map_cons, rawBytes_cons, List.length_append, Raw.length, List.sum_cons, ih]
    rfl

theorem framesAfter_length (ver : Ver) (fs : List Frame4) (n : Nat) :
    (rawBytes ver (laidOf ver (framesAfter ver fs n))).length = (rawBytes ver (laidOf ver fs)).length := by
  induction n with
  | zero => rfl
  | succ n ih =>
    rw [← ih, laid_length, laid_length]
    simp only [framesAfter, laidOf, List.map_map, Function.comp_def]
    rfl

/-- The attributes of the frames: each rewriting moves them by one place. -/
theorem framesAfter_attrs (ver : Ver) (fs : List Frame4) (n : Nat) :
    (framesAfter ver fs (n + 1)).map (fun f => (f.tap, f.fap, f.ro)) =
      (framesAfter ver fs n).map fun f => (false, f.tap, f.fap) := by
  simp only [framesAfter, laidOf, List.map_map, Function.comp_def, Raw.frame, Frame4.new, rawOf, attrs_f0w]

theorem all_attrs {fs : List Frame4} {gs : List Frame4} {p q : Bool × Bool × Bool → Prop}
    (e : gs.map (fun f => (f.tap, f.fap, f.ro)) = fs.map fun f => (false, f.tap, f.fap))
    (h : ∀ f ∈ fs, p (f.tap, f.fap, f.ro)) (hpq : ∀ a b c, p (a, b, c) → q (false, a, b)) : ∀ f ∈ gs, q (f.tap, f.fap, f.ro) := by
  intro f hf
  have : (f.tap, f.fap, f.ro) ∈ gs.map (fun f => (f.tap, f.fap, f.ro)) := List.mem_map.2 ⟨f, hf, rfl⟩
  rw [e] at this
  obtain ⟨g, hg, e⟩ := List.mem_map.1 this
  rw [← e]
  exact hpq _ _ _ (h g hg)

/-- No frame has an attribute set. -/
def Unmarked (fs : List Frame4) : Prop := ∀ f ∈ fs, f.tap = false ∧ f.fap = false ∧ f.ro = false

theorem framesAfter_unmarked (ver : Ver) (fs : List Frame4) (k : Nat) : Unmarked (framesAfter ver fs (k + 3)) := by
  have h1 := all_attrs (p := fun _ => True) (q := fun x => x.1 = false) (framesAfter_attrs ver fs k) (fun _ _ => trivial)
    (fun _ _ _ _ => rfl)
  have h2 := all_attrs (p := fun x => x.1 = false) (q := fun x => x.1 = false ∧ x.2.1 = false) (framesAfter_attrs ver fs (k + 1)) h1
    (fun _ _ _ h => ⟨rfl, h⟩)
  exact all_attrs (p := fun x => x.1 = false ∧ x.2.1 = false) (q := fun x => x.1 = false ∧ x.2.1 = false ∧ x.2.2 = false)
    (framesAfter_attrs ver fs (k + 2)) h2 (fun _ _ _ h => ⟨rfl, h.1, h.2⟩)

theorem unmarked_after {ver : Ver} {fs : List Frame4} (h : Unmarked fs) (n : Nat) : Unmarked (framesAfter ver fs n) := by
  induction n with
  | zero => exact h
  | succ n ih =>
    exact all_attrs (p := fun x => x.1 = false ∧ x.2.1 = false ∧ x.2.2 = false)
      (q := fun x => x.1 = false ∧ x.2.1 = false ∧ x.2.2 = false) (framesAfter_attrs ver fs n) ih fun _ _ _ h => ⟨rfl, h.1, h.2.1⟩

/-- Frames with no attributes are laid out as they were. -/
theorem laid_still {ver : Ver} {fs : List Frame4} (n : Nat) (h : Unmarked (framesAfter ver fs n)) :
    laidOf ver (framesAfter ver fs (n + 1)) = laidOf ver (framesAfter ver fs n) := by
  simp only [framesAfter]
  generalize framesAfter ver fs n = gs at h
  unfold laidOf
  rw [List.map_map, List.map_map]
  apply List.map_congr_left
  intro f hf
  obtain ⟨h1, h2, h3⟩ := h f hf
  have e : f0w ver f = 0 := by unfold f0w; simp only [h1, h2, h3]; cases ver <;> decide
  have e' : f0w ver ((rawOf ver f (packOf f)).frame ver) = 0 := by
    unfold f0w Raw.frame
    simp only [Frame4.new, rawOf, attrs_f0w, h1, h2]
    cases ver <;> decide
  show Raw.mk _ _ _ _ _ = Raw.mk _ _ _ _ _
  rw [e, e']
  cases ver <;> rfl

/-- Sets of bytes `B n` that begin with the same header, have the frames after it, and end alike. -/
theorem chain_facts {ver : Ver} {fs : List Frame4} (hdr tail : Bytes) :
    (∀ n, (hdr ++ (rawBytes ver (laidOf ver (framesAfter ver fs n)) ++ tail)).length =
      hdr.length + (fs.map fun f => 10 + (packOf f).length).sum + tail.length) ∧
    (∀ n, 3 ≤ n → hdr ++ (rawBytes ver (laidOf ver (framesAfter ver fs n)) ++ tail) =
      hdr ++ (rawBytes ver (laidOf ver (framesAfter ver fs 3)) ++ tail)) ∧
    (Unmarked fs → ∀ n, hdr ++ (rawBytes ver (laidOf ver (framesAfter ver fs n)) ++ tail) =
      hdr ++ (rawBytes ver (laidOf ver (framesAfter ver fs 0)) ++ tail)) := by
  refine ⟨fun n => ?_, fun n hn => ?_, fun h n => ?_⟩
  · rw [List.length_append, List.length_append, framesAfter_length, laid_length]
    omega
  · obtain ⟨k, rfl⟩ : ∃ k, n = k + 3 := ⟨n - 3, by omega⟩
    clear hn
    induction k with
    | zero => rfl
    | succ k ih => rw [← ih, ← laid_still _ (framesAfter_unmarked ver fs k)]
  · induction n with
    | zero => rfl
    | succ n ih => rw [← ih, ← laid_still n (unmarked_after h n)]

/-! ### ID3v2.3 -/

theorem settle23_write {z : Zlib} (hz : ∀ c b, z.crc32 c b < 2 ^ 32) {t : Tag23}
    (hfr : StorableFrames z .v3 t.frames packOf) (hext : t.ext = none) (hun : t.unsync ≠ some true)
    (hlt : (rawBytes .v3 (laidOf .v3 t.frames)).length + t.padding < 2 ^ 28) :
    ∃ hdr x, Tag23.writeHeader t.flags ((rawBytes .v3 (laidOf .v3 t.frames)).length + t.padding) = .ok hdr ∧ hdr.length = 10 ∧
      t.write z false = .ok (hdr ++ (rawBytes .v3 (laidOf .v3 t.frames) ++ List.replicate t.padding 0), x) ∧
      ∀ m, ∃ s, maybeReadId3v2 (fun _ => SM.throw .other) (Tag23.read z) (fun _ => SM.throw .other)
        ⟨hdr ++ (rawBytes .v3 (laidOf .v3 t.frames) ++ List.replicate t.padding 0), 0, m, IoBits.none⟩ =
        (.ok (some ⟨some false, t.experimental, none, t.padding, (laidOf .v3 t.frames).map (Raw.frame .v3)⟩), s) := by
  have hst : Storable23 z t false packOf :=
    ⟨hfr, (by rw [hext]; exact nofun), hz, .inl ⟨rfl, hun, by
      rw [extOf, hext]
      rintro ⟨a, c, d, e, -⟩
      simp [extBytes] at e⟩⟩
  obtain ⟨n, t', h1, pad', h2, h3, h4, h5, h6⟩ := parseBuf23_storable z t false packOf hst
  have hx : extOf z t packOf = none := by rw [extOf, hext]; rfl
  rw [hx] at h6 h2
  have he : t'.ext = none := by simpa using h6
  obtain ⟨n', t'', k1, k2, -⟩ := size23_ready z t false packOf hfr (by rw [hext]; exact nofun)
  rw [h1] at k1
  cases k1
  have hpl : (t'.frames.map Frame4.plain).flatten = rawBytes .v3 (laidOf .v3 t.frames) := (refreshed_clean k2).2.2
  have hpad : pad' = t.padding := by
    rcases h3 with h3 | ⟨h3, -⟩
    · exact h3
    · cases h3
  subst hpad
  simp only [he, extForm, Bool.false_eq_true, if_false, List.nil_append, List.length_nil, Nat.zero_add, Option.map_none] at h2 h4
  rw [hpl] at h2 h4
  obtain ⟨hdr, g1, g2, g3⟩ := writeHeader23_spec (wflags23 t false) n (by omega)
  have hw := write23_eq h1
  rw [g1] at hw
  simp only [Res.ok_bind, he, extForm, Bool.false_eq_true, if_false, List.append_nil, hpl, List.append_assoc] at hw
  refine ⟨hdr, _, by rw [← h4]; exact g1, g2, hw, fun m => ?_⟩
  have hr := maybeRead23 z [] hdr (rawBytes .v3 (laidOf .v3 t.frames) ++ List.replicate t.padding 0) [] (wflags23 t false) m g2
    (by rw [List.length_append, List.length_replicate, ← h4]; exact g3) _ h2 (fun _ => SM.throw .other) (fun _ => SM.throw .other)
  simp only [List.nil_append, List.append_nil, List.length_nil] at hr
  have e1 : decide (wflags23 t false &&& 0x80 ≠ 0) = false := by
    rw [decide_eq_false_iff_not, (wflags23_bits t false).1]
    simp [hun]
  have e2 : decide (wflags23 t false &&& 0x20 ≠ 0) = t.experimental := by
    rw [Bool.eq_iff_iff, decide_eq_true_iff, (wflags23_bits t false).2.2]
  rw [e1, e2] at hr
  exact ⟨_, hr⟩

/-- The tag after `n` rewritings. -/
def tagAfter23 (t : Tag23) : Nat → Tag23
  | 0 => t
  | n + 1 => ⟨some false, t.experimental, none, t.padding, framesAfter .v3 t.frames (n + 1)⟩

theorem flags_after23 {t : Tag23} (he : t.ext = none) (hu : t.unsync ≠ some true) (n : Nat) : (tagAfter23 t n).flags = t.flags := by
  cases n with
  | zero => rfl
  | succ n =>
    unfold Tag23.flags tagAfter23
    rw [he]
    simp [hu]

/-- The bytes, one after the other. -/
theorem chain23 {z : Zlib} (hz : ∀ c b, z.crc32 c b < 2 ^ 32) {t : Tag23}
    (hfr : StorableFrames z .v3 t.frames packOf) (hext : t.ext = none) (hun : t.unsync ≠ some true)
    (hlt : (t.frames.map fun f => 10 + (packOf f).length).sum + t.padding < 2 ^ 28) :
    ∃ hdr : Bytes, hdr.length = 10 ∧
      (∃ x, t.write z false = .ok (hdr ++ (rawBytes .v3 (laidOf .v3 t.frames) ++ List.replicate t.padding 0), x)) ∧
      ∀ n, Rewritten23 z (hdr ++ (rawBytes .v3 (laidOf .v3 (framesAfter .v3 t.frames n)) ++ List.replicate t.padding 0))
        (hdr ++ (rawBytes .v3 (laidOf .v3 (framesAfter .v3 t.frames (n + 1))) ++ List.replicate t.padding 0)) := by
  have key : ∀ n, ∃ hdr x, Tag23.writeHeader t.flags ((t.frames.map fun f => 10 + (packOf f).length).sum + t.padding) = .ok hdr ∧
      hdr.length = 10 ∧ (tagAfter23 t n).write z false =
        .ok (hdr ++ (rawBytes .v3 (laidOf .v3 (framesAfter .v3 t.frames n)) ++ List.replicate t.padding 0), x) ∧
      ∃ s, maybeReadId3v2 (fun _ => SM.throw .other) (Tag23.read z) (fun _ => SM.throw .other)
        ⟨hdr ++ (rawBytes .v3 (laidOf .v3 (framesAfter .v3 t.frames n)) ++ List.replicate t.padding 0), 0, IoBits.none, IoBits.none⟩ =
        (.ok (some (tagAfter23 t (n + 1))), s) := by
    intro n
    have hl := framesAfter_length .v3 t.frames n
    have hs := framesAfter_storable hfr n
    have hfl := flags_after23 hext hun n
    have e1 : (tagAfter23 t n).frames = framesAfter .v3 t.frames n := by cases n <;> rfl
    have e2 : (tagAfter23 t n).padding = t.padding := by cases n <;> rfl
    have e3 : (tagAfter23 t n).experimental = t.experimental := by cases n <;> rfl
    have e4 : (tagAfter23 t n).ext = none := by cases n; exact hext; rfl
    have e5 : (tagAfter23 t n).unsync ≠ some true := by cases n; exact hun; exact nofun
    rw [laid_length .v3 t.frames] at hl
    obtain ⟨hdr, x, k1, k2, k3, k4⟩ := settle23_write hz (t := tagAfter23 t n) (by rw [e1]; exact hs) e4 e5 (by rw [e1, e2, hl]; exact hlt)
    rw [e1, e2] at k1 k3 k4
    rw [hl, hfl] at k1
    obtain ⟨s, k4⟩ := k4 IoBits.none
    rw [e3] at k4
    exact ⟨hdr, x, k1, k2, k3, s, k4⟩
  obtain ⟨hdr, x, g1, g2, g3, -⟩ := key 0
  refine ⟨hdr, g2, ⟨x, g3⟩, fun n => ?_⟩
  obtain ⟨hdr1, x1, k1, -, -, s, k2⟩ := key n
  obtain ⟨hdr2, x2, k3, -, k4, -⟩ := key (n + 1)
  rw [g1] at k1 k3
  cases k1
  cases k3
  exact ⟨_, s, x2, k2, k4⟩

/-! ### ID3v2.4 -/

theorem settle24_write {z : Zlib} {t : Tag24} (h : StorableFrames z .v4 t.frames packOf) (hext : t.ext = none)
    (hp : t.padding = 0) (hf : t.footer = false) (hlt : (rawBytes .v4 (laidOf .v4 t.frames)).length < 2 ^ 28) :
    ∃ hdr x, Tag24.writeHeader false t.flags (rawBytes .v4 (laidOf .v4 t.frames)).length = .ok hdr ∧ hdr.length = 10 ∧
      t.write z false = .ok (hdr ++ (rawBytes .v4 (laidOf .v4 t.frames) ++ []), x) ∧
      ∀ m, ∃ s, maybeReadId3v2 (fun _ => SM.throw .other) (fun _ => SM.throw .other) (Tag24.read z)
        ⟨hdr ++ (rawBytes .v4 (laidOf .v4 t.frames) ++ []), 0, m, IoBits.none⟩ =
        (.ok (some ⟨some (decide (t.unsync = some true)), t.experimental, false, none, 0, (laidOf .v4 t.frames).map (Raw.frame .v4)⟩), s) := by
  obtain ⟨gs, h6, h7⟩ := sizeAll_ready z false (t.padding == 0) (storable_ready h) (storable_writable h)
  have hbytes : (gs.map Frame4.plain).flatten = rawBytes .v4 (laidOf .v4 t.frames) := (refreshed_clean h7).2.2
  have hsz : t.size z false = .ok ((rawBytes .v4 (laidOf .v4 t.frames)).length, { t with frames := gs }) := by
    unfold Tag24.size Tag24.extSize
    rw [h6, hext, ← hbytes]
    simp only [Res.ok_bind, hp, hf, Bool.false_eq_true, if_false, Nat.zero_add, Nat.add_zero]
  obtain ⟨hdr, g1, g2, g3⟩ := writeHeader24_spec t.flags _ hlt
  have hw := write24_eq hsz
  have hb : (gs.map fun g => if false = true then g.unsynced else g.plain).flatten = rawBytes .v4 (laidOf .v4 t.frames) := hbytes
  rw [g1, hext, hb] at hw
  simp only [Res.ok_bind, Tag24.extBytes, hp, List.replicate_zero, footer24, hf, Bool.false_eq_true, if_false, List.append_nil] at hw
  rw [List.append_nil]
  refine ⟨hdr, _, g1, g2, hw, fun m => ?_⟩
  have hparse : Tag24.parseBuf z (decide (t.flags &&& 0x40 ≠ 0)) (rawBytes .v4 (laidOf .v4 t.frames)) =
      .ok (none, 0, (laidOf .v4 t.frames).map (Raw.frame .v4)) := by
    have hd : decide (t.flags &&& 0x40 ≠ 0) = false := by
      rw [decide_eq_false_iff_not, (flags24_bits t).2.1, hext]; exact nofun
    have l1 := encrScan_layout z .v4 _ 0 [] [] (storable_raw h)
    have l2 := framePass_layout z .v4 _ 0 [] [] [] (storable_raw h)
    simp only [List.replicate_zero, List.append_nil, Nat.add_zero, List.nil_append, List.length_nil, Nat.zero_add] at l1 l2
    unfold Tag24.parseBuf
    rw [hd]
    simp only [Bool.false_eq_true, if_false, Res.ok_bind]
    unfold laidOf
    rw [l1]
    simp only [Res.ok_bind]
    rw [l2]
    rfl
  have hr := maybeRead24 z [] hdr _ [] t.flags m g2 g3 _ hparse (fun _ => SM.throw .other) (fun _ => SM.throw .other)
  simp only [List.nil_append, List.append_nil, List.length_nil] at hr
  have e1 : decide (t.flags &&& 0x80 ≠ 0) = decide (t.unsync = some true) := by
    rw [Bool.eq_iff_iff, decide_eq_true_iff, decide_eq_true_iff, (flags24_bits t).1]
  have e2 : decide (t.flags &&& 0x20 ≠ 0) = t.experimental := by
    rw [Bool.eq_iff_iff, decide_eq_true_iff, (flags24_bits t).2.2.1]
  have e3 : decide (t.flags &&& 0x10 ≠ 0) = false := by
    rw [decide_eq_false_iff_not, (flags24_bits t).2.2.2, hf]; exact nofun
  rw [e1, e2, e3] at hr
  exact ⟨_, hr⟩

/-- The tag after `n` rewritings. -/
def tagAfter24 (t : Tag24) : Nat → Tag24
  | 0 => t
  | n + 1 => ⟨some (decide (t.unsync = some true)), t.experimental, false, none, 0, framesAfter .v4 t.frames (n + 1)⟩

theorem flags_after24 {t : Tag24} (he : t.ext = none) (hf : t.footer = false) (n : Nat) : (tagAfter24 t n).flags = t.flags := by
  cases n with
  | zero => rfl
  | succ n =>
    unfold Tag24.flags tagAfter24
    rw [he, hf]
    simp

/-- The bytes, one after the other. -/
theorem chain24 {z : Zlib} {t : Tag24} (hfr : StorableFrames z .v4 t.frames packOf) (hext : t.ext = none)
    (hp : t.padding = 0) (hf : t.footer = false) (hlt : (t.frames.map fun f => 10 + (packOf f).length).sum < 2 ^ 28) :
    ∃ hdr : Bytes, hdr.length = 10 ∧ (∃ x, t.write z false = .ok (hdr ++ (rawBytes .v4 (laidOf .v4 t.frames) ++ []), x)) ∧
      ∀ n, Rewritten24 z (hdr ++ (rawBytes .v4 (laidOf .v4 (framesAfter .v4 t.frames n)) ++ []))
        (hdr ++ (rawBytes .v4 (laidOf .v4 (framesAfter .v4 t.frames (n + 1))) ++ [])) := by
  have key : ∀ n, ∃ hdr x, Tag24.writeHeader false t.flags (t.frames.map fun f => 10 + (packOf f).length).sum = .ok hdr ∧
      hdr.length = 10 ∧ (tagAfter24 t n).write z false =
        .ok (hdr ++ (rawBytes .v4 (laidOf .v4 (framesAfter .v4 t.frames n)) ++ []), x) ∧
      ∃ s, maybeReadId3v2 (fun _ => SM.throw .other) (fun _ => SM.throw .other) (Tag24.read z)
        ⟨hdr ++ (rawBytes .v4 (laidOf .v4 (framesAfter .v4 t.frames n)) ++ []), 0, IoBits.none, IoBits.none⟩ =
        (.ok (some (tagAfter24 t (n + 1))), s) := by
    intro n
    have hl := framesAfter_length .v4 t.frames n
    have hs := framesAfter_storable hfr n
    have hfl := flags_after24 hext hf n
    have e1 : (tagAfter24 t n).frames = framesAfter .v4 t.frames n := by cases n <;> rfl
    have e2 : (tagAfter24 t n).padding = 0 := by cases n; exact hp; rfl
    have e3 : (tagAfter24 t n).experimental = t.experimental := by cases n <;> rfl
    have e4 : (tagAfter24 t n).ext = none := by cases n; exact hext; rfl
    have e5 : (tagAfter24 t n).footer = false := by cases n; exact hf; rfl
    have e6 : decide ((tagAfter24 t n).unsync = some true) = decide (t.unsync = some true) := by
      cases n with
      | zero => rfl
      | succ n => simp [tagAfter24]
    rw [laid_length .v4 t.frames] at hl
    obtain ⟨hdr, x, k1, k2, k3, k4⟩ := settle24_write (t := tagAfter24 t n) (by rw [e1]; exact hs) e4 e2 e5 (by rw [e1, hl]; exact hlt)
    rw [e1] at k1 k3 k4
    rw [hl, hfl] at k1
    obtain ⟨s, k4⟩ := k4 IoBits.none
    rw [e3, e6] at k4
    exact ⟨hdr, x, k1, k2, k3, s, k4⟩
  obtain ⟨hdr, x, g1, g2, g3, -⟩ := key 0
  refine ⟨hdr, g2, ⟨x, g3⟩, fun n => ?_⟩
  obtain ⟨hdr1, x1, k1, -, -, s, k2⟩ := key n
  obtain ⟨hdr2, x2, k3, -, k4, -⟩ := key (n + 1)
  rw [g1] at k1 k3
  cases k1
  cases k3
  exact ⟨_, s, x2, k2, k4⟩

end Scribbu
