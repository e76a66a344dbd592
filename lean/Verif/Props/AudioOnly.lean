import Verif.Proofs.Shift
import Verif.Props.Sections
import Verif.Props.Anywhere
import Verif.Props.Sync
import Verif.Proofs.Footed

/-! # What is found out about the audio, and what is before it -/

namespace Scribbu.Props
open Scribbu Spec

/-! ## C207: how long a file lasts does not depend on the tags before the audio -/

/-- Looking at the audio `a`, what is found out, or how it fails, does not depend on what is before it: neither on which bytes these are nor on how many. The numbers
of steps allowed are a matter of the model: any will do that are larger than the lengths of the files (`C37_terminates`). -/
theorem C207_duration (pre pre' a : Bytes) (m : IoBits) {k k' : Nat} (hk : (pre ++ a).length < k) (hk' : (pre' ++ a).length < k') :
    (mp3Duration k ⟨pre ++ a, pre.length, m, IoBits.none⟩).1 = (mp3Duration k' ⟨pre' ++ a, pre'.length, m, IoBits.none⟩).1 := by
  rw [Shift.behind, Shift.behind]
  have h1 : (mp3Duration k ⟨a, 0, m, IoBits.none⟩).1 ≠ .ok none := C37_terminates ⟨a, 0, m, IoBits.none⟩ rfl _ (by simp at hk ⊢; omega)
  have h2 : (mp3Duration k' ⟨a, 0, m, IoBits.none⟩).1 ≠ .ok none := C37_terminates ⟨a, 0, m, IoBits.none⟩ rfl _ (by simp at hk' ⊢; omega)
  rcases Nat.le_total k k' with h | h
  · rw [Shift.enough h h1]
  · rw [Shift.enough h h2]

/-- Nor does it matter for where the stream is left, counted from the beginning of the audio, and in which state. -/
theorem C207_stream (k : Nat) (pre a : Bytes) (m : IoBits) : AsIfAlone (mp3Duration k) pre a m := Anywhere.asIfAlone (Shift.sim_mp3Duration k) a m

/-- C207, in full: two files with the same audio, and whatever tags before it, last equally long by a playlist. -/
def C207_claim : Prop :=
  ∀ (z : Zlib) (g : AnyTag → Commands.Tg) (t t' a : Bytes) (f f' : M3u.Facts) (hs hs' : List (Byte × Byte)), TagsTo (t ++ a) hs t.length → TagsTo (t' ++ a) hs' t'.length →
    itemFacts z g (t ++ a) = .ok f → itemFacts z g (t' ++ a) = .ok f' → M3u.seconds f = M3u.seconds f'

/-- Twenty-one frames of 24 ms, behind two bytes that do not belong to them. -/
def lateFrames : Bytes := [0, 0] ++ (List.replicate 21 tinyFrame).flatten

/-- A tag with a title, and a footer. -/
def footedTag : Bytes :=
  [0x49, 0x44, 0x33, 4, 0, 0x10, 0, 0, 0, 12] ++ jsonFrame /- TIT2 -/ [84, 73, 84, 50] [0, 98] ++ [0x33, 0x44, 0x49, 4, 0, 0x10, 0, 0, 0, 12]

/-- **Finding** The footer of an ID3v2.4 tag is taken for audio. If the audio does not begin with a frame at once, the search for the first one then begins elsewhere, and
finds another: of the same audio it is said to last one second with the tag, and none without it. -/
theorem C207_refuted : ¬ C207_claim := by
  intro c
  obtain ⟨f, h1, h2⟩ := secondsOf_some (d := footedTag ++ lateFrames) (n := 1) (by decide +kernel)
  obtain ⟨f', h1', h2'⟩ := secondsOf_some (d := [] ++ lateFrames) (n := 0) (by decide +kernel)
  have := c noZlib noTg footedTag [] lateFrames f f' [(4, 0)] [] (.tag (n := 12) (f := 0x10) (k := 0) ⟨0, 0, 0, 12, _, rfl, by decide, by decide, by decide, by decide⟩
    (.none (no_tag_header (by decide +kernel)))) (.none (no_tag_header (by decide +kernel))) h1 h1'
  rw [h2, h2'] at this
  cases this

/-- What is read for an item, if the tags before the audio have no footer. -/
theorem itemFacts_audio {z : Zlib} {g : AnyTag → Commands.Tg} {t a : Bytes} {f : M3u.Facts} {hs : List (Byte × Byte)} (ht : TagsTo (t ++ a) hs t.length) (hn : NoFooter (t ++ a))
    (h : itemFacts z g (t ++ a) = .ok f) :
    (mp3Duration ((t ++ a).length + 1) ⟨t ++ a, t.length, IoBits.all, IoBits.none⟩).1 = .ok (some (f.num, f.frames, f.den)) := by
  generalize hd : t ++ a = d at ht hn h
  have h : (M3u.readStream (readers z g).1 (readers z g).2.1 (readers z g).2.2 d.length ⟨d, 0, IoBits.all, IoBits.none⟩).1 = .ok f := h
  obtain ⟨s, h⟩ : ∃ s, M3u.readStream (readers z g).1 (readers z g).2.1 (readers z g).2.2 d.length ⟨d, 0, IoBits.all, IoBits.none⟩ = (.ok f, s) :=
    ⟨_, Prod.ext_iff.mpr ⟨h, rfl⟩⟩
  unfold M3u.readStream at h
  obtain ⟨o, s1, h1, h⟩ := Sections.sm_bind_ok h
  cases o with
  | none => simp [SM.lift] at h
  | some v2 =>
    obtain ⟨rfl, _⟩ := Sections.readAll_end (R := fun _ (_ : Commands.Tg) => True) (c := d) (p := 0)
      (Sections.reads_map Sections.reads22 fun _ _ _ _ => trivial) (Sections.reads_map (Sections.reads23 z) fun _ _ _ _ => trivial)
      (Sections.reads_map (Sections.reads24 z) fun _ _ _ _ => trivial) rfl ht hn h1
    rw [Nat.zero_add] at h
    obtain ⟨o, s2, h2, h⟩ := Sections.sm_bind_ok h
    cases o with
    | none => simp [SM.lift] at h
    | some u =>
      obtain ⟨num, frames, den⟩ := u
      obtain ⟨v1, s3, h3, h⟩ := Sections.sm_bind_ok h
      have h : (Res.ok _, s3) = (Res.ok f, s) := h
      simp only [Prod.mk.injEq, Res.ok.injEq] at h
      obtain ⟨rfl, rfl⟩ := h
      rw [h2]

/-- C207, if the tags have no footers: the same rate, the same number of frames, and so the same seconds. Missing: tags with footers, for which it is false. -/
theorem C207_partial {z z' : Zlib} {g g' : AnyTag → Commands.Tg} {t t' a : Bytes} {f f' : M3u.Facts} {hs hs' : List (Byte × Byte)} (ht : TagsTo (t ++ a) hs t.length)
    (ht' : TagsTo (t' ++ a) hs' t'.length) (hn : NoFooter (t ++ a)) (hn' : NoFooter (t' ++ a)) (h : itemFacts z g (t ++ a) = .ok f) (h' : itemFacts z' g' (t' ++ a) = .ok f') :
    (f.num, f.frames, f.den) = (f'.num, f'.frames, f'.den) ∧ M3u.seconds f = M3u.seconds f' := by
  have := C207_duration t t' a IoBits.all (k := (t ++ a).length + 1) (k' := (t' ++ a).length + 1) (by omega) (by omega)
  rw [itemFacts_audio ht hn h, itemFacts_audio ht' hn' h'] at this
  simp only [Res.ok.injEq, Option.some.injEq, Prod.mk.injEq] at this
  obtain ⟨h1, h2, h3⟩ := this
  refine ⟨by rw [h1, h2, h3], ?_⟩
  unfold M3u.seconds
  rw [h1, h2, h3]

/-- The footer of an ID3v2.4 tag, although taken for audio, makes no difference either if the audio begins with a frame. Missing: audio that does not, for which it is false. -/
theorem C207_footer_partial (pre a : Bytes) (m : IoBits) {v r f s0 s1 s2 s3 : Byte} (hv : v ≠ 0xff) (hr : r ≠ 0xff) (h0 : s0.toNat < 0x80) (h1 : s1.toNat < 0x80)
    (h2 : s2.toNat < 0x80) (h3 : s3.toNat < 0x80) (ha : SyncAt a 0) (h4 : 4 ≤ a.length) {k k' : Nat}
    (hk : (pre ++ [0x33, 0x44, 0x49, v, r, f, s0, s1, s2, s3] ++ a).length < k) (hk' : a.length < k') :
    (mp3Duration k ⟨pre ++ [0x33, 0x44, 0x49, v, r, f, s0, s1, s2, s3] ++ a, pre.length, m, IoBits.none⟩).1 = (mp3Duration k' ⟨a, 0, m, IoBits.none⟩).1 := by
  have nf : ∀ x : Byte, x.toNat < 0x80 → x ≠ 0xff := by
    rintro x hx rfl
    exact absurd hx (by decide)
  have e : ∀ i, (pre ++ [0x33, 0x44, 0x49, v, r, f, s0, s1, s2, s3] ++ a)[pre.length + i]? = ([0x33, 0x44, 0x49, v, r, f, s0, s1, s2, s3] ++ a)[i]? := by
    intro i
    rw [List.append_assoc, List.getElem?_append_right (by omega)]
    congr 1
    omega
  have hfirst : FirstSync (pre ++ [0x33, 0x44, 0x49, v, r, f, s0, s1, s2, s3] ++ a) pre.length (pre ++ [0x33, 0x44, 0x49, v, r, f, s0, s1, s2, s3]).length := by
    have hl : (pre ++ [0x33, 0x44, 0x49, v, r, f, s0, s1, s2, s3]).length = pre.length + 10 := by simp
    rw [hl]
    refine ⟨by omega, ?_, ?_⟩
    · obtain ⟨g1, b, g2, g3⟩ := ha
      exact ⟨by rw [e]; simpa using g1, b, by rw [Nat.add_assoc, e]; simpa using g2, g3⟩
    · rintro q hq hq' ⟨g1, b, g2, g3⟩
      obtain ⟨i, rfl⟩ : ∃ i, q = pre.length + i := ⟨q - pre.length, by omega⟩
      rw [e] at g1
      rw [Nat.add_assoc, e] at g2
      match i, (show i < 10 by omega) with
      | 0, _ => simp at g1
      | 1, _ => simp at g1
      | 2, _ => simp at g1
      | 3, _ => simp at g1; exact hv g1
      | 4, _ => simp at g1; exact hr g1
      | 5, _ =>
        simp at g2
        subst g2
        have : (0xe0 : Byte).toNat ≤ s0.toNat := g3
        have e0 : (0xe0 : Byte).toNat = 224 := rfl
        omega
      | 6, _ => simp at g1; exact nf _ h0 g1
      | 7, _ => simp at g1; exact nf _ h1 g1
      | 8, _ => simp at g1; exact nf _ h2 g1
      | 9, _ => simp at g1; exact nf _ h3 g1
  rw [C155_junk_partial pre _ a m k (by omega) hfirst h4 (by simp)]
  exact C207_duration _ [] a m hk (by simpa using hk')

example : (mp3Duration 1000 ⟨[1] ++ [0x33, 0x44, 0x49, 4, 0, 0x10, 0, 0, 0, 12] ++ (tinyFrame ++ tinyFrame), 1, IoBits.all, IoBits.none⟩).1 = .ok (some (576, 2, 24000)) := by
  rw [show (1 : Nat) = [(1 : Byte)].length from rfl, C207_footer_partial [1] (tinyFrame ++ tinyFrame) IoBits.all (k' := 100) (by decide) (by decide) (by decide) (by decide) (by decide)
    (by decide) ⟨by decide, 0xf3, by decide, by decide⟩ (by decide) (by decide) (by decide)]
  decide +kernel

/-- What is read for an item, wherever reading the tags ends. -/
theorem itemFacts_stops {z : Zlib} {g : AnyTag → Commands.Tg} {d : Bytes} {p : Nat} {f : M3u.Facts} (ht : Footed.Stops d p) (h : itemFacts z g d = .ok f) :
    (mp3Duration (d.length + 1) ⟨d, p, IoBits.all, IoBits.none⟩).1 = .ok (some (f.num, f.frames, f.den)) := by
  have h : (M3u.readStream (readers z g).1 (readers z g).2.1 (readers z g).2.2 d.length ⟨d, 0, IoBits.all, IoBits.none⟩).1 = .ok f := h
  obtain ⟨s, h⟩ : ∃ s, M3u.readStream (readers z g).1 (readers z g).2.1 (readers z g).2.2 d.length ⟨d, 0, IoBits.all, IoBits.none⟩ = (.ok f, s) :=
    ⟨_, Prod.ext_iff.mpr ⟨h, rfl⟩⟩
  unfold M3u.readStream at h
  obtain ⟨o, s1, h1, h⟩ := Sections.sm_bind_ok h
  cases o with
  | none => simp [SM.lift] at h
  | some v2 =>
    have := Footed.readAll_stops (R := fun _ (_ : Commands.Tg) => True) (c := d) (p := 0)
      (Sections.reads_map Sections.reads22 fun _ _ _ _ => trivial) (Sections.reads_map (Sections.reads23 z) fun _ _ _ _ => trivial)
      (Sections.reads_map (Sections.reads24 z) fun _ _ _ _ => trivial) rfl ht h1
    subst this
    rw [Nat.zero_add] at h
    obtain ⟨o, s2, h2, h⟩ := Sections.sm_bind_ok h
    cases o with
    | none => simp [SM.lift] at h
    | some u =>
      obtain ⟨num, frames, den⟩ := u
      obtain ⟨v1, s3, h3, h⟩ := Sections.sm_bind_ok h
      have h : (Res.ok _, s3) = (Res.ok f, s) := h
      simp only [Prod.mk.injEq, Res.ok.injEq] at h
      obtain ⟨rfl, rfl⟩ := h
      rw [h2]

/-- What is read for an item, if the last tag has a footer and the audio begins with a frame: what would be read about the audio alone. -/
theorem itemFacts_footed {z : Zlib} {g : AnyTag → Commands.Tg} {t b a : Bytes} {f : M3u.Facts} (ht : FootedAt (t ++ b ++ a) t.length)
    (hb : b.length = 10) (ha : SyncAt a 0) (h4 : 4 ≤ a.length) (h : itemFacts z g (t ++ b ++ a) = .ok f) :
    (mp3Duration (a.length + 1) ⟨a, 0, IoBits.all, IoBits.none⟩).1 = .ok (some (f.num, f.frames, f.den)) := by
  have hfoot : ∀ {d : Bytes} {k : Nat}, FootedAt d k → IsFooter (d.drop k) := by
    intro d k hd
    induction hd with
    | last _ _ h => exact h
    | tag _ _ _ ih => rwa [List.drop_drop] at ih
  have hf := hfoot ht
  rw [List.append_assoc, List.drop_left] at hf
  obtain ⟨v, r, fl, s0, s1, s2, s3, rest, e, hv, hr, hs⟩ := hf
  obtain ⟨rfl, rfl⟩ := List.append_inj e (by simpa using hb)
  have e1 := itemFacts_stops (Footed.stops ht) h
  rwa [C207_footer_partial t a IoBits.all hv hr (hs _ (by simp)) (hs _ (by simp)) (hs _ (by simp)) (hs _ (by simp)) ha h4 (k' := a.length + 1) (by omega) (by omega)] at e1

/-- So of files: tags `t` the last of which has the footer `b`, and tags `t'` without footers, make no difference for how long audio lasts that begins with a frame. Missing:
audio that does not, for which it is false, and tags with a footer that are not the last. -/
theorem C207_footed_partial {z z' : Zlib} {g g' : AnyTag → Commands.Tg} {t b t' a : Bytes} {f f' : M3u.Facts} {hs' : List (Byte × Byte)} (ht : FootedAt (t ++ b ++ a) t.length)
    (hb : b.length = 10) (ha : SyncAt a 0) (h4 : 4 ≤ a.length) (ht' : TagsTo (t' ++ a) hs' t'.length) (hn' : NoFooter (t' ++ a))
    (h : itemFacts z g (t ++ b ++ a) = .ok f) (h' : itemFacts z' g' (t' ++ a) = .ok f') :
    (f.num, f.frames, f.den) = (f'.num, f'.frames, f'.den) ∧ M3u.seconds f = M3u.seconds f' := by
  have e1 := itemFacts_footed ht hb ha h4 h
  have e2 := C207_duration [] t' a IoBits.all (k := a.length + 1) (k' := (t' ++ a).length + 1) (by simp) (by omega)
  have e2 : (mp3Duration (a.length + 1) ⟨a, 0, IoBits.all, IoBits.none⟩).1 = _ := e2
  rw [e1, itemFacts_audio ht' hn' h'] at e2
  simp only [Res.ok.injEq, Option.some.injEq, Prod.mk.injEq] at e2
  obtain ⟨h1, h2, h3⟩ := e2
  refine ⟨by rw [h1, h2, h3], ?_⟩
  unfold M3u.seconds
  rw [h1, h2, h3]

/-! A case: 125 frames of 24 ms, behind an ID3v2.4 tag with a footer, and alone. -/

example : ∃ f f', itemFacts noZlib noTg (footedTag.take 22 ++ footedTag.drop 22 ++ threeSeconds.drop 22) = .ok f ∧ itemFacts noZlib noTg ([] ++ threeSeconds.drop 22) = .ok f' ∧
    M3u.seconds f = M3u.seconds f' ∧ M3u.seconds f' = 3 := by
  obtain ⟨f, h1, h2⟩ := secondsOf_some (d := footedTag.take 22 ++ footedTag.drop 22 ++ threeSeconds.drop 22) (n := 3) (by decide +kernel)
  obtain ⟨f', h1', h2'⟩ := secondsOf_some (d := [] ++ threeSeconds.drop 22) (n := 3) (by decide +kernel)
  refine ⟨f, f', h1, h1', (C207_footed_partial (hs' := []) ?_ rfl ⟨by decide +kernel, 0xf3, by decide +kernel, by decide⟩ (by decide +kernel)
    (.none (no_tag_header (by decide +kernel))) (.none (no_tag_header (by decide +kernel))) h1 h1').2, h2'⟩
  exact .last (r := 0) (f := 0x10) (n := 12) ⟨0, 0, 0, 12, _, rfl, by decide, by decide, by decide, by decide⟩ (by decide) ⟨4, 0, 0x10, 0, 0, 0, 12, _, rfl, by decide, by decide, by decide⟩

/-! ## C133 with footers -/

theorem frame_sync {b : Bytes} {dur : Nat × Nat} (h : IsFrame b dur) (r : Bytes) : SyncAt (b ++ r) 0 := by
  obtain ⟨h, v, crc, kb, hz, pad, mono, ⟨h0, ⟨vb, _, h1⟩, _⟩, h4, _⟩ := h
  have e : ∀ i, i < 4 → (b ++ r)[i]? = [h.b0, h.b1, h.b2, h.b3][i]? := by
    intro i hi
    have hl : 4 ≤ b.length := by
      have := congrArg List.length h4
      simp at this
      omega
    rw [List.getElem?_append_left (by omega), ← h4, List.getElem?_take_of_lt hi]
  refine ⟨?_, h.b1, ?_, by omega⟩
  · rw [e 0 (by omega)]
    exact congrArg some (UInt8.toNat_inj.mp h0)
  · rw [e 1 (by omega)]
    rfl

/-- C133, with a footer behind the last tag: the seconds of the item are those that the frames last. Missing: frames that last differently long, for which it is false. -/
theorem C133_footed_partial {z : Zlib} {g : AnyTag → Commands.Tg} {t b : Bytes} {f : M3u.Facts} {fs : List (Bytes × (Nat × Nat))} {rest : Bytes}
    (ht : FootedAt (t ++ b ++ ((fs.map (·.1)).flatten ++ rest)) t.length) (hb : b.length = 10) (h : itemFacts z g (t ++ b ++ ((fs.map (·.1)).flatten ++ rest)) = .ok f) (hne : fs ≠ [])
    (hall : ∀ x ∈ fs, IsFrame x.1 x.2) (hr : NoSync rest) (hv : NoVbr ((fs.map (·.1)).flatten ++ rest)) (h42 : 42 ≤ ((fs.map (·.1)).flatten ++ rest).length)
    (hsame : ∀ x ∈ fs, ∀ y ∈ fs, x.2 = y.2) : Nearest (M3u.seconds f) (lasting fs) := by
  have ha : SyncAt ((fs.map (·.1)).flatten ++ rest) 0 := by
    cases fs with
    | nil => exact absurd rfl hne
    | cons y l =>
      have hy := hall y (by simp)
      rw [List.map_cons, List.flatten_cons, List.append_assoc]
      exact frame_sync hy _
  obtain ⟨x, hx⟩ : ∃ x, x ∈ fs := List.exists_mem_of_ne_nil _ hne
  obtain ⟨q, hq, hsum⟩ := C37_sum_partial fs rest [] IoBits.all x.2.1 x.2.2 hne hall (fun y hy => hsame y hy x hx) hr hv h42
    (((fs.map (·.1)).flatten ++ rest).length + 1) (by simp)
  have e1 := itemFacts_footed ht hb ha (by omega) h
  have hq : mp3Duration (((fs.map (·.1)).flatten ++ rest).length + 1) ⟨(fs.map (·.1)).flatten ++ rest, 0, IoBits.all, IoBits.none⟩ = _ := hq
  rw [hq] at e1
  simp only [Res.ok.injEq, Option.some.injEq, Prod.mk.injEq] at e1
  obtain ⟨g1, g2, g3⟩ := e1
  unfold M3u.seconds
  rw [← g1, ← g2, ← g3]
  refine rat_div_le (a := x.2.1 * fs.length) (b := x.2.2) (frame_rate (hall x hx)) ?_
  unfold lasting
  rw [← hsum, Rat.natCast_mul]

example : ∃ f, itemFacts noZlib noTg (footedTag.take 22 ++ footedTag.drop 22 ++ (((List.replicate 125 (tinyFrame, ((576, 24000) : Nat × Nat))).map (·.1)).flatten ++ [])) = .ok f ∧
    Nearest (M3u.seconds f) (lasting (List.replicate 125 (tinyFrame, (576, 24000)))) ∧ M3u.seconds f = 3 := by
  obtain ⟨f, h1, h2⟩ := secondsOf_some (d := footedTag.take 22 ++ footedTag.drop 22 ++ (((List.replicate 125 (tinyFrame, ((576, 24000) : Nat × Nat))).map (·.1)).flatten ++ [])) (n := 3)
    (by decide +kernel)
  refine ⟨f, h1, C133_footed_partial ?_ rfl h1 (by simp) (fun x hx => by rw [List.eq_of_mem_replicate hx]; exact tinyFrame_ok) (.inl (by decide)) ?_ (by decide +kernel)
    (fun x hx y hy => by rw [List.eq_of_mem_replicate hx, List.eq_of_mem_replicate hy]), h2⟩
  · exact .last (r := 0) (f := 0x10) (n := 12) ⟨0, 0, 0, 12, _, rfl, by decide, by decide, by decide, by decide⟩ (by decide) ⟨4, 0, 0x10, 0, 0, 0, 12, _, rfl, by decide, by decide, by decide⟩
  · have e : ((List.replicate 125 (tinyFrame, ((576, 24000) : Nat × Nat))).map (·.1)).flatten ++ [] = tinyFrame ++ (List.replicate 124 tinyFrame).flatten := by decide +kernel
    rw [e]
    exact tiny_noVbr _ (by decide +kernel) (.inr (by decide +kernel))

/-! A case: 125 frames of 24 ms, behind an ID3v2.3 tag, and alone. -/

example : ∃ f f', itemFacts noZlib noTg (threeSeconds.take 22 ++ threeSeconds.drop 22) = .ok f ∧ itemFacts noZlib noTg ([] ++ threeSeconds.drop 22) = .ok f' ∧
    M3u.seconds f = M3u.seconds f' ∧ M3u.seconds f' = 3 := by
  obtain ⟨f, h1, h2⟩ := secondsOf_some (d := threeSeconds.take 22 ++ threeSeconds.drop 22) (n := 3) (by decide +kernel)
  obtain ⟨f', h1', h2'⟩ := secondsOf_some (d := [] ++ threeSeconds.drop 22) (n := 3) (by decide +kernel)
  have hh : IsHeader (threeSeconds.take 22 ++ threeSeconds.drop 22) 3 0 0 12 := by
    rw [List.take_append_drop]
    exact ⟨0, 0, 0, 12, _, rfl, by decide, by decide, by decide, by decide⟩
  exact ⟨f, f', h1, h1', (C207_partial (hs := [(3, 0)]) (hs' := []) (.tag (n := 12) (f := 0) (k := 0) hh (.none (no_tag_header (by decide +kernel))))
    (.none (no_tag_header (by decide +kernel))) (.tag hh (fun h => absurd h (by decide)) (.none (no_tag_header (by decide +kernel))))
    (.none (no_tag_header (by decide +kernel))) h1 h1').2, h2'⟩

example : (mp3Duration 1000 ⟨[1, 2, 3] ++ lateFrames, 3, IoBits.all, IoBits.none⟩).1 = .ok (some (576, 20, 24000)) := by decide +kernel

end Scribbu.Props
