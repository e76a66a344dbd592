import Verif.Proofs.Sections
import Verif.Props.Std
import Verif.Props.M3u

/-! # The parts of a file that a dump is about -/

namespace Scribbu.Props
open Scribbu Spec

/-! ## C132: the tags, the track and the ID3v1 tag of a dump are those of the file -/

/-- The version of a tag in its header. -/
def verByte : Ver → Byte
  | .v2 => 2
  | .v3 => 3
  | .v4 => 4

/-- What is read from the file `d` are its parts: a tag for each header at its beginning, with version and revision from there; the length and the digest of
what is between `p` and `e`; and an ID3v1 tag, from `e` to the end, unless `e` is the end. -/
structure FileParts (md5 : Bytes → Bytes) (d : Bytes) (hs : List (Byte × Byte)) (p e : Nat) (f : Std.Facts) : Prop where
  tags : Each (fun h t => h = (verByte t.ver, t.rev)) hs f.v2
  size : f.size = e - p
  digest : f.md5 = md5 ((d.drop p).take (e - p))
  v1 : (f.v1 = none ∧ d.drop e = []) ∨ ∃ t, f.v1 = some t ∧ t.write = .ok (d.drop e)

/-- C132, in full: whatever is read from a file for a dump are its parts. -/
def C132_claim : Prop :=
  ∀ (z : Zlib) (md5 : Bytes → Bytes) (d : Bytes) (f : Std.Facts) (hs : List (Byte × Byte)) (p e : Nat), Std.readFile z md5 (some d) = .ok f →
    TagsTo d hs p → TrackEnd d e → d.length < 2 ^ 64 → FileParts md5 d hs p e f

/-- What reading the file gives about the track: its length and its digest. -/
def trackOf (d : Bytes) : Option (Nat × Bytes) :=
  match Std.readFile noZlib id (some d) with
  | .ok f => some (f.size, f.md5)
  | _ => none

theorem trackOf_some {d : Bytes} {n : Nat} {b : Bytes} (h : trackOf d = some (n, b)) : ∃ f, Std.readFile noZlib id (some d) = .ok f ∧ f.size = n ∧ f.md5 = b := by
  unfold trackOf at h
  split at h
  · rename_i f hf
    simp only [Option.some.injEq, Prod.mk.injEq] at h
    exact ⟨f, hf, h.1, h.2⟩
  · cases h

theorem no_tag_header {d : Bytes} (h : d.take 3 ≠ [0x49, 0x44, 0x33]) : ∀ v r f n, ¬ IsHeader d v r f n := by
  rintro v r f n ⟨a, b, c, e, t, rfl, _⟩
  exact h rfl

theorem end_short {d : Bytes} (h : d.length < 128) : TrackEnd d d.length := by
  refine .inr (.inr ⟨fun ⟨n, k⟩ => ?_, fun ⟨n, k⟩ => ?_, rfl⟩)
  · have := (extAt_pos k).2
    omega
  · have := (stdAt_pos k).2
    omega

/-- An ID3v2.4 tag with one frame and a footer. -/
def footed4 : Bytes := [0x49, 0x44, 0x33, 4, 0, 0x10, 0, 0, 0, 12] ++ jsonFrame /- TIT2 -/ [84, 73, 84, 50] [0, 98] ++ [0x33, 0x44, 0x49, 4, 0, 0x10, 0, 0, 0, 12]

/-- **Finding** The footer of an ID3v2.4 tag is not read with the tag, but taken for the beginning of the track: the size shown is ten bytes too many,
and the digest is not that of the track. -/
theorem C132_refuted : ¬ C132_claim := by
  intro c
  obtain ⟨f, h1, h2, _⟩ := trackOf_some (d := footed4) (n := 10) (b := [0x33, 0x44, 0x49, 4, 0, 0x10, 0, 0, 0, 12]) (by decide +kernel)
  have k := c noZlib id footed4 f [(4, 0)] 32 footed4.length h1
    (.tag (n := 12) (f := 0x10) (k := 0) ⟨0, 0, 0, 12, _, rfl, by decide, by decide, by decide, by decide⟩ (.none (no_tag_header (by decide +kernel))))
    (end_short (by decide)) (by decide)
  have := k.size
  rw [h2] at this
  cases this

/-- An ID3v2.3 tag with an unknown frame; the last 128 bytes look like an ID3v1 tag. -/
def insideTag : Bytes := ([0x49, 0x44, 0x33, 3, 0, 0, 0, 0, 1, 10] ++ (/- XXXX -/ [88, 88, 88, 88] ++ [0, 0, 0, 128, 0, 0])) ++ TAG ++ List.replicate 125 0

/-- **Finding** If the last frame of an ID3v2 tag at the end of a file looks like an ID3v1 tag, the track would have to end before it begins; the size shown is
the difference modulo the word length, 18446744073709551488 bytes for a file of 148. -/
theorem C132_refuted_overlap : ¬ C132_claim := by
  intro c
  obtain ⟨f, h1, h2, _⟩ := trackOf_some (d := insideTag) (n := 18446744073709551488) (b := []) (by decide +kernel)
  have k := c noZlib id insideTag f [(3, 0)] 148 20 h1
    (.tag (n := 138) (f := 0) (k := 0) ⟨0, 0, 1, 10, _, rfl, by decide, by decide, by decide, by decide⟩ (.none (no_tag_header (by decide +kernel))))
    (.inr (.inl ⟨fun ⟨n, k⟩ => by
        have := (extAt_pos k).2
        rw [show insideTag.length = 148 by decide +kernel] at this
        omega, ⟨_, _, rfl, rfl, List.length_replicate⟩⟩)) (by decide +kernel)
  have := k.size
  rw [h2] at this
  cases this

/-- C132, as far as it holds: if no tag has a footer, and the tags do not reach into the ID3v1 tag. -/
theorem C132_partial {z : Zlib} {md5 : Bytes → Bytes} {d : Bytes} {f : Std.Facts} {hs : List (Byte × Byte)} {p e : Nat}
    (h : Std.readFile z md5 (some d) = .ok f) (ht : TagsTo d hs p) (he : TrackEnd d e) (hl : d.length < 2 ^ 64) (hn : NoFooter d) (hp : p ≤ e) :
    FileParts md5 d hs p e f := by
  have h : (Std.readStream z md5 d.length ⟨d, 0, IoBits.all, IoBits.none⟩).1 = .ok f := h
  obtain ⟨s, h⟩ : ∃ s, Std.readStream z md5 d.length ⟨d, 0, IoBits.all, IoBits.none⟩ = (.ok f, s) := ⟨_, Prod.ext_iff.mpr ⟨h, rfl⟩⟩
  unfold Std.readStream at h
  obtain ⟨o, s1, h1, h⟩ := Sections.sm_bind_ok h
  cases o with
  | none => simp [SM.lift] at h
  | some v2 =>
    obtain ⟨rfl, h2⟩ := Sections.readAll_end (R := fun h (t : Std.Tag) => h = (verByte t.ver, t.rev)) (c := d) (p := 0)
      (Sections.reads_map Sections.reads22 fun h a hv _ => by rw [hv]; rfl)
      (Sections.reads_map (Sections.reads23 z) fun h a hv _ => by rw [hv]; rfl)
      (Sections.reads_map (Sections.reads24 z) fun h a hv _ => by rw [hv]; rfl) rfl ht hn h1
    rw [Nat.zero_add] at h
    obtain ⟨o, s2, h3, h⟩ := Sections.sm_bind_ok h
    cases o with
    | none => simp [SM.lift] at h
    | some td =>
      obtain ⟨rfl, h4, h5⟩ := Sections.track_end he hp (Nat.lt_succ_self _) h3
      obtain ⟨o, s3, h6, h⟩ := Sections.sm_bind_ok h
      have h : (Res.ok _, s3) = (Res.ok f, s) := h
      simp only [Prod.mk.injEq, Res.ok.injEq] at h
      obtain ⟨rfl, rfl⟩ := h
      have he' : e ≤ d.length := by
        rcases he with k | ⟨_, k⟩ | ⟨_, _, k⟩
        · have := extAt_pos k; omega
        · have := stdAt_pos k; omega
        · omega
      refine ⟨h2, ?_, by rw [← h5], Sections.v1_end he h6⟩
      show (td.size % 18446744073709551616).toNat = e - p
      rw [h4, show (e : Int) - p = ((e - p : Nat) : Int) by omega, Int.emod_eq_of_lt (by omega) (by omega)]
      rfl

/-- C132, for JSON, where the size of the track is not shown. -/
theorem C132_json_partial {z : Zlib} {md5 : Bytes → Bytes} {d : Bytes} {f : Dump.Facts} {hs : List (Byte × Byte)} {p e : Nat}
    (h : Dump.readFile z md5 (some d) = .ok f) (ht : TagsTo d hs p) (he : TrackEnd d e) (hn : NoFooter d) (hp : p ≤ e) :
    Each (fun h t => h.1 = (match t with | .inl _ => 2 | .inr (.inl _) => 3 | .inr (.inr _) => 4)) hs f.v2 ∧ f.md5 = md5 ((d.drop p).take (e - p)) ∧
      ((f.v1 = none ∧ d.drop e = []) ∨ ∃ t, f.v1 = some t ∧ t.write = .ok (d.drop e)) := by
  have h : (Dump.readStream z md5 d.length ⟨d, 0, IoBits.all, IoBits.none⟩).1 = .ok f := h
  obtain ⟨s, h⟩ : ∃ s, Dump.readStream z md5 d.length ⟨d, 0, IoBits.all, IoBits.none⟩ = (.ok f, s) := ⟨_, Prod.ext_iff.mpr ⟨h, rfl⟩⟩
  unfold Dump.readStream at h
  obtain ⟨o, s1, h1, h⟩ := Sections.sm_bind_ok h
  cases o with
  | none => simp [SM.lift] at h
  | some v2 =>
    obtain ⟨rfl, h2⟩ := Sections.readAll_end (R := fun h (t : AnyTag) => h.1 = (match t with | .inl _ => 2 | .inr (.inl _) => 3 | .inr (.inr _) => 4)) (c := d) (p := 0)
      (Sections.reads_map (g := fun _ t => Sum.inl t) Sections.reads22 fun h a hv _ => hv)
      (Sections.reads_map (g := fun _ t => Sum.inr (Sum.inl t)) (Sections.reads23 z) fun h a hv _ => hv)
      (Sections.reads_map (g := fun _ t => Sum.inr (Sum.inr t)) (Sections.reads24 z) fun h a hv _ => hv) rfl ht hn h1
    rw [Nat.zero_add] at h
    obtain ⟨o, s2, h3, h⟩ := Sections.sm_bind_ok h
    cases o with
    | none => simp [SM.lift] at h
    | some td =>
      obtain ⟨rfl, h4, h5⟩ := Sections.track_end he hp (Nat.lt_succ_self _) h3
      obtain ⟨o, s3, h6, h⟩ := Sections.sm_bind_ok h
      have h : (Res.ok _, s3) = (Res.ok f, s) := h
      simp only [Prod.mk.injEq, Res.ok.injEq] at h
      obtain ⟨rfl, rfl⟩ := h
      exact ⟨h2, by rw [← h5], Sections.v1_end he h6⟩

/-! A case: an ID3v2.3 tag with a title, four bytes of track, and an ID3v1 tag. -/

/-- The file. -/
def wholeFile : Bytes := ([0x49, 0x44, 0x33, 3, 0, 0, 0, 0, 0, 12] ++ (jsonFrame /- TIT2 -/ [84, 73, 84, 50] [0, 98] ++ /- abcd -/ [97, 98, 99, 100])) ++ TAG ++ List.replicate 125 0x20

example : ∃ f, Std.readFile noZlib id (some wholeFile) = .ok f ∧ FileParts id wholeFile [(3, 0)] 22 26 f ∧ f.size = 4 ∧ f.md5 = /- abcd -/ [97, 98, 99, 100] ∧ f.v2.length = 1 ∧ f.v1 ≠ none := by
  obtain ⟨f, h1, h2, h3⟩ := trackOf_some (d := wholeFile) (n := 4) (b := /- abcd -/ [97, 98, 99, 100]) (by decide +kernel)
  have hh : IsHeader wholeFile 3 0 0 12 := ⟨0, 0, 0, 12, _, rfl, by decide, by decide, by decide, by decide⟩
  have k := C132_partial h1 (hs := [(3, 0)]) (p := 22) (e := 26) (.tag (n := 12) (f := 0) (k := 0) hh (.none (no_tag_header (by decide +kernel))))
    (.inr (.inl ⟨fun ⟨n, k⟩ => by
        have := (extAt_pos k).2
        rw [show wholeFile.length = 154 by decide +kernel] at this
        omega, ⟨_, _, rfl, rfl, List.length_replicate⟩⟩)) (by decide +kernel)
    (.tag hh (fun h => absurd h (by decide)) (.none (no_tag_header (by decide +kernel)))) (by decide)
  refine ⟨f, h1, k, h2, h3, ?_, ?_⟩
  · have := k.tags
    cases hv : f.v2 with
    | nil => rw [hv] at this; cases this
    | cons a l =>
      rw [hv] at this
      cases this with
      | cons _ r => cases r; rfl
  · rcases k.v1 with ⟨_, h⟩ | ⟨t, h, _⟩
    · exact absurd h (by decide)
    · rw [h]; simp

/-! ## C133: the seconds in a playlist are those of the frames behind the tags -/

/-- The nearest whole number to `x`, or one of the two nearest. -/
def Nearest (n : Nat) (x : Rat) : Prop := 2 * x - 1 ≤ 2 * (n : Rat) ∧ 2 * (n : Rat) ≤ 2 * x + 1

/-- How long frames last. -/
def lasting (fs : List (Bytes × (Nat × Nat))) : Rat := (fs.map fun f => (f.2.1 : Rat) / f.2.2).sum

/-- The constructors of the three classes, as what matters for a playlist: anything made of the tags read. -/
def readers (z : Zlib) (g : AnyTag → Commands.Tg) : (Id3v2Info → SM Commands.Tg) × (Id3v2Info → SM Commands.Tg) × (Id3v2Info → SM Commands.Tg) :=
  (fun h => Tag22.read h >>= fun t => pure (g (.inl t)), fun h => Tag23.read z h >>= fun t => pure (g (.inr (.inl t))),
    fun h => Tag24.read z h >>= fun t => pure (g (.inr (.inr t))))

/-- What is read from a file for its item in a playlist. -/
def itemFacts (z : Zlib) (g : AnyTag → Commands.Tg) (d : Bytes) : Res M3u.Facts := M3u.readFile (readers z g).1 (readers z g).2.1 (readers z g).2.2 (some d)

/-- C133, in full: if a file consists of ID3v2 tags, frames without a header about all of them, and a rest in which no frame begins, the item about it
has the seconds that the frames last. -/
def C133_claim : Prop :=
  ∀ (z : Zlib) (g : AnyTag → Commands.Tg) (d : Bytes) (f : M3u.Facts) (hs : List (Byte × Byte)) (p : Nat) (fs : List (Bytes × (Nat × Nat))) (rest : Bytes),
    itemFacts z g d = .ok f → TagsTo d hs p → NoFooter d → d.drop p = (fs.map (·.1)).flatten ++ rest → fs ≠ [] → (∀ x ∈ fs, IsFrame x.1 x.2) → NoSync rest →
    NoVbr (d.drop p) → 42 ≤ (d.drop p).length → Nearest (M3u.seconds f) (lasting fs)

/-- One frame of 24 ms and fourteen of 36 ms. -/
def mixedFrames : List (Bytes × (Nat × Nat)) := (tinyFrame, (576, 24000)) :: List.replicate 14 (slowFrame, (576, 16000))

/-- The file made of them. -/
def mixedFile : Bytes := (mixedFrames.map (·.1)).flatten

/-- Artist and title, which do not matter here. -/
def noTg : AnyTag → Commands.Tg := fun _ => songTag /- a -/ [97] /- b -/ [98]

/-- The seconds in the item about a file. -/
def secondsOf (d : Bytes) : Option Nat :=
  match itemFacts noZlib noTg d with
  | .ok f => some (M3u.seconds f)
  | _ => none

theorem secondsOf_some {d : Bytes} {n : Nat} (h : secondsOf d = some n) : ∃ f, itemFacts noZlib noTg d = .ok f ∧ M3u.seconds f = n := by
  unfold secondsOf at h
  split at h
  · rename_i f hf
    exact ⟨f, hf, by simpa using h⟩
  · cases h

/-- **Finding** All frames are taken to last as long as the first: of a file of 528 ms the item says that it lasts 0 seconds, if the first frame has the
higher sampling rate. -/
theorem C133_refuted : ¬ C133_claim := by
  intro c
  obtain ⟨f, h1, h2⟩ := secondsOf_some (d := mixedFile) (n := 0) (by decide +kernel)
  have hv : NoVbr mixedFile := tiny_noVbr _ (by decide +kernel) (.inl (by decide +kernel))
  have nh := no_tag_header (d := mixedFile) (by decide)
  have k := c noZlib noTg mixedFile f [] 0 mixedFrames [] h1 (.none nh) (.none nh) (by simp [mixedFile]) (by simp [mixedFrames])
    (by
      intro x hx
      simp only [mixedFrames, List.mem_cons, List.mem_replicate] at hx
      rcases hx with rfl | ⟨_, rfl⟩
      · exact tinyFrame_ok
      · exact slowFrame_ok) (.inl (by decide)) hv (by decide +kernel)
  have := k.1
  rw [h2] at this
  exact absurd this (by decide +kernel)

theorem rat_div_le {a b : Nat} {x : Rat} (hb : 0 < b) (hx : (a : Rat) / b = x) : Nearest ((2 * a + b) / (2 * b)) x := by
  subst hx
  have hb' : (0 : Rat) < b := by exact_mod_cast hb
  have h1 := Nat.div_mul_le_self (2 * a + b) (2 * b)
  have h2 := Nat.lt_div_mul_add (a := 2 * a + b) (b := 2 * b) (by omega)
  generalize (2 * a + b) / (2 * b) = n at h1 h2
  have e : (a : Rat) / b * b = a := Rat.div_mul_cancel (by intro h; rw [h] at hb'; exact absurd hb' (by decide))
  constructor
  · have : (2 * ((a : Rat) / b) - 1) * b ≤ (2 * (n : Rat)) * b := by
      have h3 : (2 * a + b : Nat) ≤ n * (2 * b) + 2 * b := Nat.le_of_lt h2
      have h4 : ((2 * a + b : Nat) : Rat) ≤ ((n * (2 * b) + 2 * b : Nat) : Rat) := by exact_mod_cast h3
      push_cast at h4
      grind
    exact Rat.le_of_mul_le_mul_right this hb'
  · have : (2 * (n : Rat)) * b ≤ (2 * ((a : Rat) / b) + 1) * b := by
      have h4 : ((n * (2 * b) : Nat) : Rat) ≤ ((2 * a + b : Nat) : Rat) := by exact_mod_cast h1
      push_cast at h4
      grind
    exact Rat.le_of_mul_le_mul_right this hb'

theorem frame_rate {b : Bytes} {num den : Nat} (h : IsFrame b (num, den)) : 0 < den := by
  obtain ⟨h, v, crc, kb, hz, pad, mono, ⟨_, _, ⟨bi, si, pr, _, hh, _⟩, _⟩, _, _, e⟩ := h
  simp only [Prod.mk.injEq] at e
  rw [e.2]
  unfold hertz at hh
  match si with
  | 0 => cases v <;> simp at hh <;> omega
  | 1 => cases v <;> simp at hh <;> omega
  | 2 => cases v <;> simp at hh <;> omega
  | _ + 3 => simp at hh

/-- C133, as far as it holds: if all frames last equally long. -/
theorem C133_partial {z : Zlib} {g : AnyTag → Commands.Tg} {d : Bytes} {f : M3u.Facts} {hs : List (Byte × Byte)} {p : Nat} {fs : List (Bytes × (Nat × Nat))}
    {rest : Bytes} (h : itemFacts z g d = .ok f) (ht : TagsTo d hs p) (hn : NoFooter d) (hd : d.drop p = (fs.map (·.1)).flatten ++ rest) (hne : fs ≠ [])
    (hall : ∀ x ∈ fs, IsFrame x.1 x.2) (hr : NoSync rest) (hv : NoVbr (d.drop p)) (h42 : 42 ≤ (d.drop p).length) (hsame : ∀ x ∈ fs, ∀ y ∈ fs, x.2 = y.2) :
    Nearest (M3u.seconds f) (lasting fs) := by
  have h : (M3u.readStream (readers z g).1 (readers z g).2.1 (readers z g).2.2 d.length ⟨d, 0, IoBits.all, IoBits.none⟩).1 = .ok f := h
  obtain ⟨s, h⟩ : ∃ s, M3u.readStream (readers z g).1 (readers z g).2.1 (readers z g).2.2 d.length ⟨d, 0, IoBits.all, IoBits.none⟩ = (.ok f, s) :=
    ⟨_, Prod.ext_iff.mpr ⟨h, rfl⟩⟩
  unfold M3u.readStream at h
  obtain ⟨o, s1, h1, h⟩ := Sections.sm_bind_ok h
  cases o with
  | none => simp [SM.lift] at h
  | some v2 =>
    obtain ⟨rfl, _⟩ := Sections.readAll_end (R := fun _ (_ : Commands.Tg) => True) (c := d) (p := 0)
      (Sections.reads_map Sections.reads22 fun _ _ _ _ => trivial) (Sections.reads_map (Sections.reads23 z) fun _ _ _ _ => trivial)
      (Sections.reads_map (Sections.reads24 z) fun _ _ _ _ => trivial) rfl ht hn h1
    rw [Nat.zero_add] at h
    obtain ⟨x, hx⟩ : ∃ x, x ∈ fs := List.exists_mem_of_ne_nil _ hne
    have hp : p ≤ d.length := by
      rw [List.length_drop] at h42
      omega
    have hpre : (d.take p).length = p := by rw [List.length_take]; omega
    have hsplit : d = d.take p ++ ((fs.map (·.1)).flatten ++ rest) := by rw [← hd, List.take_append_drop]
    obtain ⟨q, hq, hsum⟩ := C37_sum_partial fs rest (d.take p) IoBits.all x.2.1 x.2.2 hne hall (fun y hy => hsame y hy x hx) hr (hd ▸ hv) (hd ▸ h42)
      (d.length + 1) (by rw [← hsplit]; exact Nat.lt_succ_self _)
    rw [← hsplit, hpre] at hq
    simp only at h
    rw [SM.bind_ok hq] at h
    obtain ⟨v1, s2, h2, h3⟩ := Sections.sm_bind_ok h
    have h3 : (Res.ok _, s2) = (Res.ok f, s) := h3
    simp only [Prod.mk.injEq, Res.ok.injEq] at h3
    obtain ⟨rfl, rfl⟩ := h3
    refine rat_div_le (a := x.2.1 * fs.length) (b := x.2.2) (frame_rate (hall x hx)) ?_
    unfold lasting
    rw [← hsum, Rat.natCast_mul]

/-! A case: an ID3v2.3 tag, 125 frames of 24 ms. -/

/-- The file. -/
def threeSeconds : Bytes := [0x49, 0x44, 0x33, 3, 0, 0, 0, 0, 0, 12] ++ jsonFrame /- TIT2 -/ [84, 73, 84, 50] [0, 98] ++ (List.replicate 125 tinyFrame).flatten

example : ∃ f, itemFacts noZlib noTg threeSeconds = .ok f ∧ Nearest (M3u.seconds f) (lasting (List.replicate 125 (tinyFrame, (576, 24000)))) ∧ M3u.seconds f = 3 := by
  obtain ⟨f, h1, h2⟩ := secondsOf_some (d := threeSeconds) (n := 3) (by decide +kernel)
  have hh : IsHeader threeSeconds 3 0 0 12 := ⟨0, 0, 0, 12, _, rfl, by decide, by decide, by decide, by decide⟩
  have hd : threeSeconds.drop 22 = ((List.replicate 125 (tinyFrame, (576, 24000))).map (·.1)).flatten ++ [] := by decide +kernel
  refine ⟨f, h1, C133_partial h1 (hs := [(3, 0)]) (p := 22) (rest := []) (.tag (n := 12) (f := 0) (k := 0) hh (.none (no_tag_header (by decide +kernel))))
    (.tag hh (fun h => absurd h (by decide)) (.none (no_tag_header (by decide +kernel)))) hd (by simp)
    (fun x hx => by rw [List.eq_of_mem_replicate hx]; exact tinyFrame_ok) (.inl (by decide)) ?_ (by decide +kernel)
    (fun x hx y hy => by rw [List.eq_of_mem_replicate hx, List.eq_of_mem_replicate hy]), h2⟩
  have e : threeSeconds.drop 22 = tinyFrame ++ (List.replicate 124 tinyFrame).flatten := by decide +kernel
  rw [e]
  exact tiny_noVbr _ (by decide +kernel) (.inr (by decide +kernel))

end Scribbu.Props
