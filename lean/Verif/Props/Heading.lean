import Verif.Proofs.Heading
import Verif.Props.Sections
import Verif.Props.Std

/-! # Properties of what dumps say about tags as such: C144 -/

namespace Scribbu.Props
open Scribbu Scribbu.Spec

/-- What is in the header of a tag: the version, the revision, whether it is unsynchronised, and the flags as far as they are defined. -/
structure HeadingSays (h : Head) (t : Std.Tag) : Prop where
  ver : verOf h.version = some t.ver
  rev : t.rev = h.revision
  unsync : t.unsync = some (decide (h.flags &&& 0x80 ≠ 0))
  flags : t.flags = .ok (h.flags &&& knownFlags h.version)

/-- What comes after it, for tags that are neither unsynchronised nor compressed nor have an extended header: frames and padding. -/
structure ContentSays (h : Head) (t : Std.Tag) : Prop where
  v2 : h.version = 2 → h.flags &&& 0xc0 = 0 → ∀ fs k, LaidOut2 h.content fs k →
    t.padding = .ok k ∧ t.frames = fs.map fun x => ([x.id.a, x.id.b, x.id.c], x.body)
  v3 : h.version = 3 → h.flags &&& 0xc0 = 0 → ∀ fs k, LaidOut .v3 h.content fs k →
    t.padding = .ok k ∧ t.frames = fs.map fun x => ([x.id.a, x.id.b, x.id.c, x.id.d], x.body)
  v4 : h.version = 4 → h.flags &&& 0xc0 = 0 → ∀ fs k, LaidOut .v4 h.content fs k →
    t.padding = .ok k ∧ t.frames = fs.map fun x => ([x.id.a, x.id.b, x.id.c, x.id.d], x.body)

/-- **C144**, the full claim: what is dumped about the tags of a file is what their headers say, including the size, and what is in them. -/
def C144_claim : Prop :=
  ∀ (z : Zlib) (md5 : Bytes → Bytes) (d : Bytes) (f : Std.Facts) (hs : List Head), Std.readFile z md5 (some d) = .ok f → HeadsTo d hs → NoFooter d →
    Each (fun h t => HeadingSays h t ∧ t.size = .ok h.size ∧ ContentSays h t) hs f.v2

/-- The sizes of the tags of a file, as dumped. -/
def sizesOf (d : Bytes) : Option (List (Option Nat)) :=
  match Std.readFile noZlib id (some d) with
  | .ok f => some (f.v2.map fun t => match t.size with | .ok n => some n | _ => none)
  | _ => none

theorem not_C144 {d : Bytes} {n m : Nat} {v r f : Byte} (h : sizesOf d = some [some n]) (hd : IsHeader d v r f m) (hf : f &&& 0x10 = 0)
    (hl : ∀ v r f n, ¬ IsHeader (d.drop (10 + m)) v r f n) (hn : n ≠ m) : ¬ C144_claim := by
  intro c
  unfold sizesOf at h
  split at h
  · rename_i fs hr
    have hsp : tagSpan v f m = 10 + m := by
      unfold tagSpan
      rw [if_neg (fun x => x.2 hf), Nat.add_zero]
    have k := c noZlib id d fs _ hr (.tag hd (by rw [hsp]; exact .none hl)) (.tag hd (fun _ => hf) (.none hl))
    cases k2 : fs.v2 with
    | nil => rw [k2] at k; cases k
    | cons t l =>
      rw [k2] at h k
      cases k with
      | cons k3 _ =>
        simp only [List.map_cons, Option.some.injEq, List.cons.injEq, k3.2.1] at h
        exact hn h.1.symm
  · cases h

/-- **Finding** The size of an unsynchronised tag is shown without the bytes that unsynchronisation has put in: 13 bytes for a tag of 14. -/
theorem C144_refuted : ¬ C144_claim :=
  not_C144 (d := /- ID3 -/ [73, 68, 51] ++ [3, 0, 0x80, 0, 0, 0, 14] ++ (/- TIT2 -/ [84, 73, 84, 50] ++ [0, 0, 0, 3, 0, 0, 0, 0xff, 0, 0xe0])) (n := 13) (m := 14) (v := 3) (r := 0) (f := 0x80)
    (by decide +kernel) ⟨0, 0, 0, 14, _, rfl, by decide, by decide, by decide, by decide⟩ (by decide) (no_tag_header (by decide +kernel)) (by decide)

/-- **Finding** The padding of an ID3v2.4 tag is counted twice: 18 bytes for a tag of 15. -/
theorem C144_refuted_padding : ¬ C144_claim :=
  not_C144 (d := /- ID3 -/ [73, 68, 51] ++ [4, 0, 0, 0, 0, 0, 15] ++ (/- TIT2 -/ [84, 73, 84, 50] ++ [0, 0, 0, 2, 0, 0, 0, 0x41, 0, 0, 0])) (n := 18) (m := 15) (v := 4) (r := 0) (f := 0)
    (by decide +kernel) ⟨0, 0, 0, 15, _, rfl, by decide, by decide, by decide, by decide⟩ (by decide) (no_tag_header (by decide +kernel)) (by decide)

/-- **Finding** The size of an ID3v2.2 tag that is not unsynchronised is shown as if it were: 10 bytes for a tag of 9. -/
theorem C144_refuted_v22 : ¬ C144_claim :=
  not_C144 (d := /- ID3 -/ [73, 68, 51] ++ [2, 0, 0, 0, 0, 0, 9] ++ (/- TT2 -/ [84, 84, 50] ++ [0, 0, 3, 0, 0xff, 0xe0])) (n := 10) (m := 9) (v := 2) (r := 0) (f := 0)
    (by decide +kernel) ⟨0, 0, 0, 9, _, rfl, by decide, by decide, by decide, by decide⟩ (by decide) (no_tag_header (by decide +kernel)) (by decide)

/-- What is shown as the size of a tag: what its header says for ID3v2.3; that and the padding once more for ID3v2.4; what the header says for ID3v2.2 if there
is nothing in the frames that would have to be unsynchronised. -/
structure SizeSays (h : Head) (t : Std.Tag) : Prop where
  v2 : h.version = 2 → h.flags &&& 0xc0 = 0 → ∀ fs k, LaidOut2 h.content fs k → (∀ x ∈ fs, ¬ NeedsStuffing (frame22 x.id x.payload)) → t.size = .ok h.size
  v3 : h.version = 3 → h.flags &&& 0xc0 = 0 → ∀ fs k, LaidOut .v3 h.content fs k → t.size = .ok h.size
  v4 : h.version = 4 → h.flags &&& 0xd0 = 0 → ∀ fs k, LaidOut .v4 h.content fs k → t.size = .ok (h.size + k)

theorem bits_c0 {f : Byte} (h : f &&& 0xc0 = 0) : f &&& 0x80 = 0 ∧ f &&& 0x40 = 0 := by
  revert h
  revert f
  intro ⟨⟨f⟩⟩
  revert f
  decide +kernel

theorem bits_d0 {f : Byte} (h : f &&& 0xd0 = 0) : f &&& 0xc0 = 0 ∧ f &&& 0x10 = 0 := by
  revert h
  revert f
  intro ⟨⟨f⟩⟩
  revert f
  decide +kernel

theorem says22 (z : Zlib) {h : Head} {t : Tag22} (hv : h.version = 2) (hl : h.content.length = h.size) {fs : List Frame22} {pad : Nat}
    (hp : Tag22.parseBuf (decide (h.flags &&& 0x80 ≠ 0)) h.content = .ok (fs, pad))
    (ht : t = ⟨some (decide (h.flags &&& 0x80 ≠ 0)), some (decide (h.flags &&& 0x40 ≠ 0)), some pad, fs⟩) :
    HeadingSays h (Std.ofAny z h.revision (.inl t)) ∧ ContentSays h (Std.ofAny z h.revision (.inl t)) ∧ SizeSays h (Std.ofAny z h.revision (.inl t)) := by
  subst ht
  refine ⟨⟨by rw [hv]; rfl, rfl, rfl, ?_⟩, ⟨?_, by rw [hv]; nofun, by rw [hv]; nofun⟩, ⟨?_, by rw [hv]; nofun, by rw [hv]; nofun⟩⟩
  · rw [hv]
    exact congrArg Res.ok (Heading.flags_v2 h.flags)
  · intro _ hf gs k hk
    have := Heading.parse_laid22 hk
    rw [(bits_c0 hf).1] at hp
    rw [show decide ((0 : Byte) ≠ 0) = false from rfl, this] at hp
    simp only [Res.ok.injEq, Prod.mk.injEq] at hp
    obtain ⟨rfl, rfl⟩ := hp
    refine ⟨rfl, ?_⟩
    simp only [Std.ofAny, List.map_map, Function.comp_def]
    rfl
  · intro _ hf gs k hk hn
    have := Heading.parse_laid22 hk
    rw [(bits_c0 hf).1] at hp
    rw [show decide ((0 : Byte) ≠ 0) = false from rfl, this] at hp
    simp only [Res.ok.injEq, Prod.mk.injEq] at hp
    obtain ⟨rfl, rfl⟩ := hp
    obtain ⟨gs', hs⟩ := Heading.laid_size2 hk.1 hn
    simp only [Std.ofAny, Tag22.size, Tag22.use, Res.ok_bind, hs]
    rw [← hl, hk.2]
    simp only [List.length_append, List.length_replicate, Res.ok.injEq]
    omega

theorem says23 (z : Zlib) {h : Head} {t : Tag23} (hv : h.version = 3) (hl : h.content.length = h.size) {ext : Option Ext23} {fs : List Frame4} {pad : Nat}
    (hp : Tag23.parseBuf z (decide (h.flags &&& 0x80 ≠ 0)) (decide (h.flags &&& 0x40 ≠ 0)) h.content = .ok (ext, pad, fs))
    (ht : t = ⟨some (decide (h.flags &&& 0x80 ≠ 0)), decide (h.flags &&& 0x20 ≠ 0), ext, pad, fs⟩) :
    HeadingSays h (Std.ofAny z h.revision (.inr (.inl t))) ∧ ContentSays h (Std.ofAny z h.revision (.inr (.inl t))) ∧
      SizeSays h (Std.ofAny z h.revision (.inr (.inl t))) := by
  subst ht
  have he : ext.isSome = decide (h.flags &&& 0x40 ≠ 0) := Heading.ext_some23 hp
  refine ⟨⟨by rw [hv]; rfl, rfl, rfl, ?_⟩, ⟨by rw [hv]; nofun, ?_, by rw [hv]; nofun⟩, ⟨by rw [hv]; nofun, ?_, by rw [hv]; nofun⟩⟩
  · rw [hv]
    simp only [Std.ofAny, Tag23.flags, he]
    exact congrArg Res.ok (Heading.flags_v3 h.flags)
  · intro _ hf gs k hk
    have := Heading.parse_laid23 z hk
    rw [(bits_c0 hf).1, (bits_c0 hf).2] at hp
    rw [show decide ((0 : Byte) ≠ 0) = false from rfl, this] at hp
    simp only [Res.ok.injEq, Prod.mk.injEq] at hp
    obtain ⟨rfl, rfl, rfl⟩ := hp
    exact ⟨rfl, Heading.parts_laid _ _⟩
  · intro _ hf gs k hk
    have := Heading.parse_laid23 z hk
    rw [(bits_c0 hf).1, (bits_c0 hf).2] at hp
    rw [show decide ((0 : Byte) ≠ 0) = false from rfl, this] at hp
    simp only [Res.ok.injEq, Prod.mk.injEq] at hp
    obtain ⟨rfl, rfl, rfl⟩ := hp
    obtain ⟨gs', hs⟩ := Heading.laid_size (z := z) hk.1 (k == 0)
    simp only [Std.ofAny, Tag23.size, Tag23.updateCrc, Res.ok_bind, hs]
    rw [← hl, hk.2]
    simp only [List.length_append, List.length_replicate, Res.ok.injEq]
    omega

theorem says24 (z : Zlib) {h : Head} {t : Tag24} (hv : h.version = 4) (hl : h.content.length = h.size) {ext : Option Ext24} {fs : List Frame4} {pad : Nat}
    (hp : Tag24.parseBuf z (decide (h.flags &&& 0x40 ≠ 0)) h.content = .ok (ext, pad, fs))
    (ht : t = ⟨some (decide (h.flags &&& 0x80 ≠ 0)), decide (h.flags &&& 0x20 ≠ 0), decide (h.flags &&& 0x10 ≠ 0), ext, pad, fs⟩) :
    HeadingSays h (Std.ofAny z h.revision (.inr (.inr t))) ∧ ContentSays h (Std.ofAny z h.revision (.inr (.inr t))) ∧
      SizeSays h (Std.ofAny z h.revision (.inr (.inr t))) := by
  subst ht
  have he : ext.isSome = decide (h.flags &&& 0x40 ≠ 0) := Heading.ext_some24 hp
  refine ⟨⟨by rw [hv]; rfl, rfl, rfl, ?_⟩, ⟨by rw [hv]; nofun, by rw [hv]; nofun, ?_⟩, ⟨by rw [hv]; nofun, by rw [hv]; nofun, ?_⟩⟩
  · rw [hv]
    simp only [Std.ofAny, Tag24.flags, he]
    exact congrArg Res.ok (Heading.flags_v4 h.flags)
  · intro _ hf gs k hk
    have := Heading.parse_laid24 z hk
    rw [(bits_c0 hf).2] at hp
    rw [show decide ((0 : Byte) ≠ 0) = false from rfl, this] at hp
    simp only [Res.ok.injEq, Prod.mk.injEq] at hp
    obtain ⟨rfl, rfl, rfl⟩ := hp
    exact ⟨rfl, Heading.parts_laid _ _⟩
  · intro _ hf gs k hk
    have := Heading.parse_laid24 z hk
    obtain ⟨hf, hf'⟩ := bits_d0 hf
    rw [(bits_c0 hf).2] at hp
    rw [show decide ((0 : Byte) ≠ 0) = false from rfl, this] at hp
    simp only [Res.ok.injEq, Prod.mk.injEq] at hp
    obtain ⟨rfl, rfl, rfl⟩ := hp
    obtain ⟨gs', hs⟩ := Heading.laid_size (z := z) hk.1 (k == 0)
    simp only [Std.ofAny, Tag24.size, Res.ok_bind, hs, hf', Tag24.extSize]
    rw [← hl, hk.2]
    simp only [List.length_append, List.length_replicate, Res.ok.injEq, ne_eq, not_true_eq_false, decide_false, Bool.false_eq_true, if_false]
    omega

theorem each_mono {α β : Type} {R Q : α → β → Prop} (k : ∀ a b, R a b → Q a b) {l : List α} {m : List β} (h : Each R l m) : Each Q l m := by
  induction h with
  | nil => exact .nil
  | cons h1 _ ih => exact .cons (k _ _ h1) ih

/-- What holds of C144: all but the size, which is as `SizeSays` has it. -/
theorem C144_partial {z : Zlib} {md5 : Bytes → Bytes} {d : Bytes} {f : Std.Facts} {hs : List Head} (h : Std.readFile z md5 (some d) = .ok f) (ht : HeadsTo d hs)
    (hn : NoFooter d) : Each (fun h t => HeadingSays h t ∧ ContentSays h t ∧ SizeSays h t) hs f.v2 := by
  have h : (Std.readStream z md5 d.length ⟨d, 0, IoBits.all, IoBits.none⟩).1 = .ok f := h
  obtain ⟨s, h⟩ : ∃ s, Std.readStream z md5 d.length ⟨d, 0, IoBits.all, IoBits.none⟩ = (.ok f, s) := ⟨_, Prod.ext_iff.mpr ⟨h, rfl⟩⟩
  unfold Std.readStream at h
  obtain ⟨o, s1, h1, h⟩ := Sections.sm_bind_ok h
  cases o with
  | none => simp [SM.lift] at h
  | some v2 =>
    have key := Heading.readAll_heads (R := fun i c (t : Std.Tag) => ∀ h : Head, h.version = i.version → h.revision = i.revision → h.flags = i.flags →
        h.size = i.size → h.content = c → HeadingSays h t ∧ ContentSays h t ∧ SizeSays h t) (c := d) (p := 0)
      (Heading.as_map Heading.as22 fun i c a hv ⟨hl, fs, pad, hp, ht⟩ h e1 e2 e3 e4 e5 => by
        rw [← e2]; rw [← e3, ← e5] at hp; rw [← e3] at ht; exact says22 z (e1.trans hv) (by rw [e5, e4, hl]) hp ht)
      (Heading.as_map (Heading.as23 z) fun i c a hv ⟨hl, ext, pad, fs, hp, ht⟩ h e1 e2 e3 e4 e5 => by
        rw [← e2]; rw [← e3, ← e5] at hp; rw [← e3] at ht; exact says23 z (e1.trans hv) (by rw [e5, e4, hl]) hp ht)
      (Heading.as_map (Heading.as24 z) fun i c a hv ⟨hl, ext, pad, fs, hp, ht⟩ h e1 e2 e3 e4 e5 => by
        rw [← e2]; rw [← e3, ← e5] at hp; rw [← e3] at ht; exact says24 z (e1.trans hv) (by rw [e5, e4, hl]) hp ht) rfl ht hn h1
    obtain ⟨o, s2, h3, h⟩ := Sections.sm_bind_ok h
    cases o with
    | none => simp [SM.lift] at h
    | some td =>
      obtain ⟨o, s3, h6, h⟩ := Sections.sm_bind_ok h
      have h : (Res.ok _, s3) = (Res.ok f, s) := h
      simp only [Prod.mk.injEq, Res.ok.injEq] at h
      obtain ⟨rfl, rfl⟩ := h
      show Each _ hs v2
      exact each_mono (fun h t k => k.2 h rfl rfl rfl rfl rfl) key

/-! A case: an ID3v2.3 tag with a title and three bytes of padding. -/

/-- The title. -/
def padTitle : Laid := ⟨mkId4 'T' 'I' 'T' '2', 0, [0, 0x41], .text 0 [0x41]⟩

/-- The file. -/
def padFile : Bytes := /- ID3 -/ [73, 68, 51] ++ [3, 0, 0x20, 0, 0, 0, 15] ++ (/- TIT2 -/ [84, 73, 84, 50] ++ [0, 0, 0, 2, 0, 0, 0, 0x41, 0, 0, 0])

/-- Its tag. -/
def padHead : Head := ⟨3, 0, 0x20, 15, /- TIT2 -/ [84, 73, 84, 50] ++ [0, 0, 0, 2, 0, 0, 0, 0x41, 0, 0, 0]⟩

example : HeadsTo padFile [padHead] ∧ NoFooter padFile ∧ LaidOut .v3 padHead.content [padTitle] 3 ∧ sizesOf padFile = some [some 15] := by
  have h1 : IsHeader padFile 3 0 0x20 15 := ⟨0, 0, 0, 15, _, rfl, by decide, by decide, by decide, by decide⟩
  refine ⟨.tag h1 (.none (no_tag_header (by decide +kernel))), .tag h1 (by decide) (.none (no_tag_header (by decide +kernel))), ⟨?_, by decide +kernel⟩, by decide +kernel⟩
  intro x hx
  simp only [List.mem_singleton] at hx
  subst hx
  exact ⟨by rw [show kind4 padTitle.id = .text by decide +kernel]; trivial, by decide +kernel, by decide, by decide, by decide⟩

/-! ## C124, for dumps in lines and comma-separated values -/

theorem std_args_dumped (E : Std.Env) (k : Std.Form) (w : Std.World) (o : Dump.Opts) {ps : List Path} {s s' : Report.OS} {x : Option Exc}
    (h : Std.args E k w o ps s = .ok (s', x)) : x = none ↔ ∃ qs, Spec.Dump.Dumped w.base o ps qs := by
  induction ps generalizing s with
  | nil => rw [Std.args] at h; cases h; exact ⟨fun _ => ⟨[], .nil⟩, fun _ => rfl⟩
  | cons p ps ih =>
    rw [Std.args] at h
    cases hi : w.base.item p with
    | absent =>
      rw [hi] at h; cases h
      constructor
      · nofun
      · rintro ⟨qs, hq⟩; cases hq <;> simp_all
    | file =>
      rw [hi] at h
      simp only at h
      by_cases hr : (w.base.file p).regular = true
      · rw [if_pos hr] at h
        cases hx : Std.one E k w o p s with
        | throw e => rw [hx] at h; cases h
        | ub u => rw [hx] at h; cases h
        | ok s1 =>
          rw [hx] at h
          rw [ih h]
          constructor
          · rintro ⟨qs, hq⟩; exact ⟨_, .file hi hr hq⟩
          · rintro ⟨qs, hq⟩
            cases hq with
            | file _ _ h3 => exact ⟨_, h3⟩
            | dir h1 h3 => exact ⟨_, h3⟩
      · rw [if_neg hr] at h; cases h
        constructor
        · nofun
        · rintro ⟨qs, hq⟩
          cases hq with
          | file _ h2 _ => exact absurd h2 hr
          | dir h1 h3 => rw [hi] at h1; cases h1
    | dir es broken =>
      rw [hi] at h
      simp only at h
      cases hx : Std.walk E k w o es s with
      | throw e => rw [hx] at h; cases h
      | ub u => rw [hx] at h; cases h
      | ok s1 =>
        rw [hx] at h
        cases broken with
        | true =>
          cases h
          constructor
          · nofun
          · rintro ⟨qs, hq⟩
            cases hq with
            | file h1 _ _ => rw [hi] at h1; cases h1
            | dir h1 h3 => rw [hi] at h1; cases h1
        | false =>
          rw [ih h]
          constructor
          · rintro ⟨qs, hq⟩; exact ⟨_, .dir hi hq⟩
          · rintro ⟨qs, hq⟩
            cases hq with
            | file _ _ h3 => exact ⟨_, h3⟩
            | dir h1 h3 => exact ⟨_, h3⟩

/-- C124, as far as it holds, for the other forms of dump. -/
theorem C124_lines_partial {E : Std.Env} {k : Std.Form} {w : Std.World} {o : Dump.Opts} {ps : List Path} {n : Nat} {out : Bytes}
    (h : Std.run E k w o ps = .ok (n, out)) : n ≤ 1 ∧ (n = 0 ↔ ∃ qs, Spec.Dump.Dumped w.base o ps qs) := by
  unfold Std.run at h
  cases hx : Std.args E k w o ps ⟨[], false⟩ with
  | throw e => rw [hx] at h; cases h
  | ub u => rw [hx] at h; cases h
  | ok r =>
    rw [hx] at h
    obtain ⟨s, x⟩ := r
    have k := std_args_dumped E k w o hx
    cases x with
    | none => cases h; exact ⟨Nat.zero_le 1, fun _ => k.1 rfl, fun _ => rfl⟩
    | some e =>
      cases h
      refine ⟨Nat.le_refl 1, nofun, fun hd => ?_⟩
      cases k.2 hd

example : Std.run stdEnv .standard ⟨⟨fun _ => ⟨true, none⟩, fun _ => .absent⟩, fun _ => none⟩ {} [/- a -/ [97]] = .ok (1, []) := rfl

end Scribbu.Props
