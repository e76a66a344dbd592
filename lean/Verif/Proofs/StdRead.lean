import Verif.Spec.Std
import Verif.Proofs.Dump

/-! What is certain about tags that have been read from a file. -/

namespace Scribbu.Std
open Scribbu Spec Spec.Std

/-- Whatever a computation on a stream gives satisfies `P`. -/
def Post {α : Type} (m : SM α) (P : α → Prop) : Prop := ∀ s a s', m s = (.ok a, s') → P a

theorem post_pure {α : Type} {P : α → Prop} {a : α} (h : P a) : Post (pure a) P := by
  intro s b s' e
  have : (Res.ok a, s) = (Res.ok b, s') := e
  simp only [Prod.mk.injEq, Res.ok.injEq] at this
  exact this.1 ▸ h

theorem post_bind {α β : Type} {m : SM α} {f : α → SM β} {P : α → Prop} {Q : β → Prop} (h : Post m P) (k : ∀ a, P a → Post (f a) Q) :
    Post (m >>= f) Q := by
  intro s b s' e
  have e : SM.bind m f s = (Res.ok b, s') := e
  unfold SM.bind at e
  split at e
  next a s1 h1 => exact k a (h _ _ _ h1) _ _ _ e
  next => simp at e
  next => simp at e

theorem post_any {α : Type} (m : SM α) : Post m fun _ => True := fun _ _ _ _ => trivial

/-- Where nothing need be known of the first part. -/
theorem post_then {α β : Type} {m : SM α} {f : α → SM β} {Q : β → Prop} (k : ∀ a, Post (f a) Q) : Post (m >>= f) Q :=
  post_bind (post_any m) fun a _ => k a

theorem post_lift {α : Type} {r : Res α} {P : α → Prop} (h : ∀ a, r = .ok a → P a) : Post (SM.lift r) P := by
  intro s a s' e
  simp only [SM.lift, Prod.mk.injEq] at e
  exact h a e.1

theorem post_throw {α : Type} {e : Exc} {P : α → Prop} : Post (SM.throw e : SM α) P := by
  intro s a s' h
  simp [SM.throw] at h

theorem post_ub {α : Type} {u : UB} {P : α → Prop} : Post (SM.ub u : SM α) P := by
  intro s a s' h
  simp [SM.ub] at h

theorem post_onThrow {α : Type} {m : SM α} {h : SM Unit} {P : α → Prop} (k : Post m P) : Post (SM.onThrow m h) P := by
  intro s a s' e
  unfold SM.onThrow at e
  split at e
  next => split at e <;> simp at e
  next => exact k _ _ _ e

theorem post_attempt {α : Type} {m : SM α} {P : α → Prop} (k : Post m P) : Post (SM.attempt m) fun o => ∀ a, o = some a → P a := by
  intro s o s' e a ho
  subst ho
  unfold SM.attempt at e
  split at e
  next b s1 h =>
    simp only [Prod.mk.injEq, Res.ok.injEq, Option.some.injEq] at e
    exact e.1 ▸ k _ _ _ h
  all_goals simp at e

theorem post_ite {α : Type} {c : Prop} [Decidable c] {m n : SM α} {P : α → Prop} (hm : Post m P) (hn : Post n P) : Post (if c then m else n) P := by
  split
  · exact hm
  · exact hn

theorem post_mono {α : Type} {m : SM α} {P Q : α → Prop} (h : Post m P) (k : ∀ a, P a → Q a) : Post m Q :=
  fun s a s' e => k a (h s a s' e)

/-! ## Frames -/

/-- Which class a frame is of. -/
def kindOf : Body → Kind
  | .unknown _ => .unknown
  | .ufid _ => .ufid
  | .encr _ => .encr
  | .text .. => .text
  | .txxx _ => .txxx
  | .comm _ => .comm
  | .pcnt _ => .pcnt
  | .popm _ => .popm
  | .xtag _ => .xtag
  | .priv _ => .priv

theorem bind_ok {α β : Type} {r : Res α} {f : α → Res β} {b : β} (h : r.bind f = .ok b) : ∃ a, r = .ok a ∧ f a = .ok b := by
  cases r with
  | ok a => exact ⟨a, rfl, h⟩
  | throw e => simp [Res.bind] at h
  | ub u => simp [Res.bind] at h

theorem parse_kind {v : Ver} {k : Kind} {m : Bytes} {n : Nat} {b : Body} (h : Body.parse v k m n = .ok b) : kindOf b = k := by
  unfold Body.parse at h
  split at h
  all_goals
    obtain ⟨a, -, h⟩ := bind_ok h
    try
      cases h
      rfl
  · split at h <;> cases h
    rfl
  · obtain ⟨c, -, h⟩ := bind_ok h
    cases h
    rfl
  · split at h
    · obtain ⟨c, -, h⟩ := bind_ok h
      cases h
      rfl
    · cases h
  · obtain ⟨c, -, h⟩ := bind_ok h
    cases h
    rfl

theorem frames22_kind (buf : Bytes) (cb p : Nat) : ∀ fs pad, Tag22.parseFrames buf cb p = .ok (fs, pad) → ∀ f ∈ fs, kindOf f.body = kind22 f.id := by
  fun_induction Tag22.parseFrames buf cb p with
  | case1 p hp left ih =>
    intro fs pad h f hf
    obtain ⟨b0, -, h⟩ := bind_ok h
    split at h
    · cases h; simp at hf
    obtain ⟨b1, -, h⟩ := bind_ok h
    split at h
    · cases h; simp at hf
    obtain ⟨b2, -, h⟩ := bind_ok h
    simp only at h
    split at h
    · cases h; simp at hf
    split at h
    · cases h
    obtain ⟨s0, -, h⟩ := bind_ok h
    obtain ⟨s1, -, h⟩ := bind_ok h
    obtain ⟨s2, -, h⟩ := bind_ok h
    split at h
    · cases h
    obtain ⟨body, hb, h⟩ := bind_ok h
    obtain ⟨⟨fs', pad'⟩, hr, h⟩ := bind_ok h
    cases h
    rcases List.mem_cons.mp hf with rfl | hf
    · exact parse_kind hb
    · exact ih ‹_› s0 s1 s2 fs' pad' hr f hf
  | case2 =>
    intro fs pad h f hf
    cases h
    simp at hf

theorem framePass_kind (z : Zlib) (ver : Ver) (ms : List Byte) (buf : Bytes) (cb p : Nat) :
    ∀ fs, framePass z ver ms buf cb p = .ok fs → ∀ f ∈ fs, kindOf f.body = kind4 f.id := by
  fun_induction framePass z ver ms buf cb p with
  | case1 p hp left ih =>
    intro fs h f hf
    obtain ⟨b0, -, h⟩ := bind_ok h
    split at h
    · cases h; simp at hf
    obtain ⟨b1, -, h⟩ := bind_ok h
    split at h
    · cases h; simp at hf
    obtain ⟨b2, -, h⟩ := bind_ok h
    split at h
    · cases h; simp at hf
    obtain ⟨b3, -, h⟩ := bind_ok h
    simp only at h
    split at h
    · cases h; simp at hf
    split at h
    · cases h
    obtain ⟨s0, -, h⟩ := bind_ok h
    obtain ⟨s1, -, h⟩ := bind_ok h
    obtain ⟨s2, -, h⟩ := bind_ok h
    obtain ⟨s3, -, h⟩ := bind_ok h
    split at h
    · cases h
    obtain ⟨f', hb, h⟩ := bind_ok h
    obtain ⟨fs', hr, h⟩ := bind_ok h
    cases h
    rcases List.mem_cons.mp hf with rfl | hf
    · unfold readFrame4 at hb
      obtain ⟨_, -, hb⟩ := bind_ok hb
      obtain ⟨_, -, hb⟩ := bind_ok hb
      obtain ⟨_, -, hb⟩ := bind_ok hb
      split at hb
      · cases hb
      obtain ⟨_, -, hb⟩ := bind_ok hb
      obtain ⟨_, hb', hb⟩ := bind_ok hb
      cases hb
      exact parse_kind hb'
    · exact ih ‹_› s0 s1 s2 s3 fs' hr f hf
  | case2 =>
    intro fs h f hf
    cases h
    simp at hf

/-! ## Tags -/

/-- What is certain about a tag that has been read. -/
structure SoundTag (t : Tag) : Prop where
  unsync : ∃ b, t.unsync = some b
  flags : ∃ f, t.flags = .ok f
  padding : ∃ n, t.padding = .ok n
  texts : ∀ f ∈ t.frames, f.1 ∈ idsOf t.ver → ∃ u b, f.2 = .text u b
  kinds2 : t.ver = .v2 → ∀ f ∈ t.frames, kindOf f.2 ≠ .encr ∧ kindOf f.2 ≠ .priv

theorem kind22_texts {i : Id3} (h : [i.a, i.b, i.c] ∈ idsOf .v2) : kind22 i = .text := by
  obtain ⟨a, b, c⟩ := i
  simp only [idsOf, List.mem_cons, List.cons.injEq, and_true, List.not_mem_nil, or_false] at h
  rcases h with ⟨rfl, rfl, rfl⟩ | ⟨rfl, rfl, rfl⟩ | ⟨rfl, rfl, rfl⟩ | ⟨rfl, rfl, rfl⟩ | ⟨rfl, rfl, rfl⟩ | ⟨rfl, rfl, rfl⟩ | ⟨rfl, rfl, rfl⟩ <;>
    decide +kernel

theorem kind4_texts {i : Id4} {v : Ver} (hv : v ≠ .v2) (h : [i.a, i.b, i.c, i.d] ∈ idsOf v) : kind4 i = .text := by
  have : idsOf v = idsOf .v3 := by cases v <;> first | rfl | exact absurd rfl hv
  rw [this] at h
  obtain ⟨a, b, c, d⟩ := i
  simp only [idsOf, List.mem_cons, List.cons.injEq, and_true, List.not_mem_nil, or_false] at h
  rcases h with ⟨rfl, rfl, rfl, rfl⟩ | ⟨rfl, rfl, rfl, rfl⟩ | ⟨rfl, rfl, rfl, rfl⟩ | ⟨rfl, rfl, rfl, rfl⟩ | ⟨rfl, rfl, rfl, rfl⟩ | ⟨rfl, rfl, rfl, rfl⟩ |
    ⟨rfl, rfl, rfl, rfl⟩ <;> decide +kernel

theorem kindOf_text {b : Body} (h : kindOf b = .text) : ∃ u t, b = .text u t := by
  cases b <;> simp [kindOf] at h
  exact ⟨_, _, rfl⟩

theorem read22_sound (z : Zlib) (h : Id3v2Info) : Post (Tag22.read h) fun t => SoundTag (ofAny z h.revision (.inl t)) := by
  unfold Tag22.read
  refine post_bind (P := fun r => ∀ f ∈ r.1, kindOf f.body = kind22 f.id) ?_ ?_
  · unfold Tag22.parse
    refine post_then fun _ => post_then fun _ => post_then fun _ => post_bind (post_onThrow (post_then fun buf => post_lift ?_)) fun r hr =>
      post_then fun _ => post_pure hr
    rintro ⟨fs, pad⟩ e
    unfold Tag22.parseBuf at e
    split at e
    · split at e
      · obtain ⟨⟨b, cb⟩, -, e⟩ := bind_ok e
        exact frames22_kind _ _ _ _ _ e
      · cases e
    · exact frames22_kind _ _ _ _ _ e
  · rintro ⟨fs, pad⟩ hk
    refine post_pure ⟨⟨_, rfl⟩, ⟨_, rfl⟩, ⟨_, rfl⟩, ?_, ?_⟩
    · intro f hf hi
      obtain ⟨g, hg, rfl⟩ := List.mem_map.mp hf
      exact kindOf_text ((hk g hg).trans (kind22_texts hi))
    · intro _ f hf
      obtain ⟨g, hg, rfl⟩ := List.mem_map.mp hf
      have := hk g hg
      show kindOf g.body ≠ _ ∧ kindOf g.body ≠ _
      rw [this]
      unfold kind22
      constructor <;> (repeat' split) <;> simp

theorem sound4 {v : Ver} (hv : v ≠ .v2) {fs : List Frame4} (hk : ∀ f ∈ fs, kindOf f.body = kind4 f.id) :
    ∀ f ∈ fs.map Json.parts4, f.1 ∈ idsOf v → ∃ u b, f.2 = .text u b := by
  intro f hf hi
  obtain ⟨g, hg, rfl⟩ := List.mem_map.mp hf
  exact kindOf_text ((hk g hg).trans (kind4_texts hv hi))

theorem read23_sound (z : Zlib) (h : Id3v2Info) : Post (Tag23.read z h) fun t => SoundTag (ofAny z h.revision (.inr (.inl t))) := by
  unfold Tag23.read
  refine post_bind (P := fun r => ∀ f ∈ r.2.2, kindOf f.body = kind4 f.id) ?_ ?_
  · unfold Tag23.parse
    refine post_then fun _ => post_then fun _ => post_then fun _ => post_bind (post_onThrow (post_then fun buf => post_lift ?_)) fun r hr =>
      post_then fun _ => post_pure hr
    have all : ∀ x b cb r, Tag23.parseAll z x b cb = .ok r → ∀ f ∈ r.2.2, kindOf f.body = kind4 f.id := by
      intro x b cb r e
      unfold Tag23.parseAll at e
      obtain ⟨⟨_, _⟩, -, e⟩ := bind_ok e
      obtain ⟨⟨_, _⟩, -, e⟩ := bind_ok e
      obtain ⟨fs, hf, e⟩ := bind_ok e
      cases e
      exact framePass_kind _ _ _ _ _ _ _ hf
    intro r e
    unfold Tag23.parseBuf at e
    split at e
    · split at e
      · obtain ⟨⟨b, cb⟩, -, e⟩ := bind_ok e
        exact all _ _ _ _ e
      · cases e
    · exact all _ _ _ _ e
  · rintro ⟨x, pad, fs⟩ hk
    exact post_pure ⟨⟨_, rfl⟩, ⟨_, rfl⟩, ⟨_, rfl⟩, sound4 (v := .v3) nofun hk, fun h => by cases h⟩

theorem read24_sound (z : Zlib) (h : Id3v2Info) : Post (Tag24.read z h) fun t => SoundTag (ofAny z h.revision (.inr (.inr t))) := by
  unfold Tag24.read
  refine post_bind (P := fun r => ∀ f ∈ r.2.2, kindOf f.body = kind4 f.id) ?_ ?_
  · unfold Tag24.parse
    refine post_then fun _ => post_then fun _ => post_then fun _ => post_bind (post_onThrow (post_then fun buf => post_lift ?_)) fun r hr =>
      post_then fun _ => post_pure hr
    intro r e
    unfold Tag24.parseBuf at e
    obtain ⟨⟨_, _⟩, -, e⟩ := bind_ok e
    obtain ⟨⟨_, _⟩, -, e⟩ := bind_ok e
    obtain ⟨fs, hf, e⟩ := bind_ok e
    cases e
    exact framePass_kind _ _ _ _ _ _ _ hf
  · rintro ⟨x, pad, fs⟩ hk
    exact post_pure ⟨⟨_, rfl⟩, ⟨_, rfl⟩, ⟨_, rfl⟩, sound4 (v := .v4) nofun hk, fun h => by cases h⟩

theorem readAll_post {α : Type} {mk2 mk3 mk4 : Id3v2Info → SM α} {P : α → Prop} (h2 : ∀ h, Post (mk2 h) P) (h3 : ∀ h, Post (mk3 h) P)
    (h4 : ∀ h, Post (mk4 h) P) (n : Nat) : Post (readAllId3v2 mk2 mk3 mk4 n) fun o => ∀ ts, o = some ts → ∀ t ∈ ts, P t := by
  induction n with
  | zero => exact post_pure (by simp)
  | succ n ih =>
    unfold readAllId3v2
    refine post_bind (P := fun o => ∀ t, o = some t → P t) ?_ ?_
    · unfold maybeReadId3v2
      refine post_then fun o => ?_
      cases o with
      | none => exact post_pure (by simp)
      | some h =>
        refine post_bind (P := P) ?_ fun t ht => post_pure (by simpa using ht)
        unfold mkId3v2
        exact post_ite (h2 h) (post_ite (h3 h) (post_ite (h4 h) post_throw))
    · intro o ho
      cases o with
      | none => exact post_pure (by simp)
      | some t =>
        refine post_bind ih fun o' h' => post_pure ?_
        intro ts e t' ht'
        cases o' with
        | none => simp at e
        | some l =>
          simp only [Option.map_some, Option.some.injEq] at e
          subst e
          rcases List.mem_cons.mp ht' with rfl | ht'
          · exact ho _ rfl
          · exact h' _ rfl _ ht'

/-! ## ID3v1 -/

/-- What is certain about an ID3v1 tag that has been read. -/
structure SoundV1 (t : V1Tag) : Prop where
  track : t.v11 = true → ∃ k, t.track = some k
  start : t.extended = true → ∃ b, t.startTime = some b
  stop : t.extended = true → ∃ b, t.endTime = some b
  speed : t.extended = true → ∃ b, t.speed = some b

theorem comment_sound {p : Bytes} {o : Nat} {r : Bool × Bytes × Option Byte} (h : V1Tag.readComment p o = .ok r) : r.1 = true → ∃ k, r.2.2 = some k := by
  unfold V1Tag.readComment at h
  obtain ⟨_, -, h⟩ := bind_ok h
  obtain ⟨_, -, h⟩ := bind_ok h
  split at h
  · obtain ⟨_, -, h⟩ := bind_ok h
    obtain ⟨_, -, h⟩ := bind_ok h
    cases h
    exact fun _ => ⟨_, rfl⟩
  · obtain ⟨_, -, h⟩ := bind_ok h
    cases h
    exact fun h => by cases h

theorem standard_sound {p : Bytes} {t : V1Tag} (h : V1Tag.initStandard p = .ok t) : SoundV1 t := by
  unfold V1Tag.initStandard at h
  obtain ⟨_, -, h⟩ := bind_ok h
  split at h
  · cases h
  obtain ⟨_, -, h⟩ := bind_ok h
  obtain ⟨_, -, h⟩ := bind_ok h
  obtain ⟨_, -, h⟩ := bind_ok h
  obtain ⟨_, -, h⟩ := bind_ok h
  obtain ⟨_, hc, h⟩ := bind_ok h
  obtain ⟨_, -, h⟩ := bind_ok h
  cases h
  exact ⟨comment_sound hc, nofun, nofun, nofun⟩

theorem extended_sound {p : Bytes} {t : V1Tag} (h : V1Tag.initExtended p = .ok t) : SoundV1 t := by
  unfold V1Tag.initExtended at h
  obtain ⟨_, -, h⟩ := bind_ok h
  split at h
  · cases h
  obtain ⟨_, -, h⟩ := bind_ok h
  obtain ⟨_, -, h⟩ := bind_ok h
  obtain ⟨_, -, h⟩ := bind_ok h
  obtain ⟨_, -, h⟩ := bind_ok h
  obtain ⟨_, -, h⟩ := bind_ok h
  obtain ⟨_, -, h⟩ := bind_ok h
  obtain ⟨_, -, h⟩ := bind_ok h
  obtain ⟨_, -, h⟩ := bind_ok h
  obtain ⟨_, -, h⟩ := bind_ok h
  obtain ⟨_, -, h⟩ := bind_ok h
  obtain ⟨_, -, h⟩ := bind_ok h
  split at h
  · cases h
  obtain ⟨_, -, h⟩ := bind_ok h
  obtain ⟨_, hc, h⟩ := bind_ok h
  obtain ⟨_, -, h⟩ := bind_ok h
  cases h
  exact ⟨comment_sound hc, fun _ => ⟨_, rfl⟩, fun _ => ⟨_, rfl⟩, fun _ => ⟨_, rfl⟩⟩

theorem v1_sound : Post processId3v1 fun o => ∀ t, o = some t → SoundV1 t := by
  unfold processId3v1
  refine post_then fun i => post_ite (post_then fun _ => post_bind (P := SoundV1) ?_ fun t ht => post_pure (by simpa using ht)) (post_pure (by simp))
  unfold V1Tag.ofStream
  refine post_then fun _ => post_then fun _ => post_then fun here => post_bind (post_attempt (P := SoundV1) ?_) ?_
  · refine post_then fun _ => post_then fun _ => post_then fun _ => ?_
    exact post_ite (post_then fun _ => post_bind (post_lift fun t h => standard_sound h) fun t ht => post_then fun _ => post_pure ht)
      (post_ite (post_then fun _ => post_bind (post_lift fun t h => extended_sound h) fun t ht => post_then fun _ => post_pure ht)
        (post_bind (P := SoundV1) post_throw fun t ht => post_then fun _ => post_pure ht))
  · intro o ho
    cases o with
    | some t => exact post_pure (ho t rfl)
    | none => exact post_then fun _ => post_then fun _ => post_then fun _ => post_throw

theorem stream_sound (z : Zlib) (md5 : Bytes → Bytes) (n : Nat) :
    Post (readStream z md5 n) fun f => (∀ t ∈ f.v2, SoundTag t) ∧ ∀ t, f.v1 = some t → SoundV1 t := by
  unfold readStream
  refine post_bind (readAll_post (P := SoundTag) (fun h => post_bind (read22_sound z h) fun t ht => post_pure ht)
    (fun h => post_bind (read23_sound z h) fun t ht => post_pure ht) (fun h => post_bind (read24_sound z h) fun t ht => post_pure ht) _) ?_
  intro o ho
  cases o with
  | none => exact post_lift (by simp)
  | some v2 =>
    refine post_then fun td => ?_
    cases td with
    | none => exact post_lift (by simp)
    | some td => exact post_bind v1_sound fun v hv => post_pure ⟨ho _ rfl, hv⟩

/-- What is certain about what is read from a file. -/
theorem readFile_sound {z : Zlib} {md5 : Bytes → Bytes} {d : Option Bytes} {f : Facts} (h : readFile z md5 d = .ok f) :
    (∀ t ∈ f.v2, SoundTag t) ∧ ∀ t, f.v1 = some t → SoundV1 t := by
  cases d with
  | none => cases h
  | some d =>
    have h : (readStream z md5 d.length ⟨d, 0, IoBits.all, IoBits.none⟩).1 = .ok f := h
    exact stream_sound z md5 d.length _ _ _ (Prod.ext_iff.mpr ⟨h, rfl⟩)

end Scribbu.Std
