import Verif.Props.Tag24

/-! Property C56: whether a tag needs unsynchronisation. -/

namespace Scribbu.Props
open Scribbu Scribbu.Spec

/-- The library's idea of a false sync: FF followed by EA to FF. -/
def LibSync (b : Bytes) : Prop := HasPair 0xff (fun c => 0xea ≤ c.toNat) b

theorem countSyncs_zero (b : Bytes) : countSyncs true b = 0 ↔ ¬ LibSync b := by
  unfold LibSync
  induction b with
  | nil => simp [countSyncs, hasPair_nil]
  | cons x r ih =>
    cases r with
    | nil => simp [countSyncs, hasPair_single]
    | cons y r =>
      rw [hasPair_cons, not_or, ← ih]
      simp only [countSyncs, if_true]
      have := isFalseSync_iff x y
      by_cases h : isFalseSync x y = true
      · rw [if_pos h]
        constructor
        · intro h'; omega
        · intro h'; exact absurd (this.1 h) h'.1
      · rw [if_neg h]
        constructor
        · intro h'; exact ⟨fun k => h (this.2 k), by omega⟩
        · intro h'; omega

/-- Every false sync that the library sees is one. -/
theorem libSync_falseSync {b : Bytes} (h : LibSync b) : HasFalseSync b := by
  obtain ⟨p, c, q, h1, h2⟩ := h
  exact ⟨p, c, q, h1, by omega⟩

/-! ### ID3v2.2 -/

/-- **C56** as claimed, for ID3v2.2. -/
def C56_v22_claim : Prop := ∀ (fs fs' : List Frame22) (w : Frame22 → Bytes) (r : Bool),
  (∀ f ∈ fs, f.dirty = true ∧ f.body.serialize = .ok (w f) ∧ (w f).length < 2 ^ 24) →
  Tag22.needsUnsync fs = .ok (r, fs') → (r = true ↔ ∃ f ∈ fs, HasFalseSync (frame22 f.id (w f)))

/-- FF E0 is not seen. -/
theorem C56_v22_refuted : ¬ C56_v22_claim := by
  intro h
  have := (h [.new (mkId3 'U' 'F' 'I') (.unknown [0xff, 0xe0])] _ (fun _ => [0xff, 0xe0]) false (by
    intro f hf
    simp only [List.mem_singleton] at hf
    subst hf
    exact ⟨rfl, rfl, by decide⟩) rfl).2 ⟨_, List.mem_singleton.2 rfl, [0x55, 0x46, 0x49, 0, 0, 2], 0xe0, [], rfl, by decide⟩
  cases this

/-- **C56** (partial: ID3v2.2) Of newly made frames the answer is right but for FF followed by E0 to E9. -/
theorem C56_v22_partial (fs : List Frame22) (w : Frame22 → Bytes)
    (h : ∀ f ∈ fs, f.dirty = true ∧ f.body.serialize = .ok (w f) ∧ (w f).length < 2 ^ 24) :
    ∃ r fs', Tag22.needsUnsync fs = .ok (r, fs') ∧ (r = true ↔ ∃ f ∈ fs, LibSync (frame22 f.id (w f))) := by
  induction fs with
  | nil => exact ⟨false, [], rfl, by simp⟩
  | cons f fs ih =>
    obtain ⟨h1, h2, h3⟩ := h f (by simp)
    obtain ⟨r, fs', k1, k2⟩ := ih fun g hg => h g (by simp [hg])
    have hc := countSyncs_zero (frame22 f.id (w f))
    unfold Tag22.needsUnsync Frame22.needsUnsync
    rw [fresh_dirty f _ h1 h2 h3]
    simp only [Res.ok_bind]
    by_cases hn : countSyncs true (frame22 f.id (w f)) = 0
    · rw [if_neg (by simpa using hn), k1]
      refine ⟨r, _, rfl, ?_⟩
      rw [k2]
      simp [hc.1 hn]
    · rw [if_pos hn]
      refine ⟨true, _, rfl, ?_⟩
      have : LibSync (frame22 f.id (w f)) := Classical.byContradiction fun h => hn (hc.2 h)
      simp [this]

example : (Tag22.needsUnsync [.new (mkId3 'T' 'T' '2') (.text 0 [0x41]), .new (mkId3 'U' 'F' 'I') (.unknown [0xff, 0xfb])]).bind
    (fun r => .ok r.1) = .ok true := by decide

/-! ### ID3v2.3 -/

/-- **C56** as claimed, for ID3v2.3, where a tag must not end in FF either. -/
def C56_v23_claim : Prop := ∀ (z : Zlib) (t t' : Tag23) (w : Frame4 → Bytes) (r : Bool),
  StorableFrames z .v3 t.frames w → (∀ f ∈ t.frames, f.dirty = true) → t.ext = none → t.needsUnsync z = .ok (r, t') →
  (r = true ↔ (∃ f ∈ t.frames, HasFalseSync (frameOf .v3 f (w f))) ∨
    (t.padding = 0 ∧ ∃ f, t.frames.getLast? = some f ∧ (w f).getLast? = some 0xff))

theorem C56_v23_refuted : ¬ C56_v23_claim := by
  intro h
  have := (h zId ⟨none, false, none, 5, [.new (mkId4 'W' 'O' 'A' 'R') (.unknown [0xff, 0xe0]) false false false false none none false none]⟩
    _ (fun _ => [0xff, 0xe0]) false (by
      intro f hf
      simp only [List.mem_singleton] at hf
      subst hf
      exact ⟨.inl rfl, by unfold PlainFrame; decide, trivial, rfl, by decide, by decide, by decide⟩) (by simp [Frame4.new]) rfl rfl).2
    (.inl ⟨_, List.mem_singleton.2 rfl, [0x57, 0x4f, 0x41, 0x52, 0, 0, 0, 2, 0, 0], 0xe0, [], rfl, by decide⟩)
  cases this

theorem framesNeed_spec (z : Zlib) (noPad : Bool) (fs : List Frame4) (w : Frame4 → Bytes)
    (h : ∀ f ∈ fs, Writable .v3 f (w f)) (hd : ∀ f ∈ fs, f.dirty = true) :
    ∃ r fs', Tag23.framesNeedUnsync z noPad fs = .ok (r, fs') ∧
      (r = true ↔ (∃ f ∈ fs, LibSync (frameOf .v3 f (w f))) ∨
        (noPad = true ∧ ∃ f, fs.getLast? = some f ∧ (frameOf .v3 f (w f)).getLast? = some 0xff)) := by
  induction fs with
  | nil => exact ⟨false, [], rfl, by simp⟩
  | cons f fs ih =>
    obtain ⟨h1, h2, h3, h4⟩ := h f (by simp)
    obtain ⟨r, fs', k1, k2⟩ := ih (fun g hg => h g (by simp [hg])) fun g hg => hd g (by simp [hg])
    have hc := countSyncs_zero (frameOf .v3 f (w f))
    unfold Tag23.framesNeedUnsync Frame4.needsUnsync
    rw [fresh4_dirty z .v3 f _ (w f) (hd f (by simp)) h1 h4 h2 h3, ← frameOf_eq]
    simp only [Res.ok_bind]
    have hlast : (∃ g, (f :: fs).getLast? = some g ∧ (frameOf .v3 g (w g)).getLast? = some 0xff) ↔
        (fs = [] ∧ (frameOf .v3 f (w f)).getLast? = some 0xff) ∨ ∃ g, fs.getLast? = some g ∧ (frameOf .v3 g (w g)).getLast? = some 0xff := by
      cases fs with
      | nil => simp
      | cons g gs => rw [List.getLast?_cons_cons]; simp
    rw [hlast]
    have hlast' : ((noPad && fs.isEmpty) = true ∧ (frameOf .v3 f (w f)).getLast? = some 0xff) ↔
        (noPad = true ∧ fs = [] ∧ (frameOf .v3 f (w f)).getLast? = some 0xff) := by
      simp [and_assoc]
    by_cases hl : (noPad && fs.isEmpty) = true ∧ (frameOf .v3 f (w f)).getLast? = some 0xff
    · rw [if_pos hl, if_pos (by omega)]
      obtain ⟨a1, a2, a3⟩ := hlast'.1 hl
      exact ⟨true, _, rfl, by simp [a1, a2, a3]⟩
    · rw [if_neg hl, Nat.add_zero]
      rw [hlast'] at hl
      by_cases hn : countSyncs true (frameOf .v3 f (w f)) = 0
      · rw [if_neg (by simpa using hn), k1]
        refine ⟨r, _, rfl, ?_⟩
        rw [k2]
        have := hc.1 hn
        constructor
        · rintro (⟨g, hg, h⟩ | ⟨h, h'⟩)
          · exact .inl ⟨g, by simp [hg], h⟩
          · exact .inr ⟨h, .inr h'⟩
        · rintro (⟨g, hg, a⟩ | ⟨a, a' | a'⟩)
          · rcases List.mem_cons.1 hg with rfl | hg
            · exact absurd a this
            · exact .inl ⟨g, hg, a⟩
          · exact absurd ⟨a, a'⟩ hl
          · exact .inr ⟨a, a'⟩
      · rw [if_pos hn]
        have : LibSync (frameOf .v3 f (w f)) := Classical.byContradiction fun h => hn (hc.2 h)
        exact ⟨true, _, rfl, by simp [this]⟩

theorem frameOf_last (ver : Ver) (f : Frame4) (w : Bytes) (h : w ≠ []) : (frameOf ver f w).getLast? = w.getLast? := by
  unfold frameOf frame4
  rw [List.getLast?_append]
  cases hl : w.getLast? with
  | none => exact absurd (List.getLast?_eq_none_iff.1 hl) h
  | some x => rfl

/-- **C56** (partial: ID3v2.3) Of a tag without extended header, with newly made frames, the answer is right but for FF followed
by E0 to E9. -/
theorem C56_v23_partial (z : Zlib) (t : Tag23) (w : Frame4 → Bytes) (h : StorableFrames z .v3 t.frames w)
    (hd : ∀ f ∈ t.frames, f.dirty = true) (hx : t.ext = none) :
    ∃ r t', t.needsUnsync z = .ok (r, t') ∧
      (r = true ↔ (∃ f ∈ t.frames, LibSync (frameOf .v3 f (w f))) ∨
        (t.padding = 0 ∧ ∃ f, t.frames.getLast? = some f ∧ (w f).getLast? = some 0xff)) := by
  obtain ⟨r, fs', k1, k2⟩ := framesNeed_spec z (t.padding == 0) t.frames w (storable_writable h) hd
  unfold Tag23.needsUnsync Tag23.updateCrc
  rw [hx]
  simp only [Res.ok_bind, hx]
  rw [if_neg (by simp), k1]
  refine ⟨r, _, rfl, ?_⟩
  rw [k2, beq_iff_eq]
  have : (∃ f, t.frames.getLast? = some f ∧ (frameOf .v3 f (w f)).getLast? = some 0xff) ↔
      ∃ f, t.frames.getLast? = some f ∧ (w f).getLast? = some 0xff := by
    constructor
    · rintro ⟨f, h1, h2⟩
      rw [frameOf_last _ _ _ (h f (List.mem_of_getLast? h1)).2.2.2.2.2.1] at h2
      exact ⟨f, h1, h2⟩
    · rintro ⟨f, h1, h2⟩
      rw [← frameOf_last .v3 f _ (h f (List.mem_of_getLast? h1)).2.2.2.2.2.1] at h2
      exact ⟨f, h1, h2⟩
  rw [this]

/-- With a checksum a tag that ends in FF is overlooked. -/
theorem C56_v23_refuted_crc :
    ((⟨none, false, some (.new 0 (some 0)), 0, [.new (mkId4 'W' 'O' 'A' 'R') (.unknown [0xff]) false false false false none none false none]⟩ : Tag23).needsUnsync
      zId).bind (fun r => .ok r.1) = .ok false ∧
    ((⟨none, false, none, 0, [.new (mkId4 'W' 'O' 'A' 'R') (.unknown [0xff]) false false false false none none false none]⟩ : Tag23).needsUnsync
      zId).bind (fun r => .ok r.1) = .ok true := by decide

example : StorableFrames zId .v3 tag3.frames (fun f => match f.body with | .text a t => a :: t | .unknown b => b | _ => []) :=
  (tag3_storable true).frames

/-! ### ID3v2.4 -/

/-- **C56** as claimed, for ID3v2.4. -/
def C56_v24_claim : Prop := ∀ (z : Zlib) (fs fs' : List Frame4) (w : Frame4 → Bytes) (r : Bool),
  StorableFrames z .v4 fs w → (∀ f ∈ fs, f.dirty = true) → Tag24.needsUnsync z fs = .ok (r, fs') →
  (r = true ↔ ∃ f ∈ fs, HasFalseSync (frameOf .v4 f (w f)))

/-- A tag without any frames is said to need it. -/
theorem C56_v24_refuted : ¬ C56_v24_claim := by
  intro h
  obtain ⟨f, hf, -⟩ := (h zId [] [] (fun _ => []) true (by intro f hf; cases hf) (by intro f hf; cases hf) rfl).1 rfl
  cases hf

/-- **C56** (partial: ID3v2.4) The answer tells whether every frame contains a false sync (again, but for FF followed by E0 to E9). -/
theorem C56_v24_partial (z : Zlib) (fs : List Frame4) (w : Frame4 → Bytes) (h : StorableFrames z .v4 fs w)
    (hd : ∀ f ∈ fs, f.dirty = true) :
    ∃ r fs', Tag24.needsUnsync z fs = .ok (r, fs') ∧ (r = true ↔ ∀ f ∈ fs, LibSync (frameOf .v4 f (w f))) := by
  replace h := storable_writable h
  induction fs with
  | nil => exact ⟨true, [], rfl, by simp⟩
  | cons f fs ih =>
    obtain ⟨h1, h2, h3, h4⟩ := h f (by simp)
    obtain ⟨r, fs', k1, k2⟩ := ih (fun g hg => hd g (by simp [hg])) (fun g hg => h g (by simp [hg]))
    have hc := countSyncs_zero (frameOf .v4 f (w f))
    unfold Tag24.needsUnsync Frame4.needsUnsync
    rw [fresh4_dirty z .v4 f _ (w f) (hd f (by simp)) h1 h4 h2 h3, ← frameOf_eq]
    simp only [Res.ok_bind]
    rw [if_neg (show ¬ (false = true ∧ (frameOf .v4 f (w f)).getLast? = some 0xff) by simp), Nat.add_zero]
    by_cases hn : countSyncs true (frameOf .v4 f (w f)) = 0
    · rw [if_pos hn]
      exact ⟨false, _, rfl, by simp [hc.1 hn]⟩
    · rw [if_neg hn, k1]
      have : LibSync (frameOf .v4 f (w f)) := Classical.byContradiction fun h => hn (hc.2 h)
      exact ⟨r, _, rfl, by rw [k2]; simp [this]⟩

example : (Tag24.needsUnsync zId [tit2, .new (mkId4 'W' 'O' 'A' 'R') (.unknown [0xff, 0xfb]) false false false false none none false none]).bind
    (fun r => .ok r.1) = .ok false := by decide

end Scribbu.Props
