import Verif.Props.Id3v1

/-! Property C201: the order in which different fields of an ID3v1 tag are set makes no difference. -/

namespace Scribbu.Props
open Scribbu Scribbu.Spec

/-- The fields of an ID3v1 tag, each with a setter of its own. -/
inductive V1Field
  | album | artist | comment | genre | enhGenre | speed | start | stop | title | track | year
  deriving DecidableEq

/-- What a setter sets. -/
def setsField : V1Tag.Op → V1Field
  | .setAlbum _ => .album
  | .setArtist _ => .artist
  | .setComment _ => .comment
  | .setGenre _ => .genre
  | .setEnhGenre _ => .enhGenre
  | .setSpeed _ => .speed
  | .setStart _ => .start
  | .setEnd _ => .stop
  | .setTitle _ => .title
  | .setTrack _ => .track
  | .setYear _ => .year

/-- Two lists of calls that set each field to the same values in the same order. -/
def SameSettings (ops ops' : List V1Tag.Op) : Prop :=
  ∀ F, ops.filter (fun o => decide (setsField o = F)) = ops'.filter (fun o => decide (setsField o = F))

/-- **C201** as claimed. -/
def C201_claim : Prop := ∀ (t : V1Tag) (ops ops' : List V1Tag.Op), Constructed t → SameSettings ops ops' → t.applyAll ops = t.applyAll ops'

/-- **Finding** (C201) A title that is set before the speed is cut after 30 characters; if it is set after the speed, up to 90 are kept, since only setting the speed makes the
tag an enhanced one. -/
theorem C201_refuted : ¬ C201_claim := by
  intro h
  have := h (V1Tag.scratch false false) [.setTitle [0x41], .setSpeed 1] [.setSpeed 1, .setTitle [0x41]] (.inl ⟨false, false, rfl⟩)
    (by intro F; cases F <;> rfl)
  revert this
  decide +kernel

/-- **Finding** (C201) And in the first of these orders the tag cannot be written without reading beyond the end of its title (C13), while in the other order it can. -/
theorem C201_refuted_written : SameSettings [.setTitle [0x41], .setSpeed 1, .setTrack 7, .setArtist [], .setAlbum [], .setComment [], .setEnhGenre []]
      [.setSpeed 1, .setTitle [0x41], .setTrack 7, .setArtist [], .setAlbum [], .setComment [], .setEnhGenre []] ∧
    ((V1Tag.scratch false false).applyAll [.setTitle [0x41], .setSpeed 1, .setTrack 7, .setArtist [], .setAlbum [], .setComment [], .setEnhGenre []]).write =
      .ub .oobRead ∧
    ∃ w, ((V1Tag.scratch false false).applyAll [.setSpeed 1, .setTitle [0x41], .setTrack 7, .setArtist [], .setAlbum [], .setComment [], .setEnhGenre []]).write = .ok w := by
  refine ⟨by intro F; cases F <;> rfl, by decide +kernel, ?_⟩
  exact ⟨_, by rfl⟩

theorem filter_same (π : V1Tag → β) (F : V1Field) (E : Bool)
    (hset : ∀ t u o, t.extended = E → u.extended = E → setsField o = F → π t = π u → π (t.apply o) = π (u.apply o))
    (hkeep : ∀ t o, setsField o ≠ F → π (t.apply o) = π t) (ops : List V1Tag.Op)
    (hE : ∀ o ∈ ops, ∀ t : V1Tag, t.extended = E → (t.apply o).extended = E) (t u : V1Tag) (ht : t.extended = E) (hu : u.extended = E) (h : π t = π u) :
    π (t.applyAll ops) = π (u.applyAll (ops.filter fun o => decide (setsField o = F))) := by
  induction ops generalizing t u with
  | nil => exact h
  | cons o ops ih =>
    have hE' : ∀ x ∈ ops, ∀ t : V1Tag, t.extended = E → (t.apply x).extended = E := fun x hx => hE x (by simp [hx])
    by_cases ho : setsField o = F
    · rw [List.filter_cons_of_pos (by simpa using ho)]
      exact ih hE' _ _ (hE o (by simp) t ht) (hE o (by simp) u hu) (hset t u o ht hu ho h)
    · rw [List.filter_cons_of_neg (by simpa using ho)]
      exact ih hE' _ _ (hE o (by simp) t ht) hu ((hkeep t o ho).trans h)

theorem applyAll_extended (E : Bool) (ops : List V1Tag.Op) (hE : ∀ o ∈ ops, ∀ t : V1Tag, t.extended = E → (t.apply o).extended = E) (t : V1Tag)
    (ht : t.extended = E) : (t.applyAll ops).extended = E := by
  induction ops generalizing t with
  | nil => exact ht
  | cons o ops ih => exact ih (fun x hx => hE x (by simp [hx])) _ (hE o (by simp) t ht)

theorem same_fields (E : Bool) (ops ops' : List V1Tag.Op) (hs : SameSettings ops ops')
    (hE : ∀ o ∈ ops, ∀ t : V1Tag, t.extended = E → (t.apply o).extended = E)
    (hE' : ∀ o ∈ ops', ∀ t : V1Tag, t.extended = E → (t.apply o).extended = E) (t : V1Tag) (ht : t.extended = E) :
    t.applyAll ops = t.applyAll ops' := by
  have key : ∀ {β : Type} (π : V1Tag → β) (F : V1Field),
      (∀ t u o, t.extended = E → u.extended = E → setsField o = F → π t = π u → π (t.apply o) = π (u.apply o)) →
      (∀ t o, setsField o ≠ F → π (t.apply o) = π t) → π (t.applyAll ops) = π (t.applyAll ops') := by
    intro β π F h1 h2
    rw [filter_same π F E h1 h2 ops hE t t ht ht rfl, hs F, ← filter_same π F E h1 h2 ops' hE' t t ht ht rfl]
  have a0 := (applyAll_extended E ops hE t ht).trans (applyAll_extended E ops' hE' t ht).symm
  have a1 := key V1Tag.album .album (by intro t u o h1 h2 _ h4; cases o <;> first | exact h4 | rfl | simp only [V1Tag.apply, V1Tag.textSz, h1, h2])
    (by intro t o h; cases o <;> first | rfl | exact absurd rfl h)
  have a2 := key V1Tag.artist .artist (by intro t u o h1 h2 _ h4; cases o <;> first | exact h4 | rfl | simp only [V1Tag.apply, V1Tag.textSz, h1, h2])
    (by intro t o h; cases o <;> first | rfl | exact absurd rfl h)
  have a3 := key V1Tag.comment .comment (by intro t u o h1 h2 _ h4; cases o <;> first | exact h4 | rfl | simp only [V1Tag.apply, V1Tag.textSz, h1, h2])
    (by intro t o h; cases o <;> first | rfl | exact absurd rfl h)
  have a4 := key V1Tag.genre .genre (by intro t u o h1 h2 _ h4; cases o <;> first | exact h4 | rfl | simp only [V1Tag.apply, V1Tag.textSz, h1, h2])
    (by intro t o h; cases o <;> first | rfl | exact absurd rfl h)
  have a5 := key V1Tag.extGenre .enhGenre (by intro t u o h1 h2 _ h4; cases o <;> first | exact h4 | rfl | simp only [V1Tag.apply, V1Tag.textSz, h1, h2])
    (by intro t o h; cases o <;> first | rfl | exact absurd rfl h)
  have a6 := key V1Tag.speed .speed (by intro t u o h1 h2 _ h4; cases o <;> first | exact h4 | rfl | simp only [V1Tag.apply, V1Tag.textSz, h1, h2])
    (by intro t o h; cases o <;> first | rfl | exact absurd rfl h)
  have a7 := key V1Tag.startTime .start (by intro t u o h1 h2 _ h4; cases o <;> first | exact h4 | rfl | simp only [V1Tag.apply, V1Tag.textSz, h1, h2])
    (by intro t o h; cases o <;> first | rfl | exact absurd rfl h)
  have a8 := key V1Tag.endTime .stop (by intro t u o h1 h2 _ h4; cases o <;> first | exact h4 | rfl | simp only [V1Tag.apply, V1Tag.textSz, h1, h2])
    (by intro t o h; cases o <;> first | rfl | exact absurd rfl h)
  have a9 := key V1Tag.title .title (by intro t u o h1 h2 _ h4; cases o <;> first | exact h4 | rfl | simp only [V1Tag.apply, V1Tag.textSz, h1, h2])
    (by intro t o h; cases o <;> first | rfl | exact absurd rfl h)
  have a10 := key V1Tag.track .track (by intro t u o h1 h2 _ h4; cases o <;> first | exact h4 | rfl | simp only [V1Tag.apply, V1Tag.textSz, h1, h2])
    (by intro t o h; cases o <;> first | rfl | exact absurd rfl h)
  have a11 := key V1Tag.v11 .track (by intro t u o h1 h2 _ h4; cases o <;> first | exact h4 | rfl | simp only [V1Tag.apply, V1Tag.textSz, h1, h2])
    (by intro t o h; cases o <;> first | rfl | exact absurd rfl h)
  have a12 := key V1Tag.year .year (by intro t u o h1 h2 _ h4; cases o <;> first | exact h4 | rfl | simp only [V1Tag.apply, V1Tag.textSz, h1, h2])
    (by intro t o h; cases o <;> first | rfl | exact absurd rfl h)
  have ext : ∀ x y : V1Tag, x.extended = y.extended → x.album = y.album → x.artist = y.artist → x.comment = y.comment → x.genre = y.genre →
      x.extGenre = y.extGenre → x.speed = y.speed → x.startTime = y.startTime → x.endTime = y.endTime → x.title = y.title → x.track = y.track →
      x.v11 = y.v11 → x.year = y.year → x = y := by
    rintro ⟨⟩ ⟨⟩ h0 h1 h2 h3 h4 h5 h6 h7 h8 h9 h10 h11 h12
    simp only at h0 h1 h2 h3 h4 h5 h6 h7 h8 h9 h10 h11 h12
    subst h0 h1 h2 h3 h4 h5 h6 h7 h8 h9 h10 h11 h12
    rfl
  exact ext _ _ a0 a1 a2 a3 a4 a5 a6 a7 a8 a9 a10 a11 a12

/-- **C201** (partial) If the tag is an enhanced one to begin with, any setters may be called, any number of times: as long as each field is set to the same values in the same order,
the tag becomes the same. Missing: tags that become enhanced on the way (`C201_refuted`). -/
theorem C201_enhanced_partial (t : V1Tag) (ht : t.extended = true) (ops ops' : List V1Tag.Op) (hs : SameSettings ops ops') :
    t.applyAll ops = t.applyAll ops' := by
  have h : ∀ (o : V1Tag.Op) (t : V1Tag), t.extended = true → (t.apply o).extended = true := by
    intro o t ht
    cases o <;> simp_all [V1Tag.apply]
  exact same_fields true ops ops' hs (fun o _ => h o) (fun o _ => h o) t ht

/-- **C201** (partial) Likewise if none of the calls is one that is for enhanced tags only, whatever the tag. Missing: as above. -/
theorem C201_plain_partial (t : V1Tag) (ops ops' : List V1Tag.Op) (hs : SameSettings ops ops')
    (hn : ∀ o ∈ ops, setsField o ≠ .enhGenre ∧ setsField o ≠ .speed ∧ setsField o ≠ .start ∧ setsField o ≠ .stop) : t.applyAll ops = t.applyAll ops' := by
  have h : ∀ o : V1Tag.Op, setsField o ≠ .enhGenre ∧ setsField o ≠ .speed ∧ setsField o ≠ .start ∧ setsField o ≠ .stop →
      ∀ u : V1Tag, u.extended = t.extended → (u.apply o).extended = t.extended := by
    intro o ho u hu
    cases o <;> simp_all [V1Tag.apply, setsField]
  refine same_fields t.extended ops ops' hs (fun o hm => h o (hn o hm)) (fun o hm => h o (hn o ?_)) t rfl
  have : o ∈ ops'.filter fun x => decide (setsField x = setsField o) := by simp [hm]
  rw [← hs] at this
  exact (List.mem_filter.1 this).1

/-- Two orders of four calls, of which two set the title. -/
example : (V1Tag.scratch false false).applyAll [.setTitle [0x41], .setTrack 3, .setTitle [0x42, 0x43], .setYear [0x31]] =
    (V1Tag.scratch false false).applyAll [.setYear [0x31], .setTitle [0x41], .setTitle [0x42, 0x43], .setTrack 3] :=
  C201_plain_partial _ _ _ (by intro F; cases F <;> rfl) (by
    intro o ho
    simp only [List.mem_cons, List.not_mem_nil, or_false] at ho
    rcases ho with rfl | rfl | rfl | rfl <;> simp [setsField])

/-- An enhanced tag that is given a speed. -/
example : (V1Tag.scratch true true).applyAll [.setTitle [0x41], .setSpeed 1] = (V1Tag.scratch true true).applyAll [.setSpeed 1, .setTitle [0x41]] :=
  C201_enhanced_partial _ rfl _ _ (by intro F; cases F <;> rfl)

end Scribbu.Props
