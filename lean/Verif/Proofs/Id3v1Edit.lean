import Verif.Proofs.Id3v1Find

namespace Scribbu
open Spec
open V1Tag (cstrField)

theorem resize_eq_padded (b : Bytes) (n : Nat) : resize b n = padded n b := by
  unfold resize padded
  split
  · rw [List.take_append_of_le_length (by assumption)]
  · rw [List.take_append, List.take_of_length_le (by omega), List.take_replicate]
    congr 2; omega

theorem padded_length (b : Bytes) (n : Nat) : (padded n b).length = n := by
  simp [padded]

theorem padded_nil (n : Nat) : padded n [] = List.replicate n 0 := by simp [padded]

theorem padded_cons (n : Nat) (c : Byte) (b : Bytes) : padded (n + 1) (c :: b) = c :: padded n b := by
  have : b ++ List.replicate (n + 1) (0 : Byte) = b ++ List.replicate n 0 ++ [0] := by
    rw [List.append_assoc, ← List.replicate_succ']
  simp only [padded, List.cons_append, List.take_succ_cons, this]
  rw [List.take_append_of_le_length (l₂ := [0]) (by simp)]

theorem cstrField_nil (n : Nat) : cstrField n [] = List.replicate n 0 := by
  induction n with
  | zero => rfl
  | succ n ih => simp [cstrField, ih, List.replicate_succ]

theorem cstrField_eq (n : Nat) (b : Bytes) :
    cstrField n b = padded n (b.takeWhile (· ≠ 0)) := by
  induction n generalizing b with
  | zero => simp [cstrField, padded]
  | succ n ih =>
    cases b with
    | nil => simp [cstrField, cstrField_nil, padded_nil, List.replicate_succ]
    | cons c cs =>
      by_cases hc : c = 0
      · simp [cstrField, hc, cstrField_nil, padded_nil, List.replicate_succ]
      · simp [cstrField, hc, ih, padded_cons]

theorem cstrField_length (n : Nat) (b : Bytes) : (cstrField n b).length = n := by
  rw [cstrField_eq, padded_length]

/-- Setter that turns a tag into an enhanced one. -/
def V1Tag.Op.extends : V1Tag.Op → Bool
  | .setEnhGenre _ | .setSpeed _ | .setStart _ | .setEnd _ => true
  | _ => false

/-- What must hold for `write` to be defined. -/
structure V1Tag.WF (t : V1Tag) : Prop where
  title : t.title.length = t.textSz
  artist : t.artist.length = t.textSz
  album : t.album.length = t.textSz
  year : t.year.length = 4
  comment : (if t.v11 then 28 else 30) ≤ t.comment.length
  track : t.v11 = true → ∃ n, t.track = some n
  ext : t.extended = true → t.extGenre.length = 30 ∧ (∃ x, t.startTime = some x ∧ x.length = 6) ∧
    (∃ x, t.endTime = some x ∧ x.length = 6) ∧ ∃ x, t.speed = some x

theorem V1Tag.WF.apply {t : V1Tag} (h : t.WF) (o : V1Tag.Op)
    (ho : o.extends = true → t.extended = true) : (t.apply o).WF := by
  obtain ⟨h1, h2, h3, h4, h5, h6, h7⟩ := h
  have hsz : 30 ≤ t.textSz := by unfold V1Tag.textSz; split <;> omega
  have hr : ∀ b : Bytes, (resize b t.textSz).length = t.textSz := fun b => by
    rw [resize_eq_padded, padded_length]
  have hr30 : ∀ b : Bytes, (resize b 30).length = 30 := fun b => by
    rw [resize_eq_padded, padded_length]
  cases o with
  | setAlbum b => exact ⟨h1, h2, hr b, h4, h5, h6, h7⟩
  | setArtist b => exact ⟨h1, hr b, h3, h4, h5, h6, h7⟩
  | setTitle b => exact ⟨hr b, h2, h3, h4, h5, h6, h7⟩
  | setComment b =>
    refine ⟨h1, h2, h3, h4, ?_, h6, h7⟩
    show (if t.v11 then 28 else 30) ≤ (resize b t.textSz).length
    rw [hr]; split <;> omega
  | setGenre b => exact ⟨h1, h2, h3, h4, h5, h6, h7⟩
  | setEnhGenre b =>
    have he := ho rfl
    refine ⟨?_, ?_, ?_, h4, h5, h6, fun _ => ⟨hr30 b, (h7 he).2⟩⟩
      <;> simp_all [V1Tag.apply, V1Tag.textSz]
  | setSpeed b =>
    have he := ho rfl
    refine ⟨?_, ?_, ?_, h4, h5, h6, fun _ => ⟨(h7 he).1, (h7 he).2.1, (h7 he).2.2.1, b, rfl⟩⟩
      <;> simp_all [V1Tag.apply, V1Tag.textSz]
  | setStart b =>
    have he := ho rfl
    refine ⟨?_, ?_, ?_, h4, h5, h6, fun _ => ⟨(h7 he).1, ⟨_, rfl, cstrField_length 6 b⟩, (h7 he).2.2⟩⟩
      <;> simp_all [V1Tag.apply, V1Tag.textSz]
  | setEnd b =>
    have he := ho rfl
    refine ⟨?_, ?_, ?_, h4, h5, h6,
      fun _ => ⟨(h7 he).1, (h7 he).2.1, ⟨_, rfl, cstrField_length 6 b⟩, (h7 he).2.2.2⟩⟩
      <;> simp_all [V1Tag.apply, V1Tag.textSz]
  | setTrack b =>
    refine ⟨h1, h2, h3, h4, ?_, fun _ => ⟨b, rfl⟩, h7⟩
    show 28 ≤ t.comment.length
    split at h5 <;> omega
  | setYear b => exact ⟨h1, h2, h3, cstrField_length 4 b, h5, h6, h7⟩

theorem V1Tag.apply_extended (t : V1Tag) (o : V1Tag.Op) (h : o.extends = false) :
    (t.apply o).extended = t.extended := by
  cases o <;> simp_all [V1Tag.apply, V1Tag.Op.extends]

theorem V1Tag.apply_extended_mono (t : V1Tag) (o : V1Tag.Op) (h : t.extended = true) :
    (t.apply o).extended = true := by
  cases o <;> simp_all [V1Tag.apply]

theorem V1Tag.applyAll_cons (t : V1Tag) (o : V1Tag.Op) (os : List V1Tag.Op) :
    t.applyAll (o :: os) = (t.apply o).applyAll os := rfl

theorem V1Tag.applyAll_append (t : V1Tag) (a b : List V1Tag.Op) :
    t.applyAll (a ++ b) = (t.applyAll a).applyAll b := by
  simp [V1Tag.applyAll]

theorem V1Tag.WF.applyAll {t : V1Tag} (h : t.WF) (ops : List V1Tag.Op)
    (ho : t.extended = true ∨ ∀ o ∈ ops, o.extends = false) :
    (t.applyAll ops).WF ∧ (t.applyAll ops).extended = t.extended := by
  induction ops generalizing t with
  | nil => exact ⟨h, rfl⟩
  | cons o os ih =>
    rw [V1Tag.applyAll_cons]
    rcases ho with he | hne
    · have := ih (t := t.apply o) (h.apply o fun _ => he) (.inl (t.apply_extended_mono o he))
      exact ⟨this.1, by rw [this.2, he, t.apply_extended_mono o he]⟩
    · have h1 := hne o (by simp)
      have := ih (t := t.apply o) (h.apply o (by simp [h1])) (.inr fun x hx => hne x (by simp [hx]))
      exact ⟨this.1, by rw [this.2, t.apply_extended o h1]⟩

/-- Fields of the 128-byte part a well-formed tag writes. -/
def V1Tag.std (t : V1Tag) (n : Byte) : StdFields where
  title := t.title.take 30
  artist := t.artist.take 30
  album := t.album.take 30
  year := t.year
  comment := if t.v11 then t.comment.take 28 ++ [0, n] else t.comment.take 30
  genre := t.genre

def V1Tag.ext' (t : V1Tag) (sp : Byte) (st en : Bytes) : ExtFields where
  title := t.title.drop 30
  artist := t.artist.drop 30
  album := t.album.drop 30
  speed := sp
  genre := t.extGenre
  start := st
  stop := en

theorem V1Tag.WF.std_ok {t : V1Tag} (h : t.WF) (n : Byte) : (t.std n).Ok := by
  obtain ⟨h1, h2, h3, h4, h5, h6, h7⟩ := h
  have hsz : 30 ≤ t.textSz := by unfold V1Tag.textSz; split <;> omega
  refine ⟨?_, ?_, ?_, h4, ?_⟩
  · simp [V1Tag.std, h1]; omega
  · simp [V1Tag.std, h2]; omega
  · simp [V1Tag.std, h3]; omega
  · simp only [V1Tag.std]
    split at h5 <;> simp_all

theorem V1Tag.WF.ext_ok {t : V1Tag} (h : t.WF) (he : t.extended = true) (sp : Byte) (st en : Bytes)
    (hs : st.length = 6) (hn : en.length = 6) : (t.ext' sp st en).Ok := by
  obtain ⟨h1, h2, h3, h4, h5, h6, h7⟩ := h
  simp only [V1Tag.textSz, he, if_true] at h1 h2 h3
  exact ⟨by simp [V1Tag.ext', h1], by simp [V1Tag.ext', h2], by simp [V1Tag.ext', h3],
    (h7 he).1, hs, hn⟩

theorem initd_some (a : α) : initd (some a) = .ok a := rfl

/-- The bytes a well-formed tag writes. -/
theorem V1Tag.WF.write {t : V1Tag} (h : t.WF) (n : Byte) (hn : t.v11 = true → t.track = some n) :
    (t.extended = false → t.write = .ok (t.std n).image) ∧
    (t.extended = true → ∃ sp st en, t.speed = some sp ∧ t.startTime = some st ∧
      t.endTime = some en ∧ st.length = 6 ∧ en.length = 6 ∧
      t.write = .ok ((t.ext' sp st en).image ++ (t.std n).image)) := by
  have hstd := h.std_ok n
  obtain ⟨h1, h2, h3, h4, h5, h6, h7⟩ := h
  have hsz : 30 ≤ t.textSz := by unfold V1Tag.textSz; split <;> omega
  have s1 : slice t.title 0 30 = .ok (t.title.take 30) := slice_take (by omega)
  have s2 : slice t.artist 0 30 = .ok (t.artist.take 30) := slice_take (by omega)
  have s3 : slice t.album 0 30 = .ok (t.album.take 30) := slice_take (by omega)
  have sc : (if t.v11 = true then
      (slice t.comment 0 28).bind fun c => (initd t.track).bind fun n => .ok (c ++ [0x00] ++ [n])
      else slice t.comment 0 30) = .ok (t.std n).comment := by
    simp only [V1Tag.std]
    by_cases hv : t.v11 = true
    · simp only [hv, if_true] at h5 ⊢
      rw [slice_take h5, hn hv]
      simp [initd]
    · simp only [hv] at h5 ⊢
      rw [if_neg (by simp), if_neg (by simp)]
      exact slice_take (by simpa using h5)
  constructor
  · intro he
    unfold V1Tag.write
    simp only [he, s1, s2, s3, sc, Res.ok_bind]
    simp [V1Tag.std, StdFields.image, TAG]
  · intro he
    obtain ⟨g, ⟨st, hst, hst6⟩, ⟨en, hen, hen6⟩, sp, hsp⟩ := h7 he
    refine ⟨sp, st, en, hsp, hst, hen, hst6, hen6, ?_⟩
    simp only [V1Tag.textSz, he, if_true] at h1 h2 h3
    have d1 : slice t.title 30 60 = .ok (t.title.drop 30) := by
      simp [slice, h1]; exact List.take_of_length_le (by simp [h1])
    have d2 : slice t.artist 30 60 = .ok (t.artist.drop 30) := by
      simp [slice, h2]; exact List.take_of_length_le (by simp [h2])
    have d3 : slice t.album 30 60 = .ok (t.album.drop 30) := by
      simp [slice, h3]; exact List.take_of_length_le (by simp [h3])
    unfold V1Tag.write
    simp only [he, if_true, d1, d2, d3, s1, s2, s3, sc, hsp, hst, hen, initd_some, slice_all g.symm,
      Res.ok_bind]
    simp [V1Tag.std, V1Tag.ext', StdFields.image, ExtFields.image, TAG, TAGP]

/-- Inversion of the stream constructor. -/
theorem ofStream_inv {d : Bytes} {p : Nat} {m : IoBits} {t : V1Tag} {s' : IStream}
    (h : V1Tag.ofStream ⟨d, p, m, IoBits.none⟩ = (.ok t, s')) :
    ∃ body img, d = body ++ img ∧ body.length = p ∧
      ((img.length = 128 ∧ V1Tag.initStandard img = .ok t) ∨
       (img.length = 355 ∧ V1Tag.initExtended img = .ok t)) := by
  have hfail : ∀ s : IStream, V1Tag.onFailure p m s ≠ (.ok t, s') := by
    intro s hs
    unfold V1Tag.onFailure at hs
    simp only [SM.bind_apply] at hs
    repeat' split at hs
    all_goals simp_all
  by_cases hc : p + 128 = d.length ∨ p + 355 = d.length
  · have hd : d = d.take p ++ d.drop p := (List.take_append_drop _ _).symm
    have hp : (d.take p).length = p := by rw [List.length_take]; omega
    refine ⟨d.take p, d.drop p, hd, hp, ?_⟩
    rcases hc with hc | hc
    · left
      have hl : (d.drop p).length = 128 := by rw [List.length_drop]; omega
      refine ⟨hl, ?_⟩
      have := ofStream_128 (d.take p) (d.drop p) m hl
      rw [← hd, hp, h] at this
      revert this
      cases V1Tag.initStandard (d.drop p) with
      | ok t' => simp; intro h _; exact h.symm
      | throw e =>
        cases e <;> simp
        exact fun h => hfail _ h.symm
      | ub u => simp
    · right
      have hl : (d.drop p).length = 355 := by rw [List.length_drop]; omega
      refine ⟨hl, ?_⟩
      have := ofStream_355 (d.take p) (d.drop p) m hl
      rw [← hd, hp, h] at this
      revert this
      cases V1Tag.initExtended (d.drop p) with
      | ok t' => simp; intro h _; exact h.symm
      | throw e =>
        cases e <;> simp
        exact fun h => hfail _ h.symm
      | ub u => simp
  · exfalso
    unfold V1Tag.ofStream at h
    have c1 : ¬ ((d.length : Int) - (p : Int) = 128) := by omega
    have c2 : ¬ ((d.length : Int) - (p : Int) = 355) := by omega
    simp [SM.attempt, c1, c2] at h

theorem initStandard_magic {p : Bytes} {t : V1Tag} (hp : p.length = 128)
    (h : V1Tag.initStandard p = .ok t) : p.take 3 = TAG := by
  unfold V1Tag.initStandard at h
  rw [slice_take (by omega), Res.ok_bind] at h
  by_cases hm : p.take 3 = TAG
  · exact hm
  · rw [if_pos (by exact hm)] at h; simp at h

theorem initExtended_magic {p : Bytes} {t : V1Tag} (hp : p.length = 355)
    (h : V1Tag.initExtended p = .ok t) : p.take 4 = TAGP ∧ (p.drop 227).take 3 = TAG := by
  have h4 : p.take 4 = TAGP := by
    unfold V1Tag.initExtended at h
    rw [slice_take (by omega), Res.ok_bind] at h
    by_cases hm : p.take 4 = TAGP
    · exact hm
    · rw [if_pos (by exact hm)] at h; simp at h
  refine ⟨h4, ?_⟩
  by_cases hm : (p.drop 227).take 3 = TAG
  · exact hm
  · rw [initExtended_bad hp h4 hm] at h; simp at h

/-- Tags that come from a stream are well formed. -/
theorem wf_of_stream {d : Bytes} {p : Nat} {m : IoBits} {t : V1Tag} {s' : IStream}
    (h : V1Tag.ofStream ⟨d, p, m, IoBits.none⟩ = (.ok t, s')) : t.WF := by
  obtain ⟨body, img, rfl, rfl, ⟨hl, hi⟩ | ⟨hl, hi⟩⟩ := ofStream_inv h
  · obtain ⟨f, hf, rfl⟩ := std_image_of_bytes hl (initStandard_magic hl hi)
    obtain ⟨a, b⟩ := initStandard_image f hf
    obtain ⟨h1, h2, h3, h4, h5⟩ := hf
    by_cases hc : Is11 f.comment
    · obtain ⟨n, hn, hc', hr⟩ := a hc
      rw [hr] at hi
      clear hc'
      cases hi
      constructor <;> simp [stdTag, V1Tag.textSz, *]
    · rw [b hc] at hi
      cases hi
      constructor <;> simp [stdTag, V1Tag.textSz, *]
  · obtain ⟨hm1, hm2⟩ := initExtended_magic hl hi
    obtain ⟨e, he, hep⟩ := ext_image_of_bytes (p := img.take 227) (by simp [hl])
      (by rw [List.take_take]; exact hm1)
    obtain ⟨f, hf, hfp⟩ := std_image_of_bytes (p := img.drop 227) (by simp [hl]) hm2
    have hpp : img = e.image ++ f.image := by rw [hep, hfp, List.take_append_drop]
    subst hpp
    obtain ⟨a, b⟩ := initExtended_image e f he hf
    obtain ⟨h1, h2, h3, h4, h5⟩ := hf
    obtain ⟨k1, k2, k3, k4, k5, k6⟩ := he
    by_cases hc : Is11 f.comment
    · obtain ⟨n, hn, hc', hr⟩ := a hc
      rw [hr] at hi
      clear hc'
      cases hi
      constructor <;> simp [extTag, V1Tag.textSz, *]
    · rw [b hc] at hi
      cases hi
      constructor <;> simp [extTag, V1Tag.textSz, *]

end Scribbu

namespace Scribbu
open Spec

/-- Give indeterminate scalars some value. -/
def V1Tag.fill (t : V1Tag) : V1Tag :=
  { t with speed := some (t.speed.getD 0), track := some (t.track.getD 0) }

theorem V1Tag.fill_apply (t : V1Tag) (o : V1Tag.Op) : t.fill.apply o = (t.apply o).fill := by
  cases o <;> rfl

theorem V1Tag.fill_applyAll (t : V1Tag) (ops : List V1Tag.Op) :
    t.fill.applyAll ops = (t.applyAll ops).fill := by
  induction ops generalizing t with
  | nil => rfl
  | cons o os ih => rw [applyAll_cons, fill_apply, ih, applyAll_cons]

theorem V1Tag.fill_eq {t : V1Tag} (h1 : ∃ x, t.speed = some x) (h2 : ∃ x, t.track = some x) :
    t.fill = t := by
  obtain ⟨x, hx⟩ := h1
  obtain ⟨y, hy⟩ := h2
  cases t
  simp_all [V1Tag.fill]

theorem V1Tag.scratch_wf (v e : Bool) : (V1Tag.scratch v e).fill.WF := by
  cases v <;> cases e <;> constructor <;> simp [V1Tag.scratch, V1Tag.fill, V1Tag.textSz]

theorem V1Tag.track_keep (t : V1Tag) (ops : List V1Tag.Op) (h : ∃ x, t.track = some x) :
    ∃ x, (t.applyAll ops).track = some x := by
  induction ops generalizing t with
  | nil => exact h
  | cons o os ih =>
    rw [applyAll_cons]
    apply ih
    obtain ⟨x, hx⟩ := h
    cases o <;> simp [V1Tag.apply, hx]

theorem V1Tag.speed_keep (t : V1Tag) (ops : List V1Tag.Op) (h : ∃ x, t.speed = some x) :
    ∃ x, (t.applyAll ops).speed = some x := by
  induction ops generalizing t with
  | nil => exact h
  | cons o os ih =>
    rw [applyAll_cons]
    apply ih
    obtain ⟨x, hx⟩ := h
    cases o <;> simp [V1Tag.apply, hx]

theorem V1Tag.track_set (t : V1Tag) (ops : List V1Tag.Op) (n : Byte) (h : V1Tag.Op.setTrack n ∈ ops) :
    ∃ x, (t.applyAll ops).track = some x := by
  obtain ⟨a, b, rfl⟩ := List.append_of_mem h
  rw [applyAll_append, applyAll_cons]
  exact track_keep _ _ ⟨n, rfl⟩

theorem V1Tag.speed_set (t : V1Tag) (ops : List V1Tag.Op) (n : Byte) (h : V1Tag.Op.setSpeed n ∈ ops) :
    ∃ x, (t.applyAll ops).speed = some x := by
  obtain ⟨a, b, rfl⟩ := List.append_of_mem h
  rw [applyAll_append, applyAll_cons]
  exact speed_keep _ _ ⟨n, rfl⟩

theorem V1Tag.v11_keep (t : V1Tag) (ops : List V1Tag.Op) (h : (t.applyAll ops).v11 = true) :
    t.v11 = true ∨ ∃ n, V1Tag.Op.setTrack n ∈ ops := by
  induction ops generalizing t with
  | nil => exact .inl h
  | cons o os ih =>
    rw [applyAll_cons] at h
    rcases ih _ h with h | ⟨n, hn⟩
    · cases o with
      | setTrack n => exact .inr ⟨n, by simp⟩
      | _ => exact .inl h
    · exact .inr ⟨n, by simp [hn]⟩

/-- A from-scratch tag, edited, with the indeterminate members set by then. -/
theorem V1Tag.scratch_edited_wf (v e : Bool) (ops : List V1Tag.Op)
    (he : e = true → ∃ s, V1Tag.Op.setSpeed s ∈ ops)
    (hv : v = true → ∃ n, V1Tag.Op.setTrack n ∈ ops)
    (hx : e = true ∨ ∀ o ∈ ops, o.extends = false) :
    ((V1Tag.scratch v e).applyAll ops).WF ∧ ((V1Tag.scratch v e).applyAll ops).extended = e := by
  have hw := (V1Tag.scratch_wf v e).applyAll ops (by simpa [V1Tag.fill, V1Tag.scratch] using hx)
  rw [V1Tag.fill_applyAll] at hw
  generalize ht : (V1Tag.scratch v e).applyAll ops = t at hw ⊢
  obtain ⟨⟨h1, h2, h3, h4, h5, h6, h7⟩, h8⟩ := hw
  have h8' : t.extended = e := by simpa [V1Tag.fill, V1Tag.scratch] using h8
  refine ⟨⟨h1, h2, h3, h4, h5, ?_, ?_⟩, h8'⟩
  · intro hv11
    rcases V1Tag.v11_keep _ _ (ht ▸ hv11) with hq | ⟨n, hn⟩
    · obtain ⟨n, hn⟩ := hv (by simpa [V1Tag.scratch] using hq)
      exact ht ▸ V1Tag.track_set _ _ n hn
    · exact ht ▸ V1Tag.track_set _ _ n hn
  · intro hte
    obtain ⟨a, b, c, _⟩ := h7 hte
    obtain ⟨s, hs⟩ := he (by rw [← h8']; exact hte)
    exact ⟨a, b, c, ht ▸ V1Tag.speed_set _ _ s hs⟩

/-- Writing and reading back a well-formed tag. -/
theorem V1Tag.WF.readback {t : V1Tag} (h : t.WF) (m : IoBits)
    (h0 : t.v11 = true → t.track ≠ some 0)
    (h1 : t.v11 = false → ¬ Is11 (t.comment.take 30)) :
    ∃ w t', t.write = .ok w ∧ w.length = t.size ∧
      V1Tag.ofStream ⟨w, 0, m, IoBits.none⟩ = (.ok t', ⟨w, w.length, m, IoBits.none⟩) ∧
      t'.title = t.title ∧ t'.artist = t.artist ∧ t'.album = t.album ∧ t'.year = t.year ∧
      t'.genre = t.genre ∧ t'.extended = t.extended ∧ t'.v11 = t.v11 ∧
      t'.comment = t.comment.take (if t.v11 then 28 else 30) ∧
      (t.v11 = true → t'.track = t.track) ∧
      (t.extended = true → t'.speed = t.speed ∧ t'.extGenre = t.extGenre ∧
        t'.startTime = t.startTime ∧ t'.endTime = t.endTime) := by
  obtain ⟨n, hn⟩ : ∃ n, t.v11 = true → t.track = some n := by
    by_cases hv : t.v11 = true
    · obtain ⟨n, hn⟩ := h.track hv
      exact ⟨n, fun _ => hn⟩
    · exact ⟨0, fun h => absurd h hv⟩
  obtain ⟨w1, w2⟩ := h.write n hn
  have hok := h.std_ok n
  have hcl : (t.comment.take 28).length = 28 := by
    have := h.comment
    rw [List.length_take]
    split at this <;> omega
  have hcase : (t.v11 = true ∧ (t.std n).comment = t.comment.take 28 ++ [0, n] ∧ n ≠ 0) ∨
      (t.v11 = false ∧ (t.std n).comment = t.comment.take 30) := by
    cases hv : t.v11 with
    | true =>
      left
      refine ⟨rfl, by simp [V1Tag.std, hv], ?_⟩
      rintro rfl
      exact h0 hv (hn hv)
    | false => right; exact ⟨rfl, by simp [V1Tag.std, hv]⟩
  have htake : ∀ a : Bytes, a.length = 28 → ∀ k, (a ++ [0, k]).take 28 = a := by
    intro a ha k; rw [← ha]; simp
  by_cases he : t.extended = true
  · obtain ⟨sp, st, en, hsp, hst, hen, hst6, hen6, hw⟩ := w2 he
    have hext := h.ext_ok he sp st en hst6 hen6
    obtain ⟨ra, rb⟩ := initExtended_image _ _ hext hok
    have hlen : ((t.ext' sp st en).image ++ (t.std n).image).length = 355 := by
      rw [List.length_append, image_length hok, ext_image_length hext]
    have hos := ofStream_355 [] _ m hlen
    simp only [List.nil_append, List.length_nil, Nat.zero_add] at hos
    rcases hcase with ⟨hv, hc, hnz⟩ | ⟨hv, hc⟩
    · obtain ⟨k, hk, hck, hr⟩ := ra (hc ▸ ⟨_, n, rfl, hnz⟩)
      rw [hr] at hos
      rw [hc, htake _ hcl] at hck
      have : n = k := by simpa using hck
      subst this
      refine ⟨_, _, hw, by simp [hlen, V1Tag.size, he], by rw [hlen]; exact hos, ?_⟩
      simp only [extTag, he, hv, V1Tag.std, V1Tag.ext', if_true, hsp, hst, hen, hn hv,
        List.take_append_drop, htake _ hcl]
      simp
    · have hr := rb (hc ▸ h1 hv)
      rw [hr] at hos
      refine ⟨_, _, hw, by simp [hlen, V1Tag.size, he], by rw [hlen]; exact hos, ?_⟩
      simp only [extTag, he, hv, V1Tag.std, V1Tag.ext', hsp, hst, hen, List.take_append_drop]
      simp
  · have he' : t.extended = false := by simpa using he
    have hw := w1 he'
    obtain ⟨ra, rb⟩ := initStandard_image _ hok
    have hlen : (t.std n).image.length = 128 := image_length hok
    have hos := ofStream_128 [] _ m hlen
    simp only [List.nil_append, List.length_nil, Nat.zero_add] at hos
    have ht30 : ∀ x : Bytes, x.length = t.textSz → x.take 30 = x := by
      intro x hx
      apply List.take_of_length_le
      rw [hx]; simp [V1Tag.textSz, he']
    rcases hcase with ⟨hv, hc, hnz⟩ | ⟨hv, hc⟩
    · obtain ⟨k, hk, hck, hr⟩ := ra (hc ▸ ⟨_, n, rfl, hnz⟩)
      rw [hr] at hos
      rw [hc, htake _ hcl] at hck
      have : n = k := by simpa using hck
      subst this
      refine ⟨_, _, hw, by simp [hlen, V1Tag.size, he'], by rw [hlen]; exact hos, ?_⟩
      simp only [stdTag, he', hv, V1Tag.std, if_true, hn hv, htake _ hcl,
        ht30 _ h.title, ht30 _ h.artist, ht30 _ h.album]
      simp
    · have hr := rb (hc ▸ h1 hv)
      rw [hr] at hos
      refine ⟨_, _, hw, by simp [hlen, V1Tag.size, he'], by rw [hlen]; exact hos, ?_⟩
      simp only [stdTag, he', hv, V1Tag.std,
        ht30 _ h.title, ht30 _ h.artist, ht30 _ h.album]
      simp

/-- A well-formed tag writes `size()` bytes. -/
theorem V1Tag.WF.write_size {t : V1Tag} (h : t.WF) :
    ∃ w, t.write = .ok w ∧ w.length = t.size := by
  obtain ⟨n, hn⟩ : ∃ n, t.v11 = true → t.track = some n := by
    by_cases hv : t.v11 = true
    · obtain ⟨n, hn⟩ := h.track hv
      exact ⟨n, fun _ => hn⟩
    · exact ⟨0, fun h => absurd h hv⟩
  obtain ⟨w1, w2⟩ := h.write n hn
  have hok := h.std_ok n
  by_cases he : t.extended = true
  · obtain ⟨sp, st, en, hsp, hst, hen, hst6, hen6, hw⟩ := w2 he
    exact ⟨_, hw, by
      rw [List.length_append, image_length hok, ext_image_length (h.ext_ok he sp st en hst6 hen6)]
      simp [V1Tag.size, he]⟩
  · exact ⟨_, w1 (by simpa using he), by rw [image_length hok]; simp [V1Tag.size, he]⟩

/-! ### the field a setter determines is kept by every other setter -/

theorem V1Tag.applyAll_keep {β : Type} (get : V1Tag → β) (touches : V1Tag.Op → Bool)
    (hk : ∀ t o, touches o = false → get (V1Tag.apply t o) = get t)
    (t : V1Tag) (ops : List V1Tag.Op) (h : ∀ o ∈ ops, touches o = false) :
    get (t.applyAll ops) = get t := by
  induction ops generalizing t with
  | nil => rfl
  | cons o os ih =>
    rw [applyAll_cons, ih _ (fun x hx => h x (by simp [hx])), hk _ _ (h o (by simp))]

end Scribbu
