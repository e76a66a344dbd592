import Verif.Model.Id3v1
import Verif.Spec.Id3v1
import Verif.Proofs.Stream

namespace Scribbu
open Spec

/-! ### slices -/

theorem slice_mid {p pre x post : Bytes} {off n : Nat} (hp : p = pre ++ x ++ post)
    (ho : off = pre.length) (hn : n = x.length) : slice p off n = .ok x := by
  subst hp ho hn
  simp [slice]

theorem rd_mid {p pre post : Bytes} {x : Byte} {off : Nat} (hp : p = pre ++ x :: post)
    (ho : off = pre.length) : rd p off = .ok x := by
  subst hp ho
  simp [rd]

theorem slice_all {p : Bytes} {n : Nat} (hn : n = p.length) : slice p 0 n = .ok p := by
  subst hn; simp [slice]

theorem slice_take {p : Bytes} {n : Nat} (hn : n ≤ p.length) : slice p 0 n = .ok (p.take n) := by
  simp [slice, hn]

theorem list30 {c : Bytes} (h : c.length = 30) : ∃ a x y, c = a ++ [x, y] ∧ a.length = 28 := by
  refine ⟨c.take 28, c[28], c[29], ?_, by simp; omega⟩
  apply List.ext_getElem
  · simp [h]
  · intro i h1 h2
    by_cases hi : i < 28
    · simp [h, hi]
    · have : i = 28 ∨ i = 29 := by omega
      rcases this with rfl | rfl <;> simp [h]

theorem is11_iff {a : Bytes} {x y : Byte} : Is11 (a ++ [x, y]) ↔ x = 0 ∧ y ≠ 0 := by
  constructor
  · rintro ⟨c, n, h, hn⟩
    have h2 := List.append_inj' h (by simp)
    simp at h2
    obtain ⟨_, rfl, rfl⟩ := h2
    exact ⟨rfl, hn⟩
  · rintro ⟨rfl, h⟩
    exact ⟨a, y, rfl, h⟩

theorem readComment_spec {p pre c post : Bytes} {off : Nat} (hp : p = pre ++ c ++ post)
    (ho : off = pre.length) (hc : c.length = 30) :
    (Is11 c → ∃ n, n ≠ 0 ∧ c = c.take 28 ++ [0, n] ∧
      V1Tag.readComment p off = .ok (true, c.take 28, some n)) ∧
    (¬ Is11 c → V1Tag.readComment p off = .ok (false, c, none)) := by
  obtain ⟨a, x, y, rfl, ha⟩ := list30 hc
  have ht : (a ++ [x, y]).take 28 = a := by rw [← ha]; simp
  rw [is11_iff, ht]
  have h28 : rd p (off + 28) = .ok x :=
    rd_mid (pre := pre ++ a) (post := y :: post) (by simp [hp]) (by simp [ho, ha])
  have h29 : rd p (off + 29) = .ok y :=
    rd_mid (pre := pre ++ a ++ [x]) (post := post) (by simp [hp]) (by simp [ho, ha])
  have hs28 : slice p off 28 = .ok a :=
    slice_mid (pre := pre) (post := [x, y] ++ post) (by simp [hp]) ho ha.symm
  have hs30 : slice p off 30 = .ok (a ++ [x, y]) :=
    slice_mid (pre := pre) (post := post) (by simp [hp]) ho (by simp [ha])
  unfold V1Tag.readComment
  simp only [h28, h29, hs28, hs30, Res.ok_bind]
  constructor
  · rintro ⟨rfl, hy⟩
    exact ⟨y, hy, rfl, by simp [hy]⟩
  · intro hn
    by_cases hx : x = 0
    · have hy : y = 0 := by
        by_cases hy : y = 0
        · exact hy
        · exact absurd ⟨hx, hy⟩ hn
      simp [hx, hy]
    · simp [hx]

theorem image_length {f : StdFields} (h : f.Ok) : f.image.length = 128 := by
  obtain ⟨h1, h2, h3, h4, h5⟩ := h
  simp [StdFields.image, TAG, h1, h2, h3, h4, h5]

theorem ext_image_length {f : ExtFields} (h : f.Ok) : f.image.length = 227 := by
  obtain ⟨h1, h2, h3, h4, h5, h6⟩ := h
  simp [ExtFields.image, TAGP, h1, h2, h3, h4, h5, h6]

/-- The tag object that corresponds to a standard image. -/
def stdTag (f : StdFields) (v11 : Bool) (c : Bytes) (n : Option Byte) : V1Tag :=
  { extended := false, v11 := v11, album := f.album, artist := f.artist, comment := c,
    genre := f.genre, extGenre := [], startTime := none, endTime := none, speed := none,
    title := f.title, track := n, year := f.year }

def extTag (e : ExtFields) (f : StdFields) (v11 : Bool) (c : Bytes) (n : Option Byte) : V1Tag :=
  { extended := true, v11 := v11, album := f.album ++ e.album, artist := f.artist ++ e.artist,
    comment := c, genre := f.genre, extGenre := e.genre, startTime := some e.start,
    endTime := some e.stop, speed := some e.speed, title := f.title ++ e.title, track := n,
    year := f.year }

theorem initStandard_image (f : StdFields) (h : f.Ok) :
    (Is11 f.comment → ∃ n, n ≠ 0 ∧ f.comment = f.comment.take 28 ++ [0, n] ∧
      V1Tag.initStandard f.image = .ok (stdTag f true (f.comment.take 28) (some n))) ∧
    (¬ Is11 f.comment → V1Tag.initStandard f.image = .ok (stdTag f false f.comment none)) := by
  obtain ⟨h1, h2, h3, h4, h5⟩ := h
  obtain ⟨ti, ar, al, y, c, g⟩ := f
  simp only at h1 h2 h3 h4 h5
  have e0 : slice (StdFields.image ⟨ti, ar, al, y, c, g⟩) 0 3 = .ok TAG :=
    slice_mid (pre := []) (post := ti ++ ar ++ al ++ y ++ c ++ [g])
      (by simp [StdFields.image]) rfl rfl
  have e1 : slice (StdFields.image ⟨ti, ar, al, y, c, g⟩) 3 30 = .ok ti :=
    slice_mid (pre := TAG) (post := ar ++ al ++ y ++ c ++ [g])
      (by simp [StdFields.image]) (by simp [TAG]) (by simp [*])
  have e2 : slice (StdFields.image ⟨ti, ar, al, y, c, g⟩) 33 30 = .ok ar :=
    slice_mid (pre := TAG ++ ti) (post := al ++ y ++ c ++ [g])
      (by simp [StdFields.image]) (by simp [TAG, *]) (by simp [*])
  have e3 : slice (StdFields.image ⟨ti, ar, al, y, c, g⟩) 63 30 = .ok al :=
    slice_mid (pre := TAG ++ ti ++ ar) (post := y ++ c ++ [g])
      (by simp [StdFields.image]) (by simp [TAG, *]) (by simp [*])
  have e4 : slice (StdFields.image ⟨ti, ar, al, y, c, g⟩) 93 4 = .ok y :=
    slice_mid (pre := TAG ++ ti ++ ar ++ al) (post := c ++ [g])
      (by simp [StdFields.image]) (by simp [TAG, *]) (by simp [*])
  have e6 : rd (StdFields.image ⟨ti, ar, al, y, c, g⟩) 127 = .ok g :=
    rd_mid (pre := TAG ++ ti ++ ar ++ al ++ y ++ c) (post := [])
      (by simp [StdFields.image]) (by simp [TAG, *])
  obtain ⟨c1, c2⟩ := readComment_spec (p := StdFields.image ⟨ti, ar, al, y, c, g⟩)
    (pre := TAG ++ ti ++ ar ++ al ++ y) (c := c) (post := [g]) (off := 97)
    (by simp [StdFields.image]) (by simp [TAG, *]) h5
  unfold V1Tag.initStandard
  simp only [e0, e1, e2, e3, e4, e6, Res.ok_bind, TAG, ne_eq, not_true_eq_false, if_false]
  constructor
  · intro h
    obtain ⟨n, hn, hc, hr⟩ := c1 h
    refine ⟨n, hn, hc, ?_⟩
    simp [hr, stdTag]
  · intro h
    simp [c2 h, stdTag]

theorem write_stdTag (f : StdFields) (h : f.Ok) (v11 : Bool) (c : Bytes) (n : Option Byte)
    (hc : (v11 = true ∧ ∃ k, n = some k ∧ f.comment = c ++ [0, k]) ∨ (v11 = false ∧ c = f.comment)) :
    (stdTag f v11 c n).write = .ok f.image := by
  obtain ⟨h1, h2, h3, h4, h5⟩ := h
  unfold V1Tag.write stdTag
  simp only [slice_all h1.symm, slice_all h2.symm, slice_all h3.symm, Res.ok_bind]
  rcases hc with ⟨rfl, k, rfl, hc⟩ | ⟨rfl, rfl⟩
  · have hl : c.length = 28 := by rw [hc] at h5; simp at h5; omega
    simp [slice_all hl.symm, initd, StdFields.image, hc, TAG]
  · simp [slice_all h5.symm, StdFields.image, TAG]

theorem initExtended_image (e : ExtFields) (f : StdFields) (he : e.Ok) (h : f.Ok) :
    (Is11 f.comment → ∃ n, n ≠ 0 ∧ f.comment = f.comment.take 28 ++ [0, n] ∧
      V1Tag.initExtended (e.image ++ f.image) =
        .ok (extTag e f true (f.comment.take 28) (some n))) ∧
    (¬ Is11 f.comment →
      V1Tag.initExtended (e.image ++ f.image) = .ok (extTag e f false f.comment none)) := by
  obtain ⟨h1, h2, h3, h4, h5⟩ := h
  obtain ⟨k1, k2, k3, k4, k5, k6⟩ := he
  obtain ⟨ti, ar, al, y, c, g⟩ := f
  obtain ⟨ti1, ar1, al1, sp, eg, st, en⟩ := e
  simp only at h1 h2 h3 h4 h5 k1 k2 k3 k4 k5 k6
  generalize hp : ExtFields.image ⟨ti1, ar1, al1, sp, eg, st, en⟩ ++
    StdFields.image ⟨ti, ar, al, y, c, g⟩ = p
  have hp' : p = TAGP ++ ti1 ++ ar1 ++ al1 ++ [sp] ++ eg ++ st ++ en ++ TAG ++ ti ++ ar ++ al ++ y
      ++ c ++ [g] := by
    rw [← hp]; simp [ExtFields.image, StdFields.image]
  have e0 : slice p 0 4 = .ok TAGP :=
    slice_mid (pre := []) (x := TAGP) (post := ti1 ++ ar1 ++ al1 ++ [sp] ++ eg ++ st ++ en ++ TAG
      ++ ti ++ ar ++ al ++ y ++ c ++ [g]) (by simp [hp']) rfl rfl
  have e1 : slice p 4 60 = .ok ti1 :=
    slice_mid (pre := TAGP) (post := ar1 ++ al1 ++ [sp] ++ eg ++ st ++ en ++ TAG
      ++ ti ++ ar ++ al ++ y ++ c ++ [g]) (by simp [hp']) (by simp [TAGP]) (by simp [*])
  have e2 : slice p 64 60 = .ok ar1 :=
    slice_mid (pre := TAGP ++ ti1) (post := al1 ++ [sp] ++ eg ++ st ++ en ++ TAG
      ++ ti ++ ar ++ al ++ y ++ c ++ [g]) (by simp [hp']) (by simp [TAGP, *]) (by simp [*])
  have e3 : slice p 124 60 = .ok al1 :=
    slice_mid (pre := TAGP ++ ti1 ++ ar1) (post := [sp] ++ eg ++ st ++ en ++ TAG
      ++ ti ++ ar ++ al ++ y ++ c ++ [g]) (by simp [hp']) (by simp [TAGP, *]) (by simp [*])
  have e4 : rd p 184 = .ok sp :=
    rd_mid (pre := TAGP ++ ti1 ++ ar1 ++ al1) (post := eg ++ st ++ en ++ TAG
      ++ ti ++ ar ++ al ++ y ++ c ++ [g]) (by simp [hp']) (by simp [TAGP, *])
  have e5 : slice p 185 30 = .ok eg :=
    slice_mid (pre := TAGP ++ ti1 ++ ar1 ++ al1 ++ [sp]) (post := st ++ en ++ TAG
      ++ ti ++ ar ++ al ++ y ++ c ++ [g]) (by simp [hp']) (by simp [TAGP, *]) (by simp [*])
  have e6 : slice p 215 6 = .ok st :=
    slice_mid (pre := TAGP ++ ti1 ++ ar1 ++ al1 ++ [sp] ++ eg) (post := en ++ TAG
      ++ ti ++ ar ++ al ++ y ++ c ++ [g]) (by simp [hp']) (by simp [TAGP, *]) (by simp [*])
  have e7 : slice p 221 6 = .ok en :=
    slice_mid (pre := TAGP ++ ti1 ++ ar1 ++ al1 ++ [sp] ++ eg ++ st) (post := TAG
      ++ ti ++ ar ++ al ++ y ++ c ++ [g]) (by simp [hp']) (by simp [TAGP, *]) (by simp [*])
  have e8 : slice p 227 3 = .ok TAG :=
    slice_mid (pre := TAGP ++ ti1 ++ ar1 ++ al1 ++ [sp] ++ eg ++ st ++ en) (post :=
      ti ++ ar ++ al ++ y ++ c ++ [g]) (by simp [hp']) (by simp [TAGP, *]) (by simp [TAG])
  have e9 : slice p 230 30 = .ok ti :=
    slice_mid (pre := TAGP ++ ti1 ++ ar1 ++ al1 ++ [sp] ++ eg ++ st ++ en ++ TAG) (post :=
      ar ++ al ++ y ++ c ++ [g]) (by simp [hp']) (by simp [TAGP, TAG, *]) (by simp [*])
  have e10 : slice p 260 30 = .ok ar :=
    slice_mid (pre := TAGP ++ ti1 ++ ar1 ++ al1 ++ [sp] ++ eg ++ st ++ en ++ TAG ++ ti) (post :=
      al ++ y ++ c ++ [g]) (by simp [hp']) (by simp [TAGP, TAG, *]) (by simp [*])
  have e11 : slice p 290 30 = .ok al :=
    slice_mid (pre := TAGP ++ ti1 ++ ar1 ++ al1 ++ [sp] ++ eg ++ st ++ en ++ TAG ++ ti ++ ar)
      (post := y ++ c ++ [g]) (by simp [hp']) (by simp [TAGP, TAG, *]) (by simp [*])
  have e12 : slice p 320 4 = .ok y :=
    slice_mid (pre := TAGP ++ ti1 ++ ar1 ++ al1 ++ [sp] ++ eg ++ st ++ en ++ TAG ++ ti ++ ar ++ al)
      (post := c ++ [g]) (by simp [hp']) (by simp [TAGP, TAG, *]) (by simp [*])
  have e13 : rd p 354 = .ok g :=
    rd_mid (pre := TAGP ++ ti1 ++ ar1 ++ al1 ++ [sp] ++ eg ++ st ++ en ++ TAG ++ ti ++ ar ++ al
      ++ y ++ c) (post := []) (by simp [hp']) (by simp [TAGP, TAG, *])
  obtain ⟨c1, c2⟩ := readComment_spec (p := p)
    (pre := TAGP ++ ti1 ++ ar1 ++ al1 ++ [sp] ++ eg ++ st ++ en ++ TAG ++ ti ++ ar ++ al ++ y)
    (c := c) (post := [g]) (off := 324) (by simp [hp']) (by simp [TAGP, TAG, *]) h5
  unfold V1Tag.initExtended
  simp only [e0, e1, e2, e3, e4, e5, e6, e7, e8, e9, e10, e11, e12, e13, Res.ok_bind, TAGP, TAG,
    ne_eq, not_true_eq_false, if_false, Nat.reduceAdd]
  constructor
  · intro h
    obtain ⟨n, hn, hc, hr⟩ := c1 h
    refine ⟨n, hn, hc, ?_⟩
    simp [hr, extTag]
  · intro h
    simp [c2 h, extTag]

theorem write_extTag (e : ExtFields) (f : StdFields) (he : e.Ok) (h : f.Ok) (v11 : Bool) (c : Bytes)
    (n : Option Byte)
    (hc : (v11 = true ∧ ∃ k, n = some k ∧ f.comment = c ++ [0, k]) ∨ (v11 = false ∧ c = f.comment)) :
    (extTag e f v11 c n).write = .ok (e.image ++ f.image) := by
  obtain ⟨h1, h2, h3, h4, h5⟩ := h
  obtain ⟨k1, k2, k3, k4, k5, k6⟩ := he
  unfold V1Tag.write extTag
  have a1 : slice (f.title ++ e.title) 30 60 = .ok e.title :=
    slice_mid (pre := f.title) (post := []) (by simp) h1.symm k1.symm
  have a2 : slice (f.artist ++ e.artist) 30 60 = .ok e.artist :=
    slice_mid (pre := f.artist) (post := []) (by simp) h2.symm k2.symm
  have a3 : slice (f.album ++ e.album) 30 60 = .ok e.album :=
    slice_mid (pre := f.album) (post := []) (by simp) h3.symm k3.symm
  have b1 : slice (f.title ++ e.title) 0 30 = .ok f.title :=
    slice_mid (pre := []) (post := e.title) (by simp) rfl h1.symm
  have b2 : slice (f.artist ++ e.artist) 0 30 = .ok f.artist :=
    slice_mid (pre := []) (post := e.artist) (by simp) rfl h2.symm
  have b3 : slice (f.album ++ e.album) 0 30 = .ok f.album :=
    slice_mid (pre := []) (post := e.album) (by simp) rfl h3.symm
  simp only [a1, a2, a3, b1, b2, b3, slice_all k4.symm, initd, Res.ok_bind, if_true]
  rcases hc with ⟨rfl, k, rfl, hc⟩ | ⟨rfl, rfl⟩
  · have hl : c.length = 28 := by rw [hc] at h5; simp at h5; omega
    simp [slice_all hl.symm, StdFields.image, ExtFields.image, hc, TAG, TAGP]
  · simp [slice_all h5.symm, StdFields.image, ExtFields.image, TAG, TAGP]

/-! ### stream constructors -/

theorem ofStream_128 (body img : Bytes) (m : IoBits) (hi : img.length = 128) :
    V1Tag.ofStream ⟨body ++ img, body.length, m, IoBits.none⟩ =
      match V1Tag.initStandard img with
      | .ok t => (.ok t, ⟨body ++ img, body.length + 128, m, IoBits.none⟩)
      | .throw .streamFailure =>
        V1Tag.onFailure body.length m ⟨body ++ img, body.length + 128, IoBits.all, IoBits.none⟩
      | .throw e => (.throw e, ⟨body ++ img, body.length + 128, IoBits.all, IoBits.none⟩)
      | .ub u => (.ub u, ⟨body ++ img, body.length + 128, IoBits.all, IoBits.none⟩) := by
  have hl : ((body ++ img).length : Int) - (body.length : Int) = 128 := by simp [hi]; omega
  have hr := SM.read_full 128 (body ++ img) body.length IoBits.all (by simp [hi])
  have ht : ((body ++ img).drop body.length).take 128 = img := by
    rw [List.drop_left]; exact List.take_of_length_le (by omega)
  rw [ht] at hr
  unfold V1Tag.ofStream
  simp only [SM.bind_apply, SM.exceptions_apply, SM.setExceptions_good, SM.tellg_good, SM.attempt,
    SM.seekEnd_zero, SM.seekBeg_nat, hl, if_true, hr, SM.lift_apply]
  cases hs : V1Tag.initStandard img with
  | ok t => simp
  | throw e => cases e <;> simp
  | ub u => simp

theorem ofStream_355 (body img : Bytes) (m : IoBits) (hi : img.length = 355) :
    V1Tag.ofStream ⟨body ++ img, body.length, m, IoBits.none⟩ =
      match V1Tag.initExtended img with
      | .ok t => (.ok t, ⟨body ++ img, body.length + 355, m, IoBits.none⟩)
      | .throw .streamFailure =>
        V1Tag.onFailure body.length m ⟨body ++ img, body.length + 355, IoBits.all, IoBits.none⟩
      | .throw e => (.throw e, ⟨body ++ img, body.length + 355, IoBits.all, IoBits.none⟩)
      | .ub u => (.ub u, ⟨body ++ img, body.length + 355, IoBits.all, IoBits.none⟩) := by
  have hl : ((body ++ img).length : Int) - (body.length : Int) = 355 := by simp [hi]; omega
  have hr := SM.read_full 355 (body ++ img) body.length IoBits.all (by simp [hi])
  have ht : ((body ++ img).drop body.length).take 355 = img := by
    rw [List.drop_left]; exact List.take_of_length_le (by omega)
  rw [ht] at hr
  unfold V1Tag.ofStream
  simp only [SM.bind_apply, SM.exceptions_apply, SM.setExceptions_good, SM.tellg_good, SM.attempt,
    SM.seekEnd_zero, SM.seekBeg_nat, hl, if_true]
  rw [if_neg (by decide)]
  simp only [SM.bind_apply, hr, SM.lift_apply]
  cases hs : V1Tag.initExtended img with
  | ok t => simp
  | throw e => cases e <;> simp
  | ub u => simp

end Scribbu
