import Verif.Spec.History
import Verif.Props.Tagset
import Verif.Props.Process
import Verif.Props.Id3v1

/-! Lemmas for C191. -/

namespace Scribbu.History
open Scribbu Spec Process Path Backup Replace FM Scribbu.Props

theorem noHeader_audio {a v1 : Bytes} (h : ¬ [0x49, 0x44, 0x33] <+: a) (hv : v1 = [] ∨ V1Bytes v1) : NoHeader (a ++ v1) := by
  rintro v r f n ⟨s0, s1, s2, s3, rest, he, -⟩
  have hv' : ∀ x y, v1 = x :: y → x = 0x54 := by
    rintro x y rfl
    rcases hv with hv | ⟨t, hv, -⟩ | ⟨z, t, hv, -⟩
    · cases hv
    · simp only [TAG, List.cons_append] at hv; injection hv
    · simp only [TAGP, List.cons_append] at hv; injection hv
  rcases a with _ | ⟨b0, _ | ⟨b1, _ | ⟨b2, a⟩⟩⟩
  · have := hv' _ _ he; revert this; decide
  · simp only [List.cons_append, List.nil_append] at he; injection he with e1 e2
    have := hv' _ _ e2; revert this; decide
  · simp only [List.cons_append, List.nil_append] at he; injection he with e1 e2; injection e2 with e2 e3
    have := hv' _ _ e3; revert this; decide
  · simp only [List.cons_append, List.nil_append] at he; injection he with e1 e2; injection e2 with e2 e3; injection e3 with e3 e4
    subst e1 e2 e3
    exact h ⟨a, rfl⟩

theorem last_part {p q a x y : Bytes} (h : p ++ a = x ++ q ++ y) (hl : q.length + y.length ≤ a.length) : ∃ x', a = x' ++ q ++ y := by
  rw [List.append_assoc] at h
  rcases List.append_eq_append_iff.1 h with ⟨c, h1, h2⟩ | ⟨c, h1, h2⟩
  · exact ⟨c, by rw [h2, List.append_assoc]⟩
  · have := congrArg List.length h2
    simp only [List.length_append] at this
    have hc : c = [] := List.length_eq_zero_iff.1 (by omega)
    subst hc
    exact ⟨[], by simpa using h2.symm⟩

theorem same_end {u w x y q : Bytes} (h : u ++ w = x ++ q ++ y) (hw : w.length ≤ y.length) : ∃ y', u = x ++ q ++ y' ∧ y = y' ++ w := by
  rcases List.append_eq_append_iff.1 h.symm with ⟨c, h1, h2⟩ | ⟨c, h1, h2⟩
  · exact ⟨c, h1, h2⟩
  · have := congrArg List.length h2
    simp only [List.length_append] at this
    have hc : c = [] := List.length_eq_zero_iff.1 (by omega)
    subst hc
    exact ⟨[], by simpa using h1.symm, by simpa using h2.symm⟩

theorem remove_v1 {p a v1 : Bytes} (ha : Distinct a) (hv : v1 = [] ∨ V1Bytes v1) : maybeRemoveId3v1 (p ++ (a ++ v1)) = .ok (p ++ a) := by
  obtain ⟨r1, -, r3, r4⟩ := C12_remove (p ++ (a ++ v1))
  have hl := ha.long
  rcases hv with rfl | ⟨t, rfl, ht⟩ | ⟨x, t, rfl, hx, ht⟩
  · rw [List.append_nil] at *
    refine r4 ?_ ?_
    · rintro ⟨n, b, y, h1, -, h3⟩
      obtain ⟨x', h4⟩ := last_part h1 (by simp [TAGP, h3]; omega)
      exact ha.ext ⟨_, x', y, h4, rfl, h3⟩
    · rintro ⟨n, b, y, h1, -, h3⟩
      obtain ⟨x', h4⟩ := last_part h1 (by simp [TAG, h3]; omega)
      exact ha.std ⟨_, x', y, h4, rfl, h3⟩
  · have := r3 (p ++ a).length ?_ ⟨p ++ a, t, by simp, rfl, ht⟩
    · rw [this, ← List.append_assoc, List.take_left]
    · rintro ⟨n, b, y, h1, -, h3⟩
      rw [← List.append_assoc] at h1
      obtain ⟨y', h4, h5⟩ := same_end h1 (by simp [TAG, ht, h3])
      have h6 : y'.length = 223 := by
        have := congrArg List.length h5
        simp [TAG, ht, h3] at this
        omega
      obtain ⟨x', h7⟩ := last_part h4 (by simp [TAGP, h6]; omega)
      exact ha.half ⟨x', y', h7, h6⟩
  · have := r1 (p ++ a).length ⟨p ++ a, x ++ (TAG ++ t), by simp, rfl, by simp [TAG, hx, ht]⟩
      ⟨_, p ++ a ++ TAGP ++ x, t, by simp, rfl, ht⟩
    rw [this, ← List.append_assoc, List.take_left]

theorem wf_bytes {t : V1Tag} (h : t.WF) : ∃ w, t.write = .ok w ∧ V1Bytes w := by
  obtain ⟨n, hn⟩ : ∃ n, t.v11 = true → t.track = some n := by
    by_cases hv : t.v11 = true
    · obtain ⟨n, hn⟩ := h.track hv
      exact ⟨n, fun _ => hn⟩
    · exact ⟨0, fun h => absurd h hv⟩
  obtain ⟨w1, w2⟩ := h.write n hn
  have hok := h.std_ok n
  have split : ∀ f : StdFields, f.Ok → ∃ t, f.image = TAG ++ t ∧ t.length = 125 := by
    intro f hf
    have := image_length hf
    refine ⟨_, by simp only [StdFields.image, List.append_assoc]; rfl, ?_⟩
    simp [StdFields.image, TAG] at this ⊢
    omega
  obtain ⟨y, hy, hy'⟩ := split _ hok
  by_cases he : t.extended = true
  · obtain ⟨sp, st, en, hsp, hst, hen, hst6, hen6, hw⟩ := w2 he
    have hx := ext_image_length (h.ext_ok he sp st en hst6 hen6)
    obtain ⟨x, hx1⟩ : ∃ x, (t.ext' sp st en).image = TAGP ++ x := ⟨_, by simp only [ExtFields.image, List.append_assoc]; rfl⟩
    refine ⟨_, hw, .inr ⟨x, y, by rw [hy, hx1], ?_, hy'⟩⟩
    rw [hx1] at hx
    simp only [TAGP, List.length_append, List.length_cons, List.length_nil] at hx
    omega
  · exact ⟨_, w1 (by simpa using he), .inl ⟨y, hy, hy'⟩⟩

/-- What a run is to write can be written: the tags are ID3v2.2 tags, or ID3v2.3 tags (with extended headers that need no unsynchronisation), with values in all members and sizes that can be
represented; the ID3v1 tag has all of its members; and unless a backup is asked for the padding of the first tag is not so small that C32 fails. -/
def CanSave (z : Zlib) (mk2 mk3 mk4 : Id3v2Info → SM AnyTag) (P : Processor AnyTag) (d : Bytes) : Prop :=
  (∀ n, Tagset.tagsetSize (some d) = .ok n → n < 2 ^ 28) ∧
  ∀ v2 v1 dirty v2' v1', readTagset mk2 mk3 mk4 (some d) = .ok (v2, v1) → edit P v2 v1 = .ok (dirty, v2', v1') →
    (∀ t ∈ v2', CanWrite z t) ∧
    (∀ n pad ts', Tagset.sizes (anyI z) (if P.adjustUnsync then .asNeeded else .never) v2' = .ok (n, pad, ts') → n < 2 ^ 28) ∧
    (P.createBackups = false → ∀ t p, v2'.head? = some t → (anyI z).padding t = .ok p → v2'.length ≤ p + 1) ∧
    ∀ t, v1' = some t → t.WF

theorem news_complete {z : Zlib} {au : ApplyUnsync} {ts : List AnyTag} {news : List (Nat × Bytes)}
    (h : Pairs (fun t x => Serialised (anyI z) au t x.1 x.2 ∧ CompleteTag x.2) ts news) : ∀ t ∈ news.map (·.2), CompleteTag t := by
  induction h with
  | nil => simp
  | cons h1 _ ih =>
    intro t ht
    simp only [List.map_cons, List.mem_cons] at ht
    rcases ht with rfl | ht
    · exact h1.2
    · exact ih t ht

theorem pairs_length {α β : Type} {R : α → β → Prop} {as : List α} {bs : List β} (h : Pairs R as bs) : bs.length = as.length := by
  induction h with
  | nil => rfl
  | cons _ _ ih => rw [List.length_cons, List.length_cons, ih]

/-- Whatever way is taken, new tags are put in front of the rest. -/
theorem maybe_carries {z : Zlib} {olds : List Bytes} {rest : Bytes} {au : ApplyUnsync} {ts : List AnyTag} (ho : ∀ t ∈ olds, CompleteTag t) (hr : NoHeader rest)
    (hne : rest ≠ []) (hw : ∀ t ∈ ts, CanWrite z t) (hb : olds.flatten.length < 2 ^ 28)
    (hs : ∀ n pad ts', Tagset.sizes (anyI z) au ts = .ok (n, pad, ts') → n < 2 ^ 28)
    (hp : ∀ t p, ts.head? = some t → (anyI z).padding t = .ok p → ts.length ≤ p + 1) {how : Tagset.How} {b : Bytes} {ts' : List AnyTag}
    (h : Tagset.maybeEmplace (anyI z) (some (olds.flatten ++ rest)) au .reducePaddingEvenly ts = .ok (how, b, ts')) :
    how ≠ .created ∧ ∃ news : List Bytes, b = news.flatten ++ rest ∧ (∀ t ∈ news, CompleteTag t) ∧
      (how = .emplaced → news.flatten.length = olds.flatten.length ∧ news.length = ts.length) := by
  have hne' : olds.flatten ++ rest ≠ [] := by simp [hne]
  by_cases hts : ts = []
  · subst hts
    obtain ⟨n, pad, ts1, h1, -, h3⟩ := C33_emplace_partial z olds rest au [] ho hr hne' (by simp) hb
    have h0 : Tagset.sizes (anyI z) au [] = .ok (0, 0, []) := rfl
    rw [h0] at h1
    cases h1
    unfold Tagset.maybeEmplace at h
    rw [Tagset.tagsetSize_tags olds rest ho hr, Res.ok_bind, h0, Res.ok_bind] at h
    simp only [Nat.zero_le, if_true] at h
    by_cases hz : 0 < olds.flatten.length
    · rw [if_pos hz] at h
      cases h
    · rw [if_neg hz] at h
      obtain ⟨b', ts2, news, e1, e2, -, e4⟩ := h3 (by omega)
      rw [e1] at h
      cases h
      refine ⟨by simp, _, e2, news_complete e4, fun _ => ?_⟩
      cases e4
      simp only [List.map_nil, List.flatten_nil, List.length_nil]
      exact ⟨by omega, trivial⟩
  · rcases C33_partial z olds rest au .reducePaddingEvenly ts ho hr hne' hts hw hb hs hp with ⟨how', b', ts2, news, e1, e2, e3, e4⟩ | ⟨e1, -⟩
    · rw [e1] at h
      cases h
      refine ⟨?_, _, e2, news_complete e3, fun he => ?_⟩
      · rcases e4 with ⟨rfl, -⟩ | ⟨rfl, -⟩ <;> simp
      · rcases e4 with ⟨rfl, -⟩ | ⟨rfl, e4⟩
        · cases he
        · exact ⟨e4, by rw [List.length_map, pairs_length e3]⟩
    · rw [e1] at h
      cases h

/-- What is copied is what is copied for the tags whose sizes have been asked for. -/
theorem copied_same {τ : Type} {I : TagI τ} {old : Bytes} {au : ApplyUnsync} {ts ts1 ts' : List τ} {a b : Nat} {new : Bytes}
    (hm : Tagset.maybeEmplace I (some old) au .reducePaddingEvenly ts = .ok (.copied, new, ts')) (hz : Tagset.sizes I au ts = .ok (a, b, ts1)) :
    Tagset.copyContents I (some old) au ts1 = .ok (new, ts') := by
  unfold Tagset.maybeEmplace at hm
  obtain ⟨c, hc1, hc2⟩ := res_bind_ok hm
  rw [hz, Res.ok_bind] at hc2
  simp only at hc2
  by_cases hle : a ≤ c
  · rw [if_pos hle] at hc2
    by_cases hlt : a < c
    · rw [if_pos hlt] at hc2
      obtain ⟨_, -, hc3⟩ := res_bind_ok hc2
      obtain ⟨⟨_, _⟩, -, hc4⟩ := res_bind_ok hc3
      cases hc4
    · rw [if_neg hlt] at hc2
      obtain ⟨⟨_, _⟩, -, hc4⟩ := res_bind_ok hc2
      cases hc4
  · rw [if_neg hle] at hc2
    by_cases hge : c ≥ a - b ∧ EmplaceStrategy.reducePaddingEvenly ≠ .onlyWithFullPadding
    · rw [if_pos hge] at hc2
      obtain ⟨_, -, hc3⟩ := res_bind_ok hc2
      obtain ⟨⟨_, _⟩, -, hc4⟩ := res_bind_ok hc3
      cases hc4
    · rw [if_neg hge] at hc2
      obtain ⟨⟨x, y⟩, hc3, hc4⟩ := res_bind_ok hc2
      cases hc4
      exact hc3

/-- The file is there, and its audio in it. -/
def Keeps (a : Bytes) (p : Path) (s : FS) : Prop := ∃ d, s.get p = some d ∧ Carries a d

theorem replace_keeps {z : Zlib} {e : Env} {pth : Path} {ts : List AnyTag} {au : ApplyUnsync} {keep : Bool} (hf : Fit e pth) (hx : e.rename ≠ .crossDevice)
    {s0 : FS} {a old : Bytes} (h0 : s0.get (absolute e.cwd pth) = some old) (hc : Carries a old)
    (hn : ∀ b ts', Tagset.copyContents (anyI z) (some old) au ts = .ok (b, ts') → Carries a b) :
    Holds (replaceTagsetCopy (anyI z) e pth ts au keep) (· = s0) (fun _ => True) (fun _ => Keeps a (absolute e.cwd pth)) := by
  have key : ∃ new, (∀ b ts', Tagset.copyContents (anyI z) (some old) au ts = .ok (b, ts') → new = b) ∧ Carries a new := by
    cases hcc : Tagset.copyContents (anyI z) (some old) au ts with
    | ok r => exact ⟨r.1, by rintro b ts' h; cases h; rfl, hn r.1 r.2 hcc⟩
    | throw x => exact ⟨old, by simp, hc⟩
    | ub u => exact ⟨old, by simp, hc⟩
  obtain ⟨new, hn1, hn2⟩ := key
  refine (replace_holds (anyI z) e pth ts au keep hf.1 hf.2.1 (fit_bk hf) old s0 h0 new hn1).weaken (fun s h => h) (fun s _ => trivial) ?_
  intro r s h
  cases r with
  | ok u => exact ⟨_, h.2.1, hn2⟩
  | throw x => exact ⟨_, h.2.2 hx, hc⟩
  | ub u => exact ⟨_, h.2.2 hx, hc⟩

theorem v1_keeps {p : Path} {t : V1Tag} (ht : t.WF) {a : Bytes} (ha : Distinct a) :
    Holds (replaceId3v1Steps p t) (Keeps a p) (fun _ => True) (fun _ => Keeps a p) := by
  refine Holds.each ?_
  rintro s0 ⟨d, h0, tags, v1, rfl, hT, hv⟩
  obtain ⟨w, hw, hwb⟩ := wf_bytes ht
  have hrm := remove_v1 (p := tags.flatten) ha hv
  unfold replaceId3v1Steps
  refine Holds.bind (mid := fun o s => o = some (tags.flatten ++ (a ++ v1)) ∧ s = s0) (Holds.look _ ?_) ?_
  · rintro s rfl
    exact ⟨h0, rfl⟩
  intro o
  by_cases ho : o = some (tags.flatten ++ (a ++ v1))
  case neg => rintro s ⟨h, -⟩; exact absurd h ho
  subst ho
  simp only
  rw [hrm, hw]
  refine Holds.bind (mid := fun b s => b = tags.flatten ++ a ∧ s = s0) (Holds.lift _ ?_) ?_
  · rintro s ⟨-, rfl⟩
    exact ⟨rfl, rfl⟩
  intro b
  by_cases hb : b = tags.flatten ++ a
  case neg => rintro s ⟨h, -⟩; exact absurd h hb
  subst hb
  refine Holds.bind (mid := fun _ s => s.get p = some (tags.flatten ++ a)) ?_ ?_
  · by_cases hlt : (tags.flatten ++ a).length < (tags.flatten ++ (a ++ v1)).length
    · rw [if_pos hlt]
      refine truncate_holds _ _ (fun _ _ _ => trivial) ?_ ?_
      · rintro s o ⟨-, rfl⟩ ho
        rw [h0] at ho
        cases ho
        show _ = _
        rw [FS.get_put_same, ← List.append_assoc, List.take_left]
      · rintro s ⟨-, rfl⟩
        exact ⟨_, h0, tags, v1, rfl, hT, hv⟩
    · rw [if_neg hlt]
      refine Holds.pure _ ?_
      rintro s ⟨-, rfl⟩
      have : v1 = [] := List.length_eq_zero_iff.1 (by simp only [List.length_append] at hlt; omega)
      subst this
      simpa using h0
  intro _
  refine Holds.bind (mid := fun x s => x = w ∧ s.get p = some (tags.flatten ++ a)) (Holds.lift _ ?_) ?_
  · intro s h
    exact ⟨rfl, h⟩
  intro x
  refine append_holds _ _ (fun _ _ _ => trivial) ?_ ?_
  · rintro s o ⟨rfl, h1⟩ ho
    rw [h1] at ho
    cases ho
    exact ⟨_, FS.get_put_same _ _ _, tags, x, by simp, hT, .inr hwb⟩
  · rintro s ⟨-, h1⟩ ho
    rw [h1] at ho
    cases ho

/-- One run, however it ends. -/
theorem process_keeps {z : Zlib} {mk2 mk3 mk4 : Id3v2Info → SM AnyTag} {P : Processor AnyTag} {e : Env} {pth : Path} (hf : Fit e pth)
    (hx : e.rename ≠ .crossDevice) {a : Bytes} (ha : Distinct a) {s0 : FS} {d : Bytes} (h0 : s0.get (absolute e.cwd pth) = some d) (hc : Carries a d)
    (hs : CanSave z mk2 mk3 mk4 P d) :
    Holds (processFile (anyI z) mk2 mk3 mk4 P e pth) (· = s0) (fun _ => True) (fun _ => Keeps a (absolute e.cwd pth)) := by
  have kept : Keeps a (absolute e.cwd pth) s0 := ⟨d, h0, hc⟩
  unfold processFile
  refine Holds.bind (mid := fun o s => o = some d ∧ s = s0) (Holds.look _ ?_) ?_
  · rintro s rfl
    exact ⟨h0, rfl⟩
  intro o
  by_cases ho : o = some d
  case neg => rintro s ⟨h, -⟩; exact absurd h ho
  subst ho
  refine Holds.bind (mid := fun r s => readTagset mk2 mk3 mk4 (some d) = .ok r ∧ s = s0) (Holds.lift _ ?_) ?_
  · rintro s ⟨-, rfl⟩
    cases hz : readTagset mk2 mk3 mk4 (some d) with
    | ok r => exact ⟨rfl, rfl⟩
    | throw x => exact kept
    | ub u => exact kept
  rintro ⟨v2, v1⟩
  by_cases hr : readTagset mk2 mk3 mk4 (some d) = .ok (v2, v1)
  case neg => rintro s ⟨h, -⟩; exact absurd h hr
  refine Holds.bind (mid := fun r s => edit P v2 v1 = .ok r ∧ s = s0) (Holds.lift _ ?_) ?_
  · rintro s ⟨-, rfl⟩
    cases hz : edit P v2 v1 with
    | ok r => exact ⟨rfl, rfl⟩
    | throw x => exact kept
    | ub u => exact kept
  rintro ⟨dirty, v2', v1'⟩
  by_cases he : edit P v2 v1 = .ok (dirty, v2', v1')
  case neg => rintro s ⟨h, -⟩; exact absurd h he
  obtain ⟨hsz, hs⟩ := hs
  obtain ⟨c1, c2, c3, c4⟩ := hs v2 v1 dirty v2' v1' hr he
  unfold writeTagset
  cases dirty with
  | false =>
    refine Holds.pure _ ?_
    rintro s ⟨-, rfl⟩
    exact kept
  | true =>
    cases hd : P.dryRun with
    | true =>
      refine Holds.pure _ ?_
      rintro s ⟨-, rfl⟩
      exact kept
    | false =>
      simp only [if_true, Bool.false_eq_true, if_false]
      generalize hau : (if P.adjustUnsync then ApplyUnsync.asNeeded else .never) = au at c2
      have hc' := hc
      obtain ⟨tags, v, rfl, hT, hv⟩ := hc'
      have hnh := noHeader_audio ha.start hv
      have hlen : tags.flatten.length < 2 ^ 28 := hsz _ (Tagset.tagsetSize_tags tags _ hT hnh)
      have hne : a ++ v ≠ [] := by
        intro h
        have := congrArg List.length h
        have := ha.long
        simp only [List.length_append, List.length_nil] at *
        omega
      refine Holds.bind (mid := fun _ => Keeps a (absolute e.cwd pth)) ?_ ?_
      · cases hb : P.createBackups with
        | true =>
          refine (replace_keeps hf hx h0 hc ?_).weaken (fun s h => h.2) (fun _ h => h) ?_
          · intro b ts' hcc
            obtain ⟨b', ts2, news, e1, e2, -, e4⟩ := C33_copy_partial z tags (a ++ v) au v2' hT hnh c1 c2
            rw [e1] at hcc
            cases hcc
            exact ⟨_, v, e2, news_complete e4, hv⟩
          · intro r s h
            cases r <;> exact h
        | false =>
          simp only [Bool.false_eq_true, if_false]
          unfold maybeEmplaceSteps
          refine Holds.bind (mid := fun o s => o = some (tags.flatten ++ (a ++ v)) ∧ s = s0) (Holds.look _ ?_) ?_
          · rintro s ⟨-, rfl⟩
            exact ⟨h0, rfl⟩
          intro o
          by_cases ho : o = some (tags.flatten ++ (a ++ v))
          case neg => rintro s ⟨h, -⟩; exact absurd h ho
          subst ho
          cases hm : Tagset.maybeEmplace (anyI z) (some (tags.flatten ++ (a ++ v))) au .reducePaddingEvenly v2' with
          | throw x => exact Holds.lift _ (by rintro s ⟨-, rfl⟩; exact kept)
          | ub u => exact Holds.lift _ (by rintro s ⟨-, rfl⟩; exact kept)
          | ok r =>
            obtain ⟨how, new, ts'⟩ := r
            obtain ⟨m1, news, m2, m3, -⟩ := maybe_carries hT hnh hne c1 hlen c2 (c3 hb) hm
            have hnew : Carries a new := ⟨news, v, m2, m3, hv⟩
            cases how with
            | created => exact absurd rfl m1
            | emplaced =>
              refine overwrite_holds _ _ (fun _ _ _ => trivial) ?_ ?_
              · rintro s ⟨-, rfl⟩ -; exact ⟨_, FS.get_put_same _ _ _, hnew⟩
              · rintro s ⟨-, rfl⟩; exact kept
            | copied =>
              simp only
              refine Holds.bind (mid := fun r s => Tagset.sizes (anyI z) au v2' = .ok r ∧ s = s0) (Holds.lift _ ?_) ?_
              · rintro s ⟨-, rfl⟩
                cases hz : Tagset.sizes (anyI z) au v2' with
                | ok r => exact ⟨rfl, rfl⟩
                | throw x => exact ⟨_, h0, hc⟩
                | ub u => exact ⟨_, h0, hc⟩
              rintro ⟨n1, n2, ts1⟩
              by_cases hz : Tagset.sizes (anyI z) au v2' = .ok (n1, n2, ts1)
              case neg => rintro s ⟨h, -⟩; exact absurd h hz
              refine (replace_keeps hf hx h0 hc ?_).weaken (fun s h => h.2) (fun _ h => h) ?_
              · intro b ts2 hcc
                rw [copied_same hm hz] at hcc
                cases hcc
                exact hnew
              · intro r s h
                cases r <;> exact h
      intro _
      cases v1' with
      | none => exact Holds.pure _ fun s h => h
      | some t => exact v1_keeps (c4 t rfl) ha

end Scribbu.History
