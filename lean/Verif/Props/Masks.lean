import Verif.Props.Anywhere
import Verif.Props.Mp3

/-! # Streams that throw, and streams that do not -/

namespace Scribbu.Props
open Scribbu Spec

/-! ## C209: what is read does not depend on which exceptions the caller's stream throws -/

/-- What `x` comes to, from a stream that is good, does not depend on the exceptions that are switched on; and if it comes to a value, the stream is good afterwards, at a
place that does not depend on them either, and has the same exceptions switched on as before. -/
def MaskFree (x : SM α) : Prop :=
  ∀ (d : Bytes) (p : Nat), ∃ (r : Res α) (q : Nat), ∀ m, (x ⟨d, p, m, IoBits.none⟩).1 = r ∧ ((∃ a, r = .ok a) → (x ⟨d, p, m, IoBits.none⟩).2 = ⟨d, q, m, IoBits.none⟩)

namespace Masks

theorem bind {x : SM α} {f : α → SM β} (h : MaskFree x) (k : ∀ a, MaskFree (f a)) : MaskFree (x >>= f) := by
  intro d p
  obtain ⟨r, q, hx⟩ := h d p
  cases r with
  | ok a =>
    obtain ⟨r', q', hf⟩ := k a d q
    refine ⟨r', q', fun m => ?_⟩
    have e : x ⟨d, p, m, IoBits.none⟩ = (.ok a, ⟨d, q, m, IoBits.none⟩) := Prod.ext_iff.mpr ⟨(hx m).1, (hx m).2 ⟨a, rfl⟩⟩
    rw [SM.bind_ok e]
    exact hf m
  | throw e =>
    refine ⟨.throw e, 0, fun m => ⟨?_, fun ⟨a, h⟩ => by cases h⟩⟩
    have := (hx m).1
    show (SM.bind x f _).1 = _
    unfold SM.bind
    rcases h : x ⟨d, p, m, IoBits.none⟩ with ⟨r, s⟩
    rw [h] at this
    simp only at this
    subst this
    rfl
  | ub u =>
    refine ⟨.ub u, 0, fun m => ⟨?_, fun ⟨a, h⟩ => by cases h⟩⟩
    have := (hx m).1
    show (SM.bind x f _).1 = _
    unfold SM.bind
    rcases h : x ⟨d, p, m, IoBits.none⟩ with ⟨r, s⟩
    rw [h] at this
    simp only at this
    subst this
    rfl

theorem pure (a : α) : MaskFree (Pure.pure a : SM α) := fun _ p => ⟨.ok a, p, fun _ => ⟨rfl, fun _ => rfl⟩⟩

theorem throw (e : Exc) : MaskFree (SM.throw e : SM α) := fun _ _ => ⟨.throw e, 0, fun _ => ⟨rfl, fun ⟨_, h⟩ => by cases h⟩⟩

theorem seekCur (n : Nat) : MaskFree (SM.seekCur n) := by
  intro d p
  refine ⟨.ok (), p + n, fun m => ?_⟩
  have : ¬ ((p : Int) + n < 0) := by omega
  have e : ((p : Int) + n).toNat = p + n := by omega
  simp [SM.seekCur, SM.seekAbs, this, e, IoBits.none]

theorem lookingAt (restore : Bool) : MaskFree (lookingAtId3v2 restore) := by
  intro d p
  obtain ⟨o, h0, hs0⟩ := lookingAt_spec d p IoBits.none restore
  refine ⟨.ok o, if o.isSome && !restore then p + 10 else p, fun m => ?_⟩
  obtain ⟨o', h, hs⟩ := lookingAt_spec d p m restore
  have e : o' = o := by
    cases o with
    | some i => exact (hs _ _ _ _).mpr ((hs0 _ _ _ _).mp rfl)
    | none =>
      cases o' with
      | none => rfl
      | some i => exact absurd ((hs0 _ _ _ _).mpr ((hs _ _ _ _).mp rfl)) (by simp)
  subst e
  rw [h]
  exact ⟨rfl, fun _ => rfl⟩

/-- The common shape of the three functions `parse`. -/
theorem parse (size : Nat) (f : Bytes → Res α) : MaskFree
    (do
      let excMask ← SM.exceptions
      SM.setExceptions IoBits.all
      let here ← SM.tellg
      let r ← SM.onThrow (do let buf ← SM.read size; SM.lift (f buf)) (do SM.seekBeg here; SM.setExceptions excMask)
      SM.setExceptions excMask
      Pure.pure r) := by
  intro d p
  by_cases hl : ((d.drop p).take size).length = size
  · have hr : ∀ m, SM.read size ⟨d, p, m, IoBits.none⟩ = (.ok ((d.drop p).take size), ⟨d, p + size, m, IoBits.none⟩) := by
      intro m
      simp only [SM.read, hl, if_true]
    cases hf : f ((d.drop p).take size) with
    | ok a => exact ⟨.ok a, p + size, fun m => by simp [SM.onThrow, hr, hf]⟩
    | throw e => exact ⟨.throw e, 0, fun m => by simp [SM.onThrow, hr, hf]⟩
    | ub u => exact ⟨.ub u, 0, fun m => by simp [SM.onThrow, hr, hf]⟩
  · have hr : SM.read size ⟨d, p, IoBits.all, IoBits.none⟩ =
        (.throw .streamFailure, ⟨d, p + ((d.drop p).take size).length, IoBits.all, ⟨true, true, false⟩⟩) := by
      simp only [SM.read, hl, if_true, if_false]
      rfl
    have hs : ∀ q, SM.seekBeg p ⟨d, q, IoBits.all, ⟨true, true, false⟩⟩ = (.throw .streamFailure, ⟨d, q, IoBits.all, ⟨false, true, false⟩⟩) := fun q => rfl
    exact ⟨.throw .streamFailure, 0, fun m => by simp [SM.onThrow, hr, hs]⟩

theorem made2 (g : AnyTag → β) (h : Id3v2Info) : MaskFree (Props.made2 g h) := by
  unfold Props.made2 Tag22.read Tag22.parse
  exact bind (bind (parse _ _) fun _ => pure _) fun _ => pure _

theorem made3 (z : Zlib) (g : AnyTag → β) (h : Id3v2Info) : MaskFree (Props.made3 z g h) := by
  unfold Props.made3 Tag23.read Tag23.parse
  exact bind (bind (parse _ _) fun _ => pure _) fun _ => pure _

theorem made4 (z : Zlib) (g : AnyTag → β) (h : Id3v2Info) : MaskFree (Props.made4 z g h) := by
  unfold Props.made4 Tag24.read Tag24.parse
  exact bind (bind (parse _ _) fun _ => pure _) fun _ => pure _

theorem mk (z : Zlib) (g : AnyTag → β) (h : Id3v2Info) : MaskFree (mkId3v2 (Props.made2 g) (Props.made3 z g) (Props.made4 z g) h) := by
  unfold mkId3v2
  split
  · exact made2 g h
  split
  · exact made3 z g h
  split
  · exact made4 z g h
  exact throw _

theorem skip (n : Nat) : MaskFree (skipId3v2 n) := by
  induction n with
  | zero => unfold skipId3v2; exact pure _
  | succ n ih =>
    unfold skipId3v2
    refine bind (lookingAt _) fun o => ?_
    cases o with
    | none => exact throw _
    | some h =>
      have := seekCur (h.size + 10)
      push_cast at this
      exact bind this fun _ => ih

end Masks

/-- Looking whether there is a tag. -/
theorem C209_looking (restore : Bool) : MaskFree (lookingAtId3v2 restore) := Masks.lookingAt restore

/-- Reading a tag, if there is one. -/
theorem C209_one (z : Zlib) (g : AnyTag → β) : MaskFree (maybeReadId3v2 (made2 g) (made3 z g) (made4 z g)) := by
  unfold maybeReadId3v2
  refine Masks.bind (Masks.lookingAt _) fun o => ?_
  cases o with
  | none => exact Masks.pure _
  | some h => exact Masks.bind (Masks.mk z g h) fun _ => Masks.pure _

/-- Reading the tag with a given number. -/
theorem C209_numbered (z : Zlib) (g : AnyTag → β) (n : Nat) : MaskFree (readId3v2 (made2 g) (made3 z g) (made4 z g) n) := by
  unfold readId3v2
  refine Masks.bind (Masks.skip n) fun _ => Masks.bind (Masks.lookingAt _) fun o => ?_
  cases o with
  | none => exact Masks.throw _
  | some h => exact Masks.mk z g h

/-- Reading all tags. -/
theorem C209_all (z : Zlib) (g : AnyTag → β) (k : Nat) : MaskFree (readAllId3v2 (made2 g) (made3 z g) (made4 z g) k) := by
  induction k with
  | zero => unfold readAllId3v2; exact Masks.pure _
  | succ k ih =>
    unfold readAllId3v2
    refine Masks.bind (C209_one z g) fun o => ?_
    cases o with
    | none => exact Masks.pure _
    | some t => exact Masks.bind ih fun _ => Masks.pure _

/-- C209, in full, for the tags (above) and for the duration: what is found out does not depend on the exceptions that are switched on. -/
def C209_claim : Prop := ∀ (d : Bytes) (p k : Nat) (m m' : IoBits), d.length < k → (mp3Duration k ⟨d, p, m, IoBits.none⟩).1 = (mp3Duration k ⟨d, p, m', IoBits.none⟩).1

/-- A frame with a "Xing" header that announces 100 bytes, of which the file has ten. -/
def shortTable : Bytes := [0xff, 0xf3, 0x14, 0xc0] ++ List.replicate 9 0 ++ XING ++ [0, 0, 0, 7] ++ [0, 0, 0, 100] ++ [0, 0, 9, 0] ++ List.replicate 10 0

/-- **Finding** If the table in a "Xing" header is cut short, the duration is what the header says for a stream that throws no exceptions; a stream that does throws one
when they are switched on again. -/
theorem C209_refuted : ¬ C209_claim := by
  intro h
  have := h shortTable 0 100 IoBits.none IoBits.all (by decide)
  revert this
  decide +kernel

/-- The same outcome, or an exception of the stream instead of a value. -/
def SameOr (r r' : Res α) : Prop := r' = r ∨ ((∃ a, r = .ok a) ∧ r' = .throw .streamFailure)

namespace Masks

theorem after {x : SM β} {f g : β → SM α} (h : ∀ b s, SameOr (f b s).1 (g b s).1) (s : IStream) : SameOr ((x >>= f) s).1 ((x >>= g) s).1 := by
  show SameOr (SM.bind x f s).1 (SM.bind x g s).1
  unfold SM.bind
  rcases x s with ⟨r, s1⟩
  cases r with
  | ok a => exact h a s1
  | throw e => exact .inl rfl
  | ub u => exact .inl rfl

theorem last (m : IoBits) (a : α) (s : IStream) :
    SameOr ((do SM.setExceptions IoBits.none; Pure.pure a : SM α) s).1 ((do SM.setExceptions m; Pure.pure a : SM α) s).1 := by
  have h0 : s.st.meets IoBits.none = false := by simp [IoBits.meets, IoBits.none]
  have e0 : SM.setExceptions IoBits.none s = (.ok (), { s with mask := IoBits.none }) := if_neg (by simp [h0])
  rw [SM.bind_ok e0]
  by_cases hm : s.st.meets m = true
  · have e : SM.setExceptions m s = (.throw .streamFailure, { s with mask := m }) := if_pos hm
    rw [SM.bind_throw e]
    exact .inr ⟨⟨a, rfl⟩, rfl⟩
  · have e : SM.setExceptions m s = (.ok (), { s with mask := m }) := if_neg hm
    rw [SM.bind_ok e]
    exact .inl rfl

theorem start {F : IoBits → Unit → SM α} (m : IoBits) (h : ∀ u s, SameOr (F IoBits.none u s).1 (F m u s).1) (d : Bytes) (p : Nat) :
    SameOr ((SM.exceptions >>= fun e => SM.setExceptions ⟨false, false, true⟩ >>= F e) ⟨d, p, IoBits.none, IoBits.none⟩).1
      ((SM.exceptions >>= fun e => SM.setExceptions ⟨false, false, true⟩ >>= F e) ⟨d, p, m, IoBits.none⟩).1 :=
  h () ⟨d, p, ⟨false, false, true⟩, IoBits.none⟩

end Masks

/-- C209 for the duration: with exceptions switched on it is what it is without them, and so are failures, except that instead of a value there may be an exception of the
stream. Missing: that there is none, which is false. -/
theorem C209_duration_partial (d : Bytes) (p k : Nat) (m : IoBits) :
    SameOr (mp3Duration k ⟨d, p, IoBits.none, IoBits.none⟩).1 (mp3Duration k ⟨d, p, m, IoBits.none⟩).1 := by
  unfold mp3Duration
  refine Masks.start m (fun _ => ?_) d p
  refine Masks.after fun h => Masks.after fun hd => Masks.after fun ok => Masks.after fun o => ?_
  cases o with
  | none => exact fun _ => .inl rfl
  | some hd =>
    refine Masks.after fun ok => ?_
    split
    · exact fun _ => .inl rfl
    · refine Masks.after fun fv => ?_
      obtain ⟨f, v⟩ := fv
      cases v with
      | some v => exact Masks.after fun _ => Masks.last m _
      | none =>
        refine Masks.after fun r => ?_
        cases r with
        | none => exact fun _ => .inl rfl
        | some n => exact Masks.last m _

/-! Cases: a tag read from streams that throw and that do not; and a duration. -/

example : ∀ m ∈ [IoBits.none, IoBits.all, IoBits.failBad],
    maybeReadId3v2 (made2 framesIn) (made3 noZlib framesIn) (made4 noZlib framesIn) ⟨titledTag ++ [0, 0], 0, m, IoBits.none⟩ =
      (.ok (some 1), ⟨titledTag ++ [0, 0], 22, m, IoBits.none⟩) := by decide +kernel

/-- A tag that is cut short: an exception, whether asked for or not. -/
example : ∀ m ∈ [IoBits.none, IoBits.all, IoBits.failBad],
    (maybeReadId3v2 (made2 framesIn) (made3 noZlib framesIn) (made4 noZlib framesIn) ⟨titledTag.take 20, 0, m, IoBits.none⟩).1 = .throw .streamFailure := by decide +kernel

example : (mp3Duration 100 ⟨tinyFrame ++ tinyFrame, 0, IoBits.none, IoBits.none⟩).1 = .ok (some (576, 2, 24000)) ∧
    (mp3Duration 100 ⟨tinyFrame ++ tinyFrame, 0, IoBits.all, IoBits.none⟩).1 = .ok (some (576, 2, 24000)) := by decide +kernel

end Scribbu.Props
