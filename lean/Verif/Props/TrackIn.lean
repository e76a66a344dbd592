import Verif.Proofs.Scheme
import Verif.Props.SchemeV1

/-! # Properties of `with-track-in`: C143 -/

namespace Scribbu.Props
open Scribbu Scribbu.Scheme Scribbu.Spec Scribbu.Spec.Scheme Scribbu.Proofs.Scheme

/-- What the procedure is to be given for a file: the tags, if they can be read, the path, the ID3v1 tag, if there is one. -/
def CallFor (E : Scheme.Env) (e : Entry) (c : Call) : Prop :=
  c.path = e.path ∧ (∀ ts, c.tagset = some ts ↔ readTagset E e.data = .ok ts) ∧ ∀ x, c.v1 = some x ↔ readV1 E e.data = .ok (some x)

/-- **C143**, the full claim: `with-track-in` calls the procedure once for each thing that is not a directory, in order. -/
def C143_claim : Prop :=
  ∀ (E : Scheme.Env) (es : List Entry), (∀ e ∈ es, ∃ b, e.isDir = .ok b) →
    (withTrackIn E es).2 = .ok () ∧ Pairs (CallFor E) (es.filter fun e => e.isDir = .ok false) (withTrackIn E es).1

/-- A tag that announces 256 bytes, and an ID3v1 tag. -/
def badFile : Bytes := /- ID3 -/ [73, 68, 51] ++ [3, 0, 0, 0, 0, 2, 0] ++ (/- TAG -/ [84, 65, 71] ++ List.replicate 125 0x20)

/-- **Finding** C143 is refuted: if the ID3v2 tags of a file cannot be read, its ID3v1 tag is not read either. -/
theorem C143_refuted : ¬ C143_claim := by
  intro h
  obtain ⟨-, h1⟩ := h scmEnv [⟨/- a.mp3 -/ [97, 46, 109, 112, 51], .ok false, some badFile⟩] (by simp)
  have h2 : (withTrackIn scmEnv [⟨/- a.mp3 -/ [97, 46, 109, 112, 51], .ok false, some badFile⟩]).1 = [⟨none, /- a.mp3 -/ [97, 46, 109, 112, 51], none⟩] := by decide +kernel
  have h3 : (match readV1 scmEnv (some badFile) with | .ok (some _) => true | _ => false) = true := by decide +kernel
  rw [h2] at h1
  simp only [decide_true, List.filter_cons_of_pos, List.filter_nil] at h1
  cases h1 with
  | cons h4 _ =>
    split at h3
    · rename_i x hx
      have := (h4.2.2 x).2 hx
      simp at this
    · simp at h3

/-- **Finding** Whatever the file, if its ID3v2 tags cannot be read then no ID3v1 tag is handed over. -/
theorem C143_refuted_v1 (E : Scheme.Env) (file : Option Bytes) (h : readTagset E file = .guile) : track E file = .ok (none, none) := by
  unfold track
  rw [h]

/-- **Finding** A file whose name is not UTF-8 ends it all: the procedure is not called for it nor for what comes after it. -/
theorem C143_refuted_name (E : Scheme.Env) (e : Entry) (es : List Entry) (h : e.isDir = .ok false) (hn : E.utf8 e.path = .guile) :
    withTrackIn E (e :: es) = ([], .guile) := by
  unfold withTrackIn
  rw [h]
  simp only [hn]

/-- A case: a name in Latin-1, where only ASCII is text. -/
example : withTrackIn { scmEnv with valid := fun b => b.all (· < 128) } [⟨[0xe9], .ok false, some []⟩, ⟨/- b -/ [98], .ok false, some []⟩] = ([], .guile) :=
  C143_refuted_name _ _ _ rfl (by decide +kernel)

/-- What holds of C143: if the names are UTF-8 and reading the files is well-defined (C136), the procedure is called once for each thing that is not a
directory, in order, with its path, the tags if they can be read, and then the ID3v1 tag if there is one and it can be read. -/
theorem C143_partial (E : Scheme.Env) (es : List Entry) (hd : ∀ e ∈ es, ∃ b, e.isDir = .ok b) (hn : ∀ e ∈ es, E.utf8 e.path = .ok (.str e.path))
    (hu : ∀ e ∈ es, (∀ u, readTagset E e.data ≠ .ub u) ∧ ∀ u, readV1 E e.data ≠ .ub u) :
    (withTrackIn E es).2 = .ok () ∧ Pairs (fun e c => c.path = e.path ∧ (∀ ts, c.tagset = some ts ↔ readTagset E e.data = .ok ts) ∧
      ∀ x, c.v1 = some x ↔ (∃ ts, readTagset E e.data = .ok ts) ∧ readV1 E e.data = .ok (some x))
      (es.filter fun e => e.isDir = .ok false) (withTrackIn E es).1 := by
  induction es with
  | nil => exact ⟨rfl, .nil⟩
  | cons e es ih =>
    obtain ⟨h1, h2⟩ := ih (fun x hx => hd x (by simp [hx])) (fun x hx => hn x (by simp [hx])) fun x hx => hu x (by simp [hx])
    obtain ⟨b, hb⟩ := hd e (by simp)
    obtain ⟨hu1, hu2⟩ := hu e (by simp)
    cases b with
    | true =>
      have e1 : withTrackIn E (e :: es) = withTrackIn E es := by rw [withTrackIn]; simp only [hb]
      have e2 : (e :: es).filter (fun e => e.isDir = .ok false) = es.filter fun e => e.isDir = .ok false := by
        rw [List.filter_cons_of_neg (by simp [hb])]
      rw [e1, e2]
      exact ⟨h1, h2⟩
    | false =>
      have e2 : (e :: es).filter (fun e => e.isDir = .ok false) = e :: es.filter fun e => e.isDir = .ok false := by
        rw [List.filter_cons_of_pos (by simp [hb])]
      have e1 : ∀ ts v1, track E e.data = .ok (ts, v1) → withTrackIn E (e :: es) = (⟨ts, e.path, v1⟩ :: (withTrackIn E es).1, (withTrackIn E es).2) := by
        intro ts v1 ht
        rw [withTrackIn]
        simp only [hb, hn e (by simp), ht]
      obtain ⟨ts, v1, ht, k1, k2⟩ : ∃ ts v1, track E e.data = .ok (ts, v1) ∧ (∀ x, ts = some x ↔ readTagset E e.data = .ok x) ∧
          ∀ x, v1 = some x ↔ (∃ ts, readTagset E e.data = .ok ts) ∧ readV1 E e.data = .ok (some x) := by
        unfold track
        cases hr : readTagset E e.data with
        | ok ts =>
          cases hv : readV1 E e.data with
          | ok v1 => exact ⟨_, _, rfl, by simp, by simp⟩
          | ub u => exact absurd hv (hu2 u)
          | std e => exact ⟨_, _, rfl, by simp, by simp⟩
          | guile => exact ⟨_, _, rfl, by simp, by simp⟩
        | ub u => exact absurd hr (hu1 u)
        | std e => exact ⟨_, _, rfl, by simp, by simp⟩
        | guile => exact ⟨_, _, rfl, by simp, by simp⟩
      rw [e1 ts v1 ht, e2]
      exact ⟨h1, .cons ⟨rfl, k1, k2⟩ h2⟩

/-- A case: a directory and two files, the first with nothing in it, the second with an ID3v1 tag. -/
def threeEntries : List Entry :=
  [⟨/- d -/ [100], .ok true, none⟩, ⟨/- d/a -/ [100, 47, 97], .ok false, some [1, 2, 3]⟩, ⟨/- d/b -/ [100, 47, 98], .ok false, some (/- TAG -/ [84, 65, 71] ++ List.replicate 125 0x20)⟩]

example : (∀ e ∈ threeEntries, e.isDir = .ok false → scmEnv.utf8 e.path = .ok (.str e.path)) ∧
    (withTrackIn scmEnv threeEntries).1.map (fun c => (c.tagset, c.path, c.v1.isSome)) = [(some [], /- d/a -/ [100, 47, 97], false), (some [], /- d/b -/ [100, 47, 98], true)] := by
  refine ⟨?_, ?_⟩ <;> decide +kernel

end Scribbu.Props
