import Verif.Model.TextCmd
import Verif.Spec.Commands

/-! Independent specification of what the sub-command `text` does. -/

namespace Scribbu.Spec
open Scribbu Commands Process

/-- One of the frames `fs` has the identifier `id` in tags of version `v`. -/
def Named (v : Ver) (fs : List TextFrame) (id : Bytes) : Prop := ∃ f ∈ fs, frameId v f = .ok id

instance (v : Ver) (fs : List TextFrame) (id : Bytes) : Decidable (Named v fs id) := inferInstanceAs (Decidable (∃ f ∈ fs, _))

/-- The frames in `dels` have been removed and those in `adds` been set. Frames with other identifiers are as they were, and in the same
order; where there were several with an identifier to be set, there are as many. -/
structure TextsDone (C : Conv) (dels : List TextFrame) (adds : List (TextFrame × Bytes)) (t t' : Tg) : Prop where
  cfg : t'.cfg = t.cfg
  set : ∀ x ∈ adds, t'.text C x.1 = .ok x.2
  gone : ∀ f ∈ dels, f ∉ adds.map Prod.fst → ∀ id, frameId t.cfg.ver f = .ok id → ∀ x ∈ contents t'.tag, x.id ≠ id
  rest : (contents t'.tag).filter (fun x => ¬ Named t.cfg.ver (dels ++ adds.map Prod.fst) x.id) =
    (contents t.tag).filter (fun x => ¬ Named t.cfg.ver (dels ++ adds.map Prod.fst) x.id)
  count : ∀ f ∈ adds.map Prod.fst, f ∉ dels → ∀ id, frameId t.cfg.ver f = .ok id →
    ((contents t'.tag).filter fun x => x.id = id).length = max 1 ((contents t.tag).filter fun x => x.id = id).length

/-- All frames asked for exist in tags of version `v`, none of them is set twice, and the texts can be put into frames such that they
read back. -/
structure Askable (C : Conv) (v : Ver) (dels : List TextFrame) (adds : List (TextFrame × Bytes)) : Prop where
  known : ∀ f ∈ dels ++ adds.map Prod.fst, ∃ id, frameId v f = .ok id
  once : (adds.map Prod.fst).Nodup
  trips : ∀ x ∈ adds, ∃ d, C.frameData v x.2 = .ok d ∧ C.frameText v d = .ok x.2

/-- No frame named `g` comes after one named `f`. -/
def NoneAfter (v : Ver) (l : List Item) (f g : TextFrame) : Prop :=
  ∀ a x b, l = a ++ x :: b → frameId v f = .ok x.id → ∀ y ∈ b, frameId v g ≠ .ok y.id

/-- There is at most one frame of each of the names, and those that there are come in the opposite order to that in which they are
named. -/
def BackToFront (v : Ver) (dels : List TextFrame) (l : List Item) : Prop :=
  (∀ f ∈ dels, NoneAfter v l f f) ∧ dels.Pairwise (NoneAfter v l)

/-- A field of an ID3v1 tag after `text`: as asked for, or empty if to be deleted, or as it was. `n` is the size of the field. -/
def FieldDone (C : Conv) (f : TextFrame) (dels : List TextFrame) (adds : List (TextFrame × Bytes)) (n : Nat) (old new : Bytes) : Prop :=
  (∀ s, (f, s) ∈ adds → ∃ d, C.v1Plain s = .ok d ∧ new.length = n ∧ (new = d.take n ∨ ∃ k, new = d ++ List.replicate k 0)) ∧
  (f ∉ adds.map Prod.fst → f ∈ dels → new = List.replicate n 0) ∧
  (f ∉ adds.map Prod.fst → f ∉ dels → new = old)

/-- The ID3v1 tag after `text`. -/
structure V1TextsDone (C : Conv) (dels : List TextFrame) (adds : List (TextFrame × Bytes)) (t t' : V1Tag) : Prop where
  title : FieldDone C .tit2 dels adds (if t.extended then 90 else 30) t.title t'.title
  artist : FieldDone C .tpe1 dels adds (if t.extended then 90 else 30) t.artist t'.artist
  album : FieldDone C .talb dels adds (if t.extended then 90 else 30) t.album t'.album
  rest : { t' with title := t.title, artist := t.artist, album := t.album } = t

end Scribbu.Spec
