import Verif.Model.AzTags
import Verif.Spec.Tagset

/-! # What is expected of `az-tags` -/

namespace Scribbu.Spec.AzTags
open Scribbu

/-- A comment that has no description and begins with the name under which the seller knows its songs; the text is `txt`. -/
structure Song (E : Json.Env) (v : Ver) (c : Comm) (txt : Bytes) : Prop where
  plain : E.asStr v c.unicode c.desc = .ok []
  reads : E.asStr v c.unicode c.text = .ok txt
  begins : ∃ rest, txt = /- Amazon.com Song ID -/ [65, 109, 97, 122, 111, 110, 46, 99, 111, 109, 32, 83, 111, 110, 103, 32, 73, 68] ++ rest

/-- A comment that can be read. -/
def ReadComm (E : Json.Env) (v : Ver) (c : Comm) : Prop :=
  (∃ d, E.asStr v c.unicode c.desc = .ok d) ∧ ∃ txt, E.asStr v c.unicode c.text = .ok txt

/-- A comment with a text and the new description. -/
structure Labelled (E : Json.Env) (v : Ver) (c : Comm) (txt : Bytes) : Prop where
  descr : E.asStr v c.unicode c.desc = .ok /- amazon.com song id -/ [97, 109, 97, 122, 111, 110, 46, 99, 111, 109, 32, 115, 111, 110, 103, 32, 105, 100]
  reads : E.asStr v c.unicode c.text = .ok txt

/-- Whether a frame is a comment to be changed: `is` says that it has the identifier of comments. -/
def Meant (E : Json.Env) (v : Ver) (is : Prop) (b : Body) : Prop := is ∧ ∃ c txt, b = .comm c ∧ Song E v c txt

/-- What becomes of the contents of a frame that is to be changed. -/
def NewBody (E : Json.Env) (v : Ver) (same : Comm → Comm → Prop) (b b' : Body) : Prop :=
  ∃ c c' txt, b = .comm c ∧ b' = .comm c' ∧ Song E v c txt ∧ Labelled E v c' txt ∧ same c c'

/-- An ID3v2.2 frame afterwards: what it was, or, if it is to be changed, with the same identifier and the new contents. -/
def Frame22After (E : Json.Env) (same : Comm → Comm → Prop) (f f' : Frame22) : Prop :=
  (¬ Meant E .v2 (f.id = ⟨67, 79, 77⟩) f.body ∧ f' = f) ∨
  (f.id = ⟨67, 79, 77⟩ ∧ f'.id = f.id ∧ NewBody E .v2 same f.body f'.body)

/-- An ID3v2.3 or 2.4 frame afterwards; `attr` compares the attributes. -/
def Frame4After (E : Json.Env) (v : Ver) (same : Comm → Comm → Prop) (attr : Frame4 → Frame4 → Prop) (f f' : Frame4) : Prop :=
  (¬ Meant E v (f.id = ⟨67, 79, 77, 77⟩) f.body ∧ f' = f) ∨
  (f.id = ⟨67, 79, 77, 77⟩ ∧ f'.id = f.id ∧ attr f f' ∧ NewBody E v same f.body f'.body)

/-- A tag afterwards: frame by frame; all else is the same. -/
inductive TagAfter (E : Json.Env) (same : Comm → Comm → Prop) (attr : Frame4 → Frame4 → Prop) : AnyTag → AnyTag → Prop
  | v2 (t : Tag22) (fs) : Pairs (Frame22After E same) t.frames fs → TagAfter E same attr (.inl t) (.inl { t with frames := fs })
  | v3 (t : Tag23) (fs) : Pairs (Frame4After E .v3 same attr) t.frames fs →
      TagAfter E same attr (.inr (.inl t)) (.inr (.inl { t with frames := fs }))
  | v4 (t : Tag24) (fs) : Pairs (Frame4After E .v4 same attr) t.frames fs →
      TagAfter E same attr (.inr (.inr t)) (.inr (.inr { t with frames := fs }))

/-- All the attributes of a frame. -/
def sameAttributes (f f' : Frame4) : Prop :=
  f'.tap = f.tap ∧ f'.fap = f.fap ∧ f'.ro = f.ro ∧ f'.compressed = f.compressed ∧ f'.enc = f.enc ∧ f'.gid = f.gid ∧ f'.unsynch = f.unsynch

/-- Those that say what is to become of a frame. -/
def sameFate (f f' : Frame4) : Prop :=
  f'.tap = f.tap ∧ f'.fap = f.fap ∧ f'.ro = f.ro ∧ f'.compressed = false ∧ f'.enc = none ∧ f'.gid = none ∧ f'.unsynch = false

/-- The frames of a tag: version, whether the identifier is that of comments, contents. -/
def framesOf : AnyTag → List (Ver × Bool × Body)
  | .inl t => t.frames.map fun f => (.v2, decide (f.id = ⟨67, 79, 77⟩), f.body)
  | .inr (.inl t) => t.frames.map fun f => (.v3, decide (f.id = ⟨67, 79, 77, 77⟩), f.body)
  | .inr (.inr t) => t.frames.map fun f => (.v4, decide (f.id = ⟨67, 79, 77, 77⟩), f.body)

/-- The comments in a tag are comments, and can be read; those that are to be changed have texts in Latin-1, from which iconv makes the
text again; and so it is with the new description. -/
def Suits (E : Json.Env) (t : AnyTag) : Prop := ∀ x ∈ framesOf t, x.2.1 = true →
  ∃ c, x.2.2 = .comm c ∧ ReadComm E x.1 c ∧ ∀ txt, Song E x.1 c txt → ∀ s ∈ [txt, /- amazon.com song id -/ [97, 109, 97, 122, 111, 110, 46, 99, 111, 109, 32, 115, 111, 110, 103, 32, 105, 100]],
    ∃ b, Charset.toBytes E.lib E.mem .UTF_8 .ISO_8859_1 false .fail s = .ok b ∧ E.asStr x.1 (some 0) b = .ok s

end Scribbu.Spec.AzTags
