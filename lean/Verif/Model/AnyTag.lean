import Verif.Model.Tagset
import Verif.Model.Tag22
import Verif.Model.Tag23
import Verif.Model.Tag24

/-! # The tag classes as seen by scribbu/tagset.hh

Pointers to `id3v2_tag` point to an ID3v2.2, an ID3v2.3 or an ID3v2.4 tag. -/

namespace Scribbu

/-- An ID3v2.2 tag behind a pointer to `id3v2_tag`; `padding` overloads: scribbu/id3v22.hh L132-135. -/
def tag22I : TagI Tag22 where
  needs t := (Tag22.needsUnsync t.frames).bind fun (b, fs) => .ok (b, { t with frames := fs })
  size t u := t.size u
  padding t := Tag22.use t.padding
  setPadding t q := { t with padding := some q }
  write t u := (t.write u).bind fun (b, _, t) => .ok (b, t)

/-- An ID3v2.3 tag behind a pointer to `id3v2_tag`; `padding` overloads: scribbu/id3v23.hh L242-245. -/
def tag23I (z : Zlib) : TagI Tag23 where
  needs t := t.needsUnsync z
  size t u := t.size z u
  padding t := .ok t.padding
  setPadding t q := { t with padding := q }
  write t u := (t.write z u).bind fun (b, _, t) => .ok (b, t)

/-- An ID3v2.4 tag behind a pointer to `id3v2_tag`; `padding` overloads: scribbu/id3v24.hh L273-276. -/
def tag24I (z : Zlib) : TagI Tag24 where
  needs t := (Tag24.needsUnsync z t.frames).bind fun (b, fs) => .ok (b, { t with frames := fs })
  size t u := t.size z u
  padding t := .ok t.padding
  setPadding t q := { t with padding := q }
  write t u := (t.write z u).bind fun (b, _, t) => .ok (b, t)

/-- The virtual call goes to the class of the tag. -/
def TagI.sum (I : TagI τ) (J : TagI σ) : TagI (τ ⊕ σ) where
  needs
    | .inl t => (I.needs t).bind fun (b, t) => .ok (b, .inl t)
    | .inr t => (J.needs t).bind fun (b, t) => .ok (b, .inr t)
  size
    | .inl t, u => (I.size t u).bind fun (b, t) => .ok (b, .inl t)
    | .inr t, u => (J.size t u).bind fun (b, t) => .ok (b, .inr t)
  padding
    | .inl t => I.padding t
    | .inr t => J.padding t
  setPadding
    | .inl t, q => .inl (I.setPadding t q)
    | .inr t, q => .inr (J.setPadding t q)
  write
    | .inl t, u => (I.write t u).bind fun (b, t) => .ok (b, .inl t)
    | .inr t, u => (J.write t u).bind fun (b, t) => .ok (b, .inr t)

/-- A tag of any of the three versions. -/
abbrev AnyTag := Tag22 ⊕ Tag23 ⊕ Tag24

/-- `id3v2_tag`'s virtual members: scribbu/id3v2.hh L699-714. -/
def anyI (z : Zlib) : TagI AnyTag := tag22I.sum ((tag23I z).sum (tag24I z))

end Scribbu
