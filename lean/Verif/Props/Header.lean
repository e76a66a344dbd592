import Verif.Proofs.Header

/-! Property C07: probing for an ID3v2 header. -/

namespace Scribbu.Props
open Scribbu Scribbu.Spec

/-- **C07** On any good stream, at any position and with any exception mask,
`looking_at_id3v2` returns normally; it reports a tag with given fields exactly
when the bytes at the get position form a header with those fields; the stream's
bytes, mask and error state are unchanged and the get pointer moves (by ten) only
if a tag was found and `restore_get_if_found` is false. -/
theorem C07_looking_at_id3v2 (s : IStream) (hs : s.Good) (restore : Bool) :
    ∃ o s', lookingAtId3v2 restore s = (.ok o, s') ∧
      (∀ v r f n, o = some ⟨v, r, f, n⟩ ↔ IsHeader (s.data.drop s.pos) v r f n) ∧
      s'.data = s.data ∧ s'.mask = s.mask ∧ s'.Good ∧
      s'.pos = if o.isSome ∧ restore = false then s.pos + 10 else s.pos := by
  obtain ⟨d, p, m, st⟩ := s
  simp only [IStream.Good] at hs
  subst hs
  obtain ⟨o, h1, h2⟩ := lookingAt_spec d p m restore
  refine ⟨o, _, h1, h2, rfl, rfl, rfl, ?_⟩
  cases o <;> cases restore <;> simp

/-- Two unrelated bytes, then a v2.3 header announcing 257 bytes. -/
example : lookingAtId3v2 false
    ⟨[9, 9, 0x49, 0x44, 0x33, 3, 0, 0x80, 0, 0, 2, 1, 7], 2, IoBits.failBad, IoBits.none⟩ =
    (.ok (some ⟨3, 0, 0x80, 257⟩),
     ⟨[9, 9, 0x49, 0x44, 0x33, 3, 0, 0x80, 0, 0, 2, 1, 7], 12, IoBits.failBad, IoBits.none⟩) := by
  decide
/-- A short read: nine bytes left. -/
example : lookingAtId3v2 false
    ⟨[0x49, 0x44, 0x33, 3, 0, 0x80, 0, 0, 2], 0, IoBits.none, IoBits.none⟩ =
    (.ok none, ⟨[0x49, 0x44, 0x33, 3, 0, 0x80, 0, 0, 2], 0, IoBits.none, IoBits.none⟩) := by
  decide

end Scribbu.Props
