import Verif.Spec.Locality
import Verif.Proofs.Locality
import Verif.Props.WriteBack

/-! Property C197: what is read from a tag depends on its bytes only. -/

namespace Scribbu.Props
open Scribbu Scribbu.Spec Scribbu.WriteBack Scribbu.Locality

/-- **C197** A complete tag of whatever version, anywhere in a stream whatever its exception mask: reading it gives what reading it gives where there is
nothing else, be that a tag, an exception or undefined behaviour. If it gives a tag, the stream is left right after it, with its mask as it was. -/
theorem C197_tag (z : Zlib) (b : Bytes) (hb : CompleteTag b) (pre post : Bytes) (m m' : IoBits) :
    (maybeReadId3v2 r2 (r3 z) (r4 z) ⟨pre ++ (b ++ post), pre.length, m, IoBits.none⟩).1 =
      (maybeReadId3v2 r2 (r3 z) (r4 z) ⟨b, 0, m', IoBits.none⟩).1 ∧
    ∀ o, (maybeReadId3v2 r2 (r3 z) (r4 z) ⟨b, 0, m', IoBits.none⟩).1 = .ok o → (∃ t, o = some t) ∧
      (maybeReadId3v2 r2 (r3 z) (r4 z) ⟨pre ++ (b ++ post), pre.length, m, IoBits.none⟩).2 =
        ⟨pre ++ (b ++ post), pre.length + b.length, m, IoBits.none⟩ := by
  obtain ⟨P, S, R⟩ := readers z
  exact maybe_anywhere R hb pre post m m'

theorem readTags_silent (z : Zlib) {audio : Bytes} (h : NoHeader audio) : Scheme.readTags z audio = .ok [] := by
  unfold Scheme.readTags
  rw [all_fst, maybe_none _ _ _ _ (by simpa using h)]
  rfl

theorem noHeader_nil : NoHeader [] := noHeader_of_short (by decide)

/-- **C197** The tags of a file that begins with a complete tag: what is read from that tag alone, followed by what is read from the rest alone,
whatever the rest is. If either fails, so does the file, in the same way; the first counts. -/
theorem C197_followed (z : Zlib) (b : Bytes) (hb : CompleteTag b) (rest : Bytes) :
    Scheme.readTags z (b ++ rest) = (Scheme.readTags z b).bind fun ts => (Scheme.readTags z rest).bind fun us => .ok (ts ++ us) := by
  obtain ⟨P, S, R⟩ := readers z
  have h1 := all_append R hb rest IoBits.all
  have h2 := all_append R hb [] IoBits.all
  rw [List.append_nil] at h2
  have h0 : (readAllId3v2 r2 (r3 z) (r4 z) (([] : Bytes).length + 1) ⟨[], 0, IoBits.all, IoBits.none⟩).1 = .ok (some []) := by
    rw [all_fst, maybe_none _ _ _ _ (by simpa using noHeader_nil)]
  rw [h0] at h2
  unfold Scheme.readTags
  rw [h1, h2]
  cases (maybeReadId3v2 r2 (r3 z) (r4 z) ⟨b, 0, IoBits.all, IoBits.none⟩).1 with
  | ok o =>
    simp only [Res.ok_bind, Option.map_some, List.append_nil]
    cases (readAllId3v2 r2 (r3 z) (r4 z) (rest.length + 1) ⟨rest, 0, IoBits.all, IoBits.none⟩).1 with
    | ok o => cases o <;> rfl
    | throw e => rfl
    | ub e => rfl
  | throw e => rfl
  | ub e => rfl

/-- **C197** The tags of a file that is any number of complete tags followed by something that is not a tag: what is read from each of them alone,
in order. What comes after them has no say. -/
theorem C197_file (z : Zlib) (bs : List Bytes) (hbs : ∀ b ∈ bs, CompleteTag b) (audio : Bytes) (ha : NoHeader audio) :
    Scheme.readTags z (bs.flatten ++ audio) = oneByOne (Scheme.readTags z) bs := by
  induction bs with
  | nil => exact readTags_silent z ha
  | cons b bs ih =>
    rw [List.flatten_cons, List.append_assoc, C197_followed z b (hbs b (by simp)), ih fun c hc => hbs c (by simp [hc])]
    rfl

/-- The two tags of the examples. -/
def aTag23 : Bytes := [73, 68, 51, 3, 0, 0x20, 0, 0, 0, 13, 84, 73, 84, 50, 0, 0, 0, 2, 0, 0, 0, 65, 0]
def aTag22 : Bytes := [73, 68, 51, 2, 0, 0x80, 0, 0, 0, 9, 84, 84, 50, 0, 0, 2, 0, 65, 0]

theorem aTag23_complete : CompleteTag aTag23 :=
  ⟨3, 0, 0x20, 13, ⟨0, 0, 0, 13, _, rfl, by decide, by decide, by decide, by decide⟩, rfl⟩

theorem aTag22_complete : CompleteTag aTag22 :=
  ⟨2, 0, 0x80, 9, ⟨0, 0, 0, 9, _, rfl, by decide, by decide, by decide, by decide⟩, rfl⟩

/-- Two tags, each with a frame, and audio: the hypotheses are met, and two tags are read. -/
example : ((Scheme.readTags zId ([aTag23, aTag22].flatten ++ [0xff, 0xfb])).bind fun ts => .ok (ts.map Sum.isLeft)) = .ok [false, true] := by
  rw [C197_file zId _ (by
    intro b hb
    simp only [List.mem_cons, List.not_mem_nil, or_false] at hb
    rcases hb with rfl | rfl
    · exact aTag23_complete
    · exact aTag22_complete) _ (noHeader_of_short (by decide))]
  decide +kernel

/-- A tag of a version there is no class for, after a good tag and before whatever else: nothing is read at all. -/
example (rest : Bytes) : ((Scheme.readTags zId (aTag23 ++ ([73, 68, 51, 5, 0, 0, 0, 0, 0, 1, 0] ++ rest))).bind fun ts => .ok ts.length) =
    .throw .unknownVersion := by
  rw [C197_followed zId aTag23 aTag23_complete,
    C197_followed zId [73, 68, 51, 5, 0, 0, 0, 0, 0, 1, 0] ⟨5, 0, 0, 1, ⟨0, 0, 0, 1, [0], rfl, by decide, by decide, by decide, by decide⟩, rfl⟩]
  have h1 : ((Scheme.readTags zId aTag23).bind fun ts => .ok ts.length) = .ok 1 := by decide +kernel
  have h2 : Scheme.readTags zId [73, 68, 51, 5, 0, 0, 0, 0, 0, 1, 0] = .throw .unknownVersion := by rfl
  rw [Res.bind_eq_ok] at h1
  obtain ⟨ts, h1, -⟩ := h1
  rw [h1, h2]
  rfl

/-- The ID3v2.3 tag in the middle of a stream. -/
example : ∃ t, maybeReadId3v2 r2 (r3 zId) (r4 zId) ⟨[1, 2, 3] ++ (aTag23 ++ [0xff]), 3, ⟨false, false, true⟩, IoBits.none⟩ =
    (.ok (some t), ⟨[1, 2, 3] ++ (aTag23 ++ [0xff]), 26, ⟨false, false, true⟩, IoBits.none⟩) := by
  obtain ⟨h1, h2⟩ := C197_tag zId aTag23 aTag23_complete [1, 2, 3] [0xff] ⟨false, false, true⟩ IoBits.all
  have h3 : ((maybeReadId3v2 r2 (r3 zId) (r4 zId) ⟨aTag23, 0, IoBits.all, IoBits.none⟩).1.bind fun o => .ok o.isSome) = .ok true := by
    decide +kernel
  rw [Res.bind_eq_ok] at h3
  obtain ⟨o, h3, -⟩ := h3
  obtain ⟨⟨t, rfl⟩, h4⟩ := h2 _ h3
  exact ⟨t, Prod.ext (h1.trans h3) h4⟩

end Scribbu.Props
