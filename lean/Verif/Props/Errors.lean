import Verif.Proofs.Errors

/-! C193: the messages of exceptions. -/

namespace Scribbu.Props
open Scribbu Scribbu.Errors Spec.Errors

/-- C193 in full: whatever exception is caught, asking it for its message does not end the program; the message is one line of characters that
can be seen; and no other exception gives this message, so that it says what happened to what. -/
def C193_claim : Prop := ∀ e : Err, ∃ m, what e = some m ∧ Seen m ∧ ∀ e', what e' = some m → e' = e

theorem not_C193 {e e' : Err} (hne : e ≠ e') (h : what e = what e') : ¬ C193_claim := by
  intro hc
  obtain ⟨m, h1, -, h2⟩ := hc e
  exact hne (h2 e' (h ▸ h1)).symm

/-- **Finding**: if the base of the size is given twice in a template, the message is the same as if the base of the MD5 checksum is: it says
that `base` is duplicate, and not in which of the fields. Likewise for the others of their options, and for those of the name of the file and of
the artist (`the`, `cap`, `ws`). -/
theorem C193_refuted : ¬ C193_claim := not_C193 (e := .duplicateOption .sizeBase) (e' := .duplicateOption .md5Base) (by decide) (by decide +kernel)

/-- **Finding**: a byte for the encoding of a text that stands for none is shown as a character, not as a number: the message for 10 ends in an
empty line; none of those below 32 can be seen. -/
theorem C193_refuted_unicode : (∃ m, what (.badUnicode 10) = some (m ++ [10])) ∧
    ∀ b : Byte, (b < 32 ∨ b = 127) → ∀ m, what (.badUnicode b) = some m → b ≠ 0 → ¬ Seen m := by
  refine ⟨⟨/- Unknown value for the Unicode byte:  -/ [85, 110, 107, 110, 111, 119, 110, 32, 118, 97, 108, 117, 101, 32, 102, 111, 114, 32, 116, 104, 101, 32, 85, 110, 105, 99, 111, 100, 101, 32, 98, 121, 116, 101, 58, 32], by decide +kernel⟩, ?_⟩
  intro b hb m hm h0 hs
  have e : what (.badUnicode b) = some (/- Unknown value for the Unicode byte:  -/ [85, 110, 107, 110, 111, 119, 110, 32, 118, 97, 108, 117, 101, 32, 102, 111, 114, 32, 116, 104, 101, 32, 85, 110, 105, 99, 111, 100, 101, 32, 98, 121, 116, 101, 58, 32] ++ [b]) := by
    simp [what, full, h0]
  rw [e] at hm
  cases hm
  have := hs b (by simp)
  rcases hb with hb | hb
  · exact absurd hb (UInt8.not_lt.2 this.1)
  · exact this.2 hb

/-- **Finding**: an identifier is shown up to the first zero in it: that `A` with three zeros is not known and that `A`, a zero, and `BC` is
not known is said in the same words. Of how often a frame is there nothing is said then. -/
theorem C193_refuted_zero (n n' : Nat) : what (.unknownFrame (.four 65 0 0 0)) = what (.unknownFrame (.four 65 0 66 67)) ∧
    what (.duplicateFrame (.four 65 0 0 0) n) = what (.duplicateFrame (.four 65 0 0 0) n') ∧
    what (.duplicateFrame (.four 65 0 0 0) n) = some /- Frame A -/ [70, 114, 97, 109, 101, 32, 65] := by
  refine ⟨by decide +kernel, ?_, ?_⟩ <;> simp [what, full, FrameName.text]

/-- C193, as far as it holds: asking any exception for its message does not end the program. If identifiers of frames, names of files and
such like are made of characters that can be seen, then so is the message; and no other exception of this kind has the same, but for duplicate
options with the same name. Missing: options with the same name, bytes shown as characters, identifiers with zeros. -/
theorem C193_partial (e : Err) : (∃ m, what e = some m) ∧
    (Plain e → ∃ m, what e = some m ∧ Seen m ∧ ∀ e', Plain e' → what e' = some m →
      e' = e ∨ ∃ o o', e = .duplicateOption o ∧ e' = .duplicateOption o' ∧ optText o = optText o') := by
  constructor
  · have h : ∃ m, full e = .ok m := by
      cases e with
      | unknownTextFrame x =>
        obtain ⟨s, hs, -⟩ := frame_printed x
        exact ⟨_, by simp only [full, hs, Res.ok_bind]; rfl⟩
      | badCodeUnit e cb =>
        obtain ⟨s, hs, -⟩ := encoding_printed e
        exact ⟨_, by simp only [full, hs, Res.ok_bind]; rfl⟩
      | _ => exact ⟨_, rfl⟩
    obtain ⟨m, hm⟩ := h
    exact ⟨_, by simp only [what, hm]; rfl⟩
  · intro hp
    obtain ⟨m, hm, hs⟩ := full_seen hp
    refine ⟨m, by simp only [what, hm, takeWhile_seen hs], hs, ?_⟩
    intro e' hp' h'
    obtain ⟨m', hm', hs'⟩ := full_seen hp'
    simp only [what, hm', takeWhile_seen hs'] at h'
    cases h'
    exact full_inj hp hp' hm hm'

/-- The documented messages of some: the number of a version, of a genre or of a separator is given in full. -/
theorem C193_numbers : (∀ v : Byte, what (.unknownVersion v) = some (/- Unknown version  -/ [85, 110, 107, 110, 111, 119, 110, 32, 118, 101, 114, 115, 105, 111, 110, 32] ++ Backup.dec v.toNat)) ∧
    (∀ g : Byte, what (.badGenre g) = some (/- invalid ID3v1 numeric genre  -/ [105, 110, 118, 97, 108, 105, 100, 32, 73, 68, 51, 118, 49, 32, 110, 117, 109, 101, 114, 105, 99, 32, 103, 101, 110, 114, 101, 32] ++ Backup.dec g.toNat)) ∧
    (∀ c : Byte, c.toNat < 128 → what (.badSeparator c) = some (Backup.dec c.toNat ++ /-  is not a valid separater -/ [32, 105, 115, 32, 110, 111, 116, 32, 97, 32, 118, 97, 108, 105, 100, 32, 115, 101, 112, 97, 114, 97, 116, 101, 114])) := by
  refine ⟨fun v => ?_, fun g => ?_, fun c hc => ?_⟩
  · have h := full_seen (e := .unknownVersion v) trivial
    obtain ⟨m, hm, hs⟩ := h
    simp only [what, hm, takeWhile_seen hs]
    cases hm
    rfl
  · obtain ⟨m, hm, hs⟩ := full_seen (e := .badGenre g) trivial
    simp only [what, hm, takeWhile_seen hs]
    cases hm
    rfl
  · obtain ⟨m, hm, hs⟩ := full_seen (e := .badSeparator c) trivial
    simp only [what, hm, takeWhile_seen hs]
    cases hm
    simp only [signed, if_pos hc]

example : Plain (.duplicateFrame (.four 84 73 84 50) 2) ∧ what (.duplicateFrame (.four 84 73 84 50) 2) = some /- Frame TIT2 was defined 2 times -/ [70, 114, 97, 109, 101, 32, 84, 73, 84, 50, 32, 119, 97, 115, 32, 100, 101, 102, 105, 110, 101, 100, 32, 50, 32, 116, 105, 109, 101, 115] :=
  ⟨by simp only [Plain, PlainName]; decide, by decide +kernel⟩
example : Plain (.fileOpen /- a': b -/ [97, 39, 58, 32, 98] /- No such file or directory -/ [78, 111, 32, 115, 117, 99, 104, 32, 102, 105, 108, 101, 32, 111, 114, 32, 100, 105, 114, 101, 99, 116, 111, 114, 121]) ∧
    what (.fileOpen /- a': b -/ [97, 39, 58, 32, 98] /- No such file or directory -/ [78, 111, 32, 115, 117, 99, 104, 32, 102, 105, 108, 101, 32, 111, 114, 32, 100, 105, 114, 101, 99, 116, 111, 114, 121]) = some /- Failed to open `a': b': No such file or directory -/ [70, 97, 105, 108, 101, 100, 32, 116, 111, 32, 111, 112, 101, 110, 32, 96, 97, 39, 58, 32, 98, 39, 58, 32, 78, 111, 32, 115, 117, 99, 104, 32, 102, 105, 108, 101, 32, 111, 114, 32, 100, 105, 114, 101, 99, 116, 111, 114, 121] :=
  ⟨⟨seen_all (by decide +kernel), seen_all (by decide +kernel), by decide⟩, by decide +kernel⟩
example : Plain (.fileNotFound [97, 34, 98]) ∧ what (.fileNotFound [97, 34, 98]) = some (/- ``"a\"b"'' not found -/ [96, 96, 34, 97, 92, 34, 98, 34, 39, 39, 32, 110, 111, 116, 32, 102, 111, 117, 110, 100]) :=
  ⟨seen_all (by decide +kernel), by decide +kernel⟩
example : what (.badSeparator 200) = some /- -56 is not a valid separater -/ [45, 53, 54, 32, 105, 115, 32, 110, 111, 116, 32, 97, 32, 118, 97, 108, 105, 100, 32, 115, 101, 112, 97, 114, 97, 116, 101, 114] := by decide +kernel

end Scribbu.Props
