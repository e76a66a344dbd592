import Verif.Proofs.Killed
import Verif.Props.History

/-! **C192**: a sub-command that is killed. -/

namespace Scribbu.Props
open Scribbu Path Backup Replace FM Process Scribbu.Spec History

/-- The moments of a run. -/
def moments (z : Zlib) (mk2 mk3 mk4 : Id3v2Info → SM AnyTag) (r : Run AnyTag) (s : FS) : List FS :=
  (processFile (anyI z) mk2 mk3 mk4 r.proc r.env r.pth s).seen

/-- **C192**, in full: whenever a run is killed, the file consists of complete ID3v2 tags, the audio, and perhaps an ID3v1 tag; or there is a backup with the file as it was. -/
def C192_claim : Prop := ∀ (z : Zlib) (mk2 mk3 mk4 : Id3v2Info → SM AnyTag) (r : Run AnyTag) (p : Path) (s : FS) (a d : Bytes),
  Distinct a → s.get p = some d → Carries a d → SoundRuns z mk2 mk3 mk4 p [r] s →
    ∀ x ∈ moments z mk2 mk3 mk4 r s, Keeps a p x ∨ ∃ q, Bk p q ∧ x.get q = some d

theorem one_file {p q : Path} {d d' : Bytes} (h : FS.get [(p, d)] q = some d') : q = p ∧ d' = d := by
  unfold FS.get at h
  by_cases hq : p = q
  · simp only [List.find?_cons, hq, decide_true, Option.map_some, Option.some.injEq] at h
    exact ⟨hq.symm, h.symm⟩
  · simp [hq] at h

/-- No tags, the audio, and one byte more. -/
theorem not_carries {d : Bytes} (h0 : d.head? ≠ some 0x49) {a : Bytes} (h1 : a.length < d.length) (h2 : d.length < a.length + 128) : ¬ Carries a d := by
  rintro ⟨tags, v1, rfl, hT, hv⟩
  cases tags with
  | nil =>
    simp only [List.flatten_nil, List.nil_append, List.length_append] at h1 h2
    rcases hv with rfl | ⟨t, rfl, ht⟩ | ⟨x, t, rfl, hx, ht⟩
    · simp at h1
    · simp [TAG, ht] at h2
    · simp [TAG, TAGP, hx, ht] at h2
  | cons t ts =>
    obtain ⟨v, r, f, n, ⟨s0, s1, s2, s3, rest, rfl, -⟩, -⟩ := hT t (by simp)
    simp at h0

/-- A sub-command that sets the title in the ID3v1 tag, without making backups. -/
def titleRun : Run AnyTag := ⟨{ titler [65] with createBackups := false }, calm .done, fileF⟩

theorem titleRun_sound : SoundRuns zId noMk noMk noMk fileF [titleRun] [(fileF, goodAudio)] :=
  ⟨by decide +kernel, calm_fit .done .none, by decide, canSave_of (by decide +kernel), trivial⟩

theorem not_C192 : ¬ C192_claim := by
  intro h
  have hm : [(fileF, goodAudio ++ [0x54])] ∈ moments zId noMk noMk noMk titleRun [(fileF, goodAudio)] := by
    unfold moments
    decide +kernel
  have := h zId noMk noMk noMk titleRun fileF [(fileF, goodAudio)] goodAudio goodAudio goodAudio_distinct (by decide +kernel)
    ⟨[], [], by simp, by simp, .inl rfl⟩ titleRun_sound _ hm
  rcases this with ⟨d, h1, h2⟩ | ⟨q, h1, h2⟩
  · obtain ⟨-, rfl⟩ := one_file h1
    exact not_carries (by decide +kernel) (by simp) (by simp) h2
  · exact bk_ne h1 (one_file h2).1

/-- **Finding** (C192). An ID3v1 tag is written at the end of the file as such. If the sub-command is killed meanwhile, the beginning of the tag stays there and is taken for audio from
then on. -/
theorem C192_refuted : ¬ C192_claim := not_C192

/-- **Finding** (C192). The ID3v1 tag that was there is cut off before the new one is written; there is a moment when the file has none, and nothing else has it either, unless backups were
asked for. Killed then, a sub-command that was to set the title has lost artist and album as well. -/
theorem C192_refuted_v1 : ∃ v1, V1Bytes v1 ∧ [(fileF, goodAudio)] ∈ moments zId noMk noMk noMk titleRun [(fileF, goodAudio ++ v1)] := by
  refine ⟨TAG ++ List.replicate 125 1, .inl ⟨_, rfl, by simp⟩, ?_⟩
  unfold moments
  decide +kernel

/-- C192, as far as it holds: whenever a run is killed, the audio is in the file, all of it. Behind it is part of an ID3v1 tag, all of one, or nothing. Before it are complete
ID3v2 tags; or the file is as before but for the beginning of its tags, over which tags of the same length in all were being written. Or else there is a backup with the file as it
was. That holds for temporary files on another file system too, and however the run goes wrong otherwise. Missing: that tags are complete (`C192_refuted`), and that the ID3v1
tag is there (`C192_refuted_v1`); tags as excepted in C191; bytes that get to the disk in another order (C190). -/
theorem C192_partial (z : Zlib) (mk2 mk3 mk4 : Id3v2Info → SM AnyTag) (r : Run AnyTag) (s : FS) (a d : Bytes) (ha : Distinct a)
    (hf : Fit r.env r.pth) (h0 : s.get (absolute r.env.cwd r.pth) = some d) (hc : Carries a d) (hs : CanSave z mk2 mk3 mk4 r.proc d) :
    ∀ x ∈ moments z mk2 mk3 mk4 r s, (∃ d', x.get (absolute r.env.cwd r.pth) = some d' ∧ Survives a d d') ∨
      ∃ q, Bk (absolute r.env.cwd r.pth) q ∧ x.get q = some d :=
  (process_alive hf ha h0 hc hs s rfl).1

/-- The same after any history of runs: whenever the last of them is killed. -/
theorem C192_history_partial (z : Zlib) (mk2 mk3 mk4 : Id3v2Info → SM AnyTag) (runs : List (Run AnyTag)) (r : Run AnyTag) (p : Path) (s : FS) (a : Bytes) (ha : Distinct a)
    (hk : Keeps a p s) (hr : SoundRuns z mk2 mk3 mk4 p runs s) (hl : SoundRuns z mk2 mk3 mk4 p [r] (afterRuns z mk2 mk3 mk4 runs s)) :
    ∃ d, (afterRuns z mk2 mk3 mk4 runs s).get p = some d ∧ Carries a d ∧
      ∀ x ∈ moments z mk2 mk3 mk4 r (afterRuns z mk2 mk3 mk4 runs s), (∃ d', x.get p = some d' ∧ Survives a d d') ∨ ∃ q, Bk p q ∧ x.get q = some d := by
  obtain ⟨d, h1, h2⟩ := C191_partial z mk2 mk3 mk4 runs p s a ha hk hr
  obtain ⟨rfl, h3, -, h4, -⟩ := hl
  exact ⟨d, h1, h2, C192_partial z mk2 mk3 mk4 r _ a d ha h3 h1 h2 (h4 d h1)⟩

/-- `Survives` asks for all of the audio: it is a part of what there is. -/
theorem survives_infix {a d0 d : Bytes} (h : Survives a d0 d) : a <:+: d := by
  rcases h with ⟨tags, w, back, rfl, -⟩ | ⟨olds, news, i, v1, -, -, -, -, -, -, rfl⟩
  · exact ⟨tags.flatten, back, by simp⟩
  · exact ⟨news.flatten.take i ++ olds.flatten.drop i, v1, by simp⟩

/-- The hypotheses are met: four runs, as for C191, are followed by a fifth. -/
def fifthRun : Run AnyTag := ⟨tagger 20 [69] true, calm .crossDevice, fileF⟩

example : (moments zId noMk mk23 noMk fifthRun (afterRuns zId noMk mk23 noMk fourRuns [(fileF, goodAudio)])).length > 500 := by decide +kernel

example : ∀ x ∈ moments zId noMk mk23 noMk ⟨tagger 20 [69] true, calm .done, fileF⟩ (afterRuns zId noMk mk23 noMk fourRuns [(fileF, goodAudio)]),
    (∃ d', x.get fileF = some d' ∧ goodAudio <:+: d') ∨ ∃ q, Bk fileF q ∧ ∃ d', x.get q = some d' ∧ Carries goodAudio d' := by
  have hl : SoundRuns zId noMk mk23 noMk fileF [⟨tagger 20 [69] true, calm .done, fileF⟩] (afterRuns zId noMk mk23 noMk fourRuns [(fileF, goodAudio)]) :=
    ⟨by decide +kernel, calm_fit .done .none, by decide, canSave_of (by decide +kernel), trivial⟩
  obtain ⟨d, h1, h2, h3⟩ := C192_history_partial zId noMk mk23 noMk fourRuns _ fileF [(fileF, goodAudio)] goodAudio goodAudio_distinct
    ⟨goodAudio, by decide +kernel, [], [], by simp, by simp, .inl rfl⟩ fourRuns_sound hl
  intro x hx
  rcases h3 x hx with ⟨d', h4, h5⟩ | ⟨q, h4, h5⟩
  · exact .inl ⟨d', h4, survives_infix h5⟩
  · exact .inr ⟨q, h4, d, h5, h2⟩

end Scribbu.Props
