import Verif.Proofs.Kills
import Verif.Props.Killed

/-! **C194**: the audio through any history of sub-commands, any of which may be killed. -/

namespace Scribbu.Props
open Scribbu Path Backup Replace FM Process Scribbu.Spec History

/-- Through runs on the file `p`, any number of them, each of which ends as it will or is killed at any moment, the files `s` may become others. The runs can write what they have to, and
meet the condition `safe`. -/
inductive Through (z : Zlib) (mk2 mk3 mk4 : Id3v2Info → SM AnyTag) (p : Path) (safe : Run AnyTag → Bytes → Prop) (s : FS) : FS → Prop
  | start : Through z mk2 mk3 mk4 p safe s s
  | ended {t : FS} (r : Run AnyTag) : Through z mk2 mk3 mk4 p safe s t → SoundRuns z mk2 mk3 mk4 p [r] t → (∀ d, t.get p = some d → safe r d) →
      Through z mk2 mk3 mk4 p safe s (afterRuns z mk2 mk3 mk4 [r] t)
  | killed {t x : FS} (r : Run AnyTag) : Through z mk2 mk3 mk4 p safe s t → SoundRuns z mk2 mk3 mk4 p [r] t → (∀ d, t.get p = some d → safe r d) →
      x ∈ moments z mk2 mk3 mk4 r t → Through z mk2 mk3 mk4 p safe s x

/-- **C194**, in full: if the audio by itself has no tags, nor looks like part of one, the file has it, all of it, after any number of runs, whichever of them were killed, and when. -/
def C194_claim : Prop := ∀ (z : Zlib) (mk2 mk3 mk4 : Id3v2Info → SM AnyTag) (p : Path) (s t : FS) (a : Bytes),
  Distinct a → Keeps a p s → Through z mk2 mk3 mk4 p (fun _ _ => True) s t → ∃ d, t.get p = some d ∧ a <:+: d

/-- Audio that says "TAG" 100 bytes before its end. -/
def lateTag : Bytes := List.replicate 300 7 ++ (TAG ++ List.replicate 97 8)

theorem lateTag_distinct : Distinct lateTag := by
  refine ⟨⟨by decide +kernel, ?_, ?_⟩, by decide +kernel, ?_⟩
  · rw [stdAt_iff]; decide +kernel
  · rw [extAt_iff]; decide +kernel
  · rintro ⟨x, y, h, -⟩
    have : (0x2b : Byte) ∈ lateTag := by rw [h]; simp [TAGP]
    revert this
    decide +kernel

/-- The file after a run that was to add an ID3v1 tag, killed when 28 bytes of it had been written. -/
def torn1 : FS := [(fileF, lateTag ++ (TAG ++ [65] ++ List.replicate 24 0))]

theorem torn1_seen : torn1 ∈ moments zId noMk noMk noMk titleRun [(fileF, lateTag)] := by
  unfold moments
  decide +kernel

theorem infix_eq {a d : Bytes} (h : a <:+: d) (hl : d.length ≤ a.length + 28) : (List.range 29).any (fun i => (d.drop i).take a.length == a) = true := by
  obtain ⟨x, y, rfl⟩ := h
  rw [List.any_eq_true]
  refine ⟨x.length, ?_, ?_⟩
  · simp only [List.length_append] at hl
    exact List.mem_range.2 (by omega)
  · rw [List.append_assoc, List.drop_left, List.take_left]
    exact beq_self_eq_true _

theorem not_C194 : ¬ C194_claim := by
  intro h
  have h0 : Keeps lateTag fileF [(fileF, lateTag)] := ⟨lateTag, by decide +kernel, [], [], by simp, by simp, .inl rfl⟩
  have s1 : SoundRuns zId noMk noMk noMk fileF [titleRun] [(fileF, lateTag)] :=
    ⟨by decide +kernel, calm_fit .done .none, by decide, canSave_of (by decide +kernel), trivial⟩
  have s2 : SoundRuns zId noMk noMk noMk fileF [titleRun] torn1 :=
    ⟨by decide +kernel, calm_fit .done .none, by decide, canSave_of (by decide +kernel), trivial⟩
  obtain ⟨d, h1, h2⟩ := h zId noMk noMk noMk fileF _ _ lateTag lateTag_distinct h0
    (.ended titleRun (.killed titleRun .start s1 (fun _ _ => trivial) torn1_seen) s2 fun _ _ => trivial)
  have h3 : ((afterRuns zId noMk noMk noMk [titleRun] torn1).get fileF).all
      (fun d => decide (d.length ≤ lateTag.length + 28) && !(List.range 29).any (fun i => (d.drop i).take lateTag.length == lateTag)) = true := by decide +kernel
  rw [h1, Option.all_some, Bool.and_eq_true, decide_eq_true_eq, Bool.not_eq_true'] at h3
  rw [infix_eq h2 h3.1] at h3
  exact absurd h3.2 (by decide)

/-- **Finding** (C194). If a sub-command is killed while it writes an ID3v1 tag, the part that has been written moves what precedes it away from the end of the file, and "TAG" somewhere in
the audio may come to be just where an ID3v1 tag would begin. The next sub-command to set a title then takes the end of the audio for a tag and cuts it off. -/
theorem C194_refuted : ¬ C194_claim := not_C194

/-- Two bytes more for a tag of 127, and the others as they are. -/
def growTag : AnyTag → Res (Bool × AnyTag)
  | .inr (.inl t) => .ok (true, bare (if t.padding = 127 then 129 else t.padding))
  | t => .ok (false, t)

/-- A sub-command that adds two bytes to the first of two tags, without making backups. -/
def growRun : Run AnyTag := ⟨{ titler [65] with v1Create := .never, v2Scope := .all, createBackups := false, processV2 := growTag }, calm .done, fileF⟩

/-- A file with two tags, of 127 bytes and of 20. -/
def twoTags : Bytes := ([0x49, 0x44, 0x33, 3, 0, 0, 0, 0, 0, 127] ++ List.replicate 127 0) ++ ([0x49, 0x44, 0x33, 3, 0, 0, 0, 0, 0, 20] ++ List.replicate 20 0) ++ goodAudio

/-- The same when all but one of the bytes of the size of the first tag have been written. -/
def torn2 : FS := [(fileF, ([0x49, 0x44, 0x33, 3, 0, 0, 0, 0, 1, 127] ++ List.replicate 127 0) ++ ([0x49, 0x44, 0x33, 3, 0, 0, 0, 0, 0, 20] ++ List.replicate 20 0) ++ goodAudio)]

theorem twoTags_keeps : Keeps goodAudio fileF [(fileF, twoTags)] := by
  refine ⟨twoTags, by decide +kernel, [([0x49, 0x44, 0x33, 3, 0, 0, 0, 0, 0, 127] ++ List.replicate 127 0), ([0x49, 0x44, 0x33, 3, 0, 0, 0, 0, 0, 20] ++ List.replicate 20 0)], [],
    by decide +kernel, ?_, .inl rfl⟩
  intro t ht
  simp only [List.mem_cons, List.not_mem_nil, or_false] at ht
  rcases ht with rfl | rfl
  · exact ⟨3, 0, 0, 127, ⟨0, 0, 0, 127, _, rfl, by decide, by decide, by decide, by decide⟩, by simp⟩
  · exact ⟨3, 0, 0, 20, ⟨0, 0, 0, 20, _, rfl, by decide, by decide, by decide, by decide⟩, by simp⟩

theorem torn2_seen : torn2 ∈ moments zId noMk mk23 noMk growRun [(fileF, twoTags)] := by
  unfold moments
  decide +kernel

/-- Whether a run writes what `savable` asks for, on a file. -/
theorem sound_one {mk : Id3v2Info → SM AnyTag} {r : Run AnyTag} {s : FS} (h1 : absolute r.env.cwd r.pth = fileF) (h2 : Fit r.env r.pth) (h3 : r.env.rename ≠ .crossDevice)
    (h4 : (s.get fileF).all (savable mk r.proc) = true) : SoundRuns zId noMk mk noMk fileF [r] s :=
  ⟨h1, h2, h3, canSave_of h4, trivial⟩

/-- **Finding** (C194). Tags that are written over others, since they fit, get new sizes, byte by byte. Killed in between, a sub-command leaves a size that is made up of the old one
and the new one, and may say more than either: here 255 instead of 127 or 128. To the next sub-command the first tag then reaches into the audio, and what it covers there is lost when that tag is written, 98
bytes of it; whatever the audio says. -/
theorem C194_refuted_size : Clear goodAudio ∧ Keeps goodAudio fileF [(fileF, twoTags)] ∧
    ∃ t, Through zId noMk mk23 noMk fileF (fun _ _ => True) [(fileF, twoTags)] t ∧ ¬ ∃ d, t.get fileF = some d ∧ goodAudio <:+: d := by
  refine ⟨⟨by decide +kernel, ?_, by decide +kernel⟩, twoTags_keeps, _,
    .ended growRun (.killed growRun .start (sound_one (by decide +kernel) (calm_fit .done .none) (by decide) (by decide +kernel)) (fun _ _ => trivial) torn2_seen)
      (sound_one (by decide +kernel) (calm_fit .done .none) (by decide) (by decide +kernel)) fun _ _ => trivial, ?_⟩
  · rintro ⟨x, y, h⟩
    have : (0x54 : Byte) ∈ goodAudio := by rw [← h]; simp [TAG]
    revert this
    decide +kernel
  · rintro ⟨d, h1, h2⟩
    have h3 : ((afterRuns zId noMk mk23 noMk [growRun] torn2).get fileF).all (fun d => d.countP (· = 7) == 302) = true := by decide +kernel
    rw [h1, Option.all_some, beq_iff_eq] at h3
    have h4 := h2.sublist.countP_le (p := (· = 7))
    rw [h3] at h4
    revert h4
    decide +kernel

/-- C194, as far as it holds: if the audio says "TAG" nowhere, then through any number of runs of any sub-commands, each of which ends as it will or is killed at any moment, the file
consists of complete ID3v2 tags, the audio, and what has been written of ID3v1 tags; nothing needs to be restored in between. The runs make backups, or else there is one ID3v2 tag at
most, before and after. Missing: audio that says "TAG" (`C194_refuted`); several tags without backups (`C194_refuted_size`); that what is left of ID3v1 tags is ever removed (`C192_refuted`);
what is excepted in C191; bytes that get to the disk in another order (C190). -/
theorem C194_partial (z : Zlib) (mk2 mk3 mk4 : Id3v2Info → SM AnyTag) (p : Path) (s t : FS) (a : Bytes) (ha : Clear a)
    (hk : ∃ d, s.get p = some d ∧ Bears a d) (ht : Through z mk2 mk3 mk4 p (fun r d => CanKill mk2 mk3 mk4 r.proc d) s t) : ∃ d, t.get p = some d ∧ Bears a d := by
  induction ht with
  | start => exact hk
  | ended r _ h1 h2 ih =>
    obtain ⟨rfl, h3, h4, h5, -⟩ := h1
    obtain ⟨d, h6, h7⟩ := ih
    exact (process_whole h3 h4 ha h6 h7 (h5 d h6) (h2 d h6) _ rfl).2
  | killed r _ h1 h2 hx ih =>
    obtain ⟨rfl, h3, h4, h5, -⟩ := h1
    obtain ⟨d, h6, h7⟩ := ih
    exact (process_whole h3 h4 ha h6 h7 (h5 d h6) (h2 d h6) _ rfl).1 _ hx

/-- Files as in C191 are such files. -/
theorem bears_of {a d : Bytes} (h : Carries a d) : Bears a d := by
  obtain ⟨tags, v1, h1, h2, h3⟩ := h
  exact ⟨tags, v1, h1, h2, debris_v1 h3⟩

/-- What is left of a run that was killed when it had written 28 bytes of an ID3v1 tag. -/
def left1 : FS := [(fileF, goodAudio ++ (TAG ++ [65] ++ List.replicate 24 0))]

/-- A run that adds tags. -/
def tagRun : Run AnyTag := ⟨tagger 20 [66] true, calm .done, fileF⟩

theorem with_backups {mk : Id3v2Info → SM AnyTag} {P : Processor AnyTag} {d : Bytes} (h : P.createBackups = true) : CanKill noMk mk noMk P d := by
  intro h'
  rw [h] at h'
  cases h'

/-- A file that begins with no tag has none. -/
theorem oneTag_none {d : Bytes} (h : d.head? ≠ some 0x49) : OneTag d := by
  intro tags rest he hT
  cases tags with
  | nil => simp
  | cons t ts =>
    obtain ⟨v, r, f, n, ⟨s0, s1, s2, s3, x, rfl, -⟩, -⟩ := hT t (by simp)
    rw [he] at h
    simp at h

theorem goodAudio_clear : Clear goodAudio := C194_refuted_size.1

/-- A run that leaves no ID3v2 tags where there are none may be killed. -/
theorem canKill_titleRun {s : FS} (h : (s.get fileF).all (fun d => d.head? != some 0x49 && match readTagset noMk noMk noMk (some d) with
      | .ok r => match edit titleRun.proc r.1 r.2 with
        | .ok w => decide (w.2.1.length ≤ 1)
        | _ => true
      | _ => true) = true) (d : Bytes) (hd : s.get fileF = some d) : CanKill noMk noMk noMk titleRun.proc d := by
  intro _
  rw [hd, Option.all_some, Bool.and_eq_true] at h
  refine ⟨oneTag_none (by simpa using h.1), ?_⟩
  intro v2 v1 dirty v2' v1' hr he
  have h2 := h.2
  simp only [hr, he, decide_eq_true_eq] at h2
  exact h2

/-- The hypotheses are met: two runs are killed one after the other. -/
example : ∃ t, Through zId noMk noMk noMk fileF (fun r d => CanKill noMk noMk noMk r.proc d) [(fileF, goodAudio)] t ∧
    t.get fileF = some (goodAudio ++ ((TAG ++ [65] ++ List.replicate 24 0) ++ [0x54, 0x41])) := by
  refine ⟨[(fileF, goodAudio ++ ((TAG ++ [65] ++ List.replicate 24 0) ++ [0x54, 0x41]))],
    .killed titleRun (.killed (x := left1) titleRun .start (sound_one (by decide +kernel) (calm_fit .done .none) (by decide) (by decide +kernel)) (canKill_titleRun (by decide +kernel)) ?_)
      (sound_one (by decide +kernel) (calm_fit .done .none) (by decide) (by decide +kernel)) (canKill_titleRun (by decide +kernel)) ?_, by decide +kernel⟩ <;>
  · unfold moments
    decide +kernel

/-- And with backups, after such a run: tags are added, and all of the audio is there. -/
example : ∃ t, Through zId noMk mk23 noMk fileF (fun r d => CanKill noMk mk23 noMk r.proc d) left1 t ∧ (t.get fileF).map (·.length) = some (30 + 400 + 28 + 128) ∧
    ∃ d, t.get fileF = some d ∧ Bears goodAudio d := by
  have h : Through zId noMk mk23 noMk fileF (fun r d => CanKill noMk mk23 noMk r.proc d) left1 _ :=
    .ended tagRun .start (sound_one (by decide +kernel) (calm_fit .done .none) (by decide) (by decide +kernel)) fun _ _ => with_backups rfl
  refine ⟨_, h, by decide +kernel, C194_partial _ _ _ _ _ _ _ _ goodAudio_clear ⟨_, rfl, [], _, rfl, by simp, [(TAG ++ [65] ++ List.replicate 24 0)], by simp, ?_⟩ h⟩
  intro w hw
  simp only [List.mem_singleton] at hw
  subst hw
  exact ⟨by simp [TAG], TAG ++ [65] ++ List.replicate 124 0, .inl ⟨[65] ++ List.replicate 124 0, by simp [TAG], by simp⟩, List.replicate 100 0, by decide +kernel⟩

end Scribbu.Props
