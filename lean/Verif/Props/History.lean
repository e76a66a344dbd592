import Verif.Proofs.History

/-! **C191**: the audio through any history of sub-commands. -/

namespace Scribbu.Props
open Scribbu Path Backup Replace FM Process Scribbu.Spec History

/-- The files after the runs, one after the other, however each of them ends. -/
def afterRuns (z : Zlib) (mk2 mk3 mk4 : Id3v2Info → SM AnyTag) : List (Run AnyTag) → FS → FS
  | [], s => s
  | r :: rs, s => afterRuns z mk2 mk3 mk4 rs (processFile (anyI z) mk2 mk3 mk4 r.proc r.env r.pth s).fs

/-- Every run is on the file `p`, has its temporary file apart from it and on the same file system, and can write what it has to. -/
def SoundRuns (z : Zlib) (mk2 mk3 mk4 : Id3v2Info → SM AnyTag) (p : Path) : List (Run AnyTag) → FS → Prop
  | [], _ => True
  | r :: rs, s => absolute r.env.cwd r.pth = p ∧ Fit r.env r.pth ∧ r.env.rename ≠ .crossDevice ∧ (∀ d, s.get p = some d → CanSave z mk2 mk3 mk4 r.proc d) ∧
    SoundRuns z mk2 mk3 mk4 p rs (processFile (anyI z) mk2 mk3 mk4 r.proc r.env r.pth s).fs

/-- **C191**, in full: if the audio by itself has no tags, the file keeps it through any number of runs of any sub-commands that can write what they have to. -/
def C191_claim : Prop := ∀ (z : Zlib) (mk2 mk3 mk4 : Id3v2Info → SM AnyTag) (runs : List (Run AnyTag)) (p : Path) (s : FS) (a : Bytes),
  Untagged a → Keeps a p s → SoundRuns z mk2 mk3 mk4 p runs s → Keeps a p (afterRuns z mk2 mk3 mk4 runs s)

/-- Whether an ID3v1 tag has all that `write` wants. -/
def wholeV1 (t : V1Tag) : Bool :=
  t.title.length == t.textSz && t.artist.length == t.textSz && t.album.length == t.textSz && t.year.length == 4 &&
  decide ((if t.v11 then 28 else 30) ≤ t.comment.length) && (!t.v11 || t.track.isSome) &&
  (!t.extended || (t.extGenre.length == 30 && t.startTime.any (·.length == 6) && t.endTime.any (·.length == 6) && t.speed.isSome))

theorem wholeV1_wf {t : V1Tag} (h : wholeV1 t = true) : t.WF := by
  simp only [wholeV1, Bool.and_eq_true, Bool.or_eq_true, Bool.not_eq_true', beq_iff_eq, decide_eq_true_eq, Option.any_eq_true, Option.isSome_iff_exists] at h
  obtain ⟨⟨⟨⟨⟨⟨h1, h2⟩, h3⟩, h4⟩, h5⟩, h6⟩, h7⟩ := h
  refine ⟨h1, h2, h3, h4, h5, fun hv => ?_, fun he => ?_⟩
  · rcases h6 with h6 | h6
    · rw [hv] at h6; cases h6
    · exact h6
  · rcases h7 with h7 | ⟨⟨⟨h7, x, h8⟩, y, h9⟩, h10⟩
    · rw [he] at h7; cases h7
    · exact ⟨h7, ⟨x, h8⟩, ⟨y, h9⟩, h10⟩

/-- A sub-command that gives a file without tags an ID3v1 tag, and sets the title of the one there is. -/
def titler (b : Bytes) : Processor AnyTag :=
  { genre17 with v1Create := .always, createV1 := .ok ((V1Tag.scratch false false).fill.apply (.setTitle b)), processV1 := fun t => .ok (true, t.apply (.setTitle b)) }

/-- It is run on the file `/d/f`. -/
def titlerRun (b : Bytes) : Run AnyTag := ⟨titler b, calm .done, fileF⟩

/-- No ID3v2 tags are read. -/
def noMk : Id3v2Info → SM AnyTag := fun _ => SM.throw .other

/-- An ID3v2.3 tag without frames, with some padding. -/
def isBare : AnyTag → Bool
  | .inr (.inl t) => t.ext.isNone && t.frames.isEmpty && decide (4 ≤ t.padding)
  | _ => false

/-- Whether what a run has to write are a few such tags, and a whole ID3v1 tag. -/
def savable (mk : Id3v2Info → SM AnyTag) (P : Processor AnyTag) (d : Bytes) : Bool :=
  (match Tagset.tagsetSize (some d) with
    | .ok n => decide (n < 2 ^ 28)
    | _ => true) &&
  match readTagset noMk mk noMk (some d) with
    | .ok r => match edit P r.1 r.2 with
      | .ok w => w.2.1.all isBare && decide (w.2.1.length ≤ 5) && w.2.2.all wholeV1 &&
        match Tagset.sizes (anyI zId) (if P.adjustUnsync then .asNeeded else .never) w.2.1 with
        | .ok n => decide (n.1 < 2 ^ 28)
        | _ => true
      | _ => true
    | _ => true

theorem canSave_of {mk : Id3v2Info → SM AnyTag} {P : Processor AnyTag} {o : Option Bytes} (h : o.all (savable mk P) = true) (d : Bytes) (hd : o = some d) :
    CanSave zId noMk mk noMk P d := by
  subst hd
  rw [Option.all_some] at h
  unfold savable at h
  rw [Bool.and_eq_true] at h
  obtain ⟨hz, h⟩ := h
  refine ⟨fun n hn => ?_, ?_⟩
  · rw [hn] at hz
    simpa using hz
  · intro v2 v1 dirty v2' v1' hr he
    rw [hr] at h
    simp only [he, Bool.and_eq_true, List.all_eq_true, decide_eq_true_eq] at h
    obtain ⟨⟨⟨h1, h2⟩, h3⟩, h4⟩ := h
    have key : ∀ t ∈ v2', CanWrite zId t ∧ ∃ q, (anyI zId).padding t = .ok q ∧ 4 ≤ q := by
      intro t ht
      have := h1 t ht
      rcases t with t | t | t
      · cases this
      · obtain ⟨un, ex, ext, pd, fs⟩ := t
        simp only [isBare, Bool.and_eq_true, Option.isNone_iff_eq_none, List.isEmpty_iff, decide_eq_true_eq] at this
        obtain ⟨⟨rfl, rfl⟩, h⟩ := this
        exact ⟨canWrite_plain rfl rfl, pd, rfl, h⟩
      · cases this
    refine ⟨fun t ht => (key t ht).1, ?_, ?_, ?_⟩
    · intro n pad ts' hs
      rw [hs] at h4
      simpa using h4
    · intro _ t q ht hq
      obtain ⟨-, q', h5, h6⟩ := key t (List.mem_of_mem_head? (by simp [ht]))
      rw [h5] at hq
      cases hq
      omega
    · rintro t rfl
      exact wholeV1_wf (by simpa using h3)

/-- Audio that says "TAG+" 227 bytes before its end. -/
def oddAudio : Bytes := [1, 2] ++ sampleExt.image

theorem oddAudio_untagged : Untagged oddAudio := by
  refine ⟨by decide +kernel, ?_, ?_⟩
  · rw [stdAt_iff]; decide +kernel
  · rw [extAt_iff]; decide +kernel

/-- The file after the first run, and after the second. -/
def odd1 : FS := (processFile (anyI zId) noMk noMk noMk (titler [65]) (calm .done) fileF [(fileF, oddAudio)]).fs
def odd2 : FS := (processFile (anyI zId) noMk noMk noMk (titler [66]) (calm .done) fileF odd1).fs

theorem not_C191 : ¬ C191_claim := by
  intro h
  have hf := calm_fit .done .none
  have := h zId noMk noMk noMk [titlerRun [65], titlerRun [66]] fileF [(fileF, oddAudio)] oddAudio oddAudio_untagged
    ⟨oddAudio, by decide +kernel, [], [], by simp, by simp, .inl rfl⟩
    ⟨by decide +kernel, hf, by decide, canSave_of (by decide +kernel), by decide +kernel, hf, by decide, canSave_of (by decide +kernel), trivial⟩
  obtain ⟨d, h1, tags, v1, rfl, h3, -⟩ := this
  change odd2.get fileF = _ at h1
  have h2 : (odd2.get fileF).all (fun d => d.take 1 == [1] && !(d.take 229 == oddAudio)) = true := by decide +kernel
  rw [h1] at h2
  cases tags with
  | nil =>
    have hl : oddAudio.length = 229 := by decide +kernel
    have : ([].flatten ++ (oddAudio ++ v1)).take 229 = oddAudio := by
      rw [← hl]; simp
    rw [Option.all_some, Bool.and_eq_true, this, beq_self_eq_true] at h2
    exact absurd h2.2 (by decide)
  | cons t ts =>
    obtain ⟨v, r, f, n, ⟨s0, s1, s2, s3, rest, rfl, -⟩, -⟩ := h3 t (by simp)
    simp at h2

/-- **Finding** (C191). The audio may say "TAG+" 227 bytes before its end. A first run then adds an ID3v1 tag to it, as it was told; to the next run the end of the audio looks
like the first part of that tag, and setting the title again overwrites part of the audio. -/
theorem C191_refuted : ¬ C191_claim := not_C191

/-- C191, as far as it holds: through any number of runs of any sub-commands, each of which may fail, or be refused, at any point, the file goes on to consist of complete
ID3v2 tags, the same audio, and at most one ID3v1 tag. Missing: audio that looks like part of an ID3v1 tag (`C191_refuted`), or is shorter than one; tags with extended headers that need unsynchronisation (`C33_refuted_extended`)
and ID3v2.4 tags; temporary files on another file system (C58); processes that die in between (C194). -/
theorem C191_partial (z : Zlib) (mk2 mk3 mk4 : Id3v2Info → SM AnyTag) (runs : List (Run AnyTag)) (p : Path) (s : FS) (a : Bytes) (ha : Distinct a)
    (hk : Keeps a p s) (hr : SoundRuns z mk2 mk3 mk4 p runs s) : Keeps a p (afterRuns z mk2 mk3 mk4 runs s) := by
  induction runs generalizing s with
  | nil => exact hk
  | cons r rs ih =>
    obtain ⟨rfl, h2, h3, h4, h5⟩ := hr
    obtain ⟨d, h6, h7⟩ := hk
    exact ih _ (process_keeps h2 h3 ha h6 h7 (h4 d h6) s rfl).2 h5

/-- Audio as good as any. -/
def goodAudio : Bytes := List.replicate 400 7

theorem goodAudio_distinct : Distinct goodAudio := by
  refine ⟨⟨by decide +kernel, ?_, ?_⟩, by decide +kernel, ?_⟩
  · rw [stdAt_iff]; decide +kernel
  · rw [extAt_iff]; decide +kernel
  · rintro ⟨x, y, h, -⟩
    have : (0x54 : Byte) ∈ goodAudio := by rw [h]; simp [TAGP]
    revert this
    decide +kernel

/-- A sub-command that sees to it that there are tags, with much padding in the ID3v2 tag or with little. -/
def tagger (n : Nat) (b : Bytes) (keep : Bool) : Processor AnyTag :=
  { titler b with v2Scope := .all, v2Create := .always, createV2 := .ok (bare n), processV2 := fun _ => .ok (true, bare n), createBackups := keep }

/-- ID3v2.3 tags are read. -/
def mk23 : Id3v2Info → SM AnyTag := fun h => Tag23.read zId h >>= fun t => pure (.inr (.inl t))

/-- Four runs: tags are added; a tag with much padding is put in place of the first, which leaves it less; the disk is full; the same tag is written again. -/
def fourRuns : List (Run AnyTag) := [⟨tagger 20 [65] true, calm .done, fileF⟩, ⟨tagger 600 [66] false, calm .done, fileF⟩,
  ⟨tagger 20 [67] true, { calm .done with write := .after 3 }, fileF⟩, ⟨tagger 20 [68] false, calm .done, fileF⟩]

/-- The hypotheses are met. -/
theorem fourRuns_sound : SoundRuns zId noMk mk23 noMk fileF fourRuns [(fileF, goodAudio)] :=
  ⟨by decide +kernel, calm_fit .done .none, by decide, canSave_of (by decide +kernel), by decide +kernel, calm_fit .done .none, by decide, canSave_of (by decide +kernel),
   by decide +kernel, calm_fit .done .none, by decide, canSave_of (by decide +kernel), by decide +kernel, calm_fit .done .none, by decide, canSave_of (by decide +kernel), trivial⟩

example : Keeps goodAudio fileF (afterRuns zId noMk mk23 noMk fourRuns [(fileF, goodAudio)]) :=
  C191_partial _ _ _ _ _ _ _ _ goodAudio_distinct ⟨goodAudio, by decide +kernel, [], [], by simp, by simp, .inl rfl⟩ fourRuns_sound

/-- All that was to be done has been done: the file is longer by a tag of 30 bytes (the others were put in place of it, and padded to fit) and an ID3v1 tag with the last
title. -/
example : ((afterRuns zId noMk mk23 noMk fourRuns [(fileF, goodAudio)]).get fileF).map (fun d => (d.take 434, d.length)) =
    some ([0x49, 0x44, 0x33, 3, 0, 0, 0, 0, 0, 20] ++ List.replicate 20 0 ++ goodAudio ++ (TAG ++ [68]), 558) := by
  decide +kernel

end Scribbu.Props
