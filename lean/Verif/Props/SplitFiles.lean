import Verif.Proofs.SplitFiles
import Verif.Props.Split

/-! Property C145: what `scribbu split` does to files. -/

namespace Scribbu.Props
open Scribbu Scribbu.Spec Scribbu.Spec.SplitFiles Scribbu.SplitFiles

/-- The status is 0, and these are the files afterwards. -/
def SplitDone (E : Env) (inp : Path) (fs : FS) (after : FS) : Prop :=
  (run E [inp] fs).1 = .ok 0 ∧ (run E [inp] fs).2.fs = after

/-- The full claim: whatever happens, no file but those the command is to make changes, the input in particular; if the status is 0, the
files hold the parts of the input, and no file with such a name holds anything else. -/
def C145_claim : Prop :=
  ∀ (E : Env) (inp : Path) (fs : FS) (f : Bytes), fs.get inp = some f →
    (∀ x ∈ (run E [inp] fs).2.seen, x.get inp = some f) ∧
    (∀ after, SplitDone E inp fs after → ∃ ts track v1, Partition f ts track v1 ∧
      (∀ p b, Holds E.suffix ts track v1 p b → after.get p = some b) ∧
      ∀ p b, OutName E.suffix p → after.get p = some b → Holds E.suffix ts track v1 p b)

/-- Nothing goes wrong. -/
def fineEnv (S left : Bytes) : Env := ⟨S, fun _ => .done, left⟩

/-- **Finding** (C145) `scribbu split track` empties its input before anything has been copied: "track" is also the name of the output. Whatever is
still in the buffer, there is a moment at which the file is empty. -/
theorem C145_refuted : ¬ C145_claim := by
  intro h
  have h := (h (fineEnv [] []) /- track -/ [116, 114, 97, 99, 107] [(/- track -/ [116, 114, 97, 99, 107], /- data -/ [100, 97, 116, 97])] /- data -/ [100, 97, 116, 97] (by decide +kernel)).1 [(/- track -/ [116, 114, 97, 99, 107], [])] (by decide +kernel)
  revert h
  decide +kernel

/-- **Finding** (C145) If the disk is full, the last bytes of a file are found to be lost only when the stream is destroyed, and nobody is told: the
status is 0 and the track is short. -/
theorem C145_refuted_lost : ¬ ∀ (E : Env) (inp : Path) (fs : FS) (f : Bytes), fs.get inp = some f → ¬ OutName E.suffix inp →
    ∀ after, SplitDone E inp fs after → ∃ ts track v1, Partition f ts track v1 ∧
      ∀ p b, Holds E.suffix ts track v1 p b → after.get p = some b := by
  intro h
  have hn : ¬ OutName [] /- a.mp3 -/ [97, 46, 109, 112, 51] := by
    intro h
    generalize hp : (/- a.mp3 -/ [97, 46, 109, 112, 51] : Bytes) = p at h
    cases h <;> simp [tagAt, trackAt, v1At] at hp
  obtain ⟨ts, track, v1, hp, hh⟩ := h ⟨[], fun _ => .lost 1, []⟩ /- a.mp3 -/ [97, 46, 109, 112, 51] [(/- a.mp3 -/ [97, 46, 109, 112, 51], /- data -/ [100, 97, 116, 97])] /- data -/ [100, 97, 116, 97] (by decide +kernel) hn
    [(/- track -/ [116, 114, 97, 99, 107], /- d -/ [100]), (/- a.mp3 -/ [97, 46, 109, 112, 51], /- data -/ [100, 97, 116, 97])] ⟨by decide +kernel, by decide +kernel⟩
  have h1 : track = /- d -/ [100] := by
    have := hh _ _ .track
    have e : FS.get [(/- track -/ [116, 114, 97, 99, 107], /- d -/ [100]), (/- a.mp3 -/ [97, 46, 109, 112, 51], /- data -/ [100, 97, 116, 97])] (trackAt []) = some /- d -/ [100] := by decide +kernel
    rw [e] at this
    exact (Option.some.inj this).symm
  have hl := congrArg List.length hp.all
  have hts : ts = [] := by
    cases ts with
    | nil => rfl
    | cons t ts =>
      obtain ⟨_, _, _, n, _, h2⟩ := hp.tags t (by simp)
      simp at hl
      omega
  rw [h1, hts] at hl
  rcases hp.tail with ⟨h2, _⟩ | ⟨h2, _⟩ | ⟨h2, _⟩
  · rw [h2] at hl; simp at hl
  · simp [h2] at hl
  · simp [h2] at hl

/-- **Finding** (C145) What an earlier run has left is not removed: splitting a file without ID3v1 tag where "id3v1" exists leaves it there, so that the
files together are not the input. -/
theorem C145_refuted_left : ¬ ∀ (S : Bytes) (inp : Path) (fs : FS) (f : Bytes), fs.get inp = some f → ¬ OutName S inp →
    ∀ after, SplitDone (fineEnv S []) inp fs after → ∃ ts track v1, Partition f ts track v1 ∧
      ∀ p b, OutName S p → after.get p = some b → Holds S ts track v1 p b := by
  intro h
  have hn : ¬ OutName [] /- a.mp3 -/ [97, 46, 109, 112, 51] := by
    intro h
    generalize hp : (/- a.mp3 -/ [97, 46, 109, 112, 51] : Bytes) = p at h
    cases h <;> simp [tagAt, trackAt, v1At] at hp
  obtain ⟨ts, track, v1, hp, hh⟩ := h [] /- a.mp3 -/ [97, 46, 109, 112, 51] [(/- a.mp3 -/ [97, 46, 109, 112, 51], /- data -/ [100, 97, 116, 97]), (/- id3v1 -/ [105, 100, 51, 118, 49], /- old -/ [111, 108, 100])] /- data -/ [100, 97, 116, 97] (by decide +kernel) hn
    [(/- track -/ [116, 114, 97, 99, 107], /- data -/ [100, 97, 116, 97]), (/- a.mp3 -/ [97, 46, 109, 112, 51], /- data -/ [100, 97, 116, 97]), (/- id3v1 -/ [105, 100, 51, 118, 49], /- old -/ [111, 108, 100])] ⟨by decide +kernel, by decide +kernel⟩
  have h1 := hh (v1At []) /- old -/ [111, 108, 100] .v1 (by decide +kernel)
  generalize hq : v1At [] = q at h1
  have hl := congrArg List.length hp.all
  cases h1 with
  | tag _ => exact tagAt_v1 hq.symm
  | track => exact v1_track hq
  | v1 _ =>
    rcases hp.tail with ⟨h2, _⟩ | ⟨h2, _⟩ | ⟨h2, _⟩
    · cases h2
    · cases h2
    · cases h2

/-- What is found at the end of a file. -/
theorem findV1_tail (f : Bytes) (k : Nat) (hk : (findV1 f).start = k) :
    ((findV1 f).start = (findV1 f).stop ∧ k = f.length ∧ (¬ ∃ k, ExtAt f k) ∧ ¬ ∃ k, StdAt f k) ∨
    ((findV1 f).start ≠ (findV1 f).stop ∧ (((f.drop k).length = 355 ∧ (f.drop k).take 4 = /- TAG+ -/ [84, 65, 71, 43]) ∨ ((f.drop k).length = 128 ∧ (f.drop k).take 3 = /- TAG -/ [84, 65, 71]))) := by
  unfold findV1 at hk ⊢
  split at hk
  · rename_i h
    rw [if_pos h]
    obtain ⟨j, a, b, rfl, rfl, hb⟩ := h
    simp only [List.length_append] at hk
    have : k = a.length := by simp [TAGP] at hk; omega
    subst this
    refine .inr ⟨by simp only; omega, .inl ?_⟩
    simp [TAGP]
    simpa using hb
  · rename_i h
    rw [if_neg h]
    split at hk
    · rename_i h'
      rw [if_pos h']
      obtain ⟨j, a, b, rfl, rfl, hb⟩ := h'
      simp only [List.length_append] at hk
      have : k = a.length := by simp [TAG] at hk; omega
      subst this
      refine .inr ⟨by simp only; omega, .inr ?_⟩
      simp [TAG]
      simpa using hb
    · rename_i h'
      rw [if_neg h']
      exact .inl ⟨rfl, by simp only at hk; omega, h, h'⟩

/-- **C145** (partial) For an input that does not have the name of an output: whatever happens, and at every moment, all files but those the
command is to make are as they were, the input among them. If no loss goes unnoticed and the status is 0, the files hold the parts of the input,
and all other files, even those with names like these, are as they were. Missing: an input with such a name; losses found when a file is closed;
what earlier runs have left. -/
theorem C145_partial (E : Env) (inp : Path) (fs : FS) (f : Bytes) (hf : fs.get inp = some f) (hn : ¬ OutName E.suffix inp) :
    (∀ x, x ∈ (run E [inp] fs).2.seen ∨ x = (run E [inp] fs).2.fs → ∀ p, ¬ OutName E.suffix p → x.get p = fs.get p) ∧
    ((∀ i k, E.plan i ≠ .lost k) → ∀ after, SplitDone E inp fs after → ∃ ts track v1, Partition f ts track v1 ∧
      (∀ p b, Holds E.suffix ts track v1 p b → after.get p = some b) ∧
      ∀ p, (¬ ∃ b, Holds E.suffix ts track v1 p b) → after.get p = fs.get p) := by
  have hrun : run E [inp] fs = (match split E inp (f.length + E.left.length) ⟨fs, [], ⟨f, 0, IoBits.none, IoBits.none⟩⟩ with
      | (.ok (some ()), t) => (.ok 0, t)
      | (.ok none, t) => (.ub .noProgress, t)
      | (.throw _, t) => (.ok 1, t)
      | (.ub u, t) => (.ub u, t)) := by
    simp only [run, hf]
    rfl
  refine ⟨?_, ?_⟩
  · have hk := keeps_split E inp (f.length + E.left.length) ⟨fs, [], ⟨f, 0, IoBits.none, IoBits.none⟩⟩
    have hs : (run E [inp] fs).2 = (split E inp (f.length + E.left.length) ⟨fs, [], ⟨f, 0, IoBits.none, IoBits.none⟩⟩).2 := by
      rw [hrun]
      generalize split E inp _ _ = r
      rcases r with ⟨(_ | _) | _ | _, t⟩ <;> rfl
    rw [hs]
    rintro x (hx | rfl) p hp
    · rcases hk.2 x hx with h | h
      · cases h
      · exact h p hp
    · exact hk.1 p hp
  · rintro hl after ⟨h0, rfl⟩
    rw [hrun] at h0 ⊢
    cases hsp : split E inp (f.length + E.left.length) ⟨fs, [], ⟨f, 0, IoBits.none, IoBits.none⟩⟩ with
    | mk r t =>
      rw [hsp] at h0
      have hr : r = .ok (some ()) := by
        rcases r with (_ | _) | _ | _
        · cases h0
        · rfl
        · cases h0
        · cases h0
      subst hr
      obtain ⟨ts, track, v1, h1, h2, h3⟩ := split_inv hn hl rfl hsp
      rcases splitTags_cases (f.length + E.left.length) f 0 (by omega) (by omega) with ⟨us, rest, u1, u2, u3, u4⟩ | h
      · rw [List.drop_zero] at u1
        have hc := splitTags_complete us rest u2 u3 _ u4 []
        simp only [List.nil_append, List.length_nil, Nat.zero_add] at hc
        rw [← u1] at hc
        rw [hc] at h1
        have hu : us = ts := by simpa using h1
        subst hu
        have hs := splitFile_of_tags us rest u2 u3 (f.length + E.left.length) u4 IoBits.none
        rw [← u1, h2] at hs
        dsimp only at hs
        split at hs
        · cases hs
        · rename_i hlow
          obtain ⟨k, hk⟩ : ∃ k : Nat, (findV1 f).start = k := ⟨(findV1 f).start.toNat, by omega⟩
          have hs := Option.some.inj (Res.ok.inj hs)
          rw [List.append_assoc] at hs
          have hs := List.append_cancel_left hs
          rw [List.singleton_append, List.cons.injEq] at hs
          obtain ⟨rfl, hv⟩ := hs
          rw [hk, Int.toNat_natCast] at hv
          rw [hk, Int.toNat_natCast] at h3
          have hle : us.flatten.length ≤ k := by omega
          have hrest : rest = (f.take k).drop us.flatten.length ++ f.drop k := by
            have hp : us.flatten = (f.take k).take us.flatten.length := by
              rw [List.take_take, Nat.min_eq_left hle, u1, List.take_left]
            have : us.flatten ++ rest = us.flatten ++ ((f.take k).drop us.flatten.length ++ f.drop k) := by
              rw [← u1, ← List.append_assoc]
              conv => rhs; lhs; lhs; rw [hp]
              rw [List.take_append_drop, List.take_append_drop]
            exact List.append_cancel_left this
          have hgp := get_puts (files E.suffix us ((f.take k).drop us.flatten.length) v1) (nodup_files _ _ _ _) fs
          rw [← h3] at hgp
          refine ⟨us, (f.take k).drop us.flatten.length, f.drop k, ⟨by rw [← hrest, ← u1], u2, by rw [← hrest]; exact u3, ?_⟩, ?_, ?_⟩
          · rcases findV1_tail f k hk with ⟨_, e, h⟩ | ⟨_, h⟩
            · exact .inl ⟨by rw [e]; simp, h⟩
            · exact .inr h
          all_goals
            have hv1 : ∀ b, v1 = some b ↔ f.drop k ≠ [] ∧ b = f.drop k := by
              rcases findV1_tail f k hk with ⟨e1, e2, _⟩ | ⟨e1, h⟩
              · rw [← hk, if_neg (by simpa using e1)] at hv
                intro b
                have : v1 = none := by
                  cases v1 with
                  | none => rfl
                  | some b => cases hv
                subst this
                rw [e2]
                simp
              · rw [← hk, if_pos e1] at hv
                intro b
                have : v1 = some (f.drop k) := by
                  cases v1 with
                  | none => cases hv
                  | some b => exact congrArg some (List.cons.inj hv).1
                subst this
                have hne : f.drop k ≠ [] := by
                  rintro h0
                  rw [h0] at h
                  rcases h with ⟨h, _⟩ | ⟨h, _⟩ <;> cases h
                constructor
                · rintro h; exact ⟨hne, (Option.some.inj h).symm⟩
                · rintro ⟨_, rfl⟩; rfl
          · intro p b hh
            have : (p, b) ∈ files E.suffix us ((f.take k).drop us.flatten.length) v1 := by
              rw [mem_files]
              cases hh with
              | tag h => exact .inl ⟨_, h, rfl⟩
              | track => exact .inr (.inl rfl)
              | v1 h => exact .inr (.inr ⟨_, (hv1 _).2 ⟨h, rfl⟩, rfl⟩)
            exact hgp.1 _ this
          · intro p hp
            refine hgp.2 p fun hm => hp ?_
            obtain ⟨e, he, rfl⟩ := List.mem_map.1 hm
            rcases mem_files.1 he with ⟨i, h1, h2⟩ | rfl | ⟨b, h1, rfl⟩
            · exact ⟨e.2, h2 ▸ .tag h1⟩
            · exact ⟨_, .track⟩
            · obtain ⟨h1, h2⟩ := (hv1 b).1 h1
              exact ⟨_, .v1 h1⟩
      · rw [h] at h1
        cases h1

/-- **C145** (success, partial) If everything can be written and the input does not have the name of an output, the status is 0 for every file that
`C08_complete_partial` speaks of; a run with no word or with several makes no file and has status 2, and one without input has status 1. -/
theorem C145_status_partial (E : Env) (hd : ∀ i, E.plan i = .done) (fs : FS) (inp : Path) (hn : ¬ OutName E.suffix inp) :
    (∀ (ts : List Bytes) (track v1 : Bytes), fs.get inp = some (ts.flatten ++ (track ++ v1)) → (∀ t ∈ ts, CompleteTag t) → NoHeader (track ++ v1) →
      ((v1 = [] ∧ (¬ ∃ k, ExtAt (ts.flatten ++ (track ++ v1)) k) ∧ ¬ ∃ k, StdAt (ts.flatten ++ (track ++ v1)) k) ∨
        (v1.length = 355 ∧ v1.take 4 = TAGP) ∨ (v1.length = 128 ∧ v1.take 3 = TAG ∧ ¬ ∃ k, ExtAt (ts.flatten ++ (track ++ v1)) k)) →
      (run E [inp] fs).1 = .ok 0) ∧
    (fs.get inp = none → (run E [inp] fs).1 = .ok 1 ∧ (run E [inp] fs).2.fs = fs) ∧
    (∀ ws, ws.length ≠ 1 → (run E ws fs).1 = .ok 2 ∧ (run E ws fs).2.fs = fs ∧ (run E ws fs).2.seen = []) := by
  refine ⟨?_, ?_, ?_⟩
  · intro ts track v1 hf hts hr hv
    have hlen : ts.length ≤ (ts.flatten ++ (track ++ v1)).length + E.left.length := by
      have : ∀ us : List Bytes, (∀ t ∈ us, CompleteTag t) → us.length ≤ us.flatten.length := by
        intro us
        induction us with
        | nil => simp
        | cons u us ih =>
          intro h
          have h1 := ih fun t ht => h t (by simp [ht])
          obtain ⟨_, _, _, n, _, h2⟩ := h u (by simp)
          simp only [List.length_cons, List.flatten_cons, List.length_append]
          omega
      have := this ts hts
      rw [List.length_append]
      omega
    have h := C08_complete_partial ts track v1 IoBits.none _ hts hr hlen hv
    obtain ⟨t', h'⟩ := split_fwd (E := E) (inp := inp) hn hd (t := ⟨fs, [], ⟨_, 0, IoBits.none, IoBits.none⟩⟩) h
    simp only [run, hf, h']
  · intro h
    simp [run, h]
  · intro ws h
    match ws, h with
    | [], _ => exact ⟨rfl, rfl, rfl⟩
    | [_], h => exact absurd rfl h
    | _ :: _ :: _, _ => exact ⟨rfl, rfl, rfl⟩

/-- A file with a track and an ID3v1 tag, next to another file. -/
def splitFs : FS := [(/- a.mp3 -/ [97, 46, 109, 112, 51], /- sound -/ [115, 111, 117, 110, 100] ++ (/- TAG -/ [84, 65, 71] ++ List.replicate 125 0x20)), (/- notes -/ [110, 111, 116, 101, 115], /- keep -/ [107, 101, 101, 112])]

/-- It is split into two files with the suffix. -/
example : (run (fineEnv /- .1 -/ [46, 49] []) [/- a.mp3 -/ [97, 46, 109, 112, 51]] splitFs).1 = .ok 0 ∧
    (run (fineEnv /- .1 -/ [46, 49] []) [/- a.mp3 -/ [97, 46, 109, 112, 51]] splitFs).2.fs.get /- track.1 -/ [116, 114, 97, 99, 107, 46, 49] = some /- sound -/ [115, 111, 117, 110, 100] ∧
    (run (fineEnv /- .1 -/ [46, 49] []) [/- a.mp3 -/ [97, 46, 109, 112, 51]] splitFs).2.fs.get /- id3v1.1 -/ [105, 100, 51, 118, 49, 46, 49] = some (/- TAG -/ [84, 65, 71] ++ List.replicate 125 0x20) ∧
    (run (fineEnv /- .1 -/ [46, 49] []) [/- a.mp3 -/ [97, 46, 109, 112, 51]] splitFs).2.fs.get /- notes -/ [110, 111, 116, 101, 115] = some /- keep -/ [107, 101, 101, 112] := by decide +kernel
/-- It does not have the name of an output. -/
example : ¬ OutName /- .1 -/ [46, 49] /- a.mp3 -/ [97, 46, 109, 112, 51] := by
  intro h
  generalize hp : (/- a.mp3 -/ [97, 46, 109, 112, 51] : Bytes) = p at h
  cases h <;> simp [tagAt, trackAt, v1At] at hp
/-- If the second file cannot be created, the status is 1. -/
example : (run ⟨/- .1 -/ [46, 49], fun i => if i = 1 then .notOpened else .done, []⟩ [/- a.mp3 -/ [97, 46, 109, 112, 51]] splitFs).1 = .ok 1 := by decide +kernel
/-- The tenth tag is in "id3v29". -/
example : tagAt /- x -/ [120] 9 = /- id3v29x -/ [105, 100, 51, 118, 50, 57, 120] ∧ tagAt [] 10 = /- id3v210 -/ [105, 100, 51, 118, 50, 49, 48] := by decide +kernel

end Scribbu.Props
