import Verif.Proofs.Procs
import Verif.Props.Replace
import Verif.Props.Tagset
import Verif.Model.Json

/-! **C179**, **C180**, **C181**: processes that change files at the same time. -/

namespace Scribbu.Props
open Scribbu Path Backup Scribbu.Procs Scribbu.Spec.Procs

/-! ## C179: different files -/

/-- **C179**, in full: processes that replace the tags of different files do not disturb each other: whatever the schedule, when one has ended it has ended as it
would have alone, and so has its file. -/
def C179_claim : Prop :=
  ∀ (jobs : Nat → Job) (s0 : FS) (sched : List Nat), (∀ i, Fit (jobs i).env (jobs i).pth) → (∀ i k, (jobs i).file = (jobs k).file → i = k) →
    ∀ i r, (run sched ⟨fun i => replace (jobs i), s0⟩).procs i = .ret r →
      r = (exec (replace (jobs i)) s0).1 ∧ (run sched ⟨fun i => replace (jobs i), s0⟩).fs.get (jobs i).file = (exec (replace (jobs i)) s0).2.get (jobs i).file

/-- The names of the files: `/d/f`, `/d/fx`, `/d/fxx` and so on. -/
def manyFiles (i : Nat) : Path := [47, 100, 47, 102] ++ List.replicate i 120

/-- A call that puts a byte in front of the file `/d/fx…`, by way of the temporary file `/t`. -/
def sameTmp (i : Nat) : Job := ⟨calm .done, manyFiles i, fun old => match old with
  | some d => .ok (UInt8.ofNat i :: d)
  | none => .throw .fsError, false⟩

theorem manyFiles_plain (i : Nat) : PlainPath (manyFiles i) :=
  ⟨[47, 100], 102 :: List.replicate i 120, by simp [manyFiles, slash], by simp, by
    intro b hb
    simp only [List.mem_cons, List.mem_replicate] at hb
    rcases hb with rfl | ⟨_, rfl⟩ <;> decide, .inr ⟨by decide, by decide⟩⟩

theorem manyFiles_abs (i : Nat) (e : Replace.Env) : absolute e.cwd (manyFiles i) = manyFiles i := absolute_abs (by simp [isAbs, manyFiles, slash])

theorem not_C179 : ¬ C179_claim := by
  intro h
  have h1 := h sameTmp [([47, 100, 47, 102], [7]), ([47, 100, 47, 102, 120], [8])] ([0, 0, 0, 0] ++ [1, 1, 1, 1] ++ [0])
    (fun i => by
      refine ⟨by show PlainPath (absolute _ (manyFiles i)); rw [manyFiles_abs]; exact manyFiles_plain i, ?_, ?_⟩
      · show (calm .done).tmp ≠ absolute _ (manyFiles i)
        rw [manyFiles_abs]; intro h; have := congrArg (·[1]?) h; simp [calm, str, manyFiles] at this
      · intro n
        show (calm .done).tmp ≠ absolute _ (manyFiles i) ++ _
        rw [manyFiles_abs]; intro h; have := congrArg (·[1]?) h; simp [calm, str, manyFiles] at this)
    (fun i k e => by
      have e2 : manyFiles i = manyFiles k := by
        have : absolute (calm .done).cwd (manyFiles i) = absolute (calm .done).cwd (manyFiles k) := e
        rwa [manyFiles_abs, manyFiles_abs] at this
      have := congrArg List.length e2
      simpa [manyFiles] using this) 0 (.ok ())
  have h2 := (h1 rfl).2
  revert h2
  decide +kernel

/-- **Finding** (C179). `tmpnam` may give two processes the same name, as a comment in the code admits (scribbu/tagset.hh L358-368), "hoping to merely stomp on
the other process' file". What comes of it is worse: one file is replaced by the contents of the other, audio and all, and the call returns as if all were well. -/
theorem C179_refuted : ¬ C179_claim := not_C179

/-- The same, in figures: `/d/f` held a 7 and now holds what was made of `/d/fx`; that is as it was, and the other call fails. -/
theorem C179_refuted_tmp :
    let s := run ([0, 0, 0, 0] ++ [1, 1, 1, 1] ++ [0] ++ [1]) ⟨fun i => replace (sameTmp i), [(manyFiles 0, [7]), (manyFiles 1, [8])]⟩
    (match s.procs 0, s.procs 1 with | .ret r0, .ret r1 => decide (r0 = .ok () ∧ r1 = .throw .fsError) | _, _ => false) = true ∧
    s.fs.get (manyFiles 0) = some [1, 8] ∧ s.fs.get (manyFiles 1) = some [8] := by
  refine ⟨by decide +kernel, by decide +kernel, by decide +kernel⟩

/-- **C179**, for processes no two of which have to do with a file of the same name, temporary files and backups included: whatever the schedule, each that has
ended has ended as it would have alone, and so have all of its files; each ends, when it has had enough turns; no other file is changed at any time.

Missing: temporary files of the same name (`C179_refuted_tmp`); files named like backups of others. -/
theorem C179_partial (jobs : Nat → Job) (s0 : FS) (hp : ∀ i, PlainPath (jobs i).file) (ha : Apart jobs) :
    (∀ sched i r, (run sched ⟨fun i => replace (jobs i), s0⟩).procs i = .ret r →
      r = (exec (replace (jobs i)) s0).1 ∧ ∀ q, Own (jobs i) q → (run sched ⟨fun i => replace (jobs i), s0⟩).fs.get q = (exec (replace (jobs i)) s0).2.get q) ∧
    (∀ i, ∃ n, ∀ sched : List Nat, n ≤ sched.count i → ∃ r, (run sched ⟨fun i => replace (jobs i), s0⟩).procs i = .ret r) ∧
    ∀ sched q, (∀ i, ¬ Own (jobs i) q) → (run sched ⟨fun i => replace (jobs i), s0⟩).fs.get q = s0.get q := by
  have h := fun sched => apart_run ha (fun i => replace (jobs i)) (fun i => confined_replace (hp i)) s0 sched
  refine ⟨?_, ?_, fun sched => (h sched).2⟩
  · intro sched i r hr
    obtain ⟨-, h2, h3⟩ := (h sched).1 i
    have he := ahead_exec (sched.count i) (replace (jobs i)) s0
    cases hx : ahead (sched.count i) (replace (jobs i)) s0 with
    | mk p s' =>
      rw [hx] at h2 h3 he
      simp only at h2 h3 he
      rw [hr] at h2
      subst h2
      have he' : (r, s') = exec (replace (jobs i)) s0 := he
      rw [← he']
      exact ⟨rfl, h3⟩
  · intro i
    obtain ⟨n, hn⟩ := ahead_ends (replace (jobs i)) s0
    refine ⟨n, fun sched hs => ?_⟩
    obtain ⟨r, s', he⟩ := hn _ hs
    obtain ⟨-, h2, -⟩ := (h sched).1 i
    exact ⟨r, by rw [h2, he]⟩

/-- What a process does alone is what C33, C34 and C58 to C60 are about. -/
theorem C179_alone (I : TagI τ) (e : Replace.Env) (pth : Path) (ts : List τ) (au : ApplyUnsync) (keep : Bool) (s : FS) :
    exec (replace (Job.tags I e pth ts au keep)) s =
      ((Replace.replaceTagsetCopy I e pth ts au keep s).res, (Replace.replaceTagsetCopy I e pth ts au keep s).fs) :=
  exec_replace I e pth ts au keep s

/-- Calls with temporary files of different names, `/t`, `/tt` and so on, and backups. -/
def ownTmp (i : Nat) : Job := { sameTmp i with env := { calm .done with tmp := 47 :: List.replicate (i + 1) 116 }, keep := true }

theorem ownTmp_file (i : Nat) : (ownTmp i).file = manyFiles i := manyFiles_abs i _

theorem ownTmp_apart : Apart ownTmp := by
  have hl : ∀ i : Nat, ∀ l, (manyFiles i)[1]? = some 100 ∧ (manyFiles i ++ l)[1]? = some 100 := by intro i l; simp [manyFiles]
  have ht : ∀ i : Nat, (ownTmp i).env.tmp[1]? = some 116 := by intro i; simp [ownTmp, List.replicate_succ]
  have hm : ∀ i k : Nat, manyFiles i = manyFiles k → i = k := by
    intro i k h; have := congrArg List.length h; simpa [manyFiles] using this
  have hx : ∀ (i k : Nat) (ds es : Bytes), (ds = [] ∨ ∃ r, ds = dot :: r) → (es = [] ∨ ∃ r, es = dot :: r) → (∀ r, ds = dot :: r → ∀ c ∈ r, 48 ≤ c ∧ c ≤ 57) →
      (∀ r, es = dot :: r → ∀ c ∈ r, 48 ≤ c ∧ c ≤ 57) → manyFiles i ++ ds = manyFiles k ++ es → i = k := by
    intro i
    have cnt : ∀ (i : Nat) (ds : Bytes), (ds = [] ∨ ∃ r, ds = dot :: r) → (∀ r, ds = dot :: r → ∀ c ∈ r, 48 ≤ c ∧ c ≤ 57) →
        (manyFiles i ++ ds).count 120 = i := by
      intro i ds h1 h2
      rw [List.count_append]
      have e1 : (manyFiles i).count 120 = i := by
        simp [manyFiles]
      have e2 : ds.count 120 = 0 := by
        rcases h1 with rfl | ⟨r, rfl⟩
        · rfl
        · rw [List.count_cons, if_neg (by decide), List.count_eq_zero.2]
          intro hc
          have := h2 r rfl 120 hc
          revert this; decide
      omega
    intro k ds es h1 h2 h3 h4 h
    have := congrArg (List.count 120) h
    rwa [cnt i ds h1 h3, cnt k es h2 h4] at this
  intro i k q h1 h2
  rw [Own, ownTmp_file] at h1
  rw [Own, ownTmp_file] at h2
  rcases h1 with rfl | rfl | ⟨ds, d1, d2, rfl⟩ <;> rcases h2 with h2 | h2 | ⟨es, e1, e2, h2⟩
  · exact hm _ _ h2
  · have := congrArg (·[1]?) h2; simp only [ht, (hl i []).1] at this; cases this
  · exact hx i k [] (dot :: es) (.inl rfl) (.inr ⟨_, rfl⟩) (by intro r h; cases h) (by intro r h; cases h; exact e2) (by simpa using h2)
  · have := congrArg (·[1]?) h2; simp only [ht, (hl k []).1] at this; cases this
  · have := congrArg List.length h2; simpa [ownTmp] using this
  · have := congrArg (·[1]?) h2; simp only [ht, (hl k _).2] at this; cases this
  · exact hx i k (dot :: ds) [] (.inr ⟨_, rfl⟩) (.inl rfl) (by intro r h; cases h; exact d2) (by intro r h; cases h) (by simpa using h2)
  · have := congrArg (·[1]?) h2; simp only [ht, (hl i _).2] at this; cases this
  · exact hx i k (dot :: ds) (dot :: es) (.inr ⟨_, rfl⟩) (.inr ⟨_, rfl⟩) (by intro r h; cases h; exact d2) (by intro r h; cases h; exact e2) h2

/-- The hypotheses are met by any number of processes; two of them, step by step in turn, with backups. -/
example : (∀ i, PlainPath (ownTmp i).file) ∧ Apart ownTmp ∧
    (let s := run ((List.replicate 12 [0, 1]).flatten) ⟨fun i => replace (ownTmp i), [(manyFiles 0, [7]), (manyFiles 1, [8])]⟩
     (match s.procs 0, s.procs 1 with | .ret r0, .ret r1 => decide (r0 = .ok () ∧ r1 = .ok ()) | _, _ => false) = true ∧
     s.fs.get (manyFiles 0) = some [0, 7] ∧ s.fs.get (manyFiles 1) = some [1, 8] ∧ s.fs.get (manyFiles 1 ++ [46, 49]) = some [8]) :=
  ⟨fun i => by rw [ownTmp_file]; exact manyFiles_plain i, ownTmp_apart, by decide +kernel, by decide +kernel, by decide +kernel, by decide +kernel⟩

/-! ## C180: the same file -/

/-- The processes are about the same file, and their temporary files have names of their own. -/
structure OneFile (envs : Nat → Replace.Env) (pths : Nat → Path) (P : Path) : Prop where
  plain : PlainPath P
  file : ∀ i, absolute (envs i).cwd (pths i) = P
  tmp : ∀ i k, (envs i).tmp = (envs k).tmp → i = k
  apart : ∀ i, (envs i).tmp ≠ P ∧ ∀ ds, ds ≠ [] → (∀ c ∈ ds, 48 ≤ c ∧ c ≤ 57) → (envs i).tmp ≠ P ++ dot :: ds

/-- Two processes that change the tags of a file, the first and the second. -/
def twoEdits (e0 e1 : Replace.Env) (pth : Path) (d0 d1 : Bytes → Res (Option Bytes → Res Bytes)) (i : Nat) : Proc Unit :=
  if i = 0 then edit e0 pth true d0 else if i = 1 then edit e1 pth true d1 else .ret (.ok ())

/-- Both have ended, and succeeded. -/
def bothWell (s : Sys) : Bool :=
  match s.procs 0, s.procs 1 with
  | .ret r0, .ret r1 => decide (r0 = .ok () ∧ r1 = .ok ())
  | _, _ => false

/-- **C180**, in full: if two sub-commands change the same file at the same time and both succeed, the file is what it would be had one been run after the
other. -/
def C180_claim : Prop :=
  ∀ (e0 e1 : Replace.Env) (pth : Path) (d0 d1 : Bytes → Res (Option Bytes → Res Bytes)) (s0 : FS) (sched : List Nat),
    Fit e0 pth → Fit e1 pth → e0.tmp ≠ e1.tmp → e0.cwd = e1.cwd →
    bothWell (run sched ⟨twoEdits e0 e1 pth d0 d1, s0⟩) = true →
    (run sched ⟨twoEdits e0 e1 pth d0 d1, s0⟩).fs.get (absolute e0.cwd pth) = (oneByOne [edit e0 pth true d0, edit e1 pth true d1] s0).get (absolute e0.cwd pth) ∨
    (run sched ⟨twoEdits e0 e1 pth d0 d1, s0⟩).fs.get (absolute e0.cwd pth) = (oneByOne [edit e1 pth true d1, edit e0 pth true d0] s0).get (absolute e0.cwd pth)

/-- Add a text frame to a tag. -/
def addFrame (id : Id4) (text : Bytes) : AnyTag → AnyTag
  | .inr (.inl t) => .inr (.inl { t with frames := t.frames ++ [.new id (.text 0 text) false false false false none none false none] })
  | t => t

/-- Read the tags of a file and add a text frame to each. -/
def adding (id : Id4) (text : Bytes) (d : Bytes) : Res (Option Bytes → Res Bytes) :=
  (Dump.readFile zId (fun b => b) (some d)).bind fun r =>
  .ok fun old => (Tagset.copyContents (anyI zId) old .never (r.v2.map (addFrame id text))).bind fun x => .ok x.1

/-- A file with an ID3v2.3 tag with the title "A", and three bytes of audio. -/
def smallFile : Bytes := [0x49, 0x44, 0x33, 3, 0, 0, 0, 0, 0, 12, 0x54, 0x49, 0x54, 0x32, 0, 0, 0, 2, 0, 0, 0, 0x41, 1, 2, 3]

/-- One adds an artist, the other an album. -/
def artistAlbum : Nat → Proc Unit :=
  twoEdits { calm .done with tmp := [47, 116] } { calm .done with tmp := [47, 117] } fileF (adding ⟨0x54, 0x50, 0x45, 0x31⟩ [0x42])
    (adding ⟨0x54, 0x41, 0x4c, 0x42⟩ [0x43])

/-- The first reads the file, the second is run, and the first goes on. -/
def readFirst : List Nat := [0] ++ List.replicate 90 1 ++ List.replicate 110 0

/-- **Finding** (C180). Between reading the tags of a file and replacing them, nothing keeps others from doing the same: one adds an artist, the other an album, both
succeed, and the album is gone from the file (it is still in the backup). -/
theorem C180_refuted_lost :
    bothWell (run readFirst ⟨artistAlbum, [(fileF, smallFile)]⟩) = true ∧
    (run readFirst ⟨artistAlbum, [(fileF, smallFile)]⟩).fs.get fileF =
      some ([0x49, 0x44, 0x33, 3, 0, 0, 0, 0, 0, 24, 0x54, 0x49, 0x54, 0x32, 0, 0, 0, 2, 0, 0, 0, 0x41, 0x54, 0x50, 0x45, 0x31, 0, 0, 0, 2, 0, 0, 0, 0x42] ++ [1, 2, 3]) := by
  constructor <;> decide +kernel

theorem not_C180 : ¬ C180_claim := by
  intro h
  have fit : ∀ (t : Byte), Fit { calm .done with tmp := [47, t] } fileF := by
    intro t
    refine ⟨⟨[47, 100], [102], rfl, by decide, by decide, by decide⟩, ?_, ?_⟩
    · intro h; have := congrArg List.length h
      simp [fileF, str, absolute, join, isAbs, slash] at this
    · intro n h; have := congrArg List.length h
      simp [fileF, str, absolute, join, isAbs, slash] at this
  obtain ⟨l1, l2⟩ := C180_refuted_lost
  unfold artistAlbum at l1 l2
  have h1 := h { calm .done with tmp := [47, 116] } { calm .done with tmp := [47, 117] } fileF
    (adding ⟨0x54, 0x50, 0x45, 0x31⟩ [0x42]) (adding ⟨0x54, 0x41, 0x4c, 0x42⟩ [0x43]) [(fileF, smallFile)] readFirst
    (fit _) (fit _) (by decide) rfl l1
  have e : absolute (calm .done).cwd fileF = fileF := by decide
  simp only [e] at h1
  rw [l2] at h1
  revert h1
  decide +kernel

/-- **Finding** (C180). -/
theorem C180_refuted : ¬ C180_claim := not_C180

theorem OneFile.notOwn {envs : Nat → Replace.Env} {pths : Nat → Path} {P : Path} (ht : OneFile envs pths P) {i k : Nat} (hik : i ≠ k) {j : Job}
    (he : j.env = envs i) (hp : j.pth = pths i) : ¬ Own j (envs k).tmp := by
  intro h
  have e : j.file = P := by rw [← ht.file i, ← he, ← hp]; rfl
  rw [Own, e, he] at h
  rcases h with h | h | ⟨ds, h1, h2, h3⟩
  · exact (ht.apart k).1 h
  · exact hik (ht.tmp i k h.symm)
  · exact (ht.apart k).2 ds h1 h2 h3

theorem OneFile.kept {envs : Nat → Replace.Env} {pths : Nat → Path} {P : Path} (ht : OneFile envs pths P) {i : Nat} {j : Job}
    (he : j.env = envs i) (hp : j.pth = pths i) (hr : j.env.rename ≠ .crossDevice) {V : Option Bytes → Prop}
    (hv : ∀ b d, V b → j.contents b = .ok d → V (some d)) : Kept (fun s => V (s.get P)) j V := by
  have e : j.file = P := by rw [← ht.file i, ← he, ← hp]; rfl
  have free : ∀ q, q ≠ P → Free (fun s => V (s.get P)) q := by
    intro q hq s s' h hs
    show V _
    rw [h P (fun e => hq e.symm)]; exact hs
  have ha : j.env.tmp ≠ P ∧ ∀ ds, ds ≠ [] → (∀ c ∈ ds, 48 ≤ c ∧ c ≤ 57) → j.env.tmp ≠ P ++ dot :: ds := by rw [he]; exact ht.apart i
  have hplain : PlainPath j.file := by rw [e]; exact ht.plain
  refine ⟨hplain, by rw [e]; exact ha, free _ ha.1, ?_, fun h => absurd h hr, fun s hs => by rw [e]; exact hs, ?_⟩
  · intro s cp _ h
    obtain ⟨n, hn⟩ := backupName_form hplain h
    apply free
    rw [hn]
    have e2 : absolute j.env.cwd (j.file ++ dot :: dec n) = j.file ++ dot :: dec n := Replace.bk_abs hplain ⟨n, rfl⟩
    show absolute j.env.cwd (j.file ++ dot :: dec n) ≠ P
    rw [e2, e]
    intro h; have := congrArg List.length h; simp at this
  · intro s d old hs hv2 hc _
    rw [e]
    show V (((s.del _).put P d).get P)
    rw [FS.get_put_same]
    exact hv _ _ hv2 hc

/-- **C180**, that the file is whole: however many processes replace its tags at the same time, whatever fails, and wherever they are interrupted, the file is
at every moment what it was at first or what one of the processes has made of what it was at some moment.

Missing: that no change is lost (`C180_refuted_lost`); temporary files on other file systems, from which they are copied. -/
theorem C180_partial (jobs : Nat → Job) (P : Path) (ht : OneFile (fun i => (jobs i).env) (fun i => (jobs i).pth) P)
    (hr : ∀ i, (jobs i).env.rename ≠ .crossDevice) (s0 : FS) (sched : List Nat) :
    Version jobs (s0.get P) ((run sched ⟨fun i => replace (jobs i), s0⟩).fs.get P) :=
  sat_run (A := fun s => Version jobs (s0.get P) (s.get P)) (O := fun i => Own (jobs i)) (tmp := fun i => (jobs i).env.tmp)
    (fun _ _ hik => ht.notOwn hik rfl rfl) sched _ .first fun i =>
    sat_replace (ht.kept (i := i) rfl rfl (hr i) fun b d h1 h2 => .next i b d h1 h2) _

/-- The same for sub-commands, which decide about the tags by what they have read before. -/
theorem C180_edit_partial (envs : Nat → Replace.Env) (pths : Nat → Path) (keep : Nat → Bool) (decide : Nat → Bytes → Res (Option Bytes → Res Bytes)) (P : Path)
    (ht : OneFile envs pths P) (hr : ∀ i, (envs i).rename ≠ .crossDevice) (s0 : FS) (sched : List Nat) :
    Edited decide (s0.get P) ((run sched ⟨fun i => edit (envs i) (pths i) (keep i) (decide i), s0⟩).fs.get P) := by
  refine sat_run (A := fun s => Edited decide (s0.get P) (s.get P)) (O := fun i => Own ⟨envs i, pths i, fun _ => .throw .other, keep i⟩)
    (tmp := fun i => (envs i).tmp) (fun _ _ hik => ht.notOwn hik rfl rfl) sched _ .first fun i => ?_
  show Sat _ _ _ (edit (envs i) (pths i) (keep i) (decide i)) _ _
  unfold edit
  refine Sat.bind (Q := fun old _ => Edited decide (s0.get P) old) (Sat.look fun s hs _ => by rw [ht.file]; exact hs) ?_
  intro old t hv
  cases old with
  | none => exact Sat.ret fun _ h => by cases h
  | some d =>
    refine Sat.bind (Q := fun c _ => decide i d = .ok c) (Sat.ret fun c h => h) ?_
    intro c t' hc
    exact sat_replace (j := ⟨envs i, pths i, c, keep i⟩) (ht.kept (i := i) rfl rfl (hr i) fun b new h1 h2 => .next i d c b new hv hc h1 h2) t'

/-- What that says of tags: at every moment the file consists of complete tags and of what followed the tags at first.

Missing: as above; tags that are not `CanWrite` or are larger than a tag may be (C33). -/
theorem C180_audio_partial (z : Zlib) (envs : Nat → Replace.Env) (pths : Nat → Path) (keep : Nat → Bool) (au : Nat → ApplyUnsync)
    (tags : Nat → Bytes → Res (List AnyTag)) (P : Path) (ht : OneFile envs pths P) (hr : ∀ i, (envs i).rename ≠ .crossDevice)
    (hw : ∀ i d ts, tags i d = .ok ts → (∀ t ∈ ts, CanWrite z t) ∧ ∀ n pad ts', Tagset.sizes (anyI z) (au i) ts = .ok (n, pad, ts') → n < 2 ^ 28)
    (olds : List Bytes) (audio : Bytes) (ho : ∀ t ∈ olds, Spec.CompleteTag t) (ha : Spec.NoHeader audio) (s0 : FS) (h0 : s0.get P = some (olds.flatten ++ audio))
    (sched : List Nat) :
    ∃ news : List Bytes, (∀ t ∈ news, Spec.CompleteTag t) ∧
      (run sched ⟨fun i => edit (envs i) (pths i) (keep i) fun d => (tags i d).bind fun ts =>
        .ok fun old => (Tagset.copyContents (anyI z) old (au i) ts).bind fun r => .ok r.1, s0⟩).fs.get P = some (news.flatten ++ audio) := by
  have h := C180_edit_partial envs pths keep (fun i d => (tags i d).bind fun ts =>
        .ok fun old => (Tagset.copyContents (anyI z) old (au i) ts).bind fun r => .ok r.1) P ht hr s0 sched
  revert h
  generalize (FS.get (run sched _).fs P) = fin
  intro h
  induction h with
  | first => exact ⟨olds, ho, h0⟩
  | next i d c b new _ hc _ hn _ ih =>
    obtain ⟨news, h1, h2⟩ := ih
    cases htg : tags i d with
    | throw x => rw [htg] at hc; cases hc
    | ub u => rw [htg] at hc; cases hc
    | ok ts =>
      rw [htg] at hc
      cases hc
      obtain ⟨hw1, hw2⟩ := hw i d ts htg
      obtain ⟨b', ts', news', h3, h4, -, h6⟩ := C33_copy_partial z news audio (au i) ts h1 ha hw1 hw2
      rw [h2] at hn
      simp only [h3, Res.ok_bind] at hn
      cases hn
      refine ⟨news'.map (·.2), ?_, by rw [h4]⟩
      intro t hmem
      clear h3 h4 hw1 hw2 htg
      induction h6 with
      | nil => simp at hmem
      | cons hh _ ih2 =>
        simp only [List.map_cons, List.mem_cons] at hmem
        rcases hmem with rfl | hmem
        · exact hh.2
        · exact ih2 hmem

/-- Calls about `/d/f` that put a byte in front, with temporary files `/t`, `/tt` and so on. -/
def sameFile (keep : Bool) (i : Nat) : Job := { sameTmp i with env := { calm .done with tmp := 47 :: List.replicate (i + 1) 116 }, pth := fileF, keep := keep }

theorem sameFile_together (keep : Bool) : OneFile (fun i => (sameFile keep i).env) (fun i => (sameFile keep i).pth) fileF := by
  refine ⟨⟨[47, 100], [102], rfl, by decide, by decide, by decide⟩, fun i => rfl, ?_, ?_⟩
  · intro i k h
    have := congrArg List.length h
    simpa [sameFile] using this
  · intro i
    refine ⟨?_, fun ds _ _ => ?_⟩ <;> intro h <;> have := congrArg (·[1]?) h <;> simp [sameFile, fileF, str, List.replicate_succ] at this

/-- The hypotheses are met; of two processes in turn, the last to finish decides what the file is. -/
example : OneFile (fun i => (sameFile false i).env) (fun i => (sameFile false i).pth) fileF ∧
    (run ((List.replicate 12 [0, 1]).flatten) ⟨fun i => replace (sameFile false i), [(fileF, [7])]⟩).fs.get fileF = some [1, 7] :=
  ⟨sameFile_together _, by decide +kernel⟩

/-- The hypotheses of `C180_audio_partial` are met: any number of processes, each of which replaces the tags by two others. -/
example : ∃ news : List Bytes, (∀ t ∈ news, Spec.CompleteTag t) ∧
    (run readFirst ⟨fun i => edit (sameFile false i).env fileF false fun d => ((fun (_ : Nat) (_ : Bytes) => Res.ok [sampleTag, bare 1]) i d).bind fun ts =>
      .ok fun old => (Tagset.copyContents (anyI zId) old ((fun _ => ApplyUnsync.always) i) ts).bind fun r => .ok r.1, [(fileF, sampleOld ++ [1, 2])]⟩).fs.get fileF =
    some (news.flatten ++ [1, 2]) := by
  refine C180_audio_partial zId (fun i => (sameFile false i).env) (fun _ => fileF) (fun _ => false) (fun _ => .always) (fun _ _ => .ok [sampleTag, bare 1]) fileF
    (sameFile_together false) (fun _ h => by cases h) ?_ [sampleOld] [1, 2] (by intro t h; simp only [List.mem_singleton] at h; rw [h]; exact sampleOld_complete) (noHeader_short (by decide)) _ ?_ _
  · intro i d ts h
    cases h
    refine ⟨sample_canWrite, ?_⟩
    intro n pad ts' h
    have e : (Tagset.sizes (anyI zId) .always [sampleTag, bare 1]).bind (fun r => .ok (r.1, r.2.1)) = .ok (66, 21) := by decide +kernel
    rw [h] at e
    cases e
    decide
  · decide +kernel

/-! ## C181: backups of the same file -/

/-- **C181**, in full: if processes that were all told to keep backups have all ended well, what was in the file at first is in one of its backups. -/
def C181_claim : Prop :=
  ∀ (jobs : Nat → Job) (P : Path) (s0 : FS) (sched : List Nat) (n : Nat), OneFile (fun i => (jobs i).env) (fun i => (jobs i).pth) P → (∀ i, (jobs i).pth = P) → (∀ i, (jobs i).keep = true) → 0 < n →
    (∀ i, i < n → (match (run sched ⟨fun i => if i < n then replace (jobs i) else .ret (.ok ()), s0⟩).procs i with | .ret r => decide (r = .ok ()) | _ => false) = true) →
    ∃ m, (run sched ⟨fun i => if i < n then replace (jobs i) else .ret (.ok ()), s0⟩).fs.get (P ++ dot :: dec m) = s0.get P

/-- Both name their backups before either makes one. -/
def namesFirst : List Nat := List.replicate 5 0 ++ List.replicate 5 1 ++ List.replicate 4 0 ++ List.replicate 12 1

/-- The files after that. -/
def namedFirst : FS := (run namesFirst ⟨fun i => if i < 2 then replace (sameFile true i) else .ret (.ok ()), [(fileF, [7])]⟩).fs

/-- **Finding** (C181). A comment in the code says that if another process gets in between, "the worst that will happen is the call to `copy' will fail"
(scribbu/tagset.hh L414-416). But if both have named their backups before either makes one, the second removes the backup of the first and puts a copy of the
changed file in its place: both succeed, and what was in the file at first is nowhere. -/
theorem C181_refuted_gone :
    (∀ i, i < 2 → (match (run namesFirst ⟨fun i => if i < 2 then replace (sameFile true i) else .ret (.ok ()), [(fileF, [7])]⟩).procs i with
      | .ret r => decide (r = .ok ()) | _ => false) = true) ∧
    namedFirst.map (·.1) = [fileF, fileF ++ [46, 49]] ∧ namedFirst.get fileF = some [1, 7] ∧
    namedFirst.get (fileF ++ [46, 49]) = some [0, 7] := by
  refine ⟨?_, by decide +kernel, by decide +kernel, by decide +kernel⟩
  decide +kernel

theorem not_C181 : ¬ C181_claim := by
  intro h
  obtain ⟨m, hm⟩ := h (sameFile true) fileF [(fileF, [7])] namesFirst 2 (sameFile_together _) (fun i => rfl) (fun i => rfl) (by decide)
    C181_refuted_gone.1
  obtain ⟨_, h1, h2, h3⟩ := C181_refuted_gone
  have hm' : namedFirst.get (fileF ++ dot :: dec m) = some [7] := hm
  have hin : fileF ++ dot :: dec m ∈ namedFirst.map (·.1) := FS.get_mem (by rw [hm']; simp)
  rw [h1] at hin
  simp only [List.mem_cons, List.not_mem_nil, or_false] at hin
  rcases hin with h4 | h4
  · have := congrArg List.length h4; simp at this
  · rw [h4, h3] at hm'; cases hm'

/-- **Finding** (C181). -/
theorem C181_refuted : ¬ C181_claim := not_C181

/-- **C181**, for the backups that were there before: however many processes replace the tags of a file, given by its absolute path, whatever fails, whether or
not files can be renamed to where it is, and wherever they are interrupted, every backup that was there at first is as it was.

Missing: the backups made meanwhile (`C181_refuted_gone`). -/
theorem C181_partial (jobs : Nat → Job) (P : Path) (ht : OneFile (fun i => (jobs i).env) (fun i => (jobs i).pth) P) (ha : ∀ i, (jobs i).pth = P) (s0 : FS) (sched : List Nat)
    (ds : Bytes) (hd : ds ≠ []) (hdd : ∀ c ∈ ds, 48 ≤ c ∧ c ≤ 57) (h0 : s0.get (P ++ dot :: ds) ≠ none) :
    (run sched ⟨fun i => replace (jobs i), s0⟩).fs.get (P ++ dot :: ds) = s0.get (P ++ dot :: ds) := by
  have hda : ds.all isDigit = true := List.all_eq_true.2 fun c hc => (digit_iff c).2 (hdd c hc)
  refine sat_run (A := fun s => s.get (P ++ dot :: ds) = s0.get (P ++ dot :: ds)) (O := fun i => Own (jobs i)) (tmp := fun i => (jobs i).env.tmp) ?_ sched _ rfl fun i => ?_
  · exact fun i k hik => ht.notOwn hik rfl rfl
  · have hfile : (jobs i).file = P := ht.file i
    have free : ∀ q, q ≠ P ++ dot :: ds → Free (fun s => s.get (P ++ dot :: ds) = s0.get (P ++ dot :: ds)) q := by
      intro q hq s s' h hs
      show s'.get _ = _
      rw [h _ (fun e => hq e.symm)]; exact hs
    have hPne : P ≠ P ++ dot :: ds := by intro h; have := congrArg List.length h; simp at this
    refine sat_replace (V := fun _ => True) ⟨by rw [hfile]; exact ht.plain, by rw [hfile]; exact ht.apart i, free _ ((ht.apart i).2 ds hd hdd), ?_, ?_, ?_, ?_⟩ _
    · intro s cp hs h
      obtain ⟨n, h1, h2⟩ := backupName_above (by rw [hfile]; exact ht.plain) (by rw [hfile, ha]) h
      rw [hfile] at h1 h2
      apply free
      rw [h1]
      intro e
      have e2 : dec n = ds := by simpa using e
      have h3 := h2 ds hd hda (by rw [show s.get _ = _ from hs]; exact h0)
      rw [← e2, (dec_digits n).2.2] at h3
      omega
    · intro _; rw [hfile]; exact free _ hPne
    · intro s hs; trivial
    · intro s d old hs _ _ _
      rw [hfile]
      show ((s.del _).put P d).get _ = _
      rw [FS.get_put_ne _ _ (fun h => hPne h.symm), FS.get_del_ne _ (fun h => (ht.apart i).2 ds hd hdd h.symm)]
      exact hs

/-- The hypotheses are met: with a backup from before, in the same schedule. -/
example : (run namesFirst ⟨fun i => replace (sameFile true i), [(fileF, [7]), (fileF ++ [46, 51], [9])]⟩).fs.get (fileF ++ [46, 51]) = some [9] ∧
    (run namesFirst ⟨fun i => replace (sameFile true i), [(fileF, [7]), (fileF ++ [46, 51], [9])]⟩).fs.get (fileF ++ [46, 52]) = some [0, 7] := by
  constructor <;> decide +kernel

end Scribbu.Props
