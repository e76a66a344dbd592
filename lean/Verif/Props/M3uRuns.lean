import Verif.Props.M3u

/-! C108 to C113: playlists: files that cannot be read, the exit status, which files are listed, UTF-8, notices, appending. -/

namespace Scribbu.Props
open Scribbu M3u Commands Spec Spec.M3u

/-- A run that writes into a file that takes it. -/
structure ToList (E : M3u.Env) (o : M3u.Opts) (dst : Encoding) (args : Forest) : Prop where
  output : o.output ≠ []
  target : M3uTarget E o dst
  arguments : o.arguments = some args
  dest : E.dest = .fine

theorem NewList.to {E : M3u.Env} {o : M3u.Opts} {dst : Encoding} {args : Forest} (h : NewList E o dst args) : ToList E o dst args :=
  ⟨h.output, h.target, h.arguments, h.dest⟩

/-! ## C108: files that cannot be read -/

/-- C108, in full: a file that cannot be read keeps no other file out of the playlist. -/
def C108_claim : Prop :=
  ∀ (E : M3u.Env) (o : M3u.Opts) (dst : Encoding) (args : Forest), NewList E o dst args → sound args = true →
    (∀ p ∈ found args, PathLine p ∧ ((∃ e, E.read p = .throw e) ∨ ∃ f, E.read p = .ok f ∧ Fine f ∧ OneLine (m3uHow E o dst) f)) →
    ∃ done doc, m3u E o = .ok done ∧ done.file = some doc ∧
      ∀ p ∈ found args, ∀ f, E.read p = .ok f → ∃ t ∈ tracks doc, About (m3uHow E o dst) E.read p t

/-- C108, as far as it holds: those before it are in the playlist, and the exit status is 1. -/
theorem C108_partial {E : M3u.Env} {o : M3u.Opts} {dst : Encoding} {args : Forest} (hn : NewList E o dst args) (hs : sound args = true)
    {as qs : List Path} {p : Path} {e : Exc} (hf : found args = as ++ p :: qs) (hp : E.read p = .throw e)
    (ha : ∀ q ∈ as, PathLine q ∧ ∃ f, E.read q = .ok f ∧ Fine f ∧ OneLine (m3uHow E o dst) f) :
    ∃ cout doc, m3u E o = .ok ⟨1, cout, some doc⟩ ∧ Each (About (m3uHow E o dst) E.read) as (tracks doc) := by
  obtain ⟨bs, h1, h2⟩ := entries_about (E := E) (c := ⟨E.conv, none, dst, o.rsp, o.verbose, true⟩) (h := m3uHow E o dst) rfl
    (ps := as) (fun q hq => let ⟨_, f, h3, h4, _⟩ := ha q hq; ⟨f, h3, h4⟩)
  obtain ⟨out, hw⟩ := walk_stops rfl args hs hf h1 (e := e) (by rw [hp]; rfl) ⟨EXTM3U ++ [10], []⟩
  refine ⟨out, EXTM3U ++ [10] ++ bs.flatten, ?_, ?_⟩
  · rw [m3u_file hn.output hn.target hn.arguments (by rw [hn.dest]; decide), hw]
    simp [finish, written, hn.dest, Report.Dest.file, hn.fresh]
  · unfold tracks
    rw [tracks_header]
    refine tracks_lines h2 (fun q hq => ?_) none
    obtain ⟨h3, f, h4, -, h5⟩ := ha q hq
    refine ⟨h3, fun g hg => ?_⟩
    rw [h4] at hg
    cases hg
    exact h5

/-- A file that cannot be read. -/
def brokenEnv : M3u.Env := { songEnv (songFacts [65] [66]) with read := fun p => if p = [121] then .throw .streamFailure else .ok (songFacts [65] [66]) }

example : m3uSeen (m3u brokenEnv (listOpts (.file [120] (.file [121] (.file [122] .nil))))) = some (1, [], some [⟨some (3, [65, 32, 45, 32, 66]), [120]⟩]) := by
  decide +kernel

theorem song_line (a t : Bytes) (h1 : 10 ∉ a) (h2 : 10 ∉ t) (src : Option Encoding) (dst : Encoding) (r : OnNo) :
    OneLine ⟨plainM3u, src, dst, r⟩ (songFacts a t) := by
  refine ⟨?_, by intro t h; cases h⟩
  intro u hu x hx s hs
  rw [show (songFacts a t).v2 = [songTag a t] from rfl, List.mem_singleton] at hu
  subst hu
  have hc : contents (songTag a t).tag = [⟨[84, 80, 69, 49], .text, a⟩, ⟨[84, 73, 84, 50], .text, t⟩] := by
    simp only [songTag, tagOf, List.foldl]
    unfold LTag.parseFrame
    rw [contents_push, contents_push]
    have e1 : (cfg .v3).textParser [84, 80, 69, 49] = true := by decide +kernel
    have e2 : (cfg .v3).textParser [84, 73, 84, 50] = true := by decide +kernel
    simp only [e1, e2]
    rfl
  rw [hc] at hx
  simp only [List.mem_cons, List.not_mem_nil, or_false] at hx
  cases hs
  rcases hx with rfl | rfl
  · exact h1
  · exact h2

/-- **Finding** (src/command-utilities.hh L554-562, src/m3u.cc L191-217, L422-425): an exception about one file ends the run; the files that would come next are not
listed, however many they are. -/
theorem C108_refuted : ¬ C108_claim := by
  intro h
  obtain ⟨done, doc, h1, h2, h3⟩ := h brokenEnv (listOpts (.file [121] (.file [122] .nil))) .UTF_8 (.file [121] (.file [122] .nil))
    ⟨by decide, rfl, .inr ⟨rfl, rfl⟩, rfl, rfl⟩ rfl
    (by
      intro p hp
      rw [show found (.file [121] (.file [122] .nil)) = [[121], [122]] from rfl] at hp
      simp only [List.mem_cons, List.not_mem_nil, or_false] at hp
      rcases hp with rfl | rfl
      · exact ⟨⟨by decide, by decide, by decide⟩, .inl ⟨_, rfl⟩⟩
      · exact ⟨⟨by decide, by decide, by decide⟩, .inr ⟨_, rfl, song_fine _ _, song_line _ _ (by decide) (by decide) _ _ _⟩⟩)
  obtain ⟨t, ht, -⟩ := h3 [122] (by decide) _ rfl
  have e : m3uSeen (m3u brokenEnv (listOpts (.file [121] (.file [122] .nil)))) = some (1, [], some []) := by decide +kernel
  rw [h1] at e
  simp only [m3uSeen, h2, Option.map_some, Option.some.injEq, Prod.mk.injEq] at e
  rw [e.2.2] at ht
  cases ht

/-! ## C109: the exit status -/

/-- C109, in full: exit status 0 means that there is no argument that is neither a file nor a directory, and that the playlist has one item about each file. -/
def C109_claim : Prop :=
  ∀ (E : M3u.Env) (o : M3u.Opts) (dst : Encoding) (args : Forest) (done : M3u.Done), o.output ≠ [] → o.append = false → M3uTarget E o dst →
    o.arguments = some args → (∀ p ∈ found args, PathLine p ∧ ∀ f, E.read p = .ok f → Fine f ∧ OneLine (m3uHow E o dst) f) →
    m3u E o = .ok done → done.status = 0 →
    idle args = [] ∧ ∃ doc, done.file = some doc ∧ Each (About (m3uHow E o dst) E.read) (found args) (tracks doc)

/-- C109, as far as it holds: if the file takes all that is written to it, the playlist has one item about each file; and no question to the file system has
failed. -/
theorem C109_partial {E : M3u.Env} {o : M3u.Opts} {dst : Encoding} {args : Forest} {done : M3u.Done} (hn : NewList E o dst args)
    (hp : ∀ p ∈ found args, PathLine p ∧ ∀ f, E.read p = .ok f → Fine f ∧ OneLine (m3uHow E o dst) f)
    (hm : m3u E o = .ok done) (h0 : done.status = 0) :
    sound args = true ∧ ∃ doc, done.file = some doc ∧ Each (About (m3uHow E o dst) E.read) (found args) (tracks doc) := by
  have hm' := hm
  rw [m3u_file hn.output hn.target hn.arguments (by rw [hn.dest]; decide)] at hm'
  cases hw : walk ⟨E.conv, none, dst, o.rsp, o.verbose, true⟩ E.read args ⟨EXTM3U ++ [10], []⟩ with
  | mk s r =>
    rw [hw] at hm'
    cases r with
    | ok u =>
      obtain ⟨hs, bs, hb⟩ := walk_ok args _ _ _ hw
      have hr : ∀ p ∈ found args, ∃ f, E.read p = .ok f ∧ Fine f := by
        intro p hpf
        have : ∀ {ps : List Path} {bs : List Bytes}, Each (M3u.Entry ⟨E.conv, none, dst, o.rsp, o.verbose, true⟩ E.read) ps bs → ∀ p ∈ ps, ∃ f, E.read p = .ok f := by
          intro ps bs h
          induction h with
          | nil => intro p hp; cases hp
          | cons q ps b bs h1 _ ih =>
            intro p hp
            rcases List.mem_cons.1 hp with rfl | hp
            · unfold M3u.Entry at h1
              cases e : E.read p with
              | ok f => exact ⟨f, rfl⟩
              | throw x => rw [e] at h1; cases h1
              | ub x => rw [e] at h1; cases h1
            · exact ih p hp
        obtain ⟨f, hf⟩ := this hb p hpf
        exact ⟨f, hf, ((hp p hpf).2 f hf).1⟩
      refine ⟨hs, ?_⟩
      obtain ⟨cout, doc, h1, h2⟩ := C104_partial hn hs hr fun p hpf => ⟨(hp p hpf).1, fun f hf => ((hp p hpf).2 f hf).2⟩
      rw [hm] at h1
      cases h1
      exact ⟨doc, rfl, h2⟩
    | throw x =>
      simp only [finish, Res.ok.injEq] at hm'
      rw [← hm'] at h0
      cases h0
    | ub x => cases hm'

/-- **Finding** (src/command-utilities.hh L559-561): an argument that is not there is skipped, without a word unless `--verbose` is given, and the exit status is 0. -/
theorem C109_refuted : ¬ C109_claim := by
  intro h
  have e : m3u (songEnv (songFacts [65] [66])) (listOpts (.other [120] .nil)) = .ok ⟨0, [], some (EXTM3U ++ [10])⟩ := by rfl
  have := (h (songEnv (songFacts [65] [66])) (listOpts (.other [120] .nil)) .UTF_8 (.other [120] .nil) _ (by decide) rfl (.inr ⟨rfl, rfl⟩) rfl
    (by intro p hp; cases hp) e rfl).1
  cases this

/-- **Finding** (src/m3u.cc L274-282, L213-216): whether writing has succeeded is never asked. On a full disk the playlist is cut off (here: it is empty), and the exit status is 0. -/
theorem C109_refuted_full : ¬ C109_claim := by
  intro h
  have hp : ∀ p ∈ found (.file [120] .nil), PathLine p ∧ ∀ f, (songEnv (songFacts [65] [66])).read p = .ok f →
      Fine f ∧ OneLine (m3uHow { songEnv (songFacts [65] [66]) with dest := .full 0 } (listOpts (.file [120] .nil)) .UTF_8) f := by
    intro p hp
    rw [show found (.file [120] .nil) = [[120]] from rfl, List.mem_singleton] at hp
    subst hp
    refine ⟨⟨by decide, by decide, by decide⟩, fun f hf => ?_⟩
    cases hf
    exact ⟨song_fine _ _, song_line _ _ (by decide) (by decide) _ _ _⟩
  cases hm : m3u { songEnv (songFacts [65] [66]) with dest := .full 0 } (listOpts (.file [120] .nil)) with
  | ok done =>
    have e : m3uSeen (m3u { songEnv (songFacts [65] [66]) with dest := .full 0 } (listOpts (.file [120] .nil))) = some (0, [], some []) := by decide +kernel
    rw [hm] at e
    simp only [m3uSeen, Option.some.injEq, Prod.mk.injEq] at e
    obtain ⟨-, doc, h1, h2⟩ := h { songEnv (songFacts [65] [66]) with dest := .full 0 } (listOpts (.file [120] .nil)) .UTF_8 (.file [120] .nil) done (by decide) rfl (.inr ⟨rfl, rfl⟩) rfl hp hm e.1
    rw [h1, Option.map_some, Option.some.injEq] at e
    rw [e.2.2] at h2
    exact absurd (Each.length h2) (by decide)
  | throw x =>
    have e : m3uSeen (m3u { songEnv (songFacts [65] [66]) with dest := .full 0 } (listOpts (.file [120] .nil))) = some (0, [], some []) := by decide +kernel
    rw [hm] at e; cases e
  | ub x =>
    have e : m3uSeen (m3u { songEnv (songFacts [65] [66]) with dest := .full 0 } (listOpts (.file [120] .nil))) = some (0, [], some []) := by decide +kernel
    rw [hm] at e; cases e

/-- A file that cannot be opened is noticed, and so are options that make no sense; nothing is written then. -/
theorem C109_unopened (E : M3u.Env) (o : M3u.Opts) :
    (∀ dst args, o.output ≠ [] → M3uTarget E o dst → o.arguments = some args → E.dest = .closed → m3u E o = .ok ⟨1, [], E.old⟩) ∧
    (o.output = [] → (o.append = true ∨ o.useUtf8 = true) → m3u E o = .ok ⟨2, [], E.old⟩) ∧
    (¬ (o.output = [] ∧ (o.append = true ∨ o.useUtf8 = true)) → o.arguments = none → m3u E o = .ok ⟨1, [], E.old⟩) := by
  refine ⟨fun dst args ho ht ha hd => ?_, fun ho h => ?_, fun h ha => ?_⟩
  · unfold m3u
    have h1 : (if o.output ≠ [] ∧ o.useUtf8 = true then Res.ok Encoding.UTF_8 else E.locale) = .ok dst := by
      rcases ht with ⟨h, rfl⟩ | ⟨h, e⟩
      · rw [if_pos ⟨ho, h⟩]
      · rw [if_neg (by simp [h]), e]
    rw [if_neg (by simp [ho]), if_neg (by simp [ho]), ha]
    simp only [h1]
    rw [if_neg ho, if_pos hd]
  · unfold m3u
    rcases h with h | h
    · rw [if_pos ⟨h, ho⟩]
    · by_cases h2 : o.append = true ∧ o.output = []
      · rw [if_pos h2]
      · rw [if_neg h2, if_pos ⟨h, ho⟩]
  · unfold m3u
    rw [if_neg (fun x => h ⟨x.2, .inl x.1⟩), if_neg (fun x => h ⟨x.2, .inr x.1⟩), ha]

/-! ## C110: which files are listed -/

/-- C110, in full: of the files in directories, those called `.mp3` are listed. -/
def C110_claim : Prop :=
  ∀ (E : M3u.Env) (o : M3u.Opts) (dst : Encoding) (args : Forest), NewList E o dst args → sound args = true →
    (∀ p ∈ found args, ∃ f, E.read p = .ok f ∧ Fine f) →
    (∀ p ∈ found args, PathLine p ∧ ∀ f, E.read p = .ok f → OneLine (m3uHow E o dst) f) →
    ∃ cout doc, m3u E o = .ok ⟨0, cout, some doc⟩ ∧ Each (About (m3uHow E o dst) E.read) (wanted false args) (tracks doc)

/-- C110, as far as it holds: they are listed, and nothing else is if there are no other files. -/
theorem C110_partial {E : M3u.Env} {o : M3u.Opts} {dst : Encoding} {args : Forest} (hn : NewList E o dst args) (hs : sound args = true)
    (hr : ∀ p ∈ found args, ∃ f, E.read p = .ok f ∧ Fine f)
    (hp : ∀ p ∈ found args, PathLine p ∧ ∀ f, E.read p = .ok f → OneLine (m3uHow E o dst) f) :
    ∃ cout doc, m3u E o = .ok ⟨0, cout, some doc⟩ ∧
      (∀ p ∈ wanted false args, ∃ t ∈ tracks doc, About (m3uHow E o dst) E.read p t) ∧
      ((∀ p ∈ found args, [46, 109, 112, 51] <:+ p) → Each (About (m3uHow E o dst) E.read) (wanted false args) (tracks doc)) := by
  obtain ⟨cout, doc, h1, h2⟩ := C104_partial hn hs hr hp
  refine ⟨cout, doc, h1, fun p hpw => ?_, fun h => by rw [found_wanted args false h]; exact h2⟩
  have hm := (wanted_sub args false).subset hpw
  clear h1 hp hr hs hn hpw
  generalize found args = ps at h2 hm
  generalize tracks doc = ts at h2
  induction h2 with
  | nil => cases hm
  | cons q ps t ts hq _ ih =>
    rcases List.mem_cons.1 hm with rfl | hm
    · exact ⟨t, List.mem_cons_self .., hq⟩
    · obtain ⟨u, hu, hu'⟩ := ih hm
      exact ⟨u, List.mem_cons_of_mem _ hu, hu'⟩

example : found (.dir (.file [97, 46, 109, 112, 51] .nil) false (.file [98, 46, 109, 112, 51] .nil)) = [[97, 46, 109, 112, 51], [98, 46, 109, 112, 51]] ∧
    wanted false (.dir (.file [97, 46, 109, 112, 51] (.file [97, 46, 106, 112, 103] .nil)) false (.file [98] .nil)) = [[97, 46, 109, 112, 51], [98]] := by decide

/-- **Finding** (src/command-utilities.hh L555-558): every regular file in a directory is listed, whatever it is called: pictures and playlists as well. -/
theorem C110_refuted : ¬ C110_claim := by
  intro h
  obtain ⟨cout, doc, h1, h2⟩ := h (songEnv (songFacts [65] [66])) (listOpts (.dir (.file [97, 46, 106, 112, 103] .nil) false .nil)) .UTF_8 (.dir (.file [97, 46, 106, 112, 103] .nil) false .nil)
    (song_new _ _) rfl
    (by intro p hp; rw [show found (.dir (.file [97, 46, 106, 112, 103] .nil) false .nil) = [[97, 46, 106, 112, 103]] from rfl, List.mem_singleton] at hp; subst hp; exact ⟨_, rfl, song_fine _ _⟩)
    (by
      intro p hp
      rw [show found (.dir (.file [97, 46, 106, 112, 103] .nil) false .nil) = [[97, 46, 106, 112, 103]] from rfl, List.mem_singleton] at hp
      subst hp
      refine ⟨⟨by decide, by decide, by decide⟩, fun f hf => ?_⟩
      cases hf
      exact song_line _ _ (by decide) (by decide) _ _ _)
  have := (seen_file (b := [⟨some (3, [65, 32, 45, 32, 66]), [97, 46, 106, 112, 103]⟩]) (n := 0) (a := []) (by decide +kernel) h1).2
  rw [this] at h2
  exact absurd (Each.length h2) (by decide)

/-! ## C111: UTF-8 -/

/-- Conversions to UTF-8 give UTF-8. -/
def GivesUtf8 (C : M3u.Conv) : Prop :=
  (∀ v d r s b, C.frame v d .UTF_8 r s = some b → Utf8 b) ∧ ∀ d s r b, C.field d s .UTF_8 r = some b → Utf8 b

/-- C111, in full: with `--use-utf8`, the playlist is in UTF-8. -/
def C111_claim : Prop :=
  ∀ (E : M3u.Env) (o : M3u.Opts) (args : Forest), NewList E o .UTF_8 args → o.useUtf8 = true → GivesUtf8 E.conv → sound args = true →
    (∀ p ∈ found args, ∃ f, E.read p = .ok f ∧ Fine f) → ∃ cout doc, m3u E o = .ok ⟨0, cout, some doc⟩ ∧ Utf8 doc

theorem named_utf8 {C : M3u.Conv} (hC : GivesUtf8 C) {s : Option Encoding} {r : OnNo} {f : M3u.Facts} {d : Bytes} (h : Named ⟨C, s, .UTF_8, r⟩ f d) : Utf8 d := by
  rcases h with ⟨t, -, x, -, -, y, -, -, a, b, ha, hb, -, -, rfl⟩ | ⟨t, -, a, b, ha, hb, -, -, rfl⟩
  · exact Utf8.append (Utf8.append (hC.1 _ _ _ _ _ ha) (utf8_ascii (by decide))) (hC.1 _ _ _ _ _ hb)
  · exact Utf8.append (Utf8.append (hC.2 _ _ _ _ ha) (utf8_ascii (by decide))) (hC.2 _ _ _ _ hb)

/-- C111, as far as it holds: if the paths are in UTF-8. -/
theorem C111_partial {E : M3u.Env} {o : M3u.Opts} {args : Forest} (hn : NewList E o .UTF_8 args) (hC : GivesUtf8 E.conv) (hs : sound args = true)
    (hr : ∀ p ∈ found args, ∃ f, E.read p = .ok f ∧ Fine f) (hp : ∀ p ∈ found args, Utf8 p) :
    ∃ cout doc, m3u E o = .ok ⟨0, cout, some doc⟩ ∧ Utf8 doc := by
  obtain ⟨cout, bs, h1, h2⟩ := new_list hn hs hr
  refine ⟨cout, _, h1, Utf8.append (utf8_ascii (by decide)) ?_⟩
  clear h1 hs hr hn
  generalize found args = ps at h2 hp
  induction h2 with
  | nil => exact .nil
  | cons p ps b bs hb _ ih =>
    obtain ⟨f, d, -, -, rfl, hd⟩ := hb
    have hpp := hp p (List.mem_cons_self ..)
    rw [List.flatten_cons]
    refine Utf8.append (twoLines_utf8 ?_ hpp) (ih fun q hq => hp q (List.mem_cons_of_mem _ hq))
    rcases hd with hd | hd
    · exact named_utf8 hC hd
    · exact stem_utf8 hd hpp

/-- Conversions that fail. -/
def noTexts : M3u.Conv := ⟨fun _ _ _ _ _ => none, fun _ _ _ _ => none⟩

/-- `é.mp3` in UTF-8, and texts that are in it. -/
example : GivesUtf8 noTexts ∧ Utf8 [0xc3, 0xa9, 46, 109, 112, 51] :=
  ⟨⟨fun _ _ _ _ _ h => (nomatch h), fun _ _ _ _ h => (nomatch h)⟩,
   .two _ _ _ (by decide) (by decide) (by unfold Cont; decide) (utf8_ascii (by decide))⟩

/-- **Finding** (src/m3u.cc L208, L213-216): paths, and titles made from them, are put into the playlist as they are, also with `--use-utf8`. With a path in ISO-8859-1 the playlist
is not UTF-8. -/
theorem C111_refuted : ¬ C111_claim := by
  intro h
  obtain ⟨cout, doc, h1, h2⟩ := h { songEnv (songFacts [65] [66]) with conv := noTexts } { listOpts (.file [0xe9] .nil) with useUtf8 := true } (.file [0xe9] .nil)
    ⟨by decide, rfl, .inl ⟨rfl, rfl⟩, rfl, rfl⟩ rfl ⟨fun _ _ _ _ _ h => (nomatch h), fun _ _ _ _ h => (nomatch h)⟩ rfl
    (by intro p hp; rw [show found (.file [0xe9] .nil) = [[0xe9]] from rfl, List.mem_singleton] at hp; subst hp; exact ⟨_, rfl, song_fine _ _⟩)
  have e : m3uLines (m3u { songEnv (songFacts [65] [66]) with conv := noTexts } { listOpts (.file [0xe9] .nil) with useUtf8 := true }) =
      some (0, some (lines ([35, 69, 88, 84, 77, 51, 85, 10, 35, 69, 88, 84, 73, 78, 70, 58, 51, 44] ++ 0xe9 :: [10, 0xe9, 10]))) := by decide +kernel
  have hd : (match m3u { songEnv (songFacts [65] [66]) with conv := noTexts } { listOpts (.file [0xe9] .nil) with useUtf8 := true } with
      | .ok d => d.file | _ => none) = some [35, 69, 88, 84, 77, 51, 85, 10, 35, 69, 88, 84, 73, 78, 70, 58, 51, 44, 0xe9, 10, 0xe9, 10] := by decide +kernel
  rw [h1] at hd
  simp only [Option.some.injEq] at hd
  subst hd
  have := (Utf8.split (x := 44) (by decide) h2 (a := [35, 69, 88, 84, 77, 51, 85, 10, 35, 69, 88, 84, 73, 78, 70, 58, 51]) (b := [0xe9, 10, 0xe9, 10]) rfl).2
  cases this with
  | one _ _ h _ => exact absurd h (by decide)
  | two _ _ _ _ h _ _ => exact absurd h (by decide)
  | three _ _ _ _ h _ _ => exact absurd h (by unfold Cont; decide)
  | four _ _ _ _ _ h => exact absurd h (by unfold Cont; decide)

/-! ## C112: notices -/

/-- C112, in full: `--verbose` makes no difference to the playlist, whether it is in a file or on standard output. -/
def C112_claim : Prop :=
  ∀ (E : M3u.Env) (o : M3u.Opts) (d d' : M3u.Done), m3u E { o with verbose := true } = .ok d → m3u E { o with verbose := false } = .ok d' →
    d.status = d'.status ∧ d.file = d'.file ∧ (o.output = [] → tracks d.cout = tracks d'.cout)

theorem m3u_to {E : M3u.Env} {o : M3u.Opts} (ho : o.output ≠ []) :
    m3u E o = match o.arguments with
      | none => .ok ⟨1, [], E.old⟩
      | some args =>
        match (if o.useUtf8 = true then Res.ok Encoding.UTF_8 else E.locale) with
        | .throw _ => .ok ⟨1, [], E.old⟩
        | .ub u => .ub u
        | .ok dst =>
          if E.dest = .closed then .ok ⟨1, [], E.old⟩
          else finish (written E o.append) (walk ⟨E.conv, none, dst, o.rsp, o.verbose, true⟩ E.read args ⟨EXTM3U ++ [10], []⟩) := by
  unfold m3u
  rw [if_neg (by simp [ho]), if_neg (by simp [ho])]
  cases o.arguments with
  | none => rfl
  | some args =>
    have : (if o.output ≠ [] ∧ o.useUtf8 = true then Res.ok Encoding.UTF_8 else E.locale) = (if o.useUtf8 = true then Res.ok Encoding.UTF_8 else E.locale) := by simp [ho]
    simp only [this]
    cases (if o.useUtf8 = true then Res.ok Encoding.UTF_8 else E.locale) with
    | throw x => rfl
    | ub x => rfl
    | ok dst => simp [ho]

/-- C112, as far as it holds: for playlists in files. -/
theorem C112_partial {E : M3u.Env} {o : M3u.Opts} (ho : o.output ≠ []) :
    (∀ d d', m3u E { o with verbose := true } = .ok d → m3u E { o with verbose := false } = .ok d' → d.status = d'.status ∧ d.file = d'.file) ∧
    ((∃ d, m3u E { o with verbose := true } = .ok d) ↔ ∃ d, m3u E { o with verbose := false } = .ok d) := by
  rw [m3u_to (o := { o with verbose := true }) ho, m3u_to (o := { o with verbose := false }) ho]
  cases ha : o.arguments with
  | none =>
    refine ⟨?_, ⟨fun _ => ⟨_, rfl⟩, fun _ => ⟨_, rfl⟩⟩⟩
    intro d d' g g'
    cases g
    cases g'
    exact ⟨rfl, rfl⟩
  | some args =>
    cases hl : (if o.useUtf8 = true then Res.ok Encoding.UTF_8 else E.locale) with
    | throw x =>
      refine ⟨?_, ⟨fun _ => ⟨_, rfl⟩, fun _ => ⟨_, rfl⟩⟩⟩
      intro d d' g g'
      cases g
      cases g'
      exact ⟨rfl, rfl⟩
    | ub x => exact ⟨fun _ _ g => (nomatch g), ⟨fun ⟨_, g⟩ => (nomatch g), fun ⟨_, g⟩ => (nomatch g)⟩⟩
    | ok dst =>
      by_cases hd : E.dest = .closed
      · simp only [if_pos hd]
        refine ⟨?_, trivial⟩
        intro d d' g g'
        cases g
        cases g'
        exact ⟨rfl, rfl⟩
      · simp only [if_neg hd]
        have h := walk_verbose ⟨E.conv, none, dst, o.rsp, true, true⟩ rfl E.read args ⟨EXTM3U ++ [10], []⟩ ⟨EXTM3U ++ [10], []⟩ rfl
        cases e1 : walk ⟨E.conv, none, dst, o.rsp, true, true⟩ E.read args ⟨EXTM3U ++ [10], []⟩ with
        | mk s1 r1 =>
          cases e2 : walk ⟨E.conv, none, dst, o.rsp, false, true⟩ E.read args ⟨EXTM3U ++ [10], []⟩ with
          | mk s2 r2 =>
            simp only [e1, e2] at h
            obtain ⟨h1, h2⟩ := h
            subst h2
            cases r1 with
            | ok u =>
              refine ⟨?_, ⟨fun _ => ⟨_, rfl⟩, fun _ => ⟨_, rfl⟩⟩⟩
              intro d d' g g'
              simp only [finish, Res.ok.injEq] at g g'
              subst g
              subst g'
              exact ⟨rfl, by simp [h1]⟩
            | throw x =>
              refine ⟨?_, ⟨fun _ => ⟨_, rfl⟩, fun _ => ⟨_, rfl⟩⟩⟩
              intro d d' g g'
              simp only [finish, Res.ok.injEq] at g g'
              subst g
              subst g'
              exact ⟨rfl, by simp [h1]⟩
            | ub x => simp [finish]

/-- **Finding** (src/command-utilities.hh L559-561): the notices go to standard output, and so into the playlist if that is written there; a reader takes them for paths. -/
theorem C112_refuted : ¬ C112_claim := by
  intro h
  have e1 : m3u (songEnv (songFacts [65] [66])) { (⟨false, .fail, [], .CP1252, false, true, some (.other [120] .nil)⟩ : M3u.Opts) with verbose := true } = .ok ⟨0, notice [120], none⟩ := by rfl
  have e2 : m3u (songEnv (songFacts [65] [66])) { (⟨false, .fail, [], .CP1252, false, true, some (.other [120] .nil)⟩ : M3u.Opts) with verbose := false } = .ok ⟨0, [], none⟩ := by rfl
  have := (h _ _ _ _ e1 e2).2.2 rfl
  exact absurd this (by decide)

/-- What is said about something that is not a file: its path between quotation marks, in which quotation marks and backslashes get a
backslash. -/
def noticeLine (p : Path) : Bytes :=
  /- skipping non-file `" -/ [115, 107, 105, 112, 112, 105, 110, 103, 32, 110, 111, 110, 45, 102, 105, 108, 101, 32, 96, 34] ++ (p.flatMap fun c => if c = 34 then [92, 34] else if c = 92 then [92, 92] else [c]) ++ [34, 39, 10]

/-- With `--verbose`, and a new playlist in a file, there is on standard output a line about each argument that is not a file, and nothing
else; without, there is nothing. -/
theorem C112_notices_partial {E : M3u.Env} {o : M3u.Opts} {dst : Encoding} {args : Forest} (hn : NewList E o dst args) (hs : sound args = true)
    (hr : ∀ p ∈ found args, ∃ f, E.read p = .ok f ∧ Fine f) :
    ∃ doc, m3u E o = .ok ⟨0, if o.verbose then (strange args).flatMap noticeLine else [], some doc⟩ := by
  obtain ⟨bs, h1, _⟩ := entries_about (E := E) (c := ⟨E.conv, none, dst, o.rsp, o.verbose, true⟩) (h := m3uHow E o dst) rfl hr
  refine ⟨EXTM3U ++ [10] ++ bs.flatten, ?_⟩
  rw [m3u_file hn.output hn.target hn.arguments (by rw [hn.dest]; decide), walk_file rfl args hs h1]
  have e : notice = noticeLine := by
    funext p
    have : (fun c : Byte => if c = 34 ∨ c = 92 then [92, c] else [c]) = fun c => if c = 34 then [92, 34] else if c = 92 then [92, 92] else [c] := by
      funext c
      by_cases h : c = 34
      · simp [h]
      · by_cases h' : c = 92 <;> simp [h, h']
    unfold notice noticeLine Report.quoted
    rw [this]
    simp
  unfold finish notices
  simp only [written, hn.dest, Report.Dest.file, hn.fresh, Bool.false_eq_true, if_false, List.nil_append, e]

example : ∃ doc, m3u (songEnv (songFacts [65] [66])) { listOpts (.other [120, 34] .nil) with verbose := true } = .ok ⟨0,
    /- skipping non-file `"x\""' -/ [115, 107, 105, 112, 112, 105, 110, 103, 32, 110, 111, 110, 45, 102, 105, 108, 101, 32, 96, 34, 120, 92, 34, 34, 39, 10],
    some doc⟩ :=
  C112_notices_partial (o := { listOpts (.other [120, 34] .nil) with verbose := true }) (args := .other [120, 34] .nil)
    ⟨(song_new (songFacts [65] [66]) (.other [120, 34] .nil)).output, rfl, (song_new (songFacts [65] [66]) (.other [120, 34] .nil)).target, rfl, rfl⟩ rfl nofun

/-! ## C113: appending -/

/-- C113, in full: appending to a playlist keeps its items, and puts items about the files behind them. -/
def C113_claim : Prop :=
  ∀ (E : M3u.Env) (o : M3u.Opts) (dst : Encoding) (args : Forest) (old : Bytes), ToList E o dst args → o.append = true → E.old = some old → sound args = true →
    (∀ p ∈ found args, ∃ f, E.read p = .ok f ∧ Fine f) →
    (∀ p ∈ found args, PathLine p ∧ ∀ f, E.read p = .ok f → OneLine (m3uHow E o dst) f) →
    ∃ cout doc ts, m3u E o = .ok ⟨0, cout, some doc⟩ ∧ tracks doc = tracks old ++ ts ∧ Each (About (m3uHow E o dst) E.read) (found args) ts

theorem tracksFrom_append (a b : List Bytes) : ∀ i, ∃ j, tracksFrom i (a ++ b) = tracksFrom i a ++ tracksFrom j b := by
  induction a with
  | nil => intro i; exact ⟨i, rfl⟩
  | cons l a ih =>
    intro i
    simp only [List.cons_append, tracksFrom]
    split
    · exact ih i
    · split
      · exact ih _
      · obtain ⟨j, hj⟩ := ih none
        exact ⟨j, by rw [hj]; rfl⟩

/-- C113, as far as it holds: if what is in the file ends with a line feed. -/
theorem C113_partial {E : M3u.Env} {o : M3u.Opts} {dst : Encoding} {args : Forest} {old : Bytes} (hn : ToList E o dst args) (ha : o.append = true)
    (ho : E.old = some old) (hw : Whole old) (hs : sound args = true) (hr : ∀ p ∈ found args, ∃ f, E.read p = .ok f ∧ Fine f)
    (hp : ∀ p ∈ found args, PathLine p ∧ ∀ f, E.read p = .ok f → OneLine (m3uHow E o dst) f) :
    ∃ cout doc ts, m3u E o = .ok ⟨0, cout, some doc⟩ ∧ tracks doc = tracks old ++ ts ∧ Each (About (m3uHow E o dst) E.read) (found args) ts := by
  obtain ⟨bs, h1, h2⟩ := entries_about (E := E) (c := ⟨E.conv, none, dst, o.rsp, o.verbose, true⟩) (h := m3uHow E o dst) rfl hr
  have e : m3u E o = .ok ⟨0, [] ++ notices ⟨E.conv, none, dst, o.rsp, o.verbose, true⟩ args, some (old ++ (EXTM3U ++ [10] ++ bs.flatten))⟩ := by
    rw [m3u_file hn.output hn.target hn.arguments (by rw [hn.dest]; decide), walk_file rfl args hs h1]
    simp only [finish, written, hn.dest, Report.Dest.file, ha, if_true, ho]
  obtain ⟨j, hj⟩ := tracksFrom_append (lines old) (lines (EXTM3U ++ [10] ++ bs.flatten)) none
  refine ⟨_, _, tracksFrom j (lines (EXTM3U ++ [10] ++ bs.flatten)), e, ?_, ?_⟩
  · unfold tracks
    rw [lines_whole hw, hj]
  · rw [tracks_header]
    exact tracks_lines h2 hp j

/-- Whatever happens, what had been in the file stays in front of what is appended. -/
theorem C113_kept {E : M3u.Env} {o : M3u.Opts} {old : Bytes} {done : M3u.Done} (ha : o.append = true) (ho : E.old = some old) (h : m3u E o = .ok done) :
    ∃ new, done.file = some (old ++ new) := by
  have kw : ∀ b, ∃ new, written E o.append b = some (old ++ new) := by
    intro b
    unfold written
    cases E.dest.file b with
    | none => exact ⟨[], by simp [ho]⟩
    | some b => exact ⟨b, by simp [ha, ho]⟩
  have ke : ∃ new, E.old = some (old ++ new) := ⟨[], by simp [ho]⟩
  have kf : ∀ {g : Bytes → Option Bytes} {x : St × Res Unit}, (∀ b, ∃ new, g b = some (old ++ new)) → finish g x = .ok done → ∃ new, done.file = some (old ++ new) := by
    rintro g ⟨s, r⟩ hg hx
    cases r with
    | ok u => simp only [finish, Res.ok.injEq] at hx; subst hx; exact hg _
    | throw u => simp only [finish, Res.ok.injEq] at hx; subst hx; exact hg _
    | ub u => cases hx
  unfold m3u at h
  split at h
  · simp only [Res.ok.injEq] at h; subst h; exact ke
  split at h
  · simp only [Res.ok.injEq] at h; subst h; exact ke
  split at h
  · simp only [Res.ok.injEq] at h; subst h; exact ke
  split at h
  · simp only [Res.ok.injEq] at h; subst h; exact ke
  · cases h
  simp only at h
  split at h
  · exact kf (fun _ => ke) h
  split at h
  · simp only [Res.ok.injEq] at h; subst h; exact ke
  · exact kf kw h

example : Whole [97, 10] ∧ m3uSeen (m3u { songEnv (songFacts [65] [66]) with old := some [97, 10] } { listOpts (.file [120] .nil) with append := true }) =
    some (0, [], some [⟨none, [97]⟩, ⟨some (3, [65, 32, 45, 32, 66]), [120]⟩]) := ⟨.inr ⟨[97], rfl⟩, by decide +kernel⟩

/-- **Finding** (src/m3u.cc L274-282): if the last line of the playlist does not end with a line feed, the header that is written again (C105) is glued to it, and the path there
names another file. -/
theorem C113_refuted : ¬ C113_claim := by
  intro h
  obtain ⟨cout, doc, ts, h1, h2, h3⟩ := h { songEnv (songFacts [65] [66]) with old := some [97] } { listOpts .nil with append := true } .UTF_8 .nil [97]
    ⟨by decide, .inr ⟨rfl, rfl⟩, rfl, rfl⟩ rfl rfl rfl (by intro p hp; cases hp) (by intro p hp; cases hp)
  have := (seen_file (b := [⟨none, [97, 35, 69, 88, 84, 77, 51, 85]⟩]) (n := 0) (a := []) (by decide +kernel) h1).2
  cases h3
  rw [this] at h2
  exact absurd h2 (by decide)

end Scribbu.Props
