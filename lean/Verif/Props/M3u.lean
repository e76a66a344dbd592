import Verif.Proofs.M3u
import Verif.Props.Report

/-! C104 to C113: playlists, the sub-command `m3u`. -/

namespace Scribbu.Props
open Scribbu M3u Commands Spec Spec.M3u

/-- The encoding that texts are written in: UTF-8 if that is asked for, else that of the system locale. -/
def M3uTarget (E : M3u.Env) (o : M3u.Opts) (dst : Encoding) : Prop :=
  (o.useUtf8 = true ∧ dst = .UTF_8) ∨ (o.useUtf8 = false ∧ E.locale = .ok dst)

/-- A run that writes a new playlist into a file that takes it. -/
structure NewList (E : M3u.Env) (o : M3u.Opts) (dst : Encoding) (args : Forest) : Prop where
  output : o.output ≠ []
  fresh : o.append = false
  target : M3uTarget E o dst
  arguments : o.arguments = some args
  dest : E.dest = .fine

theorem m3u_file {E : M3u.Env} {o : M3u.Opts} {dst : Encoding} {args : Forest} (ho : o.output ≠ []) (ht : M3uTarget E o dst)
    (ha : o.arguments = some args) (hd : E.dest ≠ .closed) : m3u E o =
      finish (written E o.append) (walk ⟨E.conv, none, dst, o.rsp, o.verbose, true⟩ E.read args ⟨EXTM3U ++ [10], []⟩) := by
  unfold m3u
  have h1 : (if o.output ≠ [] ∧ o.useUtf8 = true then Res.ok Encoding.UTF_8 else E.locale) = .ok dst := by
    rcases ht with ⟨h, rfl⟩ | ⟨h, e⟩
    · rw [if_pos ⟨ho, h⟩]
    · rw [if_neg (by simp [h]), e]
  rw [if_neg (by simp [ho]), if_neg (by simp [ho]), ha]
  simp only [h1]
  rw [if_neg ho, if_neg hd]
  simp [ho]

theorem m3u_cout {E : M3u.Env} {o : M3u.Opts} {dst : Encoding} {args : Forest} (ho : o.output = []) (h8 : o.useUtf8 = false) (hap : o.append = false)
    (ht : E.locale = .ok dst) (ha : o.arguments = some args) : m3u E o =
      finish (fun _ => E.old) (walk ⟨E.conv, none, dst, o.rsp, o.verbose, false⟩ E.read args ⟨[], []⟩) := by
  unfold m3u
  rw [if_neg (by simp [hap]), if_neg (by simp [h8]), ha]
  simp only [h8, ht]
  simp [ho]

/-- How texts are converted: the encoding they are in is not named (C107). -/
def m3uHow (E : M3u.Env) (o : M3u.Opts) (dst : Encoding) : How := ⟨E.conv, none, dst, o.rsp⟩

/-! ## C104: playlists can be read -/

/-- C104, in full: a reader finds in the new playlist one item about each file, in order. -/
def C104_claim : Prop :=
  ∀ (E : M3u.Env) (o : M3u.Opts) (dst : Encoding) (args : Forest), NewList E o dst args → sound args = true →
    (∀ p ∈ found args, p ≠ [] ∧ ∃ f, E.read p = .ok f ∧ Fine f) →
    ∃ cout doc, m3u E o = .ok ⟨0, cout, some doc⟩ ∧ Each (About (m3uHow E o dst) E.read) (found args) (tracks doc)

/-- The lines about a file. -/
def LinesAbout (h : How) (read : Path → Res M3u.Facts) (p : Path) (b : Bytes) : Prop :=
  ∃ f d, read p = .ok f ∧ 0 < f.den ∧ b = twoLines (seconds f) d p ∧ (Named h f d ∨ IsStem p d)

theorem tracks_lines {h : How} {read : Path → Res M3u.Facts} {ps : List Path} {bs : List Bytes} (k : Each (LinesAbout h read) ps bs)
    (hp : ∀ p ∈ ps, PathLine p ∧ ∀ f, read p = .ok f → OneLine h f) (i : Option (Nat × Bytes)) :
    Each (About h read) ps (tracksFrom i (lines bs.flatten)) := by
  induction k generalizing i with
  | nil => exact .nil
  | cons p ps b bs h1 _ ih =>
    obtain ⟨f, d, hf, hden, rfl, hd⟩ := h1
    obtain ⟨h2, h3⟩ := hp p (List.mem_cons_self ..)
    have hd' : 10 ∉ d := by
      rcases hd with hd | hd
      · exact named_line (h3 f hf) hd
      · exact fun hm => h2.2.1 (stem_sub hd hm)
    rw [List.flatten_cons, lines_two hd' h2.2.1, tracks_two h2]
    exact .cons p ps _ _ ⟨f, seconds f, d, hf, rfl, rfl, seconds_spec hden, hd⟩ (ih (fun q hq => hp q (List.mem_cons_of_mem _ hq)) none)

theorem tracks_header (b : Bytes) (i : Option (Nat × Bytes)) : tracksFrom i (lines (EXTM3U ++ [10] ++ b)) = tracksFrom i (lines b) := by
  rw [show EXTM3U ++ [10] ++ b = EXTM3U ++ 10 :: b by simp, lines_line (by decide), tracksFrom, if_neg (by decide), if_pos (by decide)]
  rw [show extinf EXTM3U = none by decide]

theorem entries_about {E : M3u.Env} {c : Ctx} {h : How} (hh : c.how = h) {ps : List Path} (hr : ∀ p ∈ ps, ∃ f, E.read p = .ok f ∧ Fine f) :
    ∃ bs, Each (Entry c E.read) ps bs ∧ Each (LinesAbout h E.read) ps bs := by
  induction ps with
  | nil => exact ⟨[], .nil, .nil⟩
  | cons p ps ih =>
    obtain ⟨bs, h1, h2⟩ := ih fun q hq => hr q (List.mem_cons_of_mem _ hq)
    obtain ⟨f, hf, hfine⟩ := hr p (List.mem_cons_self ..)
    obtain ⟨d, he, hd⟩ := entry_two c hf hfine
    rw [hh] at hd
    exact ⟨_ :: bs, .cons p ps _ bs he h1, .cons p ps _ bs ⟨f, d, hf, hfine.rate, rfl, hd⟩ h2⟩

/-- What a run leaves in a new playlist. -/
theorem new_list {E : M3u.Env} {o : M3u.Opts} {dst : Encoding} {args : Forest} (hn : NewList E o dst args) (hs : sound args = true)
    (hr : ∀ p ∈ found args, ∃ f, E.read p = .ok f ∧ Fine f) :
    ∃ cout bs, m3u E o = .ok ⟨0, cout, some (EXTM3U ++ [10] ++ bs.flatten)⟩ ∧ Each (LinesAbout (m3uHow E o dst) E.read) (found args) bs := by
  obtain ⟨bs, h1, h2⟩ := entries_about (E := E) (c := ⟨E.conv, none, dst, o.rsp, o.verbose, true⟩) (h := m3uHow E o dst) rfl hr
  refine ⟨[] ++ notices ⟨E.conv, none, dst, o.rsp, o.verbose, true⟩ args, bs, ?_, h2⟩
  rw [m3u_file hn.output hn.target hn.arguments (by rw [hn.dest]; decide), walk_file rfl args hs h1]
  unfold finish
  simp only [written, hn.dest, Report.Dest.file, hn.fresh, Bool.false_eq_true, if_false]

/-- C104, as far as it holds: if no path has a line feed in it or `#` in front, and no text of a tag has a line feed in it. -/
theorem C104_partial {E : M3u.Env} {o : M3u.Opts} {dst : Encoding} {args : Forest} (hn : NewList E o dst args) (hs : sound args = true)
    (hr : ∀ p ∈ found args, ∃ f, E.read p = .ok f ∧ Fine f)
    (hp : ∀ p ∈ found args, PathLine p ∧ ∀ f, E.read p = .ok f → OneLine (m3uHow E o dst) f) :
    ∃ cout doc, m3u E o = .ok ⟨0, cout, some doc⟩ ∧ Each (About (m3uHow E o dst) E.read) (found args) (tracks doc) := by
  obtain ⟨cout, bs, h1, h2⟩ := new_list hn hs hr
  refine ⟨cout, _, h1, ?_⟩
  unfold tracks
  rw [tracks_header]
  exact tracks_lines h2 hp none

/-- The same of playlists on standard output. -/
theorem C104_stdout_partial {E : M3u.Env} {o : M3u.Opts} {dst : Encoding} {args : Forest} (ho : o.output = []) (h8 : o.useUtf8 = false) (hap : o.append = false)
    (ht : E.locale = .ok dst) (ha : o.arguments = some args) (hv : o.verbose = false ∨ strange args = []) (hs : sound args = true)
    (hr : ∀ p ∈ found args, ∃ f, E.read p = .ok f ∧ Fine f)
    (hp : ∀ p ∈ found args, PathLine p ∧ ∀ f, E.read p = .ok f → OneLine (m3uHow E o dst) f) :
    ∃ cout, m3u E o = .ok ⟨0, cout, E.old⟩ ∧ Each (About (m3uHow E o dst) E.read) (found args) (tracks cout) := by
  obtain ⟨bs, h1, h2⟩ := entries_about (E := E) (c := ⟨E.conv, none, dst, o.rsp, o.verbose, false⟩) (h := m3uHow E o dst) rfl hr
  refine ⟨bs.flatten, ?_, tracks_lines h2 hp none⟩
  rw [m3u_cout ho h8 hap ht ha, walk_cout rfl hv hs h1]
  rfl

/-! ### Examples -/

/-- Conversions that leave texts as they are. -/
def plainM3u : M3u.Conv := ⟨fun _ d _ _ _ => some d, fun d _ _ _ => some d⟩

/-- An ID3v2.3 tag as read from a file, with this artist and title. -/
def songTag (a t : Bytes) : Tg := tagOf (cfg .v3) [([84, 80, 69, 49], a), ([84, 73, 84, 50], t)]

/-- A file with this artist and title that lasts 2.5 s. -/
def songFacts (a t : Bytes) : M3u.Facts := ⟨[songTag a t], 576, 100, 23040, none⟩

theorem song_tag_fine (l : List (Bytes × Bytes)) : ReadTag (tagOf (cfg .v3) l) ∧
    (∀ id, (tagOf (cfg .v3) l).cfg.textParser id = true → id.head? = some 84) ∧
    (tagOf (cfg .v3) l).cfg.textParser (nameIds (tagOf (cfg .v3) l).cfg.ver).1 = true ∧
    (tagOf (cfg .v3) l).cfg.textParser (nameIds (tagOf (cfg .v3) l).cfg.ver).2 = true := by
  refine ⟨⟨l, rfl⟩, cfg_texts84 .v3, ?_, ?_⟩
  · show (cfg .v3).textParser [84, 80, 69, 49] = true
    decide +kernel
  · show (cfg .v3).textParser [84, 73, 84, 50] = true
    decide +kernel

theorem song_fine (a t : Bytes) : Fine (songFacts a t) := by
  refine ⟨fun u hu => ?_, show 0 < 23040 by decide⟩
  rw [show (songFacts a t).v2 = [songTag a t] from rfl, List.mem_singleton] at hu
  subst hu
  exact song_tag_fine _

/-- What a reader makes of a run. -/
def m3uSeen (r : Res M3u.Done) : Option (Nat × List Track × Option (List Track)) :=
  match r with
  | .ok d => some (d.status, tracks d.cout, d.file.map tracks)
  | _ => none

/-- A run about some files, all with these facts. -/
def songEnv (f : M3u.Facts) : M3u.Env := ⟨plainM3u, fun _ => .ok f, .ok .UTF_8, none, .fine⟩

/-- Writing a playlist `l`. -/
def listOpts (args : Forest) : M3u.Opts := { output := [108], arguments := some args }

theorem song_new (f : M3u.Facts) (args : Forest) : NewList (songEnv f) (listOpts args) .UTF_8 args :=
  ⟨by simp [listOpts], rfl, .inr ⟨rfl, rfl⟩, rfl, rfl⟩

/-- `A - B`, at `x.mp3` and in a directory: found as items of three seconds (2.5 is rounded up). -/
example : m3uSeen (m3u (songEnv (songFacts [65] [66])) (listOpts (.file [120, 46, 109, 112, 51] (.dir (.file [100, 47, 121] .nil) false .nil)))) =
    some (0, [], some [⟨some (3, [65, 32, 45, 32, 66]), [120, 46, 109, 112, 51]⟩, ⟨some (3, [65, 32, 45, 32, 66]), [100, 47, 121]⟩]) := by decide +kernel

/-- The hypotheses of `C104_partial` hold there. -/
example : Fine (songFacts [65] [66]) ∧ PathLine [120, 46, 109, 112, 51] ∧ OneLine (m3uHow (songEnv (songFacts [65] [66])) (listOpts .nil) .UTF_8) (songFacts [65] [66]) := by
  refine ⟨song_fine _ _, ⟨by decide, by decide, by decide⟩, ⟨?_, by intro t h; cases h⟩⟩
  intro t ht x hx s hs
  rw [show (songFacts [65] [66]).v2 = [songTag [65] [66]] from rfl, List.mem_singleton] at ht
  subst ht
  have hc : contents (songTag [65] [66]).tag = [⟨[84, 80, 69, 49], .text, [65]⟩, ⟨[84, 73, 84, 50], .text, [66]⟩] := by decide +kernel
  rw [hc] at hx
  simp only [List.mem_cons, List.not_mem_nil, or_false] at hx
  cases hs
  rcases hx with rfl | rfl <;> decide

theorem Each.length {β : Type} {R : Path → β → Prop} {ps : List Path} {ts : List β} (h : Each R ps ts) : ps.length = ts.length := by
  induction h with
  | nil => rfl
  | cons _ _ _ _ _ _ ih => simp [ih]

/-- What a run that is seen so has come to. -/
theorem seen_file {r : Res M3u.Done} {cout doc : Bytes} {n m : Nat} {a b : List Track} (h : m3uSeen r = some (n, a, some b))
    (k : r = .ok ⟨m, cout, some doc⟩) : m = n ∧ tracks doc = b := by
  rw [k] at h
  simp only [m3uSeen, Option.map_some, Option.some.injEq, Prod.mk.injEq] at h
  exact ⟨h.1, h.2.2⟩

/-- **Finding** (src/m3u.cc L213-216): titles are put into the playlist as they are. A line feed in one makes a line of its own of the rest, which a reader
takes for a path; the item about the file has neither duration nor title. -/
theorem C104_refuted : ¬ C104_claim := by
  intro h
  obtain ⟨cout, doc, h1, h2⟩ := h (songEnv (songFacts [65] [66, 10, 67])) (listOpts (.file [120] .nil)) .UTF_8 (.file [120] .nil) (song_new _ _) rfl
    (by intro p hp; rw [show found (.file [120] .nil) = [[120]] from rfl, List.mem_singleton] at hp; subst hp; exact ⟨by decide, _, rfl, song_fine _ _⟩)
  have := (seen_file (b := [⟨some (3, [65, 32, 45, 32, 66]), [67]⟩, ⟨none, [120]⟩]) (n := 0) (a := []) (by decide +kernel) h1).2
  rw [this] at h2
  exact absurd (Each.length h2) (by decide)

/-- **Finding** (src/m3u.cc L213-216): a path with `#` in front, as `#1.mp3` given on the command line, is a comment to a reader: the file is not in the
playlist. -/
theorem C104_refuted_path : ¬ C104_claim := by
  intro h
  obtain ⟨cout, doc, h1, h2⟩ := h (songEnv (songFacts [65] [66])) (listOpts (.file [35, 49] .nil)) .UTF_8 (.file [35, 49] .nil) (song_new _ _) rfl
    (by intro p hp; rw [show found (.file [35, 49] .nil) = [[35, 49]] from rfl, List.mem_singleton] at hp; subst hp; exact ⟨by decide, _, rfl, song_fine _ _⟩)
  have := (seen_file (b := []) (n := 0) (a := []) (by decide +kernel) h1).2
  rw [this] at h2
  exact absurd (Each.length h2) (by decide)

/-! ## C105: the header -/

/-- A playlist with its header in front and nowhere else. -/
def OneHeader (doc : Bytes) : Prop := ∃ rest, lines doc = header :: rest ∧ header ∉ rest

/-- C105, in full: after a run that succeeds, the playlist has its header in front and nowhere else, also if it had been there before and has been appended
to. -/
def C105_claim : Prop :=
  ∀ (E : M3u.Env) (o : M3u.Opts) (dst : Encoding) (args : Forest), o.output ≠ [] → M3uTarget E o dst → o.arguments = some args → E.dest = .fine →
    (∀ old, E.old = some old → o.append = true → Whole old ∧ OneHeader old) → sound args = true →
    (∀ p ∈ found args, ∃ f, E.read p = .ok f ∧ Fine f) →
    (∀ p ∈ found args, PathLine p ∧ ∀ f, E.read p = .ok f → OneLine (m3uHow E o dst) f) →
    ∃ cout doc, m3u E o = .ok ⟨0, cout, some doc⟩ ∧ OneHeader doc

theorem no_header {h : How} {read : Path → Res M3u.Facts} {ps : List Path} {bs : List Bytes} (k : Each (LinesAbout h read) ps bs)
    (hp : ∀ p ∈ ps, PathLine p ∧ ∀ f, read p = .ok f → OneLine h f) : header ∉ lines bs.flatten := by
  induction k with
  | nil => intro h; simp [lines, linesFrom] at h
  | cons p ps b bs h1 _ ih =>
    obtain ⟨f, d, hf, hden, rfl, hd⟩ := h1
    obtain ⟨h2, h3⟩ := hp p (List.mem_cons_self ..)
    have hd' : 10 ∉ d := by
      rcases hd with hd | hd
      · exact named_line (h3 f hf) hd
      · exact fun hm => h2.2.1 (stem_sub hd hm)
    rw [List.flatten_cons, lines_two hd' h2.2.1]
    simp only [List.mem_cons, not_or]
    refine ⟨fun e => ?_, fun e => h2.2.2 (by rw [← e]; rfl), ih fun q hq => hp q (List.mem_cons_of_mem _ hq)⟩
    have := congrArg (fun l : Bytes => l[4]?) e
    simp [header, EXTINF] at this

/-- C105, as far as it holds: for a playlist that is not appended to. -/
theorem C105_partial {E : M3u.Env} {o : M3u.Opts} {dst : Encoding} {args : Forest} (hn : NewList E o dst args) (hs : sound args = true)
    (hr : ∀ p ∈ found args, ∃ f, E.read p = .ok f ∧ Fine f)
    (hp : ∀ p ∈ found args, PathLine p ∧ ∀ f, E.read p = .ok f → OneLine (m3uHow E o dst) f) :
    ∃ cout doc, m3u E o = .ok ⟨0, cout, some doc⟩ ∧ OneHeader doc := by
  obtain ⟨cout, bs, h1, h2⟩ := new_list hn hs hr
  refine ⟨cout, _, h1, lines bs.flatten, ?_, no_header h2 hp⟩
  rw [show EXTM3U ++ [10] ++ bs.flatten = EXTM3U ++ 10 :: bs.flatten by simp, lines_line (by decide)]
  rfl

/-- The lines of what a run leaves in the file. -/
def m3uLines (r : Res M3u.Done) : Option (Nat × Option (List Bytes)) :=
  match r with
  | .ok d => some (d.status, d.file.map lines)
  | _ => none

/-- **Finding** (src/m3u.cc L281): the header is written also when the playlist is appended to, so that it is in there again, amid the items. -/
theorem C105_refuted : ¬ C105_claim := by
  intro h
  obtain ⟨cout, doc, h1, rest, h2, h3⟩ := h { songEnv (songFacts [65] [66]) with old := some [35, 69, 88, 84, 77, 51, 85, 10] } { listOpts .nil with append := true } .UTF_8 .nil
    (by decide) (.inr ⟨rfl, rfl⟩) rfl rfl
    (by intro old h _; cases h; exact ⟨.inr ⟨[35, 69, 88, 84, 77, 51, 85], rfl⟩, [], by decide, by decide⟩)
    rfl (by intro p hp; cases hp) (by intro p hp; cases hp)
  have e : m3uLines (m3u { songEnv (songFacts [65] [66]) with old := some [35, 69, 88, 84, 77, 51, 85, 10] } { listOpts .nil with append := true }) =
      some (0, some [header, header]) := by decide +kernel
  rw [h1] at e
  simp only [m3uLines, Option.map_some, Option.some.injEq, Prod.mk.injEq, true_and] at e
  rw [e, List.cons.injEq] at h2
  rw [← h2.2] at h3
  exact h3 (by simp)

/-! ## C106: titles -/

/-- C106, in full: if some tag names artist and title, these are shown, else the name of the file. -/
def C106_claim : Prop :=
  ∀ (c : Ctx) (p : Path) (f : M3u.Facts), Fine f → ∃ d, entry c p f = .ok (twoLines (seconds f) d p) ∧
    ((∃ d', Named c.how f d') → Named c.how f d) ∧ ((∀ d', ¬ Named c.how f d') → IsStem p d)

/-- C106, as far as it holds. What is shown is what some tag names, or else the name of the file; the latter if no tag names anything. The first ID3v2 tag with both
frames is asked, and its answer is shown if it has one; the ID3v1 tag is, if there is no such ID3v2 tag. -/
theorem C106_partial (c : Ctx) (p : Path) {f : M3u.Facts} (hf : Fine f) : ∃ d, entry c p f = .ok (twoLines (seconds f) d p) ∧
    (Named c.how f d ∨ IsStem p d) ∧ ((∀ d', ¬ Named c.how f d') → IsStem p d) ∧
    (∀ t, FirstBoth f.v2 t →
      (∀ x ∈ contents t.tag, x.id = (nameIds t.cfg.ver).1 ∨ x.id = (nameIds t.cfg.ver).2 → ∃ s, c.how.frame t.cfg.ver x.data = some s ∧ s ≠ []) → Named2 c.how t d) ∧
    ((∀ t ∈ f.v2, ¬ (Has t (nameIds t.cfg.ver).1 ∧ Has t (nameIds t.cfg.ver).2)) → ∀ t d', f.v1 = some t → Named1 c.how t d' → d = d') := by
  obtain ⟨g, hg, hn⟩ := guess_named c hf
  have fb : ∀ {t u : Tg}, FirstBoth f.v2 t → FirstBoth f.v2 u → t = u := by
    rintro t u ⟨a, b, h1, h2, h3⟩ ⟨a', b', k1, k2, k3⟩
    rw [h1] at k1
    rcases List.append_eq_append_iff.1 k1 with ⟨m, rfl, hm⟩ | ⟨m, rfl, hm⟩
    · cases m with
      | nil => simp only [List.nil_append, List.cons.injEq] at hm; exact hm.1
      | cons y m =>
        simp only [List.cons_append, List.cons.injEq] at hm
        exact absurd h2 (hm.1 ▸ k3 y (by simp))
    · cases m with
      | nil => simp only [List.nil_append, List.cons.injEq] at hm; exact hm.1.symm
      | cons y m =>
        simp only [List.cons_append, List.cons.injEq] at hm
        exact absurd k2 (hm.1 ▸ h3 y (by simp))
  refine ⟨g.elim (stem p) id, ?_, ?_, ?_, ?_, ?_⟩
  · unfold entry
    rw [hg, Res.ok_bind]
    cases g <;> rfl
  · cases g with
    | some d => exact .inl (hn d rfl)
    | none => exact .inr (stem_spec p)
  · intro h
    cases g with
    | some d => exact absurd (hn d rfl) (h d)
    | none => exact stem_spec p
  · intro t ht hx
    unfold guessDisplayTitle at hg
    rcases fromV2_spec c hf with ⟨u, hu, x, hx1, ix, y, hy1, iy, e⟩ | ⟨h, -⟩
    · have : u = t := fb hu ht
      subst this
      obtain ⟨a, ha, ha'⟩ := hx x hx1 (.inl ix)
      obtain ⟨b, hb, hb'⟩ := hx y hy1 (.inr iy)
      rw [e, ha, hb, Res.ok_bind] at hg
      have hp : pair a b = some (a ++ [32, 45, 32] ++ b) := pair_some.2 ⟨ha', hb', rfl⟩
      simp only [hp] at hg
      cases hg
      exact ⟨x, hx1, ix, y, hy1, iy, a, b, ha, hb, ha', hb', rfl⟩
    · obtain ⟨a, b, h1, h2, -⟩ := ht
      exact absurd h2 (h t (by rw [h1]; simp))
  · intro h t d' ht hd
    unfold guessDisplayTitle at hg
    rcases fromV2_spec c hf with ⟨u, ⟨a, b, h1, h2, -⟩, -⟩ | ⟨-, e⟩
    · exact absurd h2 (h u (by rw [h1]; simp))
    · rw [e, Res.ok_bind] at hg
      have := (fromV1_some c f.v1 d').2 ⟨t, ht, hd⟩
      rw [this] at hg
      cases hg
      rfl

/-- The first tag with both frames of a file with one tag is that tag. -/
example : FirstBoth (songFacts [65] [66]).v2 (songTag [65] [66]) ∧
    (∀ x ∈ contents (songTag [65] [66]).tag, ∃ s, (⟨plainM3u, none, .UTF_8, .fail⟩ : How).frame .v3 x.data = some s ∧ s ≠ []) := by
  have hc : contents (songTag [65] [66]).tag = [⟨[84, 80, 69, 49], .text, [65]⟩, ⟨[84, 73, 84, 50], .text, [66]⟩] := by decide +kernel
  refine ⟨⟨[], [], rfl, ⟨⟨⟨[84, 80, 69, 49], .text, [65]⟩, by rw [hc]; simp, by decide +kernel⟩, ⟨[84, 73, 84, 50], .text, [66]⟩, by rw [hc]; simp, by decide +kernel⟩, by simp⟩, ?_⟩
  intro x hx
  rw [hc] at hx
  simp only [List.mem_cons, List.not_mem_nil, or_false] at hx
  rcases hx with rfl | rfl <;> exact ⟨_, rfl, by decide⟩

theorem twoLines_inj {n : Nat} {d d' p : Bytes} (h : twoLines n d p = twoLines n d' p) : d = d' := by
  simpa [twoLines] using h

/-- The text of an entry. -/
def entryText (r : Res Bytes) : Option Bytes := match r with | .ok b => some b | _ => none

/-- Writing plainly. -/
def plainCtx (C : M3u.Conv) : Ctx := ⟨C, none, .UTF_8, .fail, false, true⟩

/-- **Finding** (src/m3u.cc L156-169): only the first ID3v2 tag that has both frames is asked. If a text in it is empty, another ID3v2 tag that names artist and title
is not: the name of the file is shown. -/
theorem C106_refuted : ¬ C106_claim := by
  intro h
  obtain ⟨d, h1, h2, -⟩ := h (plainCtx plainM3u) [120] ⟨[songTag [] [66], songTag [65] [66]], 576, 100, 23040, none⟩
    ⟨fun t ht => by
      simp only [List.mem_cons, List.not_mem_nil, or_false] at ht
      rcases ht with rfl | rfl <;> exact song_tag_fine _, by decide⟩
  have hc : contents (songTag [65] [66]).tag = [⟨[84, 80, 69, 49], .text, [65]⟩, ⟨[84, 73, 84, 50], .text, [66]⟩] := by decide +kernel
  have hc0 : contents (songTag [] [66]).tag = [⟨[84, 80, 69, 49], .text, []⟩, ⟨[84, 73, 84, 50], .text, [66]⟩] := by decide +kernel
  have e : entryText (entry (plainCtx plainM3u) [120] ⟨[songTag [] [66], songTag [65] [66]], 576, 100, 23040, none⟩) =
      some (twoLines (seconds ⟨[songTag [] [66], songTag [65] [66]], 576, 100, 23040, none⟩) [120] [120]) := by decide +kernel
  rw [h1] at e
  simp only [entryText, Option.some.injEq] at e
  have hd : d = [120] := twoLines_inj e
  subst hd
  rcases h2 ⟨[65] ++ [32, 45, 32] ++ [66], .inl ⟨songTag [65] [66], by simp, ⟨[84, 80, 69, 49], .text, [65]⟩, by rw [hc]; simp, by decide +kernel,
    ⟨[84, 73, 84, 50], .text, [66]⟩, by rw [hc]; simp, by decide +kernel, [65], [66], rfl, rfl, by decide, by decide, rfl⟩⟩ with
    ⟨t, -, x, -, -, y, -, -, a, b, -, -, ha, hb, e⟩ | ⟨t, ht, -⟩
  · have := congrArg List.length e
    simp at this
    omega
  · cases ht

/-- Conversions that fail for frames. -/
def noFrames : M3u.Conv := ⟨fun _ _ _ _ _ => none, fun d _ _ _ => some d⟩

/-- An ID3v1 tag with this artist and title. -/
def songV1 (a t : Bytes) : V1Tag := { V1Tag.scratch false false with artist := a, title := t }

/-- **Finding** (src/m3u.cc L180-186): if a text of an ID3v2 tag cannot be converted, the ID3v1 tag is not asked. -/
theorem C106_refuted_v1 : ¬ C106_claim := by
  intro h
  obtain ⟨d, h1, h2, -⟩ := h (plainCtx noFrames) [120] ⟨[songTag [65] [66]], 576, 100, 23040, some (songV1 [65] [66])⟩
    ⟨fun t ht => by
      simp only [List.mem_cons, List.not_mem_nil, or_false] at ht
      rcases ht with rfl; exact song_tag_fine _, by decide⟩
  have e : entryText (entry (plainCtx noFrames) [120] ⟨[songTag [65] [66]], 576, 100, 23040, some (songV1 [65] [66])⟩) =
      some (twoLines (seconds ⟨[songTag [65] [66]], 576, 100, 23040, some (songV1 [65] [66])⟩) [120] [120]) := by decide +kernel
  rw [h1] at e
  simp only [entryText, Option.some.injEq] at e
  have hd : d = [120] := twoLines_inj e
  subst hd
  rcases h2 ⟨[65] ++ [32, 45, 32] ++ [66], .inr ⟨songV1 [65] [66], rfl, [65], [66], rfl, rfl, by decide, by decide, rfl⟩⟩ with
    ⟨t, -, x, -, -, y, -, -, a, b, -, -, ha, hb, e⟩ | ⟨t, -, a, b, -, -, ha, hb, e⟩
  · have := congrArg List.length e
    simp at this
    omega
  · have := congrArg List.length e
    simp at this
    omega

/-! ## C107: the encoding of the texts -/

/-- C107, in full: texts are taken to be in the encoding that `--source-encoding` names. -/
def C107_claim : Prop :=
  ∀ (E : M3u.Env) (o : M3u.Opts) (dst : Encoding) (args : Forest), NewList E o dst args → sound args = true →
    (∀ p ∈ found args, ∃ f, E.read p = .ok f ∧ Fine f) →
    (∀ p ∈ found args, PathLine p ∧ ∀ f, E.read p = .ok f → OneLine (m3uHow E o dst) f ∧ OneLine ⟨E.conv, some o.sourceEncoding, dst, o.rsp⟩ f) →
    ∃ cout doc, m3u E o = .ok ⟨0, cout, some doc⟩ ∧ Each (About ⟨E.conv, some o.sourceEncoding, dst, o.rsp⟩ E.read) (found args) (tracks doc)

/-- C107, as far as it holds: if texts come out the same when the encoding is not named. -/
theorem C107_partial {E : M3u.Env} {o : M3u.Opts} {dst : Encoding} {args : Forest} (hn : NewList E o dst args) (hs : sound args = true)
    (hr : ∀ p ∈ found args, ∃ f, E.read p = .ok f ∧ Fine f)
    (hp : ∀ p ∈ found args, PathLine p ∧ ∀ f, E.read p = .ok f → OneLine (m3uHow E o dst) f)
    (h2 : ∀ v d, E.conv.frame v d dst o.rsp none = E.conv.frame v d dst o.rsp (some o.sourceEncoding))
    (h1 : ∀ d, E.conv.field d none dst o.rsp = E.conv.field d (some o.sourceEncoding) dst o.rsp) :
    ∃ cout doc, m3u E o = .ok ⟨0, cout, some doc⟩ ∧ Each (About ⟨E.conv, some o.sourceEncoding, dst, o.rsp⟩ E.read) (found args) (tracks doc) := by
  obtain ⟨cout, doc, h3, h4⟩ := C104_partial hn hs hr hp
  refine ⟨cout, doc, h3, ?_⟩
  have e : ∀ f d, Named (m3uHow E o dst) f d → Named ⟨E.conv, some o.sourceEncoding, dst, o.rsp⟩ f d := by
    intro f d h
    rcases h with ⟨t, ht, x, hx, ix, y, hy, iy, a, b, ha, hb, hat⟩ | ⟨t, ht, a, b, ha, hb, hat⟩
    · exact .inl ⟨t, ht, x, hx, ix, y, hy, iy, a, b, (h2 _ _).symm.trans ha, (h2 _ _).symm.trans hb, hat⟩
    · exact .inr ⟨t, ht, a, b, (h1 _).symm.trans ha, (h1 _).symm.trans hb, hat⟩
  clear h3 hs hr hp hn h1 h2
  generalize found args = ps at h4
  generalize tracks doc = ts at h4
  induction h4 with
  | nil => exact .nil
  | cons p ps t ts hp _ ih =>
    obtain ⟨f, n, d, g1, g2, g3, g4, g5⟩ := hp
    exact .cons p ps t ts ⟨f, n, d, g1, g2, g3, g4, g5.imp (e f d) id⟩ ih

/-- Texts that show which encoding they were taken to be in. -/
def sourceShown : M3u.Conv :=
  ⟨fun _ d _ _ s => some (if s = some .CP1251 then 49 :: d else d), fun d s _ _ => some (if s = some .CP1251 then 49 :: d else d)⟩

example : m3uSeen (m3u { songEnv (songFacts [65] [66]) with conv := sourceShown } { listOpts (.file [120] .nil) with sourceEncoding := .CP1251 }) =
    some (0, [], some [⟨some (3, [65, 32, 45, 32, 66]), [120]⟩]) := by decide +kernel

/-- **Finding** (src/m3u.cc L385-388, L341): the option is called `source-encoding`, but what is asked for is `encoding`, which is never there. Whatever is given makes no
difference. -/
theorem C107_refuted_ignored (E : M3u.Env) (o : M3u.Opts) (x : Encoding) : m3u E { o with sourceEncoding := x } = m3u E o := rfl

/-- So texts are not shown as they would be if they were taken to be in the encoding named. -/
theorem C107_refuted : ¬ C107_claim := by
  intro h
  have hc : contents (songTag [65] [66]).tag = [⟨[84, 80, 69, 49], .text, [65]⟩, ⟨[84, 73, 84, 50], .text, [66]⟩] := by decide +kernel
  have one : ∀ s : Option Encoding, OneLine ⟨sourceShown, s, .UTF_8, .fail⟩ (songFacts [65] [66]) := by
    intro s
    refine ⟨?_, by intro t h; cases h⟩
    intro t ht x hx s hs
    rw [show (songFacts [65] [66]).v2 = [songTag [65] [66]] from rfl, List.mem_singleton] at ht
    subst ht
    rw [hc] at hx
    simp only [List.mem_cons, List.not_mem_nil, or_false] at hx
    simp only [How.frame, sourceShown, Option.some.injEq] at hs
    subst hs
    rcases hx with rfl | rfl <;> split <;> decide
  obtain ⟨cout, doc, h1, h2⟩ := h { songEnv (songFacts [65] [66]) with conv := sourceShown } { listOpts (.file [120] .nil) with sourceEncoding := .CP1251 } .UTF_8 (.file [120] .nil)
    ⟨by decide, rfl, .inr ⟨rfl, rfl⟩, rfl, rfl⟩ rfl
    (by intro p hp; rw [show found (.file [120] .nil) = [[120]] from rfl, List.mem_singleton] at hp; subst hp; exact ⟨_, rfl, song_fine _ _⟩)
    (by
      intro p hp
      rw [show found (.file [120] .nil) = [[120]] from rfl, List.mem_singleton] at hp
      subst hp
      refine ⟨⟨by decide, by decide, by decide⟩, fun f hf => ?_⟩
      cases hf
      exact ⟨one _, one _⟩)
  have := (seen_file (b := [⟨some (3, [65, 32, 45, 32, 66]), [120]⟩]) (n := 0) (a := []) (by decide +kernel) h1).2
  rw [this] at h2
  cases h2 with
  | cons _ _ _ _ h3 _ =>
    obtain ⟨f, n, d, g1, -, g3, -, g5⟩ := h3
    cases g1
    cases g3
    rcases g5 with (⟨t, ht, x, hx, ix, y, hy, iy, a, b, ha, hb, -, -, e⟩ | ⟨t, ht, -⟩) | g5
    · rw [show (songFacts [65] [66]).v2 = [songTag [65] [66]] from rfl, List.mem_singleton] at ht
      subst ht
      rw [hc] at hx
      simp only [List.mem_cons, List.not_mem_nil, or_false] at hx
      simp only [How.frame, sourceShown, if_true, Option.some.injEq] at ha
      subst ha
      rcases hx with rfl | rfl <;> simp at e
    · cases ht
    · exact absurd (stem_sub g5 (c := 65) (by simp)) (by decide)

end Scribbu.Props
