import Verif.Proofs.AgainCmds
import Verif.Props.XtagCmd

/-! C185: running a sub-command that sets something once more changes nothing. -/

namespace Scribbu.Props
open Scribbu Commands Process Spec LTag Lookup Again

/-- C185 in full: for `text`, `genre`, `xtag` (which sets clouds) and `popm --count`. Texts put into frames are read back as they were put. -/
def C185_claim : Prop := ∀ (C : Conv) (c : Cfg), AllTrip C → KnowsTexts { c with ver := .v3 } →
  (∀ g u o P, textCmd C c g u o = .ok P → OnceIsEnough (fun t => KnowsTexts t.cfg) P) ∧
  (∀ o P, genreCmd C c o = .ok P → OnceIsEnough (fun t => KnowsTexts t.cfg) P) ∧
  (∀ o P, o.get = false → o.dryRun = false → xtagCmd C c o = .ok P → OnceIsEnough (fun t => KnowsTexts t.cfg) P) ∧
  ∀ email o P, o.dryRun = false → o.increment = none → o.count ≠ none → popmCmd C c email o = .ok P → OnceIsEnough (fun t => KnowsTexts t.cfg) P

theorem knows_cfg (v : Ver) : KnowsTexts (cfg v) := by
  refine ⟨?_, cfg_sane v⟩
  have key : ∀ f ∈ settable, (match frameId v f with | .ok id => (textTable v).contains id | _ => true) = true := by cases v <;> decide +kernel
  intro f hf id hid
  have := key f hf
  rw [show frameId v f = .ok id from hid] at this
  exact this

theorem plain_trips : AllTrip plainConv := by
  intro v s d h
  cases h
  rfl

/-! ## What goes wrong -/

/-- The frames and the ID3v1 tag after one run, and after two. -/
def twice (P : Processor Tg) (v2 : List Tg) (v1 : Option V1Tag) :
    Res ((List (List (Bytes × Bytes)) × Option V1Tag) × List (List (Bytes × Bytes)) × Option V1Tag) :=
  (edit P v2 v1).bind fun r => (edit P (r.2.1.map reread) r.2.2).bind fun q => .ok ((r.2.1.map stored, r.2.2), q.2.1.map stored, q.2.2)

set_option synthInstance.maxSize 2000
set_option synthInstance.maxHeartbeats 100000

/-- Whether something has succeeded with just this. -/
def gives {α : Type} [DecidableEq α] (r : Res α) (x : α) : Bool := match r with | .ok y => decide (y = x) | _ => false

theorem of_gives {α : Type} [DecidableEq α] {r : Res α} {x : α} (h : gives r x = true) : r = .ok x := by
  unfold gives at h
  split at h
  · rw [of_decide_eq_true h]
  · cases h

theorem not_once {m : Res (Processor Tg)} {v2 : List Tg} {v1 : Option V1Tag} {x y : List (List (Bytes × Bytes)) × Option V1Tag}
    (h : (m.bind fun P => twice P v2 v1) = .ok (x, y)) (hr : ∀ t ∈ v2, ReadTag t ∧ KnowsTexts t.cfg) (hn : x ≠ y) :
    ∃ P, m = .ok P ∧ ¬ OnceIsEnough (fun t => KnowsTexts t.cfg) P := by
  obtain ⟨P, hP, h⟩ := res_bind_ok h
  refine ⟨P, hP, fun ho => hn ?_⟩
  unfold twice at h
  obtain ⟨⟨d, v2', v1'⟩, e1, h⟩ := res_bind_ok h
  obtain ⟨⟨d2, v2'', v1''⟩, e2, h⟩ := res_bind_ok h
  obtain ⟨d3, w2, e3, hs⟩ := ho v2 v1 d v2' v1' hr e1
  rw [e2] at e3
  cases e3
  cases h
  rw [hs]

theorem one_read (c : Cfg) (hk : KnowsTexts c) (l : List (Bytes × Bytes)) : ∀ t ∈ [tagOf c l], ReadTag t ∧ KnowsTexts t.cfg := by
  intro t ht
  rw [List.mem_singleton] at ht
  subst ht
  exact ⟨⟨_, rfl⟩, hk⟩

/-- `text --delete=TENC`. -/
def delTenc : TextOpts := { delete := [[84, 69, 78, 67]], encoding := some .UTF_8 }

/-- **Finding**: `scribbu text --delete=TENC` on a tag with two such frames takes away one of them, and the same again takes away the other: it has to be run
as many times as there are frames (and succeeds every time). -/
theorem C185_refuted_text : ∃ P, textCmd plainConv (cfg .v3) [] [] delTenc = .ok P ∧ ¬ OnceIsEnough (fun t => KnowsTexts t.cfg) P :=
  not_once (v2 := [tagOf (cfg .v3) [([84, 69, 78, 67], [65]), (tit .v3, [66]), ([84, 69, 78, 67], [67])]]) (v1 := none)
    (x := ([[(tit .v3, [66]), ([84, 69, 78, 67], [67])]], none)) (y := ([[(tit .v3, [66])]], none)) (of_gives (by decide +kernel)) (one_read _ (knows_cfg .v3) _) (by decide)

theorem C185_refuted : ¬ C185_claim := by
  intro h
  obtain ⟨P, e, hn⟩ := C185_refuted_text
  exact hn ((h plainConv (cfg .v3) plain_trips (knows_cfg .v3)).1 _ _ _ _ e)

/-- `genre --winamp=17` with options for making tags. -/
def rock (a2 c2 a1 c1 : Bool) : GenreOpts := { winamp := 17, alwaysV2 := a2, createV2 := c2, alwaysV1 := a1, createV1 := c1 }

/-- **Finding**: `scribbu genre -w 17 --create-v2 --always-create-v1` on a file without tags makes an ID3v1 tag, and, when run again, an ID3v2 tag from that: only
the second run does what was asked. -/
theorem C185_refuted_genre : ∃ P, genreCmd plainConv (cfg .v3) (rock false true true false) = .ok P ∧ ¬ OnceIsEnough (fun t => KnowsTexts t.cfg) P :=
  not_once (v2 := []) (v1 := none) (x := ([], some ((V1Tag.scratch false false).apply (.setGenre 17))))
    (y := ([[([84, 67, 79, 78], [82, 111, 99, 107])]], some ((V1Tag.scratch false false).apply (.setGenre 17)))) (of_gives (by decide +kernel)) (by simp) (by decide +kernel)

/-- **Finding**: `scribbu genre -w 17 --always-create-v2 --create-v1` on a file without tags makes an ID3v2 tag, and fails if it is run again: now there is a tag
to make the ID3v1 tag from, but it lacks the frames that are looked for in it. -/
theorem C185_refuted_genre_fails : ((genreCmd plainConv (cfg .v3) (rock true false false true)).bind fun P => (edit P [] none).bind fun r =>
      .ok (r.1, r.2.1.map stored, r.2.2)) = .ok (true, [[([84, 67, 79, 78], [82, 111, 99, 107])]], none) ∧
    ((genreCmd plainConv (cfg .v3) (rock true false false true)).bind fun P => twice P [] none) = .throw .unknownFrame := by
  refine ⟨of_gives (by decide +kernel), ?_⟩
  have h : (match ((genreCmd plainConv (cfg .v3) (rock true false false true)).bind fun P => twice P [] none) with
    | .throw x => decide (x = .unknownFrame) | _ => false) = true := by decide +kernel
  split at h
  · rename_i x hx
    rw [hx, of_decide_eq_true h]
  · cases h

/-- `popm --count=5 --owner=b --create-frame`. -/
def countFive : PopmOpts := { count := some 5, owner := some [98], createFrame := true }

/-- **Finding**: `scribbu popm --count=5 --owner=b --create-frame` on a tag with a popularimeter of someone else that states 100 plays makes a play counter that
states 100, and the same again makes that 5. -/
theorem C185_refuted_popm : ∃ P, popmCmd plainConv (cfg .v3) asciiEmail countFive = .ok P ∧ ¬ OnceIsEnough (fun t => KnowsTexts t.cfg) P :=
  not_once (v2 := [tagOf (cfg .v3) [((cfg .v3).popId, [97, 0, 9, 100])]]) (v1 := none)
    (x := ([[((cfg .v3).popId, [97, 0, 9, 100]), ((cfg .v3).cntId, [100])]], none))
    (y := ([[((cfg .v3).popId, [97, 0, 9, 100]), ((cfg .v3).cntId, [5])]], none)) (of_gives (by decide +kernel)) (one_read _ (knows_cfg .v3) _) (by decide)

/-- `xtag --xtags=a=b%00c --create-frame --merge`. -/
def nulTag : XtagOpts := { xtags := some [97, 61, 98, 37, 48, 48, 99], createFrame := true, merge := true }

/-- **Finding**: `scribbu xtag --merge --create-frame --xtags=a=b%00c` makes the cloud longer every time it is run: the value is read back as two. -/
theorem C185_refuted_xtag : ∃ P, xtagCmd plainConv (cfg .v3) nulTag = .ok P ∧ ¬ OnceIsEnough (fun t => KnowsTexts t.cfg) P :=
  not_once (v2 := [tagOf (cfg .v3) []]) (v1 := none) (x := ([[(xtgId (cfg .v3), [1, 0, 97, 0, 0, 0, 0, 4, 98, 0, 99, 0])]], none))
    (y := ([[(xtgId (cfg .v3), [1, 0, 97, 0, 0, 0, 0, 8, 98, 0, 98, 0, 99, 0, 99, 0])]], none)) (of_gives (by decide +kernel)) (one_read _ (knows_cfg .v3) _) (by decide)

/-! ## What is so -/

theorem adds_nodup (o : TextOpts) : (o.adds.map Prod.fst).Nodup ∧ ∀ x ∈ o.adds, x.1 ∈ settable := by
  have one : ∀ (f : TextFrame) (s : Option Bytes), List.Sublist (((s.map fun s => (f, s)).toList).map Prod.fst) [f] := by
    intro f s
    cases s
    · exact List.nil_sublist _
    · exact List.Sublist.refl _
  have hs : List.Sublist (o.adds.map Prod.fst) settable := by
    unfold TextOpts.adds
    simp only [List.map_append]
    exact ((((((one _ _).append (one _ _)).append (one _ _)).append (one _ _)).append (one _ _)).append (one _ _)).append (one _ _)
  exact ⟨hs.nodup (by decide), fun x hx => hs.subset (List.mem_map_of_mem hx)⟩

/-- C185, as far as it holds for `text`: if the frames to be deleted are gone after the first run. Missing: that they are (`C85_partial` has it for tags with no
more than one of them); with several of one name every run takes one (`C185_refuted_text`). -/
theorem C185_text_partial {C : Conv} {c : Cfg} {g u : Bytes} {o : TextOpts} {P : Processor Tg} (h : textCmd C c g u o = .ok P) (hk : KnowsTexts { c with ver := .v3 })
    {v2 v2' : List Tg} {v1 v1' : Option V1Tag} {d : Bool} (hr : ∀ t ∈ v2, ReadTag t ∧ KnowsTexts t.cfg) (e : edit P v2 v1 = .ok (d, v2', v1'))
    (hg : ∀ n ∈ o.delete, ∀ f, TextFrame.parse n = .ok f → ∀ t ∈ v2', ∀ id, frameId t.cfg.ver f = .ok id → ∀ x ∈ contents t.tag, x.id ≠ id) :
    Settled P v2' v1' := by
  unfold textCmd at h
  obtain ⟨enc, -, h⟩ := res_bind_ok h
  obtain ⟨dels, hd, h⟩ := res_bind_ok h
  obtain ⟨create, -, h⟩ := res_bind_ok h
  cases h
  obtain ⟨hn, hs⟩ := adds_nodup o
  have named : ∀ (l : List Bytes) (fs : List TextFrame), namedFrames l = .ok fs → ∀ f ∈ fs, ∃ n ∈ l, TextFrame.parse n = .ok f := by
    intro l
    induction l with
    | nil => intro fs e; cases e; simp
    | cons n l ih =>
      intro fs e
      unfold namedFrames at e
      obtain ⟨f, hf, e⟩ := res_bind_ok e
      obtain ⟨fs', hfs, e⟩ := res_bind_ok e
      cases e
      intro f' hf'
      rcases List.mem_cons.1 hf' with rfl | hf'
      · exact ⟨n, by simp, hf⟩
      · obtain ⟨m, hm, e⟩ := ih _ hfs f' hf'
        exact ⟨m, List.mem_cons_of_mem _ hm, e⟩
  have gone : ∀ t ∈ v2', ∀ f ∈ dels, ∀ id, frameId t.cfg.ver f = .ok id → ∀ x ∈ contents t.tag, x.id ≠ id := by
    intro t ht f hf id hid
    obtain ⟨n, hn, hp⟩ := named _ _ hd f hf
    exact hg n hn f hp t ht id hid
  have made : ∀ t ∈ v2', ∀ t0 b, Neat t0.cfg t0.tag → KnowsTexts t0.cfg → textTag C dels o.adds t0 = .ok (b, t) → Stays (textTag C dels o.adds) t :=
    fun t ht t0 b h0 h1 e => text_stays h0 h1 hs hn e (gone t ht)
  refine edit_again e ⟨?_, ?_, ?_, ?_, ?_, ?_⟩
  · show (if o.tags.isEmpty then V2Scope.all else .some o.tags) ≠ _
    cases o.tags <;> simp
  · rintro t' ht ⟨t, hm, b, e⟩
    exact made t' ht t b (read_neat (hr t hm).1) (hr t hm).2 e
  · rintro t' ht - - (e | ⟨w, e⟩)
    · obtain ⟨⟨b, t2⟩, e1, e⟩ := res_bind_ok e
      cases e
      exact made _ ht ⟨{ c with ver := .v3 }, .empty⟩ b (neat_empty _) hk e1
    · obtain ⟨t0, e0, e⟩ := res_bind_ok e
      obtain ⟨⟨b, t2⟩, e1, e⟩ := res_bind_ok e
      cases e
      obtain ⟨c0, n0⟩ := copyV1_neat hk e0
      exact made _ ht t0 b n0 (c0 ▸ hk) e1
  · rintro - t b t' e
    exact textV1_again e
  · rintro - t' (e | ⟨w, e⟩) <;> cases e
  · rintro - - (h | h) <;> cases h.2

/-- With nothing to delete, C185 holds for `text`. -/
theorem C185_text {C : Conv} {c : Cfg} {g u : Bytes} {o : TextOpts} {P : Processor Tg} (h : textCmd C c g u o = .ok P) (hk : KnowsTexts { c with ver := .v3 })
    (hd : o.delete = []) : OnceIsEnough (fun t => KnowsTexts t.cfg) P := by
  intro v2 v1 d v2' v1' hr e
  exact C185_text_partial h hk hr e (by rw [hd]; simp)

theorem scopes_named {a b : Bool} {l : List Nat} {s2 : V2Scope} {s1 : Bool} (hs : scopePolicies a b l = .ok (s2, s1)) : s2 ≠ .some [] := by
  unfold scopePolicies at hs
  cases a <;> cases b <;> cases l <;> cases hs <;> intro h <;> cases h

/-- From a run that is known to succeed. -/
theorem run_known {m : Res (Processor Tg)} {v2 : List Tg} {v1 : Option V1Tag} {x : List (List (Bytes × Bytes)) × Option V1Tag}
    (h : (m.bind fun P => (edit P v2 v1).bind fun r => .ok (r.2.1.map stored, r.2.2)) = .ok x) :
    ∃ P d v2', m = .ok P ∧ edit P v2 v1 = .ok (d, v2', x.2) ∧ v2'.map stored = x.1 := by
  obtain ⟨P, hP, h⟩ := res_bind_ok h
  obtain ⟨⟨d, v2', v1'⟩, e1, h⟩ := res_bind_ok h
  cases h
  exact ⟨P, d, v2', hP, e1, rfl⟩

/-- Non-trivially: a title is set (in one of the tags there was one), and the name of the encoder deleted. -/
example : ∃ P d v2', textCmd plainConv (cfg .v3) [] [] { delTenc with title := some [88] } = .ok P ∧
    edit P [tagOf (cfg .v3) [(tit .v3, [66]), ([84, 69, 78, 67], [65])], tagOf (cfg .v4) []] none = .ok (d, v2', none) ∧
    v2'.map stored = [[(tit .v3, [88])], [(tit .v4, [88])]] ∧ Settled P v2' none := by
  obtain ⟨P, d, v2', h1, h2, h3⟩ := run_known (m := textCmd plainConv (cfg .v3) [] [] { delTenc with title := some [88] })
    (v2 := [tagOf (cfg .v3) [(tit .v3, [66]), ([84, 69, 78, 67], [65])], tagOf (cfg .v4) []]) (v1 := none) (x := ([[(tit .v3, [88])], [(tit .v4, [88])]], none))
    (of_gives (by decide +kernel))
  refine ⟨P, d, v2', h1, h2, h3, C185_text_partial h1 (knows_cfg .v3) ?_ h2 ?_⟩
  · intro t ht
    simp only [List.mem_cons, List.not_mem_nil, or_false] at ht
    rcases ht with rfl | rfl
    · exact ⟨⟨_, rfl⟩, knows_cfg .v3⟩
    · exact ⟨⟨_, rfl⟩, knows_cfg .v4⟩
  · intro n hn f hf t ht id hid x hx e
    rw [show n = [84, 69, 78, 67] from List.mem_singleton.1 hn] at hf
    cases hf
    have h4 : stored t ∈ [[(tit .v3, [88])], [(tit .v4, [88])]] := by
      have h4 : stored t ∈ v2'.map stored := List.mem_map_of_mem ht
      rw [h3] at h4
      exact h4
    have h5 : (x.id, x.data) ∈ stored t := List.mem_map.2 ⟨x, hx, rfl⟩
    have h6 : x.id = [84, 73, 84, 50] := by
      simp only [List.mem_cons, List.not_mem_nil, or_false] at h4
      rcases h4 with h4 | h4 <;> (rw [h4, List.mem_singleton] at h5; injection h5)
    rw [← e, h6] at hid
    revert hid
    cases t.cfg.ver <;> decide

/-- C185, as far as it holds for `genre`: not on a file without tags if one kind of tag is always to be made, and the other if there is one of that kind.
Missing: these (`C185_refuted_genre`, `C185_refuted_genre_fails`). -/
theorem C185_genre_partial {C : Conv} {c : Cfg} {o : GenreOpts} {P : Processor Tg} (h : genreCmd C c o = .ok P) (hT : AllTrip C) (hk : KnowsTexts { c with ver := .v3 })
    {v2 v2' : List Tg} {v1 v1' : Option V1Tag} {d : Bool} (hr : ∀ t ∈ v2, ReadTag t ∧ KnowsTexts t.cfg) (e : edit P v2 v1 = .ok (d, v2', v1'))
    (hc : v2 = [] → v1 = none → ¬ (o.alwaysV2 = true ∧ o.createV1 = true) ∧ ¬ (o.createV2 = true ∧ o.alwaysV1 = true)) : Settled P v2' v1' := by
  unfold genreCmd at h
  obtain ⟨⟨text, best⟩, -, h⟩ := res_bind_ok h
  obtain ⟨⟨s2, s1⟩, hs, h⟩ := res_bind_ok h
  obtain ⟨⟨c2, c1⟩, hcr, h⟩ := res_bind_ok h
  obtain ⟨⟨g, s⟩, -, h⟩ := res_bind_ok h
  cases h
  refine edit_again e ⟨?_, ?_, ?_, ?_, ?_, ?_⟩
  · exact scopes_named hs
  · rintro t' ht ⟨t, hm, b, e⟩
    exact genre_stays (read_neat (hr t hm).1) (hr t hm).2 hT e
  · rintro t' ht - - (e | ⟨w, e⟩)
    · exact genre_stays' (t := ⟨{ c with ver := .v3 }, .empty⟩) (neat_empty _) hk hT e
    · have e : ((copyV1 C c w).bind fun t => t.setText C .tcon s) = .ok t' := e
      obtain ⟨t0, e0, e⟩ := res_bind_ok e
      obtain ⟨c0, n0⟩ := copyV1_neat hk e0
      exact genre_stays' n0 (c0 ▸ hk) hT e
  · rintro - t b t' e
    have e : genreV1 C g t = .ok (b, t') := e
    show ∃ b', genreV1 C g t' = .ok (b', t')
    exact genreV1_again e
  · rintro - t' (e | ⟨w, e⟩)
    · have e : (.ok ((V1Tag.scratch false false).apply (.setGenre g)) : Res V1Tag) = .ok t' := e
      injection e with e
      subst e
      exact genreV1_plain (C := C) (g := g) (t := V1Tag.scratch false false) rfl
    · have e : ((copyV2 C w).bind fun t => .ok (t.apply (.setGenre g))) = .ok t' := e
      obtain ⟨t0, e0, e⟩ := res_bind_ok e
      injection e with e
      subst e
      show ∃ b', genreV1 C g (t0.apply (.setGenre g)) = .ok (b', t0.apply (.setGenre g))
      exact genreV1_plain (copyV2_plain e0)
  · intro e1 e2 hch
    obtain ⟨n1, n2⟩ := hc e1 e2
    have hch : (c2 = .always ∧ c1 = .whenOther) ∨ (c2 = .whenOther ∧ c1 = .always) := hch
    revert n1 n2 hcr hch
    generalize o.createV2 = a
    generalize o.alwaysV2 = b
    generalize o.createV1 = x
    generalize o.alwaysV1 = y
    unfold creationPolicies
    cases a <;> cases b <;> cases x <;> cases y <;> intro hcr hch n1 n2 <;> cases hcr <;> simp_all

/-- C185, as far as it holds for `xtag`: for an owner and clouds without NULs, and clouds that can be written. Missing: those with NULs (`C185_refuted_xtag`). -/
theorem C185_xtag_partial {C : Conv} {c : Cfg} {o : XtagOpts} {x : Bytes} {P : Processor Tg} (h : xtagCmd C c o = .ok P) (hk : KnowsTexts { c with ver := .v3 })
    (hget : o.get = false) (hdry : o.dryRun = false) (hx : o.xtags = some x) (h0 : 0 ∉ o.owner) (hok : ∃ t0, TagCloud.ofText o.owner x = .ok t0) (hclean : CleanText x)
    {v2 v2' : List Tg} {v1 v1' : Option V1Tag} {d : Bool} (hr : ∀ t ∈ v2, ReadTag t ∧ KnowsTexts t.cfg) (e : edit P v2 v1 = .ok (d, v2', v1'))
    (hl : ∀ t ∈ v2', ∀ y ∈ contents t.tag, y.data.length < 2 ^ 32) : Settled P v2' v1' := by
  unfold xtagCmd at h
  obtain ⟨create, -, h⟩ := res_bind_ok h
  rw [hget, hx] at h
  cases h
  have stays : ∀ t ∈ v2', ∀ t0 b, Neat t0.cfg t0.tag → KnowsTexts t0.cfg → xtagTag ⟨x, o.owner, false, o.createFrame, o.merge, o.dryRun⟩ t0 = .ok (b, t) →
      Stays (xtagTag ⟨x, o.owner, false, o.createFrame, o.merge, o.dryRun⟩) t :=
    fun t ht t0 b n k e => xtag_stays n k.sane rfl hdry h0 hok hclean e (hl t ht)
  refine edit_again e ⟨?_, ?_, ?_, ?_, ?_, ?_⟩
  · show (if o.tags.isEmpty then V2Scope.all else .some o.tags) ≠ _
    cases o.tags <;> simp
  · rintro t' ht ⟨t, hm, b, e⟩
    exact stays t' ht t b (read_neat (hr t hm).1) (hr t hm).2 e
  · rintro t' ht - - (e | ⟨w, e⟩)
    · obtain ⟨⟨b, t2⟩, e1, e⟩ := res_bind_ok e
      cases e
      exact stays _ ht ⟨{ c with ver := .v3 }, .empty⟩ b (neat_empty _) hk e1
    · obtain ⟨t0, e0, e⟩ := res_bind_ok e
      obtain ⟨⟨b, t2⟩, e1, e⟩ := res_bind_ok e
      cases e
      obtain ⟨c0, n0⟩ := copyV1_neat hk e0
      exact stays _ ht t0 b n0 (c0 ▸ hk) e1
  · intro h; cases h
  · intro h; cases h
  · rintro - - (h | h) <;> cases h.2

/-- C185, as far as it holds for `popm --count`: for a number below 2³² and an owner in ASCII; and, if frames are to be made that are missing, for tags whose counters
are all asked for. Missing: the others (`C185_refuted_popm`). -/
theorem C185_popm_partial {C : Conv} {c : Cfg} {email : Bytes → Res Bytes} {o : PopmOpts} {n : Nat} {P : Processor Tg} (h : popmCmd C c email o = .ok P)
    (hk : KnowsTexts { c with ver := .v3 }) (hdry : o.dryRun = false) (hinc : o.increment = none) (hn : o.count = some n) (hb : n < 2 ^ 32)
    (ho : ∀ own, o.owner = some own → 0 ∉ own ∧ (own ≠ [] → email own = .ok own))
    {v2 v2' : List Tg} {v1 v1' : Option V1Tag} {d : Bool} (hr : ∀ t ∈ v2, ReadTag t ∧ KnowsTexts t.cfg) (e : edit P v2 v1 = .ok (d, v2', v1'))
    (hall : o.createFrame = true → ∀ t ∈ v2, ∀ x ∈ contents t.tag, (x.id = t.cfg.cntId → o.popularimeterOnly = false) ∧
      (x.id = t.cfg.popId → ∀ own, o.owner = some own → ∃ r k, x.data = own ++ 0 :: r :: k)) : Settled P v2' v1' := by
  unfold popmCmd at h
  obtain ⟨rating, -, h⟩ := res_bind_ok h
  obtain ⟨fp, hfp, h⟩ := res_bind_ok h
  obtain ⟨pc, hpc, h⟩ := res_bind_ok h
  obtain ⟨create, -, h⟩ := res_bind_ok h
  unfold PopmOpts.counts at hpc
  rw [hinc, hn] at hpc
  cases hpc
  cases h
  have hpol : o.popularimeterOnly = false → fp ≠ .popmOnly := by
    intro hp
    unfold PopmOpts.frames at hfp
    rw [hp] at hfp
    simp only [Bool.false_eq_true, and_false, if_false] at hfp
    injection hfp with hfp
    rw [← hfp]
    split <;> intro h <;> cases h
  have hown : OwnerOk ⟨rating, fp, o.owner, n, true, o.createFrame, o.dryRun, email⟩ := ho
  refine edit_again e ⟨?_, ?_, ?_, ?_, ?_, ?_⟩
  · intro h; cases h
  · rintro t' ht ⟨t, hm, b, e⟩
    refine popm_stays (o := ⟨rating, fp, o.owner, n, true, o.createFrame, o.dryRun, email⟩) rfl hdry hb hown (read_neat (hr t hm).1) ?_ e
    intro hcr x hx
    obtain ⟨a1, a2⟩ := hall hcr t hm x hx
    exact ⟨fun h => hpol (a1 h), a2⟩
  · rintro t' ht - - (e | ⟨w, e⟩)
    · have e : ((popmTag ⟨rating, fp, o.owner, n, true, o.createFrame, o.dryRun, email⟩ true ⟨{ c with ver := .v3 }, .empty⟩).bind fun r => .ok r.2) = .ok t' := e
      obtain ⟨⟨b, t2⟩, e1, e⟩ := res_bind_ok e
      cases e
      exact popm_made (t := ⟨{ c with ver := .v3 }, .empty⟩) rfl hdry hb hown (neat_empty _) (by simp [contents, LTag.empty]) e1
    · obtain ⟨t0, e0, e⟩ := res_bind_ok e
      obtain ⟨⟨b, t2⟩, e1, e⟩ := res_bind_ok e
      cases e
      obtain ⟨c0, n0⟩ := copyV1_neat hk e0
      exact popm_made rfl hdry hb hown n0 (no_counts n0 (copyV1_cls e0)) e1
  · intro h; cases h
  · intro h; cases h
  · rintro - - (h | h) <;> cases h.2

/-- Non-trivially: the genre of a file with both kinds of tags; and a file with an ID3v1 tag only, to which an ID3v2 tag is added. -/
example : ∃ P d v2', genreCmd plainConv (cfg .v3) (rock false true true false) = .ok P ∧
    edit P [] (some (V1Tag.scratch false false)) = .ok (d, v2', some ((V1Tag.scratch false false).apply (.setGenre 17))) ∧
    v2'.map stored = [[([84, 67, 79, 78], [82, 111, 99, 107])]] ∧ Settled P v2' (some ((V1Tag.scratch false false).apply (.setGenre 17))) := by
  obtain ⟨P, d, v2', h1, h2, h3⟩ := run_known (m := genreCmd plainConv (cfg .v3) (rock false true true false)) (v2 := []) (v1 := some (V1Tag.scratch false false))
    (x := ([[([84, 67, 79, 78], [82, 111, 99, 107])]], some ((V1Tag.scratch false false).apply (.setGenre 17)))) (of_gives (by decide +kernel))
  exact ⟨P, d, v2', h1, h2, h3, C185_genre_partial h1 plain_trips (knows_cfg .v3) (by simp) h2 (by intro _ h; cases h)⟩

/-- Non-trivially: a cloud is extended. -/
example : ∃ P d v2', xtagCmd plainConv (cfg .v3) { xtags := some [0x6b, 0x3d, 0x77], owner := [0x6f], merge := true } = .ok P ∧
    edit P [tagOf (cfg .v3) [(xtgId (cfg .v3), [1, 0x6f, 0, 0x6b, 0, 0, 0, 0, 2, 0x76, 0])]] none = .ok (d, v2', none) ∧
    v2'.map stored = [[(xtgId (cfg .v3), [1, 0x6f, 0, 0x6b, 0, 0, 0, 0, 4, 0x76, 0, 0x77, 0])]] ∧ Settled P v2' none := by
  obtain ⟨P, d, v2', h1, h2, h3⟩ := run_known (m := xtagCmd plainConv (cfg .v3) { xtags := some [0x6b, 0x3d, 0x77], owner := [0x6f], merge := true })
    (v2 := [tagOf (cfg .v3) [(xtgId (cfg .v3), [1, 0x6f, 0, 0x6b, 0, 0, 0, 0, 2, 0x76, 0])]]) (v1 := none)
    (x := ([[(xtgId (cfg .v3), [1, 0x6f, 0, 0x6b, 0, 0, 0, 0, 4, 0x76, 0, 0x77, 0])]], none)) (of_gives (by decide +kernel))
  refine ⟨P, d, v2', h1, h2, h3, C185_xtag_partial h1 (knows_cfg .v3) rfl rfl rfl (by decide) ⟨⟨[0x6f], [([0x6b], [[0x77]])]⟩, by decide⟩ kw_clean
    (one_read _ (knows_cfg .v3) _) h2 ?_⟩
  intro t ht y hy
  have h4 : stored t ∈ [[(xtgId (cfg .v3), [1, 0x6f, 0, 0x6b, 0, 0, 0, 0, 4, 0x76, 0, 0x77, 0])]] := by
    have h4 : stored t ∈ v2'.map stored := List.mem_map_of_mem ht
    rw [h3] at h4
    exact h4
  have h5 : (y.id, y.data) ∈ stored t := List.mem_map.2 ⟨y, hy, rfl⟩
  rw [List.mem_singleton] at h4
  rw [h4, List.mem_singleton] at h5
  injection h5 with _ h5
  rw [h5]
  decide

/-- Non-trivially: a counter is made. -/
example : ∃ P d v2', popmCmd plainConv (cfg .v3) asciiEmail countFive = .ok P ∧ edit P [tagOf (cfg .v3) [((cfg .v3).popId, [98, 0, 9, 100])]] none = .ok (d, v2', none) ∧
    v2'.map stored = [[((cfg .v3).popId, [98, 0, 9, 5]), ((cfg .v3).cntId, [5])]] ∧ Settled P v2' none := by
  obtain ⟨P, d, v2', h1, h2, h3⟩ := run_known (m := popmCmd plainConv (cfg .v3) asciiEmail countFive) (v2 := [tagOf (cfg .v3) [((cfg .v3).popId, [98, 0, 9, 100])]])
    (v1 := none) (x := ([[((cfg .v3).popId, [98, 0, 9, 5]), ((cfg .v3).cntId, [5])]], none)) (of_gives (by decide +kernel))
  refine ⟨P, d, v2', h1, h2, h3, C185_popm_partial h1 (knows_cfg .v3) rfl rfl rfl (by decide) ?_ (one_read _ (knows_cfg .v3) _) h2 ?_⟩
  · intro own ho
    cases ho
    exact ⟨by decide, fun _ => rfl⟩
  · intro _ t ht x hx
    rw [List.mem_singleton] at ht
    subst ht
    have : contents (tagOf (cfg .v3) [((cfg .v3).popId, [98, 0, 9, 100])]).tag = [⟨(cfg .v3).popId, .pop, [98, 0, 9, 100]⟩] := rfl
    rw [this, List.mem_singleton] at hx
    subst hx
    refine ⟨fun _ => rfl, ?_⟩
    intro _ own ho
    cases ho
    exact ⟨9, [100], rfl⟩

end Scribbu.Props
