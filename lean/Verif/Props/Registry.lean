import Verif.Proofs.RegistryEnd
import Verif.Model.Parsers

/-! Properties C151 and C152: default parsers, shared by threads; which parser makes a frame. -/

namespace Scribbu.Props
open Scribbu Registry Spec

/-- **C151** Whatever calls the threads make and however they are interleaved: no two threads are at the shared tables at the same time. -/
theorem C151_no_race {P : Type} (m : Maps P) (prog : Nat → List (Call P)) (ts : List Nat) : ¬ Race (run (init m prog) ts) := by
  have hI := inv_run ts (inv_init m prog)
  rintro ⟨t, u, hne, ht, hu⟩
  have h : ∀ l : Loc P, Inside l → Holds l := fun l h => by cases l <;> first | exact h | trivial
  have e1 := (hI.holds t).1 (h _ ht)
  have e2 := (hI.holds u).1 (h _ hu)
  rw [e1] at e2
  cases e2
  exact hne rfl

/-- **C151** What can be seen of the run is as if the calls had taken effect one after another, each between its beginning and its return. -/
theorem C151_in_turn {P : Type} (m : Maps P) (prog : Nat → List (Call P)) (ts : List Nat) :
    AsIfInTurn m (run (init m prog) ts).hist (run (init m prog) ts).maps := by
  obtain ⟨l, h1, h2, h3⟩ := (inv_run ts (inv_init m prog)).trace
  exact ⟨l, h1, fun t => ⟨_, h2 t⟩, h3⟩

/-- **C151** Each thread makes its calls in order, and when it is through, it has made them all. -/
theorem C151_order {P : Type} (m : Maps P) (prog : Nat → List (Call P)) (ts : List Nat) (t : Nat) :
    callsOf t (run (init m prog) ts).hist <+: prog t ∧
    (Finished (run (init m prog) ts) t → callsOf t (run (init m prog) ts).hist = prog t) := by
  have h := (inv_run ts (inv_init m prog)).order t
  refine ⟨⟨_, h⟩, ?_⟩
  rintro ⟨-, h2⟩
  rw [h2, List.append_nil] at h
  exact h

/-- **C151** If there are finitely many threads and all of them get their turn again and again, in whatever order, then they all come to an end. -/
theorem C151_finishes {P : Type} (m : Maps P) (prog : Nat → List (Call P)) (n : Nat) (hn : ∀ t, n ≤ t → prog t = []) :
    ∃ k, ∀ rounds : List (List Nat), k ≤ rounds.length → (∀ r ∈ rounds, ∀ t, t < n → t ∈ r) →
      ∀ t, Finished (run (init m prog) rounds.flatten) t :=
  ⟨_, fun rounds hk hr => rounds_end (k := size n (init m prog)) rounds (inv_init m prog) (fun t ht => ⟨rfl, hn t ht⟩) (Nat.le_refl _) hk hr⟩

/-- Two threads: one reads a tag, one registers two parsers. -/
def twoThreads : Nat → List (Call Nat)
  | 0 => [.get .gen, .get .text]
  | 1 => [.reg .gen [65, 65, 65] 1, .reg .text [66, 66, 66] 2]
  | _ => []

/-- A schedule in which the one waits for the other: both calls are under way, and what comes back is as in the order 0, 1. -/
example : (run (init ⟨[], []⟩ twoThreads) [0, 1, 0, 1, 0, 1, 0, 1, 0, 0, 1, 1, 1, 1, 1]).hist =
    [.call 0 (.get .gen), .call 1 (.reg .gen [65, 65, 65] 1), .ret 0 (.table []), .ret 1 (.flag true)] := by decide +kernel

/-- Going on with rounds, everything is done. -/
example : ∀ t, t < 2 → Finished (run (init ⟨[], []⟩ twoThreads) (List.replicate 20 [1, 0]).flatten) t := by
  unfold Finished; decide +kernel

open Parsers

/-! Which parser makes a frame. -/

/-- Comments, counters and popularimeters. -/
def LibraryFrame (id : Bytes) : Prop := id = /- COM -/ [67, 79, 77] ∨ id = /- CNT -/ [67, 78, 84] ∨ id = /- POP -/ [80, 79, 80]

/-- C152 in full, as documented: default parsers for comments, counters and popularimeters are refused; any other is accepted, what comes back tells whether
there was none before, and then it is this parser that makes frames with this identifier, in tags read from then on; all other frames are made as before. -/
def C152_claim : Prop :=
  ∀ (m : Maps Nat) (w : Which) (id : Bytes) (p : Nat),
    (LibraryFrame id → registerDefault m w id p = (.refused, m)) ∧
    (¬ LibraryFrame id → ∃ b m', registerDefault m w id p = (.flag b, m') ∧ (b = true ↔ ∀ q, (id, q) ∉ m.get w) ∧
      (∀ ids, ∀ f ∈ (readTag m' ids).frames, f.1 = id → f.2 = .parser w p) ∧
      ∀ ids, id ∉ ids → (readTag m' ids).frames = (readTag m ids).frames)

/-- **Finding** (scribbu/id3v22.cc L782, L791; scribbu/id3v22.hh L611, L627; documented in scribbu/id3v22.hh L588, L593): registering a parser for an identifier that has
one comes to nothing: `insert` keeps the old entry. (`false => another was replaced`, it says.) -/
theorem C152_refuted : ¬ C152_claim := by
  intro h
  obtain ⟨b, m', h1, -, h3, -⟩ := (h ⟨[([65, 65, 65], 1)], []⟩ .gen [65, 65, 65] 2).2 (by unfold LibraryFrame; decide)
  have e : registerDefault (⟨[([65, 65, 65], 1)], []⟩ : Maps Nat) .gen [65, 65, 65] 2 = (.flag false, ⟨[([65, 65, 65], 1)], []⟩) := by decide
  rw [e] at h1
  cases h1
  have := h3 [[65, 65, 65]] ([65, 65, 65], .parser .gen 1) (by decide) rfl
  cases this

/-- **Finding** (scribbu/id3v22.cc L799): the list of reserved identifiers has `PCT`, which is no frame of ID3v2.2, for `CNT`. A parser for counters is accepted and
never used; one for `PCT` is refused. -/
theorem C152_refuted_counter {P : Type} (p : P) :
    registerDefault ⟨[], []⟩ .gen /- CNT -/ [67, 78, 84] p = (.flag true, ⟨[([67, 78, 84], p)], []⟩) ∧
    (∀ m : Maps P, maker m [67, 78, 84] = .library) ∧
    ∀ m : Maps P, registerDefault m .gen /- PCT -/ [80, 67, 84] p = (.refused, m) :=
  ⟨rfl, fun _ => rfl, fun _ => rfl⟩

/-- **Finding** (scribbu/id3v22.cc L786-792): for default text parsers no identifier is reserved. A text parser for comments is accepted, and never used. -/
theorem C152_refuted_text {P : Type} (p : P) :
    registerDefault ⟨[], []⟩ .text /- COM -/ [67, 79, 77] p = (.flag true, ⟨[], [([67, 79, 77], p)]⟩) ∧ ∀ m : Maps P, maker m [67, 79, 77] = .library :=
  ⟨rfl, fun _ => rfl⟩

/-- **Finding** (scribbu/id3v22.cc L978-999): a generic parser for an identifier that has a text parser is accepted as a new one, and never used. -/
theorem C152_refuted_masked {P : Type} (p q : P) :
    registerDefault ⟨[], [([65, 65, 65], q)]⟩ .gen [65, 65, 65] p = (.flag true, ⟨[([65, 65, 65], p)], [([65, 65, 65], q)]⟩) ∧
    maker ⟨[([65, 65, 65], p)], [([65, 65, 65], q)]⟩ [65, 65, 65] = .parser .text q :=
  ⟨rfl, rfl⟩

theorem exec_frames {P : Type} (s : World P) (o : Op P) (i : Nat) (t : Parsers.Tag P) (h : s.tags[i]? = some t) :
    ∃ t', (s.exec o).tags[i]? = some t' ∧ t'.frames = t.frames := by
  cases o with
  | regDefault w id p => exact ⟨t, h, rfl⟩
  | read ids =>
    refine ⟨t, ?_, rfl⟩
    show (s.tags ++ _)[i]? = _
    have : i < s.tags.length := by
      rcases Nat.lt_or_ge i s.tags.length with h' | h'
      · exact h'
      · rw [List.getElem?_eq_none h'] at h; cases h
    rw [List.getElem?_append_left this, h]
  | regOwn j w id p =>
    show ∃ t', (s.tags.modify j _)[i]? = some t' ∧ _
    rw [List.getElem?_modify, h]
    by_cases e : j = i
    · simp [e]
    · simp [e]

/-- **Finding** (scribbu/id3v22.hh L604-628; the same in the other versions): whatever is done, the frames of a tag stay as they were made when it was read. So a parser
registered with a tag is never used: tags are read by their constructors only. -/
theorem C152_refuted_own {P : Type} (os : List (Op P)) : ∀ (s : World P) (i : Nat) (t : Parsers.Tag P), s.tags[i]? = some t →
    ∃ t', (s.execAll os).tags[i]? = some t' ∧ t'.frames = t.frames := by
  induction os with
  | nil => exact fun s i t h => ⟨t, h, rfl⟩
  | cons o os ih =>
    intro s i t h
    obtain ⟨t1, h1, e1⟩ := exec_frames s o i t h
    obtain ⟨t2, h2, e2⟩ := ih (s.exec o) i t1 h1
    exact ⟨t2, h2, e2.trans e1⟩

theorem find_none {P : Type} (t : Table P) (id : Bytes) : find t id = none ↔ ∀ q, (id, q) ∉ t := by
  induction t with
  | nil => simp [find]
  | cons e t ih =>
    obtain ⟨i, p⟩ := e
    unfold find at ih ⊢
    by_cases h : i = id
    · subst h
      simp only [List.find?_cons, decide_true, Option.map_some]
      exact ⟨fun h => by simp at h, fun h => absurd (List.mem_cons_self) (h p)⟩
    · simp only [List.find?_cons, h, decide_false]
      rw [ih]
      constructor
      · intro h' q hq
        rcases List.mem_cons.1 hq with e | e
        · exact h (Prod.mk.inj e).1.symm
        · exact h' q e
      · exact fun h' q hq => h' q (List.mem_cons_of_mem _ hq)

theorem find_cons_same {P : Type} (t : Table P) (id : Bytes) (p : P) : find ((id, p) :: t) id = some p := by
  simp [find]

theorem find_cons_ne {P : Type} (t : Table P) (id i : Bytes) (p : P) (h : i ≠ id) : find ((i, p) :: t) id = find t id := by
  simp [find, List.find?_cons, h]

/-- A registered parser stays. -/
theorem find_kept {P : Type} (m : Maps P) (w : Which) (i : Bytes) (q : P) (w' : Which) (id : Bytes) (p : P) (h : find (m.get w') id = some p) :
    find ((registerDefault m w i q).2.get w') id = some p := by
  have hins : find ((Parsers.insert m w i q).2.get w') id = some p := by
    unfold Parsers.insert
    split
    · exact h
    · rename_i hn
      have hi : ¬ (w = w' ∧ i = id) := by
        rintro ⟨rfl, rfl⟩
        rw [h] at hn
        exact hn rfl
      cases w <;> cases w' <;> first
        | exact h
        | (show find ((i, q) :: _) id = some p
           rw [find_cons_ne _ _ _ _ fun e => hi ⟨rfl, e⟩]
           exact h)
  cases w with
  | gen =>
    unfold registerDefault
    simp only
    split
    · exact h
    · exact hins
  | text => exact hins

/-- A table has no parser for an identifier until one is registered. -/
theorem find_still {P : Type} (m : Maps P) (w : Which) (i : Bytes) (q : P) (w' : Which) (id : Bytes) (hne : ¬ (w = w' ∧ i = id)) :
    find ((registerDefault m w i q).2.get w') id = find (m.get w') id := by
  have hins : find ((Parsers.insert m w i q).2.get w') id = find (m.get w') id := by
    unfold Parsers.insert
    split
    · rfl
    · cases w <;> cases w' <;> first
        | rfl
        | exact find_cons_ne _ _ _ _ fun e => hne ⟨rfl, e⟩
  cases w with
  | gen =>
    unfold registerDefault
    simp only
    split
    · rfl
    · exact hins
  | text => exact hins

/-- This parser makes the frames with this identifier. -/
def Serves {P : Type} (m : Maps P) (w : Which) (id : Bytes) (p : P) : Prop :=
  find (m.get w) id = some p ∧ (w = .gen → find m.text id = none)

theorem Serves.maker {P : Type} {m : Maps P} {w : Which} {id : Bytes} {p : P} (hs : special id = false) (h : Serves m w id p) :
    Parsers.maker m id = .parser w p := by
  obtain ⟨h1, h2⟩ := h
  unfold Parsers.maker
  rw [if_neg (by simp [hs])]
  cases w with
  | text => rw [show find m.text id = some p from h1]
  | gen => rw [h2 rfl]; simp only; rw [show find m.gen id = some p from h1]

/-- Later on, no default text parser is registered for the identifier. -/
def NoTextFor {P : Type} (id : Bytes) (os : List (Op P)) : Prop := ∀ p, Op.regDefault .text id p ∉ os

theorem serves_all {P : Type} {w : Which} {id : Bytes} {p : P} (os : List (Op P)) : ∀ (s : World P), (w = .gen → NoTextFor id os) →
    Serves s.dflt w id p → Serves (s.execAll os).dflt w id p := by
  induction os with
  | nil => exact fun s _ h => h
  | cons o os ih =>
    intro s hno h
    refine ih _ (fun hw q hq => hno hw q (List.mem_cons_of_mem _ hq)) ?_
    cases o with
    | read ids => exact h
    | regOwn i w id p => exact h
    | regDefault w' i q =>
      refine ⟨find_kept _ _ _ _ _ _ _ h.1, fun hw => ?_⟩
      show find ((registerDefault s.dflt w' i q).2.get .text) id = none
      rw [find_still]
      · exact h.2 hw
      · rintro ⟨rfl, rfl⟩
        exact hno hw q List.mem_cons_self

/-- **C152** (what is left of it, `_partial`: for the first parser of an identifier which neither the library nor a text parser looks after): it is accepted as new; tags read
at any time afterwards have their frames with this identifier made by it, whatever else is registered with the library or with tags (but for a text parser, if this is a generic
one); and registering it changes nothing for other identifiers. -/
theorem C152_partial {P : Type} (s : World P) (w : Which) (id : Bytes) (p : P) (hs : ¬ LibraryFrame id) (hr : id ≠ /- PCT -/ [80, 67, 84])
    (hg : w = .gen → ∀ q, (id, q) ∉ s.dflt.gen) (ht : ∀ q, (id, q) ∉ s.dflt.text) :
    ∃ m', registerDefault s.dflt w id p = (.flag true, m') ∧ (s.exec (.regDefault w id p)).dflt = m' ∧
      (∀ (os : List (Op P)), (w = .gen → NoTextFor id os) →
        ∀ ids, ∀ f ∈ (readTag ((s.exec (.regDefault w id p)).execAll os).dflt ids).frames, f.1 = id → f.2 = .parser w p) ∧
      ∀ ids, id ∉ ids → (readTag m' ids).frames = (readTag s.dflt ids).frames := by
  unfold LibraryFrame at hs
  have hsp : special id = false := by
    simp only [special, List.contains_cons, List.contains_nil, Bool.or_false, Bool.or_eq_false_iff, beq_eq_false_iff_ne]
    exact ⟨fun e => hs (.inl e), fun e => hs (.inr (.inl e)), fun e => hs (.inr (.inr e))⟩
  have hrs : reserved id = false := by
    simp only [reserved, List.contains_cons, List.contains_nil, Bool.or_false, Bool.or_eq_false_iff, beq_eq_false_iff_ne]
    exact ⟨fun e => hs (.inl e), hr, fun e => hs (.inr (.inr e))⟩
  have hnone : find (s.dflt.get w) id = none := by
    rw [find_none]
    cases w with
    | gen => exact hg rfl
    | text => exact ht
  have e : registerDefault s.dflt w id p = (.flag true, s.dflt.add w id p) := by
    cases w with
    | gen => simp [registerDefault, hrs, Parsers.insert, hnone]
    | text => simp [registerDefault, Parsers.insert, hnone]
  have hserves : Serves (s.exec (.regDefault w id p)).dflt w id p := by
    show Serves (registerDefault s.dflt w id p).2 w id p
    rw [e]
    cases w with
    | gen => exact ⟨find_cons_same _ _ _, fun _ => (find_none _ _).2 ht⟩
    | text => exact ⟨find_cons_same _ _ _, fun h => by cases h⟩
  refine ⟨_, e, by show (registerDefault s.dflt w id p).2 = _; rw [e], ?_, ?_⟩
  · intro os hno ids f hf hid
    have h := (serves_all os _ hno hserves).maker hsp
    simp only [readTag, List.mem_map] at hf
    obtain ⟨i, -, rfl⟩ := hf
    have hid : i = id := hid
    rw [hid]
    exact h
  · intro ids hids
    simp only [readTag]
    refine List.map_congr_left fun i hi => ?_
    have hne : ¬ id = i := fun e => hids (e ▸ hi)
    have h1 : ∀ w', find ((s.dflt.add w id p).get w') i = find (s.dflt.get w') i := by
      intro w'
      have := find_still s.dflt w id p w' i fun h => hne h.2
      rw [e] at this
      exact this
    unfold maker
    rw [show find (s.dflt.add w id p).text i = find s.dflt.text i from h1 .text, show find (s.dflt.add w id p).gen i = find s.dflt.gen i from h1 .gen]

/-- The parser is there for tags read later, whatever is registered in between; the tag read before has its frame unknown still. -/
example : ((⟨⟨[], []⟩, []⟩ : World Nat).execAll
    [.read [[65, 65, 65]], .regDefault .gen [65, 65, 65] 1, .regDefault .gen [65, 65, 65] 2, .regOwn 0 .gen [65, 65, 65] 3, .regDefault .text [66, 66, 66] 4,
      .read [[66, 66, 66], [65, 65, 65], [67, 79, 77]]]).tags.map (·.frames) =
    [[([65, 65, 65], .unknown)], [([66, 66, 66], .parser .text 4), ([65, 65, 65], .parser .gen 1), ([67, 79, 77], .library)]] := by decide +kernel

/-- A tag has the default parsers of one moment. -/
def C152_moment_claim : Prop :=
  ∀ (m : Maps Nat) (prog : Nat → List (Call Nat)) (ts : List Nat) (t : Nat) (g x : Table Nat), prog t = [.get .gen, .get .text] →
    answersOf t (run (init m prog) ts).hist = [.table g, .table x] → ∃ n, (run (init m prog) (ts.take n)).maps = ⟨g, x⟩

/-- **Finding** (scribbu/id3v22.cc L172-175, L193-196; the same in the other versions): a constructor asks for the two tables one after the other. If another thread
registers a generic parser and then a text parser in between, the tag has the second of them and not the first, as it never was. -/
theorem C152_refuted_moment : ¬ C152_moment_claim := by
  intro h
  have ht : answersOf 0 (run (init ⟨[], []⟩ twoThreads) (List.replicate 6 0 ++ List.replicate 12 1 ++ List.replicate 7 0)).hist =
      [.table [], .table [([66, 66, 66], 2)]] := by decide +kernel
  obtain ⟨n, hn⟩ := h ⟨[], []⟩ twoThreads _ 0 _ _ rfl ht
  have hall : ∀ n, n < 25 → (run (init ⟨[], []⟩ twoThreads) ((List.replicate 6 0 ++ List.replicate 12 1 ++ List.replicate 7 0).take n)).maps ≠
      ⟨[], [([66, 66, 66], 2)]⟩ := by decide +kernel
  rcases Nat.lt_or_ge n 25 with hlt | hge
  · exact hall n hlt hn
  · have e : (List.replicate 6 0 ++ List.replicate 12 1 ++ List.replicate 7 0).take n = (List.replicate 6 0 ++ List.replicate 12 1 ++ List.replicate 7 0 : List Nat) :=
      List.take_of_length_le (by simpa using hge)
    rw [e] at hn
    exact absurd hn (by decide +kernel)

end Scribbu.Props
