import Verif.Model.LoadPath

/-! Property C149: where the interpreter looks for modules. -/

namespace Scribbu.Props
open Scribbu Scribbu.LoadPath

/-- A proper list of values. -/
def pathOf : List Val → Lst
  | [] => .nil
  | x :: xs => .pair x (pathOf xs)

/-- A list of directories. -/
def dirsOf (ds : List Bytes) : Lst := pathOf (ds.map .str)

/-- Where Guile loads a module from: the first directory that has it. -/
def loadsFrom (has : Bytes → Bool) (ds : List Bytes) : Option Bytes := ds.find? has

/-- The directory with scribbu's modules. -/
def siteDir (datadir : Bytes) : Bytes := datadir ++ [0x2f, 0x67, 0x75, 0x69, 0x6c, 0x65, 0x2f, 0x73, 0x69, 0x74, 0x65]

/-- `ds'` is what the load path `ds` should become. -/
structure MadeReady (site : Bytes) (ds ds' : List Bytes) : Prop where
  /-- Scribbu's modules are found. -/
  mem : site ∈ ds'
  /-- Every directory is still there, as often as before and in the same order; nothing is added if scribbu's was there. -/
  kept : ds' = if site ∈ ds then ds else site :: ds
  /-- Modules that scribbu has none of are loaded from where they were. -/
  others : ∀ has : Bytes → Bool, has site = false → loadsFrom has ds' = loadsFrom has ds

/-- C149 in full: whatever the load path is, it is made ready, once and for all. -/
def C149_claim : Prop :=
  ∀ (text datadir : Bytes) (ds : List Bytes) (version : Val), ∃ (ds' : List Bytes) (version' : Val),
    start text datadir ⟨some version, some (dirsOf ds)⟩ = (none, ⟨some version', some (dirsOf ds')⟩) ∧
    MadeReady (siteDir datadir) ds ds'

/-- **Finding** (scribbu/scheme.cc L856-859): the empty list is no pair, so nothing is added to a load path that is empty, as it is with
`GUILE_SYSTEM_PATH=` in the environment: scribbu's modules are not found. -/
theorem C149_refuted : ¬ C149_claim := by
  intro h
  obtain ⟨ds', v', h1, h2⟩ := h [] [0x2f] [] (.str [])
  have e : start [] [0x2f] ⟨some (.str []), some (dirsOf [])⟩ = (none, ⟨some (.str []), some (dirsOf [])⟩) := by decide
  rw [e] at h1
  have h3 : dirsOf [] = dirsOf ds' := by
    have := congrArg (fun r => r.2.path) h1
    simpa using this
  have h4 := h2.mem
  cases ds' with
  | nil => simp at h4
  | cons d ds => simp [dirsOf, pathOf] at h3

/-- **Finding** (scribbu/scheme.cc L883-891): if Guile's version has characters that the locale lacks, so that it cannot be shown, the load path
is not made ready either. -/
theorem C149_refuted_version (text datadir : Bytes) (ds : List Bytes) :
    start text datadir ⟨some .alien, some (dirsOf ds)⟩ = (some .encoding, ⟨some .alien, some (dirsOf ds)⟩) := rfl

/-- **Finding** (scribbu/scheme.cc L868): so it is with one directory that the locale has no name for, even if it is of no interest: scribbu's directory
is not added. -/
theorem C149_refuted_alien (text datadir : Bytes) (ds : List Bytes) (rest : List Val) (h : siteDir datadir ∉ ds) (v : Bytes) :
    ∃ v', start text datadir ⟨some (.str v), some (pathOf (ds.map .str ++ .alien :: rest))⟩ =
      (some .encoding, ⟨v', some (pathOf (ds.map .str ++ .alien :: rest))⟩) := by
  have hl : ∀ xs : List Val, LoadPath.length (pathOf xs) = .ok xs.length := by
    intro xs
    induction xs with
    | nil => rfl
    | cons x xs ih => simp [pathOf, LoadPath.length, ih]
  have hf : ∀ ds : List Bytes, siteDir datadir ∉ ds → found (siteDir datadir) (pathOf (ds.map .str ++ .alien :: rest)) = .error .encoding := by
    intro ds
    induction ds with
    | nil => intro _; rfl
    | cons d ds ih =>
      intro h
      simp only [List.mem_cons, not_or] at h
      simp only [List.map_cons, List.cons_append, pathOf, found, localeString]
      rw [if_neg (fun e => h.1 e.symm)]
      exact ih h.2
  obtain ⟨x, xs, e⟩ : ∃ x xs, ds.map Val.str ++ .alien :: rest = x :: xs := by
    cases ds with
    | nil => exact ⟨_, _, rfl⟩
    | cons d ds => exact ⟨_, _, rfl⟩
  have h1 := hl (x :: xs)
  have h2 := hf ds h
  rw [e] at h2 ⊢
  refine ⟨some (.str (text ++ v)), ?_⟩
  simp only [start, customizeWelcome, localeString, customizeLoadPath, pathOf] at *
  rw [h1]
  simp only [siteDir] at h2
  simp only [h2]

/-- **C149** Whatever directories are in the load path, unless it is empty, starting the interpreter makes it ready, and starting it again changes nothing
more; the version shown begins with scribbu's message and ends with Guile's.
(Missing: the empty load path; values that the locale cannot express.) -/
theorem C149_partial (text datadir : Bytes) (ds : List Bytes) (hne : ds ≠ []) (v : Option Bytes) :
    ∃ ds' : List Bytes, start text datadir ⟨v.map .str, some (dirsOf ds)⟩ = (none, ⟨v.map fun v => .str (text ++ v), some (dirsOf ds')⟩) ∧
      MadeReady (siteDir datadir) ds ds' ∧
      ∀ v' : Option Bytes, start text datadir ⟨v'.map .str, some (dirsOf ds')⟩ = (none, ⟨v'.map fun v => .str (text ++ v), some (dirsOf ds')⟩) := by
  have hl : ∀ xs : List Val, LoadPath.length (pathOf xs) = .ok xs.length := by
    intro xs
    induction xs with
    | nil => rfl
    | cons x xs ih => simp [pathOf, LoadPath.length, ih]
  have hf : ∀ ds : List Bytes, found (siteDir datadir) (dirsOf ds) = .ok (decide (siteDir datadir ∈ ds)) := by
    intro ds
    induction ds with
    | nil => rfl
    | cons d ds ih =>
      simp only [dirsOf, List.map_cons, pathOf, found, localeString]
      split
      · rename_i h
        simp [h]
      · rename_i h
        have ih' : found (siteDir datadir) (pathOf (ds.map .str)) = _ := ih
        rw [ih']
        simp
        intro e
        exact absurd e.symm h
  have hs : ∀ (ds : List Bytes) (v : Option Bytes), ds ≠ [] → start text datadir ⟨v.map .str, some (dirsOf ds)⟩ =
      (none, ⟨v.map fun v => .str (text ++ v), some (dirsOf (if siteDir datadir ∈ ds then ds else siteDir datadir :: ds))⟩) := by
    intro ds v hne
    obtain ⟨x, xs, rfl⟩ := List.exists_cons_of_ne_nil hne
    have h1 := hl ((x :: xs).map .str)
    have h2 := hf (x :: xs)
    have hw : ∀ p, customizeWelcome text ⟨v.map .str, p⟩ = .ok ⟨v.map fun v => .str (text ++ v), p⟩ := by
      intro p
      cases v <;> rfl
    by_cases hm : siteDir datadir ∈ x :: xs
    · rw [if_pos hm]
      rw [decide_eq_true hm] at h2
      simp only [start, hw, customizeLoadPath, dirsOf, List.map_cons, pathOf] at *
      rw [h1]
      simp only [siteDir] at h2
      simp only [h2]
    · rw [if_neg hm]
      rw [decide_eq_false hm] at h2
      simp only [start, hw, customizeLoadPath, dirsOf, List.map_cons, pathOf] at *
      rw [h1]
      simp only [siteDir] at h2
      simp only [h2, siteDir]
  refine ⟨_, hs ds v hne, ⟨?_, rfl, ?_⟩, ?_⟩
  · split
    · assumption
    · exact List.mem_cons_self
  · intro has hh
    split
    · rfl
    · simp [loadsFrom, hh]
  · intro v'
    split
    · rename_i hm
      have := hs ds v' hne
      rw [if_pos hm] at this
      exact this
    · have := hs (siteDir datadir :: ds) v' (by simp)
      rw [if_pos List.mem_cons_self] at this
      exact this

/-- Two directories, neither of them scribbu's: it is put in front. -/
example : start [0x73] [0x2f, 0x64] ⟨some (.str [0x33]), some (dirsOf [[0x2f, 0x61], [0x2f, 0x62]])⟩ =
    (none, ⟨some (.str [0x73, 0x33]), some (dirsOf [[0x2f, 0x64, 0x2f, 0x67, 0x75, 0x69, 0x6c, 0x65, 0x2f, 0x73, 0x69, 0x74, 0x65], [0x2f, 0x61], [0x2f, 0x62]])⟩) := by
  decide

end Scribbu.Props
