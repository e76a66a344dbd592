import Verif.Proofs.FsTree

/-! # Properties of walking directories from Scheme: C141, C142 -/

namespace Scribbu.Props
open Scribbu Scribbu.FsTree Scribbu.Spec.FsTree Scribbu.Proofs.FsTree

/-! ## C141: `flat-file-system-tree` -/

/-- **C141**, the full claim: `flat-file-system-tree` gives the regular files under a path that does not end in a slash, and nothing else. -/
def C141_claim : Prop :=
  ∀ (cwd root : Bytes) (t : Node), Named t → root ≠ [] → root.getLast? ≠ some 0x2f →
    ∀ p, p ∈ flat cwd root t ↔ ∃ rel, FileAt false t rel ∧ p = absolute cwd root ++ rel

/-- **Finding** C141 is refuted: a directory that is empty is listed. -/
theorem C141_refuted : ¬ C141_claim := by
  intro h
  have := (h [] /- /a -/ [47, 97] (.dir .nil) (by simp [Named, NamedAll]) (by decide) (by decide) /- /a -/ [47, 97]).1 (by decide +kernel)
  obtain ⟨rel, h1, -⟩ := this
  cases h1 with
  | dir _ _ _ _ hi _ => cases hi

/-- **Finding** So is a symbolic link, or a device; and if the path itself is a symbolic link to a directory, it is the only thing listed. -/
theorem C141_refuted_link (cwd root : Bytes) (t : Node) : flat cwd root (.link t) = [absolute cwd root] := by
  have hs : 0x2f ∈ absolute cwd root := by
    unfold absolute
    split
    · rename_i h
      exact List.mem_of_head? h
    · simp
  have := split_join hs
  unfold flat
  simp only [tree, strip, flatten]
  exact congrArg (fun x => [x]) this

theorem flat_leaf (cwd root : Bytes) (t : Node) (p : Bytes) : p ∈ flat cwd root t ↔ ∃ rel, LeafAt t rel ∧ p = absolute cwd root ++ rel := by
  have hs : 0x2f ∈ absolute cwd root := by
    unfold absolute
    split
    · rename_i h
      exact List.mem_of_head? h
    · simp
  have h1 := split_join hs
  have h2 := strip_leaf (splitPath (absolute cwd root)).1 (splitPath (absolute cwd root)).2 t p
  rw [h1] at h2
  exact h2

theorem file_leaf {t : Node} {rel : Bytes} (h : FileAt false t rel) : LeafAt t rel := by
  induction h with
  | file => exact .file
  | link _ _ h => cases h
  | dir f n t rel h1 _ ih => exact .dir f n t rel h1 ih

/-- What holds of C141: all regular files are listed, each thing once; what is listed besides are symbolic links (not followed), devices and
empty directories. -/
theorem C141_partial (cwd root : Bytes) (t : Node) :
    (∀ rel, FileAt false t rel → absolute cwd root ++ rel ∈ flat cwd root t) ∧
    (∀ p, p ∈ flat cwd root t ↔ ∃ rel, LeafAt t rel ∧ p = absolute cwd root ++ rel) ∧ (Named t → (flat cwd root t).Nodup) :=
  ⟨fun rel h => (flat_leaf _ _ _ _).2 ⟨rel, file_leaf h, rfl⟩, fun p => flat_leaf _ _ _ p, fun h => strip_nodup _ _ t h⟩

mutual
/-- There are only regular files and directories with entries. -/
def PlainTree : Node → Prop
  | .file => True
  | .dir .nil => False
  | .dir (.cons _ t rest) => PlainTree t ∧ PlainTreeAll rest
  | _ => False

/-- The same. -/
def PlainTreeAll : Forest → Prop
  | .nil => True
  | .cons _ t rest => PlainTree t ∧ PlainTreeAll rest
end

theorem plainAll_in {f : Forest} (h : PlainTreeAll f) {n : Bytes} {t : Node} (hi : In f n t) : PlainTree t := by
  induction hi with
  | here => exact h.1
  | there _ _ _ _ _ _ ih => exact ih h.2

theorem plain_in {f : Forest} (h : PlainTree (.dir f)) {n : Bytes} {t : Node} (hi : In f n t) : PlainTree t := by
  cases f with
  | nil => cases hi
  | cons m u rest => exact plainAll_in (f := .cons m u rest) h hi

theorem leaf_file {t : Node} {rel : Bytes} (h : LeafAt t rel) (hp : PlainTree t) : FileAt false t rel := by
  induction h with
  | file => exact .file
  | other => exact hp.elim
  | dangling => exact hp.elim
  | link => exact hp.elim
  | empty => exact hp.elim
  | dir f n t rel h1 _ ih => exact .dir f n t rel h1 (ih (plain_in hp h1))

/-- C141 holds of trees with only regular files and directories none of which is empty. -/
theorem C141_plain_partial (cwd root : Bytes) (t : Node) (h : PlainTree t) (p : Bytes) :
    p ∈ flat cwd root t ↔ ∃ rel, FileAt false t rel ∧ p = absolute cwd root ++ rel := by
  rw [flat_leaf]
  exact ⟨fun ⟨rel, h1, h2⟩ => ⟨rel, leaf_file h1 h, h2⟩, fun ⟨rel, h1, h2⟩ => ⟨rel, file_leaf h1, h2⟩⟩

/-- A case: two files, one in a directory. -/
def twoDeep : Node := .dir (.cons /- a.mp3 -/ [97, 46, 109, 112, 51] .file (.cons /- b -/ [98] (.dir (.cons /- c.mp3 -/ [99, 46, 109, 112, 51] .file .nil)) .nil))

example : PlainTree twoDeep ∧ Named twoDeep := by
  simp only [twoDeep, PlainTree, PlainTreeAll, Named, NamedAll, and_self, and_true, true_and]
  refine ⟨by decide, fun u h => ?_, by decide, fun u h => (nomatch h), by decide, fun u h => (nomatch h)⟩
  cases h with
  | there _ _ _ _ _ h => cases h

example : flat /- /home -/ [47, 104, 111, 109, 101] /- music -/ [109, 117, 115, 105, 99] twoDeep = [/- /home/music/a.mp3 -/ [47, 104, 111, 109, 101, 47, 109, 117, 115, 105, 99, 47, 97, 46, 109, 112, 51], /- /home/music/b/c.mp3 -/ [47, 104, 111, 109, 101, 47, 109, 117, 115, 105, 99, 47, 98, 47, 99, 46, 109, 112, 51]] := by decide +kernel

/-! ## C142: `fs-tree-generator` -/

/-- **C142**, the full claim: the generator gives every regular file, each once, and then `*eof*` for ever. -/
def C142_claim : Prop :=
  ∀ (lim : Nat) (root : Bytes) (f : Forest), NamedAll f → 0 < lim →
    ∃ ps : List Bytes, ps.Nodup ∧ (∀ p, p ∈ ps ↔ ∃ rel, FileAt true (.dir f) rel ∧ p = root ++ rel) ∧
      ∀ k, generator lim root f (ps.length + k) = ps.map (fun p => some (.path p)) ++ List.replicate k (some .eof)

/-- **Finding** C142 is refuted: at a symbolic link to nothing, an error is raised. -/
theorem C142_refuted : ¬ C142_claim := by
  intro h
  obtain ⟨ps, -, -, h1⟩ := h 10 [] (.cons /- a -/ [97] .dangling .nil) (by
    simp only [NamedAll, Named, and_true]
    exact ⟨by decide, fun u h => (nomatch h)⟩) (by decide)
  have h2 := h1 1
  cases ps with
  | nil => revert h2; decide +kernel
  | cons p ps =>
    rw [List.length_cons, show ps.length + 1 + 1 = (ps.length + 1) + 1 by omega] at h2
    have : generator 10 [] (.cons /- a -/ [97] .dangling .nil) ((ps.length + 1) + 1) = some .error :: calls 10 (ps.length + 1) [([], .nil)] := rfl
    rw [this] at h2
    simp at h2

/-- A directory with a number of directories, all named differently. -/
def many : Nat → Forest
  | 0 => .nil
  | n + 1 => .cons (List.replicate (n + 1) 0x61) (.dir .nil) (many n)

theorem many_scan (lim : Nat) (pth : Bytes) (n : Nat) (st : Stack) (h : lim ≤ st.length + n) (hl : st.length < lim) :
    ∃ f' st', scan lim pth (many n) st = (some .error, f', st') := by
  induction n generalizing st with
  | zero => omega
  | succ n ih =>
    unfold many scan
    simp only [stat]
    by_cases hx : st.length + 1 < lim
    · rw [if_pos hx]
      exact ih _ (by simp; omega) (by simpa using hx)
    · rw [if_neg hx]
      exact ⟨_, _, rfl⟩

/-- **Finding** Directories are opened as soon as they are found, and stay open until it is their turn. However many can be open at a time, the
generator fails if there are as many directories in one. -/
theorem C142_refuted_open (lim n : Nat) (root : Bytes) (h : 0 < lim) (hn : lim ≤ n) :
    ∃ f : Forest, f = many n ∧ (generator lim root f 1) = [some .error] := by
  refine ⟨_, rfl, ?_⟩
  obtain ⟨f', st', h1⟩ := many_scan lim root n [] (by simpa using hn) (by simpa using h)
  have : next lim (fuelFor [(root, many n)]) [(root, many n)] = some (.error, (root, f') :: st') := by
    unfold fuelFor next
    rw [h1]
  simp only [generator, calls, this]

/-- What holds of C142: if all directories can be open at once, the calls give every regular file (symbolic links followed) once, and
an error for each symbolic link that leads nowhere, after which one can go on; then `*eof*` for ever. -/
theorem C142_partial (lim : Nat) (root : Bytes) (f : Forest) (hl : dirsIn f + 1 ≤ lim) :
    ∃ os : List Out, .eof ∉ os ∧ (∀ p, .path p ∈ os ↔ ∃ rel, FileAt true (.dir f) rel ∧ p = root ++ rel) ∧ os.count .error = brokenIn f ∧
      (NamedAll f → ∀ p, os.count (.path p) ≤ 1) ∧
      ∀ k, generator lim root f (os.length + k) = os.map some ++ List.replicate k (some .eof) := by
  obtain ⟨os, h1, h2, h3⟩ := calls_spec lim _ [(root, f)] (by simpa [load] using hl) rfl
  have hp : pending [(root, f)] = outs root f := by simp [pending]
  rw [hp] at h1
  refine ⟨os, h2, fun p => ?_, ?_, fun hn p => ?_, h3⟩
  · rw [h1.mem_iff]
    exact outs_node root (.dir f) p
  · rw [h1.count_eq]
    exact outs_errors root f
  · rw [h1.count_eq]
    have := outs_nodup root f hn
    rw [List.nodup_iff_count] at this
    have h4 := this p
    refine Nat.le_trans ?_ h4
    rw [List.count_filterMap]
    refine List.countP_mono_left fun x _ hx => ?_
    simp only [beq_iff_eq] at hx
    subst hx
    simp [pathOf]

/-- So C142 holds without such links. -/
theorem C142_clean_partial (lim : Nat) (root : Bytes) (f : Forest) (hn : NamedAll f) (hl : dirsIn f + 1 ≤ lim) (hb : brokenIn f = 0) :
    ∃ ps : List Bytes, ps.Nodup ∧ (∀ p, p ∈ ps ↔ ∃ rel, FileAt true (.dir f) rel ∧ p = root ++ rel) ∧
      ∀ k, generator lim root f (ps.length + k) = ps.map (fun p => some (.path p)) ++ List.replicate k (some .eof) := by
  obtain ⟨os, h1, h2, h3, h4, h5⟩ := C142_partial lim root f hl
  have he : .error ∉ os := by
    rw [← List.count_eq_zero, h3, hb]
  obtain ⟨ps, rfl⟩ : ∃ ps : List Bytes, os = ps.map .path := by
    clear h2 h3 h4 h5
    induction os with
    | nil => exact ⟨[], rfl⟩
    | cons o os ih =>
      simp only [List.mem_cons, not_or] at h1 he
      obtain ⟨ps, rfl⟩ := ih h1.2 he.2
      cases o with
      | path p => exact ⟨p :: ps, rfl⟩
      | error => exact absurd rfl he.1
      | eof => exact absurd rfl h1.1
  refine ⟨ps, ?_, fun p => ?_, fun k => ?_⟩
  · rw [List.nodup_iff_count]
    intro p
    refine Nat.le_trans ?_ (h4 hn p)
    exact List.count_le_count_map
  · rw [← h2 p]
    simp
  · have := h5 k
    rw [List.length_map, List.map_map] at this
    exact this

example : generator 3 /- m -/ [109] (.cons /- a.mp3 -/ [97, 46, 109, 112, 51] .file (.cons /- b -/ [98] (.link (.dir (.cons /- c.mp3 -/ [99, 46, 109, 112, 51] .file .nil))) (.cons /- d -/ [100] .dangling (.cons /- e -/ [101] .file .nil)))) 6 =
    [some (.path /- m/a.mp3 -/ [109, 47, 97, 46, 109, 112, 51]), some .error, some (.path /- m/e -/ [109, 47, 101]), some (.path /- m/b/c.mp3 -/ [109, 47, 98, 47, 99, 46, 109, 112, 51]), some .eof, some .eof] := by decide +kernel

end Scribbu.Props
