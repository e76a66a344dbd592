import Verif.Model.CopyTag
import Verif.Props.Lookup

/-! C153: copying tags. -/

namespace Scribbu.Props
open Scribbu LTag Spec CopyTag

/-- A tag of this version. -/
def TagOf (v : Ver) (t : CTag E) : Prop :=
  t.head.version = (match v with | .v2 => 2 | .v3 => 3 | .v4 => 4) ∧ (v = .v2 → t.ext = none) ∧ (v ≠ .v4 → t.footer = false)

/-- One tag is as good as the other: it has the same attributes and the same frames, and answers from them. -/
def CopyOf (c : Cfg) (t t' : CTag E) : Prop :=
  t'.head = t.head ∧ t'.experimental = t.experimental ∧ t'.footer = t.footer ∧ t'.ext = t.ext ∧ t'.padding = t.padding ∧
  contents t'.tab = contents t.tab ∧ Answers c t'.tab

/-- C153, in full: a copy of a tag that is in order is as good as the tag, and so is a tag it is assigned to. -/
def C153_claim (v : Ver) : Prop :=
  ∀ c : Cfg, c.ver = v → ∀ t this : CTag Nat, TagOf v t → TagOf v this → Answers c t.tab → Answers c this.tab →
    (∃ t', copy v t = .ok t' ∧ CopyOf c t t') ∧ ∃ t', assign v false this t = .ok t' ∧ CopyOf c t t'

theorem reenter_frames (fs : List Fr) : ∀ n : LTag,
    contents (reenter n fs) = contents n ++ fs.map (fun f => ⟨f.id, f.cls, f.data⟩) ∧
    (reenter n fs).textMap = n.textMap ∧ (reenter n fs).coms = n.coms ∧ (reenter n fs).cnts = n.cnts ∧ (reenter n fs).pops = n.pops ∧
    (reenter n fs).frameMap = n.frameMap ++ (fs.zipIdx (n.frames.length + 1)).map fun x => (x.1.id, x.2) := by
  induction fs with
  | nil => simp [reenter, contents]
  | cons f fs ih =>
    intro n
    unfold reenter
    simp only [LTag.alloc]
    obtain ⟨h1, h2, h3, h4, h5, h6⟩ := ih (({ n with next := n.next + 1, frames := n.frames ++ [⟨n.next, f.id, f.cls, f.data⟩] } : LTag).addLookups .gen
      ⟨n.next, f.id, f.cls, f.data⟩ (n.frames ++ [(⟨n.next, f.id, f.cls, f.data⟩ : Fr)]).length)
    refine ⟨?_, h2, h3, h4, h5, ?_⟩
    · rw [h1]; simp [contents, addLookups]
    · rw [h6]; simp [addLookups]

/-- What can be looked up after the loop: nothing by class. -/
theorem reenter_blind (c : Cfg) (fs : List Fr) (k : Nat) (id : Bytes) :
    (reenter { LTag.empty with next := k } fs).textOf c id = .throw .unknownFrame ∧ (reenter { LTag.empty with next := k } fs).comments = .ok [] ∧
    (reenter { LTag.empty with next := k } fs).counts = .ok [] ∧ (reenter { LTag.empty with next := k } fs).populars = .ok [] := by
  obtain ⟨-, h2, h3, h4, h5, -⟩ := reenter_frames fs { LTag.empty with next := k }
  refine ⟨?_, ?_, ?_, ?_⟩
  · unfold textOf mfind; rw [h2]; cases c.newest <;> rfl
  · unfold comments; rw [h3]; rfl
  · unfold counts; rw [h4]; rfl
  · unfold populars; rw [h5]; rfl

/-- A tag with a title. -/
def titledTab (v : Ver) : LTag := empty.pushBack ⟨.text, .text, tit v, [65]⟩

theorem titledTab_run (v : Ver) : TameRun (cfg v) [.setText (tit v) [65]] (titledTab v) :=
  .snoc (os := []) .nil (show stdCls (cfg v) (tit v) = .text by cases v <;> decide) (by cases v <;> rfl)

def noExtTag (v : Ver) (t : LTag) : CTag Nat := ⟨⟨match v with | .v2 => 2 | .v3 => 3 | .v4 => 4, 0, none⟩, false, false, none, 0, t⟩

theorem noExtTag_of (v : Ver) (t : LTag) : TagOf v (noExtTag v t) := ⟨rfl, fun _ => rfl, fun _ => rfl⟩

theorem titledTab_answers (v : Ver) : Answers (cfg v) (titledTab v) := Lookup.answers (tameRun_inv (titledTab_run v))

/-- **Finding** (scribbu/id3v22.cc L210, scribbu/id3v23.cc L349, scribbu/id3v24.cc L499): no tag of any version can be relied on to be copied: a copied ID3v2.2 tag does not find its title. -/
theorem C153_refuted (v : Ver) : ¬ C153_claim v := by
  intro h
  obtain ⟨⟨t', h1, -, -, -, -, -, h2, h3⟩, -⟩ := h (cfg v) rfl (noExtTag v (titledTab v)) (noExtTag v (titledTab v)) (noExtTag_of v _) (noExtTag_of v _) (titledTab_answers v) (titledTab_answers v)
  cases v with
  | v2 =>
    cases h1
    rcases h3.text (tit .v2) with ⟨x, -, -, -, e⟩ | ⟨h, -⟩
    · exact absurd (e.symm.trans (reenter_blind (cfg .v2) (titledTab .v2).frames 0 (tit .v2)).1) (by simp)
    · exact h ⟨tit .v2, .text, [65]⟩ (by rw [h2]; exact List.mem_singleton.2 rfl) rfl rfl
  | v3 => cases h1
  | v4 => cases h1

/-- **Finding** (scribbu/id3v23.cc L349, scribbu/id3v24.cc L499): copying an ID3v2.3 or ID3v2.4 tag (and so `clone`) is undefined, whatever is in it: the base class is made a copy of the
object under construction. -/
theorem C153_refuted_copy (v : Ver) (hv : v ≠ .v2) (t : CTag E) : copy v t = .ub .uninit := by
  cases v with
  | v2 => exact absurd rfl hv
  | v3 => rfl
  | v4 => rfl

/-- **Finding** (scribbu/id3v23.cc L374, scribbu/id3v24.cc L525): assigning an ID3v2.3 or ID3v2.4 tag that has no extended header is undefined. -/
theorem C153_refuted_ext (v : Ver) (hv : v ≠ .v2) (this that : CTag E) (h : that.ext = none) : assign v false this that = .ub .nullDeref := by
  unfold CopyTag.assign
  rw [h]
  cases v with
  | v2 => exact absurd rfl hv
  | v3 => rfl
  | v4 => rfl

/-- **Finding** (scribbu/id3v22.cc L217, scribbu/id3v23.cc L370, scribbu/id3v24.cc L520): after an assignment the tag has its own revision and unsynchronisation still. -/
theorem C153_refuted_head (v : Ver) (this that t' : CTag E) (h : assign v false this that = .ok t') : t'.head = this.head := by
  unfold CopyTag.assign at h
  cases e : assignExt v that.ext with
  | ok x => rw [e] at h; cases h; rfl
  | throw x => rw [e] at h; cases h
  | ub x => rw [e] at h; cases h

/-- **Finding** (scribbu/id3v22.cc L210, L231, scribbu/id3v23.cc L387, scribbu/id3v24.cc L537): tags which are copies or have been assigned know no texts, comments, play counts and popularimeters,
whatever frames they have. -/
theorem C153_refuted_blind (v : Ver) (c : Cfg) (this that t' : CTag E) (h : copy v that = .ok t' ∨ assign v false this that = .ok t') (id : Bytes) :
    t'.tab.textOf c id = .throw .unknownFrame ∧ t'.tab.comments = .ok [] ∧ t'.tab.counts = .ok [] ∧ t'.tab.populars = .ok [] := by
  rcases h with h | h
  · cases v with
    | v2 => cases h; exact reenter_blind c _ 0 id
    | v3 => cases h
    | v4 => cases h
  · unfold CopyTag.assign at h
    cases e : assignExt v that.ext with
    | ok x => rw [e] at h; cases h; exact reenter_blind c _ _ id
    | throw x => rw [e] at h; cases h
    | ub x => rw [e] at h; cases h

theorem reenter_list (fs : List Fr) : ∀ n : LTag,
    (reenter n fs).frames = n.frames ++ (fs.zipIdx n.next).map fun x => ⟨x.2, x.1.id, x.1.cls, x.1.data⟩ := by
  induction fs with
  | nil => simp [reenter]
  | cons f fs ih =>
    intro n
    unfold reenter
    simp only [LTag.alloc]
    rw [ih]
    simp [addLookups]

theorem zipIdx_no (id : Bytes) (fs : List Fr) (h : ∀ g ∈ fs, g.id ≠ id) (n : Nat) : ∀ x ∈ (fs.zipIdx n).map fun x => (x.1.id, x.2), x.1 ≠ id := by
  intro x hx
  simp only [List.mem_map] at hx
  obtain ⟨y, hy, rfl⟩ := hx
  exact h _ (List.fst_mem_of_mem_zipIdx hy)

/-- **Finding** (the same lines): asking a copy for its last frame, by an identifier that no other frame has, throws `out_of_range`; asking for any other frame, it gives the next one. -/
theorem C153_refuted_next (c : Cfg) (a b : List Fr) (f : Fr) (ha : ∀ g ∈ a, g.id ≠ f.id) (hb : ∀ g ∈ b, g.id ≠ f.id) (k : Nat) :
    (reenter { LTag.empty with next := k } (a ++ f :: b)).getFrame c f.id =
      match b with
      | [] => .throw .outOfRange
      | g :: _ => .ok ⟨k + a.length + 1, g.id, g.cls, g.data⟩ := by
  obtain ⟨-, -, -, -, -, h6⟩ := reenter_frames (a ++ f :: b) { LTag.empty with next := k }
  have hl := reenter_list (a ++ f :: b) { LTag.empty with next := k }
  have hf : mfind c (reenter { LTag.empty with next := k } (a ++ f :: b)).frameMap f.id = some (a.length + 1) := by
    rw [h6]
    simp only [LTag.empty, List.nil_append, List.length_nil, Nat.zero_add, List.zipIdx_append, List.zipIdx_cons, List.map_append, List.map_cons]
    have n1 := zipIdx_no f.id a ha 1
    have n2 := zipIdx_no f.id b hb (1 + a.length + 1)
    unfold mfind
    generalize (a.zipIdx 1).map (fun x : Fr × Nat => (x.1.id, x.2)) = l1 at n1 ⊢
    generalize (b.zipIdx (1 + a.length + 1)).map (fun x : Fr × Nat => (x.1.id, x.2)) = l2 at n2 ⊢
    have hn : ∀ l : List (Bytes × Nat), (∀ x ∈ l, x.1 ≠ f.id) → l.find? (fun e => decide (e.1 = f.id)) = none := by
      intro l h
      rw [List.find?_eq_none]
      intro x hx
      simpa using h x hx
    cases c.newest with
    | false => simp [List.find?_append, hn l1 n1, Nat.add_comm]
    | true =>
      have := hn l2.reverse (by simpa using n2)
      simp [List.find?_append, this, Nat.add_comm]
  unfold getFrame
  rw [hf, hl]
  simp only [LTag.empty, List.nil_append]
  cases b with
  | nil => simp
  | cons g b => simp [List.getElem?_append_right, List.getElem?_append, Nat.add_assoc]

/-- **C153** (what is left of it, `_partial`: for ID3v2.2 tags, and for assigning tags with an extended header to others that have the same revision and unsynchronisation; answers by class and
`get_frame` are missing): the copy has the same attributes and the same frames, in order, and tells the number of frames with an identifier. -/
theorem C153_partial (v : Ver) (this that : CTag E) (hv : TagOf v that) :
    (v = .v2 → ∃ t', copy v that = .ok t' ∧ t'.head = that.head ∧ t'.experimental = that.experimental ∧ t'.footer = that.footer ∧ t'.ext = that.ext ∧ t'.padding = that.padding ∧
      contents t'.tab = contents that.tab ∧ ∀ id, t'.tab.hasFrame id = (that.tab.frames.filter fun f => f.id = id).length) ∧
    (v = .v2 ∨ that.ext ≠ none → this.head = that.head →
      ∃ t', assign v false this that = .ok t' ∧ t'.head = that.head ∧ t'.experimental = that.experimental ∧ t'.footer = that.footer ∧ t'.ext = that.ext ∧ t'.padding = that.padding ∧
      contents t'.tab = contents that.tab ∧ ∀ id, t'.tab.hasFrame id = (that.tab.frames.filter fun f => f.id = id).length) ∧
    assign v true this this = .ok this := by
  have key : ∀ k, contents (reenter { LTag.empty with next := k } that.tab.frames) = contents that.tab ∧
      ∀ id, (reenter { LTag.empty with next := k } that.tab.frames).hasFrame id = (that.tab.frames.filter fun f => f.id = id).length := by
    intro k
    obtain ⟨h1, -, -, -, -, h6⟩ := reenter_frames that.tab.frames { LTag.empty with next := k }
    refine ⟨by rw [h1]; rfl, fun id => ?_⟩
    unfold hasFrame
    rw [h6]
    simp only [LTag.empty, List.nil_append, List.countP_map]
    rw [← List.countP_eq_length_filter]
    have : ∀ (l : List Fr) (n : Nat), List.countP ((fun e : Bytes × Nat => decide (e.1 = id)) ∘ fun x : Fr × Nat => (x.1.id, x.2)) (l.zipIdx n) = List.countP (fun f => decide (f.id = id)) l := by
      intro l
      induction l with
      | nil => intro n; rfl
      | cons f l ih => intro n; rw [List.zipIdx_cons, List.countP_cons, List.countP_cons, ih]; rfl
    exact this _ _
  refine ⟨?_, ?_, rfl⟩
  · rintro rfl
    exact ⟨_, rfl, rfl, rfl, rfl, rfl, rfl, key 0⟩
  · intro hx hh
    have he : assignExt v that.ext = .ok that.ext := by
      cases v with
      | v2 => rw [hv.2.1 rfl]; rfl
      | v3 => cases e : that.ext with
        | none => rcases hx with hx | hx
                  · cases hx
                  · exact absurd e hx
        | some x => rfl
      | v4 => cases e : that.ext with
        | none => rcases hx with hx | hx
                  · cases hx
                  · exact absurd e hx
        | some x => rfl
    refine ⟨⟨this.head, that.experimental, that.footer, that.ext, that.padding, reenter { LTag.empty with next := this.tab.next } that.tab.frames⟩,
      ?_, hh, rfl, rfl, rfl, rfl, key _⟩
    unfold CopyTag.assign
    rw [he]
    rfl

/-- An ID3v2.3 tag with an extended header, a title and a counter is assigned: both frames are there. -/
example : (assign .v3 false (noExtTag .v3 .empty) { noExtTag .v3 ((titledTab .v3).pushBack ⟨.cnt, .cnt, (cfg .v3).cntId, [7]⟩) with ext := some 5, padding := 9 }).bind
    (fun t => .ok (contents t.tab, t.padding, t.ext, t.tab.hasFrame (tit .v3))) =
    .ok ([⟨tit .v3, .text, [65]⟩, ⟨(cfg .v3).cntId, .cnt, [7]⟩], 9, some 5, 1) := by decide +kernel

end Scribbu.Props
