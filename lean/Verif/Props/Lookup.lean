import Verif.Proofs.Lookup

/-! C31: the look-up tables of a tag stay consistent with its frames. -/

namespace Scribbu.Props
open Scribbu LTag Spec Lookup

/-- C31, in full: after any history of operations on an empty tag, whichever operation comes next succeeds
(if its positions are inside the tag), does to the contents what it should, and leaves every accessor
answering from the contents. -/
def C31_claim (v : Ver) : Prop :=
  ∀ c : Cfg, c.ver = v → ∀ (os : List Op) (t : LTag) (o : Op), run c empty os = .ok t →
    OpOk c t.frames.length o →
    ∃ t', t.step c o = .ok t' ∧ Effect c o (contents t) (contents t') ∧ Answers c t' ∧ PlayAnswers c t'

/-- The identifiers with text frame parsers by default. -/
def textTable (v : Ver) : List Bytes :=
  match v with
  | .v2 => textIds22.map fun i => [i.a, i.b, i.c]
  | _ => textIds4.map fun i => [i.a, i.b, i.c, i.d]

/-- The default set-up for each version, finding the oldest element. -/
def cfg (v : Ver) : Cfg := ⟨v, false, fun id => (textTable v).contains id⟩

/-- The identifiers of a title and an artist. -/
def tit (v : Ver) : Bytes := match v with | .v2 => [84, 84, 50] | _ => [84, 73, 84, 50]
def tpe (v : Ver) : Bytes := match v with | .v2 => [84, 80, 49] | _ => [84, 80, 69, 49]

/-- Two set-ups of one text frame each, then the first frame is deleted: the tag no longer answers for
the second. -/
theorem C31_refuted (v : Ver) : ¬ C31_claim v := by
  intro h
  obtain ⟨t', e, _, a, _⟩ := h (cfg v) rfl [.setText (tit v) [65], .setText (tpe v) [66]]
    (match run (cfg v) empty [.setText (tit v) [65], .setText (tpe v) [66]] with | .ok t => t | _ => empty)
    (.deleteFrame (tit v)) (by cases v <;> rfl) trivial
  have hx : t' = match run (cfg v) empty [.setText (tit v) [65], .setText (tpe v) [66], .deleteFrame (tit v)] with
      | .ok t => t | _ => empty := by
    cases v <;> exact (Res.ok.inj e).symm
  subst hx
  obtain ⟨f, _, _, e⟩ := a.get (tpe v) (by
    cases v <;> exact ⟨_, List.mem_singleton.2 rfl, rfl⟩)
  cases v <;> cases e

/-- What goes wrong next: deleting the second frame too is undefined. -/
theorem C31_refuted_delete (v : Ver) : run (cfg v) empty
    [.setText (tit v) [65], .setText (tpe v) [66], .deleteFrame (tit v), .deleteFrame (tpe v)] = .ub .oobRead := by
  cases v <;> decide

/-- Of three comments, the first is erased and then the second of the remaining two: asking for the
comments then follows a pointer to an erased frame. -/
theorem C31_refuted_comments (v : Ver) : ∃ t, run (cfg v) empty
    [.pushBack ⟨.com, .com, (cfg v).comId, [1]⟩, .pushBack ⟨.com, .com, (cfg v).comId, [2]⟩,
     .pushBack ⟨.com, .com, (cfg v).comId, [3]⟩, .erase 0, .erase 1] = .ok t ∧ t.frames.length = 1 ∧
    t.comments = .ub .dangling := by
  cases v <;> exact ⟨_, rfl, rfl, by decide⟩

/-- Adding a comment or user-defined text by the functions for that is undefined in ID3v2.2 and ID3v2.4
tags, whatever the tag holds. -/
theorem C31_refuted_add (c : Cfg) (h : c.ver ≠ .v3) (t : LTag) (d : Bytes) :
    t.step c (.addComment d) = .ub .afterMove ∧ t.step c (.addUserText d) = .ub .afterMove := by
  cases e : c.ver <;> simp_all [step, addComment, addUserText]

/-- In an ID3v2.3 tag a comment so added is not among the comments; and erasing it is undefined. -/
theorem C31_refuted_add23 : ∃ t, run (cfg .v3) empty [.addComment [1]] = .ok t ∧
    t.comments = .ok [] ∧ t.step (cfg .v3) (.erase 0) = .ub .badIterator := ⟨_, rfl, by decide, by decide⟩

/-- User-defined text cannot be erased: ID3v2.2 tags throw, the others run into undefined behaviour. -/
theorem C31_refuted_userText (v : Ver) : run (cfg v) empty
    [.pushBack ⟨.gen, .gen, (cfg v).txxId, [1]⟩, .erase 0] =
    match v with | .v2 => .throw .logicError | _ => .ub .badIterator := by
  cases v <;> decide

/-- Asking for a frame that is not there is undefined. -/
theorem C31_refuted_absent (c : Cfg) (t : LTag) (id : Bytes) (h : t.hasFrame id = 0) :
    t.getFrame c id = .ub .badIterator := by
  have : mfind c t.frameMap id = none := by
    rw [mfind_none]
    intro e he hid
    have := List.countP_eq_zero.1 h e he
    simp [hid] at this
  simp [getFrame, this]

/-- ID3v2.4 tags never know their play count: no frame read from a file or of class play counter is
looked for under the identifier that is counted. -/
theorem C31_refuted_play24 (c : Cfg) (hv : c.ver = .v4) (t : LTag) (h : t.hasFrame [67, 78, 84, 0] = 0) :
    t.playCount c = .throw .logicError := by
  simp [playCount, Cfg.hasCntId, hv, h]

/-- Move assignment within a tag, as `std::remove_if` uses it, leaves the tables in disorder. -/
theorem C31_refuted_move (v : Ver) : ∃ t, run (cfg v) empty
    [.setText (tit v) [65], .setText (tpe v) [66], .moveAssign 0 1] = .ok t ∧
    t.getFrame (cfg v) (tpe v) = .ok ⟨0, tit v, .text, [65]⟩ ∧
    t.getFrame (cfg v) (tit v) = .ok ⟨0, tit v, .text, [65]⟩ := by
  cases v <;> exact ⟨_, rfl, by decide, by decide⟩

/-- A moved play counter at least remains one, and its text neighbour a text frame. -/
theorem C31_move_counts (v : Ver) : ∃ t, run (cfg v) empty
    [.pushBack ⟨.cnt, .cnt, (cfg v).cntId, [7]⟩, .setText (tit v) [65], .moveAssign 0 1] = .ok t ∧
    t.counts = .ok [[7]] ∧ t.textOf (cfg v) (tit v) = .ok [65] ∧ t.comments = .ok [] := by
  cases v <;> exact ⟨_, rfl, by decide, by decide, by decide⟩

/-- A copied ID3v2.2 tag knows its frames under the wrong places, and no texts. -/
theorem C31_refuted_copy : ∃ t, run (cfg .v2) empty [.setText (tit .v2) [65]] = .ok t ∧
    t.textOf (cfg .v2) (tit .v2) = .ok [65] ∧ t.copy22.textOf (cfg .v2) (tit .v2) = .throw .unknownFrame ∧
    t.copy22.getFrame (cfg .v2) (tit .v2) = .throw .outOfRange := ⟨_, rfl, by decide, by decide, by decide⟩

/-- A frame that is passed as what it is, and is of the class that its identifier stands for (or of no
particular class, with the identifier of a text frame). -/
def Typed (c : Cfg) (a : Arg) : Prop :=
  a.ov = a.cls ∧ (a.cls = stdCls c a.id ∨ (a.cls = .gen ∧ stdCls c a.id = .text))

/-- Operations that the tables follow: appending; replacing, and removing at the end, frames of the class
that their identifiers stand for; setting texts; deleting by identifier when the frame is the only one
with it and the last in the tag; and reading. -/
def Tame (c : Cfg) (t : LTag) : Op → Prop
  | .pushBack a => Typed c a
  | .insert i a => i = t.frames.length ∧ Typed c a
  | .assign i a => Typed c a ∧ ∃ f, t.frames[i]? = some f ∧ f.cls = stdCls c f.id
  | .moveAssign _ _ => False
  | .erase i => i + 1 = t.frames.length ∧ ∃ f, t.frames[i]? = some f ∧ f.cls = stdCls c f.id
  | .eraseRange i j => i ≤ j ∧ j = t.frames.length ∧ ∀ f ∈ t.frames.drop i, f.cls = stdCls c f.id
  | .deleteFrame id => (∀ f ∈ t.frames, f.id ≠ id) ∨
      ∃ a f, t.frames = a ++ [f] ∧ f.id = id ∧ f.cls = stdCls c id ∧ ∀ g ∈ a, g.id ≠ id
  | .setText id _ => stdCls c id = .text
  | .addComment _ => False
  | .addUserText _ => c.ver = .v3
  | .parseFrame id _ => readCls c id = .text → stdCls c id = .text

/-- Histories of such operations, from an empty tag. -/
inductive TameRun (c : Cfg) : List Op → LTag → Prop
  | nil : TameRun c [] empty
  | snoc {os t o t'} : TameRun c os t → Tame c t o → t.step c o = .ok t' → TameRun c (os ++ [o]) t'

theorem eraseIdx_last {α : Type} (a : List α) (f : α) : (a ++ [f]).eraseIdx a.length = a := by
  simp [List.eraseIdx_append_of_length_le]

theorem stdCls_txx {c : Cfg} : stdCls c c.txxId = .text := by
  obtain ⟨v, n, p⟩ := c
  cases v <;> simp [stdCls, Cfg.txxId, Cfg.comId, Cfg.cntId, Cfg.popId]

theorem readCls_ok {c : Cfg} {id : Bytes} (h : readCls c id = .text → stdCls c id = .text) :
    ClsOk c id (readCls c id) := by
  unfold readCls stdCls at *
  unfold ClsOk stdCls
  by_cases e1 : id = c.comId
  · left; simp [e1]
  simp only [if_neg e1] at h ⊢
  by_cases e2 : id = c.cntId
  · left; simp [e2]
  simp only [if_neg e2] at h ⊢
  by_cases e3 : id = c.popId
  · left; simp [e3]
  simp only [if_neg e3] at h ⊢
  by_cases e4 : c.textParser id
  · simp only [e4, if_true, true_implies] at h ⊢
    left; exact h.symm
  · by_cases e5 : id.head? = some 84
    · right; simp [e4, e5]
    · left; simp [e4, e5]

theorem contents_eq {t : LTag} {l : List Fr} (h : t.frames = l) :
    contents t = l.map fun f => ⟨f.id, f.cls, f.data⟩ := by rw [contents, h]

theorem contents_push (t : LTag) (a : Arg) : contents (t.pushBack a) = contents t ++ [given a] := by
  simp [contents, pushBack, alloc, given]

theorem tame_step {c : Cfg} {t : LTag} (h : Inv c t) {o : Op} (ho : Tame c t o) :
    ∃ t', t.step c o = .ok t' ∧ Effect c o (contents t) (contents t') ∧ Inv c t' := by
  cases o with
  | pushBack a =>
    exact ⟨_, rfl, contents_push t a ▸ .pushBack a _, inv_push h ho.1 ho.2⟩
  | insert i a =>
    obtain ⟨rfl, ho⟩ := ho
    have e : t.insert t.frames.length a = .ok (t.pushBack a) := by
      simp [LTag.insert, pushBack, alloc]
    refine ⟨_, e, ?_, inv_push h ho.1 ho.2⟩
    rw [contents_push]
    have := Effect.insert (c := c) t.frames.length a (contents t) (by simp [contents])
    have hl : t.frames.length = (contents t).length := by simp [contents]
    rw [hl] at this ⊢
    simpa using this
  | assign i x =>
    obtain ⟨hx, f, hf, hc⟩ := ho
    obtain ⟨a, b, e, rfl⟩ := split_at hf
    obtain ⟨t', e1, h1, e2⟩ := inv_assign h hx.1 hx.2 e hc
    refine ⟨t', e1, ?_, h1⟩
    rw [contents_eq e2, contents_eq e]
    have := Effect.assign (c := c) a.length x ((a ++ f :: b).map fun f => (⟨f.id, f.cls, f.data⟩ : Item)) (by simp)
    have hl : a.length = (a.map fun f => (⟨f.id, f.cls, f.data⟩ : Item)).length := by simp
    simpa [given] using this
  | moveAssign i j => exact ho.elim
  | erase i =>
    obtain ⟨hi, f, hf, hc⟩ := ho
    obtain ⟨a, b, e, rfl⟩ := split_at hf
    have hb : b = [] := by
      have : b.length = 0 := by rw [e] at hi; simp at hi; simp [hi]
      simpa using this
    subst hb
    obtain ⟨t1, e1, T1, f1, n1⟩ := remove_mid (c := c) (e ▸ h.tables) e hc
    refine ⟨{ t1 with frames := a }, ?_, ?_, ?_⟩
    · simp only [step, erase, hf, e1, Res.ok_bind, f1]
      rw [e, eraseIdx_last]
    · rw [contents_eq e, contents_eq (l := a) rfl]
      have := Effect.erase (c := c) a.length ((a ++ [f]).map fun f => (⟨f.id, f.cls, f.data⟩ : Item)) (by simp)
      have hl : a.length = (a.map fun f => (⟨f.id, f.cls, f.data⟩ : Item)).length := by simp
      rw [List.map_append, hl] at this
      simp only [List.map_cons, List.map_nil, eraseIdx_last] at this
      simpa using this
    · exact inv_prefix h e ((by simpa using T1 : Tables t1 a.zipIdx).congr rfl rfl rfl rfl rfl) rfl n1
  | eraseRange i j =>
    obtain ⟨hij, rfl, hc⟩ := ho
    have e : t.frames = t.frames.take i ++ t.frames.drop i := (List.take_append_drop ..).symm
    have hl : (t.frames.take i).length = i := by simp [hij]
    have hT : Tables t ((t.frames.take i).zipIdx ++ (t.frames.drop i).zipIdx (t.frames.take i).length) := by
      have := h.tables
      rw [e, List.zipIdx_append] at this
      simpa using this
    obtain ⟨t1, e1, T1, f1, n1⟩ := removeRange_spec (c := c) _ t _ _ hT e hc (fun x hx => zipIdx_lt hx)
    refine ⟨{ t1 with frames := t1.frames.take i ++ t1.frames.drop t.frames.length }, ?_, ?_, ?_⟩
    · rw [hl, List.length_drop] at e1
      simp only [step, eraseRange, e1, Res.ok_bind]
    · have := Effect.eraseRange (c := c) i t.frames.length (contents t) hij (by simp [contents])
      rw [f1]
      have hd : (contents t).drop t.frames.length = [] := by simp [contents]
      rw [hd] at this
      simpa [contents] using this
    · refine inv_prefix h e (T1.congr rfl rfl rfl rfl rfl) ?_ n1
      simp [f1]
  | deleteFrame id =>
    rcases ho with ho | ⟨a, f, e, rfl, hc, hu⟩
    · have hm : mfind c t.frameMap id = none := by
        cases hm : mfind c t.frameMap id with
        | none => rfl
        | some i =>
          obtain ⟨f, hf, e⟩ := mfind_frame h hm
          exact absurd e (ho f (List.mem_of_getElem? hf))
      refine ⟨t, by simp [step, deleteFrame, hm], .deleteNone id _ ?_, h⟩
      intro x hx
      obtain ⟨f, hf, rfl⟩ := List.mem_map.1 hx
      exact ho f hf
    · have hm : mfind c t.frameMap f.id = some a.length := by
        cases hm : mfind c t.frameMap f.id with
        | none => exact absurd rfl (mfind_frame_none h hm f (by simp [e]))
        | some i =>
          obtain ⟨g, hg, eg⟩ := mfind_frame h hm
          rw [e] at hg
          by_cases hi : i < a.length
          · rw [List.getElem?_append_left hi] at hg
            exact absurd eg (hu g (List.mem_of_getElem? hg))
          · have := (List.getElem?_eq_some_iff.1 hg).1
            simp only [List.length_append, List.length_singleton] at this
            congr 1; omega
      obtain ⟨t1, e1, T1, f1, n1⟩ := remove_mid (c := c) (e ▸ h.tables) e hc
      refine ⟨{ t1 with frames := a }, ?_, ?_, ?_⟩
      · simp only [step, deleteFrame, hm, e1, Res.ok_bind, f1, e, eraseIdx_last]
        rw [if_pos (by simp)]
      · rw [contents_eq e, contents_eq (l := a) rfl]
        have := Effect.deleteOne (c := c) f.id (a.map fun f => (⟨f.id, f.cls, f.data⟩ : Item)) ⟨f.id, f.cls, f.data⟩ [] rfl
        simpa using this
      · exact inv_prefix h e ((by simpa using T1 : Tables t1 a.zipIdx).congr rfl rfl rfl rfl rfl) rfl n1
  | setText id d =>
    cases hm : mfind c t.textMap id with
    | none =>
      refine ⟨t.pushBack ⟨.text, .text, id, d⟩, by simp only [step, setText, hm], ?_, inv_push h rfl (.inl (show Cls.text = _ from ho.symm))⟩
      rw [contents_push]
      refine .setNew id d _ ?_
      intro x hx e
      obtain ⟨f, hf, rfl⟩ := List.mem_map.1 hx
      exact mfind_text_none h hm f hf e
    | some p =>
      obtain ⟨f, hf, e1, e2, rfl⟩ := mfind_text h hm
      have hs : ∃ a b, t.frames = a ++ f :: b := List.append_of_mem hf
      obtain ⟨a, b, e⟩ := hs
      have hn := h.nodup
      rw [e, List.map_append, List.map_cons, List.perm_middle.nodup_iff, List.nodup_cons] at hn
      have hne : ∀ g, g ∈ a ∨ g ∈ b → g.ptr ≠ f.ptr := by
        intro g hg eq
        refine hn.1 ?_
        rw [← eq, ← List.map_append]
        exact List.mem_map_of_mem (List.mem_append.2 hg)
      have ha : ∀ l : List Fr, (∀ g ∈ l, g.ptr ≠ f.ptr) →
          l.map (fun g => if g.ptr = f.ptr then { g with data := d } else g) = l := by
        intro l hl
        conv => rhs; rw [← List.map_id l]
        apply List.map_congr_left
        intro g hg
        simp [hl g hg]
      have hmap : t.frames.map (fun g => if g.ptr = f.ptr then { g with data := d } else g) =
          a ++ { f with data := d } :: b := by
        rw [e, List.map_append, List.map_cons, ha a (fun g hg => hne g (.inl hg)), ha b (fun g hg => hne g (.inr hg))]
        simp
      refine ⟨{ t with frames := a ++ { f with data := d } :: b }, ?_, ?_, ?_⟩
      · simp only [step, setText, hm, deref_spec h hf, Res.ok_bind, hmap]
      · rw [contents_eq e, contents_eq (l := a ++ { f with data := d } :: b) rfl]
        have := Effect.setOld (c := c) id d (a.map fun f => (⟨f.id, f.cls, f.data⟩ : Item))
          ⟨f.id, f.cls, f.data⟩ (b.map fun f => (⟨f.id, f.cls, f.data⟩ : Item)) e1 e2
        simpa [e1, e2] using this
      · obtain ⟨T, hcl, _, hnx⟩ := h
        refine ⟨?_, ?_, ?_, ?_⟩
        · rw [e, zipIdx_mid] at T
          obtain ⟨T1, T2, T3, T4, T5⟩ := T
          simp only [zipIdx_mid]
          refine ⟨?_, ?_, ?_, ?_, ?_⟩
          · simpa [fm] using T1
          · simpa [tm, List.filter_append, List.filter_cons, e2] using T2
          · simpa [cm, List.filter_append, List.filter_cons, e2] using T3
          · simpa [cm, List.filter_append, List.filter_cons, e2] using T4
          · simpa [cm, List.filter_append, List.filter_cons, e2] using T5
        · intro g hg
          simp only [List.mem_append, List.mem_cons] at hg
          rcases hg with hg | rfl | hg
          · exact hcl g (by simp [e, hg])
          · exact hcl f (by simp [e])
          · exact hcl g (by simp [e, hg])
        · simp only [List.map_append, List.map_cons]
          rw [List.perm_middle.nodup_iff, List.nodup_cons]
          exact hn
        · intro g hg
          simp only [List.mem_append, List.mem_cons] at hg
          rcases hg with hg | rfl | hg
          · exact hnx g (by simp [e, hg])
          · exact hnx f (by simp [e])
          · exact hnx g (by simp [e, hg])
  | addComment d => exact ho.elim
  | addUserText d =>
    have ho : c.ver = .v3 := ho
    refine ⟨t.pushBack ⟨.gen, .gen, c.txxId, d⟩, by simp [step, addUserText, ho], ?_,
      inv_push h rfl (.inr ⟨rfl, stdCls_txx⟩)⟩
    rw [contents_push]
    exact .addUserText d _
  | parseFrame id d =>
    have e : t.parseFrame c id d = t.pushBack ⟨readCls c id, readCls c id, id, d⟩ := rfl
    refine ⟨_, congrArg Res.ok e, ?_, inv_push h rfl (readCls_ok ho)⟩
    rw [contents_push]
    exact .parseFrame id d _

theorem tameRun_inv {c : Cfg} {os : List Op} {t : LTag} (h : TameRun c os t) : Inv c t := by
  induction h with
  | nil => exact inv_empty c
  | snoc _ ho e ih =>
    obtain ⟨t', e', _, h'⟩ := tame_step ih ho
    rw [e] at e'
    cases e'
    exact h'

/-- C31 for histories of operations that the tables follow. Missing: other operations (see the
refutations); that text accessors answer from the first of several frames with one identifier (which
one they answer from is up to the standard library); and play counts of ID3v2.4 tags. -/
theorem C31_partial (c : Cfg) (os : List Op) (t : LTag) (o : Op) (ht : TameRun c os t) (ho : Tame c t o) :
    ∃ t', t.step c o = .ok t' ∧ Effect c o (contents t) (contents t') ∧ Answers c t' ∧
      (c.ver ≠ .v4 → PlayAnswers c t') := by
  obtain ⟨t', e, ef, h⟩ := tame_step (tameRun_inv ht) ho
  exact ⟨t', e, ef, answers h, play h⟩

/-- With the parsers registered by default, whatever is read from a file is read by operations that the
tables follow. -/
theorem C31_defaults (v : Ver) (t : LTag) (id d : Bytes) : Tame (cfg v) t (.parseFrame id d) := by
  intro h
  have key : ∀ id ∈ textTable v, stdCls (cfg v) id = .text := by cases v <;> decide
  refine key id ?_
  unfold readCls at h
  by_cases e1 : id = (cfg v).comId
  · simp [e1] at h
  by_cases e2 : id = (cfg v).cntId
  · simp only [if_neg e1, if_pos e2] at h; cases h
  by_cases e3 : id = (cfg v).popId
  · simp only [if_neg e1, if_neg e2, if_pos e3] at h; cases h
  simp only [if_neg e1, if_neg e2, if_neg e3] at h
  by_cases e4 : id ∈ textTable v
  · exact e4
  · simp [cfg, e4] at h

/-- The identifier that the standards give to comments, play counters and popularimeters. -/
def standardId (v : Ver) (k : Cls) : Bytes :=
  (match k, v with
    | .com, .v2 => ['C', 'O', 'M'] | .com, _ => ['C', 'O', 'M', 'M']
    | .cnt, .v2 => ['C', 'N', 'T'] | .cnt, _ => ['P', 'C', 'N', 'T']
    | .pop, .v2 => ['P', 'O', 'P'] | .pop, _ => ['P', 'O', 'P', 'M']
    | _, _ => []).map fun c : Char => UInt8.ofNat c.toNat

/-- A comment, play counter or popularimeter found in a file, by the identifier that the standards give it, is from then
on among those that the tag lists, and those listed before stay listed. -/
theorem C31_read_listed (c : Cfg) (os : List Op) (t : LTag) (ht : TameRun c os t) (d : Bytes) :
    (∃ t' l, t.step c (.parseFrame (standardId c.ver .com) d) = .ok t' ∧ t'.comments = .ok l ∧
      l.Perm (dataOf .com (contents t) ++ [d])) ∧
    (∃ t' l, t.step c (.parseFrame (standardId c.ver .cnt) d) = .ok t' ∧ t'.counts = .ok l ∧
      l.Perm (dataOf .cnt (contents t) ++ [d])) ∧
    (∃ t' l, t.step c (.parseFrame (standardId c.ver .pop) d) = .ok t' ∧ t'.populars = .ok l ∧
      l.Perm (dataOf .pop (contents t) ++ [d])) := by
  have hr : ∀ k, k = .com ∨ k = .cnt ∨ k = .pop → readCls c (standardId c.ver k) = k := by
    obtain ⟨v, n, p⟩ := c
    rintro k (rfl | rfl | rfl) <;> cases v <;> rfl
  have key : ∀ k, k = .com ∨ k = .cnt ∨ k = .pop → ∃ t', t.step c (.parseFrame (standardId c.ver k) d) = .ok t' ∧
      Answers c t' ∧ dataOf k (contents t') = dataOf k (contents t) ++ [d] := by
    intro k hk
    have ho : Tame c t (.parseFrame (standardId c.ver k) d) := by
      intro h
      rw [hr k hk] at h
      rcases hk with rfl | rfl | rfl <;> cases h
    obtain ⟨t', e, ef, h⟩ := tame_step (tameRun_inv ht) ho
    refine ⟨t', e, answers h, ?_⟩
    have h1 : contents t' = contents t ++ [⟨standardId c.ver k, readCls c (standardId c.ver k), d⟩] := by
      generalize contents t' = l' at ef
      cases ef
      rfl
    rw [h1, hr k hk]
    simp [dataOf, List.filter_append]
  obtain ⟨t1, h1, a1, e1⟩ := key .com (by simp)
  obtain ⟨t2, h2, a2, e2⟩ := key .cnt (by simp)
  obtain ⟨t3, h3, a3, e3⟩ := key .pop (by simp)
  obtain ⟨l1, b1, c1⟩ := a1.comments
  obtain ⟨l2, b2, c2⟩ := a2.counts
  obtain ⟨l3, b3, c3⟩ := a3.populars
  exact ⟨⟨t1, l1, h1, b1, e1 ▸ c1⟩, ⟨t2, l2, h2, b2, e2 ▸ c2⟩, ⟨t3, l3, h3, b3, e3 ▸ c3⟩⟩

/-- An example of such a history: a tag is read with a title and a comment, then a popularimeter is
added, the title is changed, an artist is set, and the last frame is erased. -/
example (v : Ver) : ∃ t, TameRun (cfg v)
    [.parseFrame (tit v) [65], .parseFrame (cfg v).comId [66], .pushBack ⟨.pop, .pop, (cfg v).popId, [67]⟩,
     .setText (tit v) [68], .setText (tpe v) [69], .erase 3] t ∧
    contents t = [⟨tit v, .text, [68]⟩, ⟨(cfg v).comId, .com, [66]⟩, ⟨(cfg v).popId, .pop, [67]⟩] := by
  cases v <;>
  · refine ⟨_, .snoc (os := [_, _, _, _, _]) (.snoc (os := [_, _, _, _]) (.snoc (os := [_, _, _]) (.snoc (os := [_, _])
      (.snoc (os := [_]) (.snoc (os := []) .nil ?_ rfl) ?_ rfl) ?_ rfl) ?_ rfl) ?_ rfl) ?_ rfl, by decide⟩
    · exact C31_defaults _ _ _ _
    · exact C31_defaults _ _ _ _
    · exact ⟨rfl, .inl (by decide)⟩
    · show stdCls _ _ = _; decide
    · show stdCls _ _ = _; decide
    · exact ⟨by decide, _, rfl, by decide⟩

/-- What erasing does in general: whenever the tables agree with the frames and a frame other than the last
is erased, the last frame, if it is the only one with its identifier, can no longer be got at. -/
theorem C31_erase_stale (c : Cfg) (t : LTag) (os : List Op) (ht : TameRun c os t) (a b : List Fr) (f g : Fr)
    (e : t.frames = a ++ f :: (b ++ [g])) (hc : f.cls = stdCls c f.id)
    (hg : ∀ x ∈ a ++ f :: b, x.id ≠ g.id) :
    ∃ t', t.step c (.erase a.length) = .ok t' ∧ t'.frames = a ++ (b ++ [g]) ∧
      t'.getFrame c g.id = .throw .outOfRange := by
  have h := tameRun_inv ht
  obtain ⟨t1, e1, T1, f1, n1⟩ := remove_mid (c := c) (e ▸ h.tables) e hc
  refine ⟨{ t1 with frames := a ++ (b ++ [g]) }, ?_, rfl, ?_⟩
  · simp only [step, erase, e, List.getElem?_append_right (Nat.le_refl _), Nat.sub_self, List.getElem?_cons_zero]
    rw [e1]
    simp [f1, e, List.eraseIdx_append_of_length_le]
  · have hm : mfind c t1.frameMap g.id = some (a.length + 1 + b.length) := by
      have hmem : ∀ x i, (x, i) ∈ a.zipIdx ++ (b ++ [g]).zipIdx (a.length + 1) → x.id = g.id →
          i = a.length + 1 + b.length := by
        intro x i hx he
        rw [List.zipIdx_append] at hx
        simp only [List.mem_append] at hx
        rcases hx with hx | hx | hx
        · have := List.mem_of_getElem? (mem_zip.1 hx)
          exact absurd he (hg x (by simp [this]))
        · have : x ∈ b := by
            have := List.mem_map_of_mem (f := Prod.fst) hx
            rwa [fst_zipIdx] at this
          exact absurd he (hg x (by simp [this]))
        · simp at hx; omega
      cases hm : mfind c t1.frameMap g.id with
      | none =>
        refine absurd rfl (mfind_none.1 hm (g.id, a.length + 1 + b.length) (T1.frame.mem_iff.2 ?_))
        refine List.mem_map.2 ⟨(g, a.length + 1 + b.length), ?_, rfl⟩
        rw [List.zipIdx_append]
        simp
      | some i =>
        have := T1.frame.mem_iff.1 (mfind_some hm)
        obtain ⟨⟨x, j⟩, hx, e⟩ := List.mem_map.1 this
        simp only [Prod.mk.injEq] at e
        rw [← e.2, hmem x j hx e.1]
    simp only [getFrame, hm]
    rw [List.getElem?_eq_none (by simp; omega)]

example (v : Ver) : ∃ os t, TameRun (cfg v) os t ∧
    t.frames = [] ++ ⟨0, tit v, .text, [65]⟩ :: ([] ++ [⟨1, tpe v, .text, [66]⟩]) ∧
    Cls.text = stdCls (cfg v) (tit v) ∧ tit v ≠ tpe v := by
  have h : ∀ id, stdCls (cfg v) id = .text → ∀ t d, Tame (cfg v) t (.setText id d) := fun _ h _ _ => h
  refine ⟨_, _, .snoc (o := .setText (tpe v) [66]) (t' := ?_)
    (.snoc (o := .setText (tit v) [65]) (t' := ?_) .nil (h _ ?_ _ _) ?_) (h _ ?_ _ _) ?_, ?_⟩
  · exact ⟨[⟨0, tit v, .text, [65]⟩, ⟨1, tpe v, .text, [66]⟩], [(tit v, 0), (tpe v, 1)], [(tit v, 0), (tpe v, 1)],
      [], [], [], 2⟩
  · exact ⟨[⟨0, tit v, .text, [65]⟩], [(tit v, 0)], [(tit v, 0)], [], [], [], 1⟩
  all_goals cases v <;> decide

/-- What inserting does in general: the frame that was at that place, if it is the only one with its
identifier, is mistaken for the new one. -/
theorem C31_insert_stale (c : Cfg) (t : LTag) (os : List Op) (ht : TameRun c os t) (a b : List Fr) (f : Fr) (x : Arg)
    (e : t.frames = a ++ f :: b) (hx : x.id ≠ f.id) (hf : ∀ g ∈ a ++ b, g.id ≠ f.id) :
    ∃ t', t.step c (.insert a.length x) = .ok t' ∧
      t'.getFrame c f.id = .ok ⟨t.next, x.id, x.cls, x.data⟩ := by
  have h := tameRun_inv ht
  refine ⟨_, by simp only [step, LTag.insert]; rw [if_neg (by simp [e])], ?_⟩
  have hfm : ∀ (s : LTag) ov g i, (s.addLookups ov g i).frameMap = s.frameMap ++ [(g.id, i)] := by
    intro s ov g i; cases ov <;> rfl
  have hm : mfind c (t.frameMap ++ [(x.id, a.length)]) f.id = some a.length := by
    cases hm : mfind c (t.frameMap ++ [(x.id, a.length)]) f.id with
    | none =>
      refine absurd rfl (mfind_none.1 hm (f.id, a.length) (List.mem_append.2 (.inl (h.tables.frame.mem_iff.2 ?_))))
      exact List.mem_map.2 ⟨(f, a.length), mem_zip.2 (by simp [e]), rfl⟩
    | some i =>
      rcases List.mem_append.1 (mfind_some hm) with hi | hi
      · have := h.tables.frame.mem_iff.1 hi
        obtain ⟨⟨y, j⟩, hy, e'⟩ := List.mem_map.1 this
        simp only [Prod.mk.injEq] at e'
        rw [e, zipIdx_mid] at hy
        simp only [List.mem_append, List.mem_cons] at hy
        rcases hy with hy | hy | hy
        · have := List.mem_of_getElem? (mem_zip.1 hy)
          exact absurd e'.1 (hf y (by simp [this]))
        · simp only [Prod.mk.injEq] at hy; rw [← e'.2, hy.2]
        · have : y ∈ b := by
            have := List.mem_map_of_mem (f := Prod.fst) hy
            rwa [fst_zipIdx] at this
          exact absurd e'.1 (hf y (by simp [this]))
      · simp only [List.mem_singleton, Prod.mk.injEq] at hi
        exact absurd hi.1.symm hx
  simp only [getFrame, alloc, hfm, addLookups_frames, hm]
  simp [e]

end Scribbu.Props
