import Verif.Spec.Again
import Verif.Proofs.TextCmd
import Verif.Props.TextCmd
import Verif.Props.XtagCmd
import Verif.Props.PopmCmd

/-! Lemmas for C185 and C186. -/

namespace Scribbu.Again
open Scribbu Commands Process Spec LTag Lookup

/-- The frames are of the classes that they would be read as, and the table of texts has them in the same order. -/
structure Neat (c : Cfg) (t : LTag) : Prop where
  texts : t.textMap = (t.frames.filter fun f => decide (f.cls = .text)).map fun f => (f.id, f.ptr)
  nodup : (t.frames.map Fr.ptr).Nodup
  below : ∀ f ∈ t.frames, f.ptr < t.next
  cls : ∀ f ∈ t.frames, f.cls = readCls c f.id

theorem neat_empty (c : Cfg) : Neat c LTag.empty := ⟨rfl, by simp [LTag.empty], by simp [LTag.empty], by simp [LTag.empty]⟩

theorem neat_push {c : Cfg} {t : LTag} (h : Neat c t) {a : Arg} (ho : a.ov = .text ↔ a.cls = .text) (hc : a.cls = readCls c a.id) :
    Neat c (t.pushBack a) := by
  have hf : (t.pushBack a).frames = t.frames ++ [⟨t.next, a.id, a.cls, a.data⟩] := by
    unfold pushBack alloc addLookups; cases a.ov <;> rfl
  have hn : (t.pushBack a).next = t.next + 1 := by unfold pushBack alloc addLookups; cases a.ov <;> rfl
  have ht : (t.pushBack a).textMap = t.textMap ++ if a.ov = .text then [(a.id, t.next)] else [] := by
    unfold pushBack alloc addLookups; cases a.ov <;> simp
  refine ⟨?_, ?_, ?_, ?_⟩
  · rw [ht, hf, List.filter_append, List.map_append, h.texts]
    congr 1
    by_cases e : a.cls = .text
    · rw [if_pos (ho.2 e), List.filter_cons_of_pos (by simpa using e)]; rfl
    · rw [if_neg (fun x => e (ho.1 x)), List.filter_cons_of_neg (by simpa using e)]; rfl
  · rw [hf, List.map_append, List.nodup_append]
    refine ⟨h.nodup, by simp, ?_⟩
    intro p hp q hq
    obtain ⟨f, hf, rfl⟩ := List.mem_map.1 hp
    simp only [List.map_cons, List.map_nil, List.mem_singleton] at hq
    have := h.below f hf
    omega
  · rw [hf, hn]
    intro f hm
    rcases List.mem_append.1 hm with hm | hm
    · have := h.below f hm; omega
    · rw [List.mem_singleton] at hm; subst hm; exact Nat.lt_succ_self _
  · rw [hf]
    intro f hm
    rcases List.mem_append.1 hm with hm | hm
    · exact h.cls f hm
    · rw [List.mem_singleton] at hm; subst hm; exact hc

theorem neat_parse {c : Cfg} {t : LTag} (h : Neat c t) (id d : Bytes) : Neat c (t.parseFrame c id d) :=
  neat_push (a := ⟨readCls c id, readCls c id, id, d⟩) h Iff.rfl rfl

theorem neat_fold {c : Cfg} : ∀ (l : List (Bytes × Bytes)) {t : LTag}, Neat c t → Neat c (l.foldl (fun t x => t.parseFrame c x.1 x.2) t)
  | [], _, h => h
  | x :: l, _, h => neat_fold l (neat_parse h x.1 x.2)

theorem contents_fold {c : Cfg} : ∀ (l : List (Bytes × Bytes)) (t : LTag), contents (l.foldl (fun t x => t.parseFrame c x.1 x.2) t) =
    contents t ++ l.map fun x => ⟨x.1, readCls c x.1, x.2⟩
  | [], t => by simp
  | x :: l, t => by
    have hf : contents (t.parseFrame c x.1 x.2) = contents t ++ [⟨x.1, readCls c x.1, x.2⟩] := by
      show contents (t.pushBack ⟨readCls c x.1, readCls c x.1, x.1, x.2⟩) = _
      unfold contents pushBack alloc addLookups
      cases readCls c x.1 <;> simp
    rw [List.foldl_cons, contents_fold l, hf]
    simp

theorem neat_reread (t : Tg) : Neat (reread t).cfg (reread t).tag := neat_fold _ (neat_empty _)

theorem read_neat {t : Tg} (h : ReadTag t) : Neat t.cfg t.tag := by
  obtain ⟨l, e⟩ := h
  rw [e]
  exact neat_fold _ (neat_empty _)

theorem reread_contents {t : Tg} (h : ∀ x ∈ contents t.tag, x.cls = readCls t.cfg x.id) : contents (reread t).tag = contents t.tag := by
  show contents (List.foldl _ _ _) = _
  rw [contents_fold]
  show [] ++ _ = _
  rw [List.nil_append, stored, List.map_map]
  conv => rhs; rw [← List.map_id (contents t.tag)]
  apply List.map_congr_left
  intro x hx
  have := h x hx
  obtain ⟨i, k, d⟩ := x
  simp only at this
  simp only [Function.comp, id, this]

theorem neat_items {t : Tg} (h : Neat t.cfg t.tag) : ∀ x ∈ contents t.tag, x.cls = readCls t.cfg x.id := by
  intro x hx
  obtain ⟨f, hf, rfl⟩ := List.mem_map.1 hx
  exact h.cls f hf

/-- What is stored, stays when read. -/
theorem stored_reread (t : Tg) : stored (reread t) = stored t := by
  show List.map _ (contents (List.foldl _ _ _)) = _
  rw [contents_fold]
  show List.map _ ([] ++ _) = _
  rw [List.nil_append, List.map_map]
  conv => rhs; rw [← List.map_id (stored t)]
  apply List.map_congr_left
  intro x _
  rfl

theorem tinv_of_neat {c : Cfg} {t : LTag} (h : Neat c t) : TInv t := by
  refine ⟨h.nodup, h.below, ?_, ?_⟩
  · intro e he
    rw [h.texts] at he
    obtain ⟨f, hf, rfl⟩ := List.mem_map.1 he
    obtain ⟨hf, hc⟩ := List.mem_filter.1 hf
    exact ⟨f, hf, rfl, rfl, by simpa using hc⟩
  · intro f hf hc
    rw [h.texts]
    exact List.mem_map.2 ⟨f, List.mem_filter.2 ⟨hf, by simpa using hc⟩, rfl⟩

/-- The text of a name, by the contents. -/
def pick (c : Cfg) (l : List Item) (id : Bytes) : Res Bytes :=
  match (if c.newest then l.reverse else l).find? fun x => decide (x.cls = .text) && decide (x.id = id) with
  | some x => .ok x.data
  | none => .throw .unknownFrame

theorem textOf_pick {c : Cfg} {t : LTag} (h : Neat c t) (id : Bytes) : t.textOf c id = pick c (contents t) id := by
  have key : ∀ l : List Fr, ((l.filter fun f => decide (f.cls = .text)).map fun f => (f.id, f.ptr)).find? (fun e => decide (e.1 = id)) =
      (l.find? fun f => decide (f.cls = .text) && decide (f.id = id)).map fun f => (f.id, f.ptr) := by
    intro l
    rw [List.find?_map, List.find?_filter]
    congr 2
    funext a
    simp
  have key2 : ∀ l : List Fr, (l.map itemOf).find? (fun x => decide (x.cls = .text) && decide (x.id = id)) =
      (l.find? fun f => decide (f.cls = .text) && decide (f.id = id)).map itemOf := by
    intro l
    rw [List.find?_map]
    rfl
  have hm : mfind c t.textMap id = ((if c.newest then t.frames.reverse else t.frames).find?
      fun f => decide (f.cls = .text) && decide (f.id = id)).map Fr.ptr := by
    unfold mfind
    rw [h.texts]
    cases c.newest with
    | true =>
      simp only [if_true]
      rw [← List.map_reverse, ← List.filter_reverse, key, Option.map_map]
      rfl
    | false =>
      simp only [Bool.false_eq_true, if_false]
      rw [key, Option.map_map]
      rfl
  have hp : pick c (contents t) id = match (if c.newest then t.frames.reverse else t.frames).find?
      fun f => decide (f.cls = .text) && decide (f.id = id) with
      | some f => .ok f.data
      | none => .throw .unknownFrame := by
    have e : (if c.newest then (contents t).reverse else contents t) = (if c.newest then t.frames.reverse else t.frames).map itemOf := by
      cases c.newest with
      | true => simp only [if_true]; rw [List.map_reverse]; rfl
      | false => rfl
    unfold pick
    rw [e, key2]
    cases (if c.newest then t.frames.reverse else t.frames).find? fun f => decide (f.cls = .text) && decide (f.id = id) <;> rfl
  rw [hp]
  unfold textOf
  rw [hm]
  cases hfi : (if c.newest then t.frames.reverse else t.frames).find? fun f => decide (f.cls = .text) && decide (f.id = id) with
  | none => rfl
  | some f =>
    have hmem : f ∈ t.frames := by
      have := List.mem_of_find?_eq_some hfi
      cases hn : c.newest with
      | true => rw [hn] at this; simpa using this
      | false => rw [hn] at this; simpa using this
    simp only [Option.map_some, deref, find_ptr h.nodup hmem, Res.ok_bind]

/-- Setting a text to what it is. -/
theorem setText_same {c : Cfg} {t : LTag} (h : TInv t) {id d : Bytes} (hd : t.textOf c id = .ok d) : t.setText c id d = .ok t := by
  rcases text_answers (c := c) h id with ⟨f, hf, e1, e2, hm, hto⟩ | ⟨-, -, hto⟩
  · rw [hto] at hd
    injection hd with hd
    unfold LTag.setText
    rw [hm]
    simp only [deref, find_ptr h.nodup hf, Res.ok_bind]
    congr 1
    have : (t.frames.map fun g => if g.ptr = f.ptr then { g with data := d } else g) = t.frames := by
      conv => rhs; rw [← List.map_id t.frames]
      apply List.map_congr_left
      intro g hg
      split
      · rename_i e
        have := Props.same_ptr h.nodup hg hf e
        subst this
        rw [← hd]; rfl
      · rfl
    rw [this]
  · rw [hto] at hd; cases hd

theorem neat_setText {c : Cfg} {t t' : LTag} (h : Neat c t) {id d : Bytes} (hc : readCls c id = .text) (hs : t.setText c id d = .ok t') : Neat c t' := by
  unfold LTag.setText at hs
  split at hs
  · rename_i p hm
    obtain ⟨f, -, hs⟩ := Props.res_bind_ok hs
    cases hs
    have hp : (t.frames.map fun f => if f.ptr = p then { f with data := d } else f).map Fr.ptr = t.frames.map Fr.ptr := by
      rw [List.map_map]
      apply List.map_congr_left
      intro g _
      simp only [Function.comp]
      split <;> rfl
    refine ⟨?_, by simpa only [hp] using h.nodup, ?_, ?_⟩
    · show t.textMap = _
      rw [h.texts, List.filter_map, List.map_map]
      have e : ((fun f : Fr => decide (f.cls = .text)) ∘ fun f => if f.ptr = p then { f with data := d } else f) = fun f => decide (f.cls = .text) := by
        funext g
        simp only [Function.comp]
        split <;> rfl
      rw [e]
      apply List.map_congr_left
      intro g _
      simp only [Function.comp]
      split <;> rfl
    · intro g hg
      obtain ⟨g, hm, rfl⟩ := List.mem_map.1 hg
      have := h.below g hm
      split <;> exact this
    · intro g hg
      obtain ⟨g, hm, rfl⟩ := List.mem_map.1 hg
      have := h.cls g hm
      split <;> exact this
  · cases hs
    exact neat_push (a := ⟨.text, .text, id, d⟩) h Iff.rfl hc.symm

theorem neat_delete {c : Cfg} {t t' : LTag} (h : Neat c t) {id : Bytes} (hc : stdCls c id = .text) (hd : t.deleteFrame c id = .ok t') : Neat c t' := by
  unfold LTag.deleteFrame at hd
  split at hd
  · cases hd; exact h
  · rename_i idx hm
    obtain ⟨t1, h1, h2⟩ := Props.res_bind_ok hd
    unfold removeLookups at h1
    obtain ⟨t0, h0, h1⟩ := Props.res_bind_ok h1
    unfold removeTyped at h0
    unfold stdCls at hc
    split at hc
    · cases hc
    split at hc
    · cases hc
    split at hc
    · cases hc
    split at hc
    · rename_i n1 n2 n3 n4
      rw [if_neg n1, if_neg n2, if_neg n3, if_pos (by simpa [isTextId] using n4)] at h0
      split at h0
      · cases h0
      · rename_i f hf
        split at h0
        · rename_i hmem
          cases h0
          split at h1
          · cases h1
            split at h2
            · cases h2
              obtain ⟨a, b, e, hl⟩ := split_at hf
              have hid : f.id = id ∧ f.cls = .text := by
                rw [h.texts] at hmem
                obtain ⟨g, hg, e2⟩ := List.mem_map.1 hmem
                obtain ⟨hg, hgc⟩ := List.mem_filter.1 hg
                injection e2 with e2 e3
                have := Props.same_ptr h.nodup hg (List.mem_of_getElem? hf) e3
                subst this
                exact ⟨e2, by simpa using hgc⟩
              have he : t.frames.eraseIdx idx = a ++ b := by
                rw [e, ← hl, List.eraseIdx_append_of_length_le (Nat.le_refl _)]
                simp
              have hnd := h.nodup
              rw [e, List.map_append, List.map_cons, List.perm_middle.nodup_iff, List.nodup_cons, ← List.map_append] at hnd
              refine ⟨?_, ?_, ?_, ?_⟩
              · show t.textMap.erase (id, f.ptr) = ((t.frames.eraseIdx idx).filter _).map _
                rw [he, h.texts, e, List.filter_append, List.filter_cons_of_pos (by simpa using hid.2), List.map_append, List.map_cons, hid.1,
                  List.erase_append_right, List.erase_cons_head, List.filter_append, List.map_append]
                intro hx
                obtain ⟨g, hg, e2⟩ := List.mem_map.1 hx
                injection e2 with _ e3
                exact hnd.1 (e3 ▸ List.mem_map_of_mem (List.mem_append_left _ (List.mem_filter.1 hg).1))
              · show ((t.frames.eraseIdx idx).map _).Nodup
                rw [he]; exact hnd.2
              · intro g hg
                exact h.below g (List.mem_of_mem_eraseIdx hg)
              · intro g hg
                exact h.cls g (List.mem_of_mem_eraseIdx hg)
            · cases h2
          · cases h1
        · cases hv : c.ver <;> rw [hv] at h0 <;> cases h0
    · cases hc

/-! ## Runs over the tags of a file -/

/-- A tag that stays as it is if it is processed (again). -/
def Stays (F : Tg → Res (Bool × Tg)) (t : Tg) : Prop := ∃ b t', F (reread t) = .ok (b, t') ∧ stored t' = stored t

theorem loop_again {F : Tg → Res (Bool × Tg)} : ∀ {ts : List Tg} {i : Nat} {ks : List Nat} {u : Bool} {ts' : List Tg},
    scopeLoop F i ks ts = .ok (u, ts') → (∀ t' ∈ ts', (∃ t ∈ ts, ∃ b, F t = .ok (b, t')) → Stays F t') →
    ts'.length = ts.length ∧ ∃ u' ts'', scopeLoop F i ks (ts'.map reread) = .ok (u', ts'') ∧ ts''.map stored = ts'.map stored := by
  intro ts
  induction ts with
  | nil =>
    intro i ks u ts' h _
    unfold scopeLoop at h
    cases h
    exact ⟨rfl, false, [], by simp [scopeLoop], rfl⟩
  | cons t ts ih =>
    intro i ks u ts' h hs
    cases ks with
    | nil => unfold scopeLoop at h; cases h
    | cons k ks =>
      unfold scopeLoop at h
      by_cases hk : k = i
      · rw [if_pos hk] at h
        obtain ⟨⟨b, t'⟩, h1, h⟩ := Props.res_bind_ok h
        obtain ⟨⟨r, ts1⟩, h2, h⟩ := Props.res_bind_ok h
        cases h
        obtain ⟨b', t'', h3, h4⟩ := hs t' (by simp) ⟨t, by simp, b, h1⟩
        obtain ⟨hl, u', ts'', h5, h6⟩ := ih h2 (fun t' ht ⟨t, hm, b, e⟩ => hs t' (List.mem_cons_of_mem _ ht) ⟨t, List.mem_cons_of_mem _ hm, b, e⟩)
        refine ⟨by simp [hl], b' || u', t'' :: ts'', ?_, by simp [h4, h6]⟩
        rw [List.map_cons]
        unfold scopeLoop
        rw [if_pos hk, h3, Res.ok_bind]
        dsimp only
        rw [h5]
        rfl
      · rw [if_neg hk] at h
        obtain ⟨⟨r, ts1⟩, h2, h⟩ := Props.res_bind_ok h
        cases h
        obtain ⟨hl, u', ts'', h5, h6⟩ := ih h2 (fun t' ht ⟨t, hm, b, e⟩ => hs t' (List.mem_cons_of_mem _ ht) ⟨t, List.mem_cons_of_mem _ hm, b, e⟩)
        refine ⟨by simp [hl], u', reread t :: ts'', ?_, by simp [h6, stored_reread]⟩
        rw [List.map_cons]
        unfold scopeLoop
        rw [if_neg hk, h5]
        rfl

/-- Tags are made one from the other: of neither kind there is one, and one is to be made, from which then the other is. -/
def Chain (P : Processor Tg) : Prop := (P.v2Create = .always ∧ P.v1Create = .whenOther) ∨ (P.v2Create = .whenOther ∧ P.v1Create = .always)

/-- What makes a second run change nothing. -/
structure Calm (P : Processor Tg) (v2 : List Tg) (v1 : Option V1Tag) (v2' : List Tg) : Prop where
  scope : P.v2Scope ≠ .some []
  seen : ∀ t' ∈ v2', (∃ t ∈ v2, ∃ b, P.processV2 t = .ok (b, t')) → Stays P.processV2 t'
  made : ∀ t' ∈ v2', v2 = [] → P.v2Scope ≠ .none → (P.createV2 = .ok t' ∨ ∃ t, P.createV2From t = .ok t') → Stays P.processV2 t'
  seen1 : P.v1Scope = true → ∀ t b t', P.processV1 t = .ok (b, t') → ∃ b', P.processV1 t' = .ok (b', t')
  made1 : P.v1Scope = true → ∀ t', (P.createV1 = .ok t' ∨ ∃ l, P.createV1From l = .ok t') → ∃ b', P.processV1 t' = .ok (b', t')
  chain : v2 = [] → v1 = none → ¬ Chain P

theorem reread_length (l : List Tg) : (l.map reread).isEmpty = l.isEmpty := by cases l <;> rfl

/-- The ID3v2 tags. -/
theorem v2_again {P : Processor Tg} {v2 v2a : List Tg} {new : Option Tg} {v1 v1' : Option V1Tag} {d : Bool} (h : editV2 P v2 v1 = .ok (d, v2a, new))
    (hc : Calm P v2 v1 (v2a ++ new.toList)) (hv : v1'.isSome = v1.isSome ∨ (v1 = none ∧ v1'.isSome ∧ (v2 = [] → P.v1Create = .always))) :
    ∃ d' v2'', editV2 P ((v2a ++ new.toList).map reread) v1' = .ok (d', v2'', none) ∧ v2''.map stored = (v2a ++ new.toList).map stored := by
  have one : ∀ n, v2 = [] → v2a = [] → new = some n → (P.createV2 = .ok n ∨ ∃ t, P.createV2From t = .ok n) →
      ∃ d' v2'', editV2 P ((v2a ++ new.toList).map reread) v1' = .ok (d', v2'', none) ∧ v2''.map stored = (v2a ++ new.toList).map stored := by
    intro n e1 e2 e3 hm
    subst e1 e2 e3
    show ∃ d' v2'', editV2 P [reread n] v1' = _ ∧ _ = [stored n]
    unfold editV2
    dsimp only
    by_cases hn : P.v2Scope = .none
    · rw [if_pos hn]
      exact ⟨_, _, rfl, by simp [stored_reread]⟩
    · rw [if_neg hn]
      obtain ⟨b', t'', e, e2⟩ := hc.made n (by simp) rfl hn hm
      have key : ∀ ks, ks ≠ [] → ∃ u l, scopeLoop P.processV2 0 ks [reread n] = .ok (u, l) ∧ l.map stored = [stored n] := by
        intro ks hks
        cases ks with
        | nil => exact absurd rfl hks
        | cons k ks =>
          unfold scopeLoop
          by_cases hk : k = 0
          · rw [if_pos hk, e, Res.ok_bind]
            exact ⟨_, [t''], by dsimp only; unfold scopeLoop; rfl, by simp [e2]⟩
          · rw [if_neg hk]
            exact ⟨_, [reread n], by unfold scopeLoop; rfl, by simp [stored_reread]⟩
      obtain ⟨u, l, h1, h2⟩ := key (indices [reread n].length P.v2Scope) (by
        cases hs : P.v2Scope with
        | all => simp [indices]
        | none => exact absurd hs hn
        | some tags => intro hx; simp only [indices] at hx; exact hc.scope (by rw [hs, hx]))
      rw [h1]
      exact ⟨_, _, rfl, h2⟩
  have none' : v2 = [] → v2a = [] → new = none → (∀ t, v1 = some t → P.v2Create = .never) → (v1 = none → P.v2Create ≠ .always) →
      ∃ d' v2'', editV2 P ((v2a ++ new.toList).map reread) v1' = .ok (d', v2'', none) ∧ v2''.map stored = (v2a ++ new.toList).map stored := by
    intro e1 e2 e3 h4 h5
    subst e1 e2 e3
    refine ⟨false, [], ?_, rfl⟩
    show editV2 P [] v1' = _
    unfold editV2
    dsimp only
    rcases hv with hv | ⟨rfl, hs, ha⟩
    · cases v1' with
      | none =>
        cases v1 with
        | none => dsimp only; rw [if_neg (h5 rfl)]
        | some t => cases hv
      | some t =>
        cases v1 with
        | none => cases hv
        | some t => dsimp only; rw [if_neg (by rw [h4 t rfl]; simp)]
    · cases v1' with
      | none => cases hs
      | some t =>
        dsimp only
        rw [if_neg]
        intro hn
        have h6 := h5 rfl
        have h7 := ha rfl
        apply hc.chain rfl rfl
        refine .inr ⟨?_, h7⟩
        cases hx : P.v2Create with
        | never => exact absurd hx hn
        | whenOther => rfl
        | always => exact absurd hx h6
  unfold editV2 at h
  cases v2 with
  | nil =>
    dsimp only at h
    cases v1 with
    | some t =>
      dsimp only at h
      by_cases hn : P.v2Create ≠ .never
      · rw [if_pos hn] at h
        obtain ⟨n, e, h⟩ := Props.res_bind_ok h
        cases h
        exact one n rfl rfl rfl (.inr ⟨t, e⟩)
      · rw [if_neg hn] at h
        cases h
        exact none' rfl rfl rfl (fun _ _ => by simpa using hn) (by simp)
    | none =>
      dsimp only at h
      by_cases hn : P.v2Create = .always
      · rw [if_pos hn] at h
        obtain ⟨n, e, h⟩ := Props.res_bind_ok h
        cases h
        exact one n rfl rfl rfl (.inl e)
      · rw [if_neg hn] at h
        cases h
        exact none' rfl rfl rfl (by simp) (fun _ => hn)
  | cons t ts =>
    dsimp only at h
    by_cases hn : P.v2Scope = .none
    · rw [if_pos hn] at h
      cases h
      refine ⟨false, ((t :: ts) ++ (none : Option Tg).toList).map reread, ?_, ?_⟩
      · show editV2 P (reread t :: _) v1' = _
        unfold editV2
        dsimp only
        rw [if_pos hn]
        rfl
      · rw [List.map_map]
        apply List.map_congr_left
        intro x _
        exact stored_reread x
    · rw [if_neg hn] at h
      obtain ⟨⟨u, l⟩, e, h⟩ := Props.res_bind_ok h
      cases h
      simp only [Option.toList, List.append_nil] at hc ⊢
      obtain ⟨hl, u', l', h1, h2⟩ := loop_again e hc.seen
      cases l with
      | nil => simp at hl
      | cons a l =>
        refine ⟨u', l', ?_, h2⟩
        show editV2 P (reread a :: l.map reread) v1' = _
        unfold editV2
        dsimp only
        rw [if_neg hn]
        have hx : (reread a :: l.map reread).length = (t :: ts).length := by simpa using hl
        rw [hx]
        rw [List.map_cons] at h1
        rw [h1]
        rfl

/-- The ID3v1 tag. -/
theorem v1_again {P : Processor Tg} {v2 v2a l : List Tg} {new : Option Tg} {v1 v1' : Option V1Tag} {d d2 : Bool} (h2 : editV2 P v2 v1 = .ok (d2, v2a, new))
    (h : editV1 P v2a v1 = .ok (d, v1')) (hc : Calm P v2 v1 (v2a ++ new.toList)) (hl : l.isEmpty = (v2a ++ new.toList).isEmpty) :
    ∃ d', editV1 P l v1' = .ok (d', v1') := by
  have hem : v2a.isEmpty = v2.isEmpty := by
    unfold editV2 at h2
    cases v2 with
    | nil =>
      dsimp only at h2
      cases v1 with
      | some t =>
        dsimp only at h2
        split at h2
        · obtain ⟨n, e, h⟩ := Props.res_bind_ok h2; cases h; rfl
        · cases h2; rfl
      | none =>
        dsimp only at h2
        split at h2
        · obtain ⟨n, e, h⟩ := Props.res_bind_ok h2; cases h; rfl
        · cases h2; rfl
    | cons t ts =>
      dsimp only at h2
      split at h2
      · cases h2; rfl
      · obtain ⟨⟨u, l⟩, e, h⟩ := Props.res_bind_ok h2
        cases h
        have : ∀ {ts : List Tg} {i ks u ts'}, scopeLoop P.processV2 i ks ts = .ok (u, ts') → ts'.length = ts.length := by
          intro ts
          induction ts with
          | nil => intro i ks u ts' h; unfold scopeLoop at h; cases h; rfl
          | cons t ts ih =>
            intro i ks u ts' h
            cases ks with
            | nil => unfold scopeLoop at h; cases h
            | cons k ks =>
              unfold scopeLoop at h
              split at h
              · obtain ⟨⟨b, t'⟩, h1, h⟩ := Props.res_bind_ok h
                obtain ⟨⟨r, ts1⟩, h2, h⟩ := Props.res_bind_ok h
                cases h
                simp [ih h2]
              · obtain ⟨⟨r, ts1⟩, h2, h⟩ := Props.res_bind_ok h
                cases h
                simp [ih h2]
        have := this e
        cases l with
        | nil => simp at this
        | cons _ _ => rfl
  have stay : ∀ t', v1' = some t' → (P.v1Scope = true → ∃ b', P.processV1 t' = .ok (b', t')) → ∃ d', editV1 P l v1' = .ok (d', v1') := by
    intro t' e hp
    subst e
    unfold editV1
    dsimp only
    by_cases hs : P.v1Scope = true
    · obtain ⟨b', e⟩ := hp hs
      rw [if_pos hs, e]
      exact ⟨_, rfl⟩
    · rw [if_neg hs]
      exact ⟨_, rfl⟩
  unfold editV1 at h
  cases v1 with
  | some t =>
    dsimp only at h
    by_cases hs : P.v1Scope = true
    · rw [if_pos hs] at h
      obtain ⟨⟨b, t'⟩, e, h⟩ := Props.res_bind_ok h
      cases h
      exact stay t' rfl fun hs => hc.seen1 hs _ _ _ e
    · rw [if_neg hs] at h
      cases h
      exact stay t rfl fun h => absurd h hs
  | none =>
    dsimp only at h
    by_cases h3 : (!v2a.isEmpty) = true ∧ P.v1Create ≠ .never
    · rw [if_pos h3] at h
      obtain ⟨n, e, h⟩ := Props.res_bind_ok h
      cases h
      exact stay n rfl fun hs => hc.made1 hs n (.inr ⟨_, e⟩)
    · rw [if_neg h3] at h
      by_cases h4 : v2a.isEmpty = true ∧ P.v1Create = .always
      · rw [if_pos h4] at h
        obtain ⟨n, e, h⟩ := Props.res_bind_ok h
        cases h
        exact stay n rfl fun hs => hc.made1 hs n (.inl e)
      · rw [if_neg h4] at h
        cases h
        unfold editV1
        dsimp only
        rw [hl]
        have h5 : ¬ ((!(v2a ++ new.toList).isEmpty) = true ∧ P.v1Create ≠ .never) := by
          rintro ⟨h6, h7⟩
          cases v2 with
          | cons t ts =>
            apply h3
            exact ⟨by rw [hem]; rfl, h7⟩
          | nil =>
            have he : v2a.isEmpty = true := by rw [hem]; rfl
            have h8 : P.v1Create = .whenOther := by
              cases hx : P.v1Create with
              | never => exact absurd hx h7
              | whenOther => rfl
              | always => exact absurd ⟨he, hx⟩ h4
            apply hc.chain rfl rfl
            refine .inl ⟨?_, h8⟩
            unfold editV2 at h2
            dsimp only at h2
            by_cases hn : P.v2Create = .always
            · exact hn
            · rw [if_neg hn] at h2
              cases h2
              simp at h6
        rw [if_neg h5, if_neg]
        · exact ⟨_, rfl⟩
        · rintro ⟨h6, h7⟩
          apply h4
          refine ⟨?_, h7⟩
          cases v2a with
          | nil => rfl
          | cons _ _ => simp at h6

/-- Both. -/
theorem edit_again {P : Processor Tg} {v2 v2' : List Tg} {v1 v1' : Option V1Tag} {d : Bool} (h : edit P v2 v1 = .ok (d, v2', v1'))
    (hc : Calm P v2 v1 v2') : Settled P v2' v1' := by
  unfold edit at h
  obtain ⟨⟨d2, v2a, new⟩, e2, h⟩ := Props.res_bind_ok h
  obtain ⟨⟨d1, w1⟩, e1, h⟩ := Props.res_bind_ok h
  cases h
  obtain ⟨d2', v2'', h1, h2⟩ := v2_again (v1' := v1') e2 hc (by
    unfold editV1 at e1
    cases v1 with
    | some t =>
      dsimp only at e1
      split at e1
      · obtain ⟨⟨b, t'⟩, e, h⟩ := Props.res_bind_ok e1; cases h; exact .inl rfl
      · cases e1; exact .inl rfl
    | none =>
      dsimp only at e1
      split at e1
      · rename_i h3
        obtain ⟨n, e, h⟩ := Props.res_bind_ok e1
        cases h
        refine .inr ⟨rfl, rfl, ?_⟩
        intro hx
        subst hx
        unfold editV2 at e2
        dsimp only at e2
        split at e2
        · obtain ⟨n, e, h⟩ := Props.res_bind_ok e2; cases h; simp at h3
        · cases e2; simp at h3
      · split at e1
        · rename_i h4
          obtain ⟨n, e, h⟩ := Props.res_bind_ok e1
          cases h
          exact .inr ⟨rfl, rfl, fun _ => h4.2⟩
        · cases e1; exact .inl rfl)
  obtain ⟨d1', h3⟩ := v1_again e2 e1 hc (l := v2'') (by
    have := congrArg List.length h2
    rw [List.length_map, List.length_map] at this
    generalize v2a ++ new.toList = m at this
    cases v2'' <;> cases m <;> simp_all)
  refine ⟨d2' || d1', v2'', ?_, h2⟩
  unfold edit
  rw [h1, Res.ok_bind]
  dsimp only
  rw [h3]
  simp [Res.ok_bind]

end Scribbu.Again
