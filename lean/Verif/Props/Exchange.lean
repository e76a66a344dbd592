import Verif.Proofs.Exchange
import Verif.Props.Again

/-! C186: setting different texts in two runs comes to the same, whichever run is first, and to the same as setting them in one. -/

namespace Scribbu.Props
open Scribbu Commands Process Spec LTag Lookup Again Exchange

/-- C186 in full: the frames in the file are the same. -/
def C186_claim : Prop := ∀ (C : Conv) (o p : TextOpts) (t u w : Tg), ReadTag t → KnowsTexts t.cfg → (∀ x ∈ o.adds, ∀ y ∈ p.adds, x.1 ≠ y.1) →
  oneThenOther (textTag C [] o.adds) (textTag C [] p.adds) t = .ok u → oneThenOther (textTag C [] p.adds) (textTag C [] o.adds) t = .ok w → stored u = stored w

/-- **Finding**: frames that were missing are added in the order of the runs: `scribbu text --title=A` and then `scribbu text --artist=B` leaves another file than
the same the other way round. (Copies of a file to which the same was done differ byte by byte.) -/
theorem C186_refuted : ¬ C186_claim := by
  intro h
  have := h plainConv { title := some [65] } { artist := some [66] } (tagOf (cfg .v3) []) _ _ ⟨_, rfl⟩ (knows_cfg .v3) (by decide) rfl rfl
  revert this
  decide

theorem run_can {C : Conv} {a : List (TextFrame × Bytes)} {c : Cfg} {l l' : List Item} (h : NamedAs C c a l l') :
    ∀ x ∈ a, ∃ id d, frameId c.ver x.1 = .ok id ∧ C.frameData c.ver x.2 = .ok d := by
  intro x hx
  obtain ⟨id, d, h1, h2, -⟩ := h.put x hx
  exact ⟨id, d, h1, h2⟩

/-- C186, as far as it holds: if texts of different frames are set in two runs, the other order works as well, and so does setting all of them in one run; all
three leave the same frames of each name, in the same order among themselves. Missing: that frames of different names are in the same order (`C186_refuted`); texts
that are deleted. -/
theorem C186_partial {C : Conv} {o p q : TextOpts} {t u : Tg} (ht : ReadTag t) (hk : KnowsTexts t.cfg) (hd : ∀ x ∈ o.adds, ∀ y ∈ p.adds, x.1 ≠ y.1)
    (hq : ∀ x, x ∈ q.adds ↔ x ∈ o.adds ∨ x ∈ p.adds) (e : oneThenOther (textTag C [] o.adds) (textTag C [] p.adds) t = .ok u) :
    (∃ w, oneThenOther (textTag C [] p.adds) (textTag C [] o.adds) t = .ok w ∧ SameByName u w) ∧
    ∃ b w, textTag C [] q.adds t = .ok (b, w) ∧ SameByName u w := by
  obtain ⟨no, so⟩ := adds_nodup o
  obtain ⟨np, sp⟩ := adds_nodup p
  obtain ⟨nq, sq⟩ := adds_nodup q
  have hn := read_neat ht
  have h1 := two_runs hn hk so sp no np hd e
  have can := run_can h1
  refine ⟨?_, ?_⟩
  · obtain ⟨w, hw⟩ := two_can (C := C) (a := p.adds) (b := o.adds) hn hk sp so np (fun x hx => can x (by simp only [List.mem_append] at hx ⊢; exact hx.symm))
    have h2 := two_runs hn hk sp so np no (fun x hx y hy e => hd y hy x hx e.symm) hw
    refine ⟨w, hw, sameByName_of fun id => named_same (fun x => ?_) h1 h2 id⟩
    simp only [List.mem_append]
    exact Or.comm
  · obtain ⟨w, hw⟩ := setAll_can (C := C) q.adds hn hk sq (fun x hx => can x (List.mem_append.2 ((hq x).1 hx)))
    have h2 := setAll_named q.adds hn hk sq nq hw
    refine ⟨true, w, textTag_sets.2 ⟨rfl, hw⟩, sameByName_of fun id => named_same (fun x => ?_) h1 h2 id⟩
    rw [hq x, List.mem_append]

/-- Tags of one kind with the same frames of each name say the same of all texts. -/
theorem C186_texts {C : Conv} {t u : Tg} (ht : ReadTag t) (hu : ReadTag u) (hc : t.cfg = u.cfg) (h : SameByName t u) (f : TextFrame) : t.text C f = u.text C f := by
  have key : ∀ (id : Bytes) (l : List Item), (l.find? fun x => decide (x.cls = .text) && decide (x.id = id)) = (sel id l).find? fun x => decide (x.cls = .text) := by
    intro id l
    unfold sel
    rw [List.find?_filter]
    congr 1
    funext x
    simp [Bool.and_comm]
  have items : ∀ (t : Tg), ReadTag t → ∀ id, sel id (contents t.tag) = (ofName t id).map fun x => ⟨x.1, readCls t.cfg x.1, x.2⟩ := by
    intro t ht id
    rw [ofName_sel, List.map_map]
    conv => lhs; rw [← List.map_id (sel id (contents t.tag))]
    apply List.map_congr_left
    intro x hx
    have hx' : x ∈ contents t.tag := (List.mem_filter.1 hx).1
    have := neat_items (read_neat ht) x hx'
    obtain ⟨i, k, d⟩ := x
    simp only [Function.comp]
    rw [← this]
    rfl
  have hs : ∀ id, sel id (contents t.tag) = sel id (contents u.tag) := by
    intro id
    rw [items t ht, items u hu, h id, hc]
  have hp : ∀ id, pick t.cfg (contents t.tag) id = pick u.cfg (contents u.tag) id := by
    intro id
    have hr : ∀ l : List Item, sel id l.reverse = (sel id l).reverse := fun l => List.filter_reverse ..
    unfold pick
    rw [key, key, hc]
    cases u.cfg.newest with
    | true => simp only [if_true]; rw [hr, hr, hs id]
    | false => simp only [Bool.false_eq_true, if_false]; rw [hs id]
  unfold Tg.text
  rw [hc]
  congr 1
  funext id
  rw [← hc]
  rw [textOf_pick (read_neat ht), hp id, ← textOf_pick (read_neat hu), hc]

/-- Non-trivially: a title is there, an artist is not; both are set. -/
example : (∃ u, oneThenOther (textTag plainConv [] (TextOpts.adds { title := some [88] })) (textTag plainConv [] (TextOpts.adds { artist := some [89] }))
    (tagOf (cfg .v3) [([84, 69, 78, 67], [65]), (tit .v3, [66])]) = .ok u ∧ stored u = [([84, 69, 78, 67], [65]), (tit .v3, [88]), (tpe .v3, [89])]) ∧
    (∀ x ∈ TextOpts.adds { title := some [88] }, ∀ y ∈ TextOpts.adds { artist := some [89] }, x.1 ≠ y.1) ∧
    ∀ x, x ∈ TextOpts.adds { title := some [88], artist := some [89] } ↔
      x ∈ TextOpts.adds { title := some [88] } ∨ x ∈ TextOpts.adds { artist := some [89] } :=
  ⟨⟨_, rfl, rfl⟩, by decide, fun x => by simp [TextOpts.adds]⟩

end Scribbu.Props
