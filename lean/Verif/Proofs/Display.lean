import Verif.Model.Display
import Verif.Spec.Display
import Verif.Proofs.SchemeWrite

/-! # Lemmas about `make` and `display` -/

namespace Scribbu.Proofs.Display
open Scribbu Scribbu.Scheme Scribbu.Spec Scribbu.Spec.Scheme Scribbu.Proofs.Scheme

/-! ## Strings as `write` has them -/

/-- The bytes that are escaped. -/
def escaped : List Byte := (List.range 32).map UInt8.ofNat ++ [34, 92, 127]

theorem byte_kind : ∀ a : Byte, (writeByte a = [a] ∧ a ≠ 92) ∨ ((writeByte a).head? = some 92 ∧ a ∈ escaped) := by
  intro ⟨⟨a⟩⟩
  revert a
  decide +kernel

theorem escaped_free : ∀ a ∈ escaped, ∀ b ∈ escaped, ((writeByte a).isPrefixOf (writeByte b)) = true → a = b := by decide +kernel

theorem byte_free (a b : Byte) (h : ((writeByte a).isPrefixOf (writeByte b)) = true) : a = b := by
  have hp := List.isPrefixOf_iff_prefix.1 h
  obtain ⟨c, hc⟩ := hp
  rcases byte_kind a with ⟨ha, ha'⟩ | ⟨ha, ha'⟩ <;> rcases byte_kind b with ⟨hb, hb'⟩ | ⟨hb, hb'⟩
  · rw [ha, hb] at hc
    injection hc
  · rw [← hc, ha] at hb
    exact absurd (by simpa using hb) ha'
  · rw [hb] at hc
    cases e : writeByte a with
    | nil => rw [e] at ha; cases ha
    | cons d w =>
      rw [e] at ha hc
      injection hc with h1 h2
      exact absurd (by rw [← h1]; simpa using ha) hb'
  · exact escaped_free a ha' b hb' h

theorem byte_some : ∀ a : Byte, writeByte a ≠ [] ∧ (writeByte a).head? ≠ some 34 ∧ ∀ c ∈ writeByte a, 32 ≤ c ∧ c ≠ 127 := by
  intro ⟨⟨a⟩⟩
  revert a
  decide +kernel

theorem byte_step {a b : Byte} {x y : Bytes} (h : writeByte a ++ x = writeByte b ++ y) : a = b ∧ x = y := by
  have e : a = b := by
    rcases List.append_eq_append_iff.1 h with ⟨c, h1, -⟩ | ⟨c, h1, -⟩
    · exact byte_free a b (by rw [h1, List.isPrefixOf_iff_prefix]; exact ⟨c, rfl⟩)
    · exact (byte_free b a (by rw [h1, List.isPrefixOf_iff_prefix]; exact ⟨c, rfl⟩)).symm
  subst e
  exact ⟨rfl, List.append_cancel_left h⟩

theorem bytes_inj : ∀ {s t x y : Bytes}, s.flatMap writeByte ++ 34 :: x = t.flatMap writeByte ++ 34 :: y → s = t ∧ x = y
  | [], [], _, _, h => ⟨rfl, by simpa using h⟩
  | [], b :: t, x, y, h => by
    exfalso
    have hb := byte_some b
    cases e : writeByte b with
    | nil => exact hb.1 e
    | cons c w =>
      rw [e] at hb
      rw [List.flatMap_nil, List.nil_append, List.flatMap_cons, e] at h
      injection h with h1 h2
      exact hb.2.1 (by rw [← h1]; rfl)
  | a :: s, [], x, y, h => by
    exfalso
    have hb := byte_some a
    cases e : writeByte a with
    | nil => exact hb.1 e
    | cons c w =>
      rw [e] at hb
      rw [List.flatMap_nil, List.nil_append, List.flatMap_cons, e] at h
      injection h with h1 h2
      exact hb.2.1 (by rw [h1]; rfl)
  | a :: s, b :: t, x, y, h => by
    rw [List.flatMap_cons, List.flatMap_cons, List.append_assoc, List.append_assoc] at h
    obtain ⟨e1, e2⟩ := byte_step h
    obtain ⟨e3, e4⟩ := bytes_inj e2
    exact ⟨by rw [e1, e3], e4⟩

theorem writeStr_inj {s t x y : Bytes} (h : writeStr s ++ x = writeStr t ++ y) : s = t := by
  unfold writeStr at h
  simp only [List.append_assoc, List.cons_append, List.nil_append, List.cons.injEq, true_and] at h
  exact (bytes_inj h).1

theorem writeStr_visible (s : Bytes) : visible (writeStr s) := by
  intro b hb
  unfold writeStr at hb
  simp only [List.mem_append, List.mem_singleton, List.mem_flatMap] at hb
  rcases hb with (rfl | ⟨a, -, h⟩) | rfl
  · decide
  · exact (byte_some a).2.2 b h
  · decide

/-! ## Up to a mark, and from the end -/

theorem upto {c : Byte} {a b x y : Bytes} (ha : c ∉ a) (hb : c ∉ b) (h : a ++ c :: x = b ++ c :: y) : a = b ∧ x = y := by
  induction a generalizing b with
  | nil =>
    cases b with
    | nil => exact ⟨rfl, by simpa using h⟩
    | cons d b => injection h with h1 h2; exact absurd (by rw [h1]; exact List.mem_cons_self) hb
  | cons d a ih =>
    cases b with
    | nil => injection h with h1 h2; exact absurd (by rw [h1]; exact List.mem_cons_self) ha
    | cons e b =>
      injection h with h1 h2
      obtain ⟨e1, e2⟩ := ih (fun k => ha (List.mem_cons_of_mem _ k)) (fun k => hb (List.mem_cons_of_mem _ k)) h2
      exact ⟨by rw [h1, e1], e2⟩

theorem downto {c : Byte} {a b x y : Bytes} (ha : c ∉ a) (hb : c ∉ b) (h : x ++ c :: a = y ++ c :: b) : a = b ∧ x = y := by
  have := congrArg List.reverse h
  simp only [List.reverse_append, List.reverse_cons, List.append_assoc, List.singleton_append] at this
  obtain ⟨e1, e2⟩ := upto (by simpa using ha) (by simpa using hb) this
  exact ⟨List.reverse_inj.1 e1, List.reverse_inj.1 e2⟩

theorem dec_no32 (n : Nat) : (32 : Byte) ∉ Backup.dec n := by
  intro h
  have := List.all_eq_true.1 (Backup.dec_digits n).1 _ h
  revert this
  decide

theorem dec_inj {n m : Nat} (h : Backup.dec n = Backup.dec m) : n = m := by
  rw [← (Backup.dec_digits n).2.2, ← (Backup.dec_digits m).2.2, h]

theorem dec_visible (n : Nat) : visible (Backup.dec n) := by
  intro b hb
  have := List.all_eq_true.1 (Backup.dec_digits n).1 _ hb
  revert b
  have key : ∀ b : Byte, Backup.isDigit b = true → 32 ≤ b ∧ b ≠ 127 := by
    intro ⟨⟨b⟩⟩
    revert b
    decide +kernel
  intro b _ h
  exact key b h

/-! ## Symbols -/

theorem sym_no32 : ∀ r ∈ documented, (32 : Byte) ∉ r.1 := by decide +kernel

theorem sym_visible : ∀ r ∈ documented, ∀ b ∈ r.1, 32 ≤ b ∧ b ≠ 127 := by decide +kernel

theorem sym_not : ∀ r ∈ documented, r.1 ≠ /- play-count -/ [112, 108, 97, 121, 45, 99, 111, 117, 110, 116] ∧ r.1 ≠ /- popularimeter -/ [112, 111, 112, 117, 108, 97, 114, 105, 109, 101, 116, 101, 114] := by decide +kernel

theorem class_sym : ∀ r ∈ documented, (classOf r.1 = .playCount → r.1 = /- play-count-frame -/ [112, 108, 97, 121, 45, 99, 111, 117, 110, 116, 45, 102, 114, 97, 109, 101]) ∧ (classOf r.1 = .popm → r.1 = /- popm-frame -/ [112, 111, 112, 109, 45, 102, 114, 97, 109, 101]) := by
  decide +kernel

/-! ## What is read can be displayed -/

/-- An object that can be displayed, and that is of the class of text frames if it is an artist or a title. -/
def Fine (o : Obj) : Prop :=
  (∃ p, o.display = .ok p) ∧
  (o.id? = some (.sym /- artist-frame -/ [97, 114, 116, 105, 115, 116, 45, 102, 114, 97, 109, 101]) ∨ o.id? = some (.sym /- title-frame -/ [116, 105, 116, 108, 101, 45, 102, 114, 97, 109, 101]) → ∃ t, o.textSlot = .ok t)

theorem fine_known {E : Env} {v : Ver} {c : Klass} {body : Body} {l : List Val} {look : Option Bytes} {s : Bytes} (a b d u : Val)
    (h : deBody E v c body = .ok l) (hs : deSym look c = .ok s) : Fine ⟨c, .sym s :: a :: b :: d :: u :: l⟩ := by
  unfold deBody at h
  split at h
  · simp only [bind_eq_ok] at h
    obtain ⟨x, -, y, -, h⟩ := h
    cases h
    exact ⟨⟨_, rfl⟩, fun _ => ⟨_, rfl⟩⟩
  · split at h
    · cases h
    · simp only [bind_eq_ok] at h
      obtain ⟨_, -, _, -, _, -, _, -, _, -, h⟩ := h
      cases h
      exact ⟨⟨_, rfl⟩, fun _ => ⟨_, rfl⟩⟩
  · simp only [bind_eq_ok] at h
    obtain ⟨_, -, _, -, _, -, _, -, h⟩ := h
    cases h
    exact ⟨⟨_, rfl⟩, fun _ => ⟨_, rfl⟩⟩
  · simp only [bind_eq_ok] at h
    obtain ⟨_, -, h⟩ := h
    cases h
    cases hs
    exact ⟨⟨_, rfl⟩, fun k => by rcases k with k | k <;> revert k <;> simp [Obj.id?, symOf]⟩
  · simp only [bind_eq_ok] at h
    obtain ⟨_, -, _, -, _, -, h⟩ := h
    cases h
    cases hs
    exact ⟨⟨_, rfl⟩, fun k => by rcases k with k | k <;> revert k <;> simp [Obj.id?, symOf]⟩
  · simp only [bind_eq_ok] at h
    obtain ⟨_, -, _, -, h⟩ := h
    cases h
    cases hs
    exact ⟨⟨_, rfl⟩, fun k => by rcases k with k | k <;> revert k <;> simp [Obj.id?, symOf]⟩
  · cases h

theorem fine_unknown (a b c u i : Val) (d : Bytes) : Fine ⟨.unk, [.sym symUnknown, a, b, c, u, i, .bv d]⟩ :=
  ⟨⟨_, rfl⟩, fun k => by rcases k with k | k <;> revert k <;> simp [Obj.id?, symUnknown]⟩

theorem orUnknown_ok {α : Type} {r u : Ret α} {a : α} (h : orUnknown r u = .ok a) : r = .ok a ∨ u = .ok a := by
  cases r with
  | ok b => exact .inl h
  | std e => exact .inr h
  | guile => cases h
  | ub x => cases h

theorem fine22 {E : Env} {u : Bool} {f : Frame22} {o : Obj} (h : deFrame22 E u f = .ok o) : Fine o := by
  have hun : deUnknown22 E f u = .ok o → Fine o := by
    intro h
    unfold deUnknown22 at h
    simp only [bind_eq_ok] at h
    obtain ⟨i, -, r, -, h⟩ := h
    cases h
    exact fine_unknown _ _ _ _ _ _
  unfold deFrame22 at h
  split at h
  · exact hun h
  · rcases orUnknown_ok h with h | h
    · simp only [bind_eq_ok] at h
      obtain ⟨s, hs, l, hl, h⟩ := h
      cases h
      exact fine_known _ _ _ _ hl hs
    · exact hun h

theorem fine4 {E : Env} {v : Ver} {u : Bool} {f : Frame4} {o : Obj} (h : deFrame4 E v u f = .ok o) : Fine o := by
  have hun : deUnknown4 E v f u = .ok o → Fine o := by
    intro h
    unfold deUnknown4 at h
    simp only [bind_eq_ok] at h
    obtain ⟨i, -, r, -, h⟩ := h
    cases h
    exact fine_unknown _ _ _ _ _ _
  unfold deFrame4 at h
  split at h
  · exact hun h
  · rcases orUnknown_ok h with h | h
    · simp only [bind_eq_ok] at h
      obtain ⟨s, hs, l, hl, h⟩ := h
      cases h
      exact fine_known _ _ _ _ hl hs
    · exact hun h

theorem pairs_mem {α β : Type} {R : α → β → Prop} {as : List α} {bs : List β} (h : Pairs R as bs) {b : β} (hb : b ∈ bs) :
    ∃ a ∈ as, R a b := by
  induction h with
  | nil => cases hb
  | @cons a c as bs h1 _ ih =>
    rcases List.mem_cons.1 hb with rfl | hb
    · exact ⟨a, by simp, h1⟩
    · obtain ⟨a', h2, h3⟩ := ih hb
      exact ⟨a', by simp [h2], h3⟩

theorem fine_tag {E : Env} {t : AnyTag} {x : Triple} (h : fromTag E t = .ok x) : (∀ o ∈ x.1.frames, Fine o) ∧ ∃ n, x.1.padding = .num n := by
  unfold fromTag at h
  split at h <;> simp only [bind_eq_ok] at h
  · obtain ⟨p, -, fs, hf, h⟩ := h
    cases h
    exact ⟨fun o ho => by obtain ⟨a, -, ha⟩ := pairs_mem (all_ok hf) ho; exact fine22 ha, _, rfl⟩
  · obtain ⟨fs, hf, h⟩ := h
    cases h
    exact ⟨fun o ho => by obtain ⟨a, -, ha⟩ := pairs_mem (all_ok hf) ho; exact fine4 ha, _, rfl⟩
  · obtain ⟨fs, hf, h⟩ := h
    cases h
    exact ⟨fun o ho => by obtain ⟨a, -, ha⟩ := pairs_mem (all_ok hf) ho; exact fine4 ha, _, rfl⟩

theorem loop_mem {f : Bytes} {o : Obj} : ∀ {os ret : List Obj}, o ∈ getFramesLoop f ret os → o ∈ ret ∨ (o ∈ os ∧ o.id? = some (.sym f))
  | [], _, h => .inl h
  | a :: os, ret, h => by
    unfold getFramesLoop at h
    rcases loop_mem h with h | ⟨h1, h2⟩
    · split at h
      · rename_i ha
        rcases List.mem_append.1 h with h | h
        · exact .inl h
        · rw [List.mem_singleton.1 h]
          exact .inr ⟨by simp, ha⟩
      · exact .inl h
    · exact .inr ⟨by simp [h1], h2⟩

theorem first_ok {t : TagObj} (h : ∀ o ∈ t.frames, Fine o) (f : Bytes) (hf : f = /- artist-frame -/ [97, 114, 116, 105, 115, 116, 45, 102, 114, 97, 109, 101] ∨ f = /- title-frame -/ [116, 105, 116, 108, 101, 45, 102, 114, 97, 109, 101]) :
    ∃ v, firstText (getFrames t f) = .ok v := by
  cases e : getFrames t f with
  | nil => exact ⟨_, rfl⟩
  | cons o os =>
    have hm : o ∈ getFrames t f := by rw [e]; simp
    rcases loop_mem hm with h1 | ⟨h1, h2⟩
    · cases h1
    · exact (h o h1).2 (hf.imp (fun k => by rw [h2, k]) (fun k => by rw [h2, k]))

/-! ## `make` -/

theorem given_find (args : List (Bytes × Val)) (n : Bytes) : givenFor args n = (args.find? fun a => a.1 = n).map (·.2) := by
  induction args with
  | nil => rfl
  | cons a args ih =>
    obtain ⟨k, v⟩ := a
    unfold givenFor
    rw [List.find?_cons]
    by_cases h : k = n
    · simp [h]
    · simp [h, ih]

theorem value_keyed (n : Bytes) (d : Val) (args : List (Bytes × Val)) :
    (keyed n d).value args = match givenFor args n with | some v => v | none => d := by
  rw [given_find]
  unfold keyed SlotDef.value
  dsimp only
  cases args.find? fun a => decide (a.1 = n) <;> rfl

theorem initialised_keyed (doc : List (Bytes × Val)) (args : List (Bytes × Val)) :
    Initialised doc args ((doc.map fun e => keyed e.1 e.2).map (·.value args)) := by
  refine ⟨by simp, fun i n d h => ?_⟩
  have e : ((doc.map fun e => keyed e.1 e.2).map (·.value args))[i]? = some ((keyed n d).value args) := by
    rw [List.getElem?_map, List.getElem?_map, h]
    rfl
  rw [e, value_keyed]
  exact ⟨fun v hv => by rw [hv], fun hv => by rw [hv]⟩

theorem frame_doc (c : Klass) : frameSlots ++ ownSlots c = (docSlots c).map fun e => keyed e.1 e.2 := by
  cases c <;> rfl

theorem v1_doc : v1Slots = docV1.map fun e => keyed e.1 e.2 := rfl

end Scribbu.Proofs.Display
