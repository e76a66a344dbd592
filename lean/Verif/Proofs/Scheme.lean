import Verif.Spec.Scheme
import Verif.Proofs.Std
import Verif.Proofs.Bodies
import Verif.Props.Frame23
import Verif.Proofs.Tag23

/-! What the functions of the Scheme API do with frames and tags: lemmas. -/

namespace Scribbu.Proofs.Scheme
open Scribbu.Scheme Scribbu.Spec Scribbu.Spec.Scheme
open Scribbu.Spec.Dump (Utf8)
open Scribbu.Spec.Std (TextIn)

@[simp] theorem ok_bind {α β : Type} (a : α) (f : α → Ret β) : (Ret.ok a).bind f = f a := rfl
@[simp] theorem guile_bind {α β : Type} (f : α → Ret β) : (Ret.guile : Ret α).bind f = .guile := rfl
@[simp] theorem std_bind {α β : Type} (e : Exc) (f : α → Ret β) : (Ret.std e : Ret α).bind f = .std e := rfl
@[simp] theorem ub_bind {α β : Type} (u : UB) (f : α → Ret β) : (Ret.ub u : Ret α).bind f = .ub u := rfl
@[simp] theorem ofRes_ok {α : Type} (a : α) : Ret.ofRes (.ok a) = .ok a := rfl
@[simp] theorem caught_ok {α : Type} (a : α) : (Ret.ok a).caught = .ok a := rfl

theorem bind_eq_ok {α β : Type} {r : Ret α} {f : α → Ret β} {b : β} : r.bind f = .ok b ↔ ∃ a, r = .ok a ∧ f a = .ok b := by
  cases r <;> simp [Ret.bind]

theorem bind_eq_std {α β : Type} {r : Ret α} {f : α → Ret β} {e : Exc} :
    r.bind f = .std e ↔ r = .std e ∨ ∃ a, r = .ok a ∧ f a = .std e := by
  cases r <;> simp [Ret.bind]

/-- A loop over a list, element by element. -/
theorem all_pairs {α β : Type} {R : α → β → Prop} {f : α → Ret β} {as : List α} {bs : List β} (h : Pairs R as bs)
    (hf : ∀ a b, a ∈ as → R a b → f a = .ok b) : Ret.all f as = .ok bs := by
  induction h with
  | nil => rfl
  | @cons a b as bs h1 _ ih =>
    simp only [Ret.all, hf a b (by simp) h1, ih fun a b ha => hf a b (by simp [ha]), ok_bind]

theorem all_ok {α β : Type} {f : α → Ret β} {as : List α} {bs : List β} (h : Ret.all f as = .ok bs) :
    Pairs (fun a b => f a = .ok b) as bs := by
  induction as generalizing bs with
  | nil => cases h; exact .nil
  | cons a as ih =>
    simp only [Ret.all, bind_eq_ok] at h
    obtain ⟨b, h1, bs', h2, h3⟩ := h
    cases h3
    exact .cons h1 (ih h2)

theorem takeWhile_text {s : Bytes} (h : (0 : Byte) ∉ s) : s.takeWhile (· ≠ 0) = s := by
  induction s with
  | nil => rfl
  | cons c s ih =>
    simp only [List.mem_cons, not_or] at h
    have : (decide (c ≠ 0)) = true := decide_eq_true (fun e => h.1 e.symm)
    rw [List.takeWhile_cons, this, if_pos rfl, ih h.2]

theorem utf8_ok {E : Env} {s : Bytes} (h : IsText E s) : E.utf8 s = .ok (.str s) := by
  unfold Env.utf8
  rw [takeWhile_text h.2, if_pos h.1]

theorem text_ok {E : Env} {s : Bytes} (h : IsAnyText E s) : E.text s = .ok (.str s) := by
  unfold Env.text
  rw [h]

theorem list_eq (l : List Val) : list l = ofList l := by
  induction l with
  | nil => rfl
  | cons a l ih => simp [list, ofList, ih]

theorem latin_text {E : Json.Env} (hE : E.v2 = none) {e : Encoding} {b s : Bytes} (h : Utf8 E e b s) : E.latin e b = .ok s := by
  unfold Json.Env.latin
  rcases h with ⟨rfl, rfl⟩ | ⟨h1, h2⟩
  · rfl
  · rw [if_neg h1, hE]
    exact h2

theorem texts_ok {E : Env} {vs : List Bytes} (h : ∀ x ∈ vs, IsAnyText E x) : Ret.all E.text vs = .ok (vs.map .str) := by
  induction vs with
  | nil => rfl
  | cons a l ih => simp only [Ret.all, text_ok (h a (by simp)), ih fun x hx => h x (by simp [hx]), ok_bind, List.map_cons]

/-- A list put before another. -/
def before : List Val → Val → Val
  | [], acc => acc
  | v :: vs, acc => .cons v (before vs acc)

theorem before_append (a b : List Val) (acc : Val) : before (a ++ b) acc = before a (before b acc) := by
  induction a with
  | nil => rfl
  | cons x a ih => simp [before, ih]

theorem before_nil (a : List Val) : before a .nil = list a := by
  induction a with
  | nil => rfl
  | cons x a ih => simp [before, list, ih]

theorem cloud_ok {E : Env} {m : TagMap} (h : ∀ e ∈ m, IsText E e.1 ∧ ∀ x ∈ e.2, IsAnyText E x) (acc : Val) :
    cloud E m acc = .ok (before (m.reverse.map fun e => .cons (.str e.1) (list (e.2.map .str))) acc) := by
  induction m generalizing acc with
  | nil => rfl
  | cons e m ih =>
    obtain ⟨k, vs⟩ := e
    obtain ⟨h1, h2⟩ := h (k, vs) (by simp)
    simp only [cloud, texts_ok h2, utf8_ok h1, ok_bind, ih fun e he => h e (by simp [he])]
    rw [List.reverse_cons, List.map_append, before_append, ← list_eq]
    rfl

theorem ascii_lang {a b c : Byte} (h : a < 128 ∧ b < 128 ∧ c < 128) : langText a b c = [a, b, c] := by
  have k : ∀ x : Byte, x < 128 → x &&& 0x80 = 0 := by
    intro x hx
    have : ∀ x : Fin 256, x.val < 128 → UInt8.ofNat x.val &&& 0x80 = 0 := by decide +kernel
    have := this ⟨x.toNat, x.toNat_lt⟩ (by simpa [UInt8.lt_iff_toNat_lt] using hx)
    simpa using this
  simp [langText, k a h.1, k b h.2.1, k c h.2.2]

/-- The contents of a frame are described as they should be. -/
theorem deBody_ok {E : Env} (hE : E.v2 = none) {v : Ver} {b : Body} {c : Klass} {l : List Val} (h : Says E v b c l) :
    deBody E v c b = .ok l := by
  cases h with
  | text u b s h1 h2 =>
    have k := Std.textIn_asStr hE h1
    unfold deBody
    simp only [k, ofRes_ok, ok_bind, utf8_ok h2]
  | comment c u l d t h1 h2 h3 h4 h5 h6 h7 h8 =>
    obtain ⟨l0, l1, l2⟩ := l
    simp only at h3 h4
    have k5 := Std.textIn_asStr hE h5
    have k7 := Std.textIn_asStr hE h7
    unfold deBody
    simp only [h2]
    rw [ascii_lang h3, utf8_ok h4, h1, k5, k7]
    simp only [ofRes_ok, ok_bind, utf8_ok h6, utf8_ok h8]
  | udt x d t h1 h2 h3 h4 =>
    have k1 := Std.textIn_asStr hE h1
    have k3 := Std.textIn_asStr hE h3
    unfold deBody
    simp only [k1, k3, utf8_ok h2, utf8_ok h4, ofRes_ok, ok_bind]
  | playCount c h1 h2 =>
    have k := counterCount_ok h1 h2
    unfold deBody
    simp only [k, ofRes_ok, ok_bind]
  | popm p e h1 h2 h3 h4 =>
    have k1 := latin_text hE h1
    have k2 : p.count = .ok (beNat p.counter) := counterCount_ok h3 h4
    cases v <;> unfold deBody <;> simp only at k1 ⊢ <;> rw [k1, k2] <;> simp only [ofRes_ok, ok_bind, utf8_ok h2]
  | tagCloud t h1 h2 =>
    unfold deBody
    simp only [utf8_ok h1, cloud_ok h2, ok_bind]
    rw [before_nil]
    rfl

theorem symText_eq {s y : Bytes} (h : symText (.sym s) = .ok y) : y = s := by
  unfold symText at h
  simp only at h
  split at h
  · cases h
  · injection h with h
    exact h.symm

/-! ## Tables -/

theorem doc4 : ∀ r ∈ documented, r.1 ≠ /- priv-frame -/ [112, 114, 105, 118, 45, 102, 114, 97, 109, 101] →
    lookup de23 r.2.2 = some (classOf r.1) ∧ lookup de24 r.2.2 = some (classOf r.1) ∧ deSym (sym4 r.2.2) (classOf r.1) = .ok r.1 ∧
    lookup ser23 r.1 = some (classOf r.1) ∧ lookup ser24 r.1 = some (classOf r.1) ∧
    idFor fixed4 (id4Of r.1) (classOf r.1) = .ok r.2.2 := by decide +kernel

theorem doc3 : ∀ r ∈ documented, ∀ i, r.2.1 = some i →
    lookup de22 i = some (classOf r.1) ∧ deSym (sym3 i) (classOf r.1) = .ok r.1 ∧
    lookup ser22 r.1 = some (classOf r.1) ∧ idFor fixed3 (id3Of r.1) (classOf r.1) = .ok i := by decide +kernel

theorem priv4 : lookup de23 (mkId4 'P' 'R' 'I' 'V') = none ∧ lookup de24 (mkId4 'P' 'R' 'I' 'V') = none ∧
    lookup ser23 /- priv-frame -/ [112, 114, 105, 118, 45, 102, 114, 97, 109, 101] = none ∧ lookup ser24 /- priv-frame -/ [112, 114, 105, 118, 45, 102, 114, 97, 109, 101] = none := by decide +kernel

theorem priv_doc : ∀ r ∈ documented, r.1 = /- priv-frame -/ [112, 114, 105, 118, 45, 102, 114, 97, 109, 101] → r.2.2 = mkId4 'P' 'R' 'I' 'V' := by decide +kernel

theorem known4 : (∀ e ∈ de23, ∃ r ∈ documented, r.2.2 = e.1 ∧ r.1 ≠ /- priv-frame -/ [112, 114, 105, 118, 45, 102, 114, 97, 109, 101]) ∧
    ∀ e ∈ de24, ∃ r ∈ documented, r.2.2 = e.1 ∧ r.1 ≠ /- priv-frame -/ [112, 114, 105, 118, 45, 102, 114, 97, 109, 101] := by decide +kernel

theorem lookup_mem {α : Type} [DecidableEq α] {t : List (α × Klass)} {k : α} {c : Klass} (h : lookup t k = some c) : (k, c) ∈ t := by
  unfold lookup at h
  rw [Option.map_eq_some_iff] at h
  obtain ⟨e, h1, h2⟩ := h
  have h3 := List.mem_of_find?_eq_some h1
  have h4 := List.find?_some h1
  simp only [decide_eq_true_eq] at h4
  obtain ⟨a, b⟩ := e
  simp only at h2 h4
  subst h2 h4
  exact h3

/-- A frame of an undocumented kind has no function of its own. -/
theorem undocumented4 {v : Ver} {id : Id4} (h : ∀ s i, (s, i, id) ∈ documented → s = /- priv-frame -/ [112, 114, 105, 118, 45, 102, 114, 97, 109, 101]) :
    lookup (if v = .v4 then de24 else de23) id = none := by
  cases hl : lookup (if v = .v4 then de24 else de23) id with
  | none => rfl
  | some c =>
    exfalso
    have hm := lookup_mem hl
    have : ∃ r ∈ documented, r.2.2 = id ∧ r.1 ≠ /- priv-frame -/ [112, 114, 105, 118, 45, 102, 114, 97, 109, 101] := by
      split at hm
      · exact known4.2 _ hm
      · exact known4.1 _ hm
    obtain ⟨⟨s, i, id'⟩, h1, h2, h3⟩ := this
    simp only at h2 h3
    subst h2
    exact h3 (h s i h1)

theorem doc_de {v : Ver} {s : Bytes} {i : Option Id3} {id : Id4} (h : (s, i, id) ∈ documented) (hs : s ≠ /- priv-frame -/ [112, 114, 105, 118, 45, 102, 114, 97, 109, 101]) :
    lookup (if v = .v4 then de24 else de23) id = some (classOf s) ∧ deSym (sym4 id) (classOf s) = .ok s := by
  obtain ⟨h1, h2, h3, -⟩ := doc4 _ h hs
  refine ⟨?_, h3⟩
  split
  · exact h2
  · exact h1

theorem doc_ser {v : Ver} {s : Bytes} {i : Option Id3} {id : Id4} (h : (s, i, id) ∈ documented) (hs : s ≠ /- priv-frame -/ [112, 114, 105, 118, 45, 102, 114, 97, 109, 101]) :
    lookup (if v = .v4 then ser24 else ser23) s = some (classOf s) ∧ idFor fixed4 (id4Of s) (classOf s) = .ok id := by
  obtain ⟨-, -, -, h4, h5, h6⟩ := doc4 _ h hs
  refine ⟨?_, h6⟩
  split
  · exact h5
  · exact h4

theorem attrs_eq (v : Ver) (f : Frame4) : attributes v f = attrSlots v f := by
  cases v <;> rfl

theorem says_class {E : Env} {v : Ver} {b : Body} {c : Klass} {l : List Val} (h : Says E v b c l) : c ≠ .priv ∧ c ≠ .unk := by
  cases h <;> exact ⟨by decide, by decide⟩

theorem classOf_priv : classOf /- priv-frame -/ [112, 114, 105, 118, 45, 102, 114, 97, 109, 101] = .priv := by decide

theorem write_id {v : Ver} {f : Frame4} {w : Bytes} : (rawOf v f w).bytes v = frameOf v f w :=
  (frameOf_eq v f w).symm

theorem deFrame_ok {E : Env} (hE : E.v2 = none) {v : Ver} {u : Bool} {f : Frame4} {o : Obj} (h : FrameSays E v u f o) :
    deFrame4 E v u f = .ok o := by
  cases h with
  | known s i l h1 h2 =>
    have hs : s ≠ /- priv-frame -/ [112, 114, 105, 118, 45, 102, 114, 97, 109, 101] := by
      rintro rfl
      rw [classOf_priv] at h2
      exact (says_class h2).1 rfl
    obtain ⟨h3, h4⟩ := doc_de (v := v) h1 hs
    unfold deFrame4
    simp only [h3, h4, ok_bind, deBody_ok hE h2, orUnknown, attrs_eq]
    rfl
  | unknown w hu h1 h2 h3 h4 h5 h6 h7 h8 =>
    unfold deFrame4
    rw [undocumented4 h1]
    obtain ⟨f', h9⟩ := Props.write_plain E.z v f w false h3 h2 h4 h5 h6
    simp only [deUnknown4, Env.locale, takeWhile_text h8, text_ok h7, ok_bind, hu, h9, ofRes_ok, attrs_eq, write_id]
    rfl

theorem deFrame22_ok {E : Env} (hE : E.v2 = none) {u : Bool} {f : Frame22} {o : Obj} (h : Frame22Says E f o) : deFrame22 E u f = .ok o := by
  cases h with
  | known s i l h1 h2 =>
    obtain ⟨h3, h4, -⟩ := doc3 _ h1 _ rfl
    unfold deFrame22
    simp only [h3, h4, ok_bind, deBody_ok hE h2, orUnknown]

theorem fromTag_ok {E : Env} (hE : E.v2 = none) {t : AnyTag} {x : Triple} (h : TagSays E t x) : fromTag E t = .ok x := by
  cases h with
  | v2 t os p h1 h2 h3 =>
    simp only [fromTag, Tag22.use, h2, ofRes_ok, ok_bind, all_pairs h1 fun a b _ => deFrame22_ok hE, Nat.mod_eq_of_lt h3]
  | v3 t os h1 h2 => simp only [fromTag, all_pairs h1 fun a b _ => deFrame_ok hE, ok_bind, Nat.mod_eq_of_lt h2]
  | v4 t os h1 h2 => simp only [fromTag, all_pairs h1 fun a b _ => deFrame_ok hE, ok_bind, Nat.mod_eq_of_lt h2]

end Scribbu.Proofs.Scheme
