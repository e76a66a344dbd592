import Verif.Spec.Std
import Verif.Proofs.Dump
import Verif.Proofs.Report
import Verif.Proofs.StdRead

/-! Lemmas about dumps in the standard format. -/

namespace Scribbu.Std
open Scribbu Spec Spec.Std Spec.Dump
open _root_.Scribbu.Report hiding escape

/-! ## Texts -/

theorem coded_source {v : Ver} {u : Byte} {b : Bytes} {e : Encoding} (h : Coded v u b e) : Json.source v u b = .ok e := by
  cases h with
  | latin => cases v <;> simp [Json.source]
  | big _ hv => cases v <;> simp [Json.source] at *
  | little _ hv => cases v <;> simp [Json.source] at *
  | bare _ _ hv h1 h2 => cases v <;> simp [Json.source] at * <;> simp [h1, h2]
  | big16 => simp [Json.source]
  | little16 => simp [Json.source]
  | utf8 => simp [Json.source]

theorem textIn_asStr {E : Json.Env} (hE : E.v2 = none) {v : Ver} {u : Byte} {b s : Bytes} (h : TextIn E v u b s) : E.asStr v (some u) b = .ok s := by
  unfold Json.Env.asStr
  rcases h with ⟨rfl, rfl⟩ | ⟨e, h, h'⟩
  · rfl
  · rcases h' with ⟨rfl, rfl⟩ | ⟨h1, h2⟩
    · rfl
    · rw [if_neg h1, hE]
      simp only [coded_source h]
      exact h2

theorem textIn_user {E : Env} (hE : E.base.v2 = none) {v : Ver} {u : Byte} {b s : Bytes} (h : TextIn E.base v u b s) : E.user v u b = .ok s := by
  unfold Env.user
  have e : { E.base with v2 := none } = E.base := by
    cases hb : E.base
    rw [hb] at hE
    simp only at hE
    rw [hE]
  rw [e]
  exact textIn_asStr hE h

theorem utf8_ascii {E : Env} {b s : Bytes} (h : Utf8 E.base .ASCII b s) : E.ascii b = .ok s := Dump.utf8_conv h

theorem utf8_field {E : Env} {b s : Bytes} (h : Utf8 E.base E.base.v1 b s) : E.base.field b = .ok s := by
  unfold Json.Env.field
  exact Dump.utf8_conv h

/-! ## Languages -/

theorem each_byte {P : Byte → Prop} (h : ∀ n, n < 256 → P (UInt8.ofNat n)) (c : Byte) : P c := by
  have := h c.toNat (UInt8.toNat_lt c)
  rwa [UInt8.ofNat_toNat] at this

theorem space_iff (c : Byte) : decide (c = 32 ∨ (9 ≤ c ∧ c ≤ 13)) = true ↔ White c := by
  revert c
  refine each_byte ?_
  unfold White
  decide +kernel

theorem takeWhile_all {α : Type} {p : α → Bool} {a b : List α} (h : ∀ x ∈ a, p x = true) (hb : ∀ x, b.head? = some x → p x = false) :
    (a ++ b).takeWhile p = a := by
  induction a with
  | nil =>
    cases b with
    | nil => rfl
    | cons x b => simp [hb x rfl]
  | cons x a ih =>
    rw [List.cons_append, List.takeWhile_cons, h x (List.mem_cons_self ..)]
    simp only [if_true]
    rw [ih fun y hy => h y (List.mem_cons_of_mem _ hy)]

theorem dropWhile_all {α : Type} {p : α → Bool} {a b : List α} (h : ∀ x ∈ a, p x = true) (hb : ∀ x, b.head? = some x → p x = false) :
    (a ++ b).dropWhile p = b := by
  induction a with
  | nil =>
    cases b with
    | nil => rfl
    | cons x b => simp [hb x rfl]
  | cons x a ih =>
    rw [List.cons_append, List.dropWhile_cons, h x (List.mem_cons_self ..)]
    simp only [if_true]
    exact ih fun y hy => h y (List.mem_cons_of_mem _ hy)

theorem firstWord_word {b w : Bytes} (h : FirstWord b w) : word (b.takeWhile (· ≠ 0)) = w := by
  obtain ⟨p, q, r, rfl, hp, hw, h0, hq, hr⟩ := h
  have e1 : (p ++ w ++ q ++ r).takeWhile (· ≠ 0) = p ++ w ++ q := by
    refine takeWhile_all ?_ ?_
    · intro x hx
      have : x ≠ 0 := by rintro rfl; exact h0 hx
      simpa using this
    · rcases hr with rfl | ⟨r', rfl⟩
      · intro x hx; cases hx
      · intro x hx; cases hx; rfl
  rw [e1]
  unfold word
  have hp' : ∀ x ∈ p, decide (x = 32 ∨ (9 ≤ x ∧ x ≤ 13)) = true := fun x hx => (space_iff x).2 (hp x hx)
  have hw' : ∀ x ∈ w, decide (x = 32 ∨ (9 ≤ x ∧ x ≤ 13)) = false := fun x hx => by
    rw [← Bool.not_eq_true]; exact fun k => hw x hx ((space_iff x).1 k)
  have e2 : (p ++ (w ++ q)).dropWhile (fun c => decide (c = 32 ∨ (9 ≤ c ∧ c ≤ 13))) = w ++ q := by
    refine dropWhile_all hp' ?_
    intro x hx
    cases w with
    | nil =>
      rcases hq with rfl | ⟨c, q', rfl, h1, h2⟩
      · cases hx
      · exact absurd rfl h2
    | cons y w => cases hx; exact hw' _ (List.mem_cons_self ..)
  simp only
  rw [List.append_assoc, e2]
  refine takeWhile_all ?_ ?_
  · intro x hx; rw [hw' x hx]; rfl
  · intro x hx
    rcases hq with rfl | ⟨c, q', rfl, h1, h2⟩
    · cases hx
    · cases hx; rw [(space_iff x).2 h1]; rfl

theorem hexPair_one (b : Byte) : HexPairs (hex2 b) [b] := by
  have := (hexPairs_spec [b]).1
  simpa using this

theorem lang_shown {l : Byte × Byte × Byte} {n : Bytes} (h : LangShown l n) (hl : l.1 < 0x80 ∧ l.2.1 < 0x80 ∧ l.2.2 < 0x80) :
    ∃ m, LangShown l m ∧ lang l = .ok m := by
  cases h with
  | known w x n h1 h2 h3 =>
    refine ⟨n, .known _ w x n h1 h2 h3, ?_⟩
    unfold lang
    rw [firstWord_word h1, h2]
    simp only [h3]
  | other w a b c h1 h2 h3 h4 h5 =>
    refine ⟨_, .other _ w _ _ _ h1 h2 (hexPair_one _) (hexPair_one _) (hexPair_one _), ?_⟩
    unfold lang
    rw [firstWord_word h1, h2]
    simp only [charHex, if_pos hl.1, if_pos hl.2.1, if_pos hl.2.2]

/-! ## Frames -/

/-- Code that puts `b`, whatever the base and whatever was there. -/
def Puts (p : Pr) (b : Bytes) : Prop := ∀ s, ∃ h, p s = (⟨s.out ++ b, h⟩, .ok ())

theorem puts_put (b : Bytes) : Puts (Pr.put b) b := fun s => ⟨s.hex, rfl⟩

theorem puts_nop : Puts Pr.nop [] := fun s => ⟨s.hex, by simp [Pr.nop]⟩

theorem Puts.cons {p : Pr} {ps : List Pr} {a b : Bytes} (h : Puts p a) (k : Puts (Pr.all ps) b) : Puts (Pr.all (p :: ps)) (a ++ b) := by
  intro s
  obtain ⟨x, hx⟩ := h s
  obtain ⟨y, hy⟩ := k ⟨s.out ++ a, x⟩
  refine ⟨y, ?_⟩
  show Pr.seq p (Pr.all ps) s = _
  unfold Pr.seq
  rw [hx]
  simp only [hy, List.append_assoc]

theorem puts_all_nil : Puts (Pr.all []) [] := puts_nop

theorem Puts.cast {p : Pr} {a b : Bytes} (h : Puts p a) (e : a = b) : Puts p b := e ▸ h

theorem values_commas (l : List Bytes) : values l = commas l := by
  induction l with
  | nil => rfl
  | cons x l ih =>
    cases l with
    | nil => simp [values, commas]
    | cons y l =>
      rw [values, ih]
      simp [commas]

theorem spaced_spec (x : Byte) (xs : Bytes) : Spaced (hex2 x ++ xs.flatMap (fun y => 32 :: hex2 y)) (x :: xs) := by
  induction xs generalizing x with
  | nil => simpa using Spaced.one _ _ (hexPair_one x)
  | cons y ys ih =>
    have := Spaced.more _ x _ _ (hexPair_one x) (ih y)
    simpa using this

theorem asciify_spec (x : Byte) : (32 ≤ x ∧ x ≤ 126 → asciify x = x) ∧ (¬ (32 ≤ x ∧ x ≤ 126) → asciify x = 46) := by
  revert x
  refine each_byte ?_
  decide +kernel

theorem visible_spec (l : Bytes) : Visible (l.map asciify) l := by
  induction l with
  | nil => exact .nil
  | cons x l ih =>
    rw [List.map_cons]
    by_cases h : 32 ≤ x ∧ x ≤ 126
    · rw [(asciify_spec x).1 h]; exact .same _ _ _ h.1 h.2 ih
    · rw [(asciify_spec x).2 h]; exact .stop _ _ _ h ih

theorem lined_append (a b : List Bytes) : lined (a ++ b) = lined a ++ lined b := by simp [lined]

theorem puts_cloud (E : Env) (l : List (Bytes × List Bytes)) :
    Puts (Pr.all (l.map fun x => Pr.all [Pr.put E.sin, Pr.put x.1, Pr.put /- :  -/ [58, 32], Pr.put (values x.2), Pr.put [10]]))
      (lined (l.map fun x => E.sin ++ x.1 ++ /- :  -/ [58, 32] ++ commas x.2)) := by
  induction l with
  | nil => exact puts_nop
  | cons x l ih =>
    have h : Puts (Pr.all [Pr.put E.sin, Pr.put x.1, Pr.put /- :  -/ [58, 32], Pr.put (values x.2), Pr.put [10]]) (E.sin ++ x.1 ++ /- :  -/ [58, 32] ++ commas x.2 ++ [10]) := by
      intro s
      exact ⟨s.hex, by simp [Pr.all, Pr.seq, Pr.put, Pr.nop, values_commas]⟩
    exact (h.cons ih).cast (by simp [lined])

macro "put_simp" : tactic => `(tactic| simp [Pr.all, Pr.seq, Pr.put, Pr.nop, Pr.base, Pr.num, Pr.value, lined, Json.putNum, Res.bind, Tag22.use, decimal])

theorem frame_puts {E : Env} (hE : E.base.v2 = none) {v : Ver} {id : Bytes} {b : Body} {l : List Bytes}
    (h : FrameShows E v E.sin id b l) (hf : Fit v b) : ∃ l, FrameShows E v E.sin id b l ∧ Puts (frame E v id b) (lined l) := by
  cases h with
  | unknown2 d hv =>
    subst hv
    exact ⟨_, .unknown2 d rfl, fun s => ⟨s.hex, by delta frame; put_simp⟩⟩
  | unknown d n hv hn =>
    refine ⟨_, .unknown d _ hv (dec_decimal _), fun s => ⟨false, ?_⟩⟩
    cases v with
    | v2 => exact absurd rfl hv
    | v3 => delta frame; put_simp
    | v4 => delta frame; put_simp
  | text u t s h =>
    refine ⟨_, .text u t s h, fun s => ⟨s.hex, ?_⟩⟩
    delta frame
    simp only [textIn_asStr hE h]
    put_simp
  | ufid x o h pad h1 h2 h3 h4 =>
    refine ⟨_, .ufid x o _ pad h1 (hexPairs_spec _).1 h3 h4, fun s => ⟨true, ?_⟩⟩
    delta frame
    simp only [utf8_ascii h1]
    cases v with
    | v2 => rw [h3 rfl]; put_simp
    | v3 => rw [h4 nofun]; put_simp
    | v4 => rw [h4 nofun]; put_simp
  | txxx x d s h1 h2 =>
    refine ⟨_, .txxx x d s h1 h2, fun s => ⟨s.hex, ?_⟩⟩
    delta frame
    simp only [textIn_user hE h1, textIn_user hE h2]
    put_simp
  | comm x u l n d s h1 h2 h3 h4 h5 =>
    obtain ⟨m, hm, e⟩ := lang_shown h3 (hf l h2)
    refine ⟨_, .comm x u l m d s h1 h2 hm h4 h5, fun s => ⟨s.hex, ?_⟩⟩
    delta frame
    simp only [h1, h2, textIn_asStr hE h4, textIn_asStr hE h5, Tag22.use, Res.bind, e, orElse]
    put_simp
  | pcnt c n h1 h2 h3 =>
    refine ⟨_, .pcnt c _ h1 h2 (dec_decimal _), fun s => ⟨false, ?_⟩⟩
    delta frame
    simp only [counterCount_ok h1 h2]
    put_simp
  | popm p e r h h1 h2 h3 =>
    refine ⟨_, .popm p e _ _ h1 (dec_decimal _) (hexPairs_spec _).1, fun s => ⟨true, ?_⟩⟩
    delta frame
    simp only [utf8_ascii h1]
    put_simp
  | xtag t =>
    refine ⟨_, .xtag t, ?_⟩
    have k : Puts (Pr.all [Pr.put E.sin, Pr.put id, Pr.put /- :  -/ [58, 32], Pr.put t.own, Pr.put [10], Pr.put E.sin, Pr.put /- tags: -/ [116, 97, 103, 115, 58], Pr.put [10],
        Pr.all (t.tags.map fun x => Pr.all [Pr.put E.sin, Pr.put x.1, Pr.put /- :  -/ [58, 32], Pr.put (values x.2), Pr.put [10]])])
        (lined ([E.sin ++ id ++ /- :  -/ [58, 32] ++ t.own, E.sin ++ /- tags: -/ [116, 97, 103, 115, 58]] ++ t.tags.map fun x => E.sin ++ x.1 ++ /- :  -/ [58, 32] ++ commas x.2)) := by
      refine Puts.cast ((puts_put _).cons <| (puts_put _).cons <| (puts_put _).cons <| (puts_put _).cons <| (puts_put _).cons <| (puts_put _).cons <|
        (puts_put _).cons <| (puts_put _).cons <| (puts_cloud E t.tags).cons puts_all_nil) ?_
      rw [lined_append]
      simp [lined]
    cases v with
    | v2 => exact k
    | v3 => exact k
    | v4 => exact absurd rfl hf
  | encr => cases hf
  | priv p e n s a hv h1 h2 h3 h4 =>
    have hv' : v = .v3 := hf
    subst hv'
    cases hc : p.contents.take 16 with
    | nil => rw [hc] at h3; cases h3
    | cons x xs =>
      refine ⟨_, .priv p e _ _ _ hv h1 (dec_decimal _) (hc ▸ spaced_spec x xs) (visible_spec _), fun s => ⟨true, ?_⟩⟩
      delta frame
      simp only [utf8_ascii h1, hc, binary]
      rw [← hc]
      put_simp

theorem frames_puts {E : Env} (hE : E.base.v2 = none) {v : Ver} {fs : List (Bytes × Body)} {l : List Bytes}
    (h : FramesShow E v E.sin fs l) (hf : ∀ f ∈ fs, Fit v f.2) :
    ∃ l, FramesShow E v E.sin fs l ∧ Puts (Pr.all (fs.map fun f => frame E v f.1 f.2)) (lined l) := by
  induction h with
  | nil => exact ⟨_, .nil, puts_nop⟩
  | cons h1 _ ih =>
    obtain ⟨a, ha, pa⟩ := frame_puts hE h1 (hf _ (List.mem_cons_self ..))
    obtain ⟨b, hb, pb⟩ := ih fun f k => hf f (List.mem_cons_of_mem _ k)
    exact ⟨_, .cons ha hb, (pa.cons pb).cast (lined_append a b).symm⟩

/-! ## Tags -/

theorem find_mem {E : Env} {fs : List (Bytes × Body)} {id : Bytes} {u : Byte} {b : Bytes} (h : find E fs id = some (u, b)) :
    (id, Body.text u b) ∈ fs := by
  unfold find at h
  obtain ⟨f, hf, e⟩ := List.exists_of_findSome?_eq_some h
  have hm : f ∈ fs := by
    split at hf
    · exact List.mem_reverse.1 hf
    · exact hf
  split at e
  · rename_i hid
    obtain ⟨i, bd⟩ := f
    simp only at hid
    subst hid
    cases bd with
    | text u' t' => simp only [Option.some.injEq, Prod.mk.injEq] at e; obtain ⟨rfl, rfl⟩ := e; exact hm
    | _ => cases e
  · cases e

theorem find_some {E : Env} {fs : List (Bytes × Body)} {id : Bytes} {u : Byte} {b : Bytes} (h : (id, Body.text u b) ∈ fs) :
    ∃ r, find E fs id = some r := by
  cases hf : find E fs id with
  | some r => exact ⟨r, rfl⟩
  | none =>
    unfold find at hf
    rw [List.findSome?_eq_none_iff] at hf
    have := hf (id, .text u b) (by split; exact List.mem_reverse.2 h; exact h)
    simp at this

theorem has_false {fs : List (Bytes × Body)} {id : Bytes} (h : ∀ f ∈ fs, f.1 ≠ id) : has fs id = false := by
  unfold has
  rw [List.any_eq_false]
  intro f hf
  simpa using h f hf

theorem has_true {fs : List (Bytes × Body)} {id : Bytes} {b : Body} (h : (id, b) ∈ fs) : has fs id = true := by
  unfold has
  rw [List.any_eq_true]
  exact ⟨_, h, by simp⟩

theorem frames_text {E : Env} {v : Ver} {ind : Bytes} {fs : List (Bytes × Body)} {l : List Bytes} (h : FramesShow E v ind fs l)
    {id : Bytes} {u : Byte} {b : Bytes} (hm : (id, Body.text u b) ∈ fs) : ∃ s, TextIn E.base v u b s := by
  induction h with
  | nil => cases hm
  | cons h1 _ ih =>
    rcases List.mem_cons.1 hm with e | hm
    · subst e
      cases h1 with
      | text _ _ s h => exact ⟨s, h⟩
    · exact ih hm

theorem text_ok {E : Env} (hE : E.base.v2 = none) {t : Tag} {l : List Bytes} (h : FramesShow E t.ver E.sin t.frames l)
    {id : Bytes} {u : Byte} {b : Bytes} (hm : (id, Body.text u b) ∈ t.frames) :
    ∃ u b s, (id, Body.text u b) ∈ t.frames ∧ TextIn E.base t.ver u b s ∧ t.text E id = .ok s := by
  obtain ⟨⟨u', b'⟩, hr⟩ := find_some (E := E) hm
  have hm' := find_mem hr
  obtain ⟨s, hs⟩ := frames_text h hm'
  refine ⟨u', b', s, hm', hs, ?_⟩
  unfold Tag.text
  rw [hr]
  exact textIn_asStr hE hs

theorem named_ok {E : Env} (hE : E.base.v2 = none) {t : Tag} {l : List Bytes} (h : FramesShow E t.ver E.sin t.frames l) {id dflt s : Bytes}
    (hn : Named E t id dflt s) : ∃ s, Named E t id dflt s ∧ t.textOr E id dflt = .ok s := by
  unfold Tag.textOr
  rcases hn with ⟨h1, rfl⟩ | ⟨u, b, h1, _⟩
  · exact ⟨_, .inl ⟨h1, rfl⟩, by rw [has_false h1]; rfl⟩
  · obtain ⟨u, b, s, h2, h3, h4⟩ := text_ok hE h h1
    exact ⟨s, .inr ⟨u, b, h2, h3⟩, by rw [has_true h1]; exact h4⟩

theorem around_ok {E : Env} (hE : E.base.v2 = none) {t : Tag} {l : List Bytes} (h : FramesShow E t.ver E.sin t.frames l) {id pre post s : Bytes}
    (hn : Around E t id pre post s) :
    (has t.frames id = false ∧ Around E t id pre post []) ∨
    ∃ x, has t.frames id = true ∧ t.text E id = .ok x ∧ Around E t id pre post (pre ++ x ++ post) := by
  rcases hn with ⟨h1, rfl⟩ | ⟨u, b, x, h1, _⟩
  · exact .inl ⟨has_false h1, .inl ⟨h1, rfl⟩⟩
  · obtain ⟨u, b, s, h2, h3, h4⟩ := text_ok hE h h1
    exact .inr ⟨s, has_true h1, h4, .inr ⟨u, b, s, h2, h3, rfl⟩⟩

theorem ids_of (v : Ver) : idsOf v = [(ids v).artist, (ids v).title, (ids v).album, (ids v).year, (ids v).track, (ids v).content, (ids v).encoder] := by
  cases v <;> rfl

theorem verNum_minor (v : Ver) : verNum v = minor v := by cases v <;> rfl

/-- A part of the head of a tag that is there or not. -/
theorem opt_puts {E : Env} {t : Tag} {id pre post : Bytes} {x : Bytes} {ps : List Pr} (h : t.text E id = .ok x)
    (hp : ps = [Pr.put pre, Pr.value (t.text E id), Pr.put post]) : Puts (Pr.all ps) (pre ++ x ++ post) := by
  subst hp
  intro s
  exact ⟨s.hex, by rw [h]; put_simp⟩

/-- Code that, in a state, puts `b`. -/
def At (p : Pr) (s : OS) (b : Bytes) : Prop := ∃ h, p s = (⟨s.out ++ b, h⟩, .ok ())

theorem At.cast {p : Pr} {s : OS} {b c : Bytes} (h : At p s b) (e : b = c) : At p s c := e ▸ h

theorem at_nil (s : OS) : At (Pr.all []) s [] := puts_nop s

theorem at_step {p : Pr} {ps : List Pr} {s : OS} {a b : Bytes} {h : Bool} (hp : p s = (⟨s.out ++ a, h⟩, .ok ())) (k : At (Pr.all ps) ⟨s.out ++ a, h⟩ b) :
    At (Pr.all (p :: ps)) s (a ++ b) := by
  obtain ⟨y, hy⟩ := k
  refine ⟨y, ?_⟩
  show Pr.seq p (Pr.all ps) s = _
  unfold Pr.seq
  rw [hp]
  simp only [hy, List.append_assoc]

theorem at_put {ps : List Pr} {s : OS} (a : Bytes) {b : Bytes} (k : At (Pr.all ps) ⟨s.out ++ a, s.hex⟩ b) : At (Pr.all (Pr.put a :: ps)) s (a ++ b) :=
  at_step rfl k

theorem at_value {ps : List Pr} {s : OS} (a : Bytes) {b : Bytes} (k : At (Pr.all ps) ⟨s.out ++ a, s.hex⟩ b) : At (Pr.all (Pr.value (.ok a) :: ps)) s (a ++ b) :=
  at_step rfl k

theorem at_base {ps : List Pr} {s : OS} (x : Bool) {b : Bytes} (k : At (Pr.all ps) ⟨s.out, x⟩ b) : At (Pr.all (Pr.base x :: ps)) s b := k

theorem at_dec {ps : List Pr} {s : OS} (n : Nat) {b : Bytes} (hs : s.hex = false) (k : At (Pr.all ps) ⟨s.out ++ Backup.dec n, false⟩ b) :
    At (Pr.all (Pr.num n :: ps)) s (Backup.dec n ++ b) := by
  refine at_step ?_ k
  obtain ⟨o, h⟩ := s
  simp only at hs
  subst hs
  rfl

theorem at_num {ps : List Pr} {s : OS} (n : Nat) {b : Bytes} (hs : s.hex = false) (k : At (Pr.all ps) ⟨s.out ++ Backup.dec n, false⟩ b) :
    At (Pr.all (Json.putNum (.ok n) :: ps)) s (Backup.dec n ++ b) := at_dec n hs k

theorem at_puts {p : Pr} {ps : List Pr} {s : OS} {a b : Bytes} (hp : Puts p a) (k : ∀ h, At (Pr.all ps) ⟨s.out ++ a, h⟩ b) : At (Pr.all (p :: ps)) s (a ++ b) := by
  obtain ⟨h, e⟩ := hp s
  exact at_step e (k h)

theorem headTag_puts {E : Env} (hE : E.base.v2 = none) {t : Tag} {l : List Bytes} (h : TagShows E E.sin t l) :
    ∃ hd, (∀ fs ps pn, FramesShow E t.ver E.sin t.frames fs → t.padding = .ok pn → Decimal ps pn →
      TagShows E E.sin t (hd ++ fs ++ [E.sin ++ ps ++ /-  bytes of padding -/ [32, 98, 121, 116, 101, 115, 32, 111, 102, 32, 112, 97, 100, 100, 105, 110, 103]])) ∧ Puts (headTag E t) (lined hd) := by
  cases h with
  | mk ai ti ali yi ki ci ei v r n s fh ar tt al ye tr ps sn pn fb b ct en fs hi h1 h2 h3 h4 h5 h6 h7 h8 h9 h10 h11 h12 h13 h14 h15 h16 h17 h18 =>
    have hi' := hi
    rw [ids_of] at hi'
    simp only [List.cons.injEq, and_true] at hi'
    obtain ⟨rfl, rfl, rfl, rfl, rfl, rfl, rfl⟩ := hi'
    obtain ⟨ar, n1, e1⟩ := named_ok hE h16 h9
    obtain ⟨tt, n2, e2⟩ := named_ok hE h16 h10
    obtain ⟨al, n3, e3⟩ := named_ok hE h16 h11
    obtain ⟨ye, n4, e4⟩ := named_ok hE h16 h12
    obtain ⟨xc, h14, _⟩ := h14
    obtain ⟨xe, h15, _⟩ := h15
    subst h6
    have T : ∃ tr, Around E t (ids t.ver).track /-  (track  -/ [32, 40, 116, 114, 97, 99, 107, 32] /- ) -/ [41] tr ∧
        Puts (if has t.frames (ids t.ver).track then Pr.all [Pr.put /-  (track  -/ [32, 40, 116, 114, 97, 99, 107, 32], Pr.value (t.text E (ids t.ver).track), Pr.put /- ) -/ [41]] else Pr.nop) tr := by
      rcases around_ok hE h16 h13 with ⟨a, b⟩ | ⟨x, a, b, c⟩
      · exact ⟨_, b, by rw [a]; exact puts_nop⟩
      · exact ⟨_, c, by rw [a]; exact opt_puts b rfl⟩
    have C : ∀ id pre x, pre ≠ [] → Around E t id pre [] x → ∃ ct, (∃ x, Around E t id pre [] x ∧ ct = if x = [] then [] else [E.sin ++ x]) ∧
        Puts (if has t.frames id then Pr.all [Pr.put E.sin, Pr.put pre, Pr.value (t.text E id), Pr.put [10]] else Pr.nop) (lined ct) := by
      intro id pre x hpre hx
      rcases around_ok hE h16 hx with ⟨a, b⟩ | ⟨x, a, b, c⟩
      · exact ⟨_, ⟨_, b, rfl⟩, by rw [a]; exact puts_nop⟩
      · refine ⟨_, ⟨_, c, rfl⟩, ?_⟩
        have ne : ¬ pre ++ x ++ [] = [] := by simp [hpre]
        rw [a, if_neg ne, if_pos rfl]
        intro s
        exact ⟨s.hex, by rw [b]; put_simp⟩
    obtain ⟨tr, hT, pT⟩ := T
    obtain ⟨ct, hC, pC⟩ := C _ _ _ (by simp) h14
    obtain ⟨en, hN, pN⟩ := C _ _ _ (by simp) h15
    refine ⟨_, fun fs ps pn k1 k2 k3 => .mk _ _ _ _ _ _ _ _ _ _ _ _ _ _ _ _ _ _ _ _ _ _ _ _ _ hi (dec_decimal _) (dec_decimal _) h3 (dec_decimal _) h5 rfl
      h7 (hexPair_one _) n1 n2 n3 n4 hT hC hN k1 k2 k3, ?_⟩
    intro s
    unfold headTag
    simp only [e1, e2, e3, e4, Res.bind, h3, h7, h5]
    apply At.cast
    · exact at_put _ <| at_put _ <| at_base _ <| at_dec _ rfl <| at_put _ <| at_dec _ rfl <| at_put _ <| at_put _ <|
        at_put _ <| at_num _ rfl <| at_put _ <| at_put _ <| at_put _ <|
        at_put _ <| at_put _ <| at_base _ <| at_value _ <| at_put _ <|
        at_put _ <| at_put _ <| at_put _ <| at_put _ <| at_put _ <| at_put _ <| at_put _ <|
        at_puts pT fun _ => at_put _ <| at_put _ <| at_put _ <| at_puts pC fun _ => at_puts pN fun _ => at_nil _
    · rw [lined_append, lined_append, verNum_minor]
      cases b <;> simp [lined]

theorem tag_puts {E : Env} (hE : E.base.v2 = none) {t : Tag} {l : List Bytes} (h : TagShows E E.sin t l) (hf : ∀ f ∈ t.frames, Fit t.ver f.2) :
    ∃ l, TagShows E E.sin t l ∧ Puts (tag E t) (lined l) := by
  obtain ⟨hd, h1, h2⟩ := headTag_puts hE h
  cases h with
  | mk ai ti ali yi ki ci ei v r n s fh ar tt al ye tr ps sn pn fb b ct en fs _ _ _ _ _ _ _ _ _ _ _ _ _ _ _ _ h16 h17 h18 =>
    obtain ⟨fs, k1, k2⟩ := frames_puts hE h16 hf
    refine ⟨_, h1 fs _ pn k1 h17 (dec_decimal _), ?_⟩
    intro s
    unfold tag
    rw [h17]
    apply At.cast
    · exact at_puts h2 fun _ => at_puts k2 fun _ => at_put _ <| at_base _ <| at_num _ rfl <| at_put _ <| at_put _ <| at_nil _
    · rw [lined_append, lined_append]
      simp [lined]

theorem tags_puts {E : Env} (hE : E.base.v2 = none) {ts : List Tag} {l : List Bytes} (h : TagsShow E E.sin ts l)
    (hf : ∀ t ∈ ts, ∀ f ∈ t.frames, Fit t.ver f.2) : ∃ l, TagsShow E E.sin ts l ∧ Puts (Pr.all (ts.map (putTag E .standard))) (lined l) := by
  induction h with
  | nil => exact ⟨_, .nil, puts_nop⟩
  | cons h1 _ ih =>
    obtain ⟨a, ha, pa⟩ := tag_puts hE h1 (hf _ (List.mem_cons_self ..))
    obtain ⟨b, hb, pb⟩ := ih fun f k => hf f (List.mem_cons_of_mem _ k)
    exact ⟨_, .cons ha hb, (pa.cons pb).cast (lined_append a b).symm⟩

theorem track_puts (E : Env) (n : Nat) (d : Bytes) : ∃ l, TrackShows E.sin n d l ∧ Puts (track E n d) (lined l) := by
  refine ⟨_, ⟨_, _, dec_decimal _, (hexPairs_spec _).1, rfl⟩, fun s => ⟨true, ?_⟩⟩
  unfold track
  put_simp

theorem genre_puts {E : Env} {numbered : Bool} {dflt : Bytes} (g : Byte) {n : Pr} (hn : Puts n (if numbered = true then dflt ++ Backup.dec g.toNat else dflt)) :
    ∃ x, GenreShown E.expand numbered dflt g x ∧ Puts (genre E g n) x := by
  unfold genre
  cases he : E.expand with
  | false => exact ⟨_, .inl ⟨rfl, _, dec_decimal _, rfl⟩, fun s => ⟨false, by put_simp⟩⟩
  | true =>
    cases ht : Genres.textForGenre g with
    | some x => exact ⟨x, .inr (.inl ⟨rfl, ht⟩), puts_put x⟩
    | none =>
      cases numbered with
      | true => exact ⟨_, .inr (.inr ⟨rfl, ht, .inl ⟨rfl, _, dec_decimal _, rfl⟩⟩), hn⟩
      | false => exact ⟨_, .inr (.inr ⟨rfl, ht, .inr ⟨rfl, rfl⟩⟩), hn⟩

theorem tag1_puts {E : Env} {t : V1Tag} {l : List Bytes} (h : V1Shows E E.sin t l) : ∃ l, V1Shows E E.sin t l ∧ Puts (tag1 E t) (lined l) := by
  cases h with
  | mk ar ti al ye co tr ge h1 h2 h3 h4 h5 h6 h7 =>
    have T : ∃ tr, (t.v11 = false ∧ tr = [] ∨ t.v11 = true ∧ ∃ k n, t.track = some k ∧ Decimal n k.toNat ∧ tr = /-  (track  -/ [32, 40, 116, 114, 97, 99, 107, 32] ++ n ++ /- ) -/ [41]) ∧
        Puts (if t.v11 then Pr.all [Pr.put /-  (track  -/ [32, 40, 116, 114, 97, 99, 107, 32], Pr.base false, Json.putNum ((Tag22.use t.track).bind fun b => .ok b.toNat), Pr.put /- ) -/ [41]] else Pr.nop) tr := by
      rcases h6 with ⟨a, _⟩ | ⟨a, k, n, b, _⟩
      · exact ⟨_, .inl ⟨a, rfl⟩, by rw [a]; exact puts_nop⟩
      · refine ⟨_, .inr ⟨a, k, _, b, dec_decimal _, rfl⟩, ?_⟩
        rw [a, b]
        exact fun s => ⟨false, by put_simp⟩
    have G : ∃ ge, (t.extended = false ∧ (∃ g, GenreShown E.expand true /- unknown genre  -/ [117, 110, 107, 110, 111, 119, 110, 32, 103, 101, 110, 114, 101, 32] t.genre g ∧ ge = [E.sin ++ g]) ∨
       t.extended = true ∧ ∃ eg g sb s eb e pb p, Utf8 E.base E.base.v1 t.extGenre eg ∧ GenreShown E.expand false /- unrecognized genre -/ [117, 110, 114, 101, 99, 111, 103, 110, 105, 122, 101, 100, 32, 103, 101, 110, 114, 101] t.genre g ∧
         t.startTime = some sb ∧ Utf8 E.base E.base.v1 sb s ∧ t.endTime = some eb ∧ Utf8 E.base E.base.v1 eb e ∧ t.speed = some pb ∧ Decimal p pb.toNat ∧
         ge = [E.sin ++ eg ++ /- / -/ [47] ++ g, E.sin ++ s ++ /- - -/ [45] ++ e ++ /- : speed  -/ [58, 32, 115, 112, 101, 101, 100, 32] ++ p, []]) ∧
        Puts (Pr.all [Pr.put E.sin,
          if t.extended then
            Pr.all [Pr.value (E.base.field t.extGenre), Pr.put /- / -/ [47],
              genre E t.genre (Pr.put /- unrecognized genre -/ [117, 110, 114, 101, 99, 111, 103, 110, 105, 122, 101, 100, 32, 103, 101, 110, 114, 101]),
              Pr.put [10], Pr.put E.sin,
              Pr.value ((Tag22.use t.startTime).bind E.base.field), Pr.put /- - -/ [45], Pr.value ((Tag22.use t.endTime).bind E.base.field), Pr.put /- : speed  -/ [58, 32, 115, 112, 101, 101, 100, 32],
              Pr.base false, Json.putNum ((Tag22.use t.speed).bind fun b => .ok b.toNat), Pr.put [10]]
          else genre E t.genre (Pr.all [Pr.put /- unknown genre  -/ [117, 110, 107, 110, 111, 119, 110, 32, 103, 101, 110, 114, 101, 32], decimal t.genre.toNat]),
          Pr.put [10]]) (lined ge) := by
      rcases h7 with ⟨a, _⟩ | ⟨a, eg, g, sb, s, eb, e, pb, p, k1, _, k2, k3, k4, k5, k6, _, _⟩
      · obtain ⟨g, hg, pg⟩ := genre_puts (E := E) (numbered := true) (dflt := /- unknown genre  -/ [117, 110, 107, 110, 111, 119, 110, 32, 103, 101, 110, 114, 101, 32]) t.genre
          (n := Pr.all [Pr.put /- unknown genre  -/ [117, 110, 107, 110, 111, 119, 110, 32, 103, 101, 110, 114, 101, 32], decimal t.genre.toNat]) fun s => ⟨false, by put_simp⟩
        refine ⟨_, .inl ⟨a, g, hg, rfl⟩, ?_⟩
        rw [a]
        exact ((puts_put _).cons <| pg.cons <| (puts_put _).cons puts_all_nil).cast (by simp [lined])
      · obtain ⟨g, hg, pg⟩ := genre_puts (E := E) (numbered := false) (dflt := /- unrecognized genre -/ [117, 110, 114, 101, 99, 111, 103, 110, 105, 122, 101, 100, 32, 103, 101, 110, 114, 101]) t.genre
          (n := Pr.put /- unrecognized genre -/ [117, 110, 114, 101, 99, 111, 103, 110, 105, 122, 101, 100, 32, 103, 101, 110, 114, 101]) (puts_put _)
        refine ⟨_, .inr ⟨a, eg, g, sb, s, eb, e, pb, _, k1, hg, k2, k3, k4, k5, k6, dec_decimal _, rfl⟩, ?_⟩
        rw [a, k2, k4, k6]
        simp only [utf8_field k1, Tag22.use, Res.bind, utf8_field k3, utf8_field k5, if_true]
        have I : ∀ x, Puts (Pr.all [Pr.value (.ok eg), Pr.put /- / -/ [47], x, Pr.put [10], Pr.put E.sin, Pr.value (.ok s), Pr.put /- - -/ [45], Pr.value (.ok e), Pr.put /- : speed  -/ [58, 32, 115, 112, 101, 101, 100, 32],
            Pr.base false, Json.putNum (.ok pb.toNat), Pr.put [10]]) (eg ++ (/- / -/ [47] ++ g ++ [10] ++ E.sin ++ s ++ /- - -/ [45] ++ e ++ /- : speed  -/ [58, 32, 115, 112, 101, 101, 100, 32] ++ Backup.dec pb.toNat ++ [10])) ∨ ¬ Puts x g := by
          intro x
          by_cases hx : Puts x g
          · left; intro st; apply At.cast
            · exact at_value _ <| at_put _ <| at_puts hx fun _ => at_put _ <| at_put _ <| at_value _ <| at_put _ <| at_value _ <| at_put _ <| at_base _ <|
                at_num _ rfl <| at_put _ <| at_nil _
            · simp
          · exact .inr hx
        refine ((puts_put _).cons <| ((I _).resolve_right fun h => h pg).cons <| (puts_put _).cons puts_all_nil).cast ?_
        simp [lined]
    obtain ⟨tr, hT, pT⟩ := T
    obtain ⟨ge, hG, pG⟩ := G
    refine ⟨_, .mk ar ti al ye co tr ge h1 h2 h3 h4 h5 hT hG, ?_⟩
    intro s
    unfold tag1
    rw [utf8_field h1, utf8_field h2, utf8_field h3, utf8_field h4, utf8_field h5]
    have O : ∀ (c : Bool) (x : Bytes), Puts (if c then Pr.put x else Pr.nop) (if c = true then x else []) := by
      intro c x
      cases c
      · exact puts_nop
      · exact puts_put x
    apply At.cast
    · exact at_put _ <| at_put _ <| at_puts (O _ _) fun _ => at_puts (O _ _) fun _ => at_put _ <| at_value _ <| at_put _ <| at_value _ <| at_put _ <|
        at_put _ <| at_value _ <| at_puts pT fun _ => at_put _ <| at_value _ <| at_put _ <| at_put _ <| at_value _ <| at_put _ <| pG _
    · rw [lined_append]
      simp [lined]

/-! ## Files -/

theorem quoted_escaped (p : Path) : ∃ q, Escaped p q ∧ quoted p = [34] ++ q ++ [34] := by
  refine ⟨p.flatMap fun c => if c = 34 ∨ c = 92 then [92, c] else [c], ?_, rfl⟩
  induction p with
  | nil => exact .nil
  | cons c p ih =>
    rw [List.flatMap_cons]
    by_cases h : c = 34 ∨ c = 92
    · rw [if_pos h]; exact .special _ _ _ h ih
    · rw [if_neg h]; exact .plain _ _ _ (fun e => h (.inl e)) (fun e => h (.inr e)) ih

theorem shown_iff (o : Dump.Opts) (b : Bool) (hb : b = o.v1 ∨ b = o.v2 ∨ b = o.track) : (b || o.all) = true ↔ Spec.Dump.Shown o b := by
  unfold Spec.Dump.Shown Dump.Opts.all
  cases b <;> cases o.v1 <;> cases o.v2 <;> cases o.track <;> simp_all

theorem file_puts {E : Env} (hE : E.base.v2 = none) {o : Dump.Opts} {p : Path} {time : Bytes} {f : Facts} {l : List Bytes}
    (h : FileShows E E.sin o p time f l) (hf : Spec.Dump.Shown o o.v2 → ∀ t ∈ f.v2, ∀ x ∈ t.frames, Fit t.ver x.2) :
    ∃ l, FileShows E E.sin o p time f l ∧ Puts (put E .standard o p time f) (lined l) := by
  obtain ⟨q, a, b, c, _, _, ha, hb, hc⟩ := h
  obtain ⟨q, hq, eq⟩ := quoted_escaped p
  have A : ∃ a, (Spec.Dump.Shown o o.v2 ∧ TagsShow E E.sin f.v2 a ∨ ¬ Spec.Dump.Shown o o.v2 ∧ a = []) ∧
      Puts (if o.v2 || o.all then Pr.all (f.v2.map (putTag E .standard)) else Pr.nop) (lined a) := by
    rcases ha with ⟨h1, h2⟩ | ⟨h1, _⟩
    · obtain ⟨a, h3, h4⟩ := tags_puts hE h2 (hf h1)
      refine ⟨a, .inl ⟨h1, h3⟩, ?_⟩
      rw [if_pos ((shown_iff o o.v2 (by simp)).2 h1)]
      exact h4
    · refine ⟨_, .inr ⟨h1, rfl⟩, ?_⟩
      rw [if_neg fun k => h1 ((shown_iff o o.v2 (by simp)).1 k)]
      exact puts_nop
  have B : ∃ b, (Spec.Dump.Shown o o.track ∧ TrackShows E.sin f.size f.md5 b ∨ ¬ Spec.Dump.Shown o o.track ∧ b = []) ∧
      Puts (if o.track || o.all then putTrack E .standard f.size f.md5 else Pr.nop) (lined b) := by
    rcases hb with ⟨h1, h2⟩ | ⟨h1, _⟩
    · obtain ⟨b, h3, h4⟩ := track_puts E f.size f.md5
      refine ⟨b, .inl ⟨h1, h3⟩, ?_⟩
      rw [if_pos ((shown_iff o o.track (by simp)).2 h1)]
      exact h4
    · refine ⟨_, .inr ⟨h1, rfl⟩, ?_⟩
      rw [if_neg fun k => h1 ((shown_iff o o.track (by simp)).1 k)]
      exact puts_nop
  have C : ∃ c, (Spec.Dump.Shown o o.v1 ∧ (f.v1 = none ∧ c = [] ∨ ∃ t, f.v1 = some t ∧ V1Shows E E.sin t c) ∨ ¬ Spec.Dump.Shown o o.v1 ∧ c = []) ∧
      Puts (match f.v1 with
        | some t => if o.v1 || o.all then putV1 E .standard t else Pr.nop
        | none => Pr.nop) (lined c) := by
    rcases hc with ⟨h1, ⟨h2, _⟩ | ⟨t, h2, h3⟩⟩ | ⟨h1, _⟩
    · refine ⟨_, .inl ⟨h1, .inl ⟨h2, rfl⟩⟩, ?_⟩
      rw [h2]
      exact puts_nop
    · obtain ⟨c, h4, h5⟩ := tag1_puts h3
      refine ⟨c, .inl ⟨h1, .inr ⟨t, h2, h4⟩⟩, ?_⟩
      rw [h2]
      simp only [if_pos ((shown_iff o o.v1 (by simp)).2 h1)]
      exact h5
    · refine ⟨_, .inr ⟨h1, rfl⟩, ?_⟩
      have hn : ¬ (o.v1 || o.all) = true := fun k => h1 ((shown_iff o o.v1 (by simp)).1 k)
      cases f.v1 with
      | none => exact puts_nop
      | some t => simp only [if_neg hn]; exact puts_nop
  obtain ⟨a, ha, pa⟩ := A
  obtain ⟨b, hb, pb⟩ := B
  obtain ⟨c, hc, pc⟩ := C
  refine ⟨_, ⟨q, a, b, c, hq, rfl, ha, hb, hc⟩, ?_⟩
  intro s
  unfold put
  apply At.cast
  · exact at_put _ <| at_put _ <| at_put _ <| at_put _ <| at_put _ <| at_put _ <| at_puts pa fun _ => at_puts pb fun _ => at_puts pc fun _ => at_put _ <| at_nil _
  · rw [eq, lined_append, lined_append, lined_append, lined_append]
    simp [lined]

/-! ## What can be shown is shown -/

theorem frames_showable {E : Env} {v : Ver} {ind : Bytes} {fs : List (Bytes × Body)} (h : ∀ x ∈ fs, ∃ l, FrameShows E v ind x.1 x.2 l) :
    ∃ l, FramesShow E v ind fs l := by
  induction fs with
  | nil => exact ⟨[], .nil⟩
  | cons f fs ih =>
    obtain ⟨l, hl⟩ := h f (by simp)
    obtain ⟨ls, hls⟩ := ih fun x hx => h x (by simp [hx])
    exact ⟨_, .cons hl hls⟩

theorem text_showable {E : Env} {ind : Bytes} {t : Tag} (hs : SoundTag t) (h : ∀ x ∈ t.frames, ∃ l, FrameShows E t.ver ind x.1 x.2 l) {id : Bytes}
    (hi : id ∈ idsOf t.ver) : (∀ f ∈ t.frames, f.1 ≠ id) ∨ ∃ u b x, (id, Body.text u b) ∈ t.frames ∧ TextIn E.base t.ver u b x := by
  by_cases hn : ∀ f ∈ t.frames, f.1 ≠ id
  · exact .inl hn
  · right
    simp only [Classical.not_forall, Classical.not_not] at hn
    obtain ⟨f, hf, rfl⟩ := hn
    obtain ⟨u, b, e⟩ := hs.texts f hf hi
    obtain ⟨l, hl⟩ := h f hf
    rw [e] at hl
    cases hl with
    | text _ _ s hx =>
      refine ⟨u, b, s, ?_, hx⟩
      rw [← e]
      exact hf

theorem named_showable {E : Env} {ind : Bytes} {t : Tag} (hs : SoundTag t) (h : ∀ x ∈ t.frames, ∃ l, FrameShows E t.ver ind x.1 x.2 l) {id : Bytes}
    (hi : id ∈ idsOf t.ver) (dflt : Bytes) : ∃ s, Named E t id dflt s := by
  rcases text_showable hs h hi with h | ⟨u, b, x, h1, h2⟩
  · exact ⟨dflt, .inl ⟨h, rfl⟩⟩
  · exact ⟨x, .inr ⟨u, b, h1, h2⟩⟩

theorem around_showable {E : Env} {ind : Bytes} {t : Tag} (hs : SoundTag t) (h : ∀ x ∈ t.frames, ∃ l, FrameShows E t.ver ind x.1 x.2 l) {id : Bytes}
    (hi : id ∈ idsOf t.ver) (pre post : Bytes) : ∃ s, Around E t id pre post s := by
  rcases text_showable hs h hi with h | ⟨u, b, x, h1, h2⟩
  · exact ⟨[], .inl ⟨h, rfl⟩⟩
  · exact ⟨_, .inr ⟨u, b, x, h1, h2, rfl⟩⟩

theorem tag_showable {E : Env} {ind : Bytes} {t : Tag} (hs : SoundTag t) (hn : ∃ n, t.size = .ok n)
    (h : ∀ x ∈ t.frames, ∃ l, FrameShows E t.ver ind x.1 x.2 l) : ∃ l, TagShows E ind t l := by
  obtain ⟨n, hn⟩ := hn
  obtain ⟨b, hb⟩ := hs.unsync
  obtain ⟨f, hf⟩ := hs.flags
  obtain ⟨p, hp⟩ := hs.padding
  obtain ⟨fs, hfs⟩ := frames_showable h
  have e := ids_of t.ver
  obtain ⟨_, h1⟩ := named_showable hs h (id := (ids t.ver).artist) (by rw [e]; simp) /- <no artist> -/ [60, 110, 111, 32, 97, 114, 116, 105, 115, 116, 62]
  obtain ⟨_, h2⟩ := named_showable hs h (id := (ids t.ver).title) (by rw [e]; simp) /- <no title> -/ [60, 110, 111, 32, 116, 105, 116, 108, 101, 62]
  obtain ⟨_, h3⟩ := named_showable hs h (id := (ids t.ver).album) (by rw [e]; simp) /- <no album> -/ [60, 110, 111, 32, 97, 108, 98, 117, 109, 62]
  obtain ⟨_, h4⟩ := named_showable hs h (id := (ids t.ver).year) (by rw [e]; simp) /- <no year> -/ [60, 110, 111, 32, 121, 101, 97, 114, 62]
  obtain ⟨_, h5⟩ := around_showable hs h (id := (ids t.ver).track) (by rw [e]; simp) /-  (track  -/ [32, 40, 116, 114, 97, 99, 107, 32] /- ) -/ [41]
  obtain ⟨x, h6⟩ := around_showable hs h (id := (ids t.ver).content) (by rw [e]; simp) /- Content-type  -/ [67, 111, 110, 116, 101, 110, 116, 45, 116, 121, 112, 101, 32] []
  obtain ⟨y, h7⟩ := around_showable hs h (id := (ids t.ver).encoder) (by rw [e]; simp) /- Encoded by  -/ [69, 110, 99, 111, 100, 101, 100, 32, 98, 121, 32] []
  exact ⟨_, .mk _ _ _ _ _ _ _ _ _ _ _ _ _ _ _ _ _ _ _ _ _ _ _ _ _ e (dec_decimal _) (dec_decimal _) hn (dec_decimal _) hb rfl hf (hexPair_one f)
    h1 h2 h3 h4 h5 ⟨x, h6, rfl⟩ ⟨y, h7, rfl⟩ hfs hp (dec_decimal _)⟩

theorem tags_showable {E : Env} {ind : Bytes} {ts : List Tag} (hs : ∀ t ∈ ts, SoundTag t) (hn : ∀ t ∈ ts, ∃ n, t.size = .ok n)
    (h : ∀ t ∈ ts, ∀ x ∈ t.frames, ∃ l, FrameShows E t.ver ind x.1 x.2 l) : ∃ l, TagsShow E ind ts l := by
  induction ts with
  | nil => exact ⟨[], .nil⟩
  | cons t ts ih =>
    obtain ⟨l, hl⟩ := tag_showable (hs t (by simp)) (hn t (by simp)) (h t (by simp))
    obtain ⟨ls, hls⟩ := ih (fun t ht => hs t (by simp [ht])) (fun t ht => hn t (by simp [ht])) fun t ht => h t (by simp [ht])
    exact ⟨_, .cons hl hls⟩

theorem genre_showable (expand numbered : Bool) (dflt : Bytes) (g : Byte) : ∃ s, GenreShown expand numbered dflt g s := by
  cases expand with
  | false => exact ⟨_, .inl ⟨rfl, _, dec_decimal _, rfl⟩⟩
  | true =>
    cases h : Genres.textForGenre g with
    | some x => exact ⟨x, .inr (.inl ⟨rfl, h⟩)⟩
    | none =>
      cases numbered with
      | true => exact ⟨_, .inr (.inr ⟨rfl, h, .inl ⟨rfl, _, dec_decimal _, rfl⟩⟩)⟩
      | false => exact ⟨_, .inr (.inr ⟨rfl, h, .inr ⟨rfl, rfl⟩⟩)⟩

theorem v1_showable {E : Env} {ind : Bytes} {t : V1Tag} (hs : SoundV1 t)
    (h : ∀ b ∈ [t.artist, t.title, t.album, t.year, t.comment, t.extGenre] ++ t.startTime.toList ++ t.endTime.toList, ∃ s, Utf8 E.base E.base.v1 b s) :
    ∃ l, V1Shows E ind t l := by
  obtain ⟨_, h1⟩ := h t.artist (by simp)
  obtain ⟨_, h2⟩ := h t.title (by simp)
  obtain ⟨_, h3⟩ := h t.album (by simp)
  obtain ⟨_, h4⟩ := h t.year (by simp)
  obtain ⟨_, h5⟩ := h t.comment (by simp)
  have T : ∃ tr, t.v11 = false ∧ tr = [] ∨ t.v11 = true ∧ ∃ k n, t.track = some k ∧ Decimal n k.toNat ∧ tr = /-  (track  -/ [32, 40, 116, 114, 97, 99, 107, 32] ++ n ++ /- ) -/ [41] := by
    cases hv : t.v11 with
    | false => exact ⟨[], .inl ⟨rfl, rfl⟩⟩
    | true =>
      obtain ⟨k, hk⟩ := hs.track hv
      exact ⟨_, .inr ⟨rfl, k, _, hk, dec_decimal _, rfl⟩⟩
  obtain ⟨tr, hT⟩ := T
  cases he : t.extended with
  | false =>
    obtain ⟨g, hg⟩ := genre_showable E.expand true /- unknown genre  -/ [117, 110, 107, 110, 111, 119, 110, 32, 103, 101, 110, 114, 101, 32] t.genre
    exact ⟨_, .mk _ _ _ _ _ tr _ h1 h2 h3 h4 h5 hT (.inl ⟨he, g, hg, rfl⟩)⟩
  | true =>
    obtain ⟨g, hg⟩ := genre_showable E.expand false /- unrecognized genre -/ [117, 110, 114, 101, 99, 111, 103, 110, 105, 122, 101, 100, 32, 103, 101, 110, 114, 101] t.genre
    obtain ⟨sb, e1⟩ := hs.start he
    obtain ⟨eb, e2⟩ := hs.stop he
    obtain ⟨pb, e3⟩ := hs.speed he
    obtain ⟨_, h6⟩ := h t.extGenre (by simp)
    obtain ⟨_, h7⟩ := h sb (by simp [e1])
    obtain ⟨_, h8⟩ := h eb (by simp [e2])
    exact ⟨_, .mk _ _ _ _ _ tr _ h1 h2 h3 h4 h5 hT (.inr ⟨he, _, g, sb, _, eb, _, pb, _, h6, hg, e1, h7, e2, h8, e3, dec_decimal _, rfl⟩)⟩

theorem file_showable {E : Env} {ind : Bytes} {o : Dump.Opts} (p : Path) (time : Bytes) {d : Option Bytes} {f : Facts}
    (hr : readFile E.base.z E.base.md5 d = .ok f) (h : Showable E ind o f) : ∃ l, FileShows E ind o p time f l := by
  obtain ⟨hs, hv⟩ := readFile_sound hr
  obtain ⟨q, hq, -⟩ := quoted_escaped p
  have A : ∃ a, Spec.Dump.Shown o o.v2 ∧ TagsShow E ind f.v2 a ∨ ¬ Spec.Dump.Shown o o.v2 ∧ a = [] := by
    by_cases h1 : Spec.Dump.Shown o o.v2
    · obtain ⟨a, ha⟩ := tags_showable hs (h.size h1) (h.frames h1)
      exact ⟨a, .inl ⟨h1, ha⟩⟩
    · exact ⟨[], .inr ⟨h1, rfl⟩⟩
  have B : ∃ b, Spec.Dump.Shown o o.track ∧ TrackShows ind f.size f.md5 b ∨ ¬ Spec.Dump.Shown o o.track ∧ b = [] := by
    by_cases h1 : Spec.Dump.Shown o o.track
    · exact ⟨_, .inl ⟨h1, _, _, dec_decimal _, (hexPairs_spec f.md5).1, rfl⟩⟩
    · exact ⟨[], .inr ⟨h1, rfl⟩⟩
  have C : ∃ c, Spec.Dump.Shown o o.v1 ∧ (f.v1 = none ∧ c = [] ∨ ∃ t, f.v1 = some t ∧ V1Shows E ind t c) ∨ ¬ Spec.Dump.Shown o o.v1 ∧ c = [] := by
    by_cases h1 : Spec.Dump.Shown o o.v1
    · cases e : f.v1 with
      | none => exact ⟨[], .inl ⟨h1, .inl ⟨rfl, rfl⟩⟩⟩
      | some t =>
        obtain ⟨c, hc⟩ := v1_showable (hv t e) (h.v1 h1 t e)
        exact ⟨c, .inl ⟨h1, .inr ⟨t, rfl, hc⟩⟩⟩
    · exact ⟨[], .inr ⟨h1, rfl⟩⟩
  obtain ⟨a, A⟩ := A
  obtain ⟨b, B⟩ := B
  obtain ⟨c, C⟩ := C
  exact ⟨_, q, a, b, c, hq, rfl, A, B, C⟩

/-! ## Runs -/

theorem one_skip {E : Env} {k : Form} {w : World} {o : Dump.Opts} {p : Path} (h : Dump.takes o p = false) (s : OS) : one E k w o p s = .ok s := by
  unfold one
  unfold Dump.takes at h
  cases hf : o.filter with
  | none => rw [hf] at h; cases h
  | some f => rw [hf] at h; simp only at h; simp [h]

theorem one_take {E : Env} {k : Form} {w : World} {o : Dump.Opts} {p : Path} (h : Dump.takes o p = true) (s : OS) :
    one E k w o p s =
      match (w.base.file p).data, w.time p with
      | some d, some t =>
        match readFile E.base.z E.base.md5 (some d) with
        | .throw _ => .ok s
        | .ub u => .ub u
        | .ok f =>
          match put E k o p t f s with
          | (s', .ok _) => .ok s'
          | (s', .throw _) => .ok s'
          | (_, .ub u) => .ub u
      | _, _ => .ok s := by
  unfold one
  unfold Dump.takes at h
  cases hf : o.filter with
  | none => rfl
  | some f =>
    rw [hf] at h
    simp only at h
    simp only [h, Bool.not_true, Bool.false_eq_true, if_false]
    rfl

/-- What is on the output after the lines for some files. -/
theorem one_shows {E : Env} {k : Form} {w : World} {o : Dump.Opts} {p : Path} (ht : Dump.takes o p = true) {t : Bytes} {f : Facts} {b : Bytes}
    (h1 : w.time p = some t) (h2 : readFile E.base.z E.base.md5 (w.base.file p).data = .ok f) (h3 : Puts (put E k o p t f) b) (s : OS) :
    ∃ h, one E k w o p s = .ok ⟨s.out ++ b, h⟩ := by
  rw [one_take ht, h1]
  cases hd : (w.base.file p).data with
  | none => rw [hd] at h2; cases h2
  | some d =>
    rw [hd] at h2
    obtain ⟨h, e⟩ := h3 s
    simp only [h2, e]
    exact ⟨h, rfl⟩

/-- The files are read and put as `bs` says, one after the other. -/
inductive Put (E : Env) (k : Form) (w : World) (o : Dump.Opts) : List Path → List Bytes → Prop
  | nil : Put E k w o [] []
  | cons {p ps t f b bs} : w.time p = some t → readFile E.base.z E.base.md5 (w.base.file p).data = .ok f → Puts (put E k o p t f) b →
      Put E k w o ps bs → Put E k w o (p :: ps) (b :: bs)

theorem put_append {E : Env} {k : Form} {w : World} {o : Dump.Opts} {ps qs : List Path} {bs : List Bytes} (h : Put E k w o (ps ++ qs) bs) :
    ∃ a b, bs = a ++ b ∧ Put E k w o ps a ∧ Put E k w o qs b := by
  induction ps generalizing bs with
  | nil => exact ⟨[], bs, rfl, .nil, h⟩
  | cons p ps ih =>
    cases h with
    | cons h1 h2 h3 h4 =>
      obtain ⟨a, b, rfl, ha, hb⟩ := ih h4
      exact ⟨_, b, rfl, .cons h1 h2 h3 ha, hb⟩

theorem walk_shows {E : Env} {k : Form} {w : World} {o : Dump.Opts} (es : List Entry) {bs : List Bytes}
    (h : Put E k w o (((es.filter (·.regular)).map (·.path)).filter (Dump.takes o)) bs) (s : OS) :
    ∃ x, walk E k w o es s = .ok ⟨s.out ++ bs.flatten, x⟩ := by
  induction es generalizing bs s with
  | nil => cases h; exact ⟨s.hex, by simp [walk]⟩
  | cons e es ih =>
    rw [walk]
    by_cases hr : e.regular = true
    · rw [if_pos hr]
      rw [List.filter_cons_of_pos hr] at h
      simp only [List.map_cons] at h
      by_cases ht : Dump.takes o e.path = true
      · rw [List.filter_cons_of_pos ht] at h
        cases h with
        | cons h1 h2 h3 h4 =>
          obtain ⟨x, hx⟩ := one_shows ht h1 h2 h3 s
          obtain ⟨y, hy⟩ := ih h4 ⟨_, x⟩
          refine ⟨y, ?_⟩
          rw [hx]
          show walk E k w o es _ = _
          rw [hy]
          simp
      · rw [List.filter_cons_of_neg ht] at h
        rw [one_skip (by simpa using ht)]
        exact ih h s
    · rw [if_neg hr]
      rw [List.filter_cons_of_neg hr] at h
      exact ih h s

theorem args_shows {E : Env} {k : Form} {w : World} {o : Dump.Opts} {ps qs : List Path} (hd : Dumped w.base o ps qs) {bs : List Bytes}
    (h : Put E k w o qs bs) (s : OS) : ∃ x, args E k w o ps s = .ok (⟨s.out ++ bs.flatten, x⟩, none) := by
  induction hd generalizing bs s with
  | nil => cases h; exact ⟨s.hex, by simp [args]⟩
  | @file p ps qs hi hr _ ih =>
    change Put E k w o ([p].filter (Dump.takes o) ++ qs) bs at h
    rw [args, hi]
    simp only
    rw [if_pos hr]
    by_cases ht : Dump.takes o p = true
    · rw [show [p].filter (Dump.takes o) = [p] from List.filter_cons_of_pos ht] at h
      cases h with
      | cons h1 h2 h3 h4 =>
        obtain ⟨x, hx⟩ := one_shows ht h1 h2 h3 s
        obtain ⟨y, hy⟩ := ih h4 ⟨_, x⟩
        refine ⟨y, ?_⟩
        rw [hx]
        show args E k w o ps _ = _
        rw [hy]
        simp
    · rw [show [p].filter (Dump.takes o) = [] from List.filter_cons_of_neg ht] at h
      rw [one_skip (by simpa using ht)]
      exact ih h s
  | @dir p ps qs es hi _ ih =>
    rw [args, hi]
    simp only
    obtain ⟨a, b, rfl, ha, hb⟩ := put_append h
    obtain ⟨x, hx⟩ := walk_shows es ha s
    obtain ⟨y, hy⟩ := ih hb ⟨_, x⟩
    refine ⟨y, ?_⟩
    rw [hx]
    show args E k w o ps _ = _
    rw [hy]
    simp

theorem run_shows {E : Env} {k : Form} {w : World} {o : Dump.Opts} {ps qs : List Path} (hd : Dumped w.base o ps qs) {bs : List Bytes}
    (h : Put E k w o qs bs) : run E k w o ps = .ok (0, bs.flatten) := by
  obtain ⟨x, hx⟩ := args_shows hd h ⟨[], false⟩
  unfold run
  rw [hx]
  rfl

theorem files_put {E : Env} (hE : E.base.v2 = none) {w : World} {o : Dump.Opts} {qs : List Path} {fs : List (Path × Bytes × Facts)}
    (h : Readable E w qs fs) (hs : ∀ x ∈ fs, Showable E E.sin o x.2.2)
    (hf : Spec.Dump.Shown o o.v2 → ∀ x ∈ fs, ∀ t ∈ x.2.2.v2, ∀ y ∈ t.frames, Fit t.ver y.2) :
    ∃ ls bs, FilesShow E E.sin o fs ls ∧ Put E .standard w o qs bs ∧ bs.flatten = lined ls := by
  induction h with
  | nil => exact ⟨[], [], .nil, .nil, rfl⟩
  | @cons p ps t f fs h1 h2 _ ih =>
    obtain ⟨l, hl⟩ := file_showable p t h2 (hs _ (List.mem_cons_self ..))
    obtain ⟨l, hl, hp⟩ := file_puts hE hl fun k => hf k _ (List.mem_cons_self ..)
    obtain ⟨ls, bs, h3, h4, h5⟩ := ih (fun x hx => hs x (List.mem_cons_of_mem _ hx)) fun k x hx => hf k x (List.mem_cons_of_mem _ hx)
    exact ⟨l ++ ls, _ :: bs, .cons hl h3, .cons h1 h2 hp h4, by rw [List.flatten_cons, h5, lined_append]⟩

end Scribbu.Std
