import Verif.Proofs.Json
import Verif.Spec.Dump

/-! Lemmas about dumps in JSON. -/

namespace Scribbu.Dump
open Scribbu Spec.Json Spec.Dump Json
open _root_.Scribbu.Report hiding escape

/-! ## Texts -/

theorem clean_ok {s : Bytes} (h : Clean s) : ∀ c ∈ text s, OkCh c := by
  intro c hc
  obtain ⟨b, hb, rfl⟩ := List.mem_map.1 hc
  rcases h b hb with h | h | h | h | h | h
  · exact .inl h
  all_goals (subst h; exact .inr (by decide))

theorem plain_clean {s : Bytes} (h : Plain s) : Clean s := fun c hc => .inl (h c hc).1

theorem rstr_text (s : Bytes) : rstr (text s) = escape s := by
  unfold rstr text escape
  rw [List.flatMap_map]
  rfl

theorem escape_plain {s : Bytes} (h : Plain s) : escape s = s := by
  induction s with
  | nil => rfl
  | cons c s ih =>
    have h1 := h c (List.mem_cons_self ..)
    have h2 := ih fun d hd => h d (List.mem_cons_of_mem _ hd)
    have h3 : 32 ≤ c.toNat := by have := h1.1; rw [UInt8.le_iff_toNat_le] at this; exact this
    have e : esc1 c = [c] := by
      unfold esc1
      have n8 : c ≠ 8 := by rintro rfl; simp at h3
      have n12 : c ≠ 12 := by rintro rfl; simp at h3
      have n10 : c ≠ 10 := by rintro rfl; simp at h3
      have n13 : c ≠ 13 := by rintro rfl; simp at h3
      have n9 : c ≠ 9 := by rintro rfl; simp at h3
      simp [n8, n12, n10, n13, n9, h1.2.1, h1.2.2]
    show esc1 c ++ escape s = _
    rw [e, h2]; rfl

theorem rv_str {s : Bytes} : rv (str s) = 34 :: (escape s ++ [34]) := by unfold str; rw [rv, rstr_text]

theorem rv_nat {n : Nat} : rv (nat n) = Backup.dec n := by unfold nat; rw [rv]

theorem rv_plain {s : Bytes} (h : Plain s) : rv (str s) = 34 :: (s ++ [34]) := by rw [rv_str, escape_plain h]

theorem utf8_conv {E : Json.Env} {e : Encoding} {b s : Bytes} (h : Utf8 E e b s) :
    (if b = [] then .ok [] else E.conv e b) = Res.ok s := by
  rcases h with ⟨rfl, rfl⟩ | ⟨h, hs⟩
  · rfl
  · rw [if_neg h]; exact hs

theorem encoded_source {u : Byte} {b : Bytes} {e : Encoding} (h : Encoded u b e) : source .v3 u b = .ok e := by
  cases h with
  | latin => rfl
  | big => simp [source]
  | little => simp [source]
  | bare _ h1 h2 => simp [source, h1, h2]

theorem textOf_asStr {E : Json.Env} (hE : E.v2 = none) {u : Byte} {b s : Bytes} (h : TextOf E u b s) : E.asStr .v3 (some u) b = .ok s := by
  unfold Env.asStr
  rcases h with ⟨rfl, rfl⟩ | ⟨e, h, h'⟩
  · rfl
  · rcases h' with ⟨rfl, rfl⟩ | ⟨h1, h2⟩
    · rfl
    · rw [if_neg h1, hE]
      simp only [encoded_source h]
      exact h2

theorem latin_ok {E : Json.Env} (hE : E.v2 = none) {b s : Bytes} (h : Utf8 E .ISO_8859_1 b s) : E.latin .ISO_8859_1 b = .ok s := by
  unfold Env.latin
  rw [hE]
  exact utf8_conv h

/-! ## Objects -/

theorem ok_key {k : Bytes} (h : Plain k) : ∀ c ∈ text k, OkCh c := clean_ok (plain_clean h)

theorem rms_fold (l : List (Bytes × J)) (h : ∀ p ∈ l, Plain p.1) :
    rms (l.foldr (fun p m => Ms.cons (text p.1) p.2 m) Ms.nil) =
      (l.flatMap fun p => 44 :: 34 :: (p.1 ++ 34 :: 58 :: rv p.2)) ++ [125] := by
  induction l with
  | nil => rw [List.foldr_nil, rms]; rfl
  | cons p l ih =>
    rw [List.foldr_cons, rms, ih fun q hq => h q (List.mem_cons_of_mem _ hq), rstr_text, escape_plain (h p (List.mem_cons_self ..))]
    simp

theorem rv_object {k : Bytes} {j : J} {l : List (Bytes × J)} (hk : Plain k) (h : ∀ p ∈ l, Plain p.1) :
    rv (object ((k, j) :: l)) = 123 :: 34 :: (k ++ 34 :: 58 :: (rv j ++ ((l.flatMap fun p => 44 :: 34 :: (p.1 ++ 34 :: 58 :: rv p.2)) ++ [125]))) := by
  unfold object
  rw [List.foldr_cons, rv, rms_fold l h, rstr_text, escape_plain hk]

theorem ok_object {l : List (Bytes × J)} (hk : ∀ p ∈ l, Plain p.1) (h : ∀ p ∈ l, Ok p.2) : Ok (object l) := by
  unfold object
  show OkMs _
  induction l with
  | nil => trivial
  | cons p l ih =>
    exact ⟨ok_key (hk p (List.mem_cons_self ..)), h p (List.mem_cons_self ..),
      ih (fun q hq => hk q (List.mem_cons_of_mem _ hq)) (fun q hq => h q (List.mem_cons_of_mem _ hq))⟩

theorem ok_str {s : Bytes} (h : Clean s) : Ok (str s) := clean_ok h

theorem ok_nat (n : Nat) : Ok (nat n) := ⟨rfl, rfl, rfl⟩

theorem plain_of_dec {k : Bytes} (h : k.all (fun c => 32 ≤ c && c ≠ 34 && c ≠ 92) = true) : Plain k := by
  intro c hc
  have := List.all_eq_true.1 h c hc
  simp only [Bool.and_eq_true, decide_eq_true_eq] at this
  exact ⟨this.1.1, this.1.2, this.2⟩

theorem rjs_fold (l : List J) : rjs (l.foldr Js.cons Js.nil) = (l.flatMap fun j => 44 :: rv j) ++ [93] := by
  induction l with
  | nil => rw [List.foldr_nil, rjs]; rfl
  | cons j l ih => rw [List.foldr_cons, rjs, ih]; simp

theorem joined_rv (j : J) (l : List J) : rv j ++ (l.flatMap fun j => 44 :: rv j) = joined ((j :: l).map rv) := by
  induction l generalizing j with
  | nil => simp [joined, sepBy]
  | cons k l ih =>
    have := ih k
    simp only [List.flatMap_cons, List.map_cons]
    show rv j ++ (44 :: rv k ++ _) = rv j ++ 44 :: sepBy 44 (rv k :: l.map rv)
    rw [List.cons_append, this]
    rfl

theorem rv_array (l : List J) : rv (array l) = 91 :: (joined (l.map rv) ++ [93]) := by
  unfold array
  cases l with
  | nil => rw [List.foldr_nil, rv]; rfl
  | cons j l =>
    rw [List.foldr_cons, rv, rjs_fold, ← List.append_assoc]
    congr 2
    exact joined_rv j l

theorem ok_array {l : List J} (h : ∀ j ∈ l, Ok j) : Ok (array l) := by
  unfold array
  show OkJs _
  induction l with
  | nil => trivial
  | cons j l ih => exact ⟨h j (List.mem_cons_self ..), ih fun k hk => h k (List.mem_cons_of_mem _ hk)⟩

/-! ## Frames -/

theorem keys_plain {l : List (Bytes × J)} (h : (l.map (·.1)).all (fun k => k.all (fun c => 32 ≤ c && c ≠ 34 && c ≠ 92)) = true) :
    ∀ p ∈ l, Plain p.1 := fun p hp => plain_of_dec (List.all_eq_true.1 h p.1 (List.mem_map_of_mem hp))


theorem frame_says {E : Json.Env} (hE : E.v2 = none) {id : Bytes} (hid : Plain id) {b : Body} {j : J} (h : FrameSays E id b j) :
    frame E .v3 id b = .ok (rv j) ∧ Ok j := by
  have hk : ∀ k : Bytes, k.all (fun c => 32 ≤ c && c ≠ 34 && c ≠ 92) = true → Plain k := fun _ => plain_of_dec
  cases h with
  | unknown d =>
    constructor
    · have e : rv (object [(/- id -/ [105, 100], str id), (/- size -/ [115, 105, 122, 101], nat d.length)]) = head id d.length ++ /- } -/ [125] := by
        rw [rv_object (hk _ (by decide)) (keys_plain (by rfl)), rv_plain hid]
        simp [head, rv_nat]
      rw [e]; rfl
    · refine ok_object (keys_plain (by rfl)) ?_
      simp only [List.mem_cons, List.not_mem_nil, or_false, forall_eq_or_imp, forall_eq]
      exact ⟨ok_str (plain_clean hid), ok_nat _⟩
  | text u t s h1 h2 =>
    constructor
    · rw [rv_object (hk _ (by decide)) (keys_plain (by rfl)), rv_plain hid]
      delta frame
      simp [head, cat, Env.quoted, textOf_asStr hE h1, rv_nat, rv_str, Body.size, Res.bind]
    · refine ok_object (keys_plain (by rfl)) ?_
      simp only [List.mem_cons, List.not_mem_nil, or_false, forall_eq_or_imp, forall_eq]
      exact ⟨ok_str (plain_clean hid), ok_nat _, ok_str h2⟩
  | txxx x d s h1 h2 h3 h4 =>
    constructor
    · rw [rv_object (hk _ (by decide)) (keys_plain (by rfl)), rv_plain hid]
      delta frame
      simp [head, cat, Env.quoted, textOf_asStr hE h1, textOf_asStr hE h2, rv_nat, rv_str, Body.size, Res.bind]
    · refine ok_object (keys_plain (by rfl)) ?_
      simp only [List.mem_cons, List.not_mem_nil, or_false, forall_eq_or_imp, forall_eq]
      exact ⟨ok_str (plain_clean hid), ok_nat _, ok_str h3, ok_str h4⟩
  | comm x u d s hu h1 h2 h3 h4 =>
    constructor
    · rw [rv_object (hk _ (by decide)) (keys_plain (by rfl)), rv_plain hid]
      delta frame
      simp [head, cat, Env.quoted, hu, textOf_asStr hE h1, textOf_asStr hE h2, rv_nat, rv_str, Body.size, Res.bind]
    · refine ok_object (keys_plain (by rfl)) ?_
      simp only [List.mem_cons, List.not_mem_nil, or_false, forall_eq_or_imp, forall_eq]
      exact ⟨ok_str (plain_clean hid), ok_nat _, ok_str h3, ok_str h4⟩
  | popm p e h1 h2 h3 h4 =>
    constructor
    · rw [rv_object (hk _ (by decide)) (keys_plain (by rfl)), rv_plain hid]
      delta frame
      simp [head, cat, Env.quoted, latin_ok hE h1, numb, Popm.count, counterCount_ok h3 h4, rv_nat, rv_str, Body.size, Res.bind]
    · refine ok_object (keys_plain (by rfl)) ?_
      simp only [List.mem_cons, List.not_mem_nil, or_false, forall_eq_or_imp, forall_eq]
      exact ⟨ok_str (plain_clean hid), ok_nat _, ok_str h2, ok_nat _, ok_nat _⟩
  | encr x e h1 h2 =>
    constructor
    · rw [rv_object (hk _ (by decide)) (keys_plain (by rfl)), rv_plain hid]
      delta frame
      simp [head, cat, Env.quoted, latin_ok hE h1, rv_nat, rv_str, Body.size, Res.bind]
    · refine ok_object (keys_plain (by rfl)) ?_
      simp only [List.mem_cons, List.not_mem_nil, or_false, forall_eq_or_imp, forall_eq]
      exact ⟨ok_str (plain_clean hid), ok_nat _, ok_str h2⟩
  | priv x e h1 h2 =>
    constructor
    · rw [rv_object (hk _ (by decide)) (keys_plain (by rfl)), rv_plain hid]
      delta frame
      simp [head, cat, Env.quoted, latin_ok hE h1, rv_nat, rv_str, Body.size, Res.bind]
    · refine ok_object (keys_plain (by rfl)) ?_
      simp only [List.mem_cons, List.not_mem_nil, or_false, forall_eq_or_imp, forall_eq]
      exact ⟨ok_str (plain_clean hid), ok_nat _, ok_str h2⟩

theorem takeWhile_all {p : Byte → Bool} {l : Bytes} (h : ∀ c ∈ l, p c = true) : l.takeWhile p = l := by
  induction l with
  | nil => rfl
  | cons c l ih => rw [List.takeWhile_cons_of_pos (h c (List.mem_cons_self ..)), ih fun d hd => h d (List.mem_cons_of_mem _ hd)]

theorem cstr_rv {j : J} (h : Ok j) : cstr .v3 (rv j) = .ok (rv j) := by
  unfold cstr
  simp only
  have : (rv j).takeWhile (· ≠ 0) = rv j := by
    refine takeWhile_all ?_
    intro c hc
    have := rv_ge j h c hc
    simp only [ne_eq, decide_not, Bool.not_eq_true', decide_eq_false_iff_not]
    rintro rfl
    revert this; decide
  rw [this]

theorem frames_say {E : Json.Env} (hE : E.v2 = none) {fs : List Frame4} {js : List J} (h : FramesSay E fs js) :
    frames E .v3 (fs.map parts4) = .ok (js.map rv) ∧ ∀ j ∈ js, Ok j := by
  induction h with
  | nil => exact ⟨rfl, by simp⟩
  | @cons f fs j js hp hf _ ih =>
    obtain ⟨h1, h2⟩ := frame_says hE hp hf
    constructor
    · simp only [List.map_cons, frames, parts4, h1, Res.bind, cstr_rv h2]
      rw [show (fs.map fun f => _) = fs.map parts4 from rfl, ih.1]
    · intro k hk
      rcases List.mem_cons.1 hk with rfl | hk
      · exact h2
      · exact ih.2 k hk

/-! ## Tags, track data -/

/-- Code that puts something, whatever the state of the stream, and goes on. -/
def Gives (p : Pr) (b : Bytes) : Prop := ∀ s, ∃ h, p s = (⟨s.out ++ b, h⟩, .ok ())

theorem gives_nop : Gives Pr.nop [] := fun s => ⟨s.hex, by simp [Pr.nop]⟩

theorem gives_put (b : Bytes) : Gives (Pr.put b) b := fun s => ⟨s.hex, rfl⟩

theorem gives_seq {p q : Pr} {a b : Bytes} (hp : Gives p a) (hq : Gives q b) : Gives (Pr.seq p q) (a ++ b) := by
  intro s
  obtain ⟨h, e⟩ := hp s
  obtain ⟨h', e'⟩ := hq ⟨s.out ++ a, h⟩
  exact ⟨h', by simp only [Pr.seq, e]; rw [e']; simp⟩

theorem gives_all_nil : Gives (Pr.all []) [] := gives_nop

theorem gives_all_cons {p : Pr} {ps : List Pr} {a b : Bytes} (hp : Gives p a) (hq : Gives (Pr.all ps) b) : Gives (Pr.all (p :: ps)) (a ++ b) :=
  gives_seq hp hq

theorem tag23_gives {E : Json.Env} (hE : E.v2 = none) {t t' : Tag23} {n : Nat} {js : List J} (hs : t.size E.z false = .ok (n, t'))
    (hf : FramesSay E t.frames js) {j : J}
    (hj : j = object [(/- version -/ [118, 101, 114, 115, 105, 111, 110], str (/- 2.3 -/ [50, 46, 51])), (/- unsynchronised -/ [117, 110, 115, 121, 110, 99, 104, 114, 111, 110, 105, 115, 101, 100], .bool t.unsync.isSome),
        (/- flags -/ [102, 108, 97, 103, 115], nat t.flags.toNat), (/- size -/ [115, 105, 122, 101], nat n), (/- padding -/ [112, 97, 100, 100, 105, 110, 103], nat t.padding), (/- frames -/ [102, 114, 97, 109, 101, 115], array js)]) :
    Gives (tag23 E t) (rv j) ∧ Ok j := by
  obtain ⟨h1, h2⟩ := frames_say hE hf
  subst hj
  constructor
  · intro s
    refine ⟨false, ?_⟩
    rw [rv_object (plain_of_dec (by decide)) (keys_plain (by rfl)), rv_plain (plain_of_dec (by decide))]
    simp [tag23, Pr.all, Pr.seq, Pr.put, Pr.base, Pr.num, putNum, Pr.value, Pr.nop, hs, h1, Res.bind, rv_nat, rv_array, rv]
  · refine ok_object (keys_plain (by rfl)) ?_
    simp only [List.mem_cons, List.not_mem_nil, or_false, forall_eq_or_imp, forall_eq]
    exact ⟨ok_str (plain_clean (plain_of_dec (by decide))), trivial, ok_nat _, ok_nat _, ok_nat _, ok_array h2⟩

/-- What the program says about unsynchronisation. -/
def unsyncSaid (t : Tag23) : Bool := t.unsync.isSome

theorem tag_gives {E : Json.Env} (hE : E.v2 = none) {t : AnyTag} {j : J} (h : TagSays E unsyncSaid t j) : Gives (Json.tag E t) (rv j) ∧ Ok j := by
  cases h with
  | v3 t t' n js h1 h2 => exact tag23_gives hE h1 h2 rfl

theorem rv_obj_stop (l : List (Bytes × J)) (b : Bytes) : Stop (rv (object l) ++ b) := by
  cases l with
  | nil => unfold object; rw [List.foldr_nil, rv]; exact stop_cons (by decide)
  | cons p l => unfold object; rw [List.foldr_cons, rv]; exact stop_cons (by decide)

/-- Values that are objects. -/
def IsObj (j : J) : Prop := ∃ l, j = object l

theorem renders_append {js : List J} (h : ∀ j ∈ js, Ok j ∧ IsObj j) {ks : List J} {b : Bytes} (hk : Renders ks b) (hb : Stop b) :
    Renders (js ++ ks) (js.flatMap rv ++ b) ∧ Stop (js.flatMap rv ++ b) := by
  induction js with
  | nil => exact ⟨hk, hb⟩
  | cons j js ih =>
    obtain ⟨h1, h2⟩ := ih fun k hk => h k (List.mem_cons_of_mem _ hk)
    obtain ⟨h3, l, rfl⟩ := h j (List.mem_cons_self ..)
    constructor
    · simp only [List.flatMap_cons, List.append_assoc, List.cons_append]
      exact .cons h3 h2 h1
    · simp only [List.flatMap_cons, List.append_assoc]
      exact rv_obj_stop l _

theorem tags_give {E : Json.Env} (hE : E.v2 = none) {ts : List AnyTag} {js : List J} (h : TagsSay E unsyncSaid ts js) :
    Gives (Pr.all (ts.map (Json.tag E))) (js.flatMap rv) ∧ ∀ j ∈ js, Ok j ∧ IsObj j := by
  induction h with
  | nil => exact ⟨gives_nop, by simp⟩
  | @cons t ts j js ht _ ih =>
    obtain ⟨h1, h2⟩ := tag_gives hE ht
    refine ⟨gives_all_cons h1 ih.1, ?_⟩
    intro k hk
    rcases List.mem_cons.1 hk with rfl | hk
    · cases ht with
      | v3 => exact ⟨h2, _, rfl⟩
    · exact ih.2 k hk

theorem hexPairs_unique {h h' md5 : Bytes} (a : Spec.HexPairs h md5) (b : Spec.HexPairs h' md5) : h = h' := by
  induction a generalizing h' with
  | nil => cases b; rfl
  | cons c d i j b' s l h1 h2 h3 _ ih =>
    cases b with
    | cons c' d' i' j' _ s' _ k1 k2 k3 k4 =>
      have := ih k4
      subst this
      have e : 16 * i + j = 16 * i' + j' := by
        have h4 := congrArg UInt8.toNat (h3.symm.trans k3)
        have := h1.1; have := h2.1; have := k1.1; have := k2.1
        rw [UInt8.toNat_ofNat', UInt8.toNat_ofNat', Nat.mod_eq_of_lt (by omega), Nat.mod_eq_of_lt (by omega)] at h4
        exact h4
      have hi : i = i' := by have := h1.1; have := h2.1; have := k1.1; have := k2.1; omega
      have hj : j = j' := by omega
      subst hi; subst hj
      rw [h1.2, h2.2, k1.2, k2.2]

theorem track_gives (md5 : Bytes) : ∃ j, TrackSays md5 j ∧ Gives (Json.track md5) (rv j) ∧ Ok j ∧ IsObj j := by
  obtain ⟨h1, h2⟩ := Report.hexPairs_spec md5
  have hp : Plain (md5.flatMap hex2) := by
    intro c hc
    obtain ⟨b, _, hc⟩ := List.mem_flatMap.1 hc
    have key : ∀ n, n < 16 → 32 ≤ hexDigit n ∧ hexDigit n ≠ 34 ∧ hexDigit n ≠ 92 := by decide
    have hb := b.toNat_lt
    simp only [hex2, List.mem_cons, List.not_mem_nil, or_false] at hc
    rcases hc with rfl | rfl
    · exact key _ (by omega)
    · exact key _ (Nat.mod_lt _ (by decide))
  refine ⟨object [(/- md5 -/ [109, 100, 53], str (md5.flatMap hex2))], ⟨_, h1, rfl⟩, ?_, ?_, _, rfl⟩
  · intro s
    refine ⟨true, ?_⟩
    rw [rv_object (plain_of_dec (by decide)) (keys_plain (by rfl)), rv_plain hp]
    simp [track, Pr.all, Pr.seq, Pr.put, Pr.base, Pr.nop]
  · refine ok_object (keys_plain (by rfl)) ?_
    simp only [List.mem_cons, List.not_mem_nil, or_false, forall_eq]
    exact ok_str (plain_clean hp)

theorem field_ok {E : Json.Env} {b s : Bytes} (h : Utf8 E E.v1 b s) : E.field b = .ok s := utf8_conv h

theorem v1_gives {E : Json.Env} {t : V1Tag} {j : J} (h : V1Says E t j) : Gives (tag1 E t) (rv j) ∧ Ok j ∧ IsObj j := by
  cases h with
  | mk al ar co ti ye tr ge h1 h2 h3 h4 h5 p1 p2 p3 p4 p5 ht hg =>
    have f1 := field_ok h1
    have f2 := field_ok h2
    have f3 := field_ok h3
    have f4 := field_ok h4
    have f5 := field_ok h5
    have hv : rv (str (version1 t)) = 34 :: (version1 t ++ [34]) := by
      apply rv_plain; unfold version1; split <;> exact plain_of_dec (by decide)
    have hvc : Clean (version1 t) := by
      apply plain_clean; unfold version1; split <;> exact plain_of_dec (by decide)
    have hve : version1 t = /- 1 -/ [49] ++ (if t.v11 then /- .1 -/ [46, 49] else []) ++ (if t.extended then /- -enh -/ [45, 101, 110, 104] else []) := by
      unfold version1; cases t.v11 <;> cases t.extended <;> rfl
    have k1 : ∀ p ∈ tr, Plain p.1 ∧ Ok p.2 := by
      rcases ht with ⟨_, rfl⟩ | ⟨_, n, _, rfl⟩
      · simp
      · intro p hp; simp only [List.mem_singleton] at hp; subst hp
        exact ⟨plain_of_dec (by rfl), ok_nat _⟩
    have k2 : ∀ p ∈ ge, Plain p.1 ∧ Ok p.2 := by
      rcases hg with ⟨_, rfl⟩ | ⟨_, g, _, hc, rfl⟩
      · simp
      · intro p hp; simp only [List.mem_singleton] at hp; subst hp
        exact ⟨plain_of_dec (by rfl), ok_str hc⟩
    have k3 : ∀ p ∈ [(/- album -/ [97, 108, 98, 117, 109], str al), (/- artist -/ [97, 114, 116, 105, 115, 116], str ar), (/- comment -/ [99, 111, 109, 109, 101, 110, 116], str co),
        (/- genre -/ [103, 101, 110, 114, 101], nat t.genre.toNat), (/- title -/ [116, 105, 116, 108, 101], str ti), (/- year -/ [121, 101, 97, 114], str ye)], Plain p.1 ∧ Ok p.2 := by
      simp only [List.mem_cons, List.not_mem_nil, or_false, forall_eq_or_imp, forall_eq]
      exact ⟨⟨plain_of_dec (by decide), ok_str (plain_clean p1)⟩, ⟨plain_of_dec (by decide), ok_str p2⟩, ⟨plain_of_dec (by decide), ok_str p3⟩,
        ⟨plain_of_dec (by decide), ok_nat _⟩, ⟨plain_of_dec (by decide), ok_str p4⟩, ⟨plain_of_dec (by decide), ok_str p5⟩⟩
    have k4 : ∀ p ∈ [(/- album -/ [97, 108, 98, 117, 109], str al), (/- artist -/ [97, 114, 116, 105, 115, 116], str ar), (/- comment -/ [99, 111, 109, 109, 101, 110, 116], str co),
        (/- genre -/ [103, 101, 110, 114, 101], nat t.genre.toNat), (/- title -/ [116, 105, 116, 108, 101], str ti), (/- year -/ [121, 101, 97, 114], str ye)] ++ tr ++ ge, Plain p.1 ∧ Ok p.2 := by
      intro p hp
      rcases List.mem_append.1 hp with hp | hp
      · rcases List.mem_append.1 hp with hp | hp
        · exact k3 p hp
        · exact k1 p hp
      · exact k2 p hp
    refine ⟨?_, ?_, _, rfl⟩
    · have e := rv_object (k := /- version -/ [118, 101, 114, 115, 105, 111, 110]) (j := str (version1 t)) (plain_of_dec (by decide)) (fun p hp => (k4 p hp).1)
      simp only [List.cons_append, List.nil_append] at e ⊢
      rw [e, hv, hve]
      clear e k4 k3 k2 k1
      intro s
      rcases ht with ⟨v, rfl⟩ | ⟨v, n, hn, rfl⟩ <;> rcases hg with ⟨x, rfl⟩ | ⟨x, g, hgg, hc, rfl⟩
      · refine ⟨false, ?_⟩
        simp [tag1, Pr.all, Pr.seq, Pr.put, Pr.base, Pr.num, Pr.value, Pr.nop, Env.quoted, Res.bind, f1, f2, f3, f4, f5, v, x, rv_nat, rv_str,
          escape_plain p1]
      · refine ⟨false, ?_⟩
        simp [tag1, Pr.all, Pr.seq, Pr.put, Pr.base, Pr.num, Pr.value, Pr.nop, Env.quoted, Res.bind, f1, f2, f3, f4, f5, v, x, rv_nat, rv_str,
          escape_plain p1, field_ok hgg]
      · refine ⟨false, ?_⟩
        simp [tag1, Pr.all, Pr.seq, Pr.put, Pr.base, Pr.num, Pr.value, Pr.nop, Env.quoted, Res.bind, f1, f2, f3, f4, f5, v, x, rv_nat, rv_str,
          escape_plain p1, Tag22.use, hn, putNum]
      · refine ⟨false, ?_⟩
        simp [tag1, Pr.all, Pr.seq, Pr.put, Pr.base, Pr.num, Pr.value, Pr.nop, Env.quoted, Res.bind, f1, f2, f3, f4, f5, v, x, rv_nat, rv_str,
          escape_plain p1, field_ok hgg, Tag22.use, hn, putNum]
    · refine ok_object ?_ ?_
      · intro p hp
        rcases List.mem_cons.1 hp with rfl | hp
        · exact plain_of_dec (by rfl)
        · exact (k4 p hp).1
      · intro p hp
        rcases List.mem_cons.1 hp with rfl | hp
        · exact ok_str hvc
        · exact (k4 p hp).2

/-! ## Files -/

theorem shown_iff (o : Opts) (b : Bool) : Shown o b ↔ (b || o.all) = true := by
  unfold Shown Opts.all
  cases b <;> cases o.v1 <;> cases o.track <;> cases o.v2 <;> simp

theorem file_gives {E : Json.Env} (hE : E.v2 = none) {o : Opts} {f : Facts} {js : List J} (h : FileSays E unsyncSaid o f js) :
    Gives (put E o f) (js.flatMap rv ++ [10]) ∧ ∀ j ∈ js, Ok j ∧ IsObj j := by
  obtain ⟨a, b, c, rfl, ha, hb, hc⟩ := h
  have A : Gives (if (o.v2 || o.all) = true then Pr.all (f.v2.map (Json.tag E)) else Pr.nop) (a.flatMap rv) ∧ ∀ j ∈ a, Ok j ∧ IsObj j := by
    rcases ha with ⟨hs, ha⟩ | ⟨hs, rfl⟩
    · rw [if_pos ((shown_iff ..).1 hs)]; exact tags_give hE ha
    · rw [if_neg (fun h => hs ((shown_iff ..).2 h))]; exact ⟨gives_nop, by simp⟩
  have B : Gives (if (o.track || o.all) = true then Json.track f.md5 else Pr.nop) (b.flatMap rv) ∧ ∀ j ∈ b, Ok j ∧ IsObj j := by
    rcases hb with ⟨hs, j, ⟨x, hx, rfl⟩, rfl⟩ | ⟨hs, rfl⟩
    · rw [if_pos ((shown_iff ..).1 hs)]
      obtain ⟨k, ⟨y, hy, rfl⟩, h1, h2, h3⟩ := track_gives f.md5
      have : x = y := hexPairs_unique hx hy
      subst this
      refine ⟨by simpa using h1, ?_⟩
      intro j hj; simp only [List.mem_singleton] at hj; subst hj; exact ⟨h2, h3⟩
    · rw [if_neg (fun h => hs ((shown_iff ..).2 h))]; exact ⟨gives_nop, by simp⟩
  have C : Gives (match f.v1 with
      | some t => if o.v1 || o.all then Json.tag1 E t else Pr.nop
      | none => Pr.nop) (c.flatMap rv) ∧ ∀ j ∈ c, Ok j ∧ IsObj j := by
    rcases hc with ⟨hs, ⟨hn, rfl⟩ | ⟨t, j, ht, hj, rfl⟩⟩ | ⟨hs, rfl⟩
    · rw [hn]; exact ⟨gives_nop, by simp⟩
    · rw [ht]
      simp only
      rw [if_pos ((shown_iff ..).1 hs)]
      obtain ⟨h1, h2, h3⟩ := v1_gives hj
      refine ⟨by simpa using h1, ?_⟩
      intro k hk; simp only [List.mem_singleton] at hk; subst hk; exact ⟨h2, h3⟩
    · cases f.v1 with
      | none => exact ⟨gives_nop, by simp⟩
      | some t => simp only; rw [if_neg (fun h => hs ((shown_iff ..).2 h))]; exact ⟨gives_nop, by simp⟩
  constructor
  · have := gives_all_cons A.1 (gives_all_cons B.1 (gives_all_cons C.1 (gives_all_cons (gives_put [10]) gives_all_nil)))
    have e : (a ++ b ++ c).flatMap rv ++ [10] = a.flatMap rv ++ (b.flatMap rv ++ (c.flatMap rv ++ ([10] ++ []))) := by
      simp [List.flatMap_append]
    rw [e]
    exact this
  · intro j hj
    rcases List.mem_append.1 hj with hj | hj
    · rcases List.mem_append.1 hj with hj | hj
      · exact A.2 j hj
      · exact B.2 j hj
    · exact C.2 j hj

/-- What is printed about several files. -/
def printed (jss : List (List J)) : Bytes := jss.flatMap fun js => js.flatMap rv ++ [10]

/-- Whether the expression takes a path. -/
def takes (o : Opts) (p : Path) : Bool := match o.filter with | some f => f p | none => true

theorem one_skip {E : Json.Env} {w : World} {o : Opts} {p : Path} (h : takes o p = false) (s : OS) : one E w o p s = .ok s := by
  unfold one
  unfold takes at h
  cases hf : o.filter with
  | none => rw [hf] at h; cases h
  | some f => rw [hf] at h; simp only at h; simp [h]

theorem one_says {E : Json.Env} (hE : E.v2 = none) {w : World} {o : Opts} {p : Path} (ht : takes o p = true) {f : Facts} {js : List J}
    (hr : readFile E.z E.md5 (w.file p).data = .ok f) (h : FileSays E unsyncSaid o f js) (s : OS) :
    ∃ h, one E w o p s = .ok ⟨s.out ++ (js.flatMap rv ++ [10]), h⟩ := by
  obtain ⟨h1, _⟩ := file_gives hE h
  obtain ⟨x, e⟩ := h1 s
  refine ⟨x, ?_⟩
  unfold one
  unfold takes at ht
  cases hf : o.filter with
  | none => simp [hr, e]
  | some f => rw [hf] at ht; simp only at ht; simp [ht, hr, e]

theorem filesSay_append {E : Json.Env} {unsync : Tag23 → Bool} {w : World} {o : Opts} {ps qs : List Path} {jss : List (List J)}
    (h : FilesSay E unsync w o (ps ++ qs) jss) :
    ∃ a b, jss = a ++ b ∧ FilesSay E unsync w o ps a ∧ FilesSay E unsync w o qs b := by
  induction ps generalizing jss with
  | nil => exact ⟨[], jss, rfl, .nil, h⟩
  | cons p ps ih =>
    cases h with
    | cons h1 h2 h3 =>
      obtain ⟨a, b, rfl, ha, hb⟩ := ih h3
      exact ⟨_ :: a, b, rfl, .cons h1 h2 ha, hb⟩

theorem walk_says {E : Json.Env} (hE : E.v2 = none) {w : World} {o : Opts} (es : List Entry) {jss : List (List J)}
    (h : FilesSay E unsyncSaid w o (((es.filter (·.regular)).map (·.path)).filter (takes o)) jss) (s : OS) :
    ∃ h, walk E w o es s = .ok ⟨s.out ++ printed jss, h⟩ := by
  induction es generalizing s jss with
  | nil => cases h; exact ⟨s.hex, by simp [walk, printed]⟩
  | cons e es ih =>
    rw [walk]
    by_cases hr : e.regular = true
    · rw [if_pos hr]
      rw [List.filter_cons_of_pos (by simpa using hr), List.map_cons] at h
      by_cases ht : takes o e.path = true
      · rw [List.filter_cons_of_pos ht] at h
        cases h with
        | cons h1 h2 h3 =>
          obtain ⟨x, hx⟩ := one_says hE ht h1 h2 s
          obtain ⟨y, hy⟩ := ih h3 ⟨_, x⟩
          refine ⟨y, ?_⟩
          rw [hx]
          show walk E w o es _ = _
          rw [hy]
          simp [printed]
      · rw [List.filter_cons_of_neg ht] at h
        rw [one_skip (by simpa using ht)]
        exact ih h s
    · rw [if_neg hr]
      rw [List.filter_cons_of_neg (by simpa using hr)] at h
      exact ih h s

theorem args_say {E : Json.Env} (hE : E.v2 = none) {w : World} {o : Opts} {ps qs : List Path} (hd : Dumped w o ps qs)
    {jss : List (List J)} (h : FilesSay E unsyncSaid w o qs jss) (s : OS) :
    ∃ h, args E w o ps s = .ok (⟨s.out ++ printed jss, h⟩, none) := by
  induction hd generalizing jss s with
  | nil => cases h; exact ⟨s.hex, by simp [args, printed]⟩
  | @file p ps qs hi hr _ ih =>
    change FilesSay E unsyncSaid w o ([p].filter (takes o) ++ qs) jss at h
    rw [args, hi]
    simp only
    rw [if_pos hr]
    by_cases ht : takes o p = true
    · rw [show [p].filter (takes o) = [p] from List.filter_cons_of_pos ht] at h
      cases h with
      | cons h1 h2 h3 =>
        obtain ⟨x, hx⟩ := one_says hE ht h1 h2 s
        obtain ⟨y, hy⟩ := ih h3 ⟨_, x⟩
        refine ⟨y, ?_⟩
        rw [hx]
        show args E w o ps _ = _
        rw [hy]
        simp [printed]
    · rw [show [p].filter (takes o) = [] from List.filter_cons_of_neg ht] at h
      rw [one_skip (by simpa using ht)]
      exact ih h s
  | @dir p ps qs es hi _ ih =>
    rw [args, hi]
    simp only
    obtain ⟨a, b, rfl, ha, hb⟩ := filesSay_append h
    obtain ⟨x, hx⟩ := walk_says hE es ha s
    obtain ⟨y, hy⟩ := ih hb ⟨_, x⟩
    refine ⟨y, ?_⟩
    rw [hx]
    show args E w o ps _ = _
    rw [hy]
    simp [printed]

theorem printed_renders {E : Json.Env} (hE : E.v2 = none) {w : World} {o : Opts} {qs : List Path} {jss : List (List J)}
    (h : FilesSay E unsyncSaid w o qs jss) : Renders jss.flatten (printed jss) ∧ Stop (printed jss) := by
  induction h with
  | nil => exact ⟨.nil, by intro c hc; simp [printed] at hc⟩
  | @cons p ps f js jss _ h2 _ ih =>
    obtain ⟨_, h3⟩ := file_gives hE h2
    have := renders_append h3 (.nl ih.1) (stop_cons (c := 10) (by decide))
    simpa [printed] using this

end Scribbu.Dump
