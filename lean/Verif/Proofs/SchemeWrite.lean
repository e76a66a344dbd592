import Verif.Spec.SchemeWrite
import Verif.Proofs.Scheme
import Verif.Proofs.TagCloud
import Verif.Props.Tagset
import Verif.Props.Tag23

/-! What `write-tagset` does with objects: lemmas. -/

namespace Scribbu.Proofs.Scheme
open Scribbu.Scheme Scribbu.Spec Scribbu.Spec.Scheme

/-! ## Bodies -/

/-- The kinds of frames that objects of a class stand for. -/
def kindOf : Klass → Kind
  | .text => .text
  | .comment => .comm
  | .udt => .txxx
  | .playCount => .pcnt
  | .popm => .popm
  | .tagCloud => .xtag
  | .priv => .priv
  | _ => .unknown

theorem kind_doc : ∀ r ∈ documented, kind4 r.2.2 = kindOf (classOf r.1) ∧ r.2.2 ≠ ⟨0, 0, 0, 0⟩ ∧ r.2.2 ≠ mkId4 'E' 'N' 'C' 'R' := by
  decide +kernel

theorem doc_kind : ∀ r ∈ documented, kind4 r.2.2 ≠ .unknown := by
  decide +kernel

theorem elements_list (l : List Val) : elements? (list l) = some l := by
  induction l with
  | nil => rfl
  | cons v l ih => simp only [list, elements?, ih, Option.map_some]

theorem str_ok {b : Bytes} (h : (0 : Byte) ∉ b) : cstr (.str b) = .ok b := by
  simp only [cstr, if_neg h]

theorem strs_ok {vs : List Bytes} (h : ∀ v ∈ vs, (0 : Byte) ∉ v) : Ret.all cstr (vs.map .str) = .ok vs := by
  induction vs with
  | nil => rfl
  | cons v vs ih =>
    simp only [List.map_cons, Ret.all, str_ok (h v (by simp)), ih fun w hw => h w (by simp [hw]), ok_bind]

theorem insertAll_set {vs : List Bytes} (h : SetOk vs) : insertAll vs = vs := by
  have := foldl_setInsert (vs := vs) (s := []) (by simpa using h)
  simpa [insertAll] using this

theorem entry_ok {e : Bytes × List Bytes} (hk : (0 : Byte) ∉ e.1) (hv : ∀ v ∈ e.2, (0 : Byte) ∉ v) (hs : SetOk e.2) :
    cloudEntry (.cons (.str e.1) (list (e.2.map .str))) = .ok e := by
  have : cloudEntry (.cons (.str e.1) (list (e.2.map .str))) =
      (Ret.all cstr (e.2.map .str)).bind fun vs => .ok (e.1, insertAll vs) := by
    simp only [cloudEntry, str_ok hk, ok_bind]
    have h2 := elements_list (e.2.map Val.str)
    cases h : e.2 with
    | nil => rfl
    | cons a l =>
      rw [h] at h2
      simp only [List.map_cons, list] at h2 ⊢
      rw [h2]
  rw [this, strs_ok hv, ok_bind, insertAll_set hs]

theorem mapUpd_first {k : Bytes} {vs : List Bytes} {m : TagMap} (h : ∀ e ∈ m, strLt k e.1 = true) :
    mapUpd k (fun _ => vs) m = (k, vs) :: m := by
  cases m with
  | nil => rfl
  | cons e m =>
    obtain ⟨k', s⟩ := e
    have h1 := h (k', s) (by simp)
    unfold mapUpd
    rw [if_neg (strLt_ne h1), if_pos h1]

theorem cloudOf_rev (m acc : TagMap) (hm : MapOk (m ++ acc)) (hk : ∀ e ∈ m, (0 : Byte) ∉ e.1 ∧ ∀ v ∈ e.2, (0 : Byte) ∉ v) :
    cloudOf (m.reverse.map fun e => .cons (.str e.1) (list (e.2.map .str))) acc = .ok (m ++ acc) := by
  generalize hn : m.length = n
  induction n generalizing m acc with
  | zero =>
    have : m = [] := List.length_eq_zero_iff.1 hn
    subst this
    rfl
  | succ n ih =>
    obtain ⟨m', e, rfl⟩ : ∃ m' e, m = m' ++ [e] := by
      have : m ≠ [] := by rintro rfl; simp at hn
      exact ⟨m.dropLast, m.getLast this, (List.dropLast_concat_getLast this).symm⟩
    simp only [List.reverse_append, List.reverse_cons, List.reverse_nil, List.nil_append, List.cons_append, List.map_cons]
    unfold cloudOf
    have he := hk e (by simp)
    have hs : SetOk e.2 := hm.2 e (by simp)
    rw [entry_ok he.1 he.2 hs, ok_bind]
    have hlt : ∀ x ∈ acc, strLt e.1 x.1 = true := by
      intro x hx
      have := hm.1
      rw [List.append_assoc, List.pairwise_append] at this
      have := this.2.1
      simp only [List.cons_append, List.nil_append, List.pairwise_cons] at this
      exact this.1 x hx
    rw [mapUpd_first hlt]
    have hm' : MapOk (m' ++ (e.1, e.2) :: acc) := by simpa using hm
    rw [ih m' _ hm' (fun x hx => hk x (by simp [hx])) (by simp at hn; omega)]
    simp

theorem cloudMap_ok {m : TagMap} (hm : MapOk m) (hk : ∀ e ∈ m, (0 : Byte) ∉ e.1 ∧ ∀ v ∈ e.2, (0 : Byte) ∉ v) :
    cloudMap .v3 (cloudList m) = .ok m := by
  have h := cloudOf_rev m [] (by simpa using hm) hk
  rw [List.append_nil] at h
  unfold cloudMap elements cloudList
  rw [elements_list]
  exact h

theorem encode_ok {E : Env} {back : Prop} {u : Byte} {e : Encoding} {s b : Bytes} (h : Stored E back u e s b) :
    E.encode e s = .ok b ∧ cstr (.str s) = .ok s := by
  unfold Env.encode
  rw [h.2.1]
  exact ⟨rfl, str_ok h.1⟩

theorem lang_ok {E : Env} {l : Byte × Byte × Byte} (h : KnownLanguage E l) :
    langCode E [l.1, l.2.1, l.2.2] = .ok l ∧ ∃ x, Language.parse [l.1, l.2.1, l.2.2] = .ok x := by
  obtain ⟨x, h1, h2⟩ := h
  refine ⟨?_, x, h1⟩
  unfold langCode
  rw [if_neg (by simp), h1, ofRes_ok, ok_bind, h2]
  rfl

/-- What is made of an object, and of that again. -/
theorem body_of_data {E : Env} {back : Prop} {c : Klass} {s : Val} {l : List Val} {d : Bytes} (h : Data E back c l d) :
    d ≠ [] ∧ ∃ b, serBody E .v3 c (s :: plainSlots ++ l) = .ok b ∧ b.serialize = .ok d ∧ b.size = d.length ∧
      (back → ∃ b', (∀ post, Body.parse .v3 (kindOf c) (d ++ post) d.length = .ok b') ∧ Says E .v3 b' c l) := by
  cases h with
  | text s b h =>
    obtain ⟨h1, h2⟩ := encode_ok h
    refine ⟨by simp, .text 0 b, ?_, rfl, by simp [Body.size]; omega, fun hb => ?_⟩
    · simp only [serBody, slot, plainSlots, List.cons_append, List.getElem?_cons_succ, List.getElem?_cons_zero, List.nil_append, ok_bind, h1, h2]
    · obtain ⟨w, k1, -, k3⟩ := body_rt .v3 .text (.text 0 b) trivial
      cases k1
      exact ⟨_, k3, .text 0 b s (h.2.2 hb).2 (h.2.2 hb).1⟩
  | comment l d t db tb hz hl hl' hd ht hn =>
    obtain ⟨h1, h2⟩ := encode_ok hd
    obtain ⟨h3, h4⟩ := encode_ok ht
    obtain ⟨h5, x, h6⟩ := lang_ok hl
    have h7 := str_ok hz
    refine ⟨by simp, .comm (Comm.make .v3 .yes l tb db), ?_, ?_, ?_, fun hb => ?_⟩
    · simp only [serBody, slot, plainSlots, List.cons_append, List.getElem?_cons_succ, List.getElem?_cons_zero, List.nil_append, ok_bind, h7, h2,
        h4, h6, h5, wide, h1, h3, reduceCtorEq, if_false, ofRes_ok]
    · rfl
    · simp [Body.size, Comm.size, Comm.make]; omega
    · have hw : WFBody .v3 .comm (.comm ⟨some .v3, some .ucs2, 2, some 1, some l, db, tb⟩) :=
        ⟨1, l, rfl, rfl, rfl, rfl, by decide, rfl, hn hb⟩
      obtain ⟨w, k1, -, k3⟩ := body_rt .v3 .comm _ hw
      have : w = [1] ++ [l.1, l.2.1, l.2.2] ++ db ++ [0, 0] ++ tb := by
        simp only [Body.serialize, Comm.write, Res.ok.injEq] at k1
        exact k1.symm
      subst this
      exact ⟨_, k3, .comment _ 1 l d t rfl rfl (hl' hb).1 (hl' hb).2 (hd.2.2 hb).2 (hd.2.2 hb).1 (ht.2.2 hb).2 (ht.2.2 hb).1⟩
  | udt d t db tb hd ht hn =>
    obtain ⟨h1, h2⟩ := encode_ok hd
    obtain ⟨h3, h4⟩ := encode_ok ht
    refine ⟨by simp, .txxx (Txxx.make .v3 .yes tb db), ?_, ?_, ?_, fun hb => ?_⟩
    · simp only [serBody, slot, plainSlots, List.cons_append, List.getElem?_cons_succ, List.getElem?_cons_zero, List.nil_append, ok_bind, h2,
        h4, wide, h1, h3]
    · rfl
    · simp [Body.size, Txxx.size, Txxx.make]; omega
    · have hw : WFBody .v3 .txxx (.txxx ⟨2, 1, db, tb⟩) := ⟨rfl, hn hb⟩
      obtain ⟨w, k1, -, k3⟩ := body_rt .v3 .txxx _ hw
      have : w = [1] ++ db ++ [0, 0] ++ tb := by
        simp only [Body.serialize, Txxx.write, Res.ok.injEq] at k1
        exact k1.symm
      subst this
      exact ⟨_, k3, .udt _ d t (hd.2.2 hb).2 (hd.2.2 hb).1 (ht.2.2 hb).2 (ht.2.2 hb).1⟩
  | playCount n h64 h32 =>
    have h0 := resetCounter_pos n
    have hne : resetCounter n ≠ [] := by intro hh; rw [hh] at h0; simp at h0
    refine ⟨hne, .pcnt (resetCounter n), ?_, rfl, rfl, fun hb => ?_⟩
    · simp only [serBody, slot, plainSlots, List.cons_append, List.getElem?_cons_succ, List.getElem?_cons_zero, List.nil_append, ok_bind,
        toUnsigned, h64, if_true]
    · obtain ⟨w, k1, -, k3⟩ := body_rt .v3 .pcnt (.pcnt (resetCounter n)) trivial
      cases k1
      have hl := resetCounter_length_le (n := n) (k := 4) (by decide) (by simpa using h32 hb)
      have := Says.playCount (E := E) (v := .v3) (resetCounter n) hne hl
      rw [resetCounter_val] at this
      exact ⟨_, k3, this⟩
  | popm e r n hz he h64 h32 =>
    have h0 := resetCounter_pos n
    have hne : resetCounter n ≠ [] := by intro hh; rw [hh] at h0; simp at h0
    have hr : r.toNat < 2 ^ 8 := r.toNat_lt
    refine ⟨by simp, .popm (Popm.make e r n), ?_, rfl, ?_, fun hb => ?_⟩
    · simp only [serBody, slot, plainSlots, List.cons_append, List.getElem?_cons_succ, List.getElem?_cons_zero, List.nil_append, ok_bind,
        toUnsigned, h64, if_true, str_ok hz, hr, UInt8.ofNat_toNat]
    · simp [Body.size, Popm.size, Popm.make]; omega
    · obtain ⟨w, k1, -, k3⟩ := body_rt .v3 .popm (.popm (Popm.make e r n)) hz
      cases k1
      have hl := resetCounter_length_le (n := n) (k := 4) (by decide) (by simpa using h32 hb)
      have := Says.popm (E := E) (v := .v3) (Popm.make e r n) e (he hb).2 (he hb).1 hne hl
      simp only [Popm.make, resetCounter_val] at this
      exact ⟨_, k3, this⟩
  | tagCloud t hm ho hk hb' =>
    refine ⟨by simp [TagCloud.write], .xtag t, ?_, rfl, (Props.C18_size t).symm, fun hb => ?_⟩
    · simp only [serBody, slot, plainSlots, List.cons_append, List.getElem?_cons_succ, List.getElem?_cons_zero, List.nil_append, ok_bind,
        str_ok ho, cloudMap_ok hm hk]
    · obtain ⟨w, k1, -, k3⟩ := body_rt .v3 .xtag (.xtag t) ⟨hm, ho, fun e he => ⟨(hk e he).1, (hk e he).2, ((hb' hb).2 e he).2⟩⟩
      cases k1
      exact ⟨_, k3, .tagCloud t (hb' hb).1 fun e he => ((hb' hb).2 e he).1⟩

/-! ## Frames -/

theorem doc_sym : ∀ r ∈ documented, (0 : Byte) ∉ r.1 ∧ (r.1 = /- priv-frame -/ [112, 114, 105, 118, 45, 102, 114, 97, 109, 101] → classOf r.1 = .priv) := by decide +kernel

theorem sym_ok {s : Bytes} (h : (0 : Byte) ∉ s) : symText (.sym s) = .ok s := by
  simp only [symText, if_neg h]

theorem frame4_plain (id : Id4) (d : Bytes) : frame4 .v3 id 0 0 d = frame23 id d := rfl

theorem raw_plain (id : Id4) (b : Body) (d : Bytes) :
    (rawOf .v3 (Frame4.new id b false false false false none none false none) d).bytes .v3 = frame23 id d := by
  have h : f0w .v3 (Frame4.new id b false false false false none none false none) = 0 := by
    simp only [f0w, Frame4.new]
    decide
  unfold Raw.bytes rawOf
  rw [h]
  rfl

theorem raw_frame (id : Id4) (b : Body) (d : Bytes) :
    Raw.frame .v3 ⟨id, 0, false, d, b⟩ = Frame4.new id b false false false false none none false none := by
  have h : attrs .v3 0 = (false, false, false) := by decide
  unfold Raw.frame
  rw [h]

theorem ser_unknown : lookup ser23 /- unknown-frame -/ [117, 110, 107, 110, 111, 119, 110, 45, 102, 114, 97, 109, 101] = none := by decide +kernel

/-- What is made of an object for a frame, and of that again. -/
theorem frame_of_obj {E : Env} {back : Prop} {o : Obj} {id : Id4} {d : Bytes} (h : FrameObj E back o id d) :
    ∃ f, serFrame4 E .v3 o = .ok f ∧ f.dirty = true ∧ Writable .v3 f d ∧ (rawOf .v3 f d).bytes .v3 = frame23 id d ∧
      (back → ∃ r : Raw, r.Ok .v3 ∧ r.bytes .v3 = frame23 id d ∧ FrameSays E .v3 false (r.frame .v3) o) := by
  cases h with
  | known s i id l d hdoc hdata hlen =>
    obtain ⟨hne, b, h1, h2, h3, h4⟩ := body_of_data (s := .sym s) hdata
    have hs : s ≠ /- priv-frame -/ [112, 114, 105, 118, 45, 102, 114, 97, 109, 101] := by
      intro hs
      have := (doc_sym _ hdoc).2 hs
      simp only at this
      rw [this] at hdata
      cases hdata
    obtain ⟨h5, h6⟩ := doc_ser (v := .v3) hdoc hs
    rw [if_neg (by decide)] at h5
    have h7 := sym_ok (doc_sym _ hdoc).1
    obtain ⟨k1, k2, k3⟩ := kind_doc _ hdoc
    have hl : d.length < maxSize4 .v3 := Nat.lt_trans hlen (by decide)
    refine ⟨Frame4.new id b false false false false none none false none, ?_, rfl, ⟨h2, h3, hl, rfl, rfl, rfl, rfl⟩, raw_plain _ _ _, fun hb => ?_⟩
    · have e : serAttrs 4 (.sym s :: plainSlots ++ l) = .ok (false, false, false, false) := rfl
      have e0 : slot (.sym s :: plainSlots ++ l) 0 = .ok (.sym s) := rfl
      unfold serFrame4
      simp only [e0, ok_bind, h7, if_neg (show ¬ (Ver.v3 = Ver.v4) by decide), h5, checkCls, if_true, e, h6, h1, orUnknown]
      rfl
    · obtain ⟨b', h8, h9⟩ := h4 hb
      refine ⟨⟨id, 0, false, d, b'⟩, ⟨k2, hne, hl, k3, by simp, fun post => ?_⟩, rfl, ?_⟩
      · simp only at k1
        rw [k1]
        exact h8 post
      · rw [raw_frame]
        exact .known (f := Frame4.new id b' false false false false none none false none) s i l hdoc h9
  | unknown id d hne hz hk hlen ht =>
    have hl : d.length < maxSize4 .v3 := Nat.lt_trans hlen (by decide)
    have hdoc : ∀ s i, (s, i, id) ∈ documented → s = /- priv-frame -/ [112, 114, 105, 118, 45, 102, 114, 97, 109, 101] := fun s i hm => absurd hk (doc_kind _ hm)
    have hdrop : (frame23 id d).drop 10 = d := rfl
    have hlen' : 10 ≤ (frame23 id d).length := by simp [frame23, be32]
    refine ⟨Frame4.new id (.unknown d) false false false false none none false none, ?_, rfl, ⟨rfl, rfl, hl, rfl, rfl, rfl, rfl⟩, raw_plain _ _ _, fun hb => ?_⟩
    · have e0 : slot (.sym /- unknown-frame -/ [117, 110, 107, 110, 111, 119, 110, 45, 102, 114, 97, 109, 101] :: plainSlots ++ [.str [id.a, id.b, id.c, id.d], .bv (frame23 id d)]) 0 = .ok (.sym /- unknown-frame -/ [117, 110, 107, 110, 111, 119, 110, 45, 102, 114, 97, 109, 101]) := rfl
      have e5 : slot (.sym /- unknown-frame -/ [117, 110, 107, 110, 111, 119, 110, 45, 102, 114, 97, 109, 101] :: plainSlots ++ [.str [id.a, id.b, id.c, id.d], .bv (frame23 id d)]) 5 =
        .ok (.str [id.a, id.b, id.c, id.d]) := rfl
      have e6 : slot (.sym /- unknown-frame -/ [117, 110, 107, 110, 111, 119, 110, 45, 102, 114, 97, 109, 101] :: plainSlots ++ [.str [id.a, id.b, id.c, id.d], .bv (frame23 id d)]) 6 = .ok (.bv (frame23 id d)) := rfl
      have ea : serAttrs 3 (.sym /- unknown-frame -/ [117, 110, 107, 110, 111, 119, 110, 45, 102, 114, 97, 109, 101] :: plainSlots ++ [.str [id.a, id.b, id.c, id.d], .bv (frame23 id d)]) =
        .ok (false, false, false, false) := rfl
      have h7 : symText (.sym /- unknown-frame -/ [117, 110, 107, 110, 111, 119, 110, 45, 102, 114, 97, 109, 101]) = .ok /- unknown-frame -/ [117, 110, 107, 110, 111, 119, 110, 45, 102, 114, 97, 109, 101] := by decide
      have h8 : idBytes 4 [id.a, id.b, id.c, id.d] = .ok [id.a, id.b, id.c, id.d] := rfl
      unfold serFrame4
      simp only [e0, ok_bind, h7, if_neg (show ¬ (Ver.v3 = Ver.v4) by decide), ser_unknown]
      unfold serUnknown4
      simp only [e5, ok_bind, str_ok hz, h8, ea, e6, unknownData, hlen', if_true, hdrop]
      rfl
    · have hn0 : id ≠ ⟨0, 0, 0, 0⟩ := by
        rintro rfl
        exact hz (by simp)
      have hne' : id ≠ mkId4 'E' 'N' 'C' 'R' := by
        rintro rfl
        exact absurd hk (by decide)
      refine ⟨⟨id, 0, false, d, .unknown d⟩, ⟨hn0, hne, hl, hne', by simp, fun post => ?_⟩, rfl, ?_⟩
      · simp only
        rw [hk]
        obtain ⟨w, k1, -, k3⟩ := body_rt .v3 .unknown (.unknown d) trivial
        cases k1
        exact k3 post
      · have := FrameSays.unknown (E := E) (v := .v3) (unsync := false) (f := Frame4.new id (.unknown d) false false false false none none false none)
          d rfl hdoc rfl ⟨rfl, rfl, rfl, rfl⟩ rfl rfl hl (ht hb) hz
        rw [frameOf_eq, raw_plain] at this
        rw [raw_frame]
        exact this

/-! ## Tags -/

/-- What a frame is serialised as. -/
def serOf (f : Frame4) : Bytes := match f.body.serialize with | .ok w => w | _ => []

theorem serOf_eq {v : Ver} {f : Frame4} {d : Bytes} (h : Writable v f d) : serOf f = d := by
  unfold serOf
  rw [h.1]

theorem frames_of_objs {E : Env} {back : Prop} {os : List Obj} {fs : List (Id4 × Bytes)} (h : Pairs (fun o f => FrameObj E back o f.1 f.2) os fs) :
    ∃ Fs, Ret.all (serFrame4 E .v3) os = .ok Fs ∧ (∀ f ∈ Fs, f.dirty = true ∧ Writable .v3 f (serOf f)) ∧
      rawBytes .v3 (Fs.map fun f => rawOf .v3 f (serOf f)) = (fs.map fun f => frame23 f.1 f.2).flatten ∧
      (back → ∃ rs : List Raw, (∀ r ∈ rs, r.Ok .v3) ∧ rawBytes .v3 rs = (fs.map fun f => frame23 f.1 f.2).flatten ∧
        Pairs (FrameSays E .v3 false) (rs.map (Raw.frame .v3)) os) := by
  induction h with
  | nil => exact ⟨[], rfl, by simp, rfl, fun _ => ⟨[], by simp, rfl, .nil⟩⟩
  | @cons o x os fs h1 h2 ih =>
    obtain ⟨Fs, k1, k2, k3, k4⟩ := ih
    obtain ⟨f, j1, j2, j3, j4, j5⟩ := frame_of_obj h1
    have hs := serOf_eq j3
    refine ⟨f :: Fs, ?_, ?_, ?_, fun hb => ?_⟩
    · simp only [Ret.all, j1, k1, ok_bind]
    · intro g hg
      rcases List.mem_cons.1 hg with rfl | hg
      · exact ⟨j2, by rw [hs]; exact j3⟩
      · exact k2 g hg
    · simp only [List.map_cons, rawBytes_cons, List.flatten_cons, k3, hs, j4]
    · obtain ⟨rs, l1, l2, l3⟩ := k4 hb
      obtain ⟨r, m1, m2, m3⟩ := j5 hb
      refine ⟨r :: rs, ?_, ?_, .cons m3 l3⟩
      · intro g hg
        rcases List.mem_cons.1 hg with rfl | hg
        · exact m1
        · exact l1 g hg
      · simp only [List.map_cons, rawBytes_cons, List.flatten_cons, l2, m2]

theorem new_ready {fs : List Frame4} (h : ∀ f ∈ fs, f.dirty = true) (w : Frame4 → Bytes) : Paired (Ready .v3 w) fs fs := by
  induction fs with
  | nil => exact .nil
  | cons f fs ih => exact .cons ⟨rfl, .inl (h f (by simp))⟩ (ih fun g hg => h g (by simp [hg]))

theorem growth_le (bs : Bytes) : growth bs + (if bs.getLast? = some 0xff then 1 else 0) ≤ bs.length := by
  induction bs with
  | nil => simp [growth]
  | cons b r ih =>
    cases r with
    | nil => unfold growth; split <;> simp
    | cons d r =>
      unfold growth
      rw [List.getLast?_cons_cons]
      simp only [List.length_cons] at ih ⊢
      have : (if b = 0xff ∧ unsyncTest d = true then 1 else 0) ≤ 1 := by split <;> omega
      omega

theorem unsync_le (l : Bool) (bs : Bytes) : (unsynchronise l bs).length ≤ 2 * bs.length := by
  have := growth_le bs
  cases l with
  | false => rw [unsync_length]; omega
  | true => rw [unsync_length_last]; omega

theorem refreshed_le {ver : Ver} {w : Frame4 → Bytes} {fs gs : List Frame4} (h : Paired (Refreshed ver w) fs gs) (u : Bool) :
    ((gs.map fun g => if u then g.unsynced else g.plain).flatten).length ≤ 2 * (rawBytes ver (fs.map fun f => rawOf ver f (w f))).length := by
  induction h with
  | nil => simp
  | @cons f g fs gs h1 h2 ih =>
    obtain ⟨-, -, h3, l, h4⟩ := h1
    simp only [List.map_cons, List.flatten_cons, List.length_append, rawBytes_cons, ← h3]
    have : (if u then g.unsynced else g.plain).length ≤ 2 * g.plain.length := by
      split
      · rw [h4]; exact unsync_le l _
      · omega
    omega

/-- The size of a new tag. -/
theorem size_new (z : Zlib) (x : Bool) (pad : Nat) {fs : List Frame4} (h : ∀ f ∈ fs, f.dirty = true ∧ Writable .v3 f (serOf f)) (u : Bool) :
    ∃ n t', ({ Tag23.scratch pad x none with frames := fs } : Tag23).size z u = .ok (n, t') ∧ t'.ext = none ∧
      (u = false → (t'.frames.map Frame4.plain).flatten = rawBytes .v3 (fs.map fun f => rawOf .v3 f (serOf f)) ∧
        n = (rawBytes .v3 (fs.map fun f => rawOf .v3 f (serOf f))).length + pad) ∧
      n ≤ 2 * ((rawBytes .v3 (fs.map fun f => rawOf .v3 f (serOf f))).length + pad) := by
  obtain ⟨gs, h6, h7⟩ := sizeAll_ready z u (pad == 0) (new_ready (fun f hf => (h f hf).1) serOf) fun f hf => (h f hf).2
  have h8 := (refreshed_clean h7).2.2
  unfold Tag23.size
  have : ({ Tag23.scratch pad x none with frames := fs } : Tag23).updateCrc z = .ok { Tag23.scratch pad x none with frames := fs } := rfl
  rw [this]
  simp only [Res.ok_bind]
  have hp : (Tag23.scratch pad x none).padding = pad := rfl
  simp only [hp, h6, Res.ok_bind]
  refine ⟨_, _, rfl, rfl, ?_, ?_⟩
  · rintro rfl
    refine ⟨h8, ?_⟩
    simp only [Bool.false_eq_true, if_false]
    rw [← h8]
    simp [Tag23.scratch]
  · have := refreshed_le h7 u
    simp only [Tag23.scratch, Option.map_none]
    omega

/-- What is written for a new tag. -/
theorem write_new (z : Zlib) (x : Bool) (pad : Nat) {fs : List Frame4} (h : ∀ f ∈ fs, f.dirty = true ∧ Writable .v3 f (serOf f))
    (hl : (rawBytes .v3 (fs.map fun f => rawOf .v3 f (serOf f))).length + pad < 2 ^ 28) :
    ∃ hdr n t', ({ Tag23.scratch pad x none with frames := fs } : Tag23).write z false =
        .ok (hdr ++ (rawBytes .v3 (fs.map fun f => rawOf .v3 f (serOf f)) ++ List.replicate pad 0), n, t') ∧
      hdr.length = 10 ∧ ∀ rest, IsHeader (hdr ++ rest) 3 0 (if x then 0x20 else 0) ((rawBytes .v3 (fs.map fun f => rawOf .v3 f (serOf f))).length + pad) := by
  obtain ⟨n, t', h1, h2, h3, -⟩ := size_new z x pad h false
  obtain ⟨h4, rfl⟩ := h3 rfl
  have hfl : wflags23 ({ Tag23.scratch pad x none with frames := fs } : Tag23) false = if x then 0x20 else 0 := by
    simp only [wflags23, Tag23.flags, Tag23.scratch, Option.map_none, Option.isSome_none]
    cases x <;> simp
  obtain ⟨hdr, h5, h6, h7⟩ := writeHeader23_spec (if x then 0x20 else 0) _ hl
  have hw := write23_eq h1
  rw [hfl, h5] at hw
  simp only [Res.ok_bind, h2, extForm, Bool.false_eq_true, if_false, List.append_nil, h4] at hw
  exact ⟨hdr, _, t', hw.trans (by rw [List.append_assoc]; rfl), h6, h7⟩

/-- Reading a tag of ID3v2.3 that is there, as one of any version. -/
theorem maybeRead_any {α : Type} (z : Zlib) (pre hdr body post : Bytes) (fl : Byte) (m : IoBits) (g : Tag23 → α)
    (hh : hdr.length = 10) (hi : ∀ rest, IsHeader (hdr ++ rest) 3 0 fl body.length)
    (r : Option Ext23 × Nat × List Frame4)
    (hb : Tag23.parseBuf z (decide (fl &&& 0x80 ≠ 0)) (decide (fl &&& 0x40 ≠ 0)) body = .ok r)
    (mk2 mk4 : Id3v2Info → SM α) :
    maybeReadId3v2 mk2 (fun h => Tag23.read z h >>= fun t => pure (g t)) mk4 ⟨pre ++ (hdr ++ body) ++ post, pre.length, m, IoBits.none⟩ =
      (.ok (some (g ⟨some (decide (fl &&& 0x80 ≠ 0)), decide (fl &&& 0x20 ≠ 0), r.1, r.2.1, r.2.2⟩)),
        ⟨pre ++ (hdr ++ body) ++ post, (pre ++ (hdr ++ body)).length, m, IoBits.none⟩) := by
  obtain ⟨o, h1, h2⟩ := lookingAt_spec (pre ++ (hdr ++ body) ++ post) pre.length m false
  have ho : o = some ⟨3, 0, fl, body.length⟩ := by
    rw [h2]
    have : (pre ++ (hdr ++ body) ++ post).drop pre.length = hdr ++ (body ++ post) := by
      simp [List.append_assoc]
    rw [this]
    exact hi _
  subst ho
  unfold maybeReadId3v2
  rw [SM.bind_apply, h1]
  simp only [Option.isSome_some, Bool.not_false, Bool.and_true, if_true, SM.bind_apply]
  unfold mkId3v2
  simp only [show ¬ ((3 : Byte) = 2) by decide, if_false, if_true]
  unfold Tag23.read
  simp only [SM.bind_apply]
  rw [parse23_full _ _ _ _ _ _ _ (by simp [hh]; omega)]
  have : ((pre ++ (hdr ++ body) ++ post).drop (pre.length + 10)).take body.length = body := by
    rw [show pre ++ (hdr ++ body) ++ post = (pre ++ hdr) ++ (body ++ post) by simp,
      show pre.length + 10 = (pre ++ hdr).length by simp [hh], List.drop_left, List.take_left]
  rw [this, hb]
  simp only [SM.pure_apply']
  congr 2
  simp [hh]; omega

/-- What is made of an object for a tag: it is written as it should be, and what is written is read as the object. -/
theorem tag_of_obj {E : Env} {back : Prop} {t : TagObj} {body : Bytes} (h : TagBody E back t body) (hl : body.length < 2 ^ 28) :
    ∃ t23 : Tag23, toTag E t 3 = .ok (.inr (.inl t23)) ∧ (t23.ext = none ∧ t.padding = .num t23.padding) ∧
      (∀ u, ∃ n t', t23.size E.z u = .ok (n, t') ∧ n ≤ 2 * body.length) ∧
      ∃ b n t', t23.write E.z false = .ok (b, n, t') ∧ TagImage E back t b ∧
        (back → ∃ t2 : Tag23, TagSays E (.inr (.inl t2)) (t, 3, false) ∧ ∀ (mk2 mk4 : Id3v2Info → SM AnyTag),
          Props.ReadsAs mk2 (fun h => Tag23.read E.z h >>= fun t => pure (.inr (.inl t))) mk4 b (.inr (.inl t2))) := by
  cases h with
  | mk x os fs pad hp =>
    obtain ⟨Fs, h1, h2, h3, h4⟩ := frames_of_objs hp
    have hl' : (rawBytes .v3 (Fs.map fun f => rawOf .v3 f (serOf f))).length + pad < 2 ^ 28 := by
      rw [h3]; simpa using hl
    have hpad : pad < 2 ^ 32 := by omega
    obtain ⟨hdr, n, t', h5, h6, h7⟩ := write_new E.z x pad h2 hl'
    rw [h3] at h5 h7
    have hfl : ∀ rest, IsHeader (hdr ++ rest) 3 0 (if x then 0x20 else 0)
        ((fs.map fun f : Id4 × Bytes => frame23 f.1 f.2).flatten ++ List.replicate pad 0).length := by
      intro rest
      have := h7 rest
      simpa using this
    refine ⟨_, ?_, ⟨rfl, rfl⟩, ?_, _, n, t', h5, ⟨hdr, _, rfl, h6, .mk x os fs pad hp, ?_⟩, fun hb => ?_⟩
    · simp only [toTag, isNull, Scheme.toBool, toUnsigned, hpad, if_true, ok_bind, h1]
      cases x <;> rfl
    · intro u
      obtain ⟨n, t', h, -, -, k⟩ := size_new E.z x pad h2 u
      refine ⟨n, t', h, ?_⟩
      rw [h3] at k
      simpa using k
    · intro rest
      have := hfl rest
      cases x <;> exact this
    · obtain ⟨rs, k1, k2, k3⟩ := h4 hb
      have hb0 : ∀ x : Bool, decide ((if x then (0x20 : Byte) else 0) &&& 0x80 ≠ 0) = false ∧
          decide ((if x then (0x20 : Byte) else 0) &&& 0x40 ≠ 0) = false ∧ decide ((if x then (0x20 : Byte) else 0) &&& 0x20 ≠ 0) = x := by decide
      obtain ⟨hb1, hb2, hb3⟩ := hb0 x
      have hparse : Tag23.parseBuf E.z (decide ((if x then (0x20 : Byte) else 0) &&& 0x80 ≠ 0)) (decide ((if x then (0x20 : Byte) else 0) &&& 0x40 ≠ 0))
          ((fs.map fun f => frame23 f.1 f.2).flatten ++ List.replicate pad 0) = .ok (none, pad, rs.map (Raw.frame .v3)) := by
        rw [hb1, hb2]
        exact parseBuf23_of E.z false _ none rs pad nofun k1 (by rw [← k2]; rfl)
      refine ⟨⟨some false, x, none, pad, rs.map (Raw.frame .v3)⟩, ?_, fun mk2 mk4 pre post m => ?_⟩
      · exact .v3 ⟨some false, x, none, pad, rs.map (Raw.frame .v3)⟩ os k3 hpad
      · have := maybeRead_any E.z pre hdr _ post _ m (fun t => (.inr (.inl t) : AnyTag)) h6 hfl _ hparse mk2 mk4
        rw [hb1, hb3] at this
        exact this

/-- So with several. -/
theorem tags_of_objs {E : Env} {back : Prop} (tags : List TagObj) (h : ∀ t ∈ tags, ∃ body, TagBody E back t body ∧ body.length < 2 ^ 28) :
    ∃ ts, Ret.all (fun t : TagObj × Nat => toTag E t.1 t.2) (tags.map fun t => (t, 3)) = .ok ts ∧ (∀ t ∈ ts, Props.CanWrite E.z t) ∧
      ∃ imgs b ts', Pairs (TagImage E back) tags imgs ∧ Tagset.writeAll (anyI E.z) .never ts = .ok (b, ts') ∧ b = imgs.flatten ∧
        (back → ∃ rs : List (Bytes × AnyTag), rs.map (·.1) = imgs ∧ Pairs (TagSays E) (rs.map (·.2)) (tags.map fun t => (t, 3, false)) ∧
          ∀ (mk2 mk4 : Id3v2Info → SM AnyTag), ∀ r ∈ rs,
            Props.ReadsAs mk2 (fun h => Tag23.read E.z h >>= fun t => pure (.inr (.inl t))) mk4 r.1 r.2) := by
  induction tags with
  | nil => exact ⟨[], rfl, by simp, [], [], [], .nil, rfl, rfl, fun _ => ⟨[], rfl, .nil, by simp⟩⟩
  | cons t tags ih =>
    obtain ⟨ts, h1, h2, imgs, b, ts', h3, h4, rfl, h5⟩ := ih fun t ht => h t (by simp [ht])
    obtain ⟨body, hb, hl⟩ := h t (by simp)
    obtain ⟨t23, k1, k2, k3, img, n, t', k4, k5, k6⟩ := tag_of_obj hb hl
    refine ⟨.inr (.inl t23) :: ts, ?_, ?_, img :: imgs, _, .inr (.inl t') :: ts', .cons k5 h3, ?_, rfl, fun hbk => ?_⟩
    · simp only [List.map_cons, Ret.all, k1, h1, ok_bind]
    · intro x hx
      rcases List.mem_cons.1 hx with rfl | hx
      · obtain ⟨n, t', k, -⟩ := k3 false
        exact Props.canWrite_plain k2.1 k
      · exact h2 x hx
    · have e : (anyI E.z).write (.inr (.inl t23)) false = .ok (img, .inr (.inl t')) := by
        have : (anyI E.z).write (.inr (.inl t23)) false = (((t23.write E.z false).bind fun (b, _, t) => .ok (b, t)).bind fun x =>
            .ok (x.1, (.inl x.2 : Sum Tag23 Tag24))).bind fun x => .ok (x.1, .inr x.2) := rfl
        rw [this, k4]
        rfl
      simp only [Tagset.writeAll, Tagset.computeApplyUnsync, Res.ok_bind, e, h4, List.flatten_cons]
    · obtain ⟨rs, m1, m2, m3⟩ := h5 hbk
      obtain ⟨t2, m4, m5⟩ := k6 hbk
      refine ⟨(img, .inr (.inl t2)) :: rs, by simp [m1], .cons m4 m2, fun mk2 mk4 r hr => ?_⟩
      rcases List.mem_cons.1 hr with rfl | hr
      · exact m5 mk2 mk4
      · exact m3 mk2 mk4 r hr

/-- What can be said of a tag made of an object before it is written. -/
def NewTag (z : Zlib) (t : TagObj × Bytes) (a : AnyTag) : Prop :=
  ∃ t23 : Tag23, a = .inr (.inl t23) ∧ t23.ext = none ∧ t.1.padding = .num t23.padding ∧ ∀ u, ∃ n t', t23.size z u = .ok (n, t') ∧ n ≤ 2 * t.2.length

theorem new_tags {E : Env} {back : Prop} (tags : List (TagObj × Bytes)) (h : ∀ t ∈ tags, TagBody E back t.1 t.2 ∧ t.2.length < 2 ^ 28) :
    ∃ ts, Ret.all (fun t : TagObj × Nat => toTag E t.1 t.2) (tags.map fun t => (t.1, 3)) = .ok ts ∧ Pairs (NewTag E.z) tags ts := by
  induction tags with
  | nil => exact ⟨[], rfl, .nil⟩
  | cons t tags ih =>
    obtain ⟨ts, h1, h2⟩ := ih fun t ht => h t (by simp [ht])
    obtain ⟨hb, hl⟩ := h t (by simp)
    obtain ⟨t23, k1, k2, k3, -⟩ := tag_of_obj hb hl
    exact ⟨.inr (.inl t23) :: ts, by simp only [List.map_cons, Ret.all, k1, h1, ok_bind], .cons ⟨t23, rfl, k2.1, k2.2, k3⟩ h2⟩

theorem new_canWrite {z : Zlib} {tags : List (TagObj × Bytes)} {ts : List AnyTag} (h : Pairs (NewTag z) tags ts) : ∀ t ∈ ts, Props.CanWrite z t := by
  induction h with
  | nil => simp
  | cons h1 _ ih =>
    intro x hx
    rcases List.mem_cons.1 hx with rfl | hx
    · obtain ⟨t23, rfl, k1, -, k2⟩ := h1
      obtain ⟨n, t', k, -⟩ := k2 false
      exact Props.canWrite_plain k1 k
    · exact ih x hx

theorem new_total {z : Zlib} (au : ApplyUnsync) {tags : List (TagObj × Bytes)} {ts : List AnyTag} (h : Pairs (NewTag z) tags ts)
    {L : List Tagset.Entry} (hL : Tagset.Look (Tagset.W0 z) ts L) :
    Tagset.total au L ≤ (tags.map fun t => 10 + 2 * t.2.length).sum := by
  unfold Tagset.Look at hL
  induction h generalizing L with
  | nil => cases hL; simp [Tagset.total]
  | cons h1 h2 ih =>
    cases hL with
    | cons h3 h4 =>
      have := ih h4
      obtain ⟨t23, rfl, k1, -, k2⟩ := h1
      rename_i e _
      obtain ⟨t', k3, -⟩ := (Tagset.simAny z).size (Tagset.pick au e.1) h3
      obtain ⟨n, t'', k4, k5⟩ := k2 (Tagset.pick au e.1)
      have e1 : (anyI z).size (.inr (.inl t23)) (Tagset.pick au e.1) = .ok (n, .inr (.inl t'')) := by
        have : ∀ u, (anyI z).size (.inr (.inl t23)) u = ((t23.size z u).bind fun x =>
            .ok (x.1, (.inl x.2 : Sum Tag23 Tag24))).bind fun x => .ok (x.1, .inr x.2) := fun _ => rfl
        rw [this, k4]
        rfl
      rw [e1] at k3
      simp only [Res.ok.injEq, Prod.mk.injEq] at k3
      simp only [Tagset.total, List.map_cons, List.sum_cons, Tagset.Entry.size] at this ⊢
      omega

theorem new_sizes {z : Zlib} (au : ApplyUnsync) {tags : List (TagObj × Bytes)} {ts : List AnyTag} (h : Pairs (NewTag z) tags ts) {n pad : Nat}
    {ts' : List AnyTag} (hn : Tagset.sizes (anyI z) au ts = .ok (n, pad, ts')) : n ≤ (tags.map fun t => 10 + 2 * t.2.length).sum := by
  obtain ⟨L, h1, -⟩ := Props.canWrite_all (new_canWrite h)
  obtain ⟨ts1, h2, -⟩ := Tagset.sizes_sim (Tagset.simAny z) au h1
  rw [hn] at h2
  simp only [Res.ok.injEq, Prod.mk.injEq] at h2
  rw [h2.1]
  exact new_total au h h1

theorem new_length {z : Zlib} {tags : List (TagObj × Bytes)} {ts : List AnyTag} (h : Pairs (NewTag z) tags ts) : tags.length = ts.length := by
  induction h with
  | nil => rfl
  | cons _ _ ih => simp [ih]

theorem new_small {tags : List (TagObj × Bytes)} (h : (tags.map fun t => 10 + 2 * t.2.length).sum < 2 ^ 28) : ∀ t ∈ tags, t.2.length < 2 ^ 28 := by
  induction tags with
  | nil => simp
  | cons t tags ih =>
    simp only [List.map_cons, List.sum_cons] at h
    intro x hx
    rcases List.mem_cons.1 hx with rfl | hx
    · omega
    · exact ih (by omega) x hx

theorem unsync_ok {v : Val} (h : UnsyncArg v) : ∃ au, unsyncArg v = .ok au := by
  rcases h with rfl | rfl | rfl
  · exact ⟨_, rfl⟩
  · exact ⟨_, rfl⟩
  · exact ⟨_, rfl⟩

theorem images {R : AnyTag → Nat × Bytes → Prop} {ts : List AnyTag} {news : List (Nat × Bytes)}
    (h : Pairs (fun t x => R t x ∧ CompleteTag x.2) ts news) : (news.map (·.2)).length = ts.length ∧ ∀ i ∈ news.map (·.2), CompleteTag i := by
  induction h with
  | nil => simp
  | cons h1 _ ih =>
    refine ⟨by simpa using ih.1, fun i hi => ?_⟩
    simp only [List.map_cons, List.mem_cons] at hi
    rcases hi with rfl | hi
    · exact h1.2
    · exact ih.2 i hi

theorem images_length {E : Env} {back : Prop} {tags : List TagObj} {imgs : List Bytes} (h : Pairs (TagImage E back) tags imgs) :
    imgs.length ≤ imgs.flatten.length := by
  induction h with
  | nil => simp
  | cons h1 _ ih =>
    obtain ⟨hdr, body, rfl, h2, -⟩ := h1
    simp only [List.length_cons, List.flatten_cons, List.length_append]
    omega

end Scribbu.Proofs.Scheme
