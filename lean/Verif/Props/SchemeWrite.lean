import Verif.Proofs.SchemeWrite
import Verif.Props.Scheme

/-! # Properties of `write-tagset`: C137, C138 -/

namespace Scribbu.Props
open Scribbu Scribbu.Scheme Scribbu.Spec Scribbu.Spec.Scheme Scribbu.Proofs.Scheme

/-! ## C137: writing tags from Scheme is well-defined -/

/-- **C137**, the full claim: with objects as they are documented `write-tagset` succeeds or raises an error. -/
def C137_claim : Prop :=
  ∀ (E : Scheme.Env) (tags : List (TagObj × Nat)) (file : Option Bytes) (unsync : Val) (copy : Bool),
    (∀ t ∈ tags, ProperTag t.1 ∧ (t.2 = 2 ∨ t.2 = 3 ∨ t.2 = 4)) → UnsyncArg unsync → ∀ u, writeTagset E tags file unsync copy ≠ .ub u

theorem not_C137 {E : Scheme.Env} {os : List Obj} {v : Nat} {file : Option Bytes} {copy : Bool} {u : UB} (hv : v = 2 ∨ v = 3 ∨ v = 4)
    (h : ∀ o ∈ os, Proper o) (hu : writeTagset E [(⟨.bool false, os, .num 0⟩, v)] file (.bool false) copy = .ub u) : ¬ C137_claim := by
  intro hc
  refine hc E _ file (.bool false) copy (fun t ht => ?_) (.inl rfl) u hu
  simp only [List.mem_singleton] at ht
  subst ht
  exact ⟨.mk _ _ _ h (by decide), hv⟩

/-- **Finding** An ID3v2.2 tag, even one without frames, cannot be written: whether it is compressed has never been set in a tag that
is not read from a file. -/
theorem C137_refuted_v22 (E : Scheme.Env) (x : Bool) (d : Bytes) :
    writeTagset E [(⟨.bool x, [], .num 0⟩, 2)] (some d) (.bool false) true = .ub .uninit := by
  cases x <;> rfl

/-- **Finding** C137 is refuted, by the tag above. -/
theorem C137_refuted : ¬ C137_claim := not_C137 (.inl rfl) (by simp) (C137_refuted_v22 scmEnv false [])

theorem write_ub {E : Scheme.Env} {o : Obj} {os : List Obj} {x : Bool} {pad : Nat} (hp : pad < 2 ^ 32) {v : Nat} (hv : v = 3 ∨ v = 4) {u : UB}
    (h : serFrame4 E (if v = 3 then .v3 else .v4) o = .ub u) (ts : List (TagObj × Nat)) (file : Option Bytes) (copy : Bool) :
    writeTagset E ((⟨.bool x, o :: os, .num pad⟩, v) :: ts) file (.bool false) copy = .ub u := by
  have : toTag E ⟨.bool x, o :: os, .num pad⟩ v = .ub u := by
    rcases hv with rfl | rfl
    · simp only [if_true] at h
      simp only [toTag, isNull, Scheme.toBool, toUnsigned, hp, if_true, ok_bind, Ret.all, h]
      cases x <;> rfl
    · simp only [show ¬ ((4 : Nat) = 3) by decide, if_false] at h
      simp only [toTag, isNull, Scheme.toBool, toUnsigned, hp, if_true, ok_bind, Ret.all, h]
      cases x <;> rfl
  simp only [writeTagset, unsyncArg, ok_bind, Ret.all, this]
  rfl

/-- **Finding** In ID3v2.4 a tag cloud with any tag at all cannot be written: 0 is used for a Scheme value. -/
theorem C137_refuted_cloud (E : Scheme.Env) (own k : Bytes) (vs : List Bytes) (m : TagMap) (ho : 0 ∉ own) (a b c : Bool) (w : Val) :
    writeTagset E [(⟨.bool false, [⟨.tagCloud, [.sym /- tag-cloud-frame -/ [116, 97, 103, 45, 99, 108, 111, 117, 100, 45, 102, 114, 97, 109, 101], .bool a, .bool b, .bool c, w, .str own, cloudList ((k, vs) :: m)]⟩], .num 0⟩, 4)]
      (some []) (.bool false) true = .ub .nullDeref := by
  refine write_ub (by decide) (.inr rfl) ?_ [] _ _
  have h7 : symText (.sym /- tag-cloud-frame -/ [116, 97, 103, 45, 99, 108, 111, 117, 100, 45, 102, 114, 97, 109, 101]) = .ok /- tag-cloud-frame -/ [116, 97, 103, 45, 99, 108, 111, 117, 100, 45, 102, 114, 97, 109, 101] := by decide
  have h8 : lookup ser24 /- tag-cloud-frame -/ [116, 97, 103, 45, 99, 108, 111, 117, 100, 45, 102, 114, 97, 109, 101] = some .tagCloud := by decide +kernel
  have h9 : idFor fixed4 (id4Of /- tag-cloud-frame -/ [116, 97, 103, 45, 99, 108, 111, 117, 100, 45, 102, 114, 97, 109, 101]) .tagCloud = .ok (mkId4 'X' 'T' 'A' 'G') := rfl
  obtain ⟨x, es, he⟩ : ∃ x es, elements? (cloudList ((k, vs) :: m)) = some (x :: es) := by
    unfold cloudList
    rw [elements_list]
    cases h : List.map (fun e : Bytes × List Bytes => Val.cons (.str e.1) (list (e.2.map .str))) ((k, vs) :: m).reverse with
    | nil => simp at h
    | cons x es => exact ⟨x, es, by simp⟩
  simp only [show ¬ ((4 : Nat) = 3) by decide, if_false]
  unfold serFrame4
  simp only [slot, List.getElem?_cons_zero, List.getElem?_cons_succ, ok_bind, h7, if_true, h8, checkCls, serAttrs, h9, serBody, str_ok ho, cloudMap, elements, he,
    orUnknown]
  rfl

/-- **Finding** In ID3v2.3, a text that iconv cannot convert to ISO-8859-1 is not reported: the object is taken for a frame of
an unknown kind, and the slot after the last is read for a bytevector. -/
theorem C137_refuted_text (E : Scheme.Env) (s : Bytes) (i : Option Id3) (id : Id4) (hd : (s, i, id) ∈ documented) (hc : classOf s = .text) (t : Bytes) (e : Exc)
    (h0 : 0 ∉ t) (h3 : 3 ≤ t.length) (ht : Charset.toBytes E.lib E.mem .UTF_8 .ISO_8859_1 false .fail t = .throw e) (a b c : Bool) (w : Val)
    (file : Option Bytes) (copy : Bool) :
    writeTagset E [(⟨.bool false, [⟨.text, [.sym s, .bool a, .bool b, .bool c, w, .str t]⟩], .num 0⟩, 3)] file (.bool false) copy = .ub .oobRead := by
  refine write_ub (by decide) (.inl rfl) ?_ [] _ _
  have hs : s ≠ /- priv-frame -/ [112, 114, 105, 118, 45, 102, 114, 97, 109, 101] := by
    rintro rfl
    revert hc
    decide
  obtain ⟨h5, h6⟩ := doc_ser (v := .v3) hd hs
  rw [if_neg (by decide)] at h5
  have h7 := sym_ok (doc_sym _ hd).1
  have h8 : idBytes 4 t = .ok ((t ++ [0]).take 4) := by
    unfold idBytes
    rw [if_pos (by omega)]
  simp only [if_true]
  unfold serFrame4
  simp only [slot, List.getElem?_cons_zero, List.getElem?_cons_succ, ok_bind, h7, if_neg (show ¬ (Ver.v3 = Ver.v4) by decide), h5, hc, checkCls, if_true, serAttrs]
  rw [hc] at h6
  simp only [h6, ok_bind, serBody, slot, List.getElem?_cons_zero, List.getElem?_cons_succ, str_ok h0, Env.encode, ht, Ret.ofRes]
  simp only [Ret.bind, orUnknown, serUnknown4, slot, List.getElem?_cons_zero, List.getElem?_cons_succ, str_ok h0, h8, serAttrs]
  rfl

/-- **Finding** The same happens with `<priv-frame>`, in every case, if there are less than ten bytes of data. -/
theorem C137_refuted_priv (E : Scheme.Env) (own d : Bytes) (h0 : 0 ∉ own) (h3 : 3 ≤ own.length) (hd : d.length < 10) (a b c : Bool) (w : Val)
    (file : Option Bytes) (copy : Bool) :
    writeTagset E [(⟨.bool false, [⟨.priv, [.sym /- priv-frame -/ [112, 114, 105, 118, 45, 102, 114, 97, 109, 101], .bool a, .bool b, .bool c, w, .str own, .bv d]⟩], .num 0⟩, 3)] file (.bool false) copy =
      .ub .oobRead := by
  refine write_ub (by decide) (.inl rfl) ?_ [] _ _
  have h7 : symText (.sym /- priv-frame -/ [112, 114, 105, 118, 45, 102, 114, 97, 109, 101]) = .ok /- priv-frame -/ [112, 114, 105, 118, 45, 102, 114, 97, 109, 101] := by decide
  have h5 : lookup ser23 /- priv-frame -/ [112, 114, 105, 118, 45, 102, 114, 97, 109, 101] = none := by decide +kernel
  have h8 : idBytes 4 own = .ok ((own ++ [0]).take 4) := by
    unfold idBytes
    rw [if_pos (by omega)]
  simp only [if_true]
  unfold serFrame4
  simp only [slot, List.getElem?_cons_zero, List.getElem?_cons_succ, ok_bind, h7, if_neg (show ¬ (Ver.v3 = Ver.v4) by decide), h5, serUnknown4, str_ok h0, h8, serAttrs,
    unknownData, if_neg (show ¬ (10 ≤ d.length) by omega)]
  rfl

/-- A library that converts nothing but ASCII. -/
def asciiEnv : Scheme.Env := { scmEnv with lib := fun _ _ => some (byFunction fun b => if b.all (· < 128) then some b else none) }

example : Charset.toBytes asciiEnv.lib asciiEnv.mem .UTF_8 .ISO_8859_1 false .fail [0xd0, 0x94, 0xd0, 0xb0] = .throw .runtimeError ∧
    (/- title-frame -/ [116, 105, 116, 108, 101, 45, 102, 114, 97, 109, 101], some (mkId3 'T' 'T' '2'), mkId4 'T' 'I' 'T' '2') ∈ documented ∧ classOf /- title-frame -/ [116, 105, 116, 108, 101, 45, 102, 114, 97, 109, 101] = .text := by decide +kernel

/-- The part of C137 that holds: in ID3v2.3, frames without attributes whose texts can be converted (`TagBody`), the file beginning with
complete tags or none: with `copy` the file then consists of as many complete tags, and what followed the old ones. -/
theorem C137_partial (E : Scheme.Env) (tags : List (TagObj × Bytes)) (olds : List Bytes) (audio : Bytes) (unsync : Val) (hu : UnsyncArg unsync)
    (ho : ∀ t ∈ olds, CompleteTag t) (hr : NoHeader audio) (h : ∀ t ∈ tags, TagBody E False t.1 t.2)
    (hs : (tags.map fun t => 10 + 2 * t.2.length).sum < 2 ^ 28) :
    ∃ imgs : List Bytes, writeTagset E (tags.map fun t => (t.1, 3)) (some (olds.flatten ++ audio)) unsync true = .ok (imgs.flatten ++ audio) ∧
      imgs.length = tags.length ∧ ∀ i ∈ imgs, CompleteTag i := by
  obtain ⟨ts, h1, h2⟩ := new_tags tags fun t ht => ⟨h t ht, new_small hs t ht⟩
  obtain ⟨au, h3⟩ := unsync_ok hu
  obtain ⟨b, ts', news, h4, rfl, -, h5⟩ := C33_copy_partial E.z olds audio au ts ho hr (new_canWrite h2) fun n pad ts' hn =>
    Nat.lt_of_le_of_lt (new_sizes au h2 hn) hs
  obtain ⟨h6, h7⟩ := images h5
  refine ⟨news.map (·.2), ?_, by rw [h6, ← new_length h2], h7⟩
  simp only [writeTagset, h3, ok_bind, h1, if_true, h4, Res.ok_bind, Ret.ofRes]
  rfl

/-- The same without `copy`, if the padding of the first tag is enough (C32). The new tags either take the room of the old ones exactly, or
have their own paddings. -/
theorem C137_inplace_partial (E : Scheme.Env) (tag : TagObj × Bytes) (tags : List (TagObj × Bytes)) (olds : List Bytes) (audio : Bytes) (unsync : Val)
    (hu : UnsyncArg unsync) (ho : ∀ t ∈ olds, CompleteTag t) (hr : NoHeader audio) (hne : olds.flatten ++ audio ≠ [])
    (h : ∀ t ∈ tag :: tags, TagBody E False t.1 t.2) (hs : ((tag :: tags).map fun t => 10 + 2 * t.2.length).sum < 2 ^ 28)
    (hb : olds.flatten.length < 2 ^ 28) (pad : Nat) (hp : tag.1.padding = .num pad) (hl : tags.length ≤ pad) :
    ∃ imgs : List Bytes, writeTagset E ((tag :: tags).map fun t => (t.1, 3)) (some (olds.flatten ++ audio)) unsync false = .ok (imgs.flatten ++ audio) ∧
      imgs.length = tags.length + 1 ∧ ∀ i ∈ imgs, CompleteTag i := by
  obtain ⟨ts, h1, h2⟩ := new_tags (tag :: tags) fun t ht => ⟨h t ht, new_small hs t ht⟩
  obtain ⟨au, h3⟩ := unsync_ok hu
  have hlen := new_length h2
  have hpad : ∀ t p, ts.head? = some t → (anyI E.z).padding t = .ok p → ts.length ≤ p + 1 := by
    intro t p ht hp'
    rw [← hlen]
    cases h2 with
    | cons k1 k2 =>
      obtain ⟨t23, rfl, -, k3, -⟩ := k1
      simp only [List.head?_cons, Option.some.injEq] at ht
      subst ht
      rw [hp] at k3
      cases k3
      cases hp'
      simp only [List.length_cons]
      omega
  rcases C33_partial E.z olds audio au .onlyWithFullPadding ts ho hr hne (by rintro rfl; simp at hlen) (new_canWrite h2) hb
      (fun n pad ts' hn => Nat.lt_of_le_of_lt (new_sizes au h2 hn) hs) hpad with ⟨how, b, ts', news, h4, rfl, h5, -⟩ | ⟨-, h5, -⟩
  · obtain ⟨h6, h7⟩ := images h5
    refine ⟨news.map (·.2), ?_, by rw [h6, ← hlen]; rfl, h7⟩
    simp only [writeTagset, h3, ok_bind, h1, Bool.false_eq_true, if_false, h4, Res.ok_bind, Ret.ofRes]
    rfl
  · simp at h5

/-- And with a file that does not exist. -/
theorem C137_created_partial (E : Scheme.Env) (tags : List (TagObj × Bytes)) (unsync : Val) (hu : UnsyncArg unsync) (hne : tags ≠ [])
    (h : ∀ t ∈ tags, TagBody E False t.1 t.2) (hs : (tags.map fun t => 10 + 2 * t.2.length).sum < 2 ^ 28) :
    ∃ imgs : List Bytes, writeTagset E (tags.map fun t => (t.1, 3)) none unsync false = .ok imgs.flatten ∧
      imgs.length = tags.length ∧ ∀ i ∈ imgs, CompleteTag i := by
  obtain ⟨ts, h1, h2⟩ := new_tags tags fun t ht => ⟨h t ht, new_small hs t ht⟩
  obtain ⟨au, h3⟩ := unsync_ok hu
  have hlen := new_length h2
  obtain ⟨b, ts', news, h4, rfl, -, h5⟩ := C33_created_partial E.z au .onlyWithFullPadding ts
    (by rintro rfl; exact hne (List.length_eq_zero_iff.1 hlen)) (new_canWrite h2) fun n pad ts' hn => Nat.lt_of_le_of_lt (new_sizes au h2 hn) hs
  obtain ⟨h6, h7⟩ := images h5
  refine ⟨news.map (·.2), ?_, by rw [h6, ← hlen], h7⟩
  simp only [writeTagset, h3, ok_bind, h1, Bool.false_eq_true, if_false, h4, Res.ok_bind, Ret.ofRes]
  rfl

/-! ## C138: what is written can be read again -/

/-- **C138**, the full claim: after `write-tagset`, `read-tagset` gives the tags that were written: of the same versions, experimental or
not, and with the same frames (padding aside, which may be adjusted). -/
def C138_claim : Prop :=
  ∀ (E : Scheme.Env) (tags : List (TagObj × Nat)) (file : Bytes) (unsync : Val) (copy : Bool) (out : Bytes), E.v2 = none →
    (∀ t ∈ tags, ProperTag t.1 ∧ (t.2 = 2 ∨ t.2 = 3 ∨ t.2 = 4)) → UnsyncArg unsync → writeTagset E tags (some file) unsync copy = .ok out →
    ∃ xs, readTagset E (some out) = .ok xs ∧
      xs.map (fun x => (x.2.1, x.1.experimental, x.1.frames.map seen)) = tags.map fun t => (t.2, t.1.experimental, t.1.frames.map seen)

/-- What is read of the first frame after a tag with one frame has been written. -/
def afterWrite (o : Obj) (v : Nat) (unsync : Val) : Ret (Option (Klass × List Val)) :=
  (writeTagset scmEnv [(⟨.bool false, [o], .num 0⟩, v)] (some []) unsync true).bind fun out => (readTagset scmEnv (some out)).bind fun xs =>
    .ok ((xs[0]?.bind fun x => x.1.frames[0]?).map seen)

theorem not_C138 {o : Obj} {v : Nat} {unsync : Val} {out : Bytes} (hv : v = 2 ∨ v = 3 ∨ v = 4) (hu : UnsyncArg unsync) (ho : Proper o)
    (hw : writeTagset scmEnv [(⟨.bool false, [o], .num 0⟩, v)] (some []) unsync true = .ok out)
    (hr : afterWrite o v unsync ≠ .ok (some (seen o))) : ¬ C138_claim := by
  intro hc
  obtain ⟨xs, h1, h2⟩ := hc scmEnv [(⟨.bool false, [o], .num 0⟩, v)] [] unsync true out rfl (fun t ht => by
    simp only [List.mem_singleton] at ht
    subst ht
    exact ⟨.mk _ _ _ (by simpa using ho) (by decide), hv⟩) hu hw
  apply hr
  unfold afterWrite
  rw [hw]
  simp only [ok_bind, h1]
  obtain ⟨x, rfl, h3⟩ := List.map_eq_singleton_iff.1 h2
  simp only [Prod.mk.injEq] at h3
  obtain ⟨f, hf, h4⟩ := List.map_eq_singleton_iff.1 h3.2.2
  simp [hf, h4]

/-- A title whose `tap` is false. -/
def tapObj : Obj := ⟨.text, [.sym /- title-frame -/ [116, 105, 116, 108, 101, 45, 102, 114, 97, 109, 101], .bool false, .bool true, .bool false, .nil, .str /- Hi -/ [72, 105]]⟩

/-- **Finding** C138 is refuted: the attributes of a frame change. A title to be discarded if the tag is altered is read as one to be discarded
if the file is altered. -/
theorem C138_refuted : ¬ C138_claim :=
  not_C138 (o := tapObj) (v := 3) (unsync := .bool false)
    (out := [0x49, 0x44, 0x33, 3, 0, 0, 0, 0, 0, 13, 0x54, 0x49, 0x54, 0x32, 0, 0, 0, 3, 0x40, 0, 0, 0x48, 0x69]) (.inr (.inl rfl)) (.inl rfl)
    (.known /- title-frame -/ [116, 105, 116, 108, 101, 45, 102, 114, 97, 109, 101] (some (mkId3 'T' 'T' '2')) (mkId4 'T' 'I' 'T' '2') _ _ _ _ _ (by decide +kernel) (.inl rfl) (.text _))
    (by decide +kernel) (by decide +kernel)

/-- A frame of an unknown kind. -/
def unkObj : Obj :=
  ⟨.unk, [.sym /- unknown-frame -/ [117, 110, 107, 110, 111, 119, 110, 45, 102, 114, 97, 109, 101], .bool true, .bool true, .bool false, .nil, .str /- WOAR -/ [87, 79, 65, 82], .bv (/- WOAR -/ [87, 79, 65, 82] ++ [0, 0, 0, 2, 0, 0, 0xff, 0xe0])]⟩

/-- **Finding** In an unsynchronised tag the data of such frames are not read as they were given: they have the bytes that
unsynchronisation has added. -/
theorem C138_refuted_unsync : ¬ C138_claim :=
  not_C138 (o := unkObj) (v := 3) (unsync := .bool true)
    (out := [0x49, 0x44, 0x33, 3, 0, 0x80, 0, 0, 0, 13] ++ /- WOAR -/ [87, 79, 65, 82] ++ [0, 0, 0, 2, 0, 0, 0xff, 0, 0xe0]) (.inr (.inl rfl)) (.inr (.inl rfl))
    (.unknown _ _ _ _ _ _ (.inl rfl) (by decide) (by decide)) (by decide +kernel) (by decide +kernel)

/-- User-defined text. -/
def udtObj : Obj := ⟨.udt, [.sym /- udt-frame -/ [117, 100, 116, 45, 102, 114, 97, 109, 101], .bool true, .bool true, .bool false, .nil, .str /- a -/ [97], .str /- b -/ [98]]⟩

/-- **Finding** User-defined text in ID3v2.4 is written with 4 for its encoding, which there is not. -/
theorem C138_refuted_udt : ¬ C138_claim :=
  not_C138 (o := udtObj) (v := 4) (unsync := .bool false)
    (out := [0x49, 0x44, 0x33, 4, 0, 0, 0, 0, 0, 14] ++ /- TXXX -/ [84, 88, 88, 88] ++ [0, 0, 0, 4, 0, 0, 4, 0x61, 0, 0x62]) (.inr (.inr rfl)) (.inl rfl)
    (.known /- udt-frame -/ [117, 100, 116, 45, 102, 114, 97, 109, 101] (some (mkId3 'T' 'X' 'X')) (mkId4 'T' 'X' 'X' 'X') _ _ _ _ _ (by decide +kernel) (.inl rfl) (.udt _ _))
    (by decide +kernel) (by decide +kernel)

/-- The part of C138 that holds: tags of ID3v2.3 not unsynchronised, with frames without attributes whose texts iconv converts there and back
(`TagBody`), in place of complete tags or none. The file then consists of the tags, as ID3v2.3 has them (`TagImage`), and what followed the old
ones; and `read-tagset` gives the objects again, paddings included. -/
theorem C138_partial (E : Scheme.Env) (hE : E.v2 = none) (tags : List TagObj) (olds : List Bytes) (audio : Bytes)
    (ho : ∀ t ∈ olds, CompleteTag t) (hr : NoHeader audio) (h : ∀ t ∈ tags, ∃ body, TagBody E True t body ∧ body.length < 2 ^ 28) :
    ∃ imgs : List Bytes, writeTagset E (tags.map (·, 3)) (some (olds.flatten ++ audio)) (.bool false) true = .ok (imgs.flatten ++ audio) ∧
      Pairs (TagImage E True) tags imgs ∧ readTagset E (some (imgs.flatten ++ audio)) = .ok (tags.map fun t => (t, 3, false)) := by
  obtain ⟨ts, h1, h2, imgs, b, ts', h3, h4, rfl, h5⟩ := tags_of_objs tags h
  obtain ⟨rs, h6, h7, h8⟩ := h5 trivial
  refine ⟨imgs, ?_, h3, ?_⟩
  · have hf : olds.length < (olds.flatten ++ audio).length + 1 := by have := Tagset.tags_length ho; rw [List.length_append]; omega
    simp only [writeTagset, unsyncArg, ok_bind, h1, if_true, Tagset.copyContents, h4, Res.ok_bind, Tagset.readRest_tags olds audio ho hr _ hf, Ret.ofRes]
    rfl
  · have hl : rs.length < (imgs.flatten ++ audio).length + 1 := by
      have k1 := images_length h3
      have k2 : rs.length = imgs.length := by rw [← h6, List.length_map]
      rw [List.length_append]
      omega
    have k := C28_read_all (α := AnyTag) (fun h => Tag22.read h >>= fun t => pure (.inl t)) (fun h => Tag23.read E.z h >>= fun t => pure (.inr (.inl t)))
      (fun h => Tag24.read E.z h >>= fun t => pure (.inr (.inr t))) rs audio _ (h8 _ _) hr hl [] IoBits.all
    rw [h6] at k
    simp only [List.nil_append, List.length_nil] at k
    have e : readTags E.z (imgs.flatten ++ audio) = .ok (rs.map (·.2)) := by
      unfold readTags
      rw [k]
      rfl
    simp only [readTagset, e, Ret.ofRes, ok_bind, all_pairs h7 fun a b _ hab => fromTag_ok hE hab]
    rfl

/-! A case: a title, a play count, a tag cloud and a frame of an unknown kind, and five bytes of padding. -/

/-- The tag. -/
def caseTag : TagObj :=
  ⟨.bool true,
   [⟨.text, .sym /- title-frame -/ [116, 105, 116, 108, 101, 45, 102, 114, 97, 109, 101] :: plainSlots ++ [.str /- Hi -/ [72, 105]]⟩,
    ⟨.playCount, .sym /- play-count-frame -/ [112, 108, 97, 121, 45, 99, 111, 117, 110, 116, 45, 102, 114, 97, 109, 101] :: plainSlots ++ [.num 7]⟩,
    ⟨.tagCloud, .sym /- tag-cloud-frame -/ [116, 97, 103, 45, 99, 108, 111, 117, 100, 45, 102, 114, 97, 109, 101] :: plainSlots ++ [.str /- me -/ [109, 101], cloudList [(/- a -/ [97], [/- b -/ [98], /- c -/ [99]]), (/- d -/ [100], [])]]⟩,
    ⟨.unk, .sym /- unknown-frame -/ [117, 110, 107, 110, 111, 119, 110, 45, 102, 114, 97, 109, 101] :: plainSlots ++ [.str /- WOAR -/ [87, 79, 65, 82], .bv (frame23 (mkId4 'W' 'O' 'A' 'R') [0xff, 0xe0])]⟩],
   .num 5⟩

theorem caseTag_body (back : Prop) : ∃ body, TagBody scmEnv back caseTag body ∧ body.length < 200 := by
  have hm : ∀ e ∈ ([(/- a -/ [97], [/- b -/ [98], /- c -/ [99]]), (/- d -/ [100], [])] : TagMap), scmEnv.valid e.1 = true ∧ (0 : Byte) ∉ e.1 := by decide
  refine ⟨_, .mk true _ [(mkId4 'T' 'I' 'T' '2', [0] ++ /- Hi -/ [72, 105]), (mkId4 'P' 'C' 'N' 'T', resetCounter 7),
      (mkId4 'X' 'T' 'A' 'G', (⟨/- me -/ [109, 101], [(/- a -/ [97], [/- b -/ [98], /- c -/ [99]]), (/- d -/ [100], [])]⟩ : TagCloud).write), (mkId4 'W' 'O' 'A' 'R', [0xff, 0xe0])] 5
    (.cons (.known /- title-frame -/ [116, 105, 116, 108, 101, 45, 102, 114, 97, 109, 101] (some (mkId3 'T' 'T' '2')) _ _ _ (by decide +kernel) (.text _ _ ⟨by decide, by decide +kernel, fun _ =>
      ⟨⟨by decide, by decide⟩, .inr ⟨.ISO_8859_1, .latin _ _, .inr ⟨by decide, by decide +kernel⟩⟩⟩⟩) (by decide))
    (.cons (.known /- play-count-frame -/ [112, 108, 97, 121, 45, 99, 111, 117, 110, 116, 45, 102, 114, 97, 109, 101] (some (mkId3 'C' 'N' 'T')) _ _ _ (by decide +kernel) (.playCount 7 (by decide) fun _ => by decide) (by decide))
    (.cons (.known /- tag-cloud-frame -/ [116, 97, 103, 45, 99, 108, 111, 117, 100, 45, 102, 114, 97, 109, 101] (some (mkId3 'X' 'T' 'G')) _ _ _ (by decide +kernel)
      (.tagCloud ⟨/- me -/ [109, 101], [(/- a -/ [97], [/- b -/ [98], /- c -/ [99]]), (/- d -/ [100], [])]⟩ ?_ (by decide) (by decide) fun _ => ⟨⟨by decide, by decide⟩, fun e he => ⟨⟨hm e he, fun _ _ => rfl⟩, ?_⟩⟩) (by decide))
    (.cons (.unknown (mkId4 'W' 'O' 'A' 'R') _ (by decide) (by decide) (by decide) (by decide) fun _ => rfl) .nil)))), by decide⟩
  · refine ⟨by decide, fun e he => ?_⟩
    simp only [List.mem_cons, List.not_mem_nil, or_false] at he
    rcases he with rfl | rfl <;> unfold SetOk <;> decide
  · have : ∀ e ∈ ([(/- a -/ [97], [/- b -/ [98], /- c -/ [99]]), (/- d -/ [100], [])] : TagMap), (e.2.map fun v => v.length + 1).sum < 2 ^ 32 := by decide
    exact this e he

example : ∃ imgs : List Bytes, writeTagset scmEnv [(caseTag, 3), (caseTag, 3)] (some [1, 2]) (.bool false) true = .ok (imgs.flatten ++ [1, 2]) ∧
    Pairs (TagImage scmEnv True) [caseTag, caseTag] imgs ∧ readTagset scmEnv (some (imgs.flatten ++ [1, 2])) = .ok [(caseTag, 3, false), (caseTag, 3, false)] := by
  obtain ⟨b, h1, h2⟩ := caseTag_body True
  refine C138_partial scmEnv rfl [caseTag, caseTag] [] [1, 2] (by simp) (noHeader_short (by decide)) fun t ht => ?_
  simp only [List.mem_cons, List.not_mem_nil, or_false, or_self] at ht
  subst ht
  exact ⟨b, h1, by omega⟩

example : ∃ imgs : List Bytes, writeTagset scmEnv [(caseTag, 3), (caseTag, 3)] (some [1, 2]) (.sym /- as-needed -/ [97, 115, 45, 110, 101, 101, 100, 101, 100]) false = .ok (imgs.flatten ++ [1, 2]) ∧
    imgs.length = 2 ∧ ∀ i ∈ imgs, CompleteTag i := by
  obtain ⟨b, h1, h2⟩ := caseTag_body False
  refine C137_inplace_partial scmEnv (caseTag, b) [(caseTag, b)] [] [1, 2] _ (.inr (.inr rfl)) (by simp) (noHeader_short (by decide)) (by decide)
    (fun t ht => ?_) ?_ (by decide) 5 rfl (by simp)
  · simp only [List.mem_cons, List.not_mem_nil, or_false, or_self] at ht
    subst ht
    exact h1
  · simp only [List.map_cons, List.map_nil, List.sum_cons, List.sum_nil]
    omega

end Scribbu.Props
