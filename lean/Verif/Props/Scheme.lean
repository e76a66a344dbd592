import Verif.Proofs.Scheme
import Verif.Props.Dump

/-! # C136, C139, C140: `read-tagset`, `has-frame?`, `get-frames`, and the symbols of frames -/

namespace Scribbu.Props
open Scribbu.Scheme Scribbu.Spec Scribbu.Spec.Scheme Scribbu.Proofs.Scheme
open Scribbu.Spec.Dump (Utf8)
open Scribbu.Spec.Std (TextIn)

/-! ## C140: symbols and identifiers -/

/-- **C140** as claimed: an object with a documented symbol is written as a frame with the identifier of that symbol. -/
def C140_claim : Prop :=
  ∀ (E : Scheme.Env) (v : Ver) (o : Obj) (f : Frame4) (s : Bytes) (i : Option Id3) (id : Id4), v ≠ .v2 → (s, i, id) ∈ documented →
    o.slots[0]? = some (.sym s) → o.cls = classOf s → o.slots.length = arity o.cls → serFrame4 E v o = .ok f → f.id = id

/-- iconv that leaves texts as they are; ASCII alone is UTF-8. -/
def scmEnv : Scheme.Env := { dumpEnv with langs := [], valid := fun b => b.all (· < 128), lenient := some }

/-- A private frame. -/
def privObj : Obj :=
  ⟨.priv, [.sym /- priv-frame -/ [112, 114, 105, 118, 45, 102, 114, 97, 109, 101], .bool true, .bool true, .bool false, .nil, .str /- Me@x -/ [77, 101, 64, 120], .bv [1, 2, 3, 4, 5, 6, 7, 8, 9, 10, 11]]⟩

/-- **Finding** C140 is refuted: there is no function for private frames, although `<priv-frame>` is documented. One with the owner
"Me@x" and eleven bytes is written as a frame with the identifier "Me@x" that has the last of them. -/
theorem C140_refuted : ¬ C140_claim := by
  intro h
  have := h scmEnv .v3 privObj (Frame4.new ⟨77, 101, 64, 120⟩ (.unknown [11]) false false false false none none false none) /- priv-frame -/ [112, 114, 105, 118, 45, 102, 114, 97, 109, 101] none
    (mkId4 'P' 'R' 'I' 'V') (by decide) (by decide +kernel) rfl rfl rfl (by decide +kernel)
  revert this
  decide

/-- **Finding** PRIV frames are read as frames of an unknown kind. -/
theorem C140_refuted_priv (E : Scheme.Env) (v : Ver) (u : Bool) (f : Frame4) (o : Obj) (hf : f.id = mkId4 'P' 'R' 'I' 'V')
    (h : deFrame4 E v u f = .ok o) : o.cls = .unk ∧ o.slots[0]? = some (.sym /- unknown-frame -/ [117, 110, 107, 110, 111, 119, 110, 45, 102, 114, 97, 109, 101]) := by
  unfold deFrame4 at h
  have k : lookup (if v = .v4 then de24 else de23) f.id = none := by
    rw [hf]
    split
    · exact priv4.2.1
    · exact priv4.1
  rw [k] at h
  simp only [deUnknown4, bind_eq_ok] at h
  obtain ⟨_, _, _, _, h⟩ := h
  cases h
  exact ⟨rfl, rfl⟩

/-- C140, as far as it holds, for writing: for all documented symbols but `priv-frame`, if the seventh slot does not hold a bytevector (which is not a
proper value for it in any of the classes). -/
theorem C140_partial (E : Scheme.Env) (v : Ver) (o : Obj) (f : Frame4) (s : Bytes) (i : Option Id3) (id : Id4) (hd : (s, i, id) ∈ documented)
    (hs : s ≠ /- priv-frame -/ [112, 114, 105, 118, 45, 102, 114, 97, 109, 101]) (h0 : o.slots[0]? = some (.sym s)) (hb : ∀ b, o.slots[6]? ≠ some (.bv b))
    (h : serFrame4 E v o = .ok f) : f.id = id := by
  obtain ⟨h1, h2⟩ := doc_ser (v := v) hd hs
  unfold serFrame4 at h
  simp only [bind_eq_ok] at h
  obtain ⟨x, h3, y, h4, h⟩ := h
  have hx : x = .sym s := by
    unfold slot at h3
    rw [h0] at h3
    cases h3
    rfl
  subst hx
  have hy : y = s := symText_eq h4
  subst hy
  rw [h1] at h
  simp only at h
  have hun : ∀ g, serUnknown4 v o.slots ≠ .ok g := by
    intro g hg
    unfold serUnknown4 at hg
    simp only [bind_eq_ok] at hg
    obtain ⟨_, _, _, _, _, _, ⟨_, _, _, _⟩, _, w, h6, _, h7, _⟩ := hg
    unfold slot at h6
    split at h6
    · rename_i w' hw
      cases h6
      cases w with
      | bv b => exact hb b hw
      | _ => simp [unknownData] at h7
    · cases h6
  unfold orUnknown at h
  split at h
  · exact absurd h (hun f)
  · simp only [bind_eq_ok] at h
    obtain ⟨_, _, ⟨_, _, _, _⟩, _, j, h6, _, _, h⟩ := h
    rw [h2] at h6
    cases h6
    cases h
    rfl

/-- For reading: the object for a frame of a documented kind, unless it is given up as unknown, has the documented symbol and class. -/
theorem C140_read_partial (E : Scheme.Env) (v : Ver) (u : Bool) (f : Frame4) (o : Obj) (s : Bytes) (i : Option Id3)
    (hd : (s, i, f.id) ∈ documented) (h : deFrame4 E v u f = .ok o) (ho : o.cls ≠ .unk) :
    o.slots[0]? = some (.sym s) ∧ o.cls = classOf s := by
  have hu : ∀ g, deUnknown4 E v f u = .ok g → g.cls = .unk := by
    intro g hg
    simp only [deUnknown4, bind_eq_ok] at hg
    obtain ⟨_, _, _, _, hg⟩ := hg
    cases hg
    rfl
  have hs : s ≠ /- priv-frame -/ [112, 114, 105, 118, 45, 102, 114, 97, 109, 101] := by
    rintro rfl
    exact ho (C140_refuted_priv E v u f o (priv_doc _ hd rfl) h).1
  obtain ⟨h1, h2⟩ := doc_de (v := v) hd hs
  unfold deFrame4 at h
  rw [h1] at h
  simp only [h2, ok_bind] at h
  unfold orUnknown at h
  split at h
  · exact absurd (hu o h) ho
  · rw [bind_eq_ok] at h
    obtain ⟨l, _, h⟩ := h
    cases h
    exact ⟨rfl, rfl⟩

/-- So what was read from a frame is written as a frame with the same identifier, whatever is put into the slots but the first. -/
theorem C140_both_partial (E E' : Scheme.Env) (v : Ver) (u : Bool) (f g : Frame4) (o o' : Obj) (i : Option Id3) (s : Bytes)
    (hd : (s, i, f.id) ∈ documented) (h : deFrame4 E v u f = .ok o) (ho : o.cls ≠ .unk) (h0 : o'.slots[0]? = o.slots[0]?)
    (hb : ∀ b, o'.slots[6]? ≠ some (.bv b)) (h' : serFrame4 E' v o' = .ok g) : g.id = f.id := by
  have hs : s ≠ /- priv-frame -/ [112, 114, 105, 118, 45, 102, 114, 97, 109, 101] := by
    rintro rfl
    exact ho (C140_refuted_priv E v u f o (priv_doc _ hd rfl) h).1
  have := (C140_read_partial E v u f o s i hd h ho).1
  exact C140_partial E' v o' g s i f.id hd hs (h0.trans this) hb h'

/-- The documented symbols are all different, and so are the identifiers. -/
theorem C140_distinct : (documented.map (·.1)).Nodup ∧ (documented.map (·.2.2)).Nodup ∧ (documented.filterMap (·.2.1)).Nodup := by
  decide +kernel

/-- For ID3v2.2: the same, for the kinds that have an identifier there. -/
theorem C140_v22_partial (E E' : Scheme.Env) (u : Bool) (f g : Frame22) (o o' : Obj) (s : Bytes) (id4 : Id4)
    (hd : (s, some f.id, id4) ∈ documented) (h : deFrame22 E u f = .ok o) (ho : o.cls ≠ .unk) :
    (o.slots[0]? = some (.sym s) ∧ o.cls = classOf s) ∧
    (o'.slots[0]? = o.slots[0]? → (∀ b, o'.slots[6]? ≠ some (.bv b)) → serFrame22 E' o' = .ok g → g.id = f.id) := by
  obtain ⟨h1, h2, h3, h4⟩ := doc3 _ hd _ rfl
  have hu : ∀ g, deUnknown22 E f u = .ok g → g.cls = .unk := by
    intro g hg
    simp only [deUnknown22, bind_eq_ok] at hg
    obtain ⟨_, _, _, _, hg⟩ := hg
    cases hg
    rfl
  have k : o.slots[0]? = some (.sym s) ∧ o.cls = classOf s := by
    unfold deFrame22 at h
    rw [h1] at h
    simp only [h2, ok_bind] at h
    unfold orUnknown at h
    split at h
    · exact absurd (hu o h) ho
    · rw [bind_eq_ok] at h
      obtain ⟨l, _, h⟩ := h
      cases h
      exact ⟨rfl, rfl⟩
  refine ⟨k, fun h0 hb h => ?_⟩
  rw [k.1] at h0
  unfold serFrame22 at h
  simp only [bind_eq_ok] at h
  obtain ⟨x, h5, y, h6, h⟩ := h
  have hx : x = .sym s := by
    unfold slot at h5
    rw [h0] at h5
    cases h5
    rfl
  subst hx
  have hy : y = s := symText_eq h6
  subst hy
  rw [h3] at h
  simp only at h
  have hun : ∀ g, serUnknown22 o'.slots ≠ .ok g := by
    intro g hg
    unfold serUnknown22 at hg
    simp only [bind_eq_ok] at hg
    obtain ⟨_, _, _, _, _, _, w, h6, _, h7, _⟩ := hg
    unfold slot at h6
    split at h6
    · rename_i w' hw
      cases h6
      cases w with
      | bv b => exact hb b hw
      | _ => simp [unknownData] at h7
    · cases h6
  unfold orUnknown at h
  split at h
  · exact absurd h (hun g)
  · simp only [bind_eq_ok] at h
    obtain ⟨_, _, j, h6, _, _, h⟩ := h
    rw [h4] at h6
    cases h6
    cases h
    rfl

/-- A title and a tag cloud, in ID3v2.3, read and written. -/
example : (deFrame4 scmEnv .v3 false (.new (mkId4 'T' 'I' 'T' '2') (.text 0 /- Hi -/ [72, 105]) false false false false none none false none)).bind
    (fun o => (serFrame4 scmEnv .v3 { o with slots := o.slots.set 5 (.str /- Ho -/ [72, 111]) }).bind fun f => .ok (f.id, f.body)) =
      .ok (mkId4 'T' 'I' 'T' '2', .text 0 /- Ho -/ [72, 111]) := by decide +kernel

example : (deFrame4 scmEnv .v3 false (.new (mkId4 'X' 'T' 'A' 'G') (.xtag ⟨/- me -/ [109, 101], [(/- a -/ [97], [/- b -/ [98], /- c -/ [99]])]⟩) false false false false none none false none)).bind
    (fun o => (serFrame4 scmEnv .v3 o).bind fun f => .ok (f.id, f.body)) =
      .ok (mkId4 'X' 'T' 'A' 'G', .xtag ⟨/- me -/ [109, 101], [(/- a -/ [97], [/- b -/ [98], /- c -/ [99]])]⟩) := by decide +kernel

/-! ## C139: frames by symbol -/

/-- **C139** `has-frame?` is true exactly if there is a frame with the symbol. -/
theorem C139_has (f : Bytes) (os : List Obj) : hasFrame f os = true ↔ ∃ o ∈ os, o.slots[0]? = some (.sym f) := by
  induction os with
  | nil => simp [hasFrame]
  | cons o os ih =>
    unfold hasFrame Obj.id?
    split
    · rename_i h
      exact ⟨fun _ => ⟨o, by simp, h⟩, fun _ => rfl⟩
    · rename_i h
      rw [ih]
      constructor
      · rintro ⟨o', h1, h2⟩
        exact ⟨o', by simp [h1], h2⟩
      · rintro ⟨o', h1, h2⟩
        rcases List.mem_cons.1 h1 with rfl | h1
        · exact absurd h2 h
        · exact ⟨o', h1, h2⟩

theorem getLoop (f : Bytes) (ret os : List Obj) :
    getFramesLoop f ret os = ret ++ os.filter fun o => decide (o.slots[0]? = some (.sym f)) := by
  induction os generalizing ret with
  | nil => simp [getFramesLoop]
  | cons o os ih =>
    unfold getFramesLoop Obj.id?
    rw [ih]
    by_cases h : o.slots[0]? = some (.sym f)
    · rw [if_pos h, List.filter_cons, if_pos (by simp only [h, decide_true])]
      simp
    · rw [if_neg h, List.filter_cons, if_neg (by simp only [h, decide_false, Bool.false_eq_true, not_false_eq_true])]

/-- **C139** `get-frames` gives the frames with the symbol, all of them, each as often as it is there, in the order they have in the tag. -/
theorem C139_get (t : TagObj) (f : Bytes) :
    getFrames t f = t.frames.filter (fun o => decide (o.slots[0]? = some (.sym f))) ∧ (getFrames t f).Sublist t.frames ∧
    (∀ o, (getFrames t f).count o = if o.slots[0]? = some (.sym f) then t.frames.count o else 0) ∧
    (hasFrame f t.frames = true ↔ getFrames t f ≠ []) := by
  have h : getFrames t f = t.frames.filter fun o => decide (o.slots[0]? = some (.sym f)) := by
    unfold getFrames
    rw [getLoop]
    rfl
  refine ⟨h, h ▸ List.filter_sublist, fun o => ?_, ?_⟩
  · rw [h]
    split
    · rename_i k
      exact List.count_filter (decide_eq_true k)
    · rename_i k
      rw [List.count_eq_zero]
      intro hm
      exact k (of_decide_eq_true (List.mem_filter.1 hm).2)
  · rw [C139_has, h]
    constructor
    · rintro ⟨o, h1, h2⟩ k
      have : o ∈ t.frames.filter fun o => decide (o.slots[0]? = some (.sym f)) := List.mem_filter.2 ⟨h1, decide_eq_true h2⟩
      rw [k] at this
      cases this
    · intro k
      obtain ⟨o, ho⟩ := List.exists_mem_of_ne_nil _ k
      have := List.mem_filter.1 ho
      exact ⟨o, this.1, of_decide_eq_true this.2⟩

example : (getFrames ⟨.nil, [⟨.text, [.sym /- a -/ [97], .nil]⟩, ⟨.text, [.sym /- b -/ [98], .nil]⟩, ⟨.popm, [.sym /- a -/ [97]]⟩], .num 0⟩ /- a -/ [97]) =
    [⟨.text, [.sym /- a -/ [97], .nil]⟩, ⟨.popm, [.sym /- a -/ [97]]⟩] := by decide

/-! ## C136: what `read-tagset` shows -/

/-- The frames of a tag of ID3v2.3 or 2.4. -/
def scmFrames : AnyTag → Option (Ver × List Frame4)
  | .inl _ => none
  | .inr (.inl t) => some (.v3, t.frames)
  | .inr (.inr t) => some (.v4, t.frames)

/-- **C136** as claimed: every text frame of a file that can be read is there, at its place, with its text. -/
def C136_claim : Prop :=
  ∀ (E : Scheme.Env) (file : Bytes) (ts : List AnyTag) (i j : Nat) (t : AnyTag) (v : Ver) (fs : List Frame4) (f : Frame4) (u : Byte) (b s : Bytes),
    E.v2 = none → readTags E.z file = .ok ts → ts[i]? = some t → scmFrames t = some (v, fs) → fs[j]? = some f → f.body = .text u b →
    TextIn E.toEnv v u b s → E.valid s = true →
    ∃ xs x o, readTagset E (some file) = .ok xs ∧ xs[i]? = some x ∧ x.1.frames[j]? = some o ∧ o.slots[5]? = some (.str s)

/-- What is in slot 5 of the first frame of the first tag. -/
def firstText (E : Scheme.Env) (file : Bytes) : Option Val :=
  match readTagset E (some file) with
  | .ok (x :: _) => match x.1.frames with | o :: _ => o.slots[5]? | [] => none
  | _ => none

theorem not_C136 (file : Bytes) (t : AnyTag) (v : Ver) (f : Frame4) (fs : List Frame4) (u : Byte) (b s : Bytes)
    (h1 : readTags noZlib file = .ok [t]) (h2 : scmFrames t = some (v, f :: fs)) (h3 : f.body = .text u b)
    (h4 : TextIn dumpEnv v u b s) (h5 : scmEnv.valid s = true) (h6 : firstText scmEnv file ≠ some (.str s)) : ¬ C136_claim := by
  intro h
  obtain ⟨xs, x, o, k1, k2, k3, k4⟩ := h scmEnv file [t] 0 0 t v (f :: fs) f u b s rfl h1 rfl h2 rfl h3 h4 h5
  apply h6
  unfold firstText
  rw [k1]
  cases xs with
  | nil => cases k2
  | cons y xs =>
    cases k2
    simp only
    cases hx : x.1.frames with
    | nil => rw [hx] at k3; cases k3
    | cons p ps =>
      rw [hx] at k3
      cases k3
      exact k4

/-- An ID3v2.4 tag with two artists, the way ID3v2.4 has it: with a null character between them. -/
def twoArtists : Bytes := [0x49, 0x44, 0x33, 4, 0, 0, 0, 0, 0, 14] ++ /- TPE1 -/ [84, 80, 69, 49] ++ [0, 0, 0, 4, 0, 0] ++ [3, 65, 0, 66]

/-- **Finding** C136 is refuted: of a text frame with several values, as ID3v2.4 has them, the first is all that Scheme gets to see. -/
theorem C136_refuted : ¬ C136_claim :=
  not_C136 twoArtists
    (.inr (.inr ⟨some false, false, false, none, 0, [.new (mkId4 'T' 'P' 'E' '1') (.text 3 [65, 0, 66]) false false false false none none false none]⟩))
    .v4 _ _ 3 [65, 0, 66] [65, 0, 66] (by decide +kernel) rfl rfl (.inr ⟨.UTF_8, .utf8 _, .inr ⟨by decide, by decide +kernel⟩⟩) (by decide)
    (by decide +kernel)

/-- A title, and a tag cloud with an owner that is not UTF-8. -/
def badOwner : Bytes :=
  [0x49, 0x44, 0x33, 3, 0, 0, 0, 0, 0, 26] ++ /- TIT2 -/ [84, 73, 84, 50] ++ [0, 0, 0, 3, 0, 0] ++ [0, 72, 105] ++ /- XTAG -/ [88, 84, 65, 71] ++ [0, 0, 0, 3, 0, 0] ++ [1, 0xe9, 0]

theorem badOwner_read : readTags noZlib badOwner = .ok [.inr (.inl ⟨some false, false, none, 0,
    [.new (mkId4 'T' 'I' 'T' '2') (.text 0 [72, 105]) false false false false none none false none,
     .new (mkId4 'X' 'T' 'A' 'G') (.xtag ⟨[0xe9], []⟩) false false false false none none false none]⟩)] := by decide +kernel

/-- **Finding** One tag cloud whose owner is not UTF-8 is enough, and `read-tagset` fails for the whole file. -/
theorem C136_refuted_owner : ¬ C136_claim := by
  intro h
  obtain ⟨xs, x, o, k1, -⟩ := h scmEnv badOwner _ 0 0 _ .v3 _ _ 0 [72, 105] [72, 105] rfl badOwner_read rfl rfl rfl rfl
    (.inr ⟨.ISO_8859_1, .latin _ _, .inr ⟨by decide, by decide +kernel⟩⟩) (by decide)
  have : readTagset scmEnv (some badOwner) = .guile := by decide +kernel
  rw [this] at k1
  cases k1

/-- An ID3v2.3 tag with a frame of an unknown kind that is to be discarded when the file is changed. -/
def flagged : Bytes := [0x49, 0x44, 0x33, 3, 0, 0, 0, 0, 0, 12] ++ (/- WOAR -/ [87, 79, 65, 82] ++ [0, 0, 0, 2, 0x40, 0] ++ [7, 8])

/-- **Finding** The data of frames of unknown kinds is documented as everything beyond the header (doc/scribbu.texi, `<unk-frame>`), but the header is there,
and not even as in the file: the attributes in it are moved by one bit. -/
theorem C136_refuted_flags : (readTagset scmEnv (some flagged)).bind (fun xs => .ok (xs.map fun x => x.1.frames.map fun o => o.slots[6]?)) =
    .ok [[some (.bv (/- WOAR -/ [87, 79, 65, 82] ++ [0, 0, 0, 2, 0x20, 0] ++ [7, 8]))]] := by decide +kernel

/-- An ID3v2.2 tag, not unsynchronised, with a frame of an unknown kind in which there is a false sync. -/
def unknown22 : Bytes := [0x49, 0x44, 0x33, 2, 0, 0, 0, 0, 0, 8] ++ (/- WAR -/ [87, 65, 82] ++ [0, 0, 2] ++ [0xff, 0xe0])

/-- **Finding** In ID3v2.2 the data of such a frame is unsynchronised just if the tag is not. -/
theorem C136_refuted_v22 : (readTagset scmEnv (some unknown22)).bind (fun xs => .ok (xs.map fun x => (x.2.2, x.1.frames.map fun o => o.slots[6]?))) =
    .ok [(false, [some (.bv (/- WAR -/ [87, 65, 82] ++ [0, 0, 2] ++ [0xff, 0, 0xe0]))])] := by decide +kernel

/-- C136, as far as it holds: if the tags of a file can be read, no text has null characters in it, and the rest is as `TagSays` has it, `read-tagset` gives
exactly one object for each tag, in order, that describes it, its frames in order. Missing: frames of unknown kinds in ID3v2.2 and in unsynchronised
tags; contents that are not text. -/
theorem C136_partial (E : Scheme.Env) (hE : E.v2 = none) (file : Bytes) (ts : List AnyTag) (xs : List Triple)
    (h : readTags E.z file = .ok ts) (hs : Pairs (TagSays E) ts xs) : readTagset E (some file) = .ok xs := by
  unfold readTagset
  simp only [h, ofRes_ok, ok_bind, all_pairs hs fun a b _ => fromTag_ok hE, caught_ok]

/-- Whatever the frames: there are as many objects as tags, and each has as many frames, and says the right version, padding, and so on. -/
theorem C136_structure_partial (E : Scheme.Env) (file : Bytes) (xs : List Triple) (h : readTagset E (some file) = .ok xs) :
    ∃ ts, readTags E.z file = .ok ts ∧ Pairs (fun t x => match t with
      | .inl t => x.2 = (2, decide (t.unsync = some true)) ∧ x.1.experimental = .nil ∧ x.1.frames.length = t.frames.length ∧
          ∃ p, t.padding = some p ∧ x.1.padding = .num (p % 2 ^ 32)
      | .inr (.inl t) => x.2 = (3, decide (t.unsync = some true)) ∧ x.1.experimental = .bool t.experimental ∧
          x.1.frames.length = t.frames.length ∧ x.1.padding = .num (t.padding % 2 ^ 32)
      | .inr (.inr t) => x.2 = (4, decide (t.unsync = some true)) ∧ x.1.experimental = .bool t.experimental ∧
          x.1.frames.length = t.frames.length ∧ x.1.padding = .num (t.padding % 2 ^ 32)) ts xs := by
  have len : ∀ {α β : Type} {R : α → β → Prop} {as : List α} {bs : List β}, Pairs R as bs → bs.length = as.length := by
    intro α β R as bs h
    induction h with
    | nil => rfl
    | cons _ _ ih => simp [ih]
  unfold readTagset at h
  simp only at h
  cases ht : readTags E.z file with
  | throw e => rw [ht] at h; cases h
  | ub u => rw [ht] at h; cases h
  | ok ts =>
    rw [ht] at h
    simp only [ofRes_ok, ok_bind] at h
    refine ⟨ts, rfl, ?_⟩
    have h' : Ret.all (fromTag E) ts = .ok xs := by
      cases ha : Ret.all (fromTag E) ts <;> rw [ha] at h <;> cases h
      rfl
    have := all_ok h'
    clear ht h h'
    induction this with
    | nil => exact .nil
    | @cons t x ts xs h1 _ ih =>
      refine .cons ?_ ih
      rcases t with t | t | t
      · simp only [fromTag, bind_eq_ok] at h1
        obtain ⟨p, h2, os, h3, h4⟩ := h1
        cases h4
        refine ⟨rfl, rfl, len (all_ok h3), p, ?_, rfl⟩
        unfold Tag22.use at h2
        cases hp : t.padding with
        | none => rw [hp] at h2; cases h2
        | some q =>
          rw [hp] at h2
          cases h2
          rfl
      all_goals
        simp only [fromTag, bind_eq_ok] at h1
        obtain ⟨os, h3, h4⟩ := h1
        cases h4
        exact ⟨rfl, rfl, len (all_ok h3), rfl⟩

/-! A case: a title, a popularimeter, a tag cloud and a frame of an unknown kind, and four bytes of padding. -/

/-- The frames. -/
def caseFrames : List Frame4 :=
  [.new (mkId4 'T' 'I' 'T' '2') (.text 0 [72, 105]) false false false false none none false none,
   .new (mkId4 'P' 'O' 'P' 'M') (.popm ⟨/- me -/ [109, 101], 200, [1, 2]⟩) false false true false none none false none,
   .new (mkId4 'X' 'T' 'A' 'G') (.xtag ⟨/- me -/ [109, 101], [(/- a -/ [97], [/- b -/ [98], /- c -/ [99]]), (/- d -/ [100], [])]⟩) false false false false none none false none,
   .new (mkId4 'W' 'O' 'A' 'R') (.unknown [7, 8]) false false false false none none false none]

example : ∃ x, TagSays scmEnv (.inr (.inl ⟨some false, true, none, 4, caseFrames⟩)) x ∧ x.1.frames.length = 4 ∧
    (x.1.frames.map fun o => (o.cls, o.slots.length)) = [(.text, 6), (.popm, 8), (.tagCloud, 7), (.unk, 7)] := by
  refine ⟨_, .v3 _ _ (.cons (.known /- title-frame -/ [116, 105, 116, 108, 101, 45, 102, 114, 97, 109, 101] (some (mkId3 'T' 'T' '2')) _ (by decide +kernel) (.text 0 _ [72, 105]
      (.inr ⟨.ISO_8859_1, .latin _ _, .inr ⟨by decide, by decide +kernel⟩⟩) ⟨by decide, by decide⟩))
    (.cons (.known /- popm-frame -/ [112, 111, 112, 109, 45, 102, 114, 97, 109, 101] (some (mkId3 'P' 'O' 'P')) _ (by decide +kernel) (.popm _ /- me -/ [109, 101] (.inr ⟨by decide, by decide +kernel⟩)
      ⟨by decide, by decide⟩ (by decide) (by decide)))
    (.cons (.known /- tag-cloud-frame -/ [116, 97, 103, 45, 99, 108, 111, 117, 100, 45, 102, 114, 97, 109, 101] (some (mkId3 'X' 'T' 'G')) _ (by decide +kernel) (.tagCloud _ ⟨by decide, by decide⟩ (fun e he => ?_)))
    (.cons (.unknown [7, 8] rfl (fun s i h => ?_) rfl ⟨rfl, rfl, rfl, rfl⟩ rfl rfl (by decide) rfl (by decide)) .nil)))) (by decide), ?_, ?_⟩
  · have : ∀ e ∈ ([(/- a -/ [97], [/- b -/ [98], /- c -/ [99]]), (/- d -/ [100], [])] : TagMap), scmEnv.valid e.1 = true ∧ (0 : Byte) ∉ e.1 := by decide
    exact ⟨this e he, fun _ _ => rfl⟩
  · have : ∀ r ∈ documented, r.2.2 ≠ mkId4 'W' 'O' 'A' 'R' := by decide +kernel
    exact absurd rfl (this _ h)
  · rfl
  · decide

end Scribbu.Props
