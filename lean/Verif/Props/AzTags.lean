import Verif.Spec.AzTags
import Verif.Props.Dump
import Verif.Props.Process

/-! # C159, C160: the example program `az-tags` -/

namespace Scribbu.Props
open Scribbu Scribbu.Spec Scribbu.AzTags Scribbu.Spec.AzTags

/-! ## C159: which comments are changed, and what to -/

/-- C159: in a tag whose comments can be read, those that have no description and begin with "Amazon.com Song ID" are given the
description "amazon.com song id"; text, language and attributes stay as they are, and so does everything else. -/
def C159_claim : Prop :=
  ∀ (E : Json.Env) (t : AnyTag), E.v2 = none →
    (∀ x ∈ framesOf t, x.2.1 = true → ∃ c, x.2.2 = .comm c ∧ ReadComm E x.1 c) →
    ∃ t', AzTags.tag E t = .ok t' ∧ TagAfter E (fun c c' => c'.lang = c.lang) sameAttributes t t'

/-- The characters of a text in UCS-2 (big-endian), in UTF-8. -/
def azWide : Bytes → Option Bytes
  | [] => some []
  | [_] => none
  | h :: l :: bs => (azWide bs).map fun rest =>
    (if h = 0 ∧ l < 128 then [l] else if h < 8 then [0xc0 + h * 4 + l / 64, 0x80 + l % 64]
     else [0xe0 + h / 16, 0x80 + (h % 16) * 4 + l / 64, 0x80 + l % 64]) ++ rest

/-- A text in UTF-8 in Latin-1, if it can be had. -/
def azNarrow : Bytes → Option Bytes
  | [] => some []
  | [c] => if c < 128 then some [c] else none
  | c :: d :: bs =>
    if c < 128 then (azNarrow (d :: bs)).map (c :: ·)
    else if c = 0xc2 ∨ c = 0xc3 then (azNarrow bs).map (((c - 0xc0) * 64 + (d - 0x80)) :: ·)
    else none

/-- iconv, from Latin-1 and UCS-2BE to UTF-8, from UTF-8 to Latin-1, and from ASCII. -/
def azLib : IconvLib := fun to_ from_ =>
  some (byFunction fun b =>
    if to_ = /- ISO-8859-1 -/ [73, 83, 79, 45, 56, 56, 53, 57, 45, 49] then azNarrow b
    else if from_ = /- ISO-8859-1 -/ [73, 83, 79, 45, 56, 56, 53, 57, 45, 49] then some (b.flatMap fun c => if c < 128 then [c] else [0xc0 + c / 64, 0x80 + c % 64])
    else if from_ = /- UCS-2BE -/ [85, 67, 83, 45, 50, 66, 69] then azWide b
    else if b.all (· < 128) then some b else none)

/-- The encodings are those that the library asks for if it is told nothing. -/
def azEnv : Json.Env := ⟨azLib, 9, noZlib, fun _ => [0xab, 0x01], .ASCII, none⟩

/-- A comment in Latin-1 without description, in German. -/
def azComm (text : Bytes) : Comm := ⟨some .v3, some .iso88591, 1, some 0, some (100, 101, 117), [], text⟩

/-- A frame with that comment, and with a group. -/
def azFrame (c : Comm) (gid : Option Byte) : Frame4 := .new (mkId4 'C' 'O' 'M' 'M') (.comm c) true true false false none gid false none

/-- A tag with a title and a comment. -/
def azTag (f : Frame4) : AnyTag := .inr (.inl { Tag23.scratch 0 false none with frames := [tit2, f] })

theorem not_C159 {c : Comm} {gid : Option Byte} (hc : ReadComm azEnv .v3 c)
    (h : ∀ f', AzTags.frame4 azEnv .v3 (azFrame c gid) = .ok f' → ¬ Frame4After azEnv .v3 (fun c c' => c'.lang = c.lang) sameAttributes (azFrame c gid) f') :
    ¬ C159_claim := by
  intro hC
  obtain ⟨t', h1, h2⟩ := hC azEnv (azTag (azFrame c gid)) rfl (by
    intro x hx hid
    simp only [framesOf, azTag, List.map_cons, List.map_nil, List.mem_cons, List.not_mem_nil, or_false] at hx
    rcases hx with rfl | rfl
    · exact absurd hid (by decide)
    · exact ⟨c, rfl, hc⟩)
  cases h2 with
  | v3 t fs hp =>
    simp only [azTag, AzTags.tag, each] at h1 hp
    cases hp with
    | cons ha hp =>
      cases hp with
      | cons hb hp =>
        cases hp
        have e1 : AzTags.frame4 azEnv .v3 tit2 = .ok tit2 := by decide +kernel
        rw [e1] at h1
        cases e2 : AzTags.frame4 azEnv .v3 (azFrame c gid) with
        | ok f' =>
          rw [e2] at h1
          simp only [Res.bind, Res.ok.injEq, Sum.inr.injEq, Sum.inl.injEq] at h1
          have h3 := congrArg (fun t : Tag23 => t.frames) h1
          simp only [List.cons.injEq, and_true] at h3
          exact h f' e2 (h3.2 ▸ hb)
        | throw e => rw [e2] at h1; exact absurd h1 (by simp [Res.bind])
        | ub u => rw [e2] at h1; exact absurd h1 (by simp [Res.bind])

/-- **Finding** C159 is refuted: the language of the comment becomes English. -/
theorem C159_refuted : ¬ C159_claim := by
  refine not_C159 (c := azComm /- Amazon.com Song ID: 7 -/ [65, 109, 97, 122, 111, 110, 46, 99, 111, 109, 32, 83, 111, 110, 103, 32, 73, 68, 58, 32, 55]) (gid := none) ⟨⟨_, rfl⟩, /- Amazon.com Song ID: 7 -/ [65, 109, 97, 122, 111, 110, 46, 99, 111, 109, 32, 83, 111, 110, 103, 32, 73, 68, 58, 32, 55], by decide +kernel⟩ ?_
  intro f' h
  have h0 : AzTags.frame4 azEnv .v3 (azFrame (azComm /- Amazon.com Song ID: 7 -/ [65, 109, 97, 122, 111, 110, 46, 99, 111, 109, 32, 83, 111, 110, 103, 32, 73, 68, 58, 32, 55]) none) = .ok (azFrame ⟨none, none, 1, some 0, some (101, 110, 103),
      /- amazon.com song id -/ [97, 109, 97, 122, 111, 110, 46, 99, 111, 109, 32, 115, 111, 110, 103, 32, 105, 100], /- Amazon.com Song ID: 7 -/ [65, 109, 97, 122, 111, 110, 46, 99, 111, 109, 32, 83, 111, 110, 103, 32, 73, 68, 58, 32, 55]⟩ none) := by decide +kernel
  rw [h0] at h
  cases h
  rintro (⟨_, h⟩ | ⟨_, _, _, c, c', txt, h1, h2, _, _, h3⟩)
  · exact absurd h (by decide)
  · cases h1; cases h2
    exact absurd h3 (by decide)

/-- **Finding** A frame that belongs to a group no longer does. -/
theorem C159_refuted_group : ¬ C159_claim := by
  refine not_C159 (c := azComm /- Amazon.com Song ID: 7 -/ [65, 109, 97, 122, 111, 110, 46, 99, 111, 109, 32, 83, 111, 110, 103, 32, 73, 68, 58, 32, 55]) (gid := some 5) ⟨⟨_, rfl⟩, /- Amazon.com Song ID: 7 -/ [65, 109, 97, 122, 111, 110, 46, 99, 111, 109, 32, 83, 111, 110, 103, 32, 73, 68, 58, 32, 55], by decide +kernel⟩ ?_
  intro f' h
  have h0 : AzTags.frame4 azEnv .v3 (azFrame (azComm /- Amazon.com Song ID: 7 -/ [65, 109, 97, 122, 111, 110, 46, 99, 111, 109, 32, 83, 111, 110, 103, 32, 73, 68, 58, 32, 55]) (some 5)) = .ok (azFrame ⟨none, none, 1, some 0, some (101, 110, 103),
      /- amazon.com song id -/ [97, 109, 97, 122, 111, 110, 46, 99, 111, 109, 32, 115, 111, 110, 103, 32, 105, 100], /- Amazon.com Song ID: 7 -/ [65, 109, 97, 122, 111, 110, 46, 99, 111, 109, 32, 83, 111, 110, 103, 32, 73, 68, 58, 32, 55]⟩ none) := by decide +kernel
  rw [h0] at h
  cases h
  rintro (⟨_, h⟩ | ⟨_, _, h1, _⟩)
  · exact absurd h (by decide)
  · exact absurd h1.2.2.2.2.2.1 (by decide)

/-- **Finding** If there are characters in the text that Latin-1 lacks, such as a euro sign, the program ends with an uncaught
exception. -/
theorem C159_refuted_latin : ¬ C159_claim := by
  intro hC
  let c : Comm := ⟨some .v3, some .ucs2, 2, some 1, some (101, 110, 103), [], [0xfe, 0xff] ++ /- Amazon.com Song ID  -/ [65, 109, 97, 122, 111, 110, 46, 99, 111, 109, 32, 83, 111, 110, 103, 32, 73, 68, 32].flatMap (fun b => [0, b]) ++ [0x20, 0xac]⟩
  obtain ⟨t', h1, _⟩ := hC azEnv (azTag (azFrame c none)) rfl (by
    intro x hx hid
    simp only [framesOf, azTag, List.map_cons, List.map_nil, List.mem_cons, List.not_mem_nil, or_false] at hx
    rcases hx with rfl | rfl
    · exact absurd hid (by decide)
    · exact ⟨c, rfl, ⟨_, rfl⟩, /- Amazon.com Song ID € -/ [65, 109, 97, 122, 111, 110, 46, 99, 111, 109, 32, 83, 111, 110, 103, 32, 73, 68, 32, 226, 130, 172], by decide +kernel⟩)
  have h2 : AzTags.tag azEnv (azTag (azFrame c none)) = .throw .runtimeError := by decide +kernel
  rw [h2] at h1
  exact absurd h1 (by simp)

theorem make_no (v : Ver) (l : Byte × Byte × Byte) (t d : Bytes) : Comm.make v .no l t d = ⟨none, none, 1, some 0, some l, d, t⟩ := by
  cases v <;> rfl

/-- The condition on a comment in `Suits`. -/
def FitComm (E : Json.Env) (v : Ver) (c : Comm) : Prop := ReadComm E v c ∧ ∀ txt, Song E v c txt → ∀ s ∈ [txt, AzTags.label],
  ∃ b, Charset.toBytes E.lib E.mem .UTF_8 .ISO_8859_1 false .fail s = .ok b ∧ E.asStr v (some 0) b = .ok s

theorem take_amazon (txt : Bytes) : txt.take 18 = amazon ↔ ∃ rest, txt = /- Amazon.com Song ID -/ [65, 109, 97, 122, 111, 110, 46, 99, 111, 109, 32, 83, 111, 110, 103, 32, 73, 68] ++ rest := by
  constructor
  · intro h
    exact ⟨txt.drop 18, by rw [← amazon, ← h, List.take_append_drop]⟩
  · rintro ⟨rest, rfl⟩
    rfl

/-- What becomes of the contents of a comment. -/
theorem az_comment {E : Json.Env} {v : Ver} {c : Comm} (h : FitComm E v c) :
    ((∃ txt, Song E v c txt) → ∃ c', comment E v c = .ok (some c') ∧ c'.lang = some (101, 110, 103) ∧
      ∀ txt, Song E v c txt → Labelled E v c' txt) ∧
    ((¬ ∃ txt, Song E v c txt) → comment E v c = .ok none) := by
  obtain ⟨⟨⟨d, hd⟩, txt, ht⟩, hf⟩ := h
  unfold comment
  rw [hd]
  simp only [Res.bind]
  by_cases he : d = []
  · subst he
    rw [if_pos rfl, ht]
    simp only
    by_cases hs : txt.take 18 = amazon
    · have hsong : Song E v c txt := ⟨hd, ht, (take_amazon _).1 hs⟩
      obtain ⟨tb, h1, h2⟩ := hf txt hsong txt (by simp)
      obtain ⟨db, h3, h4⟩ := hf txt hsong label (by simp)
      refine ⟨fun _ => ⟨_, by rw [if_pos hs]; unfold relabel; rw [h1, h3]; rfl, by rw [make_no], ?_⟩, fun hn => absurd ⟨txt, hsong⟩ hn⟩
      intro txt' hsong'
      have : txt' = txt := by have := hsong'.reads; rw [ht] at this; exact (Res.ok.inj this).symm
      subst this
      rw [make_no]
      exact ⟨h4, h2⟩
    · refine ⟨?_, fun _ => by rw [if_neg hs]⟩
      rintro ⟨txt', h1, h2, h3⟩
      rw [ht] at h2
      cases h2
      exact absurd ((take_amazon _).2 h3) hs
  · rw [if_neg he]
    refine ⟨?_, fun _ => rfl⟩
    rintro ⟨txt', h1, h2, h3⟩
    rw [hd] at h1
    exact absurd (Res.ok.inj h1) he

theorem az_body {E : Json.Env} {v : Ver} {is : Prop} {b : Body} (h : ∃ c, b = .comm c ∧ FitComm E v c) :
    (¬ Meant E v is b ∧ AzTags.body E v b = .ok none) ∨
    ∃ c', AzTags.body E v b = .ok (some c') ∧ NewBody E v (fun _ c' => c'.lang = some (101, 110, 103)) b (.comm c') := by
  obtain ⟨c, rfl, hc⟩ := h
  obtain ⟨h1, h2⟩ := az_comment hc
  by_cases hs : ∃ txt, Song E v c txt
  · obtain ⟨c', h3, h4, h5⟩ := h1 hs
    obtain ⟨txt, hs⟩ := hs
    exact .inr ⟨c', h3, c, c', txt, rfl, rfl, hs, h5 txt hs, h4⟩
  · refine .inl ⟨?_, h2 hs⟩
    rintro ⟨_, c2, txt, h3, h4⟩
    cases h3
    exact hs ⟨txt, h4⟩

theorem az_frame22 {E : Json.Env} {f : Frame22} (h : f.id = ⟨67, 79, 77⟩ → ∃ c, f.body = .comm c ∧ FitComm E .v2 c) :
    ∃ f', AzTags.frame22 E f = .ok f' ∧ Frame22After E (fun _ c' => c'.lang = some (101, 110, 103)) f f' := by
  unfold AzTags.frame22
  rw [show mkId3 'C' 'O' 'M' = ⟨67, 79, 77⟩ from by decide]
  by_cases hid : f.id = ⟨67, 79, 77⟩
  · rw [if_pos hid]
    rcases az_body (is := f.id = ⟨67, 79, 77⟩) (h hid) with ⟨h1, h2⟩ | ⟨c', h2, h3⟩
    · exact ⟨f, by rw [h2]; rfl, .inl ⟨h1, rfl⟩⟩
    · exact ⟨_, by rw [h2]; rfl, .inr ⟨hid, hid.symm, h3⟩⟩
  · rw [if_neg hid]
    exact ⟨f, rfl, .inl ⟨fun h => hid h.1, rfl⟩⟩

theorem az_frame4 {E : Json.Env} {v : Ver} {f : Frame4} (h : f.id = ⟨67, 79, 77, 77⟩ → ∃ c, f.body = .comm c ∧ FitComm E v c) :
    ∃ f', AzTags.frame4 E v f = .ok f' ∧ Frame4After E v (fun _ c' => c'.lang = some (101, 110, 103)) sameFate f f' := by
  unfold AzTags.frame4
  rw [show mkId4 'C' 'O' 'M' 'M' = ⟨67, 79, 77, 77⟩ from by decide]
  by_cases hid : f.id = ⟨67, 79, 77, 77⟩
  · rw [if_pos hid]
    rcases az_body (is := f.id = ⟨67, 79, 77, 77⟩) (h hid) with ⟨h1, h2⟩ | ⟨c', h2, h3⟩
    · exact ⟨f, by rw [h2]; rfl, .inl ⟨h1, rfl⟩⟩
    · exact ⟨Frame4.new ⟨67, 79, 77, 77⟩ (.comm c') f.tap f.fap f.ro false none none false none, by rw [h2]; rfl,
        .inr ⟨hid, hid.symm, ⟨rfl, rfl, rfl, rfl, rfl, rfl, rfl⟩, h3⟩⟩
  · rw [if_neg hid]
    exact ⟨f, rfl, .inl ⟨fun h => hid h.1, rfl⟩⟩

theorem az_each {F : α → Res α} {R : α → α → Prop} {l : List α} (h : ∀ a ∈ l, ∃ a', F a = .ok a' ∧ R a a') :
    ∃ l', each F l = .ok l' ∧ Pairs R l l' := by
  induction l with
  | nil => exact ⟨[], rfl, .nil⟩
  | cons a l ih =>
    obtain ⟨a', h1, h2⟩ := h a (List.mem_cons_self ..)
    obtain ⟨l', h3, h4⟩ := ih fun b hb => h b (List.mem_cons_of_mem _ hb)
    exact ⟨a' :: l', by rw [each, h1, Res.bind, h3]; rfl, .cons h2 h4⟩

/-- C159, as far as it holds: for comments whose text can be had in Latin-1, but for the language, which is English afterwards, and
compression, encryption, group and unsynchronisation of the frame, which it does not have afterwards. -/
theorem C159_partial (E : Json.Env) (t : AnyTag) (h : Suits E t) :
    ∃ t', AzTags.tag E t = .ok t' ∧ TagAfter E (fun _ c' => c'.lang = some (101, 110, 103)) sameFate t t' := by
  rcases t with t | t | t
  · obtain ⟨fs, h1, h2⟩ := az_each (F := AzTags.frame22 E) (R := Frame22After E (fun _ c' => c'.lang = some (101, 110, 103))) (l := t.frames) (by
      intro f hf
      refine az_frame22 fun hid => ?_
      obtain ⟨c, h1, h2, h3⟩ := h _ (List.mem_map.2 ⟨f, hf, rfl⟩) (decide_eq_true hid)
      exact ⟨c, h1, h2, h3⟩)
    exact ⟨_, by rw [AzTags.tag, h1]; rfl, .v2 t fs h2⟩
  · obtain ⟨fs, h1, h2⟩ := az_each (F := AzTags.frame4 E .v3) (R := Frame4After E .v3 (fun _ c' => c'.lang = some (101, 110, 103)) sameFate)
      (l := t.frames) (by
      intro f hf
      refine az_frame4 fun hid => ?_
      obtain ⟨c, h1, h2, h3⟩ := h _ (List.mem_map.2 ⟨f, hf, rfl⟩) (decide_eq_true hid)
      exact ⟨c, h1, h2, h3⟩)
    exact ⟨_, by rw [AzTags.tag, h1]; rfl, .v3 t fs h2⟩
  · obtain ⟨fs, h1, h2⟩ := az_each (F := AzTags.frame4 E .v4) (R := Frame4After E .v4 (fun _ c' => c'.lang = some (101, 110, 103)) sameFate)
      (l := t.frames) (by
      intro f hf
      refine az_frame4 fun hid => ?_
      obtain ⟨c, h1, h2, h3⟩ := h _ (List.mem_map.2 ⟨f, hf, rfl⟩) (decide_eq_true hid)
      exact ⟨c, h1, h2, h3⟩)
    exact ⟨_, by rw [AzTags.tag, h1]; rfl, .v4 t fs h2⟩

/-- A tag that meets the hypotheses, with a comment that is to be changed, in German and in a group. -/
theorem azTag_suits (gid : Option Byte) : Suits azEnv (azTag (azFrame (azComm (/- Amazon.com Song ID: 7 -/ [65, 109, 97, 122, 111, 110, 46, 99, 111, 109, 32, 83, 111, 110, 103, 32, 73, 68, 58, 32, 55] ++ [0xe9])) gid)) := by
  intro x hx hid
  simp only [framesOf, azTag, List.map_cons, List.map_nil, List.mem_cons, List.not_mem_nil, or_false] at hx
  rcases hx with rfl | rfl
  · exact absurd hid (by decide)
  · have ht : azEnv.asStr .v3 (some 0) (/- Amazon.com Song ID: 7 -/ [65, 109, 97, 122, 111, 110, 46, 99, 111, 109, 32, 83, 111, 110, 103, 32, 73, 68, 58, 32, 55] ++ [0xe9]) = .ok /- Amazon.com Song ID: 7é -/ [65, 109, 97, 122, 111, 110, 46, 99, 111, 109, 32, 83, 111, 110, 103, 32, 73, 68, 58, 32, 55, 195, 169] := by decide +kernel
    refine ⟨azComm (/- Amazon.com Song ID: 7 -/ [65, 109, 97, 122, 111, 110, 46, 99, 111, 109, 32, 83, 111, 110, 103, 32, 73, 68, 58, 32, 55] ++ [0xe9]), rfl, ⟨⟨[], rfl⟩, _, ht⟩, fun txt hs s hm => ?_⟩
    have : txt = /- Amazon.com Song ID: 7é -/ [65, 109, 97, 122, 111, 110, 46, 99, 111, 109, 32, 83, 111, 110, 103, 32, 73, 68, 58, 32, 55, 195, 169] := (Res.ok.inj (ht.symm.trans hs.reads)).symm
    subst this
    simp only [List.mem_cons, List.not_mem_nil, or_false] at hm
    rcases hm with rfl | rfl
    · exact ⟨/- Amazon.com Song ID: 7 -/ [65, 109, 97, 122, 111, 110, 46, 99, 111, 109, 32, 83, 111, 110, 103, 32, 73, 68, 58, 32, 55] ++ [0xe9], by decide +kernel, ht⟩
    · exact ⟨/- amazon.com song id -/ [97, 109, 97, 122, 111, 110, 46, 99, 111, 109, 32, 115, 111, 110, 103, 32, 105, 100], by decide +kernel, by show azEnv.asStr .v3 (some 0) _ = _; decide +kernel⟩

example : Song azEnv .v3 (azComm (/- Amazon.com Song ID: 7 -/ [65, 109, 97, 122, 111, 110, 46, 99, 111, 109, 32, 83, 111, 110, 103, 32, 73, 68, 58, 32, 55] ++ [0xe9])) /- Amazon.com Song ID: 7é -/ [65, 109, 97, 122, 111, 110, 46, 99, 111, 109, 32, 83, 111, 110, 103, 32, 73, 68, 58, 32, 55, 195, 169] :=
  ⟨rfl, by decide +kernel, /- : 7é -/ [58, 32, 55, 195, 169], rfl⟩

/-! ## C160: files given to it -/

/-- The file system never fails. -/
structure Faultless (e : Replace.Env) : Prop where
  write : e.write = .none
  rename : e.rename = .done

/-- C160: if all the files can be read and all of their ID3v2 tags suit the program, it processes all of them. -/
def C160_claim : Prop :=
  ∀ (E : Json.Env) (e : Replace.Env) (ps : List Path) (s0 : FS), E.v1 = .ASCII → E.v2 = none → Faultless e →
    (∀ p ∈ ps, ∃ r, Dump.readFile E.z E.md5 (s0.get (Path.absolute e.cwd p)) = .ok r ∧ ∀ t ∈ r.v2, Suits E t) →
    (AzTags.run E e ps s0).res = .ok ()

/-- Audio and an ID3v1 tag with a comment. -/
def azV1 (comment : Bytes) : Bytes :=
  [1, 2] ++ /- TAG -/ [84, 65, 71] ++ List.replicate 94 0 ++ (comment ++ List.replicate (30 - comment.length) 0) ++ [17]

/-- **Finding** C160 is refuted: a comment in an ID3v1 tag that is not in ASCII, say "é", ends the program, although it has nothing to
do with the seller. The file after it is not processed. -/
theorem C160_refuted : ¬ C160_claim := by
  intro h
  have h1 := h azEnv (calm .done) [fileF, /- /d/g -/ [47, 100, 47, 103]] [(fileF, azV1 [0xe9]), (/- /d/g -/ [47, 100, 47, 103], azV1 /- Amazon.com Song ID -/ [65, 109, 97, 122, 111, 110, 46, 99, 111, 109, 32, 83, 111, 110, 103, 32, 73, 68])] rfl rfl ⟨rfl, rfl⟩ (by
    intro p hp
    simp only [List.mem_cons, List.not_mem_nil, or_false] at hp
    have key : ∀ p ∈ [fileF, /- /d/g -/ [47, 100, 47, 103]], (match Dump.readFile azEnv.z azEnv.md5
      (FS.get [(fileF, azV1 [0xe9]), (/- /d/g -/ [47, 100, 47, 103], azV1 /- Amazon.com Song ID -/ [65, 109, 97, 122, 111, 110, 46, 99, 111, 109, 32, 83, 111, 110, 103, 32, 73, 68])] (Path.absolute (calm .done).cwd p)) with
      | .ok r => decide (r.v2 = []) | _ => false) = true := by decide +kernel
    have := key p (by simpa using hp)
    cases hr : Dump.readFile azEnv.z azEnv.md5 (FS.get [(fileF, azV1 [0xe9]), (/- /d/g -/ [47, 100, 47, 103], azV1 /- Amazon.com Song ID -/ [65, 109, 97, 122, 111, 110, 46, 99, 111, 109, 32, 83, 111, 110, 103, 32, 73, 68])] (Path.absolute (calm .done).cwd p)) with
    | ok r =>
      rw [hr] at this
      have h2 : r.v2 = [] := of_decide_eq_true this
      exact ⟨r, rfl, by rw [h2]; exact nofun⟩
    | throw e => rw [hr] at this; exact absurd this (by simp)
    | ub u => rw [hr] at this; exact absurd this (by simp))
  have h3 : (AzTags.run azEnv (calm .done) [fileF, /- /d/g -/ [47, 100, 47, 103]] [(fileF, azV1 [0xe9]), (/- /d/g -/ [47, 100, 47, 103], azV1 /- Amazon.com Song ID -/ [65, 109, 97, 122, 111, 110, 46, 99, 111, 109, 32, 83, 111, 110, 103, 32, 73, 68])]).res = .throw .runtimeError := by decide +kernel
  rw [h3] at h1
  exact absurd h1 (by simp)

/-- What an ID3v1 tag says in its comment is there afterwards, in it or in the comment of an ID3v2 tag. -/
def C160_kept_claim : Prop :=
  ∀ (E : Json.Env) (e : Replace.Env) (p : Path) (s0 : FS) (r r' : Dump.Facts) (t : V1Tag) (s : Bytes), E.v1 = .ASCII → E.v2 = none → Faultless e →
    Dump.readFile E.z E.md5 (s0.get (Path.absolute e.cwd p)) = .ok r → r.v1 = some t → E.field t.comment = .ok s →
    (AzTags.file E e p s0).res = .ok () →
    Dump.readFile E.z E.md5 ((AzTags.file E e p s0).fs.get (Path.absolute e.cwd p)) = .ok r' →
    (∃ t', r'.v1 = some t' ∧ E.field t'.comment = .ok s) ∨
    ∃ t' ∈ r'.v2, ∃ x ∈ framesOf t', ∃ c rest, x.2.2 = .comm c ∧ E.asStr x.1 c.unicode c.text = .ok (s ++ rest)

/-- **Finding** If it is only the ID3v1 tag that has the identifier, then it is lost: the comment there is cleared whether or not there is
another. -/
theorem C160_refuted_kept : ¬ C160_kept_claim := by
  intro h
  let s0 : FS := [(fileF, azV1 /- Amazon.com Song ID: 7 -/ [65, 109, 97, 122, 111, 110, 46, 99, 111, 109, 32, 83, 111, 110, 103, 32, 73, 68, 58, 32, 55])]
  have k1 : (match Dump.readFile azEnv.z azEnv.md5 (s0.get (Path.absolute (calm .done).cwd fileF)) with
      | .ok r => (match r.v1 with | some t => decide (azEnv.field t.comment = .ok /- Amazon.com Song ID: 7 -/ [65, 109, 97, 122, 111, 110, 46, 99, 111, 109, 32, 83, 111, 110, 103, 32, 73, 68, 58, 32, 55]) | none => false) | _ => false) = true := by
    decide +kernel
  have k2 : (match Dump.readFile azEnv.z azEnv.md5 ((AzTags.file azEnv (calm .done) fileF s0).fs.get (Path.absolute (calm .done).cwd fileF)) with
      | .ok r => (match r.v1 with | some t => decide (azEnv.field t.comment = .ok []) | none => false) && decide (r.v2 = []) | _ => false) = true := by
    decide +kernel
  have k3 : (AzTags.file azEnv (calm .done) fileF s0).res = .ok () := by decide +kernel
  cases e1 : Dump.readFile azEnv.z azEnv.md5 (s0.get (Path.absolute (calm .done).cwd fileF)) with
  | throw x => rw [e1] at k1; exact absurd k1 (by simp)
  | ub x => rw [e1] at k1; exact absurd k1 (by simp)
  | ok r =>
    rw [e1] at k1
    cases e2 : Dump.readFile azEnv.z azEnv.md5 ((AzTags.file azEnv (calm .done) fileF s0).fs.get (Path.absolute (calm .done).cwd fileF)) with
    | throw x => rw [e2] at k2; exact absurd k2 (by simp)
    | ub x => rw [e2] at k2; exact absurd k2 (by simp)
    | ok r' =>
      rw [e2] at k2
      cases e3 : r.v1 with
      | none => simp only [e3] at k1; exact absurd k1 (by simp)
      | some t =>
        simp only [e3] at k1
        simp only [Bool.and_eq_true, decide_eq_true_eq] at k2
        rcases h azEnv (calm .done) fileF s0 r r' t _ rfl rfl ⟨rfl, rfl⟩ e1 e3 (of_decide_eq_true k1) k3 e2 with ⟨t', h1, h2⟩ | ⟨t', h1, _⟩
        · rw [h1] at k2
          have := k2.1
          simp only [decide_eq_true_eq] at this
          rw [this] at h2
          exact absurd (Res.ok.inj h2) (by decide)
        · rw [k2.2] at h1
          exact absurd h1 (by simp)

open Replace Process FM in
/-- What the program leaves of a file. -/
theorem az_file_ended (E : Json.Env) (e : Replace.Env) (pth : Path) (hf : Fit e pth) (s0 : FS) (old : Bytes)
    (h0 : s0.get (Path.absolute e.cwd pth) = some old) :
    Holds (AzTags.file E e pth) (· = s0) (fun x => ∀ q, Apart e pth q → x.get q = s0.get q)
      (Ended e pth s0 fun x => ∃ r ts how mid ts', Dump.readFile E.z E.md5 (some old) = .ok r ∧ each (AzTags.tag E) r.v2 = .ok ts ∧
        Tagset.maybeEmplace (anyI E.z) (some old) .never .reducePaddingEvenly ts = .ok (how, mid, ts') ∧
        ((r.v1 = none ∧ x.get (Path.absolute e.cwd pth) = some mid) ∨
         ∃ t o, r.v1 = some t ∧ v1Cleared E t = .ok o ∧
          ((o = none ∧ x.get (Path.absolute e.cwd pth) = some mid) ∨
           ∃ t' new, o = some t' ∧ replaceId3v1 mid t' = .ok new ∧ x.get (Path.absolute e.cwd pth) = some new))) := by
  unfold AzTags.file
  refine Holds.bind (mid := fun o s => o = some old ∧ s = s0) (Holds.look _ ?_) ?_
  · rintro s rfl
    exact ⟨h0, rfl⟩
  intro o
  by_cases ho : o = some old
  case neg => rintro s ⟨h, -⟩; exact absurd h ho
  subst ho
  refine Holds.bind (mid := fun r s => Dump.readFile E.z E.md5 (some old) = .ok r ∧ s = s0) (Holds.lift _ ?_) ?_
  · rintro s ⟨-, rfl⟩
    cases hz : Dump.readFile E.z E.md5 (some old) with
    | ok r => exact ⟨rfl, rfl⟩
    | throw x => exact ⟨fun _ _ => rfl, by simp⟩
    | ub u => exact ⟨fun _ _ => rfl, by simp⟩
  intro r
  by_cases hr : Dump.readFile E.z E.md5 (some old) = .ok r
  case neg => rintro s ⟨h, -⟩; exact absurd h hr
  refine Holds.bind (mid := fun ts s => each (AzTags.tag E) r.v2 = .ok ts ∧ s = s0) (Holds.lift _ ?_) ?_
  · rintro s ⟨-, rfl⟩
    cases hz : each (AzTags.tag E) r.v2 with
    | ok r => exact ⟨rfl, rfl⟩
    | throw x => exact ⟨fun _ _ => rfl, by simp⟩
    | ub u => exact ⟨fun _ _ => rfl, by simp⟩
  intro ts
  by_cases he : each (AzTags.tag E) r.v2 = .ok ts
  case neg => rintro s ⟨h, -⟩; exact absurd h he
  refine Holds.bind (mid := fun _ s => (∀ q, Apart e pth q → s.get q = s0.get q) ∧ ∃ how mid ts', s.get (Path.absolute e.cwd pth) = some mid ∧
    Tagset.maybeEmplace (anyI E.z) (some old) .never .reducePaddingEvenly ts = .ok (how, mid, ts')) ?_ ?_
  · refine (emplace_ended (anyI E.z) e pth ts .never hf s0 old h0).weaken (fun s h => h.2) (fun s h => h) ?_
    rintro q s ⟨h1, h2⟩
    cases q with
    | ok u =>
      obtain ⟨how, new, ts', h3, h4⟩ := h2 rfl
      exact ⟨h1, how, new, ts', h4, h3⟩
    | throw x => exact ⟨h1, by simp⟩
    | ub u => exact ⟨h1, by simp⟩
  intro _
  cases hv : r.v1 with
  | none =>
    refine Holds.pure _ ?_
    rintro s ⟨h1, how, mid, ts', h2, h3⟩
    exact ⟨h1, fun _ => ⟨r, ts, how, mid, ts', hr, he, h3, .inl ⟨hv, h2⟩⟩⟩
  | some t =>
    refine Holds.bind (mid := fun o s => v1Cleared E t = .ok o ∧ (∀ q, Apart e pth q → s.get q = s0.get q) ∧ ∃ how mid ts',
      s.get (Path.absolute e.cwd pth) = some mid ∧
      Tagset.maybeEmplace (anyI E.z) (some old) .never .reducePaddingEvenly ts = .ok (how, mid, ts')) (Holds.lift _ ?_) ?_
    · rintro s ⟨h1, h2⟩
      cases hz : v1Cleared E t with
      | ok o => exact ⟨rfl, h1, h2⟩
      | throw x => exact ⟨h1, by simp⟩
      | ub u => exact ⟨h1, by simp⟩
    intro o
    cases o with
    | none =>
      refine Holds.pure _ ?_
      rintro s ⟨h0, h1, how, mid, ts', h2, h3⟩
      exact ⟨h1, fun _ => ⟨r, ts, how, mid, ts', hr, he, h3, .inr ⟨t, none, hv, h0, .inl ⟨rfl, h2⟩⟩⟩⟩
    | some t' =>
      refine Holds.each ?_
      rintro s1 ⟨h0, h1, how, mid, ts', h2, h3⟩
      refine (v1_ended e pth t' s1 mid h2).weaken (fun s h => h) (fun s h q hq => by rw [h q hq]; exact h1 q hq) ?_
      rintro q s ⟨h4, h5⟩
      refine ⟨fun q hq => by rw [h4 q hq]; exact h1 q hq, fun hok => ?_⟩
      obtain ⟨new, h6, h7⟩ := h5 hok
      exact ⟨r, ts, how, mid, ts', hr, he, h3, .inr ⟨t, some t', hv, h0, .inr ⟨t', new, rfl, h6, h7⟩⟩⟩

/-- C160, as far as it holds, one file: if all of its ID3v2 tags suit the program and it returns, then the file is what writing the tags
with the comments changed (C159) makes of it, and after that, if the comment of its ID3v1 tag begins with "Amazon.com Song ID",
writing that with an empty comment and nothing else changed. Files other than that one, its backups and the temporary one are not touched,
wherever the program is interrupted. Missing: that it returns. -/
theorem C160_partial (E : Json.Env) (e : Replace.Env) (pth : Path) (hf : Fit e pth) (s0 : FS) (old : Bytes)
    (h0 : s0.get (Path.absolute e.cwd pth) = some old) :
    (∀ s, s ∈ (AzTags.file E e pth s0).seen ∨ s = (AzTags.file E e pth s0).fs → ∀ q, q ≠ Path.absolute e.cwd pth → q ≠ e.tmp →
      (∀ n, q ≠ Path.absolute e.cwd pth ++ Path.dot :: Backup.dec n) → s.get q = s0.get q) ∧
    ((AzTags.file E e pth s0).res = .ok () → ∀ r, Dump.readFile E.z E.md5 (some old) = .ok r → (∀ t ∈ r.v2, Suits E t) →
      ∃ ts how mid ts', Pairs (TagAfter E (fun _ c' => c'.lang = some (101, 110, 103)) sameFate) r.v2 ts ∧
        Tagset.maybeEmplace (anyI E.z) (some old) .never .reducePaddingEvenly ts = .ok (how, mid, ts') ∧
        ((AzTags.file E e pth s0).fs.get (Path.absolute e.cwd pth) = some mid ∧
          (∀ t, r.v1 = some t → ∃ s, E.field t.comment = .ok s ∧ ¬ ∃ rest, s = /- Amazon.com Song ID -/ [65, 109, 97, 122, 111, 110, 46, 99, 111, 109, 32, 83, 111, 110, 103, 32, 73, 68] ++ rest) ∨
         ∃ t s rest new, r.v1 = some t ∧ E.field t.comment = .ok s ∧ s = /- Amazon.com Song ID -/ [65, 109, 97, 122, 111, 110, 46, 99, 111, 109, 32, 83, 111, 110, 103, 32, 73, 68] ++ rest ∧
          replaceId3v1 mid { t with comment := List.replicate (if t.extended then 90 else 30) 0 } = .ok new ∧
          (AzTags.file E e pth s0).fs.get (Path.absolute e.cwd pth) = some new)) := by
  obtain ⟨h1, h2⟩ := az_file_ended E e pth hf s0 old h0 s0 rfl
  refine ⟨?_, fun hok r hr hs => ?_⟩
  · rintro s (hs | rfl) q h3 h4 h5
    · exact h1 s hs q ⟨h3, h4, h5⟩
    · exact h2.1 q ⟨h3, h4, h5⟩
  · obtain ⟨r', ts, how, mid, ts', hr', he, hm, hv⟩ := h2.2 hok
    rw [hr] at hr'
    cases hr'
    obtain ⟨ts2, h3, h4⟩ := az_each (F := AzTags.tag E) (l := r.v2) fun t ht => C159_partial E t (hs t ht)
    rw [he] at h3
    cases h3
    refine ⟨ts, how, mid, ts', h4, hm, ?_⟩
    have hc : ∀ t o, v1Cleared E t = .ok o → ∃ s, E.field t.comment = .ok s ∧
        o = if s.take 18 = amazon then some (t.apply (.setComment [])) else none := by
      intro t o h
      obtain ⟨s, h5, h6⟩ := res_bind_ok h
      exact ⟨s, h5, (Res.ok.inj h6).symm⟩
    rcases hv with ⟨h5, h6⟩ | ⟨t, o, h5, h6, h7⟩
    · exact .inl ⟨h6, fun t ht => by rw [h5] at ht; exact absurd ht (by simp)⟩
    · obtain ⟨s, h8, h9⟩ := hc t o h6
      by_cases hb : s.take 18 = amazon
      · rw [if_pos hb] at h9
        subst h9
        rcases h7 with ⟨h7, _⟩ | ⟨t', new, h7, h10, h11⟩
        · exact absurd h7 (by simp)
        · cases h7
          obtain ⟨rest, hrest⟩ := (take_amazon s).1 hb
          refine .inr ⟨t, s, rest, new, h5, h8, hrest, ?_, h11⟩
          rw [← h10]
          cases hx : t.extended <;> simp [V1Tag.apply, V1Tag.textSz, resize, hx]
      · rw [if_neg hb] at h9
        subst h9
        rcases h7 with ⟨_, h7⟩ | ⟨t', new, h7, _⟩
        · refine .inl ⟨h7, fun t' ht' => ?_⟩
          rw [h5] at ht'
          cases ht'
          exact ⟨s, h8, fun h => hb ((take_amazon s).2 h)⟩
        · exact absurd h7 (by simp)

/-- A file with an ID3v2.3 tag and an ID3v1 tag that have the identifier. -/
def azFile : Bytes :=
  jsonV2 3 (jsonFrame /- COMM -/ [67, 79, 77, 77] ([0] ++ /- deu -/ [100, 101, 117] ++ [0] ++ /- Amazon.com Song ID: 7 -/ [65, 109, 97, 122, 111, 110, 46, 99, 111, 109, 32, 83, 111, 110, 103, 32, 73, 68, 58, 32, 55]) ++ List.replicate 40 0) ++ azV1 /- Amazon.com Song ID: 7 -/ [65, 109, 97, 122, 111, 110, 46, 99, 111, 109, 32, 83, 111, 110, 103, 32, 73, 68, 58, 32, 55]

/-- The hypotheses are met, and this is what is there afterwards: the padding has shrunk. -/
example : (AzTags.file azEnv (calm .done) fileF [(fileF, azFile)]).res = .ok () ∧
    (AzTags.file azEnv (calm .done) fileF [(fileF, azFile)]).fs.get fileF =
      some (/- the header -/ azFile.take 10 ++
        jsonFrame /- COMM -/ [67, 79, 77, 77] ([0] ++ /- eng -/ [101, 110, 103] ++ /- amazon.com song id -/ [97, 109, 97, 122, 111, 110, 46, 99, 111, 109, 32, 115, 111, 110, 103, 32, 105, 100] ++ [0] ++ /- Amazon.com Song ID: 7 -/ [65, 109, 97, 122, 111, 110, 46, 99, 111, 109, 32, 83, 111, 110, 103, 32, 73, 68, 58, 32, 55]) ++ List.replicate 22 0 ++ azV1 []) := by
  decide +kernel

example : Fit (calm .done) fileF ∧ FS.get [(fileF, azFile)] (Path.absolute (calm .done).cwd fileF) = some azFile :=
  ⟨calm_fit .done .none, by decide +kernel⟩

/-- C160, files that are not suited: if a file cannot be read, or one of its ID3v2 tags cannot be processed, no file is touched. -/
theorem C160_untouched_partial (E : Json.Env) (e : Replace.Env) (pth : Path) (s0 : FS)
    (h : ∀ r ts, Dump.readFile E.z E.md5 (s0.get (Path.absolute e.cwd pth)) = .ok r → each (AzTags.tag E) r.v2 ≠ .ok ts) :
    (AzTags.file E e pth s0).seen = [] ∧ (AzTags.file E e pth s0).fs = s0 ∧ (AzTags.file E e pth s0).res ≠ .ok () := by
  unfold AzTags.file
  show (FM.bind _ _ s0).seen = _ ∧ (FM.bind _ _ s0).fs = _ ∧ (FM.bind _ _ s0).res ≠ _
  simp only [FM.bind, FM.look]
  show (FM.bind _ _ s0).seen = _ ∧ (FM.bind _ _ s0).fs = _ ∧ (FM.bind _ _ s0).res ≠ _
  unfold FM.bind FM.lift
  cases hr : Dump.readFile E.z E.md5 (s0.get (Path.absolute e.cwd pth)) with
  | throw x => exact ⟨rfl, rfl, by simp⟩
  | ub u => exact ⟨rfl, rfl, by simp⟩
  | ok r =>
    simp only [List.nil_append]
    show (FM.bind _ _ s0).seen = _ ∧ (FM.bind _ _ s0).fs = _ ∧ (FM.bind _ _ s0).res ≠ _
    unfold FM.bind
    cases he : each (AzTags.tag E) r.v2 with
    | throw x => exact ⟨rfl, rfl, by simp⟩
    | ub u => exact ⟨rfl, rfl, by simp⟩
    | ok ts => exact absurd he (h r ts hr)

/-- Such a file: a comment that Latin-1 lacks characters for. -/
example : (AzTags.file azEnv (calm .done) fileF [(fileF, jsonV2 3 (jsonFrame /- COMM -/ [67, 79, 77, 77] ([1] ++ /- eng -/ [101, 110, 103] ++ [0xfe, 0xff, 0, 0, 0xfe, 0xff] ++
    /- Amazon.com Song ID  -/ [65, 109, 97, 122, 111, 110, 46, 99, 111, 109, 32, 83, 111, 110, 103, 32, 73, 68, 32].flatMap (fun b => [0, b]) ++ [0x20, 0xac])) ++ [1, 2, 3])]).res = .throw .runtimeError := by decide +kernel

/-! ## C161: twice is once -/

theorem az_again {E : Json.Env} {v : Ver} {c c' : Comm} (h : comment E v c = .ok (some c'))
    (hl : ∀ d, Charset.toBytes E.lib E.mem .UTF_8 .ISO_8859_1 false .fail AzTags.label = .ok d → E.asStr v (some 0) d = .ok AzTags.label) :
    comment E v c' = .ok none := by
  unfold comment at h
  obtain ⟨d, h1, h2⟩ := res_bind_ok h
  split at h2
  · obtain ⟨txt, h3, h4⟩ := res_bind_ok h2
    split at h4
    · obtain ⟨c2, h5, h6⟩ := res_bind_ok h4
      cases h6
      unfold relabel at h5
      obtain ⟨tb, h7, h8⟩ := res_bind_ok h5
      obtain ⟨db, h9, h10⟩ := res_bind_ok h8
      cases h10
      rw [make_no]
      unfold comment
      simp only [hl db h9, Res.bind]
      rw [if_neg (by decide)]
    · cases h4
  · cases h2

theorem each_again {F : α → Res α} (h : ∀ a a', F a = .ok a' → F a' = .ok a') {l l' : List α} (hl : each F l = .ok l') :
    each F l' = .ok l' := by
  induction l generalizing l' with
  | nil => cases hl; rfl
  | cons a l ih =>
    obtain ⟨a', h1, h2⟩ := res_bind_ok hl
    obtain ⟨l2, h3, h4⟩ := res_bind_ok h2
    cases h4
    rw [each, h _ _ h1, Res.bind, ih h3]
    rfl

/-- C161: the program changes nothing in a tag that it has been over already. -/
theorem C161_again (E : Json.Env) (t t' : AnyTag) (h : AzTags.tag E t = .ok t')
    (hl : ∀ v d, Charset.toBytes E.lib E.mem .UTF_8 .ISO_8859_1 false .fail /- amazon.com song id -/ [97, 109, 97, 122, 111, 110, 46, 99, 111, 109, 32, 115, 111, 110, 103, 32, 105, 100] = .ok d →
      E.asStr v (some 0) d = .ok /- amazon.com song id -/ [97, 109, 97, 122, 111, 110, 46, 99, 111, 109, 32, 115, 111, 110, 103, 32, 105, 100]) :
    AzTags.tag E t' = .ok t' := by
  have h22 : ∀ f f', AzTags.frame22 E f = .ok f' → AzTags.frame22 E f' = .ok f' := by
    intro f f' h
    have h0 := h
    unfold AzTags.frame22 at h
    split at h
    · obtain ⟨o, h1, h2⟩ := res_bind_ok h
      cases o with
      | none => cases h2; exact h0
      | some c =>
        cases h2
        unfold AzTags.frame22
        refine (if_pos rfl).trans ?_
        cases hb : f.body with
        | comm c0 => rw [hb] at h1; simp only [Frame22.new, AzTags.body, az_again h1 (hl .v2)]; rfl
        | _ => rw [hb] at h1; cases h1
    · cases h; exact h0
  have h4 : ∀ v f f', AzTags.frame4 E v f = .ok f' → AzTags.frame4 E v f' = .ok f' := by
    intro v f f' h
    have h0 := h
    unfold AzTags.frame4 at h
    split at h
    · obtain ⟨o, h1, h2⟩ := res_bind_ok h
      cases o with
      | none => cases h2; exact h0
      | some c =>
        cases h2
        unfold AzTags.frame4
        refine (if_pos rfl).trans ?_
        cases hb : f.body with
        | comm c0 => rw [hb] at h1; simp only [Frame4.new, AzTags.body, az_again h1 (hl v)]; rfl
        | _ => rw [hb] at h1; cases h1
    · cases h; exact h0
  rcases t with t | t | t
  all_goals
    obtain ⟨fs, h1, h2⟩ := res_bind_ok h
    cases h2
  · rw [AzTags.tag, each_again h22 h1]; rfl
  · rw [AzTags.tag, each_again (h4 .v3) h1]; rfl
  · rw [AzTags.tag, each_again (h4 .v4) h1]; rfl

/-- The hypotheses are met: by iconv, and by a tag that does change. -/
example : (∀ v d, Charset.toBytes azEnv.lib azEnv.mem .UTF_8 .ISO_8859_1 false .fail /- amazon.com song id -/ [97, 109, 97, 122, 111, 110, 46, 99, 111, 109, 32, 115, 111, 110, 103, 32, 105, 100] = .ok d →
      azEnv.asStr v (some 0) d = .ok /- amazon.com song id -/ [97, 109, 97, 122, 111, 110, 46, 99, 111, 109, 32, 115, 111, 110, 103, 32, 105, 100]) ∧
    AzTags.tag azEnv (azTag (azFrame (azComm /- Amazon.com Song ID: 7 -/ [65, 109, 97, 122, 111, 110, 46, 99, 111, 109, 32, 83, 111, 110, 103, 32, 73, 68, 58, 32, 55]) none)) =
      .ok (azTag (azFrame ⟨none, none, 1, some 0, some (101, 110, 103), /- amazon.com song id -/ [97, 109, 97, 122, 111, 110, 46, 99, 111, 109, 32, 115, 111, 110, 103, 32, 105, 100], /- Amazon.com Song ID: 7 -/ [65, 109, 97, 122, 111, 110, 46, 99, 111, 109, 32, 83, 111, 110, 103, 32, 73, 68, 58, 32, 55]⟩ none)) := by
  refine ⟨fun v d h => ?_, by decide +kernel⟩
  have : Charset.toBytes azEnv.lib azEnv.mem .UTF_8 .ISO_8859_1 false .fail /- amazon.com song id -/ [97, 109, 97, 122, 111, 110, 46, 99, 111, 109, 32, 115, 111, 110, 103, 32, 105, 100] = .ok /- amazon.com song id -/ [97, 109, 97, 122, 111, 110, 46, 99, 111, 109, 32, 115, 111, 110, 103, 32, 105, 100] := by decide +kernel
  rw [this] at h
  cases h
  cases v <;> decide +kernel

end Scribbu.Props
