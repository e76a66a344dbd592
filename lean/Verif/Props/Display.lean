import Verif.Proofs.Display
import Verif.Props.SchemeWrite

/-! # Properties of `display` and `make`: C187, C188 -/

namespace Scribbu.Props
open Scribbu Scribbu.Scheme Scribbu.Spec Scribbu.Spec.Scheme Scribbu.Proofs.Scheme Scribbu.Proofs.Display

/-! ## C187: what is displayed tells frames apart -/

/-- **C187**, the full claim: frames of which `display` prints the same say the same. -/
def C187_claim : Prop :=
  ∀ a b : Obj, Proper a → Proper b → ∀ s, a.display = .ok s → b.display = .ok s → told a = told b

/-- An object with a documented symbol, its attributes not set. -/
def objOf (s : Bytes) (l : List Val) : Obj := ⟨classOf s, .sym s :: .bool false :: .bool false :: .bool false :: .nil :: l⟩

theorem not_C187 (a b : Obj) (ha : Proper a) (hb : Proper b) (s : Bytes) (h : a.display = .ok s ∧ b.display = .ok s)
    (hn : told a ≠ told b) : ¬ C187_claim := fun hc => hn (hc a b ha hb s h.1 h.2)

/-- A user-defined text. -/
def udtShown (d t : Bytes) : Obj := objOf /- udt-frame -/ [117, 100, 116, 45, 102, 114, 97, 109, 101] [.str d, .str t]

/-- **Finding** C187 is refuted: of user-defined text the description is displayed, but not the text. -/
theorem C187_refuted : ¬ C187_claim :=
  not_C187 (udtShown /- mood -/ [109, 111, 111, 100] /- calm -/ [99, 97, 108, 109]) (udtShown /- mood -/ [109, 111, 111, 100] /- wild -/ [119, 105, 108, 100])
    (.known _ (some (mkId3 'T' 'X' 'X')) (mkId4 'T' 'X' 'X' 'X') _ _ _ _ _ (by decide +kernel) (.inl rfl) (.udt _ _))
    (.known _ (some (mkId3 'T' 'X' 'X')) (mkId4 'T' 'X' 'X' 'X') _ _ _ _ _ (by decide +kernel) (.inl rfl) (.udt _ _))
    /- <user-defined-text mood> -/ [60, 117, 115, 101, 114, 45, 100, 101, 102, 105, 110, 101, 100, 45, 116, 101, 120, 116, 32, 109, 111, 111, 100, 62] (by decide +kernel) (by decide +kernel)

/-- A comment. -/
def commShown (l d t : Bytes) : Obj := objOf /- comment-frame -/ [99, 111, 109, 109, 101, 110, 116, 45, 102, 114, 97, 109, 101] [.str l, .str d, .str t]

/-- **Finding** Comments are displayed as they are: where the description ends cannot be told. -/
theorem C187_refuted_comment : ¬ C187_claim :=
  not_C187 (commShown /- eng -/ [101, 110, 103] /- a -/ [97] /- b) c -/ [98, 41, 32, 99]) (commShown /- eng -/ [101, 110, 103] /- a) b -/ [97, 41, 32, 98] /- c -/ [99])
    (.known _ (some (mkId3 'C' 'O' 'M')) (mkId4 'C' 'O' 'M' 'M') _ _ _ _ _ (by decide +kernel) (.inl rfl) (.comment _ _ _))
    (.known _ (some (mkId3 'C' 'O' 'M')) (mkId4 'C' 'O' 'M' 'M') _ _ _ _ _ (by decide +kernel) (.inl rfl) (.comment _ _ _))
    /- <comment (eng, a) b) c> -/ [60, 99, 111, 109, 109, 101, 110, 116, 32, 40, 101, 110, 103, 44, 32, 97, 41, 32, 98, 41, 32, 99, 62] (by decide +kernel) (by decide +kernel)

/-- **Finding** In tag clouds the key "a b" cannot be told from the key "a" with the value "b". -/
theorem C187_refuted_cloud : ¬ C187_claim :=
  not_C187 (objOf /- tag-cloud-frame -/ [116, 97, 103, 45, 99, 108, 111, 117, 100, 45, 102, 114, 97, 109, 101] [.str /- me -/ [109, 101], cloudList [(/- a b -/ [97, 32, 98], [])]]) (objOf /- tag-cloud-frame -/ [116, 97, 103, 45, 99, 108, 111, 117, 100, 45, 102, 114, 97, 109, 101] [.str /- me -/ [109, 101], cloudList [(/- a -/ [97], [/- b -/ [98]])]])
    (.known _ (some (mkId3 'X' 'T' 'G')) (mkId4 'X' 'T' 'A' 'G') _ _ _ _ _ (by decide +kernel) (.inl rfl) (.tagCloud _ _))
    (.known _ (some (mkId3 'X' 'T' 'G')) (mkId4 'X' 'T' 'A' 'G') _ _ _ _ _ (by decide +kernel) (.inl rfl) (.tagCloud _ _))
    /- <tag cloud (me) ((a b))> -/ [60, 116, 97, 103, 32, 99, 108, 111, 117, 100, 32, 40, 109, 101, 41, 32, 40, 40, 97, 32, 98, 41, 41, 62] (by decide +kernel) (by decide +kernel)

/-- An ID3v2.3 tag with one frame of an unknown kind, with one byte of data. -/
def oneUnknown (d : Byte) : Bytes := [0x49, 0x44, 0x33, 3, 0, 0, 0, 0, 0, 11] ++ /- WOAR -/ [87, 79, 65, 82] ++ [0, 0, 0, 1, 0, 0] ++ [d]

/-- The objects that `read-tagset` gives for the frames of such a tag. -/
def unknownsOf (d : Byte) : List Obj :=
  match readTagset scmEnv (some (oneUnknown d)) with
  | .ok xs => xs.flatMap (·.1.frames)
  | _ => []

/-- The object for it. -/
def unkShown (d : Byte) : Obj :=
  ⟨.unk, [.sym /- unknown-frame -/ [117, 110, 107, 110, 111, 119, 110, 45, 102, 114, 97, 109, 101], .bool true, .bool true, .bool false, .nil, .str /- WOAR -/ [87, 79, 65, 82], .bv (/- WOAR -/ [87, 79, 65, 82] ++ [0, 0, 0, 1, 0, 0] ++ [d])]⟩

theorem unknowns_read : unknownsOf 7 = [unkShown 7] ∧ unknownsOf 8 = [unkShown 8] := by decide +kernel

/-- **Finding** Of a frame of an unknown kind that was read from an ID3v2.3 tag, eight bytes are displayed. These are the identifier
and the size; what is in the frame is not displayed at all. -/
theorem C187_refuted_unknown : ¬ C187_claim :=
  not_C187 (unkShown 7) (unkShown 8) (.unknown _ _ _ _ _ _ (.inl rfl) rfl (by decide)) (.unknown _ _ _ _ _ _ (.inl rfl) rfl (by decide))
    (/- <unk-frame "WOAR" {57 4f 41 52 00 00 00 01  -/ [60, 117, 110, 107, 45, 102, 114, 97, 109, 101, 32, 34, 87, 79, 65, 82, 34, 32, 123, 53, 55, 32, 52, 102, 32, 52, 49, 32, 53, 50, 32, 48, 48, 32, 48, 48, 32, 48, 48, 32, 48, 49, 32] ++ /-  <WOAR....>}> -/ [32, 60, 87, 79, 65, 82, 46, 46, 46, 46, 62, 125, 62]) (by decide +kernel) (by decide +kernel)

/-- The classes whose objects are told apart. -/
def told3 : Klass → Prop
  | .text => True
  | .playCount => True
  | .popm => True
  | _ => False

theorem text_display (s : Bytes) (a b c u : Val) (t : Bytes) :
    (⟨.text, .sym s :: a :: b :: c :: u :: [.str t]⟩ : Obj).display = .ok (60 :: (s ++ 32 :: (writeStr t ++ [62]))) := by
  simp [Obj.display, slotRef, fmtA, fmtS, shown]

theorem count_display (s : Bytes) (a b c u : Val) (n : Nat) :
    (⟨.playCount, .sym s :: a :: b :: c :: u :: [.num n]⟩ : Obj).display = .ok (60 :: (/- play-count -/ [112, 108, 97, 121, 45, 99, 111, 117, 110, 116] ++ 32 :: (Backup.dec n ++ [62]))) := by
  simp [Obj.display, slotRef, fmtA, shown]

theorem popm_display (s : Bytes) (a b c u : Val) (e : Bytes) (r n : Nat) :
    (⟨.popm, .sym s :: a :: b :: c :: u :: [.str e, .num r, .num n]⟩ : Obj).display =
      .ok (60 :: (/- popularimeter -/ [112, 111, 112, 117, 108, 97, 114, 105, 109, 101, 116, 101, 114] ++ 32 :: ((e ++ [44]) ++ 32 :: ((Backup.dec r ++ [44]) ++ 32 :: (Backup.dec n ++ [62]))))) := by
  simp [Obj.display, slotRef, fmtA, shown]

/-- What is displayed of an object of one of these classes: a word, a space, and more. -/
theorem told3_cases {o : Obj} (h : Proper o) (hc : told3 o.cls) :
    (∃ s i id t x, (s, i, id) ∈ documented ∧ classOf s = .text ∧ told o = (.text, some (.sym s), [.str t]) ∧
      o.display = .ok (60 :: (s ++ 32 :: x)) ∧ x = writeStr t ++ [62]) ∨
    (∃ n x, told o = (.playCount, some (.sym /- play-count-frame -/ [112, 108, 97, 121, 45, 99, 111, 117, 110, 116, 45, 102, 114, 97, 109, 101]), [.num n]) ∧
      o.display = .ok (60 :: (/- play-count -/ [112, 108, 97, 121, 45, 99, 111, 117, 110, 116] ++ 32 :: x)) ∧ x = Backup.dec n ++ [62]) ∨
    (∃ e r n x, told o = (.popm, some (.sym /- popm-frame -/ [112, 111, 112, 109, 45, 102, 114, 97, 109, 101]), [.str e, .num r, .num n]) ∧
      o.display = .ok (60 :: (/- popularimeter -/ [112, 111, 112, 117, 108, 97, 114, 105, 109, 101, 116, 101, 114] ++ 32 :: x)) ∧
      x = (e ++ [44]) ++ 32 :: ((Backup.dec r ++ [44]) ++ 32 :: (Backup.dec n ++ [62]))) := by
  cases h with
  | known s i id a b c u l hd hu hv =>
    have hs := class_sym _ hd
    generalize hk : classOf s = k at hv hs hc ⊢
    cases hv with
    | text t => exact .inl ⟨s, i, id, t, _, hd, hk, rfl, text_display _ _ _ _ _ _, rfl⟩
    | playCount n hn =>
      have e := hs.1 rfl
      dsimp only at e
      subst e
      exact .inr (.inl ⟨n, _, rfl, count_display _ _ _ _ _ _, rfl⟩)
    | popm e r n hr hn =>
      have e' := hs.2 rfl
      dsimp only at e'
      subst e'
      exact .inr (.inr ⟨e, r, n, _, rfl, popm_display _ _ _ _ _ _ _ _, rfl⟩)
    | comment => exact hc.elim
    | udt => exact hc.elim
    | tagCloud => exact hc.elim
    | priv => exact hc.elim
  | unknown => exact hc.elim

theorem word_eq {a b x y s : Bytes} {d e : Ret Bytes} (ha : (32 : Byte) ∉ a) (hb : (32 : Byte) ∉ b) (hd : d = .ok (60 :: (a ++ 32 :: x)))
    (he : e = .ok (60 :: (b ++ 32 :: y))) (h1 : d = .ok s) (h2 : e = .ok s) : a = b ∧ x = y := by
  rw [hd] at h1
  rw [he, ← h1] at h2
  injection h2 with h2
  injection h2 with _ h2
  obtain ⟨e1, e2⟩ := upto hb ha h2
  exact ⟨e1.symm, e2.symm⟩

theorem reassoc (x y z : Bytes) : x ++ 32 :: (y ++ 32 :: z) = (x ++ 32 :: y) ++ 32 :: z := by simp

/-- C187, as far as it holds: text frames of all kinds, play counts and popularimeters of which the same is displayed say the same.
Missing: comments, user-defined text, tag clouds, private frames, and those of unknown kinds, for which it is false. -/
theorem C187_partial (a b : Obj) (ha : Proper a) (hb : Proper b) (ka : told3 a.cls) (kb : told3 b.cls) (s : Bytes)
    (h1 : a.display = .ok s) (h2 : b.display = .ok s) : told a = told b := by
  rcases told3_cases ha ka with ⟨s1, i1, d1, t1, x1, m1, c1, e1, p1, r1⟩ | ⟨n1, x1, e1, p1, r1⟩ | ⟨m1, q1, n1, x1, e1, p1, r1⟩ <;>
    rcases told3_cases hb kb with ⟨s2, i2, d2, t2, x2, m2, c2, e2, p2, r2⟩ | ⟨n2, x2, e2, p2, r2⟩ | ⟨m2, q2, n2, x2, e2, p2, r2⟩
  · obtain ⟨g1, g2⟩ := word_eq (sym_no32 _ m1) (sym_no32 _ m2) p1 p2 h1 h2
    dsimp only at g1
    rw [r1, r2] at g2
    rw [e1, e2, g1, writeStr_inj g2]
  · exact absurd (word_eq (sym_no32 _ m1) (by decide) p1 p2 h1 h2).1 (sym_not _ m1).1
  · exact absurd (word_eq (sym_no32 _ m1) (by decide) p1 p2 h1 h2).1 (sym_not _ m1).2
  · exact absurd (word_eq (by decide) (sym_no32 _ m2) p1 p2 h1 h2).1.symm (sym_not _ m2).1
  · obtain ⟨-, g2⟩ := word_eq (by decide) (by decide) p1 p2 h1 h2
    rw [r1, r2] at g2
    rw [e1, e2, dec_inj (List.append_cancel_right g2)]
  · exact absurd (word_eq (by decide) (by decide) p1 p2 h1 h2).1 (by decide)
  · exact absurd (word_eq (by decide) (sym_no32 _ m2) p1 p2 h1 h2).1.symm (sym_not _ m2).2
  · exact absurd (word_eq (by decide) (by decide) p1 p2 h1 h2).1 (by decide)
  · obtain ⟨-, g2⟩ := word_eq (by decide) (by decide) p1 p2 h1 h2
    rw [r1, r2] at g2
    have no : ∀ n c, c ≠ (32 : Byte) → (32 : Byte) ∉ Backup.dec n ++ [c] := fun n c hc hm => by
      rcases List.mem_append.1 hm with hm | hm
      · exact dec_no32 n hm
      · exact hc (List.mem_singleton.1 hm).symm
    rw [reassoc (m1 ++ [44]), reassoc (m2 ++ [44])] at g2
    obtain ⟨g3, g4⟩ := downto (no n1 62 (by decide)) (no n2 62 (by decide)) g2
    obtain ⟨g5, g6⟩ := downto (no q1 44 (by decide)) (no q2 44 (by decide)) g4
    rw [e1, e2, dec_inj (List.append_cancel_right g3), dec_inj (List.append_cancel_right g5), List.append_cancel_right g6]

/-- A title that has a quotation mark and the end of a line in it meets the hypotheses, and is displayed on one line. -/
example : Proper (objOf /- title-frame -/ [116, 105, 116, 108, 101, 45, 102, 114, 97, 109, 101] [.str [72, 34, 10]]) ∧ told3 (objOf /- title-frame -/ [116, 105, 116, 108, 101, 45, 102, 114, 97, 109, 101] [.str [72, 34, 10]]).cls ∧
    (objOf /- title-frame -/ [116, 105, 116, 108, 101, 45, 102, 114, 97, 109, 101] [.str [72, 34, 10]]).display = .ok (/- <title-frame "H\ -/ [60, 116, 105, 116, 108, 101, 45, 102, 114, 97, 109, 101, 32, 34, 72, 92] ++ [34] ++ /- \n"> -/ [92, 110, 34, 62]) :=
  ⟨.known _ (some (mkId3 'T' 'T' '2')) (mkId4 'T' 'I' 'T' '2') _ _ _ _ _ (by decide +kernel) (.inl rfl) (.text _), trivial, by decide +kernel⟩

/-- C187: what is displayed of a text frame, whatever its text, is one line without control characters. -/
theorem C187_line (s : Bytes) (i : Option Id3) (id : Id4) (hd : (s, i, id) ∈ documented) (a b c u : Val) (t : Bytes) :
    ∃ p, (⟨.text, .sym s :: a :: b :: c :: u :: [.str t]⟩ : Obj).display = .ok p ∧ visible p := by
  refine ⟨_, text_display s a b c u t, ?_⟩
  intro x hx
  simp only [List.mem_cons, List.mem_append, List.not_mem_nil, or_false] at hx
  rcases hx with rfl | hx | rfl | hx | rfl
  · decide
  · exact sym_visible _ hd x hx
  · decide
  · exact writeStr_visible t x hx
  · decide

/-- **Finding** Of a comment that is not so: one whose text has several lines is displayed on several. -/
theorem C187_refuted_line : (commShown /- eng -/ [101, 110, 103] [] [97, 10, 98]).display = .ok (/- <comment (eng, ) a -/ [60, 99, 111, 109, 109, 101, 110, 116, 32, 40, 101, 110, 103, 44, 32, 41, 32, 97] ++ [10] ++ /- b> -/ [98, 62]) := by decide +kernel

/-- C187: whatever `read-tagset` gives can be displayed: the tags, and each of their frames. -/
theorem C187_read (E : Scheme.Env) (file : Option Bytes) (xs : List Triple) (h : readTagset E file = .ok xs) (x : Triple) (hx : x ∈ xs) :
    (∃ p, x.1.display = .ok p) ∧ ∀ o ∈ x.1.frames, ∃ p, o.display = .ok p := by
  unfold readTagset at h
  split at h
  · cases h
  · have h' : ∀ {r : Ret (List Triple)}, r.caught = .ok xs → r = .ok xs := by
      intro r hr
      cases r <;> first | exact hr | cases hr
    obtain ⟨ts, -, h2⟩ := bind_eq_ok.1 (h' h)
    obtain ⟨t, -, ht⟩ := pairs_mem (all_ok h2) hx
    obtain ⟨hf, n, hn⟩ := fine_tag ht
    refine ⟨?_, fun o ho => (hf o ho).1⟩
    obtain ⟨v1, e1⟩ := first_ok hf _ (.inl rfl)
    obtain ⟨v2, e2⟩ := first_ok hf _ (.inr rfl)
    unfold TagObj.display
    rw [e1, e2, hn]
    exact ⟨_, rfl⟩

/-- An ID3v2.3 tag with an artist, a title, and two bytes of padding. -/
def shownTag : Bytes :=
  [0x49, 0x44, 0x33, 3, 0, 0, 0, 0, 0, 26] ++ /- TPE1 -/ [84, 80, 69, 49] ++ [0, 0, 0, 2, 0, 0] ++ [0, 65] ++ /- TIT2 -/ [84, 73, 84, 50] ++ [0, 0, 0, 2, 0, 0] ++ [0, 66] ++ [0, 0]

/-- It meets the hypothesis, and is displayed like this. -/
example : (readTagset scmEnv (some shownTag)).bind (fun xs => Ret.all (fun x => x.1.display) xs) =
    .ok [/- <id3v2-tag A - B (2 bytes padding)> -/ [60, 105, 100, 51, 118, 50, 45, 116, 97, 103, 32, 65, 32, 45, 32, 66, 32, 40, 50, 32, 98, 121, 116, 101, 115, 32, 112, 97, 100, 100, 105, 110, 103, 41, 62]] := by decide +kernel

/-- **Finding** A tag whose artist is an object of another class than `<text-frame>` cannot be displayed: there is no such slot. -/
theorem C187_refuted_artist : (⟨.nil, [makeFrame .popm [(/- id -/ [105, 100], .sym /- artist-frame -/ [97, 114, 116, 105, 115, 116, 45, 102, 114, 97, 109, 101])]], .num 0⟩ : TagObj).display = .guile := by
  decide +kernel

/-! ## C188: objects are made as they are asked for -/

/-- **C188**, the full claim: the slots of an object get what is given for them to `make`, or else their documented values. -/
def C188_claim : Prop :=
  ∀ args : List (Bytes × Val),
    (∀ c, (makeFrame c args).cls = c ∧ Initialised (docSlots c) args (makeFrame c args).slots) ∧
    Initialised docV1 args (makeV1 args) ∧
    (∀ fs, (makeTag fs args).frames = fs ∧ Initialised docTag args [(makeTag fs args).experimental, (makeTag fs args).padding])

/-- **Finding** C188 is refuted: `(make <id3v2-tag> #:experimental #t)` makes a tag that is not experimental. The keyword is not
written as one in the definition of the class, and is ignored. -/
theorem C188_refuted : ¬ C188_claim := by
  intro h
  have := (((h [(/- experimental -/ [101, 120, 112, 101, 114, 105, 109, 101, 110, 116, 97, 108], .bool true)]).2.2 []).2.2 0 /- experimental -/ [101, 120, 112, 101, 114, 105, 109, 101, 110, 116, 97, 108] .nil rfl).1 (.bool true) (by decide)
  revert this
  decide

/-- **Finding** So the tag that is written is the same as without, whatever else is asked for. -/
theorem C188_refuted_write (E : Scheme.Env) (fs : List Obj) (v : Val) (args : List (Bytes × Val)) (version : Nat) (file : Option Bytes)
    (unsync : Val) (copy : Bool) :
    writeTagset E [(makeTag fs ((/- experimental -/ [101, 120, 112, 101, 114, 105, 109, 101, 110, 116, 97, 108], v) :: args), version)] file unsync copy =
      writeTagset E [(makeTag fs args, version)] file unsync copy := by
  have : makeTag fs ((/- experimental -/ [101, 120, 112, 101, 114, 105, 109, 101, 110, 116, 97, 108], v) :: args) = makeTag fs args := by
    unfold makeTag SlotDef.value padSlot keyed expSlot
    simp
  rw [this]

/-- C188, as far as it holds: for frames of all classes, ID3v1 tags, and the frames and the padding of ID3v2 tags. Missing: the
keyword `#:experimental`, which is ignored. -/
theorem C188_partial (args : List (Bytes × Val)) :
    (∀ c, (makeFrame c args).cls = c ∧ Initialised (docSlots c) args (makeFrame c args).slots) ∧
    Initialised docV1 args (makeV1 args) ∧
    (∀ fs, (makeTag fs args).frames = fs ∧ Initialised (docTag.drop 1) args [(makeTag fs args).padding]) := by
  refine ⟨fun c => ⟨rfl, ?_⟩, ?_, fun fs => ⟨rfl, ?_⟩⟩
  · unfold makeFrame
    rw [frame_doc]
    exact initialised_keyed _ _
  · unfold makeV1
    rw [v1_doc]
    exact initialised_keyed _ _
  · exact initialised_keyed [(/- padding -/ [112, 97, 100, 100, 105, 110, 103], .num 0)] args

/-- The first of two values for a keyword counts, and keywords that are not known are ignored. -/
example : (makeFrame .comment [(/- text -/ [116, 101, 120, 116], .str /- a -/ [97]), (/- nope -/ [110, 111, 112, 101], .nil), (/- text -/ [116, 101, 120, 116], .str /- b -/ [98]), (/- dsc -/ [100, 115, 99], .str /- d -/ [100])]).slots =
    [.sym /- unknown-frame -/ [117, 110, 107, 110, 111, 119, 110, 45, 102, 114, 97, 109, 101], .nil, .nil, .nil, .nil, .str /- eng -/ [101, 110, 103], .str /- d -/ [100], .str /- a -/ [97]] := by decide +kernel

/-- C188: a text frame made with a symbol and a text, and nothing else, is written as the frame that the symbol stands for, with no
attributes set, and with the text. -/
theorem C188_text (E : Scheme.Env) (v : Ver) (s : Bytes) (i : Option Id3) (id : Id4) (t b : Bytes) (args : List (Bytes × Val))
    (hd : (s, i, id) ∈ documented) (hc : classOf s = .text) (hid : givenFor args /- id -/ [105, 100] = some (.sym s))
    (ht : givenFor args /- text -/ [116, 101, 120, 116] = some (.str t)) (h0 : (0 : Byte) ∉ t)
    (hn : ∀ k ∈ [/- tap -/ [116, 97, 112], /- fap -/ [102, 97, 112], /- ro -/ [114, 111], /- unsync -/ [117, 110, 115, 121, 110, 99]], givenFor args k = none)
    (he : E.encode (if v = .v4 then .UTF_8 else .ISO_8859_1) t = .ok b) :
    serFrame4 E v (makeFrame .text args) =
      .ok (.new id (.text (if v = .v4 then 3 else 0) b) false false false false none none false none) := by
  have hm : makeFrame .text args = ⟨.text, [.sym s, .nil, .nil, .nil, .nil, .str t]⟩ := by
    have := (C188_partial args).1 .text
    unfold makeFrame
    rw [frame_doc]
    simp only [docSlots, List.cons_append, List.nil_append, List.map_cons, List.map_nil, value_keyed, hid, ht]
    rw [hn _ (by simp), hn _ (by simp), hn _ (by simp), hn _ (by simp)]
  rw [hm]
  have hs : (0 : Byte) ∉ s := fun k => by
    have := (sym_visible _ hd) 0 k
    exact absurd this.1 (by decide)
  have hp : s ≠ /- priv-frame -/ [112, 114, 105, 118, 45, 102, 114, 97, 109, 101] := fun k => by rw [k] at hc; revert hc; decide
  obtain ⟨k1, k2⟩ := doc_ser (v := v) hd hp
  rw [hc] at k1 k2
  unfold serFrame4
  simp only [slot, List.getElem?_cons_zero, ok_bind, symText, if_neg hs, k1, checkCls, if_pos, serAttrs, k2]
  cases v <;> simp [serBody, slot, cstr, h0] at he ⊢ <;> rw [he] <;> rfl

/-- A title. -/
example : serFrame4 scmEnv .v3 (makeFrame .text [(/- id -/ [105, 100], .sym /- title-frame -/ [116, 105, 116, 108, 101, 45, 102, 114, 97, 109, 101]), (/- text -/ [116, 101, 120, 116], .str /- Hi -/ [72, 105])]) =
    .ok (.new (mkId4 'T' 'I' 'T' '2') (.text 0 /- Hi -/ [72, 105]) false false false false none none false none) := by decide +kernel

/-- **Finding** Without a symbol, which is optional, writing such an object reads past its slots: it is taken for one that has the
data of a frame of an unknown kind. -/
theorem C188_refuted_symbol (E : Scheme.Env) (v : Ver) (t : Bytes) (h0 : (0 : Byte) ∉ t) :
    serFrame4 E v (makeFrame .text [(/- text -/ [116, 101, 120, 116], .str t)]) = .ub .oobRead := by
  have hl : ∀ v : Ver, lookup (if v = .v4 then ser24 else ser23) symUnknown = none := by intro v; cases v <;> decide +kernel
  have hm : makeFrame .text [(/- text -/ [116, 101, 120, 116], .str t)] = ⟨.text, [.sym symUnknown, .nil, .nil, .nil, .nil, .str t]⟩ := by
    simp [makeFrame, frameSlots, ownSlots, keyed, SlotDef.value]
  rw [hm]
  unfold serFrame4
  have hu : (0 : Byte) ∉ symUnknown := by decide
  simp only [slot, List.getElem?_cons_zero, ok_bind, symText, if_neg hu, hl]
  unfold serUnknown4
  simp only [slot, List.getElem?_cons_zero, List.getElem?_cons_succ, ok_bind, cstr, if_neg h0, idBytes, serAttrs]
  split <;> rfl

/-- **Finding** The same goes for comments: the language is taken for the identifier, and the description for the data. -/
theorem C188_refuted_comment : serFrame4 scmEnv .v3 (makeFrame .comment [(/- text -/ [116, 101, 120, 116], .str /- Hi -/ [72, 105])]) = .ub .oobRead := by decide +kernel

end Scribbu.Props
