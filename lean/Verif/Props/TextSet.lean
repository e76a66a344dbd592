import Verif.Spec.TextSet
import Verif.Proofs.TextSet
import Verif.Proofs.Commands

/-! # Texts put into text frames (C162, C163, C164) -/

namespace Scribbu.Props

open Scribbu Spec.Unicode Spec.TextSet TextSet Unicode Charset

/-! ## Helpers -/

theorem narrow_of {src : Encoding} (h : src ∈ sources) : Narrow src := by
  simp only [sources, List.mem_cons, List.not_mem_nil, or_false] at h
  exact h

/-- What is in an encoding is in UTF-8. -/
theorem in_utf8 {e : Encoding} {cs : Chars} {b : Bytes} (h : each (char e) cs = some b) : ∃ u, each utf8 cs = some u := by
  have hc : ∀ c a, char e c = some a → ∃ u, utf8 c = some u := by
    have key : ∀ c, ¬ isSurrogate c → c < 0x110000 → ∃ u, utf8 c = some u := by
      intro c h1 h2
      unfold utf8
      rw [if_neg h1]
      repeat' split
      all_goals first | exact ⟨_, rfl⟩ | omega
    intro c a h
    have hl : ∀ {c a}, latin1 c = some a → ∃ u, utf8 c = some u := by
      intro c a h; unfold latin1 at h; split at h
      · exact key c (by unfold isSurrogate; omega) (by omega)
      · cases h
    have hh : ∀ {c a}, hebrew c = some a → ∃ u, utf8 c = some u := by
      intro c a h
      have : c < 0x3000 := by
        unfold hebrew at h
        repeat' split at h
        all_goals first | omega | (cases h)
      exact key c (by unfold isSurrogate; omega) (by omega)
    have h16 : ∀ {be c a}, utf16 be c = some a → ∃ u, utf8 c = some u := by
      intro be c a h
      unfold utf16 at h
      split at h
      · cases h
      rename_i hs
      split at h
      · exact key c hs (by omega)
      split at h
      · exact key c hs (by omega)
      · cases h
    cases e <;> first | exact ⟨_, h⟩ | exact hl h | exact hh h | exact h16 h | exact h16 (ucs2_utf16 h) | (cases h)
  induction cs generalizing b with
  | nil => exact ⟨[], rfl⟩
  | cons c cs ih =>
    obtain ⟨x, y, hx, hy, rfl⟩ := each_cons h
    obtain ⟨u, hu⟩ := hc c x hx
    obtain ⟨v, hv⟩ := ih hy
    exact ⟨u ++ v, each_cons_of hu hv⟩

/-- Reading a text that is as `src` says it is. -/
theorem holds_plain {lib : IconvLib} (hl : Faithful lib) {mem : Nat} (hm : 0 < mem) {v : Ver} {t : Text} {src : Encoding}
    (hs : src ∈ known) (hsrc : t.text ≠ [] → Json.source v t.unicode t.text = .ok src) {cs : Chars} (ho : Ordinary cs)
    (hr : t.text ≠ [] → Reads src t.text cs) (he : each (char src) cs = some t.text) : Holds lib mem v t cs := by
  obtain ⟨u, hu⟩ := in_utf8 he
  obtain ⟨h0, hf, -, hlast⟩ := ho
  refine ⟨u, by rw [encode_plain rfl]; exact hu, ?_⟩
  unfold asStr
  by_cases hb : t.text = []
  · rw [if_pos hb]
    have : cs = [] := by
      have h2 := each_length (fun c a h => (char_length h).1) he
      rw [hb] at h2
      simpa using h2
    subst this; cases hu; rfl
  · rw [if_neg hb, hsrc hb]
    simp only [Res.bind]
    rw [toText_faithful hl hm hs hb (hr hb) (by rw [encode_plain rfl]; exact hu) (each_fits (dst := .UTF_8) he hu),
      strip_utf8 hu h0 hf hlast]

/-- Reading a text after a byte order mark. -/
theorem holds_marked {lib : IconvLib} (hl : Faithful lib) {mem : Nat} (hm : 0 < mem) {v : Ver} {t : Text} {src : Encoding}
    (hs : src ∈ known) (hne : t.text ≠ []) (hsrc : Json.source v t.unicode t.text = .ok src) {cs : Chars} (ho : Ordinary cs)
    (hr : Reads src t.text (0xfeff :: cs)) (he : each (char src) (0xfeff :: cs) = some t.text) : Holds lib mem v t cs := by
  obtain ⟨u, hu⟩ := in_utf8 he
  obtain ⟨x, y, hx, hy, rfl⟩ := each_cons hu
  have hx' : x = [0xef, 0xbb, 0xbf] := by
    have : utf8 0xfeff = some [0xef, 0xbb, 0xbf] := by decide +kernel
    rw [this] at hx; cases hx; rfl
  subst hx'
  obtain ⟨h0, hf, -, hlast⟩ := ho
  refine ⟨y, by rw [encode_plain rfl]; exact hy, ?_⟩
  unfold asStr
  rw [if_neg hne, hsrc]
  simp only [Res.bind]
  rw [toText_faithful hl hm hs hne hr (by rw [encode_plain rfl]; exact hu) (each_fits (dst := .UTF_8) he hu),
    strip_mark hy h0 hf hlast]

/-- Reading no text at all. -/
theorem holds_nil (lib : IconvLib) (mem : Nat) (v : Ver) (u : Byte) : Holds lib mem v ⟨u, []⟩ [] := ⟨[], rfl, rfl⟩

/-- The first two bytes of a text in 16 bits. -/
theorem take_unit {be : Bool} {c : Nat} {a : Bytes} (h : utf16 be c = some a) (h1 : c ≠ 0xfeff) (h2 : c ≠ 0xfffe) (r : Bytes) :
    (a ++ r).take 2 ≠ [0xfe, 0xff] ∧ (a ++ r).take 2 ≠ [0xff, 0xfe] := by
  have key : ∀ n, n < 65536 → n ≠ 0xfeff → n ≠ 0xfffe → ∀ r, (unit be n ++ r).take 2 ≠ [0xfe, 0xff] ∧ (unit be n ++ r).take 2 ≠ [0xff, 0xfe] := by
    intro n hn k1 k2 r
    obtain ⟨x, y, he, hd⟩ := unit_eq be n hn
    rw [he]
    constructor
    · intro e
      simp only [List.cons_append, List.nil_append, List.take_succ_cons, List.take_zero] at e
      injection e with e1 e2
      injection e2 with e2 _
      subst e1 e2
      cases be <;> simp [deUnit] at hd <;> omega
    · intro e
      simp only [List.cons_append, List.nil_append, List.take_succ_cons, List.take_zero] at e
      injection e with e1 e2
      injection e2 with e2 _
      subst e1 e2
      cases be <;> simp [deUnit] at hd <;> omega
  unfold utf16 at h
  split at h
  · cases h
  split at h
  · cases h; exact key c (by omega) h1 h2 r
  split at h
  · cases h
    rw [List.append_assoc]
    exact key _ (by omega) (by omega) (by omega) _
  · cases h

theorem take_each {be : Bool} {cs : Chars} {b : Bytes} (h : each (utf16 be) cs = some b) (ho : Ordinary cs) :
    b.take 2 ≠ [0xfe, 0xff] ∧ b.take 2 ≠ [0xff, 0xfe] := by
  cases cs with
  | nil => cases h; simp
  | cons c cs =>
    obtain ⟨x, y, hx, hy, rfl⟩ := each_cons h
    obtain ⟨-, h1, h2, -⟩ := ho
    exact take_unit hx (by rintro rfl; simp at h1) (by rintro rfl; simp at h2) y

theorem each_ucs2 {be : Bool} : ∀ {cs : Chars} {b : Bytes}, each (ucs2 be) cs = some b → each (utf16 be) cs = some b
  | [], b, h => h
  | c :: cs, b, h => by
    obtain ⟨x, y, hx, hy, rfl⟩ := each_cons h
    exact each_cons_of (ucs2_utf16 hx) (each_ucs2 hy)

theorem encode_inv {e : Encoding} {cs : Chars} {b : Bytes} (h : encode e cs = some b) : ∃ x, each (char e) cs = some x ∧ b = mark e ++ x := by
  unfold encode at h
  cases hx : each (char e) cs with
  | none => rw [hx] at h; cases h
  | some x => rw [hx] at h; cases h; exact ⟨x, rfl, rfl⟩

/-! ## C162: a text frame of ID3v2.4 holds the text put into it -/

/-- C162: a text, put into an ID3v2.4 text frame in one of the four encodings, in a new frame or one that is there, with or without a
byte order mark, reads back the same; if the encoding does not have its characters, there is an exception. -/
def C162_claim : Prop :=
  ∀ (lib : IconvLib) (mem : Nat) (src : Encoding) (dst : FrameEncoding) (bom : Bool) (cs : Chars) (text : Bytes),
    Faithful lib → 0 < mem → src ∈ sources → encode src cs = some text → Ordinary cs →
    (∀ b, encode (meant dst) cs = some b →
      (∃ t, new4 lib mem text src dst bom .fail = .ok t ∧ Holds lib mem .v4 t cs) ∧
      (∃ t, set4 lib mem text src dst bom .fail = .ok t ∧ Holds lib mem .v4 t cs)) ∧
    (encode (meant dst) cs = none →
      (∃ e, new4 lib mem text src dst bom .fail = .throw e) ∧ (∃ e, set4 lib mem text src dst bom .fail = .throw e))

/-- **Finding** `encshim` has ISO-8859-8 for ISO-8859-1, so that the text of an ID3v2.4 frame in ISO-8859-1 cannot have any letter with
an accent: Mötley is refused. -/
theorem C162_refuted : ¬ C162_claim := by
  intro h
  obtain ⟨⟨t, ht, -⟩, -⟩ := (h library 1 .UTF_8 .latin1 false [0x4d, 0xf6, 0x74, 0x6c, 0x65, 0x79]
    [0x4d, 0xc3, 0xb6, 0x74, 0x6c, 0x65, 0x79] library_faithful (by decide) (by decide) (by decide +kernel) (by decide)).1 _ rfl
  revert ht
  have : new4 library 1 [0x4d, 0xc3, 0xb6, 0x74, 0x6c, 0x65, 0x79] .UTF_8 .latin1 false .fail = .throw .runtimeError := by decide +kernel
  rw [this]
  intro ht
  cases ht

/-- The letter of ISO-8859-1 with the number that a Hebrew letter has in ISO-8859-8. -/
def misread (c : Nat) : Nat := c - 0x5d0 + 0xe0

/-- **Finding** Texts in Hebrew letters, that ISO-8859-1 does not have, are not refused but stored in ISO-8859-8 and marked as
ISO-8859-1, whatever the library: they read back as other letters. -/
theorem C162_refuted_hebrew (lib : IconvLib) (hl : Faithful lib) (mem : Nat) (hm : 0 < mem) (bom : Bool) (cs : Chars) (text : Bytes)
    (hc : ∀ c ∈ cs, 0x5d0 ≤ c ∧ c < 0x5eb) (ht : encode .UTF_8 cs = some text) :
    ∃ t, new4 lib mem text .UTF_8 .latin1 bom .fail = .ok t ∧ Holds lib mem .v4 t (cs.map misread) := by
  have h0 : 0 ∉ cs := by intro h; have := hc 0 h; omega
  have hb : ∀ cs : Chars, (∀ c ∈ cs, 0x5d0 ≤ c ∧ c < 0x5eb) → ∃ b, each hebrew cs = some b ∧ each latin1 (cs.map misread) = some b := by
    intro cs
    induction cs with
    | nil => intro _; exact ⟨[], rfl, rfl⟩
    | cons c cs ih =>
      intro h
      obtain ⟨b, h1, h2⟩ := ih (fun x hx => h x (List.mem_cons_of_mem _ hx))
      have hcc := h c (List.mem_cons_self ..)
      have e1 : hebrew c = some [UInt8.ofNat (0xe0 + (c - 0x5d0))] := by
        unfold hebrew
        rw [if_neg (by omega), if_neg (by omega), if_neg (by omega), if_neg (by omega), if_neg (by omega), if_pos (by omega)]
      have e2 : latin1 (misread c) = some [UInt8.ofNat (0xe0 + (c - 0x5d0))] := by
        unfold latin1 misread
        rw [if_pos (by omega), Nat.add_comm]
      exact ⟨_, each_cons_of e1 h1, each_cons_of e2 h2⟩
  obtain ⟨b, hb1, hb2⟩ := hb cs hc
  have hmem : ∀ x ∈ cs.map misread, 0xe0 ≤ x ∧ x < 0xfb := by
    intro x hx
    obtain ⟨c, h, rfl⟩ := List.mem_map.1 hx
    have := hc c h
    unfold misread
    omega
  have hord : Ordinary (cs.map misread) := by
    refine ⟨fun h => ?_, fun h => ?_, fun h => ?_, fun h => ?_⟩
    · have := hmem _ h; omega
    · have := hmem _ (List.mem_of_head? h); omega
    · have := hmem _ (List.mem_of_head? h); omega
    · have := hmem _ (List.mem_of_getLast? h); omega
  refine ⟨⟨0, b⟩, ?_, ?_⟩
  · unfold new4
    rw [toBytes_faithful hl mem (.inl rfl) (by decide) bom ht h0]
    by_cases he : cs = []
    · subst he; cases hb1; rfl
    · rw [if_neg he]
      have : encode (encshim .latin1) cs = some b := by rw [encode_plain rfl]; exact hb1
      rw [this]
      cases bom <;> rfl
  · exact holds_plain hl hm (src := .ISO_8859_1) (by decide) (fun _ => rfl) hord
      (fun _ => by show encode _ _ = _; rw [encode_plain rfl]; exact hb2) hb2

/-- שלום reads back as ùìåí. -/
example : (new4 library 1 [0xd7, 0xa9, 0xd7, 0x9c, 0xd7, 0x95, 0xd7, 0x9d] .UTF_8 .latin1 false .fail).bind
    (fun t => asStr library 1 .v4 t .UTF_8 .fail) = .ok [0xc3, 0xb9, 0xc3, 0xac, 0xc3, 0xa5, 0xc3, 0xad] := by decide +kernel

/-- **Finding** Texts in UTF-16 without a byte order mark are written with the high byte first, as ID3v2.4 has it, and read with the low
byte first (by the C library, on most machines): A reads back as 䄀. -/
theorem C162_refuted_order : ¬ C162_claim := by
  intro h
  obtain ⟨⟨t, ht, u, hu, hr⟩, -⟩ := (h library 1 .UTF_8 .utf16Be false [0x41] [0x41] library_faithful (by decide) (by decide)
    (by decide +kernel) (by decide)).1 _ rfl
  have e : new4 library 1 [0x41] .UTF_8 .utf16Be false .fail = .ok ⟨2, [0x00, 0x41]⟩ := by decide +kernel
  rw [e] at ht
  cases ht
  have e2 : asStr library 1 .v4 ⟨2, [0x00, 0x41]⟩ .UTF_8 .fail = .ok [0xe4, 0x84, 0x80] := by decide +kernel
  rw [e2] at hr
  cases hr
  revert hu
  decide +kernel

/-- What of C162 holds: for UTF-8 and UTF-16 all of it; for UTF-16 with the high byte first if a byte order mark is asked for (which
ID3v2.4 does not have there), and for ISO-8859-1 if the characters are those it shares with ISO-8859-8. -/
theorem C162_partial (lib : IconvLib) (mem : Nat) (src : Encoding) (dst : FrameEncoding) (bom : Bool) (cs : Chars) (text : Bytes)
    (hl : Faithful lib) (hm : 0 < mem) (hs : src ∈ sources) (ht : encode src cs = some text) (ho : Ordinary cs)
    (hbe : dst = .utf16Be → bom = true) (hla : dst = .latin1 → ∀ c ∈ cs, c < 0xa1) :
    (∀ b, encode (meant dst) cs = some b →
      (∃ t, new4 lib mem text src dst bom .fail = .ok t ∧ Holds lib mem .v4 t cs) ∧
      (∃ t, set4 lib mem text src dst bom .fail = .ok t ∧ Holds lib mem .v4 t cs)) ∧
    (encode (meant dst) cs = none →
      (∃ e, new4 lib mem text src dst bom .fail = .throw e) ∧ (∃ e, set4 lib mem text src dst bom .fail = .throw e)) := by
  have hsame : set4 lib mem text src dst bom .fail = new4 lib mem text src dst bom .fail := rfl
  rw [hsame]
  have hk : encshim dst ∈ known := by cases dst <;> decide
  have hb := toBytes_faithful hl mem (narrow_of hs) hk bom ht ho.1
  have hcode : encode (encshim dst) cs = encode (meant dst) cs := by
    cases dst with
    | latin1 =>
      show encode .ISO_8859_8 cs = encode .ISO_8859_1 cs
      rw [encode_plain rfl, encode_plain rfl]
      have hla := hla rfl
      have : ∀ cs : Chars, (∀ c ∈ cs, c < 0xa1) → each hebrew cs = each latin1 cs := by
        intro cs
        induction cs with
        | nil => intro _; rfl
        | cons c cs ih =>
          intro h
          have hcc := h c (List.mem_cons_self ..)
          have e1 : hebrew c = latin1 c := by unfold hebrew latin1; rw [if_pos hcc, if_pos (by omega)]
          simp only [each, e1, ih (fun x hx => h x (List.mem_cons_of_mem _ hx))]
      exact this cs hla
    | utf16Bom => rfl
    | utf16Be => rfl
    | utf8 => rfl
  have hnew : new4 lib mem text src dst bom .fail =
      if cs = [] then .ok ⟨encshim2 dst, []⟩
      else match encode (meant dst) cs with
        | some out => .ok ⟨encshim2 dst, (if bom then bomFor (encshim dst) else []) ++ out⟩
        | none => .throw .runtimeError := by
    unfold new4
    rw [hb, hcode]
    by_cases hc : cs = []
    · rw [if_pos hc, if_pos hc]; rfl
    · rw [if_neg hc, if_neg hc]
      cases encode (meant dst) cs <;> rfl
  rw [hnew]
  by_cases hc : cs = []
  · subst hc
    simp only
    refine ⟨fun b _ => ⟨⟨_, rfl, holds_nil ..⟩, ⟨_, rfl, holds_nil ..⟩⟩, fun h => ?_⟩
    exfalso; revert h; cases dst <;> decide +kernel
  · rw [if_neg hc]
    refine ⟨fun b hbb => ?_, fun hn => ?_⟩
    · rw [hbb]
      simp only
      have key : Holds lib mem .v4 ⟨encshim2 dst, (if bom then bomFor (encshim dst) else []) ++ b⟩ cs := by
        obtain ⟨x, hx, rfl⟩ := encode_inv hbb
        have hxne : x ≠ [] := by
          have h2 := each_length (fun c a h => (char_length h).1) hx
          have h3 : 0 < cs.length := List.length_pos_iff.2 hc
          intro h; rw [h, List.length_nil] at h2; omega
        cases dst with
        | latin1 =>
          have e : (if bom then bomFor (encshim .latin1) else []) ++ (mark (meant .latin1) ++ x) = x := by cases bom <;> rfl
          rw [e]
          exact holds_plain hl hm (src := .ISO_8859_1) (by decide) (fun _ => rfl) ho
            (fun _ => by show encode _ _ = _; rw [encode_plain rfl]; exact hx) hx
        | utf16Bom =>
          have e : (if bom then bomFor (encshim .utf16Bom) else []) ++ (mark (meant .utf16Bom) ++ x) = [0xff, 0xfe] ++ x := by
            cases bom <;> rfl
          rw [e]
          have hx2 : each (char .UTF_16LE) (0xfeff :: cs) = some ([0xff, 0xfe] ++ x) :=
            each_cons_of (by decide +kernel) hx
          exact holds_marked hl hm (src := .UTF_16LE) (by decide) (by simp) rfl ho
            (by show encode _ _ = _; rw [encode_plain rfl]; exact hx2) hx2
        | utf16Be =>
          have hbom := hbe rfl
          subst hbom
          have e : (if true then bomFor (encshim .utf16Be) else []) ++ (mark (meant .utf16Be) ++ x) = [0xfe, 0xff] ++ x := rfl
          rw [e]
          have hx2 : each (char .UTF_16BE) (0xfeff :: cs) = some ([0xfe, 0xff] ++ x) :=
            each_cons_of (by decide +kernel) hx
          exact holds_marked hl hm (src := .UTF_16BE) (by decide) (by simp) rfl ho
            (by show encode _ _ = _; rw [encode_plain rfl]; exact hx2) hx2
        | utf8 =>
          cases bom with
          | false =>
            have e : (if false then bomFor (encshim .utf8) else []) ++ (mark (meant .utf8) ++ x) = x := rfl
            rw [e]
            exact holds_plain hl hm (src := .UTF_8) (by decide) (fun _ => rfl) ho
              (fun _ => by show encode _ _ = _; rw [encode_plain rfl]; exact hx) hx
          | true =>
            have e : (if true then bomFor (encshim .utf8) else []) ++ (mark (meant .utf8) ++ x) = [0xef, 0xbb, 0xbf] ++ x := rfl
            rw [e]
            have hx2 : each (char .UTF_8) (0xfeff :: cs) = some ([0xef, 0xbb, 0xbf] ++ x) :=
              each_cons_of (by decide +kernel) hx
            exact holds_marked hl hm (src := .UTF_8) (by decide) (by simp) rfl ho
              (by show encode _ _ = _; rw [encode_plain rfl]; exact hx2) hx2
      exact ⟨⟨_, rfl, key⟩, ⟨_, rfl, key⟩⟩
    · rw [hn]
      exact ⟨⟨_, rfl⟩, ⟨_, rfl⟩⟩

/-- 日本 𝄞 as UTF-16: characters of three and four bytes in UTF-8. -/
example : encode .UTF_8 [0x65e5, 0x672c, 32, 0x1d11e] = some [0xe6, 0x97, 0xa5, 0xe6, 0x9c, 0xac, 32, 0xf0, 0x9d, 0x84, 0x9e] ∧
    Ordinary [0x65e5, 0x672c, 32, 0x1d11e] ∧
    new4 library 1 [0xe6, 0x97, 0xa5, 0xe6, 0x9c, 0xac, 32, 0xf0, 0x9d, 0x84, 0x9e] .UTF_8 .utf16Bom false .fail =
      .ok ⟨1, [0xff, 0xfe, 0xe5, 0x65, 0x2c, 0x67, 32, 0, 0x34, 0xd8, 0x1e, 0xdd]⟩ := by decide +kernel

/-! ## C163: a field of a tag is the text it was set to, whatever was there before -/

/-- C163: whatever has been done to a tag, setting a text field to a text that tags of this version can have, makes it that text; a
text they cannot have is refused. -/
def C163_claim : Prop :=
  ∀ (c : Cfg) (os : List LTag.Op) (t : LTag) (id : Bytes) (lib : IconvLib) (mem : Nat) (src : Encoding) (bom : Bool) (cs : Chars)
    (text : Bytes), TameRun c os t → Faithful lib → 0 < mem → src ∈ sources → encode src cs = some text → Ordinary cs →
    (∀ b, encode (allowed c.ver) cs = some b → ∃ t' u, setTextFrame lib mem c t id text src bom .fail = .ok t' ∧
      encode .UTF_8 cs = some u ∧ textFrameAsStr lib mem c t' id .UTF_8 .fail = .ok u) ∧
    (encode (allowed c.ver) cs = none → ∃ e, setTextFrame lib mem c t id text src bom .fail = .throw e)

/-- **Finding** A tag of ID3v2.3 (or 2.2) without a title cannot be given the title 日, as only ISO-8859-1 is tried for new frames,
unlike for those there are. -/
theorem C163_refuted : ¬ C163_claim := by
  intro h
  obtain ⟨t', u, ht, -⟩ := (h (cfg .v3) [] LTag.empty (tit .v3) library 1 .UTF_8 false [0x65e5] [0xe6, 0x97, 0xa5] .nil library_faithful
    (by decide) (by decide) (by decide +kernel) (by decide)).1 _ rfl
  have e : setTextFrame library 1 (cfg .v3) LTag.empty (tit .v3) [0xe6, 0x97, 0xa5] .UTF_8 false .fail = .throw .runtimeError := by
    decide +kernel
  rw [e] at ht
  cases ht

/-- It can be given that title after any other. -/
theorem C163_refuted_history : ((setTextFrame library 1 (cfg .v3) LTag.empty (tit .v3) [0x78] .UTF_8 false .fail).bind fun t =>
    (setTextFrame library 1 (cfg .v3) t (tit .v3) [0xe6, 0x97, 0xa5] .UTF_8 false .fail).bind fun t =>
    textFrameAsStr library 1 (cfg .v3) t (tit .v3) .UTF_8 .fail) = .ok [0xe6, 0x97, 0xa5] := by decide +kernel

theorem put_v3 {lib : IconvLib} (hl : Faithful lib) (mem : Nat) {src : Encoding} (hs : src ∈ sources) (bom : Bool) {cs : Chars}
    {text : Bytes} (ht : encode src cs = some text) (h0 : 0 ∉ cs) :
    new3 lib mem text src bom .fail false =
      (match each latin1 cs with
      | some b => .ok ⟨0, b⟩
      | none => .throw .runtimeError) ∧
    set3 lib mem text src bom .fail =
      (match each latin1 cs with
      | some b => .ok ⟨0, b⟩
      | none =>
        match each (ucs2 false) cs with
        | some b => .ok ⟨1, (if bom then [0xff, 0xfe] else []) ++ b⟩
        | none => .throw .runtimeError) := by
  have h1 := toBytes_faithful hl mem (narrow_of hs) (dst := .ISO_8859_1) (by decide) bom ht h0
  have h2 := toBytes_faithful hl mem (narrow_of hs) (dst := .UCS_2) (by decide) bom ht h0
  rw [encode_plain rfl] at h1 h2
  have e1 : toBytes lib mem src .ISO_8859_1 bom .fail text = match each latin1 cs with | some b => .ok b | none => .throw .runtimeError := by
    rw [h1]
    by_cases hc : cs = []
    · subst hc; rfl
    · rw [if_neg hc]
      show (match each latin1 cs with | some out => _ | none => _) = _
      cases each latin1 cs with
      | none => rfl
      | some b => cases bom <;> rfl
  constructor
  · unfold new3
    simp only [Bool.false_eq_true, if_false]
    rw [e1]
    cases each latin1 cs <;> rfl
  · unfold set3
    rw [e1]
    cases hla : each latin1 cs with
    | some b => rfl
    | none =>
      simp only
      rw [h2, if_neg (by rintro rfl; cases hla)]
      show ((match each (ucs2 false) cs with | some out => _ | none => _) : Res Bytes).bind _ = _
      cases each (ucs2 false) cs with
      | none => rfl
      | some b => cases bom <;> rfl

theorem latin1_ucs2 : ∀ {cs : Chars} {b : Bytes}, each latin1 cs = some b → ∃ u, each (ucs2 false) cs = some u
  | [], _, _ => ⟨[], rfl⟩
  | c :: cs, b, h => by
    obtain ⟨x, y, hx, hy, rfl⟩ := each_cons h
    obtain ⟨u, hu⟩ := latin1_ucs2 hy
    have hc : c < 256 := by
      unfold latin1 at hx
      split at hx
      · assumption
      · cases hx
    have : ucs2 false c = some (unit false c) := by
      unfold ucs2
      rw [if_neg (by unfold isSurrogate; omega), if_pos (by omega)]
    exact ⟨_, each_cons_of this hu⟩

/-- What `set_text_frame` puts into a frame. -/
theorem put_holds {lib : IconvLib} (hl : Faithful lib) {mem : Nat} (hm : 0 < mem) (v : Ver) (present : Bool) {src : Encoding}
    (hs : src ∈ sources) (bom : Bool) {cs : Chars} {text : Bytes} (ht : encode src cs = some text) (ho : Ordinary cs)
    (hp : v = .v4 ∨ present = true ∨ ∃ b, encode .ISO_8859_1 cs = some b) :
    (∀ b, encode (allowed v) cs = some b → ∃ x, put lib mem v present text src bom .fail = .ok x ∧ Holds lib mem v x cs) ∧
    (encode (allowed v) cs = none → ∃ e, put lib mem v present text src bom .fail = .throw e) := by
  have hv3 : v ≠ .v4 → (present = true ∨ ∃ b, encode .ISO_8859_1 cs = some b) →
      (∀ b, encode .UCS_2 cs = some b → ∃ x, put lib mem v present text src bom .fail = .ok x ∧ Holds lib mem v x cs) ∧
      (encode .UCS_2 cs = none → ∃ e, put lib mem v present text src bom .fail = .throw e) := by
    intro hv hp
    have hput : put lib mem v present text src bom .fail =
        match each latin1 cs with
        | some b => .ok ⟨0, b⟩
        | none =>
          match each (ucs2 false) cs with
          | some b => .ok ⟨1, (if bom then [0xff, 0xfe] else []) ++ b⟩
          | none => .throw .runtimeError := by
      have h3 := put_v3 hl mem hs bom ht ho.1
      cases present with
      | true =>
        have : put lib mem v true text src bom .fail = set3 lib mem text src bom .fail := by cases v <;> first | rfl | exact absurd rfl hv
        rw [this, h3.2]
      | false =>
        have : put lib mem v false text src bom .fail = new3 lib mem text src bom .fail false := by
          cases v <;> first | rfl | exact absurd rfl hv
        rw [this, h3.1]
        rcases hp with hp | ⟨b, hb⟩
        · cases hp
        · rw [encode_plain rfl] at hb
          have hb : each latin1 cs = some b := hb
          rw [hb]
    rw [hput, encode_plain rfl]
    show (∀ b, each (ucs2 false) cs = some b → _) ∧ (each (ucs2 false) cs = none → _)
    cases hla : each latin1 cs with
    | some b =>
      simp only
      refine ⟨fun _ _ => ⟨_, rfl, ?_⟩, fun hn => ?_⟩
      · refine holds_plain hl hm (src := .ISO_8859_1) (by decide) (fun _ => ?_) ho
          (fun _ => by show encode _ _ = _; rw [encode_plain rfl]; exact hla) hla
        cases v <;> rfl
      · obtain ⟨u, hu⟩ := latin1_ucs2 hla
        rw [hu] at hn; cases hn
    | none =>
      simp only
      refine ⟨fun b hb => ?_, fun hn => ?_⟩
      · rw [hb]
        refine ⟨_, rfl, ?_⟩
        cases bom with
        | false =>
          have e : (if false = true then [0xff, 0xfe] else ([] : Bytes)) ++ b = b := rfl
          rw [e]
          have htk := take_each (each_ucs2 hb) ho
          refine holds_plain hl hm (src := .UCS_2) (by decide) (fun _ => ?_) ho
            (fun _ => by show encode _ _ = _; rw [encode_plain rfl]; exact hb) hb
          have : Json.source v 1 b = .ok (if b.take 2 = [0xfe, 0xff] then .UCS_2BE else if b.take 2 = [0xff, 0xfe] then .UCS_2LE else .UCS_2) := by
            cases v <;> first | rfl | exact absurd rfl hv
          simp only
          rw [this, if_neg htk.1, if_neg htk.2]
        | true =>
          have e : (if true = true then [0xff, 0xfe] else ([] : Bytes)) ++ b = [0xff, 0xfe] ++ b := rfl
          rw [e]
          have hx2 : each (char .UCS_2LE) (0xfeff :: cs) = some ([0xff, 0xfe] ++ b) := each_cons_of (by decide +kernel) hb
          refine holds_marked hl hm (src := .UCS_2LE) (by decide) (by simp) ?_ ho
            (by show encode _ _ = _; rw [encode_plain rfl]; exact hx2) hx2
          cases v <;> first | rfl | exact absurd rfl hv
      · rw [hn]
        exact ⟨_, rfl⟩
  by_cases hv : v = .v4
  · subst hv
    have h := C162_partial lib mem src .utf8 bom cs text hl hm hs ht ho (by intro h; cases h) (by intro h; cases h)
    refine ⟨fun b hb => ?_, fun hn => ?_⟩
    · have h1 := h.1 b hb
      cases present with
      | true => exact h1.2
      | false => exact h1.1
    · have h1 := h.2 hn
      cases present with
      | true => exact h1.2
      | false => exact h1.1
  · have ha : allowed v = .UCS_2 := by cases v <;> first | rfl | exact absurd rfl hv
    rw [ha]
    rcases hp with hp | hp
    · exact absurd hp hv
    · exact hv3 hv hp

/-- `set_text_frame` in terms of texts that are encoded already, as in `Model/Lookup.lean`. -/
theorem setTextFrame_eq {c : Cfg} {t : LTag} (h : Commands.TInv t) (lib : IconvLib) (mem : Nat) (id text : Bytes) (src : Encoding)
    (bom : Bool) (rsp : OnNo) :
    setTextFrame lib mem c t id text src bom rsp =
      (put lib mem c.ver (LTag.mfind c t.textMap id).isSome text src bom rsp).bind fun x => t.setText c id x.data := by
  unfold setTextFrame LTag.setText
  rcases Commands.text_answers (c := c) h id with ⟨f, hf, -, -, hmf, -⟩ | ⟨-, hmf, -⟩
  · rw [hmf]
    simp only [Option.isSome_some]
    rw [Commands.tinv_deref h hf]
    simp only [Res.bind]
  · rw [hmf]
    simp only [Option.isSome_none]

/-- What of C163 holds: all of it in tags of ID3v2.4; in the others if there is such a field already, or if ISO-8859-1 has the
text. -/
theorem C163_partial (c : Cfg) (os : List LTag.Op) (t : LTag) (id : Bytes) (lib : IconvLib) (mem : Nat) (src : Encoding) (bom : Bool)
    (cs : Chars) (text : Bytes) (hrun : TameRun c os t) (hl : Faithful lib) (hm : 0 < mem) (hs : src ∈ sources)
    (ht : encode src cs = some text) (ho : Ordinary cs)
    (hp : c.ver = .v4 ∨ (∃ x ∈ Spec.contents t, x.id = id ∧ x.cls = .text) ∨ ∃ b, encode .ISO_8859_1 cs = some b) :
    (∀ b, encode (allowed c.ver) cs = some b → ∃ t' u, setTextFrame lib mem c t id text src bom .fail = .ok t' ∧
      encode .UTF_8 cs = some u ∧ textFrameAsStr lib mem c t' id .UTF_8 .fail = .ok u) ∧
    (encode (allowed c.ver) cs = none → ∃ e, setTextFrame lib mem c t id text src bom .fail = .throw e) := by
  have hinv := Commands.tinv_of_inv (tameRun_inv hrun)
  have hpre : (∃ x ∈ Spec.contents t, x.id = id ∧ x.cls = .text) → (LTag.mfind c t.textMap id).isSome = true := by
    rintro ⟨x, hx, hid, hcls⟩
    obtain ⟨f, hf, rfl⟩ := List.mem_map.1 hx
    rcases Commands.text_answers (c := c) hinv id with ⟨g, hg, -, -, hmf, -⟩ | ⟨hno, -, -⟩
    · rw [hmf]; rfl
    · exact absurd hcls (hno f hf hid)
  have h := put_holds hl hm c.ver (LTag.mfind c t.textMap id).isSome hs bom ht ho
    (hp.imp (fun h => h) (Or.imp hpre fun h => h))
  rw [setTextFrame_eq hinv]
  refine ⟨fun b hb => ?_, fun hn => ?_⟩
  · obtain ⟨x, hx, u, hu, hr⟩ := h.1 b hb
    obtain ⟨t', ht', -, htx, -⟩ := Commands.setText_spec (c := c) hinv id x.data
    refine ⟨t', u, by rw [hx]; exact ht', hu, ?_⟩
    unfold textFrameAsStr
    rw [htx]
    exact hr
  · obtain ⟨e, he⟩ := h.2 hn
    exact ⟨e, by rw [he]; rfl⟩

/-- And nothing else: tags of ID3v2.2 and 2.3 without the field refuse every text that ISO-8859-1 does not have. -/
theorem C163_absent (c : Cfg) (os : List LTag.Op) (t : LTag) (id : Bytes) (lib : IconvLib) (mem : Nat) (src : Encoding) (bom : Bool)
    (cs : Chars) (text : Bytes) (hrun : TameRun c os t) (hl : Faithful lib) (hs : src ∈ sources)
    (ht : encode src cs = some text) (h0 : 0 ∉ cs) (hv : c.ver ≠ .v4) (hno : ∀ x ∈ Spec.contents t, x.id = id → x.cls ≠ .text)
    (hla : encode .ISO_8859_1 cs = none) : setTextFrame lib mem c t id text src bom .fail = .throw .runtimeError := by
  have hinv := Commands.tinv_of_inv (tameRun_inv hrun)
  rw [setTextFrame_eq hinv]
  rcases Commands.text_answers (c := c) hinv id with ⟨g, hg, hid, hcls, -, -⟩ | ⟨-, hmf, -⟩
  · exact absurd hcls (hno _ (List.mem_map.2 ⟨g, hg, rfl⟩) hid)
  · rw [hmf]
    rw [encode_plain rfl] at hla
    have hla : each latin1 cs = none := hla
    have h3 := (put_v3 hl mem hs bom ht h0).1
    rw [hla] at h3
    have : put lib mem c.ver (none : Option Nat).isSome text src bom .fail = new3 lib mem text src bom .fail false := by
      cases hver : c.ver <;> first | rfl | exact absurd hver hv
    rw [this, h3]
    rfl

/-- Titles in a tag that has one: from x to 日本, and to Mötley. -/
example : ∃ t, TameRun (cfg .v2) [.setText (tit .v2) [0, 0x78]] t ∧ (∃ x ∈ Spec.contents t, x.id = tit .v2 ∧ x.cls = .text) ∧
    ((setTextFrame library 1 (cfg .v2) t (tit .v2) [0xe6, 0x97, 0xa5, 0xe6, 0x9c, 0xac] .UTF_8 true .fail).bind fun t =>
      t.textOf (cfg .v2) (tit .v2)) = .ok [1, 0xff, 0xfe, 0xe5, 0x65, 0x2c, 0x67] :=
  ⟨_, .snoc .nil (by show Spec.stdCls _ _ = _; decide) rfl, ⟨_, List.mem_cons_self .., rfl, rfl⟩, by decide +kernel⟩
example : ((setTextFrame library 1 (cfg .v2) LTag.empty (tit .v2) [0x4d, 0xc3, 0xb6, 0x74, 0x6c, 0x65, 0x79] .UTF_8 true .fail).bind fun t =>
      t.textOf (cfg .v2) (tit .v2)) = .ok [0, 0x4d, 0xf6, 0x74, 0x6c, 0x65, 0x79] := by decide +kernel

/-! ## C164: texts are stored as the standard has it -/

/-- C164: what setting a text field of a tag stores, if no byte order mark is asked for, is as the standard has it. -/
def C164_claim : Prop :=
  ∀ (lib : IconvLib) (mem : Nat) (v : Ver) (present : Bool) (src : Encoding) (cs : Chars) (text : Bytes) (t : Text),
    Faithful lib → 0 < mem → src ∈ sources → encode src cs = some text → Ordinary cs →
    put lib mem v present text src false .fail = .ok t → Standard v t cs

/-- **Finding** Texts that are not in ISO-8859-1 are stored in UCS-2 without the byte order mark that texts in ID3v2.2 and ID3v2.3 must
start with, unless callers ask for it: 日 is E5 65, which other programs take for another character. -/
theorem C164_refuted : ¬ C164_claim := by
  intro h
  have := h library 1 .v3 true .UTF_8 [0x65e5] [0xe6, 0x97, 0xa5] ⟨1, [0xe5, 0x65]⟩ library_faithful (by decide) (by decide)
    (by decide +kernel) (by decide) (by decide +kernel)
  rcases this with ⟨h1, -⟩ | ⟨-, -, ⟨b, -, hb⟩ | ⟨b, -, hb⟩⟩ | ⟨h1, -⟩ | ⟨h1, -⟩ | ⟨h1, -⟩
  · cases h1
  · simp at hb
  · simp at hb
  · cases h1
  · cases h1
  · cases h1

/-- What of C164 holds: in ID3v2.4 all of it; in ID3v2.2 and 2.3 if ISO-8859-1 has the text, or if a byte order mark is asked for. -/
theorem C164_partial (lib : IconvLib) (mem : Nat) (v : Ver) (present bom : Bool) (src : Encoding) (cs : Chars) (text : Bytes) (t : Text)
    (hl : Faithful lib) (hs : src ∈ sources) (ht : encode src cs = some text) (ho : Ordinary cs)
    (hp : put lib mem v present text src bom .fail = .ok t)
    (hb : if v = .v4 then bom = false else bom = true ∨ ∃ b, encode .ISO_8859_1 cs = some b) : Standard v t cs := by
  by_cases hv : v = .v4
  · subst hv
    rw [if_pos rfl] at hb
    subst hb
    have hput : put lib mem .v4 present text src false .fail = new4 lib mem text src .utf8 false .fail := by cases present <;> rfl
    rw [hput] at hp
    unfold new4 at hp
    rw [toBytes_faithful hl mem (narrow_of hs) (dst := encshim .utf8) (by decide) false ht ho.1] at hp
    by_cases hc : cs = []
    · subst hc
      cases hp
      exact .inr (.inr (.inr (.inr ⟨rfl, rfl, rfl⟩)))
    · rw [if_neg hc] at hp
      cases he : encode (encshim .utf8) cs with
      | none => rw [he] at hp; cases hp
      | some b =>
        rw [he] at hp
        cases hp
        exact .inr (.inr (.inr (.inr ⟨rfl, rfl, he⟩)))
  · rw [if_neg hv] at hb
    have h3 := put_v3 hl mem hs bom ht ho.1
    have hlat : ∀ b, each latin1 cs = some b → Standard v ⟨0, b⟩ cs := by
      intro b h
      exact .inl ⟨rfl, by rw [encode_plain rfl]; exact h⟩
    cases present with
    | false =>
      have : put lib mem v false text src bom .fail = new3 lib mem text src bom .fail false := by
        cases v <;> first | rfl | exact absurd rfl hv
      rw [this, h3.1] at hp
      cases hla : each latin1 cs with
      | none => rw [hla] at hp; cases hp
      | some b => rw [hla] at hp; cases hp; exact hlat b hla
    | true =>
      have : put lib mem v true text src bom .fail = set3 lib mem text src bom .fail := by cases v <;> first | rfl | exact absurd rfl hv
      rw [this, h3.2] at hp
      cases hla : each latin1 cs with
      | some b => rw [hla] at hp; cases hp; exact hlat b hla
      | none =>
        rw [hla] at hp
        simp only at hp
        cases hu : each (ucs2 false) cs with
        | none => rw [hu] at hp; cases hp
        | some b =>
          rw [hu] at hp
          cases hp
          rcases hb with rfl | ⟨b', hb'⟩
          · exact .inr (.inl ⟨hv, rfl, .inl ⟨b, by rw [encode_plain rfl]; exact hu, rfl⟩⟩)
          · rw [encode_plain rfl] at hb'
            have hb' : each latin1 cs = some b' := hb'
            rw [hla] at hb'; cases hb'

example : put library 1 .v3 true [0xe6, 0x97, 0xa5] .UTF_8 true .fail = .ok ⟨1, [0xff, 0xfe, 0xe5, 0x65]⟩ := by decide +kernel
example : put library 1 .v4 true [0xe6, 0x97, 0xa5] .UTF_8 false .fail = .ok ⟨3, [0xe6, 0x97, 0xa5]⟩ := by decide +kernel
example : put library 1 .v3 false [0xe6, 0x97, 0xa5] .ISO_8859_1 false .fail = .ok ⟨0, [0xe6, 0x97, 0xa5]⟩ := by decide +kernel

end Scribbu.Props
