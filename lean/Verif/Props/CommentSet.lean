import Verif.Spec.CommentSet
import Verif.Props.TextSet
import Verif.Props.Bodies

/-! # Comments and user-defined text made from texts (C165, C166, C167, C168) -/

namespace Scribbu.Props

open Scribbu Spec.Unicode Spec.TextSet Spec.CommentSet TextSet CommentSet Unicode Charset Spec

/-! ## Helpers -/

/-- What text frames hold, parts of other frames say. -/
theorem part_holds {lib : IconvLib} {mem : Nat} {v : Ver} {u : Byte} {b : Bytes} {cs : Chars} (h : Holds lib mem v ⟨u, b⟩ cs) :
    ∃ x, encode .UTF_8 cs = some x ∧ part lib mem v (some u) b .UTF_8 .fail = .ok x := by
  obtain ⟨x, hx, hr⟩ := h
  refine ⟨x, hx, ?_⟩
  unfold part
  split
  · rename_i hb
    subst hb
    exact hr
  · exact hr

theorem unit_nonzero {be : Bool} {n : Nat} (h : n < 65536) (h0 : n ≠ 0) : ∃ a b, unit be n = [a, b] ∧ ¬ (a = 0 ∧ b = 0) := by
  obtain ⟨a, b, he, hd⟩ := unit_eq be n h
  refine ⟨a, b, he, ?_⟩
  rintro ⟨rfl, rfl⟩
  cases be <;> simp [deUnit] at hd <;> omega

theorem noNul_two_cons {a b : Byte} {d : Bytes} (h : ¬ (a = 0 ∧ b = 0)) (hd : NoNul 2 d) : NoNul 2 (a :: b :: d) := by
  rcases hd with ⟨h1, -⟩ | ⟨-, hl, hd⟩
  · cases h1
  refine .inr ⟨rfl, by simp only [List.length_cons]; omega, fun k => ?_⟩
  cases k with
  | zero =>
    simp only [Nat.mul_zero, Nat.zero_add, List.getElem?_cons_zero, List.getElem?_cons_succ, Option.some.injEq]
    exact h
  | succ k =>
    rw [show 2 * (k + 1) = 2 * k + 1 + 1 by omega, show 2 * k + 1 + 1 + 1 = (2 * k + 1) + 1 + 1 by omega, List.getElem?_cons_succ,
      List.getElem?_cons_succ, List.getElem?_cons_succ, List.getElem?_cons_succ]
    exact hd k

theorem noNul_two_nil : NoNul 2 [] := .inr ⟨rfl, rfl, by simp⟩

theorem noNul_utf16 {be : Bool} : ∀ {cs : Chars} {b : Bytes}, each (utf16 be) cs = some b → 0 ∉ cs → NoNul 2 b
  | [], b, h, _ => by cases h; exact noNul_two_nil
  | c :: cs, b, h, h0 => by
    obtain ⟨x, y, hx, hy, rfl⟩ := each_cons h
    rw [List.mem_cons, not_or] at h0
    have ih := noNul_utf16 hy h0.2
    unfold utf16 at hx
    split at hx
    · cases hx
    split at hx
    · cases hx
      obtain ⟨p, q, he, hn⟩ := unit_nonzero (be := be) (n := c) (by omega) (fun e => h0.1 e.symm)
      rw [he]
      exact noNul_two_cons hn ih
    split at hx
    · cases hx
      obtain ⟨p, q, he, hn⟩ := unit_nonzero (be := be) (n := 0xd800 + (c - 0x10000) / 1024) (by omega) (by omega)
      obtain ⟨p', q', he', hn'⟩ := unit_nonzero (be := be) (n := 0xdc00 + (c - 0x10000) % 1024) (by omega) (by omega)
      rw [he, he']
      exact noNul_two_cons hn (noNul_two_cons hn' ih)
    · cases hx

/-- What conversions for new frames come to. `u` is the byte that stands for the encoding. -/
theorem converted {lib : IconvLib} (hl : Faithful lib) {mem : Nat} (hm : 0 < mem) (v : Ver) (u : UseUnicode) {src : Encoding}
    (hs : src ∈ sources) {cs : Chars} {text : Bytes} (ht : encode src cs = some text) (ho : Ordinary cs) :
    (∀ b, encode (asked v u) cs = some b → ∃ x, toBytes lib mem src (dst v u) (bom u) .fail text = .ok x ∧
      (text = [] → x = []) ∧ Holds lib mem v ⟨if u = .no then 0 else if v = .v4 then 3 else 1, x⟩ cs ∧
      NoNul (if u = .no ∨ v = .v4 then 1 else 2) x) ∧
    (encode (asked v u) cs = none → text ≠ [] ∧ toBytes lib mem src (dst v u) (bom u) .fail text = .throw .runtimeError) := by
  have hda : dst v u = asked v u := by cases v <;> cases u <;> rfl
  have hk : asked v u ∈ known := by cases v <;> cases u <;> decide
  have hmk : mark (asked v u) = [] := by cases v <;> cases u <;> rfl
  rw [hda, toBytes_faithful hl mem (narrow_of hs) hk (bom u) ht ho.1]
  have hte : cs = [] ↔ text = [] := by
    rw [encode_plain (narrow_of hs).mark] at ht
    have h2 := each_length (fun c a h => (char_length h).1) ht
    constructor
    · rintro rfl; cases ht; rfl
    · rintro rfl; simpa using h2
  by_cases hc : cs = []
  · subst hc
    have hx : encode (asked v u) [] = some [] := by rw [encode_plain hmk]; rfl
    refine ⟨fun b _ => ⟨[], rfl, fun _ => rfl, holds_nil .., ?_⟩, fun h => ?_⟩
    · split
      · exact .inl ⟨rfl, by simp⟩
      · exact noNul_two_nil
    · rw [hx] at h; cases h
  rw [if_neg hc]
  refine ⟨fun b hb => ?_, fun hn => ⟨fun e => hc (hte.2 e), by rw [hn]⟩⟩
  rw [hb]
  refine ⟨_, rfl, fun e => absurd (hte.2 e) hc, ?_⟩
  rw [encode_plain hmk] at hb
  cases u with
  | no =>
    have hb : each latin1 cs = some b := hb
    have e : (if bom .no then bomFor (asked v .no) else []) ++ b = b := rfl
    rw [e, if_pos rfl, if_pos (.inl rfl)]
    refine ⟨?_, .inl ⟨rfl, each_nonzero (.inr (.inl rfl)) hb ho.1⟩⟩
    refine holds_plain hl hm (src := .ISO_8859_1) (by decide) (fun _ => ?_) ho
      (fun _ => by show encode _ _ = _; rw [encode_plain rfl]; exact hb) hb
    cases v <;> rfl
  | yes =>
    by_cases hv : v = .v4
    · subst hv
      have hb : each utf8 cs = some b := hb
      have e : (if bom .yes then bomFor (asked .v4 .yes) else []) ++ b = b := rfl
      rw [e, if_neg (by decide), if_pos rfl, if_pos (.inr rfl)]
      refine ⟨?_, .inl ⟨rfl, each_nonzero (.inl rfl) hb ho.1⟩⟩
      exact holds_plain hl hm (src := .UTF_8) (by decide) (fun _ => rfl) ho
        (fun _ => by show encode _ _ = _; rw [encode_plain rfl]; exact hb) hb
    · have ha : asked v .yes = .UCS_2 := by cases v <;> first | rfl | exact absurd rfl hv
      rw [ha] at hb ⊢
      have hb : each (ucs2 false) cs = some b := hb
      have e : (if bom .yes then bomFor .UCS_2 else []) ++ b = b := rfl
      rw [e, if_neg (by decide), if_neg hv, if_neg (by rintro (h | h); cases h; exact hv h)]
      refine ⟨?_, noNul_utf16 (each_ucs2 hb) ho.1⟩
      have htk := take_each (each_ucs2 hb) ho
      refine holds_plain hl hm (src := .UCS_2) (by decide) (fun _ => ?_) ho
        (fun _ => by show encode _ _ = _; rw [encode_plain rfl]; exact hb) hb
      have : Json.source v 1 b = .ok (if b.take 2 = [0xfe, 0xff] then .UCS_2BE else if b.take 2 = [0xff, 0xfe] then .UCS_2LE else .UCS_2) := by
        cases v <;> first | rfl | exact absurd rfl hv
      simp only
      rw [this, if_neg htk.1, if_neg htk.2]
  | withBom =>
    by_cases hv : v = .v4
    · subst hv
      have hb : each utf8 cs = some b := hb
      have e : (if bom .withBom then bomFor (asked .v4 .withBom) else []) ++ b = [0xef, 0xbb, 0xbf] ++ b := rfl
      rw [e, if_neg (by decide), if_pos rfl, if_pos (.inr rfl)]
      have hx2 : each (char .UTF_8) (0xfeff :: cs) = some ([0xef, 0xbb, 0xbf] ++ b) := each_cons_of (by decide +kernel) hb
      refine ⟨?_, .inl ⟨rfl, each_nonzero (.inl rfl) hx2 (by rw [List.mem_cons, not_or]; exact ⟨by decide, ho.1⟩)⟩⟩
      exact holds_marked hl hm (src := .UTF_8) (by decide) (by simp) rfl ho
        (by show encode _ _ = _; rw [encode_plain rfl]; exact hx2) hx2
    · have ha : asked v .withBom = .UCS_2 := by cases v <;> first | rfl | exact absurd rfl hv
      rw [ha] at hb ⊢
      have hb : each (ucs2 false) cs = some b := hb
      have e : (if bom .withBom then bomFor .UCS_2 else []) ++ b = [0xff, 0xfe] ++ b := rfl
      rw [e, if_neg (by decide), if_neg hv, if_neg (by rintro (h | h); cases h; exact hv h)]
      have hx2 : each (char .UCS_2LE) (0xfeff :: cs) = some ([0xff, 0xfe] ++ b) := each_cons_of (by decide +kernel) hb
      refine ⟨?_, noNul_two_cons (by decide) (noNul_utf16 (each_ucs2 hb) ho.1)⟩
      refine holds_marked hl hm (src := .UCS_2LE) (by decide) (by simp) ?_ ho
        (by show encode _ _ = _; rw [encode_plain rfl]; exact hx2) hx2
      cases v <;> first | rfl | exact absurd rfl hv

theorem description_eq {lib : IconvLib} {mem : Nat} {v : Ver} {u : UseUnicode} {src : Encoding} {dsc x : Bytes}
    (h : toBytes lib mem src (dst v u) (bom u) .fail dsc = .ok x) (h0 : dsc = [] → x = []) :
    description lib mem v u src dsc = .ok x := by
  unfold description
  split
  · rename_i hd
    rw [h0 hd]
  · exact h

/-! ## C165: a comment made from texts says them -/

/-- **C165** A comment made from a language, a text and a description, in ISO-8859-1 or Unicode as the version of the standard has it,
with or without a byte order mark, has that language, text and description, at once and after it has been written and read; if the
encoding does not have their characters, there is an exception. -/
theorem C165_comment (env : List Bytes) (lib : IconvLib) (mem : Nat) (v : Ver) (lang : Language) (l : Byte × Byte × Byte)
    (src : Encoding) (u : UseUnicode) (cs ds : Chars) (text dsc : Bytes) (hl : Faithful lib) (hm : 0 < mem) (hs : src ∈ sources)
    (hlang : code env lang = .ok l) (ht : encode src cs = some text) (hd : encode src ds = some dsc) (ho : Ordinary cs)
    (hod : Ordinary ds) :
    (∀ b b', encode (asked v u) cs = some b → encode (asked v u) ds = some b' →
      ∃ c, newComm env lib mem v lang text src u dsc = .ok c ∧ Comment lib mem v c l ds cs) ∧
    (encode (asked v u) cs = none ∨ encode (asked v u) ds = none →
      newComm env lib mem v lang text src u dsc = .throw .runtimeError) := by
  have h1 := converted hl hm v u hs ht ho
  have h2 := converted hl hm v u hs hd hod
  unfold newComm
  rw [hlang]
  simp only [Res.ok_bind]
  refine ⟨fun b b' hb hb' => ?_, fun hn => ?_⟩
  · obtain ⟨x, hx, -, hxh, hxn⟩ := h1.1 b hb
    obtain ⟨y, hy, hy0, hyh, hyn⟩ := h2.1 b' hb'
    rw [hx, description_eq hy hy0]
    refine ⟨_, rfl, ?_⟩
    have hu : (Comm.make v u l x y).unicode = some (if u = .no then 0 else if v = .v4 then 3 else 1) := by cases v <;> cases u <;> rfl
    have hcb : (Comm.make v u l x y).cbnil = if u = .no ∨ v = .v4 then 1 else 2 := by cases v <;> cases u <;> rfl
    have e1 : (Comm.make v u l x y).lang = some l := by cases v <;> cases u <;> rfl
    have e2 : (Comm.make v u l x y).desc = y := by cases v <;> cases u <;> rfl
    have e3 : (Comm.make v u l x y).text = x := by cases v <;> cases u <;> rfl
    obtain ⟨w, d, hw, hwl, hp, hpu, -, hpl, hpd, hpt⟩ := C22_comm_make v u l x y (by rw [hcb]; exact hyn)
    refine ⟨⟨e1, ?_⟩, w, d, hw, hwl, hp, hpl, ?_⟩
    · rw [hu, e2, e3]; exact ⟨part_holds hyh, part_holds hxh⟩
    · rw [hpu, hu, hpd, hpt]; exact ⟨part_holds hyh, part_holds hxh⟩
  · by_cases hc : encode (asked v u) cs = none
    · rw [(h1.2 hc).2]; rfl
    · obtain ⟨b, hb⟩ := Option.ne_none_iff_exists'.1 hc
      obtain ⟨x, hx, -⟩ := h1.1 b hb
      have hdn := h2.2 (hn.resolve_left hc)
      rw [hx]
      simp only [Res.ok_bind]
      unfold description
      rw [if_neg hdn.1, hdn.2]
      rfl

/-- Comments in Japanese with a description, in UCS-2, and with an accent in ISO-8859-1. -/
example : newComm [] library 1 .v3 216 [0xe6, 0x97, 0xa5] .UTF_8 .withBom [0x61] =
    .ok ⟨none, none, 2, some 1, some (0x6a, 0x70, 0x6e), [0xff, 0xfe, 0x61, 0], [0xff, 0xfe, 0xe5, 0x65]⟩ := by decide +kernel
example : newComm [] library 1 .v4 216 [0xc3, 0xb6] .UTF_8 .no [] =
    .ok ⟨none, none, 1, some 0, some (0x6a, 0x70, 0x6e), [], [0xf6]⟩ := by decide +kernel

/-! ## C166: user-defined text made from texts says them -/

/-- C166: as C165, for user-defined text. -/
def C166_claim : Prop :=
  ∀ (lib : IconvLib) (mem : Nat) (v : Ver) (src : Encoding) (u : UseUnicode) (cs ds : Chars) (text dsc : Bytes),
    Faithful lib → 0 < mem → src ∈ sources → encode src cs = some text → encode src ds = some dsc → Ordinary cs → Ordinary ds →
    (∀ b b', encode (asked v u) cs = some b → encode (asked v u) ds = some b' →
      ∃ t, newTxxx lib mem v text src u dsc = .ok t ∧ UserText lib mem v t ds cs) ∧
    (encode (asked v u) cs = none ∨ encode (asked v u) ds = none →
      newTxxx lib mem v text src u dsc = .throw .runtimeError)

/-- **Finding** User-defined text made for an ID3v2.4 tag in UTF-8 is marked with the encoding 4, which there is not: whatever the text
(unless it is empty) and the library, asking for it comes to an exception. -/
theorem C166_unreadable (lib : IconvLib) (mem : Nat) (src : Encoding) (u : UseUnicode) (cs ds : Chars) (text dsc b b' : Bytes)
    (hl : Faithful lib) (hm : 0 < mem) (hs : src ∈ sources) (ht : encode src cs = some text) (hd : encode src ds = some dsc)
    (ho : Ordinary cs) (hod : Ordinary ds) (hu : u ≠ .no) (hb : encode .UTF_8 cs = some b) (hb' : encode .UTF_8 ds = some b')
    (hne : cs ≠ []) :
    ∃ t, newTxxx lib mem .v4 text src u dsc = .ok t ∧ part lib mem .v4 (some t.unicode) t.text .UTF_8 .fail = .throw .rangeError := by
  have ha : asked .v4 u = .UTF_8 := by cases u <;> first | rfl | exact absurd rfl hu
  obtain ⟨x, hx, -, hxh, -⟩ := (converted hl hm .v4 u hs ht ho).1 b (by rw [ha]; exact hb)
  obtain ⟨y, hy, hy0, -, -⟩ := (converted hl hm .v4 u hs hd hod).1 b' (by rw [ha]; exact hb')
  have hxne : x ≠ [] := by
    rintro rfl
    obtain ⟨z, hz, hr⟩ := hxh
    have : z = [] := by cases hr; rfl
    subst this
    rw [encode_plain rfl] at hz
    have := each_length (fun c a h => (char_length h).1) hz
    exact hne (by simpa using this)
  refine ⟨Txxx.make .v4 u x y, ?_, ?_⟩
  · unfold newTxxx
    rw [hx, description_eq hy hy0]
    rfl
  · have e1 : (Txxx.make .v4 u x y).unicode = 4 := by cases u <;> first | rfl | exact absurd rfl hu
    have e2 : (Txxx.make .v4 u x y).text = x := by cases u <;> rfl
    rw [e1, e2]
    unfold part
    rw [if_neg hxne]
    simp only
    unfold asStr
    rw [if_neg hxne]
    rfl

/-- **Finding** In ID3v2.4, user-defined text in UTF-8 cannot be read, being marked with an encoding that there is not. -/
theorem C166_refuted : ¬ C166_claim := by
  intro h
  obtain ⟨t, ht, ⟨-, b, -, hr⟩, -⟩ := (h library 1 .v4 .UTF_8 .yes [0x61] [] [0x61] [] library_faithful (by decide) (by decide) rfl rfl (by decide)
    (by decide)).1 _ _ rfl rfl
  obtain ⟨t', ht', hr'⟩ := C166_unreadable library 1 .UTF_8 .yes [0x61] [] [0x61] [] [0x61] [] library_faithful (by decide) (by decide) rfl rfl
    (by decide) (by decide) (by decide) rfl rfl (by decide)
  rw [ht] at ht'
  cases ht'
  rw [hr] at hr'
  cases hr'

/-- What of C166 holds: all of it but for Unicode in ID3v2.4. -/
theorem C166_partial (lib : IconvLib) (mem : Nat) (v : Ver) (src : Encoding) (u : UseUnicode) (cs ds : Chars) (text dsc : Bytes)
    (hl : Faithful lib) (hm : 0 < mem) (hs : src ∈ sources) (ht : encode src cs = some text) (hd : encode src ds = some dsc)
    (ho : Ordinary cs) (hod : Ordinary ds) :
    (∀ b b', encode (asked v u) cs = some b → encode (asked v u) ds = some b' → (v = .v4 → u = .no) →
      ∃ t, newTxxx lib mem v text src u dsc = .ok t ∧ UserText lib mem v t ds cs) ∧
    (encode (asked v u) cs = none ∨ encode (asked v u) ds = none →
      newTxxx lib mem v text src u dsc = .throw .runtimeError) := by
  have h1 := converted hl hm v u hs ht ho
  have h2 := converted hl hm v u hs hd hod
  unfold newTxxx
  refine ⟨fun b b' hb hb' hv => ?_, fun hn => ?_⟩
  · obtain ⟨x, hx, -, hxh, hxn⟩ := h1.1 b hb
    obtain ⟨y, hy, hy0, hyh, hyn⟩ := h2.1 b' hb'
    rw [hx, description_eq hy hy0]
    refine ⟨_, rfl, ?_⟩
    have hu : (Txxx.make v u x y).unicode = if u = .no then 0 else if v = .v4 then 3 else 1 := by
      cases v <;> cases u <;> first | rfl | (have := hv rfl; cases this)
    have hcb : (Txxx.make v u x y).cbnil = if u = .no ∨ v = .v4 then 1 else 2 := by cases v <;> cases u <;> rfl
    have e2 : (Txxx.make v u x y).desc = y := by cases v <;> cases u <;> rfl
    have e3 : (Txxx.make v u x y).text = x := by cases v <;> cases u <;> rfl
    have hc : (Txxx.make v u x y).cbnil = cbnilOf v (Txxx.make v u x y).unicode := by
      cases v <;> cases u <;> first | rfl | (have := hv rfl; cases this)
    have hsay : Says lib mem v (some (Txxx.make v u x y).unicode) (Txxx.make v u x y).desc (Txxx.make v u x y).text ds cs := by
      rw [hu, e2, e3]; exact ⟨part_holds hyh, part_holds hxh⟩
    have hp := C22_txxx v (Txxx.make v u x y) [] hc (by rw [hcb, e2]; exact hyn)
    rw [List.append_nil] at hp
    exact ⟨hsay, _, hp.2, hp.1, hsay⟩
  · by_cases hc : encode (asked v u) cs = none
    · rw [(h1.2 hc).2]; rfl
    · obtain ⟨b, hb⟩ := Option.ne_none_iff_exists'.1 hc
      obtain ⟨x, hx, -⟩ := h1.1 b hb
      have hdn := h2.2 (hn.resolve_left hc)
      rw [hx]
      simp only [Res.ok_bind]
      unfold description
      rw [if_neg hdn.1, hdn.2]
      rfl

/-- A description and a text whose bytes in UCS-2 have null bytes next to each other, though not in one character. -/
example : newTxxx library 1 .v2 [0x61, 0xc4, 0x80] .UTF_8 .yes [0x61, 0xc4, 0x80] = .ok ⟨2, 1, [0x61, 0, 0, 1], [0x61, 0, 0, 1]⟩ ∧
    Ordinary [0x61, 0x100] ∧ encode .UTF_8 [0x61, 0x100] = some [0x61, 0xc4, 0x80] := by decide +kernel

/-! ## C167: comments can be given other texts -/

/-- C167: a comment that has been read, or made from texts, can be given any text or description that its encoding has; it says that
afterwards, the rest of it stays, and it can be written and read. If the encoding does not have the characters, there is an
exception. -/
def C167_claim : Prop :=
  ∀ (env : List Bytes) (lib : IconvLib) (mem : Nat) (v : Ver) (c : Comm) (y : Byte) (e : Encoding) (src : Encoding) (cs : Chars)
    (text : Bytes), Faithful lib → 0 < mem → src ∈ sources → encode src cs = some text → Ordinary cs →
    ((∃ m : Bytes, Comm.parse v m m.length = .ok c ∧ 4 ≤ m.length) ∨
      ∃ lang s u t d, newComm env lib mem v lang t s u d = .ok c) →
    c.unicode = some y → marked v y = some e →
    (∀ b, encode e cs = some b →
      (∃ x, setText lib mem c text src = .ok { c with text := x } ∧ Kept v { c with text := x } ∧
        ∃ z, encode .UTF_8 cs = some z ∧ part lib mem v (some y) x .UTF_8 .fail = .ok z) ∧
      (∃ x, setDescription lib mem c text src = .ok { c with desc := x } ∧ Kept v { c with desc := x } ∧
        ∃ z, encode .UTF_8 cs = some z ∧ part lib mem v (some y) x .UTF_8 .fail = .ok z)) ∧
    (encode e cs = none → (∃ x, setText lib mem c text src = .throw x) ∧ ∃ x, setDescription lib mem c text src = .throw x)

/-- **Finding** A comment made from texts does not know its encoding: giving it another text reads members that are not initialised. -/
theorem C167_refuted : ¬ C167_claim := by
  intro h
  obtain ⟨⟨x, hx, -⟩, -⟩ := (h [] library 1 .v3 ⟨none, none, 1, some 0, some (0x6a, 0x70, 0x6e), [], [0x61]⟩ 0 .ISO_8859_1 .UTF_8 [0x62] [0x62]
    library_faithful (by decide) (by decide) rfl (by decide)
    (.inr ⟨216, .UTF_8, .no, [0x61], [], by decide +kernel⟩) rfl rfl).1 _ rfl
  cases hx

/-- **Finding** A comment in UTF-16 with the high byte first that is given the text A, says 䄀. -/
theorem C167_refuted_order : ¬ C167_claim := by
  intro h
  obtain ⟨⟨x, hx, -, z, hz, hr⟩, -⟩ := (h [] library 1 .v4 ⟨some .v4, some .utf16be, 2, some 2, some (0x65, 0x6e, 0x67), [], []⟩ 2 .UTF_16BE .UTF_8
    [0x41] [0x41] library_faithful (by decide) (by decide) (by decide +kernel) (by decide)
    (.inl ⟨[2, 0x65, 0x6e, 0x67], by decide +kernel⟩) rfl rfl).1 _ rfl
  have e : setText library 1 ⟨some .v4, some .utf16be, 2, some 2, some (0x65, 0x6e, 0x67), [], []⟩ [0x41] .UTF_8 =
    .ok ⟨some .v4, some .utf16be, 2, some 2, some (0x65, 0x6e, 0x67), [], [0x00, 0x41]⟩ := by decide +kernel
  rw [e] at hx
  cases hx
  have e2 : part library 1 .v4 (some 2) [0x00, 0x41] .UTF_8 .fail = .ok [0xe4, 0x84, 0x80] := by decide +kernel
  rw [e2] at hr
  cases hr
  revert hz
  decide +kernel

/-- What a comment that has been read is like. -/
theorem parsed_comm {v : Ver} {m : Bytes} {c : Comm} (h : Comm.parse v m m.length = .ok c) (h4 : 4 ≤ m.length) :
    ∃ u e l, c.ver = some v ∧ c.dstEnc = some e ∧ c.cbnil = cbnilOf v u ∧ c.unicode = some u ∧ c.lang = some l ∧
      Comm.encOf v u = some e ∧ NoNul c.cbnil c.desc := by
  unfold Comm.parse at h
  rw [if_neg (by omega)] at h
  obtain ⟨u, hu, h⟩ := Res.bind_eq_ok.1 h
  split at h
  · cases h
  · rename_i enc henc
    simp only at h
    rw [if_pos h4] at h
    obtain ⟨l0, hl0, h⟩ := Res.bind_eq_ok.1 h
    obtain ⟨l1, hl1, h⟩ := Res.bind_eq_ok.1 h
    obtain ⟨l2, hl2, h⟩ := Res.bind_eq_ok.1 h
    split at h
    · cases h
      refine ⟨u, enc, _, rfl, rfl, rfl, rfl, rfl, henc, ?_⟩
      rcases cbnilOf_cases v u with hh | hh <;> rw [hh] <;> simp [NoNul]
    · obtain ⟨⟨d, x⟩, hd, h⟩ := Res.bind_eq_ok.1 h
      cases h
      exact ⟨u, enc, _, rfl, rfl, rfl, rfl, rfl, henc, parseDescText_sound (cbnilOf_cases _ _) h4 hd⟩

/-- Such a comment is the same after it has been written and read. -/
theorem kept_of {v : Ver} {c : Comm} {u : Byte} {e : Enc} {l : Byte × Byte × Byte} (h1 : c.ver = some v) (h2 : c.dstEnc = some e)
    (h3 : c.cbnil = cbnilOf v u) (h4 : c.unicode = some u) (h5 : c.lang = some l) (h6 : Comm.encOf v u = some e)
    (h7 : NoNul c.cbnil c.desc) : Kept v c := by
  obtain ⟨w, hw, hp, -⟩ := C22_comm v c u l [] h4 h5 h1 (by rw [h2, h6]) (by rw [h6]; simp) h3 h7
  rw [List.append_nil] at hp
  exact ⟨w, c, hw, hp, rfl, rfl, rfl, rfl⟩

/-- What conversions for comments that there are come to. -/
theorem reconverted {lib : IconvLib} (hl : Faithful lib) {mem : Nat} (hm : 0 < mem) {v : Ver} {y : Byte} {e : Encoding}
    (he : marked v y = some e) (hbe : e ≠ .UTF_16BE) {src : Encoding}
    (hs : src ∈ sources) {cs : Chars} {text : Bytes} (ht : encode src cs = some text) (ho : Ordinary cs) :
    (∀ b, encode e cs = some b → ∃ x, toBytes lib mem src e (e = .UCS_2 ∨ e = .UTF_16) .fail text = .ok x ∧
      Holds lib mem v ⟨y, x⟩ cs ∧ NoNul (cbnilOf v y) x) ∧
    (encode e cs = none → toBytes lib mem src e (e = .UCS_2 ∨ e = .UTF_16) .fail text = .throw .runtimeError) := by
  have hcase : (y = 0 ∧ e = .ISO_8859_1) ∨ (v ≠ .v4 ∧ y = 1 ∧ e = .UCS_2) ∨ (v = .v4 ∧ y = 1 ∧ e = .UTF_16) ∨
      (v = .v4 ∧ y = 3 ∧ e = .UTF_8) := by
    unfold marked at he
    repeat' split at he
    all_goals first | (cases he; simp_all) | (cases he)
  have hk : e ∈ known := by rcases hcase with ⟨-, rfl⟩ | ⟨-, -, rfl⟩ | ⟨-, -, rfl⟩ | ⟨-, -, rfl⟩ <;> decide
  have hcb : cbnilOf v y = 1 ∨ cbnilOf v y = 2 := cbnilOf_cases v y
  rw [toBytes_faithful hl mem (narrow_of hs) hk _ ht ho.1]
  by_cases hc : cs = []
  · subst hc
    refine ⟨fun b _ => ⟨[], rfl, holds_nil .., ?_⟩, fun h => ?_⟩
    · rcases hcb with h | h <;> rw [h]
      · exact .inl ⟨rfl, by simp⟩
      · exact noNul_two_nil
    · exfalso; revert h; rcases hcase with ⟨-, rfl⟩ | ⟨-, -, rfl⟩ | ⟨-, -, rfl⟩ | ⟨-, -, rfl⟩ <;> decide +kernel
  rw [if_neg hc]
  refine ⟨fun b hb => ?_, fun hn => by rw [hn]⟩
  rw [hb]
  refine ⟨_, rfl, ?_⟩
  obtain ⟨x, hx, rfl⟩ := encode_inv hb
  rcases hcase with ⟨rfl, rfl⟩ | ⟨hv, rfl, rfl⟩ | ⟨rfl, rfl, rfl⟩ | ⟨rfl, rfl, rfl⟩
  · have e : (if decide ((Encoding.ISO_8859_1 : Encoding) = .UCS_2 ∨ (Encoding.ISO_8859_1 : Encoding) = .UTF_16) = true then bomFor .ISO_8859_1 else []) ++
        (mark .ISO_8859_1 ++ x) = x := rfl
    rw [e]
    refine ⟨?_, ?_⟩
    · refine holds_plain hl hm (src := .ISO_8859_1) (by decide) (fun _ => ?_) ho
        (fun _ => by show encode _ _ = _; rw [encode_plain rfl]; exact hx) hx
      cases v <;> rfl
    · have : cbnilOf v 0 = 1 := by cases v <;> rfl
      rw [this]
      exact .inl ⟨rfl, each_nonzero (.inr (.inl rfl)) hx ho.1⟩
  · have e : (if decide ((Encoding.UCS_2 : Encoding) = .UCS_2 ∨ (Encoding.UCS_2 : Encoding) = .UTF_16) = true then bomFor .UCS_2 else []) ++
        (mark .UCS_2 ++ x) = [0xff, 0xfe] ++ x := rfl
    rw [e]
    have hx : each (ucs2 false) cs = some x := hx
    have hx2 : each (char .UCS_2LE) (0xfeff :: cs) = some ([0xff, 0xfe] ++ x) := each_cons_of (by decide +kernel) hx
    refine ⟨?_, ?_⟩
    · refine holds_marked hl hm (src := .UCS_2LE) (by decide) (by simp) ?_ ho
        (by show encode _ _ = _; rw [encode_plain rfl]; exact hx2) hx2
      cases v <;> first | rfl | exact absurd rfl hv
    · have : cbnilOf v 1 = 2 := by cases v <;> rfl
      rw [this]
      exact noNul_two_cons (by decide) (noNul_utf16 (each_ucs2 hx) ho.1)
  · have e : (if decide ((Encoding.UTF_16 : Encoding) = .UCS_2 ∨ (Encoding.UTF_16 : Encoding) = .UTF_16) = true then bomFor .UTF_16 else []) ++
        (mark .UTF_16 ++ x) = [0xff, 0xfe] ++ x := rfl
    rw [e]
    have hx : each (utf16 false) cs = some x := hx
    have hx2 : each (char .UTF_16LE) (0xfeff :: cs) = some ([0xff, 0xfe] ++ x) := each_cons_of (by decide +kernel) hx
    refine ⟨?_, ?_⟩
    · exact holds_marked hl hm (src := .UTF_16LE) (by decide) (by simp) rfl ho
        (by show encode _ _ = _; rw [encode_plain rfl]; exact hx2) hx2
    · exact noNul_two_cons (by decide) (noNul_utf16 hx ho.1)
  · have e : (if decide ((Encoding.UTF_8 : Encoding) = .UCS_2 ∨ (Encoding.UTF_8 : Encoding) = .UTF_16) = true then bomFor .UTF_8 else []) ++
        (mark .UTF_8 ++ x) = x := rfl
    rw [e]
    refine ⟨?_, .inl ⟨rfl, each_nonzero (.inl rfl) hx ho.1⟩⟩
    exact holds_plain hl hm (src := .UTF_8) (by decide) (fun _ => rfl) ho
      (fun _ => by show encode _ _ = _; rw [encode_plain rfl]; exact hx) hx

/-- What of C167 holds: all of it for comments that have been read, but for those in UTF-16 with the high byte first. -/
theorem C167_partial (lib : IconvLib) (mem : Nat) (v : Ver) (m : Bytes) (c : Comm) (y : Byte) (e : Encoding) (src : Encoding) (cs : Chars)
    (text : Bytes) (hl : Faithful lib) (hm : 0 < mem) (hs : src ∈ sources) (ht : encode src cs = some text) (ho : Ordinary cs)
    (hp : Comm.parse v m m.length = .ok c) (h4 : 4 ≤ m.length) (hy : c.unicode = some y) (he : marked v y = some e)
    (hbe : e ≠ .UTF_16BE) :
    (∀ b, encode e cs = some b →
      (∃ x, setText lib mem c text src = .ok { c with text := x } ∧ Kept v { c with text := x } ∧
        ∃ z, encode .UTF_8 cs = some z ∧ part lib mem v (some y) x .UTF_8 .fail = .ok z) ∧
      (∃ x, setDescription lib mem c text src = .ok { c with desc := x } ∧ Kept v { c with desc := x } ∧
        ∃ z, encode .UTF_8 cs = some z ∧ part lib mem v (some y) x .UTF_8 .fail = .ok z)) ∧
    (encode e cs = none → (∃ x, setText lib mem c text src = .throw x) ∧ ∃ x, setDescription lib mem c text src = .throw x) := by
  obtain ⟨u, e', l, k1, k2, k3, k4, k5, k6, k7⟩ := parsed_comm hp h4
  rw [hy] at k4
  cases k4
  have hee : ofEnc e' = e := by
    unfold marked at he
    unfold Comm.encOf at k6
    cases v <;> simp only at k6 <;> repeat' split at k6
    all_goals first
      | (cases k6; subst_vars; simp at he; subst he; rfl)
      | (cases k6; simp_all; subst_vars; rfl)
      | (cases k6)
  have hbom : c.addBom = .ok (decide (e = .UCS_2 ∨ e = .UTF_16)) := by
    unfold Comm.addBom
    rw [k1, k2]
    subst hee
    simp only
    unfold Comm.encOf at k6
    cases v <;> simp only at k6 <;> repeat' split at k6
    all_goals first | (cases k6; rfl) | (cases k6)
  have hst : setText lib mem c text src =
      (toBytes lib mem src e (decide (e = .UCS_2 ∨ e = .UTF_16)) .fail text).bind fun b => .ok { c with text := b } := by
    unfold setText Comm.setText
    rw [k2, hbom]
    simp only [Res.ok_bind, hee]
  have hsd : setDescription lib mem c text src =
      (toBytes lib mem src e (decide (e = .UCS_2 ∨ e = .UTF_16)) .fail text).bind fun b => .ok { c with desc := b } := by
    unfold setDescription Comm.setDescription
    rw [k2, hbom]
    simp only [Res.ok_bind, hee]
  have h := reconverted hl hm he hbe hs ht ho
  rw [hst, hsd]
  refine ⟨fun b hb => ?_, fun hn => ?_⟩
  · obtain ⟨x, hx, hh, hn⟩ := h.1 b hb
    rw [hx]
    exact ⟨⟨x, rfl, kept_of (c := { c with text := x }) k1 k2 k3 hy k5 k6 k7, part_holds hh⟩,
      ⟨x, rfl, kept_of (c := { c with desc := x }) k1 k2 k3 hy k5 k6 (by rw [k3]; exact hn), part_holds hh⟩⟩
  · rw [h.2 hn]
    exact ⟨⟨_, rfl⟩, ⟨_, rfl⟩⟩

/-- A comment in UTF-16 without a description is given one in Greek. -/
example : (Comm.parse .v4 [1, 0x65, 0x6e, 0x67, 0xff, 0xfe, 0, 0, 0xff, 0xfe, 0x61, 0] 12).bind
    (fun c => setDescription library 1 c [0xce, 0xb1] .UTF_8) =
    .ok ⟨some .v4, some .utf16, 2, some 1, some (0x65, 0x6e, 0x67), [0xff, 0xfe, 0xb1, 0x03], [0xff, 0xfe, 0x61, 0]⟩ := by decide +kernel

/-! ## C168: what to do about characters that the encoding does not have -/

/-- C168: comments and user-defined text are added to an (ID3v2.3) tag if the texts can be converted the way the caller asks for: with
an exception for characters that the encoding does not have, or others in their stead, or without them. -/
def C168_claim : Prop :=
  ∀ (env : List Bytes) (lib : IconvLib) (mem : Nat) (c : Cfg) (t : LTag) (lang : Language) (l : Byte × Byte × Byte) (src : Encoding)
    (u : UseUnicode) (text dsc x y : Bytes) (rsp : OnNo), c.ver = .v3 → code env lang = .ok l →
    toBytes lib mem src (asked .v3 u) (u = .withBom) rsp text = .ok x → toBytes lib mem src (asked .v3 u) (u = .withBom) rsp dsc = .ok y →
    (∃ t', addComment env lib mem c t text lang src u dsc rsp = .ok t') ∧ ∃ t', addUserText lib mem c t text src u dsc rsp = .ok t'

/-- A library that leaves out characters if it is told to (and knows no other way then), and else is that of `Proofs/Unicode.lean`. -/
def dropping : IconvLib := fun to from_ =>
  if OnNo.ignore.suffix <:+ to then some ⟨Unit, (), fun _ b n => (.done ((b.filter (· < 0x80)).take n), ())⟩ else library to from_

/-- **Finding** The parameter is not looked at: to add a comment that has one character that ISO-8859-1 does not have comes to an
exception, although the caller asked for such characters to be left out. -/
theorem C168_refuted : ¬ C168_claim := by
  intro h
  obtain ⟨⟨t', ht⟩, -⟩ := h [] dropping 1 (cfg .v3) LTag.empty 216 (0x6a, 0x70, 0x6e) .UTF_8 .no [0x61, 0xe6, 0x97, 0xa5] [] [0x61] [] .ignore rfl
    (by decide +kernel) (by decide +kernel) (by decide +kernel)
  have e : addComment [] dropping 1 (cfg .v3) LTag.empty [0x61, 0xe6, 0x97, 0xa5] 216 .UTF_8 .no [] .ignore = .throw .runtimeError := by
    decide +kernel
  rw [e] at ht
  cases ht

/-- **Finding** Whatever the caller asks for, and whatever the library can do, a text with a character that the encoding does not have is
refused. -/
theorem C168_refused (env : List Bytes) (lib : IconvLib) (mem : Nat) (c : Cfg) (t : LTag) (lang : Language) (l : Byte × Byte × Byte)
    (src : Encoding) (u : UseUnicode) (cs ds : Chars) (text dsc : Bytes) (rsp : OnNo) (hl : Faithful lib) (hm : 0 < mem)
    (hs : src ∈ sources) (hlang : code env lang = .ok l) (ht : encode src cs = some text) (hd : encode src ds = some dsc)
    (ho : Ordinary cs) (hod : Ordinary ds) (hn : encode (asked c.ver u) cs = none ∨ encode (asked c.ver u) ds = none) :
    addComment env lib mem c t text lang src u dsc rsp = .throw .runtimeError ∧
    addUserText lib mem c t text src u dsc rsp = .throw .runtimeError := by
  unfold addComment addUserText
  rw [(C165_comment env lib mem c.ver lang l src u cs ds text dsc hl hm hs hlang ht hd ho hod).2 hn,
    (C166_partial lib mem c.ver src u cs ds text dsc hl hm hs ht hd ho hod).2 hn]
  exact ⟨rfl, rfl⟩

/-- What of C168 holds: all of it if the caller asks for exceptions. -/
theorem C168_partial (env : List Bytes) (lib : IconvLib) (mem : Nat) (c : Cfg) (t : LTag) (lang : Language) (l : Byte × Byte × Byte)
    (src : Encoding) (u : UseUnicode) (text dsc x y : Bytes) (hv : c.ver = .v3) (hlang : code env lang = .ok l)
    (hx : toBytes lib mem src (asked .v3 u) (u = .withBom) .fail text = .ok x)
    (hy : toBytes lib mem src (asked .v3 u) (u = .withBom) .fail dsc = .ok y) :
    (∃ t' w, addComment env lib mem c t text lang src u dsc .fail = .ok t' ∧
      (Comm.make .v3 u l x (if dsc = [] then [] else y)).write = .ok w ∧ contents t' = contents t ++ [⟨c.comId, .com, w⟩]) ∧
    ∃ t', addUserText lib mem c t text src u dsc .fail = .ok t' ∧
      contents t' = contents t ++ [⟨c.txxId, .gen, (Txxx.make .v3 u x (if dsc = [] then [] else y)).write⟩] := by
  have hda : dst .v3 u = asked .v3 u := by cases u <;> rfl
  have hb : bom u = decide (u = .withBom) := by cases u <;> rfl
  have hdesc : description lib mem .v3 u src dsc = .ok (if dsc = [] then [] else y) := by
    unfold description
    split
    · rfl
    · rw [hda, hb]; exact hy
  have hw : ∃ w, (Comm.make .v3 u l x (if dsc = [] then [] else y)).write = .ok w := by
    cases u <;> exact ⟨_, rfl⟩
  obtain ⟨w, hw⟩ := hw
  constructor
  · refine ⟨t.pushBack ⟨.gen, .com, c.comId, w⟩, w, ?_, hw, contents_push ..⟩
    unfold addComment newComm
    rw [hv, hlang, hda, hb, hx]
    simp only [Res.ok_bind]
    rw [hdesc]
    simp only [Res.ok_bind]
    rw [hw]
    simp only [Res.ok_bind]
    unfold LTag.addComment
    rw [hv]
  · refine ⟨t.pushBack ⟨.gen, .gen, c.txxId, (Txxx.make .v3 u x (if dsc = [] then [] else y)).write⟩, ?_, contents_push ..⟩
    unfold addUserText newTxxx
    rw [hv, hda, hb, hx]
    simp only [Res.ok_bind]
    rw [hdesc]
    simp only [Res.ok_bind]
    unfold LTag.addUserText
    rw [hv]

/-- Mötley is a text that can be added. -/
example : toBytes library 1 .UTF_8 (asked .v3 .no) false .fail [0x4d, 0xc3, 0xb6, 0x74] = .ok [0x4d, 0xf6, 0x74] := by decide +kernel

end Scribbu.Props
