import Verif.Model.Charset

/-! # Properties of conversions between encodings (C75, C76, C77) -/

namespace Scribbu.Props

open Scribbu Charset

/-- A library that converts by a function of the text: given enough room it yields all of the text converted, with less it says so.
Encodings without state are converted like this. -/
def ByFunction (d : Descriptor) (f : Bytes → Option Bytes) : Prop :=
  ∀ st b n, (d.call st b n).1 =
    match f b with
    | none => .bad
    | some out => if out.length ≤ n then .done out else .tooBig

/-- A descriptor that converts by `f`. -/
def byFunction (f : Bytes → Option Bytes) : Descriptor where
  State := Unit
  init := ()
  call _ b n :=
    (match f b with
    | none => .bad
    | some out => if out.length ≤ n then .done out else .tooBig, ())

theorem byFunction_ok (f : Bytes → Option Bytes) : ByFunction (byFunction f) f := by
  intro st b n; rfl

/-! ## C75: text is converted completely -/

/-- C75: converting text to bytes, for which there is enough memory, yields all of it in the other encoding, or an error if the
other encoding does not have it; not less. -/
def C75_claim : Prop :=
  ∀ (lib : IconvLib) (mem : Nat) (src dst : Encoding) (rsp : OnNo) (text out : Bytes) (d : Descriptor) (f : Bytes → Option Bytes),
    src.isChar = true → openConv lib src dst rsp = .ok d → ByFunction d f →
    text ≠ [] → (0 : Byte) ∉ text → f text = some out → out.length ≤ 4 ^ mem →
    toBytes lib mem src dst false rsp text = .ok out

/-- To UTF-32, with the byte order mark that `iconv` puts there. -/
def utf32 (b : Bytes) : Bytes := [0xff, 0xfe, 0, 0] ++ b.flatMap fun c => [c, 0, 0, 0]

/-- A library that can convert to UTF-32. -/
def libUtf32 : IconvLib := fun _ _ => some (byFunction fun b => some (utf32 b))

/-- C75 is refuted: text in ASCII, converted to UTF-32, is gone. -/
theorem C75_refuted : ¬ C75_claim := by
  intro h
  have := h libUtf32 2 .ASCII .UTF_32 .fail [97] (utf32 [97]) (byFunction fun b => some (utf32 b)) _ (by decide +kernel)
    (by rfl) (byFunction_ok _) (by decide) (by decide) rfl (by decide)
  revert this; decide +kernel

theorem utf32_length (b : Bytes) : (utf32 b).length = 4 + 4 * b.length := by
  have h : ∀ b : Bytes, (b.flatMap fun c => [c, 0, 0, 0]).length = 4 * b.length := by
    intro b
    induction b with
    | nil => rfl
    | cons c cs ih => rw [List.flatMap_cons, List.length_append, ih]; simp; omega
  simp only [utf32, List.length_append, h]
  simp

/-- Not only that one: every text is. -/
theorem C75_refuted_all (mem : Nat) (text : Bytes) (h : text ≠ []) (hz : (0 : Byte) ∉ text) :
    toBytes libUtf32 (mem + 1) .ASCII .UTF_32 false .fail text = .ok [] := by
  have htake : text.takeWhile (· ≠ (0 : Byte)) = text := by
    have hall : ∀ c ∈ text, decide (c ≠ (0 : Byte)) = true := by
      intro c hc
      have : c ≠ 0 := by rintro rfl; exact hz hc
      simpa using this
    simpa using List.takeWhile_append_of_pos (l₂ := []) hall
  have hl : text.length ≠ 0 := by cases text <;> simp_all
  have ho : openConv libUtf32 .ASCII .UTF_32 .fail = .ok (byFunction fun b => some (utf32 b)) := by rfl
  unfold toBytes
  rw [if_neg (by decide +kernel)]
  simp only [htake]
  rw [if_neg hl, ho]
  simp only [Res.bind, byFunction]
  have h1 := utf32_length text
  rw [if_neg (by omega)]
  simp only [growVector, Bool.false_eq_true, if_false, List.length_nil]
  rw [if_pos (by omega)]
  simp only
  rw [if_pos (by omega)]

example : (toBytes libUtf32 5 .ASCII .UTF_32 false .fail [83, 99, 104, 117, 116, 116]) = .ok [] := by decide +kernel

/-- The byte order mark asked for is gone with it. -/
theorem C75_refuted_mark : toBytes libUtf32 5 .ASCII .UCS_4 true .fail [83, 99, 104, 117, 116, 116] = .ok [] := by decide +kernel

/-- What C75 says, and with the byte order mark asked for, holds if the result takes no more than four bytes for each of the text:
text is converted as the library converts it, errors of the library are reported. The text is what comes before a null
character. -/
theorem C75_partial (lib : IconvLib) (mem : Nat) (src dst : Encoding) (rsp : OnNo) (addBom : Bool) (text tail : Bytes) (d : Descriptor)
    (f : Bytes → Option Bytes) (hs : src.isChar = true) (hd : openConv lib src dst rsp = .ok d) (hf : ByFunction d f)
    (hne : text ≠ []) (hz : (0 : Byte) ∉ text) (htail : tail = [] ∨ ∃ r, tail = 0 :: r)
    (hfit : ∀ out, f text = some out → out.length ≤ 4 * text.length) :
    toBytes lib mem src dst addBom rsp (text ++ tail) =
      match f text with
      | some out => .ok ((if addBom then bomFor dst else []) ++ out)
      | none => .throw .runtimeError := by
  have htake : (text ++ tail).takeWhile (· ≠ (0 : Byte)) = text := by
    have hall : ∀ c ∈ text, decide (c ≠ (0 : Byte)) = true := by
      intro c hc
      have : c ≠ 0 := by rintro rfl; exact hz hc
      simpa using this
    rw [List.takeWhile_append_of_pos hall]
    rcases htail with rfl | ⟨r, rfl⟩ <;> simp
  have hl : text.length ≠ 0 := by cases text <;> simp_all
  unfold toBytes
  rw [if_neg (by simp [hs])]
  simp only [htake]
  rw [if_neg hl, hd]
  simp only [Res.bind]
  have hc := hf d.init text (text.length * 4)
  cases h : f text with
  | none =>
    rw [h] at hc
    simp only at hc
    generalize d.call d.init text (text.length * 4) = r at hc ⊢
    obtain ⟨r1, r2⟩ := r
    simp only at hc
    subst hc
    rfl
  | some out =>
    rw [h] at hc
    have hle := hfit out h
    have hle' : out.length ≤ text.length * 4 := by omega
    simp only at hc
    rw [if_pos hle'] at hc
    generalize d.call d.init text (text.length * 4) = r at hc ⊢
    obtain ⟨r1, r2⟩ := r
    simp only at hc
    subst hc
    simp only
    rw [if_pos hle']

/-- ISO-8859-1 to UTF-16. -/
def latinToUtf16 (b : Bytes) : Option Bytes := some (b.flatMap fun c => [c, 0])

example : toBytes (fun _ _ => some (byFunction latinToUtf16)) 0 .ISO_8859_1 .UTF_16LE true .fail [66, 246, 0, 1] =
    .ok [0xff, 0xfe, 66, 0, 246, 0] := by decide +kernel
example : ∀ out, latinToUtf16 [66, 246] = some out → out.length ≤ 4 * ([66, 246] : Bytes).length := by
  intro out h; cases h; decide

/-- Encodings of the text that are not byte-wise are refused, before anything else happens. -/
theorem C75_code_unit (lib : IconvLib) (mem : Nat) (src dst : Encoding) (rsp : OnNo) (addBom : Bool) (text : Bytes)
    (hs : src ∈ [Encoding.UCS_2, .UCS_2BE, .UCS_2LE, .UCS_4, .UCS_4BE, .UCS_4LE, .UTF_16, .UTF_16BE, .UTF_16LE, .UTF_32, .UTF_32BE,
      .UTF_32LE]) : toBytes lib mem src dst addBom rsp text = .throw .other := by
  have : src.isChar = false := by
    have : ∀ s ∈ [Encoding.UCS_2, .UCS_2BE, .UCS_2LE, .UCS_4, .UCS_4BE, .UCS_4LE, .UTF_16, .UTF_16BE, .UTF_16LE, .UTF_32, .UTF_32BE,
      .UTF_32LE], s.isChar = false := by decide +kernel
    exact this src hs
  simp [toBytes, this]

/-- A library may, after it has run out of room, write further than the buffer reaches: it is told that the buffer is larger than
it is by the size of the byte order mark. -/
theorem C75_refuted_overrun : ∃ (lib : IconvLib) (f : Bytes → Option Bytes), (∀ to_ from_, lib to_ from_ = some (byFunction f)) ∧
    toBytes lib 9 .ASCII .UTF_8 true .fail [97] = .ub .oobWrite :=
  ⟨fun _ _ => some (byFunction fun _ => some (List.replicate 27 0)), _, fun _ _ => rfl, by decide +kernel⟩

/-! ## C76: bytes are converted to text as they are -/

/-- C76: what is converted to text, for which there is enough memory, is what the library makes of it. -/
def C76_claim : Prop :=
  ∀ (lib : IconvLib) (mem : Nat) (src dst : Encoding) (rsp : OnNo) (b out : Bytes) (d : Descriptor) (f : Bytes → Option Bytes),
    dst.isChar = true → openConv lib src dst rsp = .ok d → ByFunction d f →
    b ≠ [] → f b = some out → out.length ≤ 4 ^ mem →
    toText lib mem src dst rsp b = .ok out

/-- A library that changes nothing. -/
def libSame : IconvLib := fun _ _ => some (byFunction some)

/-- C76 is refuted: blanks at the end are lost. -/
theorem C76_refuted : ¬ C76_claim := by
  intro h
  have := h libSame 2 .ISO_8859_1 .ISO_8859_1 .fail [97, 32] [97, 32] (byFunction some) some (by decide +kernel) (by rfl)
    (byFunction_ok _) (by decide) rfl (by decide)
  revert this; decide +kernel

/-- So is `ÿþ` in ISO-8859-1 at the beginning, taken for a byte order mark, -/
theorem C76_refuted_latin : toText libSame 2 .ISO_8859_1 .ISO_8859_1 .fail [0xff, 0xfe, 97] = .ok [97] := by decide +kernel

/-- and `ï»¿`. -/
theorem C76_refuted_latin_utf8 : toText libSame 2 .ISO_8859_1 .ISO_8859_1 .fail [0xef, 0xbb, 0xbf, 97] = .ok [97] := by decide +kernel

/-- How much may be made of `b`: a power of four times its size. -/
theorem growString_done {d : Descriptor} {f : Bytes → Option Bytes} (hf : ByFunction d f) {b out : Bytes} (ho : f b = some out) :
    ∀ (fuel : Nat) (st : d.State) (cb : Nat), out.length ≤ cb * 4 ^ fuel → growString d b (fuel + 1) st cb = .ok out := by
  intro fuel
  induction fuel with
  | zero =>
    intro st cb hle
    have hc := hf st b cb
    rw [ho] at hc
    have hle' : out.length ≤ cb := by simpa using hle
    simp only at hc
    rw [if_pos hle'] at hc
    rw [growString]
    generalize d.call st b cb = r at hc ⊢
    obtain ⟨r1, r2⟩ := r
    simp only at hc
    subst hc
    simp only
    rw [if_pos hle']
  | succ n ih =>
    intro st cb hle
    have hc := hf st b cb
    rw [ho] at hc
    rw [growString]
    generalize d.call st b cb = r at hc ⊢
    obtain ⟨r1, r2⟩ := r
    simp only at hc
    by_cases hle' : out.length ≤ cb
    · rw [if_pos hle'] at hc
      subst hc
      simp only
      rw [if_pos hle']
    · rw [if_neg hle'] at hc
      subst hc
      simp only
      apply ih
      rw [Nat.pow_succ] at hle
      rw [Nat.mul_assoc, Nat.mul_comm 4]
      exact hle

/-- C76: what holds. However much longer than `b` it is, given enough memory what is returned is what the library makes of
`b`, without a byte order mark at the beginning and without blanks and null characters at the end; if there is none of
these, it is what the library makes of `b`. -/
theorem C76_partial (lib : IconvLib) (mem : Nat) (src dst : Encoding) (rsp : OnNo) (b : Bytes) (d : Descriptor)
    (f : Bytes → Option Bytes) (hs : dst.isChar = true) (hd : openConv lib src dst rsp = .ok d) (hf : ByFunction d f) (hne : b ≠ [])
    (out : Bytes) (ho : f b = some out) (hmem : out.length ≤ b.length * 4 * 4 ^ mem) :
    ∃ t, toText lib (mem + 1) src dst rsp b = .ok t ∧
      (∃ bom tail, out = bom ++ t ++ tail ∧ (∀ c ∈ tail, c = 0 ∨ c = 32) ∧
        bom ∈ [[], [0, 0, 0xfe, 0xff], [0xfe, 0xff, 0, 0], [0xef, 0xbb, 0xbf], [0xfe, 0xff], [0xff, 0xfe]]) ∧
      (∀ c, t.getLast? = some c → c ≠ 0 ∧ c ≠ 32) ∧
      ((∀ c, out.head? = some c → c ≠ 0 ∧ c ≠ 0xfe ∧ c ≠ 0xff ∧ c ≠ 0xef) →
       (∀ c, out.getLast? = some c → c ≠ 0 ∧ c ≠ 32) → t = out) := by
  have hl : b.length ≠ 0 := by cases b <;> simp_all
  have hrun : toText lib (mem + 1) src dst rsp b = .ok (Tbt.stripTrailing (Tbt.stripBom out)) := by
    unfold toText
    rw [if_neg (by simp [hs]), if_neg hl, hd]
    simp only [Res.bind]
    rw [growString_done hf ho mem d.init (b.length * 4) hmem]
  refine ⟨_, hrun, ?_, ?_, ?_⟩
  · obtain ⟨bom, h1, h2⟩ : ∃ bom, out = bom ++ Tbt.stripBom out ∧
        bom ∈ [[], [0, 0, 0xfe, 0xff], [0xfe, 0xff, 0, 0], [0xef, 0xbb, 0xbf], [0xfe, 0xff], [0xff, 0xfe]] := by
      unfold Tbt.stripBom
      split
      · exact ⟨[0, 0, 0xfe, 0xff], rfl, by decide⟩
      · exact ⟨[0xfe, 0xff, 0, 0], rfl, by decide⟩
      · exact ⟨[0xef, 0xbb, 0xbf], rfl, by decide⟩
      · exact ⟨[0xfe, 0xff], rfl, by decide⟩
      · exact ⟨[0xff, 0xfe], rfl, by decide⟩
      · exact ⟨[], rfl, by decide⟩
    generalize Tbt.stripBom out = m at h1
    refine ⟨bom, (m.reverse.takeWhile fun c => c == 0 || c == 32).reverse, ?_, ?_, h2⟩
    · rw [List.append_assoc]
      have : Tbt.stripTrailing m ++ (m.reverse.takeWhile fun c => c == 0 || c == 32).reverse = m := by
        unfold Tbt.stripTrailing
        rw [← List.reverse_append, List.takeWhile_append_dropWhile, List.reverse_reverse]
      rw [this]; exact h1
    · intro c hc
      rw [List.mem_reverse] at hc
      have := List.all_takeWhile (l := m.reverse) (p := fun c : Byte => c == 0 || c == 32)
      have := List.all_eq_true.1 this c hc
      simpa using this
  · intro c hc
    unfold Tbt.stripTrailing at hc
    rw [List.getLast?_reverse] at hc
    have := List.head?_dropWhile_not (fun c : Byte => c == 0 || c == 32) (Tbt.stripBom out).reverse
    rw [hc] at this
    simpa using this
  · intro h1 h2
    have hb : Tbt.stripBom out = out := by
      unfold Tbt.stripBom
      split
      · exact absurd rfl (h1 _ rfl).1
      · exact absurd rfl (h1 _ rfl).2.1
      · exact absurd rfl (h1 _ rfl).2.2.2
      · exact absurd rfl (h1 _ rfl).2.1
      · exact absurd rfl (h1 _ rfl).2.2.1
      · rfl
    rw [hb]
    unfold Tbt.stripTrailing
    cases hr : out.reverse with
    | nil => rw [List.reverse_eq_nil_iff] at hr; simp [hr]
    | cons x xs =>
      have hx : out.getLast? = some x := by rw [← List.head?_reverse, hr]; rfl
      have := h2 x hx
      rw [List.dropWhile_cons_of_neg (by simpa using this), ← hr, List.reverse_reverse]

example : toText (fun _ _ => some (byFunction fun b => some (b ++ List.replicate 40 99))) 3 .UTF_7 .ASCII .fail [97] =
    .ok (97 :: List.replicate 40 99) := by decide +kernel

/-- C76, errors of the library are reported. -/
theorem C76_error (lib : IconvLib) (mem : Nat) (src dst : Encoding) (rsp : OnNo) (b : Bytes) (d : Descriptor)
    (f : Bytes → Option Bytes) (hs : dst.isChar = true) (hd : openConv lib src dst rsp = .ok d) (hf : ByFunction d f) (hne : b ≠ [])
    (ho : f b = none) : toText lib (mem + 1) src dst rsp b = .throw .runtimeError := by
  have hl : b.length ≠ 0 := by cases b <;> simp_all
  unfold toText
  rw [if_neg (by simp [hs]), if_neg hl, hd]
  simp only [Res.bind, growString]
  have hc := hf d.init b (b.length * 4)
  rw [ho] at hc
  generalize d.call d.init b (b.length * 4) = r at hc ⊢
  obtain ⟨r1, r2⟩ := r
  simp only at hc
  subst hc
  rfl

/-- There and back again: text that is converted to bytes and back is the same, if it neither ends in blanks nor starts with what
looks like a byte order mark, and the library's conversions are inverse. -/
theorem C76_there_and_back_partial (lib : IconvLib) (mem : Nat) (e1 e2 : Encoding) (rsp : OnNo) (text out : Bytes) (d d' : Descriptor)
    (f g : Bytes → Option Bytes) (h1 : e1.isChar = true) (hd : openConv lib e1 e2 rsp = .ok d)
    (hd' : openConv lib e2 e1 rsp = .ok d') (hf : ByFunction d f) (hg : ByFunction d' g) (hne : text ≠ [])
    (hz : (0 : Byte) ∉ text) (ho : f text = some out) (hfit : out.length ≤ 4 * text.length) (hback : g out = some text)
    (hne' : out ≠ []) (hmem : text.length ≤ out.length * 4 * 4 ^ mem)
    (hhead : ∀ c, text.head? = some c → c ≠ 0xfe ∧ c ≠ 0xff ∧ c ≠ 0xef) (hlast : ∀ c, text.getLast? = some c → c ≠ 32) :
    (toBytes lib mem e1 e2 false rsp text).bind (toText lib (mem + 1) e2 e1 rsp) = .ok text := by
  have hb := C75_partial lib mem e1 e2 rsp false text [] d f h1 hd hf hne hz (Or.inl rfl)
    (by intro o h; rw [ho] at h; cases h; exact hfit)
  rw [List.append_nil, ho] at hb
  simp only [Bool.false_eq_true, if_false, List.nil_append] at hb
  rw [hb]
  obtain ⟨t, ht, -, -, hsame⟩ := C76_partial lib mem e2 e1 rsp out d' g h1 hd' hg hne' text hback hmem
  simp only [Res.bind]
  rw [ht, hsame]
  · intro c hc
    refine ⟨?_, hhead c hc⟩
    rintro rfl
    exact hz (List.mem_of_head? hc)
  · intro c hc
    refine ⟨?_, hlast c hc⟩
    rintro rfl
    exact hz (List.mem_of_getLast? hc)

/-! ## C77: byte order marks -/

/-- C77: the byte order mark that is put in front is U+FEFF, in the encoding the text is converted to. -/
def C77_claim : Prop :=
  ∀ e ∈ ([(.UTF_8, [0xef, 0xbb, 0xbf]), (.UTF_16BE, [0xfe, 0xff]), (.UTF_16LE, [0xff, 0xfe]), (.UCS_2BE, [0xfe, 0xff]),
      (.UCS_2LE, [0xff, 0xfe]), (.UTF_32BE, [0, 0, 0xfe, 0xff]), (.UTF_32LE, [0xff, 0xfe, 0, 0]), (.UCS_4BE, [0, 0, 0xfe, 0xff]),
      (.UCS_4LE, [0xff, 0xfe, 0, 0])] : List (Encoding × Bytes)),
    ∀ (lib : IconvLib) (mem : Nat) (src : Encoding) (rsp : OnNo) (text out : Bytes) (d : Descriptor) (f : Bytes → Option Bytes),
    src.isChar = true → openConv lib src e.1 rsp = .ok d → ByFunction d f → text ≠ [] → (0 : Byte) ∉ text → f text = some out →
    out.length ≤ 4 * text.length → toBytes lib mem src e.1 true rsp text = .ok (e.2 ++ out)

/-- C77 is refuted: that for UTF-32, most significant byte first, has its last two bytes the wrong way round. -/
theorem C77_refuted : ¬ C77_claim := by
  intro h
  have := h (.UTF_32BE, [0, 0, 0xfe, 0xff]) (by decide) (fun _ _ => some (byFunction fun b => some (b.flatMap fun c => [0, 0, 0, c]))) 0
    .ASCII .fail [97] [0, 0, 0, 97] _ _ (by decide +kernel) (by rfl) (byFunction_ok _) (by decide) (by decide) rfl (by decide)
  revert this; decide +kernel

/-- C77: for others, it is. -/
theorem C77_partial : ∀ e ∈ ([(.UTF_8, [0xef, 0xbb, 0xbf]), (.UTF_16BE, [0xfe, 0xff]), (.UTF_16LE, [0xff, 0xfe]), (.UCS_2BE, [0xfe, 0xff]),
      (.UCS_2LE, [0xff, 0xfe]), (.UTF_32LE, [0xff, 0xfe, 0, 0]), (.UCS_4LE, [0xff, 0xfe, 0, 0])] : List (Encoding × Bytes)),
    ∀ (lib : IconvLib) (mem : Nat) (src : Encoding) (rsp : OnNo) (text out : Bytes) (d : Descriptor) (f : Bytes → Option Bytes),
    src.isChar = true → openConv lib src e.1 rsp = .ok d → ByFunction d f → text ≠ [] → (0 : Byte) ∉ text → f text = some out →
    out.length ≤ 4 * text.length → toBytes lib mem src e.1 true rsp text = .ok (e.2 ++ out) := by
  intro e he lib mem src rsp text out d f hs hd hf hne hz ho hfit
  have hb := C75_partial lib mem src e.1 rsp true text [] d f hs hd hf hne hz (Or.inl rfl)
    (by intro o h; rw [ho] at h; cases h; exact hfit)
  rw [List.append_nil, ho] at hb
  rw [hb]
  simp only [List.mem_cons, List.not_mem_nil, or_false] at he
  rcases he with rfl | rfl | rfl | rfl | rfl | rfl | rfl <;> rfl

example : toBytes (fun _ _ => some (byFunction latinToUtf16)) 0 .ISO_8859_1 .UCS_2LE true .fail [66] = .ok [0xff, 0xfe, 66, 0] := by
  decide +kernel

end Scribbu.Props
