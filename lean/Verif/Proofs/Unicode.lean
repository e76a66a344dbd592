import Verif.Spec.Unicode

/-! # Encodings: decoders, sizes, and a library that is faithful -/

namespace Scribbu.Unicode

open Scribbu Spec.Unicode

/-! ## Decoders -/

/-- A character in UTF-8, and what follows. Bytes that are not UTF-8 come to something, too. -/
def deUtf8 : Bytes → Option (Nat × Bytes)
  | [] => none
  | a :: r =>
    if a.toNat < 0x80 then some (a.toNat, r)
    else if a.toNat < 0xe0 then
      match r with
      | b :: r => some ((a.toNat - 0xc0) * 64 + (b.toNat - 0x80), r)
      | _ => none
    else if a.toNat < 0xf0 then
      match r with
      | b :: c :: r => some ((a.toNat - 0xe0) * 4096 + (b.toNat - 0x80) * 64 + (c.toNat - 0x80), r)
      | _ => none
    else
      match r with
      | b :: c :: d :: r => some ((a.toNat - 0xf0) * 262144 + (b.toNat - 0x80) * 4096 + (c.toNat - 0x80) * 64 + (d.toNat - 0x80), r)
      | _ => none

/-- Two bytes as a number. -/
def deUnit (be : Bool) (a b : Byte) : Nat := if be then a.toNat * 256 + b.toNat else b.toNat * 256 + a.toNat

/-- A character in UTF-16 or UCS-2. -/
def deUtf16 (be : Bool) : Bytes → Option (Nat × Bytes)
  | a :: b :: r =>
    if 0xd800 ≤ deUnit be a b ∧ deUnit be a b < 0xdc00 then
      match r with
      | c :: d :: r => some (0x10000 + (deUnit be a b - 0xd800) * 1024 + (deUnit be c d - 0xdc00), r)
      | _ => none
    else some (deUnit be a b, r)
  | _ => none

/-- A character in ISO-8859-1. -/
def deLatin1 : Bytes → Option (Nat × Bytes)
  | a :: r => some (a.toNat, r)
  | _ => none

/-- A character in ISO-8859-8. -/
def deHebrew : Bytes → Option (Nat × Bytes)
  | a :: r =>
    if a = 0xaa then some (0xd7, r)
    else if a = 0xba then some (0xf7, r)
    else if a = 0xdf then some (0x2017, r)
    else if a = 0xfd then some (0x200e, r)
    else if a = 0xfe then some (0x200f, r)
    else if 0xe0 ≤ a.toNat then some (0x5d0 + (a.toNat - 0xe0), r)
    else some (a.toNat, r)
  | _ => none

/-- Characters to the end; `n` is enough if it is the number of bytes. -/
def deEach (f : Bytes → Option (Nat × Bytes)) : Nat → Bytes → Option Chars
  | _, [] => some []
  | 0, _ => none
  | n + 1, b :: bs =>
    match f (b :: bs) with
    | none => none
    | some (c, r) => (deEach f n r).map fun cs => c :: cs

theorem toNat_ofNat (n : Nat) (h : n < 256) : (UInt8.ofNat n).toNat = n := by
  rw [UInt8.toNat_ofNat']; omega

theorem some_pair {m n : Nat} (h : m = n) (r : Bytes) : some (m, r) = some (n, r) := by rw [h]

theorem deUtf8_utf8 {c : Nat} {a : Bytes} (h : utf8 c = some a) (r : Bytes) : deUtf8 (a ++ r) = some (c, r) := by
  unfold utf8 at h
  split at h
  · cases h
  split at h
  · cases h
    simp only [deUtf8, List.cons_append, List.nil_append]
    rw [toNat_ofNat _ (by omega), if_pos (by omega)]
  split at h
  · cases h
    simp only [deUtf8, List.cons_append, List.nil_append]
    rw [toNat_ofNat _ (by omega), toNat_ofNat _ (by omega), if_neg (by omega), if_pos (by omega)]
    refine some_pair ?_ r; omega
  split at h
  · cases h
    simp only [deUtf8, List.cons_append, List.nil_append]
    rw [toNat_ofNat _ (by omega), toNat_ofNat _ (by omega), toNat_ofNat _ (by omega), if_neg (by omega), if_neg (by omega),
      if_pos (by omega)]
    refine some_pair ?_ r; omega
  split at h
  · cases h
    simp only [deUtf8, List.cons_append, List.nil_append]
    rw [toNat_ofNat _ (by omega), toNat_ofNat _ (by omega), toNat_ofNat _ (by omega), toNat_ofNat _ (by omega), if_neg (by omega),
      if_neg (by omega), if_neg (by omega)]
    refine some_pair ?_ r; omega
  · cases h

theorem unit_eq (be : Bool) (n : Nat) (h : n < 65536) : ∃ a b, unit be n = [a, b] ∧ deUnit be a b = n := by
  cases be
  · refine ⟨_, _, rfl, ?_⟩
    simp only [deUnit, Bool.false_eq_true, if_false]
    rw [toNat_ofNat _ (by omega), toNat_ofNat _ (by omega)]; omega
  · refine ⟨_, _, rfl, ?_⟩
    simp only [deUnit, if_true]
    rw [toNat_ofNat _ (by omega), toNat_ofNat _ (by omega)]; omega

theorem deUtf16_utf16 {be : Bool} {c : Nat} {a : Bytes} (h : utf16 be c = some a) (r : Bytes) : deUtf16 be (a ++ r) = some (c, r) := by
  unfold utf16 at h
  split at h
  · cases h
  rename_i hs
  simp only [isSurrogate] at hs
  split at h
  · cases h
    obtain ⟨x, y, he, hd⟩ := unit_eq be c (by omega)
    rw [he]
    simp only [deUtf16, List.cons_append, List.nil_append]
    rw [hd, if_neg (by omega)]
  split at h
  · cases h
    obtain ⟨x, y, he, hd⟩ := unit_eq be (0xd800 + (c - 0x10000) / 1024) (by omega)
    obtain ⟨x', y', he', hd'⟩ := unit_eq be (0xdc00 + (c - 0x10000) % 1024) (by omega)
    rw [he, he']
    simp only [deUtf16, List.cons_append, List.nil_append]
    rw [hd, hd', if_pos (by omega)]
    refine some_pair ?_ r; omega
  · cases h

theorem ucs2_utf16 {be : Bool} {c : Nat} {a : Bytes} (h : ucs2 be c = some a) : utf16 be c = some a := by
  unfold ucs2 at h
  unfold utf16
  split at h
  · cases h
  · rename_i hs
    rw [if_neg hs]
    split at h
    · rename_i h2; rw [if_pos h2]; exact h
    · cases h

theorem deLatin1_latin1 {c : Nat} {a : Bytes} (h : latin1 c = some a) (r : Bytes) : deLatin1 (a ++ r) = some (c, r) := by
  unfold latin1 at h
  split at h
  · cases h
    simp only [deLatin1, List.cons_append, List.nil_append]
    rw [toNat_ofNat _ (by omega)]
  · cases h

theorem ofNat_ne {n : Nat} {b : Byte} (h : n < 256) (hb : n ≠ b.toNat) : UInt8.ofNat n ≠ b := by
  intro he; apply hb; rw [← he, toNat_ofNat _ h]

theorem deHebrew_hebrew {c : Nat} {a : Bytes} (h : hebrew c = some a) (r : Bytes) : deHebrew (a ++ r) = some (c, r) := by
  unfold hebrew at h
  split at h
  · cases h
    simp only [deHebrew, List.cons_append, List.nil_append]
    rw [if_neg (ofNat_ne (by omega) (by show c ≠ 0xaa; omega)), if_neg (ofNat_ne (by omega) (by show c ≠ 0xba; omega)),
      if_neg (ofNat_ne (by omega) (by show c ≠ 0xdf; omega)), if_neg (ofNat_ne (by omega) (by show c ≠ 0xfd; omega)),
      if_neg (ofNat_ne (by omega) (by show c ≠ 0xfe; omega)), toNat_ofNat _ (by omega), if_neg (by omega)]
  split at h
  · cases h
    simp only [deHebrew, List.cons_append, List.nil_append]
    rw [if_neg (ofNat_ne (by omega) (by show c ≠ 0xaa; omega)), if_neg (ofNat_ne (by omega) (by show c ≠ 0xba; omega)),
      if_neg (ofNat_ne (by omega) (by show c ≠ 0xdf; omega)), if_neg (ofNat_ne (by omega) (by show c ≠ 0xfd; omega)),
      if_neg (ofNat_ne (by omega) (by show c ≠ 0xfe; omega)), toNat_ofNat _ (by omega), if_neg (by omega)]
  split at h
  · cases h; subst c; rfl
  split at h
  · cases h; subst c; rfl
  split at h
  · cases h; subst c; rfl
  split at h
  · cases h
    simp only [deHebrew, List.cons_append, List.nil_append]
    rw [if_neg (ofNat_ne (by omega) (by show _ ≠ 0xaa; omega)), if_neg (ofNat_ne (by omega) (by show _ ≠ 0xba; omega)),
      if_neg (ofNat_ne (by omega) (by show _ ≠ 0xdf; omega)), if_neg (ofNat_ne (by omega) (by show _ ≠ 0xfd; omega)),
      if_neg (ofNat_ne (by omega) (by show _ ≠ 0xfe; omega)), toNat_ofNat _ (by omega), if_pos (by omega)]
    refine some_pair ?_ r; omega
  split at h
  · cases h; subst c; rfl
  split at h
  · cases h; subst c; rfl
  · cases h

/-! ## Sizes -/

/-- A character takes at least one byte and at most four. -/
theorem char_length {e : Encoding} {c : Nat} {a : Bytes} (h : char e c = some a) : 1 ≤ a.length ∧ a.length ≤ 4 := by
  have hunit : ∀ be n, (unit be n).length = 2 := by intro be n; cases be <;> rfl
  have hl : ∀ {c a}, latin1 c = some a → 1 ≤ a.length ∧ a.length ≤ 4 := by
    intro c a h; unfold latin1 at h; split at h <;> cases h; simp
  have hh : ∀ {c a}, hebrew c = some a → 1 ≤ a.length ∧ a.length ≤ 4 := by
    intro c a h; unfold hebrew at h; repeat' split at h
    all_goals (cases h <;> simp)
  have h8 : ∀ {c a}, utf8 c = some a → 1 ≤ a.length ∧ a.length ≤ 4 := by
    intro c a h; unfold utf8 at h; repeat' split at h
    all_goals (cases h <;> simp)
  have h16 : ∀ {be c a}, utf16 be c = some a → 1 ≤ a.length ∧ a.length ≤ 4 := by
    intro be c a h; unfold utf16 at h; repeat' split at h
    all_goals (cases h <;> simp [hunit])
  cases e <;> first | exact hl h | exact hh h | exact h8 h | exact h16 h | exact h16 (ucs2_utf16 h) | (cases h)

theorem each_cons {f : Nat → Option Bytes} {c : Nat} {cs : Chars} {b : Bytes} (h : each f (c :: cs) = some b) :
    ∃ x y, f c = some x ∧ each f cs = some y ∧ b = x ++ y := by
  simp only [each] at h
  cases hx : f c with
  | none => rw [hx] at h; cases h
  | some x =>
    cases hy : each f cs with
    | none => rw [hx, hy] at h; cases h
    | some y => rw [hx, hy] at h; cases h; exact ⟨x, y, rfl, rfl, rfl⟩

theorem each_cons_of {f : Nat → Option Bytes} {c : Nat} {cs : Chars} {x y : Bytes} (hx : f c = some x) (hy : each f cs = some y) :
    each f (c :: cs) = some (x ++ y) := by simp only [each, hx, hy]

theorem each_le {f g : Nat → Option Bytes} {k : Nat} (h : ∀ c a b, f c = some a → g c = some b → b.length ≤ k * a.length) :
    ∀ {cs a b}, each f cs = some a → each g cs = some b → b.length ≤ k * a.length
  | [], a, b, ha, hb => by cases ha; cases hb; simp
  | c :: cs, a, b, ha, hb => by
    obtain ⟨x, y, hx, hy, rfl⟩ := each_cons ha
    obtain ⟨x', y', hx', hy', rfl⟩ := each_cons hb
    have h1 := h c x x' hx hx'
    have h2 := each_le h hy hy'
    rw [List.length_append, List.length_append, Nat.mul_add]; omega

theorem each_length {f : Nat → Option Bytes} (h : ∀ c a, f c = some a → 1 ≤ a.length) :
    ∀ {cs a}, each f cs = some a → cs.length ≤ a.length
  | [], a, ha => by simp
  | c :: cs, a, ha => by
    obtain ⟨x, y, hx, hy, rfl⟩ := each_cons ha
    have h1 := h c x hx
    have h2 := each_length h hy
    rw [List.length_append, List.length_cons]; omega

/-! ## Decoding what has been encoded -/

theorem deEach_each {f : Nat → Option Bytes} {g : Bytes → Option (Nat × Bytes)}
    (h : ∀ c a, f c = some a → ∀ r, g (a ++ r) = some (c, r)) (hl : ∀ c a, f c = some a → 1 ≤ a.length) :
    ∀ {cs b} (n : Nat), each f cs = some b → b.length ≤ n → deEach g n b = some cs
  | [], b, n, hb, hn => by cases hb; cases n <;> rfl
  | c :: cs, b, n, hb, hn => by
    obtain ⟨x, y, hx, hy, rfl⟩ := each_cons hb
    have h1 := hl c x hx
    rw [List.length_append] at hn
    cases n with
    | zero => omega
    | succ n =>
      have ih := deEach_each h hl n hy (by omega)
      cases x with
      | nil => simp at h1
      | cons a x =>
        rw [List.cons_append]
        simp only [deEach]
        rw [← List.cons_append, h c _ hx y]
        simp only [ih, Option.map_some]

/-- The decoder for an encoding. -/
def deChar : Encoding → Bytes → Option (Nat × Bytes)
  | .ISO_8859_1 => deLatin1
  | .ISO_8859_8 => deHebrew
  | .UTF_8 => deUtf8
  | .UCS_2BE | .UTF_16BE => deUtf16 true
  | _ => deUtf16 false

/-- A text out of bytes. -/
def decode (e : Encoding) (b : Bytes) : Option Chars :=
  match e with
  | .UTF_16 =>
    if b.take 2 = [0xff, 0xfe] then deEach (deUtf16 false) b.length (b.drop 2)
    else if b.take 2 = [0xfe, 0xff] then deEach (deUtf16 true) b.length (b.drop 2)
    else deEach (deUtf16 false) b.length b
  | e => deEach (deChar e) b.length b

theorem deChar_char {e : Encoding} {c : Nat} {a : Bytes} (h : char e c = some a) (r : Bytes) : deChar e (a ++ r) = some (c, r) := by
  cases e <;>
    first | exact deLatin1_latin1 h r | exact deHebrew_hebrew h r | exact deUtf8_utf8 h r | exact deUtf16_utf16 h r |
      exact deUtf16_utf16 (ucs2_utf16 h) r | (cases h)

theorem decode_reads {e : Encoding} {b : Bytes} {cs : Chars} (h : Reads e b cs) : decode e b = some cs := by
  have hw : ∀ be c a, utf16 be c = some a → 1 ≤ a.length := by
    intro be c a h
    cases be
    · exact (char_length (e := .UTF_16LE) h).1
    · exact (char_length (e := .UTF_16BE) h).1
  by_cases he : e = .UTF_16
  · subst he
    rcases h with ⟨x, hx, rfl⟩ | ⟨x, hx, rfl⟩ | ⟨hx, h1, h2⟩
    · simp only [decode]
      refine (if_pos rfl).trans ?_
      exact deEach_each (fun c a h r => deUtf16_utf16 h r) (hw false) _ hx (by simp; omega)
    · simp only [decode]
      refine (if_neg (by simp)).trans ((if_pos rfl).trans ?_)
      exact deEach_each (fun c a h r => deUtf16_utf16 h r) (hw true) _ hx (by simp; omega)
    · simp only [decode]
      rw [if_neg h1, if_neg h2]
      exact deEach_each (fun c a h r => deUtf16_utf16 h r) (hw false) _ hx (Nat.le_refl _)
  · have h' : each (char e) cs = some b := by
      have hm : mark e = [] := by cases e <;> first | rfl | exact absurd rfl he
      have h'' : encode e cs = some b := by cases e <;> first | exact h | exact absurd rfl he
      unfold encode at h''
      rw [hm] at h''
      cases hx : each (char e) cs with
      | none => rw [hx] at h''; cases h''
      | some x => rw [hx] at h''; exact h''
    have : decode e b = deEach (deChar e) b.length b := by cases e <;> first | rfl | exact absurd rfl he
    rw [this]
    exact deEach_each (fun c a h r => deChar_char h r) (fun c a h => (char_length h).1) _ h' (Nat.le_refl _)

/-! ## A faithful library -/

/-- The encoding of a name. -/
def named (n : Bytes) : Option Encoding := known.find? fun e => e.iconvName .fail = .ok n

/-- Convert by way of the characters. -/
def conv (src dst : Encoding) : Descriptor where
  State := Unit
  init := ()
  call _ b n :=
    (match (decode src b).bind (encode dst) with
    | none => .bad
    | some out => if out.length ≤ n then .done out else .tooBig, ())

/-- A library that knows the encodings specified here. -/
def library : IconvLib := fun to from_ =>
  match named to, named from_ with
  | some dst, some src => some (conv src dst)
  | _, _ => none

theorem library_faithful : Faithful library := by
  intro src hs dst hd
  have hn : ∀ e ∈ known, ∃ n, e.iconvName .fail = .ok n ∧ named n = some e := by
    intro e he
    simp only [known, List.mem_cons, List.mem_nil_iff, or_false] at he
    rcases he with rfl | rfl | rfl | rfl | rfl | rfl | rfl | rfl | rfl <;> exact ⟨_, rfl, by decide +kernel⟩
  obtain ⟨n, hn1, hn2⟩ := hn src hs
  obtain ⟨m, hm1, hm2⟩ := hn dst hd
  refine ⟨conv src dst, fun b => (decode src b).bind (encode dst), ?_, ?_, ?_⟩
  · unfold Charset.openConv
    rw [hm1, hn1]
    simp only [Res.bind, library, hm2, hn2]
  · intro st b n
    rfl
  · intro b cs h
    show (decode src b).bind (encode dst) = _
    rw [decode_reads h]
    rfl

end Scribbu.Unicode
