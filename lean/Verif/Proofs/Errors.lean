import Verif.Spec.Errors
import Verif.Proofs.Display

/-! # Messages of exceptions: which class a message comes from, and what it is about (C193) -/

namespace Scribbu.Errors
open Scribbu Spec.Errors

/-! ## Characters that can be seen -/

theorem seen_append {a b : Bytes} (ha : Seen a) (hb : Seen b) : Seen (a ++ b) := by
  intro c hc
  rcases List.mem_append.1 hc with h | h
  · exact ha c h
  · exact hb c h

theorem seen_all {a : Bytes} (h : (a.all fun b => decide (32 ≤ b ∧ b ≠ 127)) = true) : Seen a := by
  intro b hb
  exact of_decide_eq_true (List.all_eq_true.1 h b hb)

theorem seen_dec (n : Nat) : Seen (Backup.dec n) := fun b hb => Proofs.Display.dec_visible n b hb

theorem seen_signed (c : Byte) : Seen (signed c) := by
  unfold signed
  split
  · exact seen_dec _
  · intro b hb
    rcases List.mem_cons.1 hb with rfl | h
    · decide
    · exact seen_dec _ b h

theorem seen_escape : ∀ {p : Bytes}, Seen p → Seen (escape p)
  | [], _ => by simp [Seen, escape]
  | c :: s, h => by
    have hs := seen_escape (p := s) fun b hb => h b (List.mem_cons_of_mem _ hb)
    have hc := h c List.mem_cons_self
    unfold escape
    split
    · intro b hb
      rcases List.mem_cons.1 hb with rfl | hb
      · decide
      · rcases List.mem_cons.1 hb with rfl | hb
        · exact hc
        · exact hs b hb
    · intro b hb
      rcases List.mem_cons.1 hb with rfl | hb
      · exact hc
      · exact hs b hb

theorem seen_quoted {p : Bytes} (h : Seen p) : Seen (quoted p) := by
  intro b hb
  rcases List.mem_append.1 hb with hb | hb
  · rcases List.mem_cons.1 hb with rfl | hb
    · decide
    · exact seen_escape h b hb
  · simp only [List.mem_singleton] at hb
    subst hb
    decide

theorem seen_text {f : FrameName} (h : PlainName f) : Seen f.text := by
  cases f with
  | three a b c =>
    have e : (FrameName.three a b c).text = [a, b, c] := if_neg fun h0 => absurd h.1.1 (by rw [h0.1]; decide)
    rw [e]
    intro x hx
    simp only [List.mem_cons, List.not_mem_nil, or_false] at hx
    rcases hx with rfl | rfl | rfl
    · exact h.1
    · exact h.2.1
    · exact h.2.2
  | four a b c d =>
    intro x hx
    simp only [FrameName.text, List.mem_cons, List.not_mem_nil, or_false] at hx
    rcases hx with rfl | rfl | rfl | rfl
    · exact h.1
    · exact h.2.1
    · exact h.2.2.1
    · exact h.2.2.2

/-- The text without zeros is seen whole. -/
theorem takeWhile_seen {m : Bytes} (h : Seen m) : m.takeWhile (· ≠ 0) = m := by
  induction m with
  | nil => rfl
  | cons c m ih =>
    have hc : c ≠ 0 := by
      intro h0
      have := (h c List.mem_cons_self).1
      rw [h0] at this
      exact absurd this (by decide)
    rw [List.takeWhile_cons, if_pos (by simpa using hc), ih fun b hb => h b (List.mem_cons_of_mem _ hb)]

/-! ## Tables -/

theorem encoding_printed (e : Encoding) : ∃ s, e.print = .ok s ∧ Seen s := by
  have h : (match e.print with | .ok s => s.all fun b => decide (32 ≤ b ∧ b ≠ 127) | _ => false) = true := by
    cases e <;> decide +kernel
  cases hp : e.print with
  | ok s => rw [hp] at h; exact ⟨s, rfl, seen_all h⟩
  | throw x => rw [hp] at h; cases h
  | ub x => rw [hp] at h; cases h

theorem encoding_of {e : Encoding} {s : Bytes} (h : e.print = .ok s) : (e, s) ∈ Encoding.outTable := by
  unfold Encoding.print at h
  cases hf : Encoding.outTable.find? (fun x => x.1 = e) with
  | none => rw [hf] at h; cases h
  | some x =>
    rw [hf] at h
    cases h
    have h1 := List.find?_some hf
    have h2 := List.mem_of_find?_eq_some hf
    simp only [decide_eq_true_eq] at h1
    rw [← h1]
    exact h2

theorem names_once : (Encoding.outTable.map (·.2)).Nodup := by
  have : (Encoding.outTable.map (·.2)).Pairwise (· ≠ ·) := by decide +kernel
  exact this

theorem once_inj {α β : Type} {l : List (α × β)} (hl : (l.map (·.2)).Nodup) {a a' : α} {b : β} (h : (a, b) ∈ l) (h' : (a', b) ∈ l) : a = a' := by
  induction l with
  | nil => cases h
  | cons x l ih =>
    simp only [List.map_cons, List.nodup_cons] at hl
    rcases List.mem_cons.1 h with e | h1 <;> rcases List.mem_cons.1 h' with e' | h1'
    · rw [← e] at e'
      injection e' with e' _
      exact e'.symm
    · exact absurd (List.mem_map.2 ⟨_, h1', by rw [← e]⟩) hl.1
    · exact absurd (List.mem_map.2 ⟨_, h1, by rw [← e']⟩) hl.1
    · exact ih hl.2 h1 h1'

theorem encoding_inj {e e' : Encoding} {s : Bytes} (h : e.print = .ok s) (h' : e'.print = .ok s) : e = e' :=
  once_inj names_once (encoding_of h) (encoding_of h')

theorem frame_printed (x : TextFrame) : ∃ s, x.print = .ok s ∧ Seen s ∧ s.length = 4 := by
  have h : (match x.print with | .ok s => (s.all fun b => decide (32 ≤ b ∧ b ≠ 127)) && s.length == 4 | _ => false) = true := by
    cases x <;> decide +kernel
  cases hp : x.print with
  | ok s =>
    rw [hp] at h
    simp only [Bool.and_eq_true, beq_iff_eq] at h
    exact ⟨s, rfl, seen_all h.1, h.2⟩
  | throw x => rw [hp] at h; cases h
  | ub x => rw [hp] at h; cases h

theorem frame_inj {x y : TextFrame} {s : Bytes} (h : x.print = .ok s) (h' : y.print = .ok s) : x = y := by
  have key : ∀ {x : TextFrame}, x.print = .ok s → (x, s) ∈ TextFrame.outTable := by
    intro x h
    unfold TextFrame.print at h
    cases hf : TextFrame.outTable.find? (fun e => e.1 = x) with
    | none => rw [hf] at h; cases h
    | some e =>
      rw [hf] at h
      cases h
      have h1 := List.find?_some hf
      have h2 := List.mem_of_find?_eq_some hf
      simp only [decide_eq_true_eq] at h1
      rw [← h1]
      exact h2
  have hn : (TextFrame.outTable.map (·.2)).Nodup := by
    have : (TextFrame.outTable.map (·.2)).Pairwise (· ≠ ·) := by decide +kernel
    exact this
  exact once_inj hn (key h) (key h')

/-! ## Every message can be seen -/

theorem full_seen {e : Err} (h : Plain e) : ∃ m, full e = .ok m ∧ Seen m := by
  cases e with
  | duplicateFrame f n =>
    exact ⟨_, rfl, seen_append (seen_all (by decide)) (seen_append (seen_text h) (seen_append (seen_all (by decide)) (seen_append (seen_dec n) (seen_all (by decide)))))⟩
  | unknownFrame f => exact ⟨_, rfl, seen_append (seen_all (by decide)) (seen_text h)⟩
  | reservedFrame f => exact ⟨_, rfl, seen_append (seen_all (by decide)) (seen_append (seen_text h) (seen_all (by decide)))⟩
  | invalidTag => exact ⟨_, rfl, seen_all (by decide)⟩
  | noTag => exact ⟨_, rfl, seen_all (by decide)⟩
  | unknownVersion v => exact ⟨_, rfl, seen_append (seen_all (by decide)) (seen_dec _)⟩
  | unknownTextFrame x =>
    obtain ⟨s, hs, h1, -⟩ := frame_printed x
    refine ⟨_, by simp only [full, hs, Res.ok_bind]; rfl, ?_⟩
    exact seen_append (seen_all (by decide)) (seen_append h1 (seen_all (by decide +kernel)))
  | badUnicode b =>
    refine ⟨_, rfl, seen_append (seen_all (by decide)) ?_⟩
    intro c hc
    simp only [List.mem_singleton] at hc
    subst hc
    exact h
  | iconv e => exact ⟨_, rfl, seen_append (seen_all (by decide)) h⟩
  | badCodeUnit e cb =>
    obtain ⟨s, hs, h1⟩ := encoding_printed e
    refine ⟨_, by simp only [full, hs, Res.ok_bind]; rfl, ?_⟩
    exact seen_append (seen_dec _) (seen_append (seen_all (by decide)) h1)
  | badSeparator c => exact ⟨_, rfl, seen_append (seen_signed c) (seen_all (by decide))⟩
  | invalidExtHeader => exact ⟨_, rfl, seen_all (by decide)⟩
  | invalidV1Tag => exact ⟨_, rfl, seen_all (by decide)⟩
  | tagset c => exact ⟨_, rfl, seen_all (by cases c <;> decide +kernel)⟩
  | mp3 c => exact ⟨_, rfl, seen_all (by cases c <;> decide +kernel)⟩
  | fileOpen n e => exact ⟨_, rfl, seen_append (seen_all (by decide)) (seen_append h.1 (seen_append (seen_all (by decide)) h.2.1))⟩
  | fileNotFound p => exact ⟨_, rfl, seen_append (seen_all (by decide)) (seen_append (seen_quoted h) (seen_all (by decide)))⟩
  | badGenre g => exact ⟨_, rfl, seen_append (seen_all (by decide)) (seen_dec _)⟩
  | badOperation op => exact ⟨_, rfl, seen_append (seen_all (by decide +kernel)) (seen_append (seen_all (by cases op <;> decide +kernel)) (seen_all (by decide +kernel)))⟩
  | badV2Version v => exact ⟨_, rfl, seen_append (seen_all (by decide)) (seen_dec _)⟩
  | missingSource s tag =>
    refine ⟨_, rfl, seen_append (seen_all (by decide)) (seen_append (seen_all (by cases s <;> decide +kernel)) (seen_append (seen_all (by decide)) ?_))⟩
    cases tag with
    | none => exact fun _ hb => by cases hb
    | some t => exact seen_append (seen_all (by decide)) (seen_append h (seen_all (by decide)))
  | duplicateOption o => exact ⟨_, rfl, seen_append (seen_all (by decide)) (seen_all (by cases o <;> decide +kernel))⟩

/-! ## Which class a message comes from -/

/-- The class of an exception. -/
def cls : Err → Nat
  | .duplicateFrame .. => 0
  | .unknownFrame .. => 1
  | .reservedFrame .. => 2
  | .invalidTag => 3
  | .noTag => 4
  | .unknownVersion .. => 5
  | .unknownTextFrame .. => 6
  | .badUnicode .. => 7
  | .iconv .. => 8
  | .badCodeUnit .. => 9
  | .badSeparator .. => 10
  | .invalidExtHeader => 11
  | .invalidV1Tag => 12
  | .tagset .. => 13
  | .mp3 .. => 14
  | .fileOpen .. => 15
  | .fileNotFound .. => 16
  | .badGenre .. => 17
  | .badOperation .. => 18
  | .badV2Version .. => 19
  | .missingSource .. => 20
  | .duplicateOption .. => 21

/-- How messages begin. -/
def openings : List (Bytes × Nat) :=
  [(/- Frame  -/ [70, 114, 97, 109, 101, 32], 0), (/- Unknown frame  -/ [85, 110, 107, 110, 111, 119, 110, 32, 102, 114, 97, 109, 101, 32], 1), (/- frame  -/ [102, 114, 97, 109, 101, 32], 2), (/- invalid tag -/ [105, 110, 118, 97, 108, 105, 100, 32, 116, 97, 103], 3), (/- no tag -/ [110, 111, 32, 116, 97, 103], 4), (/- Unknown version  -/ [85, 110, 107, 110, 111, 119, 110, 32, 118, 101, 114, 115, 105, 111, 110, 32], 5), (/- Unknown ID3v2 -/ [85, 110, 107, 110, 111, 119, 110, 32, 73, 68, 51, 118, 50], 6),
   (/- Unknown value -/ [85, 110, 107, 110, 111, 119, 110, 32, 118, 97, 108, 117, 101], 7), (/- iconv -/ [105, 99, 111, 110, 118], 8), (/- invalid ext -/ [105, 110, 118, 97, 108, 105, 100, 32, 101, 120, 116], 11), (/- invalid ID3v1 tag -/ [105, 110, 118, 97, 108, 105, 100, 32, 73, 68, 51, 118, 49, 32, 116, 97, 103], 12), (/- replace_ -/ [114, 101, 112, 108, 97, 99, 101, 95], 13), (/- adjust_ -/ [97, 100, 106, 117, 115, 116, 95], 13), (/- bad MPEG -/ [98, 97, 100, 32, 77, 80, 69, 71], 14), (/- no sync -/ [110, 111, 32, 115, 121, 110, 99], 14),
   (/- free  -/ [102, 114, 101, 101, 32], 14), (/- unsupported -/ [117, 110, 115, 117, 112, 112, 111, 114, 116, 101, 100], 14), (/- Failed -/ [70, 97, 105, 108, 101, 100], 15), (/- `` -/ [96, 96], 16), (/- invalid ID3v1 num -/ [105, 110, 118, 97, 108, 105, 100, 32, 73, 68, 51, 118, 49, 32, 110, 117, 109], 17), (/- A tagset -/ [65, 32, 116, 97, 103, 115, 101, 116], 18), (/- unknown ID3v2 -/ [117, 110, 107, 110, 111, 119, 110, 32, 73, 68, 51, 118, 50], 19), (/- Missing -/ [77, 105, 115, 115, 105, 110, 103], 20),
   (/- duplicate -/ [100, 117, 112, 108, 105, 99, 97, 116, 101], 21)]

/-- The beginning of a number. -/
def numeric (b : Byte) : Bool := b = 45 ∨ (48 ≤ b ∧ b ≤ 57)

/-- The class that a message comes from. -/
def classOf (m : Bytes) : Option Nat :=
  match openings.find? fun o => o.1.isPrefixOf m with
  | some o => some o.2
  | none =>
    if /-  is an -/ [32, 105, 115, 32, 97, 110].isPrefixOf (m.dropWhile numeric) then some 9 else if /-  is not -/ [32, 105, 115, 32, 110, 111, 116].isPrefixOf (m.dropWhile numeric) then some 10 else none

theorem dec_numeric (n : Nat) : ∀ b ∈ Backup.dec n, numeric b = true := by
  intro b hb
  have := List.all_eq_true.1 (Backup.dec_digits n).1 _ hb
  revert this
  revert b
  have key : ∀ b : Byte, Backup.isDigit b = true → numeric b = true := by
    intro ⟨⟨b⟩⟩
    revert b
    decide +kernel
  intro b _ h
  exact key b h

theorem signed_numeric (c : Byte) : ∀ b ∈ signed c, numeric b = true := by
  unfold signed
  split
  · exact dec_numeric _
  · intro b hb
    rcases List.mem_cons.1 hb with rfl | h
    · decide
    · exact dec_numeric _ b h

theorem signed_ne (c : Byte) : signed c ≠ [] := by
  unfold signed
  split
  · exact (Backup.dec_digits _).2.1
  · simp

theorem dropWhile_numeric {a b : Bytes} (ha : ∀ x ∈ a, numeric x = true) : (a ++ 32 :: b).dropWhile numeric = 32 :: b := by
  induction a with
  | nil => rfl
  | cons x a ih =>
    rw [List.cons_append, List.dropWhile_cons, if_pos (ha x List.mem_cons_self)]
    exact ih fun y hy => ha y (List.mem_cons_of_mem _ hy)

/-- Messages that begin with a number begin in none of the other ways. -/
theorem classOf_number {a b : Bytes} (hne : a ≠ []) (ha : ∀ x ∈ a, numeric x = true) :
    openings.find? (fun o => o.1.isPrefixOf (a ++ 32 :: b)) = none := by
  cases a with
  | nil => exact absurd rfl hne
  | cons x a =>
    have hx := ha x List.mem_cons_self
    rw [List.find?_eq_none]
    intro o ho
    have key : ∀ o ∈ openings, ∃ c s, o.1 = c :: s ∧ numeric c = false := by
      intro o ho
      have h : (openings.all fun o => match o.1 with | c :: _ => !numeric c | [] => false) = true := by decide +kernel
      have := List.all_eq_true.1 h o ho
      cases hs : o.1 with
      | nil => rw [hs] at this; cases this
      | cons c s => rw [hs] at this; exact ⟨c, s, rfl, by simpa using this⟩
    obtain ⟨c, s, h1, h2⟩ := key o ho
    rw [h1]
    simp only [List.cons_append, List.isPrefixOf, Bool.and_eq_true, beq_iff_eq, not_and]
    intro h
    rw [h, hx] at h2
    cases h2

theorem classOf_full {e : Err} {m : Bytes} (h : full e = .ok m) : classOf m = some (cls e) := by
  cases e with
  | badCodeUnit e cb =>
    obtain ⟨s, hs, -⟩ := encoding_printed e
    simp only [full, hs, Res.ok_bind] at h
    cases h
    unfold classOf
    rw [List.cons_append, classOf_number (Backup.dec_digits _).2.1 (dec_numeric _), dropWhile_numeric (dec_numeric _)]
    rfl
  | badSeparator c =>
    cases h
    unfold classOf
    rw [classOf_number (signed_ne c) (signed_numeric c), dropWhile_numeric (signed_numeric c)]
    rfl
  | unknownTextFrame x =>
    obtain ⟨s, hs, -⟩ := frame_printed x
    simp only [full, hs, Res.ok_bind] at h
    cases h
    rfl
  | tagset c => cases h; cases c <;> rfl
  | mp3 c => cases h; cases c <;> rfl
  | _ => cases h; rfl

/-! ## What messages are about -/

theorem escape_inj : ∀ {p q x y : Bytes}, escape p ++ 34 :: x = escape q ++ 34 :: y → p = q ∧ x = y
  | [], [], x, y, h => by
    simp only [escape, List.nil_append, List.cons.injEq, true_and] at h
    exact ⟨rfl, h⟩
  | [], d :: q, x, y, h => by
    unfold escape at h
    split at h
    · simp at h
    · rename_i hd
      simp only [List.nil_append, List.cons_append, List.cons.injEq] at h
      exact absurd (Or.inl h.1.symm) hd
  | c :: p, [], x, y, h => by
    unfold escape at h
    split at h
    · simp at h
    · rename_i hd
      simp only [List.nil_append, List.cons_append, List.cons.injEq] at h
      exact absurd (Or.inl h.1) hd
  | c :: p, d :: q, x, y, h => by
    have e1 : escape (c :: p) = if c = 34 ∨ c = 92 then 92 :: c :: escape p else c :: escape p := rfl
    have e2 : escape (d :: q) = if d = 34 ∨ d = 92 then 92 :: d :: escape q else d :: escape q := rfl
    rw [e1, e2] at h
    by_cases hc : c = 34 ∨ c = 92 <;> by_cases hd : d = 34 ∨ d = 92
    · rw [if_pos hc, if_pos hd] at h
      simp only [List.cons_append, List.cons.injEq, true_and] at h
      obtain ⟨r1, r2⟩ := escape_inj h.2
      exact ⟨by rw [h.1, r1], r2⟩
    · rw [if_pos hc, if_neg hd] at h
      simp only [List.cons_append, List.cons.injEq] at h
      exact absurd (Or.inr h.1.symm) hd
    · rw [if_neg hc, if_pos hd] at h
      simp only [List.cons_append, List.cons.injEq] at h
      exact absurd (Or.inr h.1) hc
    · rw [if_neg hc, if_neg hd] at h
      simp only [List.cons_append, List.cons.injEq] at h
      obtain ⟨r1, r2⟩ := escape_inj h.2
      exact ⟨by rw [h.1, r1], r2⟩

theorem byte_dec {v w : Byte} (h : Backup.dec v.toNat = Backup.dec w.toNat) : v = w := UInt8.toNat_inj.1 (Proofs.Display.dec_inj h)

theorem signed_inj {c d : Byte} (h : signed c = signed d) : c = d := by
  have neg : ∀ {a b : Byte}, Backup.dec a.toNat = 45 :: Backup.dec (256 - b.toNat) → False := by
    intro a b h
    have := List.all_eq_true.1 (Backup.dec_digits a.toNat).1 45 (by rw [h]; exact List.mem_cons_self)
    revert this
    decide
  unfold signed at h
  split at h <;> split at h
  · exact byte_dec h
  · exact (neg h).elim
  · exact (neg h.symm).elim
  · injection h with _ h
    have := Proofs.Display.dec_inj h
    have h1 := c.toNat_lt
    have h2 := d.toNat_lt
    exact UInt8.toNat_inj.1 (by omega)

theorem signed_no32 (c : Byte) : (32 : Byte) ∉ signed c := by
  intro h
  have := signed_numeric c 32 h
  revert this
  decide

/-- Names that are followed by a space, and then not by another, tell apart what they name. -/
theorem text_inj {f g : FrameName} (hf : PlainName f) (hg : PlainName g) {x y : Byte} {a b : Bytes} (hx : x ≠ 32) (hy : y ≠ 32)
    (h : f.text ++ 32 :: x :: a = g.text ++ 32 :: y :: b) : f = g ∧ x :: a = y :: b := by
  have nz : ∀ {a : Byte}, 32 ≤ a ∧ a ≠ 127 → a ≠ 0 := by
    intro a ha h0
    rw [h0] at ha
    exact absurd ha.1 (by decide)
  cases f with
  | three a1 b1 c1 =>
    have e : (FrameName.three a1 b1 c1).text = [a1, b1, c1] := if_neg fun h => nz hf.1 h.1
    cases g with
    | three a2 b2 c2 =>
      have e' : (FrameName.three a2 b2 c2).text = [a2, b2, c2] := if_neg fun h => nz hg.1 h.1
      rw [e, e'] at h
      simp only [List.cons_append, List.nil_append, List.cons.injEq, true_and] at h
      obtain ⟨r1, r2, r3, r4, r5⟩ := h
      exact ⟨by rw [r1, r2, r3], by rw [r4, r5]⟩
    | four a2 b2 c2 d2 =>
      rw [e] at h
      simp only [FrameName.text, List.cons_append, List.nil_append, List.cons.injEq] at h
      exact absurd h.2.2.2.2.1 hx
  | four a1 b1 c1 d1 =>
    cases g with
    | three a2 b2 c2 =>
      have e' : (FrameName.three a2 b2 c2).text = [a2, b2, c2] := if_neg fun h => nz hg.1 h.1
      rw [e'] at h
      simp only [FrameName.text, List.cons_append, List.nil_append, List.cons.injEq] at h
      exact absurd h.2.2.2.2.1.symm hy
    | four a2 b2 c2 d2 =>
      simp only [FrameName.text, List.cons_append, List.nil_append, List.cons.injEq, true_and] at h
      obtain ⟨r1, r2, r3, r4, r5, r6⟩ := h
      exact ⟨by rw [r1, r2, r3, r4], by rw [r5, r6]⟩

theorem text_inj' {f g : FrameName} (hf : PlainName f) (hg : PlainName g) (h : f.text = g.text) : f = g :=
  (text_inj hf hg (x := 33) (y := 33) (a := []) (b := []) (by decide) (by decide) (by rw [h])).1

theorem full_inj {e e' : Err} {m : Bytes} (hp : Plain e) (hp' : Plain e') (h : full e = .ok m) (h' : full e' = .ok m) :
    e' = e ∨ ∃ o o', e = .duplicateOption o ∧ e' = .duplicateOption o' ∧ optText o = optText o' := by
  have hc : cls e = cls e' := by
    have h1 := classOf_full h
    rw [classOf_full h'] at h1
    injection h1 with h1
    exact h1.symm
  have app : ∀ {a b c : Bytes}, a ++ b = a ++ c → b = c := fun h => List.append_cancel_left h
  have appr : ∀ {a b c : Bytes}, a ++ c = b ++ c → a = b := fun h => List.append_cancel_right h
  cases e <;> cases e' <;> first | (simp [cls] at hc; done) | skip
  case duplicateFrame.duplicateFrame f n f' n' =>
    cases h
    injection h' with h'
    have h' := app h'
    simp only [List.cons_append, List.nil_append] at h'
    obtain ⟨r, h'⟩ := text_inj hp' hp (by decide) (by decide) h'
    simp only [List.cons.injEq, true_and] at h'
    have := Proofs.Display.dec_inj (appr h')
    left
    rw [r, this]
  case unknownFrame.unknownFrame f f' =>
    cases h
    injection h' with h'
    left
    rw [text_inj' hp' hp (app h')]
  case reservedFrame.reservedFrame f f' =>
    cases h
    injection h' with h'
    left
    rw [text_inj' hp' hp (appr (app h'))]
  case invalidTag.invalidTag => exact .inl rfl
  case noTag.noTag => exact .inl rfl
  case unknownVersion.unknownVersion v v' =>
    cases h
    injection h' with h'
    left
    rw [byte_dec (app h')]
  case unknownTextFrame.unknownTextFrame x x' =>
    obtain ⟨s, hs, -⟩ := frame_printed x
    obtain ⟨s', hs', -⟩ := frame_printed x'
    simp only [full, hs, Res.ok_bind] at h
    simp only [full, hs', Res.ok_bind] at h'
    cases h
    injection h' with h'
    rw [appr (app h')] at hs'
    left
    rw [frame_inj hs' hs]
  case badUnicode.badUnicode b b' =>
    cases h
    injection h' with h'
    have := app h'
    left
    injection this with this
    rw [this]
  case iconv.iconv a a' =>
    cases h
    injection h' with h'
    left
    rw [app h']
  case badCodeUnit.badCodeUnit e cb e' cb' =>
    obtain ⟨s, hs, -⟩ := encoding_printed e
    obtain ⟨s', hs', -⟩ := encoding_printed e'
    simp only [full, hs, Res.ok_bind] at h
    simp only [full, hs', Res.ok_bind] at h'
    cases h
    injection h' with h'
    obtain ⟨r1, r2⟩ := Proofs.Display.upto (Proofs.Display.dec_no32 _) (Proofs.Display.dec_no32 _) h'
    have r2 := app r2
    rw [r2] at hs'
    left
    rw [encoding_inj hs' hs, Proofs.Display.dec_inj r1]
  case badSeparator.badSeparator c c' =>
    cases h
    injection h' with h'
    left
    rw [signed_inj (appr h')]
  case invalidExtHeader.invalidExtHeader => exact .inl rfl
  case invalidV1Tag.invalidV1Tag => exact .inl rfl
  case tagset.tagset c c' =>
    cases h
    injection h' with h'
    left
    revert h'
    cases c <;> cases c' <;> decide +kernel
  case mp3.mp3 c c' =>
    cases h
    injection h' with h'
    left
    revert h'
    cases c <;> cases c' <;> decide +kernel
  case fileOpen.fileOpen n e n' e' =>
    cases h
    injection h' with h'
    have h' := app h'
    obtain ⟨r1, r2⟩ := Proofs.Display.downto (c := 39) (a := 58 :: 32 :: e') (b := 58 :: 32 :: e)
      (by intro k; simp only [List.mem_cons] at k; rcases k with k | k | k; · cases k
          · cases k
          · exact hp'.2.2 k)
      (by intro k; simp only [List.mem_cons] at k; rcases k with k | k | k; · cases k
          · cases k
          · exact hp.2.2 k) h'
    simp only [List.cons.injEq, true_and] at r1
    left
    rw [r1, r2]
  case fileNotFound.fileNotFound p p' =>
    cases h
    injection h' with h'
    have h' := appr (app h')
    have h' : escape p' ++ 34 :: [] = escape p ++ 34 :: [] := by
      unfold quoted at h'
      injection h'
    left
    rw [(escape_inj h').1]
  case badGenre.badGenre g g' =>
    cases h
    injection h' with h'
    left
    rw [byte_dec (app h')]
  case badOperation.badOperation op op' =>
    cases h
    injection h' with h'
    have h' := appr (app h')
    left
    revert h'
    cases op <;> cases op' <;> decide +kernel
  case badV2Version.badV2Version v v' =>
    cases h
    injection h' with h'
    left
    rw [byte_dec (app h')]
  case missingSource.missingSource s t s' t' =>
    cases h
    injection h' with h'
    have h' := app h'
    have no : ∀ s, (41 : Byte) ∉ prefText s := by intro s; cases s <;> decide +kernel
    obtain ⟨r1, r2⟩ := Proofs.Display.upto (no _) (no _) h'
    have e1 : s' = s := by
      revert r1
      cases s <;> cases s' <;> decide +kernel
    have e2 : t' = t := by
      cases t with
      | none => cases t' with
        | none => rfl
        | some u' => simp at r2
      | some u => cases t' with
        | none => simp at r2
        | some u' =>
          have r2 : /-  while evaluating tag ' -/ [32, 119, 104, 105, 108, 101, 32, 101, 118, 97, 108, 117, 97, 116, 105, 110, 103, 32, 116, 97, 103, 32, 39] ++ (u' ++ /- ' -/ [39]) = /-  while evaluating tag ' -/ [32, 119, 104, 105, 108, 101, 32, 101, 118, 97, 108, 117, 97, 116, 105, 110, 103, 32, 116, 97, 103, 32, 39] ++ (u ++ /- ' -/ [39]) := r2
          rw [appr (app r2)]
    left
    rw [e1, e2]
  case duplicateOption.duplicateOption o o' =>
    cases h
    injection h' with h'
    exact .inr ⟨o, o', rfl, rfl, (app h').symm⟩

end Scribbu.Errors
