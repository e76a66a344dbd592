import Verif.Proofs.Unicode
import Verif.Model.TextSet
import Verif.Props.Charset

/-! # Conversions by a faithful library -/

namespace Scribbu.Unicode

open Scribbu Spec.Unicode Charset

/-- Encodings in which texts are strings without null characters. -/
def Narrow (e : Encoding) : Prop := e = .UTF_8 ∨ e = .ISO_8859_1 ∨ e = .ISO_8859_8

theorem Narrow.mem {e : Encoding} (h : Narrow e) : e ∈ known := by rcases h with rfl | rfl | rfl <;> simp [known]
theorem Narrow.isChar {e : Encoding} (h : Narrow e) : e.isChar = true := by rcases h with rfl | rfl | rfl <;> decide +kernel
theorem Narrow.mark {e : Encoding} (h : Narrow e) : mark e = [] := by rcases h with rfl | rfl | rfl <;> rfl

theorem encode_plain {e : Encoding} (h : mark e = []) (cs : Chars) : encode e cs = each (char e) cs := by
  unfold encode
  rw [h]
  cases each (char e) cs <;> rfl

theorem reads_of {e : Encoding} {b : Bytes} {cs : Chars} (h : encode e cs = some b) : Reads e b cs := by
  by_cases he : e = .UTF_16
  · subst he
    left
    unfold encode at h
    cases hx : each (char .UTF_16) cs with
    | none => rw [hx] at h; cases h
    | some x => rw [hx] at h; cases h; exact ⟨x, hx, rfl⟩
  · cases e <;> first | exact h | exact absurd rfl he

/-- A character that is not null has no null byte in these encodings. -/
theorem char_nonzero {e : Encoding} (he : Narrow e) {c : Nat} {a : Bytes} (h : char e c = some a) (hc : c ≠ 0) : (0 : Byte) ∉ a := by
  have key : ∀ n, 0 < n → n < 256 → (0 : Byte) ≠ UInt8.ofNat n := by
    intro n h0 h1 he
    exact ofNat_ne h1 (b := 0) (by show n ≠ 0; omega) he.symm
  rcases he with rfl | rfl | rfl
  · change utf8 c = some a at h
    unfold utf8 at h
    split at h
    · cases h
    split at h
    · cases h
      simp only [List.mem_singleton]
      exact key _ (by omega) (by omega)
    split at h
    · cases h
      simp only [List.mem_cons, List.not_mem_nil, or_false, not_or]
      exact ⟨key _ (by omega) (by omega), key _ (by omega) (by omega)⟩
    split at h
    · cases h
      simp only [List.mem_cons, List.not_mem_nil, or_false, not_or]
      exact ⟨key _ (by omega) (by omega), key _ (by omega) (by omega), key _ (by omega) (by omega)⟩
    split at h
    · cases h
      simp only [List.mem_cons, List.not_mem_nil, or_false, not_or]
      exact ⟨key _ (by omega) (by omega), key _ (by omega) (by omega), key _ (by omega) (by omega), key _ (by omega) (by omega)⟩
    · cases h
  · change latin1 c = some a at h
    unfold latin1 at h
    split at h
    · cases h
      simp only [List.mem_singleton]
      exact key _ (by omega) (by omega)
    · cases h
  · change hebrew c = some a at h
    unfold hebrew at h
    split at h
    · cases h
      simp only [List.mem_singleton]
      exact key _ (by omega) (by omega)
    split at h
    · cases h
      simp only [List.mem_singleton]
      exact key _ (by omega) (by omega)
    split at h
    · cases h; decide
    split at h
    · cases h; decide
    split at h
    · cases h; decide
    split at h
    · cases h
      simp only [List.mem_singleton]
      exact key _ (by omega) (by omega)
    split at h
    · cases h; decide
    split at h
    · cases h; decide
    · cases h

theorem each_nonzero {e : Encoding} (he : Narrow e) : ∀ {cs : Chars} {b : Bytes}, each (char e) cs = some b → 0 ∉ cs → (0 : Byte) ∉ b
  | [], b, h, _ => by cases h; simp
  | c :: cs, b, h, hc => by
    obtain ⟨x, y, hx, hy, rfl⟩ := each_cons h
    rw [List.mem_cons, not_or] at hc
    rw [List.mem_append, not_or]
    exact ⟨char_nonzero he hx (fun e => hc.1 e.symm), each_nonzero he hy hc.2⟩

/-- A character in UTF-16 takes no more than twice the space. -/
theorem utf16_le {e : Encoding} (he : Narrow e) {c : Nat} {a b : Bytes} (ha : char e c = some a) (hb : utf16 false c = some b) :
    b.length ≤ 2 * a.length := by
  have h1 := (char_length ha).1
  have hu : ∀ n, (unit false n).length = 2 := fun _ => rfl
  unfold utf16 at hb
  split at hb
  · cases hb
  split at hb
  · cases hb; rw [hu]; omega
  split at hb
  · cases hb
    rw [List.length_append, hu, hu]
    rcases he with rfl | rfl | rfl
    · change utf8 c = some a at ha
      unfold utf8 at ha
      rw [if_neg (by assumption), if_neg (by omega), if_neg (by omega), if_neg (by omega), if_pos (by omega)] at ha
      cases ha; simp
    · change latin1 c = some a at ha
      unfold latin1 at ha
      rw [if_neg (by omega)] at ha
      cases ha
    · change hebrew c = some a at ha
      unfold hebrew at ha
      rw [if_neg (by omega), if_neg (by omega), if_neg (by omega), if_neg (by omega), if_neg (by omega), if_neg (by omega),
        if_neg (by omega), if_neg (by omega)] at ha
      cases ha
  · cases hb

theorem each_fits {src dst : Encoding} {cs : Chars} {a b : Bytes} (ha : each (char src) cs = some a) (hb : each (char dst) cs = some b) :
    b.length ≤ 4 * a.length :=
  each_le (fun c x y hx hy => by have := (char_length hx).1; have := (char_length hy).2; omega) ha hb

theorem encode_fits {src dst : Encoding} (hs : Narrow src) {cs : Chars} {a b : Bytes} (hne : cs ≠ []) (ha : encode src cs = some a)
    (hb : encode dst cs = some b) : b.length ≤ 4 * a.length := by
  rw [encode_plain hs.mark] at ha
  by_cases hd : dst = .UTF_16
  · subst hd
    unfold encode at hb
    cases hx : each (char .UTF_16) cs with
    | none => rw [hx] at hb; cases hb
    | some x =>
      rw [hx] at hb
      cases hb
      have h1 : x.length ≤ 2 * a.length := each_le (fun c x y hx hy => utf16_le hs hx hy) ha hx
      have h2 := each_length (fun c a h => (char_length h).1) ha
      have h3 : 0 < cs.length := List.length_pos_iff.2 hne
      simp only [mark, List.length_append, List.length_cons, List.length_nil]
      omega
  · have hm : mark dst = [] := by cases dst <;> first | rfl | exact absurd rfl hd
    rw [encode_plain hm] at hb
    exact each_fits ha hb

/-- Texts to bytes. -/
theorem toBytes_faithful {lib : IconvLib} (hl : Faithful lib) (mem : Nat) {src dst : Encoding} (hs : Narrow src) (hd : dst ∈ known)
    (bom : Bool) {cs : Chars} {text : Bytes} (ht : encode src cs = some text) (h0 : 0 ∉ cs) :
    toBytes lib mem src dst bom .fail text =
      if cs = [] then .ok []
      else match encode dst cs with
        | some out => .ok ((if bom then bomFor dst else []) ++ out)
        | none => .throw .runtimeError := by
  have ht' := ht
  rw [encode_plain hs.mark] at ht'
  by_cases hc : cs = []
  · subst hc
    cases ht'
    rw [if_pos rfl]
    unfold toBytes
    rw [if_neg (by simp [hs.isChar])]
    rfl
  · rw [if_neg hc]
    obtain ⟨d, f, ho, hf, hr⟩ := hl src hs.mem dst hd
    have hz := each_nonzero hs ht' h0
    have hne : text ≠ [] := by
      have h2 := each_length (fun c a h => (char_length h).1) ht'
      have h3 : 0 < cs.length := List.length_pos_iff.2 hc
      intro h; rw [h, List.length_nil] at h2; omega
    have hft := hr text cs (reads_of ht)
    have := Props.C75_partial lib mem src dst .fail bom text [] d f hs.isChar ho hf hne hz (.inl rfl)
      (fun out hout => by rw [hft] at hout; exact encode_fits hs hc ht hout)
    rw [List.append_nil] at this
    rw [this, hft]
    cases encode dst cs <;> rfl

/-- Bytes to texts. -/
theorem toText_faithful {lib : IconvLib} (hl : Faithful lib) {mem : Nat} (hm : 0 < mem) {src : Encoding} (hs : src ∈ known)
    {cs : Chars} {b out : Bytes} (hb : b ≠ []) (hr : Reads src b cs) (ho : encode .UTF_8 cs = some out)
    (hfit : out.length ≤ 4 * b.length) :
    toText lib mem src .UTF_8 .fail b = .ok (Tbt.stripTrailing (Tbt.stripBom out)) := by
  obtain ⟨d, f, hd, hf, hc⟩ := hl src hs .UTF_8 (by simp [known])
  have hfb := hc b cs hr
  rw [ho] at hfb
  unfold toText
  rw [if_neg (by decide +kernel), if_neg (by simpa using hb), hd]
  simp only [Res.bind]
  cases mem with
  | zero => omega
  | succ mem =>
    have h1 := hf d.init b (b.length * 4)
    rw [hfb] at h1
    simp only at h1
    rw [if_pos (by omega)] at h1
    simp only [growString]
    generalize d.call d.init b (b.length * 4) = r at h1 ⊢
    obtain ⟨r1, r2⟩ := r
    simp only at h1
    subst h1
    simp only
    rw [if_pos (by omega)]

/-! ## What conversion to text strips -/

theorem stripTrailing_last (b : Bytes) (x : Byte) (h0 : x ≠ 0) (h1 : x ≠ 32) : Tbt.stripTrailing (b ++ [x]) = b ++ [x] := by
  unfold Tbt.stripTrailing
  rw [List.reverse_append]
  simp [h0, h1]

theorem stripTrailing_nil : Tbt.stripTrailing [] = [] := rfl

/-- The first byte of a character in UTF-8 decides that there is no byte order mark, unless the character is one. -/
theorem stripBom_utf8 {c : Nat} {a : Bytes} (h : utf8 c = some a) (h0 : c ≠ 0) (h1 : c ≠ 0xfeff) (r : Bytes) :
    Tbt.stripBom (a ++ r) = a ++ r := by
  have key : ∀ (x : Byte) (l : Bytes), x ≠ 0 → x ≠ 0xfe → x ≠ 0xff → x ≠ 0xef → Tbt.stripBom (x :: l) = x :: l := by
    intro x l k1 k2 k3 k4
    unfold Tbt.stripBom
    split <;> simp_all
  unfold utf8 at h
  split at h
  · cases h
  split at h
  · cases h
    exact key _ _ (ofNat_ne (by omega) (by show c ≠ 0; omega)) (ofNat_ne (by omega) (by show c ≠ 254; omega))
      (ofNat_ne (by omega) (by show c ≠ 255; omega)) (ofNat_ne (by omega) (by show c ≠ 239; omega))
  split at h
  · cases h
    exact key _ _ (ofNat_ne (by omega) (by show _ ≠ 0; omega)) (ofNat_ne (by omega) (by show _ ≠ 254; omega))
      (ofNat_ne (by omega) (by show _ ≠ 255; omega)) (ofNat_ne (by omega) (by show _ ≠ 239; omega))
  split at h
  · cases h
    by_cases hx : c / 4096 = 15
    · have h2 : ¬ (c / 64 % 64 = 0x3b ∧ c % 64 = 0x3f) := by omega
      have e1 : UInt8.ofNat (0xe0 + c / 4096) = 0xef := by rw [hx]; rfl
      simp only [List.cons_append, List.nil_append]
      rw [e1]
      unfold Tbt.stripBom
      split <;> rename_i heq
      · cases heq
      · cases heq
      · exfalso
        injection heq with _ heq
        injection heq with k1 heq
        injection heq with k2 _
        apply h2
        have k1' := congrArg UInt8.toNat k1
        have k2' := congrArg UInt8.toNat k2
        rw [toNat_ofNat _ (by omega)] at k1' k2'
        change _ = 0xbb at k1'
        change _ = 0xbf at k2'
        omega
      · cases heq
      · cases heq
      · rfl
    · exact key _ _ (ofNat_ne (by omega) (by show _ ≠ 0; omega)) (ofNat_ne (by omega) (by show _ ≠ 254; omega))
        (ofNat_ne (by omega) (by show _ ≠ 255; omega)) (ofNat_ne (by omega) (by show _ ≠ 239; omega))
  split at h
  · cases h
    exact key _ _ (ofNat_ne (by omega) (by show _ ≠ 0; omega)) (ofNat_ne (by omega) (by show _ ≠ 254; omega))
      (ofNat_ne (by omega) (by show _ ≠ 255; omega)) (ofNat_ne (by omega) (by show _ ≠ 239; omega))
  · cases h

theorem each_append {f : Nat → Option Bytes} : ∀ {cs ds : Chars} {a b : Bytes}, each f cs = some a → each f ds = some b →
    each f (cs ++ ds) = some (a ++ b)
  | [], ds, a, b, ha, hb => by cases ha; exact hb
  | c :: cs, ds, a, b, ha, hb => by
    obtain ⟨x, y, hx, hy, rfl⟩ := each_cons ha
    rw [List.cons_append, each_cons_of hx (each_append hy hb), List.append_assoc]

theorem each_split {f : Nat → Option Bytes} : ∀ {cs ds : Chars} {b : Bytes}, each f (cs ++ ds) = some b →
    ∃ x y, each f cs = some x ∧ each f ds = some y ∧ b = x ++ y
  | [], ds, b, h => ⟨[], b, rfl, h, rfl⟩
  | c :: cs, ds, b, h => by
    obtain ⟨x, y, hx, hy, rfl⟩ := each_cons h
    obtain ⟨u, v, hu, hv, rfl⟩ := each_split hy
    exact ⟨x ++ u, v, each_cons_of hx hu, hv, by rw [List.append_assoc]⟩

/-- The last byte of a character in UTF-8 is neither null nor a space, unless the character is. -/
theorem utf8_last {c : Nat} {a : Bytes} (h : utf8 c = some a) (h0 : c ≠ 0) (h1 : c ≠ 32) :
    ∃ i x, a = i ++ [x] ∧ x ≠ 0 ∧ x ≠ 32 := by
  unfold utf8 at h
  split at h
  · cases h
  split at h
  · cases h
    exact ⟨[], _, rfl, ofNat_ne (by omega) (by show _ ≠ 0; omega), ofNat_ne (by omega) (by show _ ≠ 32; omega)⟩
  split at h
  · cases h
    exact ⟨[_], _, rfl, ofNat_ne (by omega) (by show _ ≠ 0; omega), ofNat_ne (by omega) (by show _ ≠ 32; omega)⟩
  split at h
  · cases h
    exact ⟨[_, _], _, rfl, ofNat_ne (by omega) (by show _ ≠ 0; omega), ofNat_ne (by omega) (by show _ ≠ 32; omega)⟩
  split at h
  · cases h
    exact ⟨[_, _, _], _, rfl, ofNat_ne (by omega) (by show _ ≠ 0; omega), ofNat_ne (by omega) (by show _ ≠ 32; omega)⟩
  · cases h

/-- Conversion to text leaves a text as it is that does not start with a byte order mark or end in a space. -/
theorem strip_utf8 {cs : Chars} {out : Bytes} (ho : each utf8 cs = some out) (h0 : 0 ∉ cs) (hf : cs.head? ≠ some 0xfeff)
    (hl : cs.getLast? ≠ some 32) : Tbt.stripTrailing (Tbt.stripBom out) = out := by
  have hb : Tbt.stripBom out = out := by
    cases cs with
    | nil => cases ho; rfl
    | cons c cs =>
      obtain ⟨x, y, hx, hy, rfl⟩ := each_cons ho
      exact stripBom_utf8 hx (by rintro rfl; simp at h0) (by rintro rfl; simp at hf) y
  rw [hb]
  cases hcs : cs.reverse with
  | nil =>
    have : cs = [] := by simpa using hcs
    subst this; cases ho; rfl
  | cons c r =>
    have e : cs = r.reverse ++ [c] := by have := congrArg List.reverse hcs; simpa using this
    subst e
    obtain ⟨x, y, hx, hy, rfl⟩ := each_split ho
    obtain ⟨u, v, hu, hv, rfl⟩ := each_cons hy
    cases hv
    obtain ⟨i, z, rfl, z0, z1⟩ := utf8_last hu (by rintro rfl; simp at h0) (by rintro rfl; simp at hl)
    rw [List.append_nil, ← List.append_assoc]
    exact stripTrailing_last _ z z0 z1

/-- ... and takes away the byte order mark of one that does. -/
theorem strip_mark {cs : Chars} {out : Bytes} (ho : each utf8 cs = some out) (h0 : 0 ∉ cs) (hf : cs.head? ≠ some 0xfeff)
    (hl : cs.getLast? ≠ some 32) : Tbt.stripTrailing (Tbt.stripBom ([0xef, 0xbb, 0xbf] ++ out)) = out := by
  have hb : Tbt.stripBom ([0xef, 0xbb, 0xbf] ++ out) = out := rfl
  have hb' : Tbt.stripBom out = out := by
    cases cs with
    | nil => cases ho; rfl
    | cons c cs =>
      obtain ⟨x, y, hx, hy, rfl⟩ := each_cons ho
      exact stripBom_utf8 hx (by rintro rfl; simp at h0) (by rintro rfl; simp at hf) y
  rw [hb]
  have := strip_utf8 ho h0 hf hl
  rwa [hb'] at this

end Scribbu.Unicode
