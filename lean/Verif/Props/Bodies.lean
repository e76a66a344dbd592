import Verif.Proofs.Bodies
import Verif.Proofs.Unsync
import Verif.Props.TagCloud

/-! Properties C20, C21, C22, C48, C49 and C50: frame bodies. -/

namespace Scribbu.Props
open Scribbu Scribbu.Spec

/-! ### C20: counters -/

/-- C20 in full, for every count a caller can pass (`std::size_t`). -/
def C20_set_claim : Prop := ∀ n : Nat, n < 2 ^ 64 → counterCount (resetCounter n) = .ok n

/-- **Finding**: a count of 2³² can be stored (in five bytes), but not read back. -/
theorem C20_set_refuted : ¬ C20_set_claim := by
  intro h
  have := h (2 ^ 32) (by decide)
  revert this
  decide +kernel

/-- **C20** Every count below 2³² is read back as it was set. (Missing: larger ones, for
which reading throws; see `C20_large`.) -/
theorem C20_set_partial (n : Nat) (h : n < 2 ^ 32) : counterCount (resetCounter n) = .ok n := by
  have hl := resetCounter_length_le (n := n) (k := 4) (by decide) (by simpa using h)
  have h0 := resetCounter_pos n
  rw [counterCount_ok (by intro hh; rw [hh] at h0; simp at h0) hl, resetCounter_val]

example : counterCount (resetCounter 0x1020304) = .ok 0x1020304 ∧ resetCounter 0x1020304 = [1, 2, 3, 4] := by
  decide +kernel

/-- **C20** Reading any larger count throws `std::domain_error`; it never gives a wrong number. -/
theorem C20_large (n : Nat) (h : 2 ^ 32 ≤ n) : counterCount (resetCounter n) = .throw .domainError := by
  exact counterCount_big (resetCounter_length_ge (n := n) (k := 4) (by simpa using h))

/-- **C20** The stored bytes are the count, most significant byte first, without loss, for every count
whatsoever; and without superfluous leading zeros. -/
theorem C20_bytes (n : Nat) : beNat (resetCounter n) = n ∧ (resetCounter n).length ≠ 0 ∧
    ∀ k, 0 < k → (n < 256 ^ k ↔ (resetCounter n).length ≤ k) := by
  refine ⟨resetCounter_val n, by have := resetCounter_pos n; omega, fun k hk => ⟨resetCounter_length_le hk, ?_⟩⟩
  intro h
  apply Nat.lt_of_not_le
  intro h'
  have := resetCounter_length_ge h'
  omega

/-- **C20** Any stored counter of one to four bytes, however it came about, reads as the number
its bytes spell. -/
theorem C20_read (c : Bytes) (h0 : c ≠ []) (h : c.length ≤ 4) : counterCount c = .ok (beNat c) :=
  counterCount_ok h0 h

example : counterCount [0, 0xff, 0x80, 1] = .ok 0xff8001 := by decide

/-- **Finding**: an empty counter, as parsed from an empty frame, is read as an
uninitialised variable. -/
theorem C20_empty_refuted : ¬ ∀ c : Bytes, ∀ u, counterCount c ≠ .ub u := fun h => h [] _ rfl

/-- `k` increments, each of which succeeded. -/
inductive Incs : Nat → Bytes → Bytes → Prop
  | zero (c) : Incs 0 c c
  | succ {k c c' c''} : counterInc c = .ok c' → Incs k c' c'' → Incs (k + 1) c c''

/-- **C20** Any number of increments, starting from a count that can be read, succeed and add up,
while the total stays below 2³². (Missing: the increment that reaches 2³², after which
the counter is unreadable, `C20_large`.) -/
theorem C20_increments_partial (k : Nat) : ∀ (c : Bytes) (n : Nat), counterCount c = .ok n → n + k < 2 ^ 32 →
    ∃ c', Incs k c c' ∧ counterCount c' = .ok (n + k) := by
  induction k with
  | zero => intro c n h _; exact ⟨c, .zero c, h⟩
  | succ k ih =>
    intro c n h hk
    obtain ⟨c', h1, h2⟩ := ih (resetCounter (n + 1)) (n + 1) (C20_set_partial _ (by omega)) (by omega)
    refine ⟨c', .succ (by rw [counterInc, h]; rfl) h1, ?_⟩
    rw [h2]; congr 1; omega

/-- Two increments from 255 cross a byte boundary. -/
example : counterCount [0xff] = .ok 255 ∧
    (counterInc [0xff] = .ok [1, 0]) ∧ counterInc [1, 0] = .ok [1, 1] := by decide +kernel

/-- **C20** Whatever the increments did, the results are unique: no other outcome is possible. -/
theorem C20_increments_det (k : Nat) : ∀ (c c' c'' : Bytes), Incs k c c' → Incs k c c'' → c' = c'' := by
  induction k with
  | zero => intro c c' c'' h1 h2; cases h1; cases h2; rfl
  | succ k ih =>
    intro c c' c'' h1 h2
    cases h1 with
    | succ a b =>
      cases h2 with
      | succ a' b' =>
        rw [a] at a'; cases a'
        exact ih _ _ _ b b'

/-! ### C21: popularimeter and play counter frames -/

/-- **C21** A popularimeter with any owner without NUL, any rating and any counter bytes is read
back from what is written, which is as long as `size()` says. -/
theorem C21_popm (p : Popm) (h : (0 : Byte) ∉ p.email) :
    Popm.parse p.write = .ok p ∧ p.write.length = p.size := by
  constructor
  · unfold Popm.parse Popm.write
    rw [show p.email ++ [0] ++ [p.rating] ++ p.counter = p.email ++ 0 :: (p.rating :: p.counter) by simp]
    rw [takeWhile_nul h]
    simp
  · simp [Popm.write, Popm.size]; omega

/-- **C21** In terms of the interface: owner, rating and count survive. -/
theorem C21_popm_api_partial (own : Bytes) (r : Byte) (n : Nat) (h : (0 : Byte) ∉ own) (hn : n < 2 ^ 32) :
    ∃ p, Popm.parse (Popm.make own r n).write = .ok p ∧ p.email = own ∧ p.rating = r ∧ p.count = .ok n := by
  exact ⟨_, (C21_popm (Popm.make own r n) h).1, rfl, rfl, C20_set_partial n hn⟩

example : Popm.parse (Popm.make [0x61, 0x40, 0x62] 0xff 0xe5e5).write =
    .ok ⟨[0x61, 0x40, 0x62], 0xff, [0xe5, 0xe5]⟩ := by decide +kernel

/-- **C21** Every popularimeter that parses is written as the bytes it was parsed from. -/
theorem C21_popm_lossless (b : Bytes) (p : Popm) (h : Popm.parse b = .ok p) : p.write = b ∧ (0 : Byte) ∉ p.email := by
  unfold Popm.parse at h
  simp only at h
  split at h
  · rename_i z r c heq
    cases h
    have hz : z = 0 := by
      rw [drop_takeWhile] at heq
      have := List.head?_dropWhile_not (p := fun x : Byte => decide (x ≠ 0)) (l := b)
      rw [heq] at this
      simpa using this
    constructor
    · have := List.take_append_drop (b.takeWhile (· ≠ 0)).length b
      rw [heq, hz] at this
      rw [show b.take (b.takeWhile (· ≠ 0)).length = b.takeWhile (· ≠ 0) from
        (List.prefix_iff_eq_take.1 (List.takeWhile_prefix _)).symm] at this
      simp only [Popm.write]
      simpa using this
    · intro hm
      have := List.all_takeWhile (p := fun x : Byte => decide (x ≠ 0)) (l := b)
      rw [List.all_eq_true] at this
      have := this 0 hm
      simp at this
  · cases h

/-- C21, safety, in full: parsing any bytes stays inside them. -/
def C21_safe_claim : Prop := ∀ b : Bytes, (Popm.parse b).safe

/-- **Finding**: without a NUL, or with nothing after it, the rating is read from beyond
the frame. -/
theorem C21_safe_refuted : ¬ C21_safe_claim := fun h => h [0x61]

/-- **C21** Parsing is safe precisely for the bodies that contain a NUL followed by at least one byte.
(Missing: all others.) -/
theorem C21_safe_partial (b : Bytes) :
    (Popm.parse b).safe ↔ ∃ e r c, b = e ++ 0 :: r :: c ∧ (0 : Byte) ∉ e := by
  constructor
  · intro h
    cases hp : Popm.parse b with
    | ok p =>
      have := C21_popm_lossless b p hp
      exact ⟨p.email, p.rating, p.counter, by rw [← this.1]; simp [Popm.write], this.2⟩
    | throw e => unfold Popm.parse at hp; simp only at hp; split at hp <;> cases hp
    | ub u => rw [hp] at h; exact absurd h (by simp)
  · rintro ⟨e, r, c, rfl, he⟩
    have := (C21_popm ⟨e, r, c⟩ he).1
    simp only [Popm.write] at this
    rw [show e ++ 0 :: r :: c = e ++ [0] ++ [r] ++ c by simp, this]
    simp

/-! ### C22: other frame bodies -/

/-- **C22** Unique file identifiers: whatever was parsed, writing it and parsing that
gives the same owner and identifier; the written bytes are as many as `size()` says;
and they are the original bytes if those contain a terminator at all; if they do not, everything
is the owner. -/
theorem C22_ufid (b : Bytes) :
    Ufid.parse (Ufid.parse b).write = Ufid.parse b ∧ (Ufid.parse b).write.length = (Ufid.parse b).size ∧
    ((0 : Byte) ∈ b → (Ufid.parse b).write = b) ∧ ((0 : Byte) ∉ b → Ufid.parse b = ⟨b, []⟩) := by
  have h0 : (0 : Byte) ∉ b.takeWhile (· ≠ 0) := by
    intro hm
    have := List.all_takeWhile (p := fun x : Byte => decide (x ≠ 0)) (l := b)
    rw [List.all_eq_true] at this
    have := this 0 hm
    simp at this
  refine ⟨?_, ?_, ?_, ?_⟩
  rotate_left 3
  · intro hm
    have : b.takeWhile (· ≠ 0) = b := by
      have hh := List.takeWhile_append_of_pos (p := fun x : Byte => decide (x ≠ 0)) (l₁ := b) (l₂ := []) (by
        intro x hx
        simp only [ne_eq, decide_eq_true_eq]
        intro h; exact hm (h ▸ hx))
      simpa using hh
    rw [Ufid.parse]
    simp only [this]
    simp
  · unfold Ufid.parse Ufid.write
    simp only
    generalize hid : (b.drop (b.takeWhile (· ≠ 0)).length).drop 1 = ident
    rw [show b.takeWhile (· ≠ 0) ++ [0] ++ ident = b.takeWhile (· ≠ 0) ++ 0 :: ident by simp,
      takeWhile_nul h0]
    simp
  · simp [Ufid.write, Ufid.size]; omega
  · intro hm
    unfold Ufid.parse Ufid.write
    simp only
    rw [drop_takeWhile]
    cases hd : b.dropWhile (· ≠ 0) with
    | nil =>
      exfalso
      have := List.takeWhile_append_dropWhile (p := fun x : Byte => decide (x ≠ 0)) (l := b)
      rw [hd, List.append_nil] at this
      rw [this] at h0
      exact h0 hm
    | cons z r =>
      have hz : z = 0 := by
        have := List.head?_dropWhile_not (p := fun x : Byte => decide (x ≠ 0)) (l := b)
        rw [hd] at this
        simpa using this
      have := List.takeWhile_append_dropWhile (p := fun x : Byte => decide (x ≠ 0)) (l := b)
      rw [hd, hz] at this
      simpa using this

example : (0 : Byte) ∈ [0x61, 0, 0x62, 0] ∧ Ufid.parse [0x61, 0, 0x62, 0] = ⟨[0x61], [0x62, 0]⟩ := by decide

/-- C22 for encryption methods, in full: the bytes written are as many as `size()` says and parse to
the same. -/
def C22_encr_claim : Prop :=
  ∀ b : Bytes, (Encr.parse b).method ≠ none → ∃ w, (Encr.parse b).write = .ok w ∧
    w.length = (Encr.parse b).size ∧ Encr.parse w = Encr.parse b

/-- **Finding**: the terminator of the owner is not written. -/
theorem C22_encr_refuted : ¬ C22_encr_claim := by
  intro h
  obtain ⟨w, h1, h2, -⟩ := h [0x61, 0, 0x62, 0x63] (by decide)
  have e : (Encr.parse [0x61, 0, 0x62, 0x63]).write = .ok [0x61, 0x62, 0x63] := by decide
  rw [e] at h1
  cases h1
  revert h2
  decide

/-- **C22** Parsing finds owner, method and data; the body written is always exactly one byte shorter
than `size()`, and is what was parsed without the terminator. (Missing: everything that relies
on the terminator.) -/
theorem C22_encr_partial (e : Bytes) (m : Byte) (d : Bytes) (h : (0 : Byte) ∉ e) :
    Encr.parse (e ++ 0 :: m :: d) = ⟨e, some m, d⟩ ∧
    ∃ w, (Encr.parse (e ++ 0 :: m :: d)).write = .ok w ∧
      w.length + 1 = (Encr.parse (e ++ 0 :: m :: d)).size ∧ w = e ++ m :: d := by
  have hp : Encr.parse (e ++ 0 :: m :: d) = ⟨e, some m, d⟩ := by
    unfold Encr.parse
    simp only
    rw [takeWhile_nul h]
    simp
  rw [hp]
  refine ⟨rfl, e ++ [m] ++ d, rfl, ?_, by simp⟩
  simp [Encr.size]; omega

example : (Encr.parse [0x61, 0, 0x62, 0x63]).method = some 0x62 := by decide

/-- **C22** User-defined text: a body whose terminator has the width its encoding byte calls for and
whose description does not contain a terminator is read back, wherever in memory it is parsed from. -/
theorem C22_txxx (ver : Ver) (t : Txxx) (post : Bytes) (hc : t.cbnil = cbnilOf ver t.unicode)
    (hd : NoNul t.cbnil t.desc) :
    Txxx.parse ver (t.write ++ post) t.write.length = .ok t ∧ t.write.length = t.size := by
  have h12 := cbnilOf_cases ver t.unicode
  rw [← hc] at h12
  have hw : t.write = [t.unicode] ++ t.desc ++ List.replicate t.cbnil 0 ++ t.text := by
    unfold Txxx.write
    rcases h12 with h | h <;> rw [h] <;> rfl
  have hlen : t.write.length = t.size := by
    rw [hw]; simp [Txxx.size]; omega
  refine ⟨?_, hlen⟩
  unfold Txxx.parse
  have h0 : rd (t.write ++ post) 0 = .ok t.unicode := by rw [hw]; rfl
  rw [h0]
  simp only [Res.ok_bind]
  have := parseDescText_rt t.cbnil [t.unicode] t.desc t.text post hd t.write.length (by
    rw [hlen, Txxx.size]; simp)
  rw [← hw, show ([t.unicode] : Bytes).length = 1 from rfl] at this
  rw [← hc, this]
  rfl

/-- **C22** Every user-defined text that parses without leaving its bytes is read back
from what is written for it. -/
theorem C22_txxx_parsed (ver : Ver) (b : Bytes) (t : Txxx) (hne : b ≠ [])
    (h : Txxx.parse ver b b.length = .ok t) :
    Txxx.parse ver t.write t.write.length = .ok t ∧ t.write.length = t.size := by
  unfold Txxx.parse at h
  obtain ⟨u, hu, h⟩ := Res.bind_eq_ok.1 h
  obtain ⟨⟨d, x⟩, hd, h⟩ := Res.bind_eq_ok.1 h
  cases h
  have hpos : 1 ≤ b.length := List.length_pos_iff.2 hne
  have := C22_txxx ver ⟨cbnilOf ver u, u, d, x⟩ [] rfl (parseDescText_sound (cbnilOf_cases _ _) hpos hd)
  rwa [List.append_nil] at this

/-- UCS-2: "ab" 0000 "c". -/
example : Txxx.parse .v3 [1, 0x61, 0, 0x62, 0, 0, 0, 0x63, 0] 9 =
    .ok ⟨2, 1, [0x61, 0, 0x62, 0], [0x63, 0]⟩ := by decide +kernel

/-- C22 for user-defined text made from scratch, in full. -/
def C22_txxx_make_claim : Prop :=
  ∀ (ver : Ver) (u : UseUnicode) (text dsc : Bytes), NoNul (Txxx.make ver u text dsc).cbnil dsc →
    Txxx.parse ver (Txxx.make ver u text dsc).write (Txxx.make ver u text dsc).write.length =
      .ok (Txxx.make ver u text dsc)

/-- **Finding**: ID3v2.4 frames in UTF-8 are marked with encoding 4, which does not exist, and
read as two-byte text. -/
theorem C22_txxx_make_refuted : ¬ C22_txxx_make_claim := by
  intro h
  have := h .v4 .yes [0x63] [0x61, 0x62] (.inl ⟨rfl, by decide⟩)
  revert this
  decide +kernel

/-- **C22** User-defined text made from scratch round-trips except for UTF-8 in ID3v2.4 (missing,
refuted above). -/
theorem C22_txxx_make_partial (ver : Ver) (u : UseUnicode) (text dsc : Bytes)
    (hv : ver = .v4 → u = .no) (hd : NoNul (Txxx.make ver u text dsc).cbnil dsc) :
    ∃ t, Txxx.parse ver (Txxx.make ver u text dsc).write (Txxx.make ver u text dsc).write.length = .ok t ∧
      t = Txxx.make ver u text dsc ∧ t.unicode = (if u = .no then 0 else 1) ∧ t.desc = dsc ∧ t.text = text := by
  have hc : (Txxx.make ver u text dsc).cbnil = cbnilOf ver (Txxx.make ver u text dsc).unicode := by
    cases ver <;> cases u <;> first | rfl | (have := hv rfl; cases this)
  have hdd : (Txxx.make ver u text dsc).desc = dsc := by cases ver <;> cases u <;> rfl
  have := (C22_txxx ver (Txxx.make ver u text dsc) [] hc (by rw [hdd]; exact hd)).1
  rw [List.append_nil] at this
  refine ⟨_, this, rfl, ?_, hdd, ?_⟩
  · cases ver <;> cases u <;> first | rfl | (have := hv rfl; cases this)
  · cases ver <;> cases u <;> rfl

/-- **C22** Comments: as for user-defined text. -/
theorem C22_comm (ver : Ver) (c : Comm) (u : Byte) (l : Byte × Byte × Byte) (post : Bytes)
    (hu : c.unicode = some u) (hl : c.lang = some l) (hv : c.ver = some ver)
    (he : c.dstEnc = Comm.encOf ver u) (hne : Comm.encOf ver u ≠ none)
    (hc : c.cbnil = cbnilOf ver u) (hd : NoNul c.cbnil c.desc) :
    ∃ w, c.write = .ok w ∧ Comm.parse ver (w ++ post) w.length = .ok c ∧ w.length = c.size := by
  obtain ⟨l0, l1, l2⟩ := l
  have h12 := cbnilOf_cases ver u
  rw [← hc] at h12
  generalize hwd : [u] ++ [l0, l1, l2] ++ c.desc ++ List.replicate c.cbnil 0 ++ c.text = w
  have hw : c.write = .ok w := by rw [Comm.write, hu, hl, ← hwd]
  have hlen : w.length = c.size := by rw [← hwd]; simp [Comm.size]; omega
  refine ⟨w, hw, ?_, hlen⟩
  have h5 : 5 ≤ w.length := by rw [hlen, Comm.size]; omega
  unfold Comm.parse
  rw [if_neg (by omega), show rd (w ++ post) 0 = .ok u by rw [← hwd]; rfl]
  simp only [Res.ok_bind]
  obtain ⟨e, hee⟩ := Option.ne_none_iff_exists'.1 hne
  rw [hee]
  simp only
  rw [if_pos (by omega), show rd (w ++ post) 1 = .ok l0 by rw [← hwd]; rfl,
    show rd (w ++ post) 2 = .ok l1 by rw [← hwd]; rfl, show rd (w ++ post) 3 = .ok l2 by rw [← hwd]; rfl]
  simp only [Res.ok_bind]
  have := parseDescText_rt c.cbnil [u, l0, l1, l2] c.desc c.text post hd w.length (by
    rw [hlen, Comm.size]; simp)
  rw [show [u, l0, l1, l2] ++ c.desc ++ List.replicate c.cbnil 0 ++ c.text = w by rw [← hwd]; simp,
    show ([u, l0, l1, l2] : Bytes).length = 4 from rfl] at this
  rw [if_neg (by omega), ← hc, this]
  simp only [Res.ok_bind]
  obtain ⟨a1, a2, a3, a4, a5, a6, a7⟩ := c
  simp only at hu hl hv he
  rw [hu, hl, hv, he, hee]

/-- C22 for parsed comments, in full. -/
def C22_comm_parsed_claim : Prop :=
  ∀ (ver : Ver) (b : Bytes) (c : Comm), Comm.parse ver b b.length = .ok c →
    ∃ w, c.write = .ok w ∧ Comm.parse ver w w.length = .ok c ∧ w.length = c.size

/-- **Finding**: a comment parsed from fewer than four bytes has no language, and writing it
writes uninitialised bytes. -/
theorem C22_comm_parsed_refuted : ¬ C22_comm_parsed_claim := by
  intro h
  obtain ⟨w, h1, -⟩ := h .v3 [0, 0x65] ⟨some .v3, some .iso88591, 1, some 0, none, [], []⟩ (by decide +kernel)
  revert h1
  simp [Comm.write]

/-- **C22** Every comment parsed, without leaving its bytes, from four bytes or more is read back from
what is written for it. (Missing: shorter ones, refuted above.) -/
theorem C22_comm_parsed_partial (ver : Ver) (b : Bytes) (c : Comm) (h4 : 4 ≤ b.length)
    (h : Comm.parse ver b b.length = .ok c) :
    ∃ w, c.write = .ok w ∧ Comm.parse ver w w.length = .ok c ∧ w.length = c.size := by
  unfold Comm.parse at h
  rw [if_neg (by omega)] at h
  obtain ⟨u, hu, h⟩ := Res.bind_eq_ok.1 h
  split at h
  · cases h
  · rename_i enc henc
    simp only at h
    rw [if_pos h4] at h
    obtain ⟨l0, hl0, h⟩ := Res.bind_eq_ok.1 h
    obtain ⟨l1, hl1, h⟩ := Res.bind_eq_ok.1 h
    obtain ⟨l2, hl2, h⟩ := Res.bind_eq_ok.1 h
    split at h
    · cases h
      obtain ⟨w, a, b, e⟩ := C22_comm ver ⟨some ver, some enc, cbnilOf ver u, some u, some (l0, l1, l2), [], []⟩ u
        (l0, l1, l2) [] rfl rfl rfl henc.symm (by rw [henc]; simp) rfl (by
          rcases cbnilOf_cases ver u with hh | hh <;> rw [hh] <;> simp [NoNul])
      exact ⟨w, a, by rwa [List.append_nil] at b, e⟩
    · obtain ⟨⟨d, x⟩, hd, h⟩ := Res.bind_eq_ok.1 h
      cases h
      obtain ⟨w, a, b, e⟩ := C22_comm ver ⟨some ver, some enc, cbnilOf ver u, some u, some (l0, l1, l2), d, x⟩ u
        (l0, l1, l2) [] rfl rfl rfl henc.symm (by rw [henc]; simp) rfl
        (parseDescText_sound (cbnilOf_cases _ _) h4 hd)
      exact ⟨w, a, by rwa [List.append_nil] at b, e⟩

example : Comm.parse .v4 [3, 0x65, 0x6e, 0x67, 0x64, 0, 0x74, 0x74] 8 =
    .ok ⟨some .v4, some .utf8, 1, some 3, some (0x65, 0x6e, 0x67), [0x64], [0x74, 0x74]⟩ := by decide +kernel

/-- **C22** Comments made from scratch, for every version and choice of encoding: what is written is read
back with the same language, description and text, and in the encoding asked for: ISO-8859-1, or else
UCS-2 before ID3v2.4 and UTF-8 in it. -/
theorem C22_comm_make (ver : Ver) (u : UseUnicode) (l : Byte × Byte × Byte) (text dsc : Bytes)
    (hd : NoNul (Comm.make ver u l text dsc).cbnil dsc) :
    ∃ w c, (Comm.make ver u l text dsc).write = .ok w ∧ w.length = (Comm.make ver u l text dsc).size ∧
      Comm.parse ver w w.length = .ok c ∧ c.unicode = (Comm.make ver u l text dsc).unicode ∧
      c.dstEnc = some (if u = .no then .iso88591 else if ver = .v4 then .utf8 else .ucs2) ∧
      c.lang = some l ∧ c.desc = dsc ∧ c.text = text := by
  obtain ⟨uu, huu, hne, hcb, henc⟩ : ∃ uu, (Comm.make ver u l text dsc).unicode = some uu ∧
      Comm.encOf ver uu ≠ none ∧ (Comm.make ver u l text dsc).cbnil = cbnilOf ver uu ∧
      Comm.encOf ver uu = some (if u = .no then .iso88591 else if ver = .v4 then .utf8 else .ucs2) := by
    cases ver <;> cases u <;> exact ⟨_, rfl, by decide +kernel, rfl, by decide +kernel⟩
  have e1 : (Comm.make ver u l text dsc).lang = some l := by cases ver <;> cases u <;> rfl
  have e2 : (Comm.make ver u l text dsc).desc = dsc := by cases ver <;> cases u <;> rfl
  have e3 : (Comm.make ver u l text dsc).text = text := by cases ver <;> cases u <;> rfl
  generalize Comm.make ver u l text dsc = m at *
  obtain ⟨w, a, b, e⟩ := C22_comm ver { m with ver := some ver, dstEnc := Comm.encOf ver uu } uu l []
    huu e1 rfl rfl hne hcb (by simpa [e2] using hd)
  rw [List.append_nil] at b
  exact ⟨w, _, a, e, b, rfl, henc, e1, e2, e3⟩

/-! ### C48: safety of the other parsers -/

/-- C48 for user-defined text and comments. -/
def C48_text_claim : Prop :=
  ∀ (ver : Ver) (b : Bytes), (Txxx.parse ver b b.length).safe ∧ (Comm.parse ver b b.length).safe

/-- **Finding**: without a terminator, the search for it looks one byte beyond the end. -/
theorem C48_text_refuted : ¬ C48_text_claim := fun h => by
  have h1 := (h .v2 [0, 0x61]).1
  have e : Txxx.parse .v2 [0, 0x61] 2 = .ub .oobRead := by decide +kernel
  rw [show ([0, 0x61] : Bytes).length = 2 from rfl, e] at h1
  exact h1

/-- **Finding**: the same for comments; and an empty user-defined text is read from beyond its end. -/
theorem C48_text_refuted' : Comm.parse .v3 [0, 0x65, 0x6e, 0x67, 0x61] 5 = .ub .oobRead ∧
    Txxx.parse .v3 [] 0 = .ub .oobRead := by decide +kernel

/-- **C48** If one more byte follows the frame in memory then parsing user-defined text is safe, for
every content: the parser never looks more than one byte beyond. (Missing: the last frame
in its buffer.) -/
theorem C48_text_partial (ver : Ver) (b : Bytes) (x : Byte) :
    (Txxx.parse ver (b ++ [x]) b.length).safe ∧ (Comm.parse ver (b ++ [x]) b.length).safe := by
  have hf : ∀ (two : Bool) (k i : Nat), b.length - i = k → i ≤ b.length + 1 →
      ∃ p, findTrailingNull two (b ++ [x]) b.length i = .ok p ∧ i ≤ p ∧ p ≤ b.length + 1 := by
    intro two k
    induction k using Nat.strongRecOn with
    | _ k ih =>
      intro i hk hi
      rw [ftn_unfold]
      split
      · rename_i hlt
        obtain ⟨b0, h0⟩ : ∃ y, rd (b ++ [x]) i = .ok y := ⟨_, rd_ok (by simp; omega)⟩
        obtain ⟨b1, h1⟩ : ∃ y, rd (b ++ [x]) (i + 1) = .ok y := ⟨_, rd_ok (by simp; omega)⟩
        rw [h0, h1]
        simp only [Res.ok_bind]
        split
        · exact ⟨i, rfl, Nat.le_refl _, hi⟩
        · split
          · exact ⟨i, rfl, Nat.le_refl _, hi⟩
          · have hstep : i < i + (if two then 2 else 1) ∧ i + (if two then 2 else 1) ≤ i + 2 := by
              split <;> omega
            obtain ⟨p, a1, a2, a3⟩ := ih (b.length - (i + (if two then 2 else 1))) (by omega) _ rfl (by omega)
            exact ⟨p, a1, by omega, a3⟩
      · exact ⟨i, rfl, Nat.le_refl _, hi⟩
  have hdt : ∀ w i, i ≤ b.length + 1 → ∃ r, parseDescText w (b ++ [x]) b.length i = .ok r := by
    intro w i hi
    obtain ⟨p, a1, a2, a3⟩ := hf (w == 2) _ i rfl hi
    unfold parseDescText
    rw [a1]
    simp only [Res.ok_bind]
    rw [slice, if_pos (by simp; omega)]
    simp only [Res.ok_bind]
    split
    · rw [slice, if_pos (by simp; omega)]; exact ⟨_, rfl⟩
    · exact ⟨_, rfl⟩
  constructor
  · unfold Txxx.parse
    obtain ⟨u, hu⟩ : ∃ y, rd (b ++ [x]) 0 = .ok y := ⟨_, rd_ok (by simp)⟩
    rw [hu]
    simp only [Res.ok_bind]
    obtain ⟨⟨d, t⟩, hr⟩ := hdt (cbnilOf ver u) 1 (by omega)
    rw [hr]
    simp
  · unfold Comm.parse
    split
    · simp
    · rename_i hn
      obtain ⟨u, hu⟩ : ∃ y, rd (b ++ [x]) 0 = .ok y := ⟨_, rd_ok (by simp)⟩
      rw [hu]
      simp only [Res.ok_bind]
      split
      · simp
      · split
        · obtain ⟨l0, h0⟩ : ∃ y, rd (b ++ [x]) 1 = .ok y := ⟨_, rd_ok (by simp; omega)⟩
          obtain ⟨l1, h1⟩ : ∃ y, rd (b ++ [x]) 2 = .ok y := ⟨_, rd_ok (by simp; omega)⟩
          obtain ⟨l2, h2⟩ : ∃ y, rd (b ++ [x]) 3 = .ok y := ⟨_, rd_ok (by simp; omega)⟩
          rw [h0, h1, h2]
          simp only [Res.ok_bind]
          split
          · simp
          · obtain ⟨⟨d, t⟩, hr⟩ := hdt (cbnilOf ver u) 4 (by omega)
            rw [hr]
            simp
        · simp

/-- **Finding**: asking a comment with a description but no text whether it needs
unsynchronisation takes the front of an empty vector. -/
theorem C48_comm_needs_unsync_refuted :
    ¬ ∀ (ver : Ver) (b : Bytes) (c : Comm), Comm.parse ver b b.length = .ok c → (c.countSyncs true).safe := by
  intro h
  have := h .v3 [0, 0x65, 0x6e, 0x67, 0x61, 0]
    ⟨some .v3, some .iso88591, 1, some 0, some (0x65, 0x6e, 0x67), [0x61], []⟩ (by decide +kernel)
  revert this
  decide +kernel

/-! ### C49: counting false syncs in frame bodies -/

/-- **C49** The number of false syncs that unique file identifiers, popularimeters and user-defined text
report equals the count over the bytes they write. (What that count itself misses is the subject
of C06.) -/
theorem C49_counts_partial (u : Ufid) (p : Popm) (t : Txxx) :
    u.countSyncs true = countSyncs true u.write ∧ p.countSyncs true = countSyncs true p.write ∧
    t.countSyncs true = countSyncs true t.write := by
  have hz : ∀ (a b : Bytes), countSyncs true (a ++ 0 :: b) = countSyncs true a + countSyncs true b := by
    intro a b
    rw [countSyncs_append]
    have e : countSyncs true (0 :: b) = countSyncs true b := by
      cases b with
      | nil => rfl
      | cons y ys => simp [countSyncs, (isFalseSync_zero y).2]
    rw [e]
    cases h : a.getLast? with
    | none => simp
    | some x => simp [(isFalseSync_zero x).1]
  have hc : ∀ (x : Byte) (b : Bytes), countSyncs true (x :: b) =
      (match b with
       | [] => 0
       | c :: _ => if (if true then isFalseSync x c else needsUnsync x c) then 1 else 0) + countSyncs true b := by
    intro x b
    cases b <;> simp [countSyncs]
  refine ⟨?_, ?_, ?_⟩
  · unfold Ufid.countSyncs Ufid.write
    rw [show u.owner ++ [0] ++ u.ident = u.owner ++ 0 :: u.ident by simp, hz]
  · unfold Popm.countSyncs Popm.write
    rw [show p.email ++ [0] ++ [p.rating] ++ p.counter = p.email ++ 0 :: (p.rating :: p.counter) by simp, hz,
      hc p.rating p.counter, Nat.add_assoc]
    cases p.counter <;> rfl
  · unfold Txxx.countSyncs Txxx.write
    have e : countSyncs true ([t.unicode] ++ t.desc ++ (if t.cbnil = 2 then [0, 0] else [0]) ++ t.text) =
        countSyncs true (t.unicode :: t.desc) + countSyncs true t.text := by
      split
      · rw [show [t.unicode] ++ t.desc ++ [0, 0] ++ t.text = (t.unicode :: t.desc) ++ 0 :: 0 :: t.text by simp,
          hz, show (0 : Byte) :: t.text = [] ++ 0 :: t.text from rfl, hz]
        simp [countSyncs]
      · rw [show [t.unicode] ++ t.desc ++ [0] ++ t.text = (t.unicode :: t.desc) ++ 0 :: t.text by simp, hz]
    rw [e, hc t.unicode t.desc]
    cases t.desc <;> rfl

example : (⟨[0x61], 0xff, [0xff, 0xee]⟩ : Popm).countSyncs true = 2 := by decide +kernel

/-- **C49** Encryption methods: the same, for the bytes they do write. -/
theorem C49_encr (e : Encr) (w : Bytes) (h : e.write = .ok w) :
    e.countSyncs true = .ok (countSyncs true w) := by
  unfold Encr.write at h
  unfold Encr.countSyncs
  split at h
  · cases h
  · rename_i m hm
    cases h
    rw [show e.email ++ [m] ++ e.data = e.email ++ (m :: e.data) by simp, countSyncs_append]
    have hc : countSyncs true (m :: e.data) =
        (match e.data with
         | [] => 0
         | y :: _ => if isFalseSync m y then 1 else 0) + countSyncs true e.data := by
      cases e.data <;> simp [countSyncs]
    rw [hc]
    congr 1
    cases e.email.getLast? <;> cases e.data <;> simp <;> omega

example : (⟨[0x61, 0xff], some 0xff, [0xf0]⟩ : Encr).write = .ok [0x61, 0xff, 0xff, 0xf0] := by decide

/-- C49 in full: a body reports no false sync exactly if it writes none. -/
def C49_claim : Prop := ∀ u : Ufid, u.countSyncs true = 0 ↔ ¬ HasFalseSync u.write

/-- **Finding** (as in C06): FF E0 is not counted. -/
theorem C49_refuted : ¬ C49_claim := by
  intro h
  exact (h ⟨[0x61], [0xff, 0xe0]⟩).1 (by decide) ⟨[0x61, 0], 0xe0, [], rfl, by decide⟩

/-- C49 for comments. -/
def C49_comm_claim : Prop :=
  ∀ (c : Comm) (n : Nat) (w : Bytes), c.countSyncs true = .ok n → c.write = .ok w → n = countSyncs true w

/-- **Finding**: the last byte of the description and the first of the text are counted as
neighbours although the terminator lies between them. -/
theorem C49_comm_refuted : ¬ C49_comm_claim := by
  intro h
  have := h ⟨some .v3, some .iso88591, 1, some 0, some (0x65, 0x6e, 0x67), [0xff], [0xff]⟩ 1
    [0, 0x65, 0x6e, 0x67, 0xff, 0, 0xff] (by decide +kernel) (by decide +kernel)
  revert this
  decide +kernel

/-- **C49** That pair is the only difference: a comment with a text reports the count over the bytes it
writes, and one more if its description ends in FF and its text starts with EA or above. -/
theorem C49_comm_partial (c : Comm) (n : Nat) (w : Bytes) (hn : c.countSyncs true = .ok n) (hw : c.write = .ok w)
    (hcb : c.cbnil ≠ 0) :
    n = countSyncs true w + (if c.desc.getLast? = some 0xff ∧ ∃ t, c.text.head? = some t ∧ 0xea ≤ t.toNat then 1
      else 0) := by
  have hz : ∀ (k : Nat) (a b : Bytes), k ≠ 0 → countSyncs true (a ++ List.replicate k 0 ++ b) =
      countSyncs true a + countSyncs true b := by
    intro k
    induction k with
    | zero => intro a b h; exact absurd rfl h
    | succ k ih =>
      intro a b _
      have e : ∀ b : Bytes, countSyncs true (0 :: b) = countSyncs true b := by
        intro b
        cases b with
        | nil => rfl
        | cons y ys => simp [countSyncs, (isFalseSync_zero y).2]
      have e1 : ∀ b : Bytes, countSyncs true (a ++ 0 :: b) = countSyncs true a + countSyncs true b := by
        intro b
        rw [countSyncs_append, e]
        cases h : a.getLast? with
        | none => simp
        | some x => simp [(isFalseSync_zero x).1]
      rw [List.replicate_succ, show a ++ 0 :: List.replicate k 0 ++ b = a ++ 0 :: (List.replicate k 0 ++ b) by simp, e1]
      by_cases hk : k = 0
      · subst hk; rfl
      · have := ih [] b hk
        rw [List.nil_append] at this
        rw [this]; simp [countSyncs]
  obtain ⟨ver, enc, cbnil, unicode, lang, desc, text⟩ := c
  cases unicode with
  | none => simp [Comm.write] at hw
  | some u =>
    cases lang with
    | none => simp [Comm.write] at hw
    | some l =>
      obtain ⟨l0, l1, l2⟩ := l
      simp only [Comm.write, Res.ok.injEq] at hw
      rw [← hw, hz _ _ _ hcb]
      cases desc with
      | nil =>
        simp only [Comm.countSyncs, Res.ok.injEq] at hn
        rw [← hn]
        simp [countSyncs]
      | cons d ds =>
        cases text with
        | nil => simp [Comm.countSyncs] at hn
        | cons t ts =>
          simp only [Comm.countSyncs, Res.ok.injEq] at hn
          have hlast : (d :: ds).getLast? = some ((d :: ds).getLast (by simp)) := by
            rw [List.getLast?_eq_some_getLast]
          have hp : (if (d :: ds).getLast? = some 0xff ∧ ∃ x, (t :: ts).head? = some x ∧ 0xea ≤ x.toNat then 1 else 0)
              = (if isFalseSync ((d :: ds).getLast (by simp)) t = true then 1 else 0) := by
            rw [hlast]
            simp only [Option.some.injEq, List.head?_cons, isFalseSync, Bool.and_eq_true, beq_iff_eq,
              decide_eq_true_eq, exists_eq_left', UInt8.lt_iff_toNat_lt]
            rfl
          rw [hp, ← hn, show [u] ++ [l0, l1, l2] ++ d :: ds = u :: l0 :: l1 :: l2 :: d :: ds by simp]
          simp only [countSyncs, if_true]
          omega

/-- C49 for tag clouds. -/
def C49_xtag_claim : Prop :=
  ∀ (t : TagCloud) (n : Nat), t.countSyncs true = .ok n → n = countSyncs true t.write

theorem countSyncs_replicate (n : Nat) : countSyncs true (List.replicate n 0x61) = 0 := by
  induction n with
  | zero => rfl
  | succ n ih =>
    cases n with
    | zero => rfl
    | succ n =>
      rw [List.replicate_succ, List.replicate_succ, countSyncs, ← List.replicate_succ, ih]
      decide +kernel

/-- **Finding**: the length of the values is examined in host byte order but written in network byte
order: a value of 65525 bytes makes the length 00 00 FF F6, a false sync that goes unnoticed. -/
theorem C49_xtag_refuted : ¬ C49_xtag_claim := by
  intro h
  obtain ⟨v, hl, hc, hh⟩ : ∃ v : Bytes, v.length = 65524 ∧ countSyncs true (0x61 :: v) = 0 ∧
      (0x61 :: v).length + 1 = 65526 :=
    ⟨List.replicate 65524 0x61, List.length_replicate, countSyncs_replicate (65524 + 1), by
      rw [List.length_cons, List.length_replicate]⟩
  have h1 := h ⟨[], [([0x6b], [0x61 :: v])]⟩ 0 (by
    simp only [TagCloud.countSyncs, TagCloud.countSyncs.go, List.map_cons, List.map_nil, List.sum_cons,
      List.sum_nil, hh, hc]
    decide +kernel)
  have h2 : countSyncs true (TagCloud.write ⟨[], [([0x6b], [0x61 :: v])]⟩) ≠ 0 := by
    have e : TagCloud.write ⟨[], [([0x6b], [0x61 :: v])]⟩ =
        [1, 0, 0x6b, 0, 0, 0] ++ (0xff :: 0xf6 :: TagCloud.rawVals [0x61 :: v]) := by
      simp only [TagCloud.write, List.map_cons, List.map_nil, List.sum_cons, List.sum_nil, hh,
        List.flatten_cons, List.flatten_nil, List.append_nil]
      rw [show TagCloud.be32 ((65526 + 0) % 2 ^ 32) = [0, 0, 0xff, 0xf6] by decide +kernel]
      rfl
    rw [e, countSyncs_append, show countSyncs true (0xff :: 0xf6 :: TagCloud.rawVals [0x61 :: v]) =
      (if (if true = true then isFalseSync 0xff 0xf6 else needsUnsync 0xff 0xf6) = true then 1 else 0) +
        countSyncs true (0xf6 :: TagCloud.rawVals [0x61 :: v]) from rfl]
    rw [show (if (if true = true then isFalseSync 0xff 0xf6 else needsUnsync 0xff 0xf6) = true then 1 else 0) = 1 by
      decide]
    omega
  exact h2 h1.symm

/-! ### C51: predicting the size of an unsynchronised body -/

/-- C51 in full, for the bodies of four kinds of frame. -/
def C51_claim : Prop :=
  ∀ (u : Ufid) (p : Popm) (t : Txxx) (c : Bytes),
    u.serializedSize true = (unsynchronise false u.write).length ∧
    p.serializedSize true = (unsynchronise false p.write).length ∧
    t.serializedSize true = (unsynchronise false t.write).length ∧
    counterSerializedSize c true = (unsynchronise false c).length

/-- **Finding**: an FF directly in front of a terminator is overlooked. -/
theorem C51_refuted : ¬ C51_claim := by
  intro h
  have := (h ⟨[0xff], []⟩ ⟨[], 0, []⟩ ⟨1, 0, [], []⟩ []).1
  revert this
  decide

theorem countSyncs_false_zero (a b : Bytes) : countSyncs false (a ++ 0 :: b) =
    countSyncs false a + countSyncs false b + (if a.getLast? = some 0xff then 1 else 0) := by
  rw [countSyncs_append]
  have e : countSyncs false (0 :: b) = countSyncs false b := by
    cases b with
    | nil => rfl
    | cons y ys => simp [countSyncs, needsUnsync]
  rw [e]
  cases h : a.getLast? with
  | none => simp
  | some x => simp [needsUnsync]

/-- **C51** The prediction falls short of C06's count over the bytes written by one for each FF directly
in front of a terminator, and is exact otherwise; it never exceeds the true length. (Missing: those
FFs, and the FF E0 to FF E9 of C06.) -/
theorem C51_partial (u : Ufid) (p : Popm) (t : Txxx) (c : Bytes) :
    (u.serializedSize true + (if u.owner.getLast? = some 0xff then 1 else 0) =
        u.write.length + countSyncs false u.write ∧
      u.serializedSize true ≤ (unsynchronise false u.write).length) ∧
    (p.serializedSize true + (if p.email.getLast? = some 0xff then 1 else 0) =
        p.write.length + countSyncs false p.write ∧
      p.serializedSize true ≤ (unsynchronise false p.write).length) ∧
    (t.serializedSize true + (if (t.unicode :: t.desc).getLast? = some 0xff then 1 else 0) =
        t.size + countSyncs false t.write) ∧
    (counterSerializedSize c true = c.length + countSyncs false c ∧
      counterSerializedSize c true ≤ (unsynchronise false c).length) := by
  have hg : ∀ b : Bytes, b.length + countSyncs false b ≤ (unsynchronise false b).length := fun b => by
    have := countSyncs_le_growth false b
    rw [unsync_length]; omega
  refine ⟨?_, ?_, ?_, ?_⟩
  · have h1 : u.serializedSize true + (if u.owner.getLast? = some 0xff then 1 else 0) =
        u.write.length + countSyncs false u.write := by
      rw [show countSyncs false u.write = countSyncs false (u.owner ++ 0 :: u.ident) by simp [Ufid.write],
        countSyncs_false_zero]
      simp [Ufid.serializedSize, Ufid.countSyncs, Ufid.size, Ufid.write]
      omega
    have := hg u.write
    exact ⟨h1, by omega⟩
  · have hc : countSyncs false (p.rating :: p.counter) = (match p.counter with
        | [] => 0
        | c :: _ => if (if false = true then isFalseSync p.rating c else needsUnsync p.rating c) then 1 else 0) +
        countSyncs false p.counter := by
      cases p.counter <;> simp [countSyncs]
    have h1 : p.serializedSize true + (if p.email.getLast? = some 0xff then 1 else 0) =
        p.write.length + countSyncs false p.write := by
      rw [show countSyncs false p.write = countSyncs false (p.email ++ 0 :: (p.rating :: p.counter)) by
        simp [Popm.write], countSyncs_false_zero, hc]
      simp only [Popm.serializedSize, Popm.countSyncs, Popm.size, Popm.write, List.length_append,
        List.length_cons, List.length_nil, if_true]
      cases p.counter <;> simp <;> omega
    have := hg p.write
    exact ⟨h1, by omega⟩
  · have hc : countSyncs false (t.unicode :: t.desc) = (match t.desc with
        | [] => 0
        | c :: _ => if (if false = true then isFalseSync t.unicode c else needsUnsync t.unicode c) then 1 else 0) +
        countSyncs false t.desc := by
      cases t.desc <;> simp [countSyncs]
    have e : countSyncs false t.write = countSyncs false ((t.unicode :: t.desc) ++ 0 :: t.text) := by
      unfold Txxx.write
      split
      · rw [show [t.unicode] ++ t.desc ++ [0, 0] ++ t.text = (t.unicode :: t.desc) ++ 0 :: ([] ++ 0 :: t.text) by simp,
          countSyncs_false_zero, countSyncs_false_zero, countSyncs_false_zero]
        simp [countSyncs]
      · simp
    rw [e, countSyncs_false_zero, hc]
    simp only [Txxx.serializedSize, Txxx.countSyncs, if_true]
    cases t.desc <;> simp <;> omega
  · exact ⟨rfl, hg c⟩

/-- C51 for a popularimeter with an FF rating. -/
example : (⟨[0x61], 0xff, [0xff, 0]⟩ : Popm).serializedSize true =
    (unsynchronise false (⟨[0x61], 0xff, [0xff, 0]⟩ : Popm).write).length := by decide

/-! ### C50: editing comments -/

/-- C50 in full: the setters of a comment, however it was made, are defined and change what
they are for and nothing else. -/
def C50_claim : Prop :=
  ∀ (c : Comm) (b : Bytes),
    ((∃ ver m, Comm.parse ver m m.length = .ok c ∧ m ≠ []) ∨ ∃ ver u l t d, c = Comm.make ver u l t d) →
    (∃ e, c.dstEnc = some e ∧ ∀ conv : Enc → Bool → Res Bytes, (∀ bom, conv e bom = .ok b) →
      c.setText conv = .ok { c with text := b } ∧ c.setDescription conv = .ok { c with desc := b })

/-- **Finding**: a comment made from scratch does not know its encoding; setting its text reads
uninitialised members. -/
theorem C50_refuted : ¬ C50_claim := by
  intro h
  obtain ⟨e, he, -⟩ := h (Comm.make .v3 .no (0x65, 0x6e, 0x67) [0x61] []) []
    (.inr ⟨.v3, .no, (0x65, 0x6e, 0x67), [0x61], [], rfl⟩)
  simp [Comm.make] at he

/-- **C50** For every comment parsed from a non-empty body, setting the text replaces exactly
the text, and setting the description exactly the description, by the argument converted to the
encoding that the comment's encoding byte stands for; with a byte-order mark if and
only if that is UCS-2, or UTF-16 in ID3v2.4. If the conversion fails so does the setter. (Missing:
comments made from scratch, refuted above.) -/
theorem C50_parsed_partial (ver : Ver) (m : Bytes) (c : Comm) (hne : m ≠ [])
    (h : Comm.parse ver m m.length = .ok c) :
    ∃ u e, c.unicode = some u ∧ Comm.encOf ver u = some e ∧
      ∀ conv : Enc → Bool → Res Bytes,
        c.setText conv = (conv e (e = .ucs2 ∨ e = .utf16)).bind (fun b => .ok { c with text := b }) ∧
        c.setDescription conv = (conv e (e = .ucs2 ∨ e = .utf16)).bind (fun b => .ok { c with desc := b }) := by
  have hc : ∃ u e, c.unicode = some u ∧ Comm.encOf ver u = some e ∧ c.ver = some ver ∧ c.dstEnc = some e := by
    unfold Comm.parse at h
    have hl : m.length ≠ 0 := fun hh => hne (List.length_eq_zero_iff.1 hh)
    rw [if_neg hl] at h
    obtain ⟨u, hu, h⟩ := Res.bind_eq_ok.1 h
    split at h
    · cases h
    · rename_i enc henc
      simp only at h
      split at h
      · obtain ⟨l0, hl0, h⟩ := Res.bind_eq_ok.1 h
        obtain ⟨l1, hl1, h⟩ := Res.bind_eq_ok.1 h
        obtain ⟨l2, hl2, h⟩ := Res.bind_eq_ok.1 h
        split at h
        · cases h; exact ⟨u, enc, rfl, henc, rfl, rfl⟩
        · obtain ⟨⟨d, x⟩, hd, h⟩ := Res.bind_eq_ok.1 h
          cases h; exact ⟨u, enc, rfl, henc, rfl, rfl⟩
      · cases h; exact ⟨u, enc, rfl, henc, rfl, rfl⟩
  obtain ⟨u, e, h1, h2, h3, h4⟩ := hc
  refine ⟨u, e, h1, h2, fun conv => ?_⟩
  have hb : c.addBom = .ok (decide (e = .ucs2 ∨ e = .utf16)) := by
    rw [Comm.addBom, h3, h4]
    unfold Comm.encOf at h2
    cases ver <;> simp only at h2 <;> repeat' split at h2
    all_goals (cases h2; try rfl)
  rw [Comm.setText, Comm.setDescription, h4, hb]
  exact ⟨rfl, rfl⟩

end Scribbu.Props
