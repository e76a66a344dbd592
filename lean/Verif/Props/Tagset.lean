import Verif.Proofs.TagsetSim
import Verif.Props.Padding
import Verif.Props.Tag23

/-! # C33: replacing the tags of a file keeps what follows them -/

namespace Scribbu.Props
open Scribbu Spec Tagset

/-- One ID3v2 tag as the standards define it: a header, as many bytes as it announces and, in an ID3v2.4 tag whose header
says so, a footer of ten bytes. -/
def WholeTag (b : Bytes) : Prop :=
  ∃ v r f n, IsHeader b v r f n ∧ b.length = 10 + n + (if v = 4 ∧ f &&& 0x10 ≠ 0 then 10 else 0)

/-- **C33** as claimed: whatever tags there are in the file and whatever tags are to replace them, if the call succeeds
the file consists of as many tags as there were given, and exactly what followed the old tags. -/
def C33_claim : Prop := ∀ (z : Zlib) (olds : List Bytes) (audio : Bytes) (au : ApplyUnsync) (st : EmplaceStrategy)
  (ts : List AnyTag), (∀ t ∈ olds, WholeTag t) → NoHeader audio →
  (maybeEmplace (anyI z) (some (olds.flatten ++ audio)) au st ts).safe ∧
  ∀ how b ts', maybeEmplace (anyI z) (some (olds.flatten ++ audio)) au st ts = .ok (how, b, ts') →
    ∃ news : List Bytes, b = news.flatten ++ audio ∧ (∀ t ∈ news, WholeTag t) ∧ news.length = ts.length

/-- An ID3v2.4 tag with a footer and nothing else. -/
def footed : Bytes := [0x49, 0x44, 0x33, 4, 0, 0x10, 0, 0, 0, 0, 0x33, 0x44, 0x49, 4, 0, 0x10, 0, 0, 0, 0]

theorem footed_whole : WholeTag footed :=
  ⟨4, 0, 0x10, 0, ⟨0, 0, 0, 0, [0x33, 0x44, 0x49, 4, 0, 0x10, 0, 0, 0, 0], rfl, by decide, by decide, by decide, rfl⟩, by decide⟩

theorem noHeader_short {b : Bytes} (h : b.length < 10) : NoHeader b := by
  rintro v r f n hh
  have := isHeader_length hh
  omega

/-- A library standing in for zlib. -/
def noZlib : Zlib := ⟨fun b => .ok b, fun b _ => .ok b, fun _ _ => 0⟩

/-- The footer of the old tag is taken for audio and stays. -/
theorem C33_refuted : ¬ C33_claim := by
  intro h
  have hm : ∃ ts', maybeEmplace (anyI noZlib) (some ([footed].flatten ++ [1])) .never .reducePaddingEvenly [bare 0] =
      .ok (.emplaced, [0x49, 0x44, 0x33, 3, 0, 0, 0, 0, 0, 0, 0x33, 0x44, 0x49, 4, 0, 0x10, 0, 0, 0, 0, 1], ts') :=
    ⟨[bare 0], by decide +kernel⟩
  obtain ⟨ts', hm⟩ := hm
  obtain ⟨news, h1, h2, h3⟩ := (h noZlib [footed] [1] .never .reducePaddingEvenly [bare 0] (by simpa using footed_whole)
    (noHeader_short (by decide))).2 _ _ _ hm
  match news, h3 with
  | [x], _ =>
    obtain ⟨v, r, f, n, ⟨s0, s1, s2, s3, rest, rfl, -, -, -, h4⟩, h5⟩ := h2 x (by simp)
    simp only [List.flatten_cons, List.flatten_nil, List.append_nil] at h1
    have hl := congrArg List.length h1
    simp only [List.cons_append, List.nil_append, List.cons.injEq, List.length_cons, List.length_append, List.length_nil] at h1 h5 hl
    obtain ⟨-, -, -, rfl, rfl, rfl, rfl, rfl, rfl, rfl, -⟩ := h1
    rw [h4, show syncSafe [0, 0, 0, 0] = 0 by decide] at h5
    rw [if_neg (by decide)] at h5
    omega

/-- An ID3v2.4 tag to be written, with one byte of padding: its header announces two, the second of which is the
first byte of the audio. -/
def padded24 : AnyTag := .inr (.inr (Tag24.scratch 1 false))

theorem C33_refuted_v24 : ¬ C33_claim := by
  intro h
  have hm : ∃ ts', maybeEmplace (anyI noZlib) (some (([] : List Bytes).flatten ++ [1])) .never .reducePaddingEvenly [padded24] =
      .ok (.copied, [0x49, 0x44, 0x33, 4, 0, 0, 0, 0, 0, 2, 0, 1], ts') :=
    ⟨[padded24], by decide +kernel⟩
  obtain ⟨ts', hm⟩ := hm
  obtain ⟨news, h1, h2, h3⟩ := (h noZlib [] [1] .never .reducePaddingEvenly [padded24] (by simp)
    (noHeader_short (by decide))).2 _ _ _ hm
  match news, h3 with
  | [x], _ =>
    obtain ⟨v, r, f, n, ⟨s0, s1, s2, s3, rest, rfl, -, -, -, h4⟩, h5⟩ := h2 x (by simp)
    simp only [List.flatten_cons, List.flatten_nil, List.append_nil] at h1
    have hl := congrArg List.length h1
    simp only [List.cons_append, List.nil_append, List.cons.injEq, List.length_cons, List.length_append, List.length_nil] at h1 h5 hl
    obtain ⟨-, -, -, rfl, rfl, rfl, rfl, rfl, rfl, rfl, -⟩ := h1
    rw [h4, show syncSafe [0, 0, 0, 2] = 2 by decide] at h5
    rw [if_neg (by decide)] at h5
    omega

/-- An ID3v2.3 tag whose extended header says 65280 bytes of padding. -/
def extended23 : AnyTag := .inr (.inl ⟨none, false, some (.new 0xff00 none), 2, []⟩)

/-- **Finding**: likewise for ID3v2.3 tags with an extended header that needs unsynchronisation (the two forms of it are exchanged, C26): the header announces 13 bytes, of
which 12 are there, so that the first byte of the audio belongs to the tag from now on. -/
theorem C33_refuted_extended : ¬ C33_claim := by
  intro h
  have hm : (∃ ts', maybeEmplace (anyI noZlib) (some (([] : List Bytes).flatten ++ [1])) .always .reducePaddingEvenly [extended23] =
      .ok (.copied, [0x49, 0x44, 0x33, 3, 0, 0xc0, 0, 0, 0, 13, 0, 0, 0, 6, 0, 0, 0, 0, 0xff, 0, 0, 0, 1], ts')) := ⟨_, rfl⟩
  obtain ⟨ts', hm⟩ := hm
  obtain ⟨news, h1, h2, h3⟩ := (h noZlib [] [1] .always .reducePaddingEvenly [extended23] (by simp)
    (noHeader_short (by decide))).2 _ _ _ hm
  match news, h3 with
  | [x], _ =>
    obtain ⟨v, r, f, n, ⟨s0, s1, s2, s3, rest, rfl, -, -, -, h4⟩, h5⟩ := h2 x (by simp)
    simp only [List.flatten_cons, List.flatten_nil, List.append_nil] at h1
    have hl := congrArg List.length h1
    simp only [List.cons_append, List.nil_append, List.cons.injEq, List.length_cons, List.length_append, List.length_nil] at h1 h5 hl
    obtain ⟨-, -, -, rfl, rfl, rfl, rfl, rfl, rfl, rfl, -⟩ := h1
    rw [h4, show syncSafe [0, 0, 0, 13] = 13 by decide] at h5
    rw [if_neg (by decide)] at h5
    omega

/-- Replacing tags by no tags divides by zero. -/
theorem C33_refuted_empty (z : Zlib) :
    maybeEmplace (anyI z) (some [0x49, 0x44, 0x33, 3, 0, 0, 0, 0, 0, 0, 1]) .never .reducePaddingEvenly [] = .ub .divZero := rfl

/-- The tag can be serialised: it is an ID3v2.2 tag, or an ID3v2.3 tag, all of whose members have a value and all of whose frames can be written. If
there is an extended header, it has been made by the library or set by the caller, and in what is written of it, checksum included, FF is not followed by 00 or by E0 or more
(C26, C27). -/
def CanWrite (z : Zlib) : AnyTag → Prop
  | .inl t => t.compression.isSome ∧ ∃ n t', t.size false = .ok (n, t')
  | .inr (.inl t) => (∀ e, t.ext = some e → CurrentExt e) ∧ ∃ n t', t.size z false = .ok (n, t') ∧
    ∀ e, t'.ext = some e → ¬ NeedsStuffing (ext23 e.cbpad e.crc)
  | .inr (.inr _) => False

theorem fresh22_of_size {fs : List Frame22} {r : Nat × List Frame22} (h : Tag22.framesSize false fs = .ok r) :
    ∃ gs, freshAll22 fs = .ok gs := by
  induction fs generalizing r with
  | nil => exact ⟨_, rfl⟩
  | cons f fs ih =>
    simp only [Tag22.framesSize, Frame22.serializedSize, Res.bind_eq_ok] at h
    obtain ⟨p, ⟨g, h1, -⟩, q, h2, -⟩ := h
    obtain ⟨gs, h3⟩ := ih h2
    exact ⟨g :: gs, by simp only [freshAll22, h1, h3, Res.ok_bind]⟩

theorem canWrite_look {z : Zlib} {t : AnyTag} (h : CanWrite z t) :
    ∃ V p, W0 z t V p ∧ (anyI z).padding t = .ok p := by
  rcases t with t | t | t
  · obtain ⟨h1, n, t', h2⟩ := h
    obtain ⟨c, h1⟩ := Option.isSome_iff_exists.1 h1
    simp only [Tag22.size, Res.bind_eq_ok] at h2
    obtain ⟨p, h3, q, h4, -⟩ := h2
    obtain ⟨gs, h5⟩ := fresh22_of_size h4
    refine ⟨view22 t.unsync c gs, p, ⟨c, gs, h1, ?_, h5, rfl⟩, h3⟩
    unfold Tag22.use at h3
    split at h3 <;> simp_all
  · obtain ⟨h1, n, t', h2, h3⟩ := h
    obtain ⟨un, ex, ext, pd, fs⟩ := t
    cases ext with
    | none =>
      simp only [Tag23.size, Tag23.updateCrc, Res.ok_bind, Res.bind_eq_ok] at h2
      obtain ⟨q, h4, -⟩ := h2
      obtain ⟨gs, h5⟩ := freshAll23_of_size h4
      exact ⟨view23 un ex gs, pd, .inl ⟨gs, rfl, rfl, h5, rfl⟩, rfl⟩
    | some e =>
      obtain ⟨gs, e', h4, h5, h6⟩ := size23_ext (h1 e rfl) h2
      have h7 := h3 e' h5
      rw [h6.2.1, h6.2.2] at h7
      exact ⟨view23x un ex e (ext23 e.cbpad (sumOf z e gs)) gs, pd, .inr ⟨e, gs, rfl, h1 e rfl, rfl, h4, h7, rfl⟩, rfl⟩
  · exact h.elim

theorem canWrite_all {z : Zlib} {ts : List AnyTag} (h : ∀ t ∈ ts, CanWrite z t) :
    ∃ L, Look (W0 z) ts L ∧ Padded (anyI z) ts (L.map (·.2)) := by
  induction ts with
  | nil => exact ⟨[], .nil, .nil⟩
  | cons t ts ih =>
    obtain ⟨L, h1, h2⟩ := ih fun x hx => h x (by simp [hx])
    obtain ⟨V, p, h3, h4⟩ := canWrite_look (h t (by simp))
    exact ⟨(V, p) :: L, .cons h3 h1, .cons h4 h2⟩

/-- Tags without extended header. -/
theorem canWrite_plain {z : Zlib} {t t' : Tag23} {n : Nat} (h : t.ext = none) (hs : t.size z false = .ok (n, t')) : CanWrite z (.inr (.inl t)) := by
  refine ⟨by simp [h], n, t', hs, ?_⟩
  obtain ⟨un, ex, ext, pd, fs⟩ := t
  simp only at h
  subst h
  simp only [Tag23.size, Tag23.updateCrc, Res.ok_bind, Res.bind_eq_ok] at hs
  obtain ⟨q, h4, h5⟩ := hs
  cases h5
  simp

/-- The pairs of padding and bytes. -/
def lot (au : ApplyUnsync) (L : List Entry) : List (Nat × Bytes) := L.map fun e => (e.2, e.1.bytes (pick au e.1) e.2)

theorem lot_snd (au : ApplyUnsync) (L : List Entry) : (lot au L).map (·.2) = image au L := by
  simp [lot, image]

theorem lot_fst (au : ApplyUnsync) (L : List Entry) : (lot au L).map (·.1) = L.map (·.2) := by
  simp [lot]

theorem serialised_all {z : Zlib} {ts : List AnyTag} {L : List Entry} (au : ApplyUnsync)
    (h : Look (W0 z) ts L) {qs : List Nat} (hq : qs.length = L.length)
    (hs : total au (reset L qs) < 2 ^ 28) :
    Pairs (fun t x => Serialised (anyI z) au t x.1 x.2 ∧ CompleteTag x.2) ts (lot au (reset L qs)) := by
  unfold Look at h
  induction h generalizing qs with
  | nil =>
    have : qs = [] := List.length_eq_zero_iff.1 hq
    subst this
    exact .nil
  | @cons t e ts L h1 h2 ih =>
    obtain ⟨q, qs, rfl⟩ : ∃ q l, qs = q :: l := by
      cases qs with
      | nil => simp at hq
      | cons q l => exact ⟨q, l, rfl⟩
    simp only [reset, List.zipWith_cons_cons, total, List.map_cons, List.sum_cons, Entry.size] at hs
    have h3 := ih (qs := qs) (by simpa using hq) (by simp only [reset, total]; omega)
    simp only [reset, List.zipWith_cons_cons, lot, List.map_cons]
    refine .cons ⟨serialised_sim (simAny z) au h1 q (by omega), ?_⟩ h3
    obtain ⟨t1, h5, h6⟩ := (simAny z).size false h1
    exact ((simAny z).len (pick au e.1) ((simAny z).sub ((simAny z).set q h6)) (by omega)).2

/-- The part of C33 that holds: the tags found in the file have no footers, the new ones are ID3v2.2 tags or ID3v2.3
tags, the latter with any extended header that needs no unsynchronisation, all sizes can be represented, and the padding of the first is not so small that
`adjust_padding_to` goes wrong (C32). Either the file consists of the new tags, in order, each serialised as its own
`write` would, each complete, and what followed the old ones; the paddings are as they were, or the new tags take the room of the
old ones exactly; or the call is refused, which happens only if there is not room enough. -/
theorem C33_partial (z : Zlib) (olds : List Bytes) (audio : Bytes) (au : ApplyUnsync) (st : EmplaceStrategy) (ts : List AnyTag)
    (ho : ∀ t ∈ olds, CompleteTag t) (hr : NoHeader audio) (hne : olds.flatten ++ audio ≠ []) (hts : ts ≠ [])
    (hw : ∀ t ∈ ts, CanWrite z t) (hb : olds.flatten.length < 2 ^ 28)
    (hs : ∀ n pad ts', sizes (anyI z) au ts = .ok (n, pad, ts') → n < 2 ^ 28)
    (hp : ∀ t p, ts.head? = some t → (anyI z).padding t = .ok p → ts.length ≤ p + 1) :
    (∃ how b ts', ∃ news : List (Nat × Bytes), maybeEmplace (anyI z) (some (olds.flatten ++ audio)) au st ts = .ok (how, b, ts') ∧
      b = (news.map (·.2)).flatten ++ audio ∧
      Pairs (fun t x => Serialised (anyI z) au t x.1 x.2 ∧ CompleteTag x.2) ts news ∧
      (how = .copied ∧ Padded (anyI z) ts (news.map (·.1)) ∨
       how = .emplaced ∧ (news.map (·.2)).flatten.length = olds.flatten.length)) ∨
    (maybeEmplace (anyI z) (some (olds.flatten ++ audio)) au st ts = .throw .tagsetRequest ∧ st = .reducePaddingEvenly ∧
      ∃ n pad ts', sizes (anyI z) au ts = .ok (n, pad, ts') ∧ olds.flatten.length < n) := by
  obtain ⟨L, h1, h2⟩ := canWrite_all hw
  obtain ⟨ts1, h3, -⟩ := sizes_sim (simAny z) au h1
  have hlt := hs _ _ _ h3
  have hlen : ts.length = L.length := by
    unfold Look at h1
    clear h2 h3 hlt hw hts hs hp
    induction h1 with
    | nil => rfl
    | cons _ _ ih => simp [ih]
  have hp' : ∀ e, L.head? = some e → L.length ≤ e.2 + 1 := by
    intro e he
    cases ts with
    | nil => simp at hts
    | cons t ts =>
      cases L with
      | nil => simp at he
      | cons e' L =>
        simp only [List.head?_cons, Option.some.injEq] at he
        subst he
        cases h2 with
        | cons h4 _ =>
          have := hp t _ rfl h4
          rw [hlen] at this
          exact this
  rcases maybe_sim (simAny z) au st h1 olds audio ho hr hb hlt hne hts hp' with ⟨how, ts', qs, h4, h5, h6, h7⟩ | ⟨h4, h5, h6⟩
  · have hser := serialised_all au h1 h5 h6
    refine .inl ⟨how, _, ts', lot au (reset L qs), h4, by rw [lot_snd], hser, ?_⟩
    rcases h7 with ⟨rfl, rfl⟩ | ⟨rfl, h7⟩
    · refine .inl ⟨rfl, ?_⟩
      rw [lot_fst, reset_same]
      exact h2
    · refine .inr ⟨rfl, ?_⟩
      rw [lot_snd, ← h7]
      obtain ⟨ts2, h8, h9⟩ := sizes_sim (simAny z) au h1
      exact (Scribbu.Tagset.image_length (simAny z) au (look_sub (simAny z) (look_set (simAny z) h9 h5)) h6).1
  · refine .inr ⟨h4, ?_, _, _, _, h3, h5⟩
    cases st <;> simp_all

/-- What `replace_tagset_copy` puts in place of the file: the tags, their paddings unchanged, and what followed the old
tags. -/
theorem C33_copy_partial (z : Zlib) (olds : List Bytes) (audio : Bytes) (au : ApplyUnsync) (ts : List AnyTag)
    (ho : ∀ t ∈ olds, CompleteTag t) (hr : NoHeader audio) (hw : ∀ t ∈ ts, CanWrite z t)
    (hs : ∀ n pad ts', sizes (anyI z) au ts = .ok (n, pad, ts') → n < 2 ^ 28) :
    ∃ b ts', ∃ news : List (Nat × Bytes), copyContents (anyI z) (some (olds.flatten ++ audio)) au ts = .ok (b, ts') ∧
      b = (news.map (·.2)).flatten ++ audio ∧ Padded (anyI z) ts (news.map (·.1)) ∧
      Pairs (fun t x => Serialised (anyI z) au t x.1 x.2 ∧ CompleteTag x.2) ts news := by
  obtain ⟨L, h1, h2⟩ := canWrite_all hw
  obtain ⟨ts1, h3, -⟩ := sizes_sim (simAny z) au h1
  have hlt := hs _ _ _ h3
  obtain ⟨ts2, h4, -⟩ := copy_sim (simAny z) au h1 olds audio ho hr hlt
  have := serialised_all au h1 (qs := L.map (·.2)) (by simp) (by rw [reset_same]; exact hlt)
  rw [reset_same] at this
  exact ⟨_, ts2, lot au L, h4, by rw [lot_snd], by rw [lot_fst]; exact h2, this⟩

/-- What `replace_tagset_emplace` does: if the new tags take exactly the room of the old ones, the file consists of the new
tags and what followed the old ones; otherwise the call is refused. -/
theorem C33_emplace_partial (z : Zlib) (olds : List Bytes) (audio : Bytes) (au : ApplyUnsync) (ts : List AnyTag)
    (ho : ∀ t ∈ olds, CompleteTag t) (hr : NoHeader audio) (hne : olds.flatten ++ audio ≠ []) (hw : ∀ t ∈ ts, CanWrite z t)
    (hb : olds.flatten.length < 2 ^ 28) :
    ∃ n pad ts1, sizes (anyI z) au ts = .ok (n, pad, ts1) ∧
      (n ≠ olds.flatten.length → replaceEmplace (anyI z) (some (olds.flatten ++ audio)) au ts = .throw .tagsetRequest) ∧
      (n = olds.flatten.length → ∃ b ts', ∃ news : List (Nat × Bytes),
        replaceEmplace (anyI z) (some (olds.flatten ++ audio)) au ts = .ok (b, ts') ∧
        b = (news.map (·.2)).flatten ++ audio ∧ Padded (anyI z) ts (news.map (·.1)) ∧
        Pairs (fun t x => Serialised (anyI z) au t x.1 x.2 ∧ CompleteTag x.2) ts news) := by
  obtain ⟨L, h1, h2⟩ := canWrite_all hw
  obtain ⟨ts1, h3, -⟩ := sizes_sim (simAny z) au h1
  refine ⟨_, _, ts1, h3, ?_, ?_⟩
  · intro h4
    unfold replaceEmplace
    rw [tagsetSize_tags olds audio ho hr]
    simp only [Res.ok_bind, h3]
    rw [if_pos (Ne.symm h4)]
  · intro h4
    obtain ⟨ts2, h5, -⟩ := emplace_sim (simAny z) au h1 olds audio ho hr h4 hb hne
    have := serialised_all au h1 (qs := L.map (·.2)) (by simp) (by rw [reset_same]; omega)
    rw [reset_same] at this
    exact ⟨_, ts2, lot au L, h5, by rw [lot_snd], by rw [lot_fst]; exact h2, this⟩

/-- A file that does not exist is created, and holds the tags. -/
theorem C33_created_partial (z : Zlib) (au : ApplyUnsync) (st : EmplaceStrategy) (ts : List AnyTag)
    (hts : ts ≠ []) (hw : ∀ t ∈ ts, CanWrite z t)
    (hs : ∀ n pad ts', sizes (anyI z) au ts = .ok (n, pad, ts') → n < 2 ^ 28) :
    ∃ b ts', ∃ news : List (Nat × Bytes), maybeEmplace (anyI z) none au st ts = .ok (.created, b, ts') ∧
      b = (news.map (·.2)).flatten ∧ Padded (anyI z) ts (news.map (·.1)) ∧
      Pairs (fun t x => Serialised (anyI z) au t x.1 x.2 ∧ CompleteTag x.2) ts news := by
  obtain ⟨L, h1, h2⟩ := canWrite_all hw
  obtain ⟨ts1, h3, -⟩ := sizes_sim (simAny z) au h1
  have hlt := hs _ _ _ h3
  have hL : L ≠ [] := by
    rintro rfl
    cases h1
    exact hts rfl
  obtain ⟨ts2, h4⟩ := maybe_sim_none (simAny z) au st h1 hlt hL
  have := serialised_all au h1 (qs := L.map (·.2)) (by simp) (by rw [reset_same]; exact hlt)
  rw [reset_same] at this
  exact ⟨_, ts2, lot au L, h4, by rw [lot_snd], by rw [lot_fst]; exact h2, this⟩

/-- If the last tag announces more than there is in the file, `replace_tagset_copy` gives up before it has touched
the file. -/
theorem C33_truncated (z : Zlib) (olds : List Bytes) (rest : Bytes) (au : ApplyUnsync) (ts : List AnyTag)
    (ho : ∀ t ∈ olds, CompleteTag t) {v r f : Byte} {n : Nat} (hh : IsHeader rest v r f n) (hl : rest.length < 10 + n)
    (hw : ∀ t ∈ ts, CanWrite z t) (hs : ∀ n pad ts', sizes (anyI z) au ts = .ok (n, pad, ts') → n < 2 ^ 28) :
    copyContents (anyI z) (some (olds.flatten ++ rest)) au ts = .throw .other := by
  obtain ⟨L, h1, -⟩ := canWrite_all hw
  obtain ⟨ts1, h3, -⟩ := sizes_sim (simAny z) au h1
  obtain ⟨ts2, h4, -⟩ := writeAll_sim (simAny z) au h1 (hs _ _ _ h3)
  unfold copyContents
  rw [h4]
  simp only [Res.ok_bind]
  have := isHeader_length hh
  rw [readRest_truncated olds rest ho hh hl _ (by have := tags_length ho; rw [List.length_append]; omega)]
  rfl

/-! ### The hypotheses are met -/

/-- An ID3v2.3 tag with two frames and 20 bytes of padding. -/
def sampleTag : AnyTag := .inr (.inl { Tag23.scratch 20 false none with frames := tag3.frames })

/-- The file holds an ID3v2.2 tag and some audio. -/
def sampleOld : Bytes := [0x49, 0x44, 0x33, 2, 0, 0, 0, 0, 0, 3, 0, 0, 0]

theorem sampleOld_complete : CompleteTag sampleOld :=
  ⟨2, 0, 0, 3, ⟨0, 0, 0, 3, [0, 0, 0], rfl, by decide, by decide, by decide, by decide⟩, by decide⟩

theorem sample_canWrite : ∀ t ∈ [sampleTag, bare 1], CanWrite zId t := by
  intro t ht
  simp only [List.mem_cons, List.not_mem_nil, or_false] at ht
  rcases ht with rfl | rfl
  · exact canWrite_plain rfl rfl
  · exact canWrite_plain rfl rfl

/-- An ID3v2.3 tag with two frames and an extended header with a checksum. -/
theorem tag3_canWrite : CanWrite zId (.inr (.inl tag3)) := by
  refine ⟨?_, 42, (match tag3.size zId false with | .ok r => r.2 | _ => tag3), rfl, ?_⟩
  · intro e he; cases he; exact .inl rfl
  · intro e he
    have : ext23 e.cbpad e.crc = [0, 0, 0, 10, 128, 0, 0, 0, 0, 3, 0, 0, 0, 25] := by cases he; decide +kernel
    rw [this]
    refine (C06_unchanged_iff_partial _).1 ?_
    decide

example : (maybeEmplace (anyI zId) (some ([sampleOld].flatten ++ [1, 2])) .always .reducePaddingEvenly [.inr (.inl tag3), sampleTag]).bind
    (fun r => .ok (r.1, r.2.1.take 24, r.2.1.length)) = .ok (.copied, [0x49, 0x44, 0x33, 3, 0, 0xe0, 0, 0, 0, 42, 0, 0, 0, 10, 128, 0, 0, 0, 0, 3, 0, 0, 0, 25], 109) := by
  decide +kernel

example : (sizes (anyI zId) .always [sampleTag, bare 1]).bind (fun r => .ok (r.1, r.2.1)) = .ok (66, 21) := by decide +kernel
example : (anyI zId).padding sampleTag = .ok 20 := rfl

/-- Not enough room: the file is replaced. -/
example : (maybeEmplace (anyI zId) (some ([sampleOld].flatten ++ [1, 2])) .always .reducePaddingEvenly [sampleTag, bare 1]).bind
    (fun r => .ok (r.1, r.2.1.length)) = .ok (.copied, 68) := by decide +kernel
/-- Enough room once the padding is reduced: the file is overwritten. -/
example : (maybeEmplace (anyI zId) (some ([[0x49, 0x44, 0x33, 2, 0, 0, 0, 0, 0, 51] ++ List.replicate 51 7].flatten ++ [1, 2])) .always
    .reducePaddingEvenly [sampleTag, bare 5]).bind (fun r => .ok (r.1, r.2.1.length)) = .ok (.emplaced, 63) := by decide +kernel
/-- Enough padding in all, but not in each tag: refused. -/
example : (maybeEmplace (anyI zId) (some ([[0x49, 0x44, 0x33, 2, 0, 0, 0, 0, 0, 45] ++ List.replicate 45 7].flatten ++ [1, 2])) .always
    .reducePaddingEvenly [sampleTag, bare 1]).bind (fun r => .ok (r.1, r.2.1.length)) = .throw .tagsetRequest := by decide +kernel
/-- Exactly the room there is. -/
example : (replaceEmplace (anyI zId) (some ([sampleOld].flatten ++ [1, 2])) .never [bare 3]).bind (fun r => .ok r.1) =
    .ok [0x49, 0x44, 0x33, 3, 0, 0, 0, 0, 0, 3, 0, 0, 0, 1, 2] := by decide +kernel
example : (replaceEmplace (anyI zId) (some ([sampleOld].flatten ++ [1, 2])) .never [bare 2]).bind (fun r => .ok r.1) =
    .throw .tagsetRequest := by decide +kernel
example : NoHeader [1, 2] := noHeader_short (by decide)
example : IsHeader [0x49, 0x44, 0x33, 2, 0, 0, 0, 0, 0, 3, 0] 2 0 0 3 :=
  ⟨0, 0, 0, 3, [0], rfl, by decide, by decide, by decide, by decide⟩

end Scribbu.Props
