import Verif.Spec.M3u
import Verif.Proofs.Report
import Verif.Proofs.Commands

/-! Lemmas about playlists. -/

namespace Scribbu
namespace M3u
open Commands Spec Spec.M3u Lookup LTag

/-! ## Lines -/

theorem linesFrom_line (a b : Bytes) : ∀ l, 10 ∉ a → linesFrom l (a ++ 10 :: b) = (l ++ a) :: linesFrom [] b := by
  induction a with
  | nil => intro l _; simp [linesFrom]
  | cons c a ih =>
    intro l h
    simp only [List.mem_cons, not_or] at h
    rw [List.cons_append, linesFrom, if_neg (Ne.symm h.1), ih _ h.2]
    simp

theorem lines_line {a : Bytes} (h : 10 ∉ a) (b : Bytes) : lines (a ++ 10 :: b) = a :: lines b := by
  unfold lines
  rw [linesFrom_line a b [] h]; rfl

/-- A text that ends with a line feed, or is empty. -/
def Whole (b : Bytes) : Prop := b = [] ∨ ∃ a, b = a ++ [10]

theorem linesFrom_whole (b c : Bytes) : ∀ l, linesFrom l (b ++ [10] ++ c) = linesFrom l (b ++ [10]) ++ lines c := by
  induction b with
  | nil => intro l; simp [linesFrom, lines]
  | cons x b ih =>
    intro l
    simp only [List.cons_append, linesFrom]
    split
    · rw [ih]; rfl
    · rw [ih]

theorem lines_whole {b : Bytes} (h : Whole b) (c : Bytes) : lines (b ++ c) = lines b ++ lines c := by
  rcases h with rfl | ⟨a, rfl⟩
  · rfl
  · exact linesFrom_whole a c []

/-! ## Items -/

theorem takeWhile_digits {a : Bytes} {c : Byte} (b : Bytes) (ha : ∀ x ∈ a, 48 ≤ x ∧ x ≤ 57) (hc : digit c = false) :
    (a ++ c :: b).takeWhile digit = a ∧ (a ++ c :: b).dropWhile digit = c :: b := by
  induction a with
  | nil => simp [hc]
  | cons x a ih =>
    have hx := ha x (List.mem_cons_self ..)
    have : digit x = true := by simp [digit, hx.1, hx.2]
    have := ih fun y hy => ha y (List.mem_cons_of_mem _ hy)
    simp_all

theorem extinf_line (n : Nat) (d : Bytes) : extinf (EXTINF ++ Backup.dec n ++ [44] ++ d) = some (n, d) := by
  have hd := Report.dec_decimal n
  have h2 := takeWhile_digits d hd.2.1 (c := 44) (by decide)
  have e : EXTINF ++ Backup.dec n ++ [44] ++ d = EXTINF ++ (Backup.dec n ++ 44 :: d) := by simp
  unfold extinf
  rw [e, if_pos (by rw [List.take_append_of_le_length (by decide)]; rfl)]
  rw [show List.drop 8 (EXTINF ++ (Backup.dec n ++ 44 :: d)) = Backup.dec n ++ 44 :: d from rfl, h2.1, h2.2]
  simp only [hd.2.2]

theorem dec_no10 (n : Nat) : 10 ∉ Backup.dec n := by
  intro h
  have := (Report.dec_decimal n).2.1 10 h
  exact absurd this.1 (by decide)

/-- The two lines about a file. -/
def twoLines (n : Nat) (d p : Bytes) : Bytes := EXTINF ++ Backup.dec n ++ [44] ++ d ++ [10] ++ p ++ [10]

theorem lines_two {n : Nat} {d p : Bytes} (hd : 10 ∉ d) (hp : 10 ∉ p) (rest : Bytes) :
    lines (twoLines n d p ++ rest) = (EXTINF ++ Backup.dec n ++ [44] ++ d) :: p :: lines rest := by
  have e : twoLines n d p ++ rest = (EXTINF ++ Backup.dec n ++ [44] ++ d) ++ 10 :: (p ++ 10 :: rest) := by simp [twoLines]
  rw [e, lines_line, lines_line hp]
  have := dec_no10 n
  simp only [List.mem_append, List.mem_singleton, not_or]
  exact ⟨⟨⟨by decide, this⟩, by decide⟩, hd⟩

theorem tracks_two {n : Nat} {d p : Bytes} (hp : PathLine p) (i : Option (Nat × Bytes)) (rest : List Bytes) :
    tracksFrom i ((EXTINF ++ Backup.dec n ++ [44] ++ d) :: p :: rest) = ⟨some (n, d), p⟩ :: tracksFrom none rest := by
  rw [tracksFrom, if_neg (by simp [EXTINF]), if_pos (by rfl), extinf_line, tracksFrom, if_neg hp.1, if_neg hp.2.2]

/-! ## Titles -/

theorem nameIds_artist (v : Ver) : (nameIds v).1 = artistId v := by cases v <;> rfl
theorem nameIds_title (v : Ver) : (nameIds v).2 = titleId v := by cases v <;> rfl

/-- How texts are converted in a run. -/
def Ctx.how (c : Ctx) : How := ⟨c.conv, c.src, c.dst, c.rsp⟩

/-- Whether a tag has a frame. -/
def Has (t : Tg) (id : Bytes) : Prop := ∃ x ∈ contents t.tag, x.id = id

theorem has_iff {t : Tg} (hr : ReadTag t) (hs : ∀ id, t.cfg.textParser id = true → id.head? = some 84) (id : Bytes) :
    t.tag.hasFrame id ≠ 0 ↔ Has t id := by
  obtain ⟨l, e⟩ := hr
  have hk : Report.Known t.cfg t.tag := by rw [e]; exact Report.known_read hs l
  rw [Report.has_known hk]
  unfold withId Has
  constructor
  · intro h
    match hl : (contents t.tag).filter (fun x => x.id = id), h with
    | x :: _, _ =>
      have hx : x ∈ (contents t.tag).filter (fun x => x.id = id) := by rw [hl]; exact List.mem_cons_self ..
      have := List.mem_filter.1 hx
      exact ⟨x, this.1, by simpa using this.2⟩
    | [], h => rw [hl] at h; exact absurd rfl h
  · rintro ⟨x, hx, hi⟩ h
    have := List.length_eq_zero_iff.1 h
    have hm : x ∈ (contents t.tag).filter (fun x => x.id = id) := List.mem_filter.2 ⟨hx, by simpa using hi⟩
    rw [this] at hm
    exact absurd hm (by simp)

theorem readCls_text {c : Cfg} {id : Bytes} (h : c.textParser id = true) (hs : ∀ id, c.textParser id = true → id.head? = some 84) :
    readCls c id = .text := by
  have h1 := hs id h
  unfold readCls
  rw [if_neg, if_neg, if_neg, if_pos h]
  · intro e; rw [e] at h1; unfold Cfg.popId at h1; cases hv : c.ver <;> rw [hv] at h1 <;> exact absurd h1 (by decide)
  · intro e; rw [e] at h1; unfold Cfg.cntId at h1; cases hv : c.ver <;> rw [hv] at h1 <;> exact absurd h1 (by decide)
  · intro e; rw [e] at h1; unfold Cfg.comId at h1; cases hv : c.ver <;> rw [hv] at h1 <;> exact absurd h1 (by decide)

/-- Asked for a text that is there, a tag answers with the data of one of the frames. -/
theorem textOf_has {t : Tg} (hr : ReadTag t) (hs : ∀ id, t.cfg.textParser id = true → id.head? = some 84) {id : Bytes}
    (hi : t.cfg.textParser id = true) (hh : Has t id) : ∃ x ∈ contents t.tag, x.id = id ∧ t.tag.textOf t.cfg id = .ok x.data := by
  obtain ⟨l, e⟩ := hr
  have hk : Report.Known t.cfg t.tag := by rw [e]; exact Report.known_read hs l
  rcases text_answers (c := t.cfg) (tinv_of_inv hk.inv) id with ⟨f, hf, e1, -, -, e2⟩ | ⟨hn, -, -⟩
  · exact ⟨⟨f.id, f.cls, f.data⟩, List.mem_map.2 ⟨f, hf, rfl⟩, e1, e2⟩
  · obtain ⟨x, hx, rfl⟩ := hh
    obtain ⟨f, hf, rfl⟩ := List.mem_map.1 hx
    refine absurd ?_ (hn f hf rfl)
    rw [hk.cls f hf]
    exact readCls_text hi hs

theorem pair_some {a t d : Bytes} : pair a t = some d ↔ ArtistTitle a t d := by
  unfold pair ArtistTitle
  by_cases h : a ≠ [] ∧ t ≠ []
  · rw [if_pos h, Option.some.injEq]
    exact ⟨fun e => ⟨h.1, h.2, e.symm⟩, fun e => e.2.2.symm⟩
  · rw [if_neg h]
    exact ⟨fun e => absurd e (by simp), fun e => absurd ⟨e.1, e.2.1⟩ h⟩

/-- The first tag that has both frames. -/
def FirstBoth (ts : List Tg) (t : Tg) : Prop :=
  ∃ a b, ts = a ++ t :: b ∧ (Has t (nameIds t.cfg.ver).1 ∧ Has t (nameIds t.cfg.ver).2) ∧
    ∀ u ∈ a, ¬ (Has u (nameIds u.cfg.ver).1 ∧ Has u (nameIds u.cfg.ver).2)

theorem find_both {f : Facts} (hf : Fine f) :
    (∃ t, FirstBoth f.v2 t ∧
      f.v2.find? (fun t => t.tag.hasFrame (artistId t.cfg.ver) ≠ 0 && t.tag.hasFrame (titleId t.cfg.ver) ≠ 0) = some t) ∨
    ((∀ t ∈ f.v2, ¬ (Has t (nameIds t.cfg.ver).1 ∧ Has t (nameIds t.cfg.ver).2)) ∧
      f.v2.find? (fun t => t.tag.hasFrame (artistId t.cfg.ver) ≠ 0 && t.tag.hasFrame (titleId t.cfg.ver) ≠ 0) = none) := by
  have key : ∀ t ∈ f.v2, (t.tag.hasFrame (artistId t.cfg.ver) ≠ 0 && t.tag.hasFrame (titleId t.cfg.ver) ≠ 0) = true ↔
      Has t (nameIds t.cfg.ver).1 ∧ Has t (nameIds t.cfg.ver).2 := by
    intro t ht
    obtain ⟨h1, h2, -, -⟩ := hf.tags t ht
    rw [Bool.and_eq_true, decide_eq_true_eq, decide_eq_true_eq, has_iff h1 h2, has_iff h1 h2, nameIds_artist, nameIds_title]
  cases hc : f.v2.find? (fun t => t.tag.hasFrame (artistId t.cfg.ver) ≠ 0 && t.tag.hasFrame (titleId t.cfg.ver) ≠ 0) with
  | some t =>
    left
    obtain ⟨h1, a, b, h2, h3⟩ := List.find?_eq_some_iff_append.1 hc
    refine ⟨t, ⟨a, b, h2, (key t (by rw [h2]; simp)).1 h1, ?_⟩, rfl⟩
    intro u hu hb
    have := h3 u hu
    rw [(key u (by rw [h2]; simp [hu])).2 hb] at this
    exact absurd this (by decide)
  | none =>
    right
    refine ⟨fun t ht hb => ?_, rfl⟩
    have := List.find?_eq_none.1 hc t ht
    exact this ((key t ht).2 hb)

/-- What `fromV2` comes to. -/
theorem fromV2_spec (c : Ctx) {f : Facts} (hf : Fine f) :
    (∃ t, FirstBoth f.v2 t ∧ ∃ x ∈ contents t.tag, x.id = (nameIds t.cfg.ver).1 ∧ ∃ y ∈ contents t.tag, y.id = (nameIds t.cfg.ver).2 ∧
      fromV2 c f.v2 = .ok (match c.how.frame t.cfg.ver x.data, c.how.frame t.cfg.ver y.data with
        | some a, some b => some (pair a b)
        | _, _ => none)) ∨
    ((∀ t ∈ f.v2, ¬ (Has t (nameIds t.cfg.ver).1 ∧ Has t (nameIds t.cfg.ver).2)) ∧ fromV2 c f.v2 = .ok (some none)) := by
  rcases find_both hf with ⟨t, ht, e⟩ | ⟨hn, e⟩
  · left
    obtain ⟨a, b, h2, ⟨ha, hb⟩, -⟩ := id ht
    obtain ⟨g1, g2, g3, g4⟩ := hf.tags t (by rw [h2]; simp)
    obtain ⟨x, hx, ix, ex⟩ := textOf_has g1 g2 g3 ha
    obtain ⟨y, hy, iy, ey⟩ := textOf_has g1 g2 g4 hb
    refine ⟨t, ht, x, hx, ix, y, hy, iy, ?_⟩
    rw [nameIds_artist] at ex
    rw [nameIds_title] at ey
    unfold fromV2
    rw [e]
    simp only [ex, Res.ok_bind]
    unfold How.frame Ctx.how
    simp only
    cases c.conv.frame t.cfg.ver x.data c.dst c.rsp c.src with
    | none => rfl
    | some a =>
      simp only [ey, Res.ok_bind]
      cases c.conv.frame t.cfg.ver y.data c.dst c.rsp c.src <;> rfl
  · right
    refine ⟨hn, ?_⟩
    unfold fromV2
    rw [e]

theorem fromV1_some (c : Ctx) (v : Option V1Tag) (d : Bytes) : fromV1 c v = some d ↔ ∃ t, v = some t ∧ Named1 c.how t d := by
  unfold fromV1 Named1 How.field Ctx.how
  cases v with
  | none => simp
  | some t =>
    simp only [Option.some.injEq, exists_eq_left']
    cases h1 : c.conv.field t.artist c.src c.dst c.rsp with
    | none => simp
    | some a =>
      cases h2 : c.conv.field t.title c.src c.dst c.rsp with
      | none => simp
      | some b => simp [pair_some]

/-- The title guessed is what some tag names. -/
theorem guess_named (c : Ctx) {f : Facts} (hf : Fine f) : ∃ g, guessDisplayTitle c f = .ok g ∧ ∀ d, g = some d → Named c.how f d := by
  unfold guessDisplayTitle
  rcases fromV2_spec c hf with ⟨t, ⟨a, b, h2, -⟩, x, hx, ix, y, hy, iy, e⟩ | ⟨-, e⟩
  · rw [e, Res.ok_bind]
    cases h3 : c.how.frame t.cfg.ver x.data with
    | none => exact ⟨_, rfl, by simp⟩
    | some s =>
      cases h4 : c.how.frame t.cfg.ver y.data with
      | none => exact ⟨_, rfl, by simp⟩
      | some u =>
        simp only
        cases h5 : pair s u with
        | none =>
          refine ⟨_, rfl, fun d hd => ?_⟩
          exact Or.inr ((fromV1_some c f.v1 d).1 hd)
        | some z =>
          refine ⟨_, rfl, fun d hd => ?_⟩
          cases hd
          exact Or.inl ⟨t, by rw [h2]; simp, x, hx, ix, y, hy, iy, s, u, h3, h4, pair_some.1 h5⟩
  · rw [e, Res.ok_bind]
    exact ⟨_, rfl, fun d hd => Or.inr ((fromV1_some c f.v1 d).1 hd)⟩

/-! ## Names of files -/

theorem span_reverse {p : Byte → Bool} (l : Bytes) : l = (l.reverse.dropWhile p).reverse ++ (l.reverse.takeWhile p).reverse := by
  rw [← List.reverse_append, List.takeWhile_append_dropWhile, List.reverse_reverse]

theorem name_spec (p : Path) : IsName p (baseName p) := by
  refine ⟨(p.reverse.dropWhile (· ≠ 47)).reverse, span_reverse p, ?_, ?_⟩
  · unfold baseName
    intro h
    have := List.all_takeWhile (l := p.reverse) (p := fun x => decide (x ≠ (47 : Byte)))
    have := List.all_eq_true.1 this 47 (by simpa using h)
    simp at this
  · cases h : p.reverse.dropWhile (· ≠ 47) with
    | nil => left; rfl
    | cons c l =>
      right
      have hc : c = 47 := by
        have := List.head?_dropWhile_not (p := fun x => decide (x ≠ (47 : Byte))) (l := p.reverse)
        rw [h] at this
        simpa using this
      exact ⟨l.reverse, by simp [hc]⟩

theorem stem_spec (p : Path) : IsStem p (stem p) := by
  refine ⟨baseName p, name_spec p, ?_⟩
  unfold stem
  simp only
  generalize baseName p = b
  by_cases h : b = [46, 46]
  · left; rw [if_pos h]; exact ⟨h, rfl⟩
  rw [if_neg h]
  right
  have hb := span_reverse (p := fun x => decide (x ≠ (46 : Byte))) b
  have hn : 46 ∉ (b.reverse.takeWhile fun x => decide (x ≠ (46 : Byte))).reverse := by
    intro h
    have := List.all_takeWhile (l := b.reverse) (p := fun x => decide (x ≠ (46 : Byte)))
    have := List.all_eq_true.1 this 46 (by simpa using h)
    simp at this
  cases h2 : b.reverse.dropWhile (· ≠ 46) with
  | nil =>
    left
    rw [h2] at hb
    simp only [List.reverse_nil, List.nil_append] at hb
    refine ⟨h, by simp, fun hm => hn ?_⟩
    rw [← hb]
    exact List.mem_of_mem_tail hm
  | cons c l =>
    have hc : c = 46 := by
      have := List.head?_dropWhile_not (p := fun x => decide (x ≠ (46 : Byte))) (l := b.reverse)
      rw [h2] at this
      simpa using this
    subst hc
    rw [h2] at hb
    simp only [List.drop_succ_cons, List.drop_zero]
    by_cases hl : l = []
    · left
      rw [if_pos hl]
      refine ⟨h, rfl, ?_⟩
      rw [hl] at hb
      simp only [List.reverse_cons, List.reverse_nil, List.nil_append, List.singleton_append] at hb
      rw [hb, List.tail_cons]
      exact hn
    · right
      rw [if_neg hl]
      refine ⟨h, by simpa using hl, _, ?_, hn⟩
      rw [List.reverse_cons] at hb
      simpa using hb

theorem seconds_spec {f : Facts} (h : 0 < f.den) : Nearest (seconds f) f := by
  unfold Nearest seconds
  have h1 := Nat.div_add_mod (2 * (f.num * f.frames) + f.den) (2 * f.den)
  have h2 := Nat.mod_lt (2 * (f.num * f.frames) + f.den) (y := 2 * f.den) (by omega)
  generalize (2 * (f.num * f.frames) + f.den) / (2 * f.den) = q at h1 ⊢
  have e : 2 * f.den * q = 2 * (q * f.den) := by rw [Nat.mul_assoc, Nat.mul_comm f.den q]
  rw [e] at h1
  omega

/-! ## Walks -/

theorem Each.append {β : Type} {R : Path → β → Prop} {ps qs : List Path} {ts us : List β} (h : Each R ps ts) (k : Each R qs us) :
    Each R (ps ++ qs) (ts ++ us) := by
  induction h with
  | nil => exact k
  | cons p ps t ts h1 _ ih => exact .cons p _ t _ h1 ih

theorem Each.split {β : Type} {R : Path → β → Prop} : ∀ {ps qs : List Path} {ts : List β}, Each R (ps ++ qs) ts →
    ∃ a b, ts = a ++ b ∧ Each R ps a ∧ Each R qs b := by
  intro ps
  induction ps with
  | nil => intro qs ts h; exact ⟨[], ts, rfl, .nil, h⟩
  | cons p ps ih =>
    intro qs ts h
    cases h with
    | cons _ _ t ts h1 h2 =>
      obtain ⟨a, b, rfl, ha, hb⟩ := ih h2
      exact ⟨t :: a, b, rfl, .cons p ps t a h1 ha, hb⟩

theorem Each.exists {β : Type} {R : Path → β → Prop} : ∀ {ps : List Path}, (∀ p ∈ ps, ∃ t, R p t) → ∃ ts, Each R ps ts := by
  intro ps
  induction ps with
  | nil => intro _; exact ⟨[], .nil⟩
  | cons p ps ih =>
    intro h
    obtain ⟨t, ht⟩ := h p (List.mem_cons_self ..)
    obtain ⟨ts, hts⟩ := ih fun q hq => h q (List.mem_cons_of_mem _ hq)
    exact ⟨t :: ts, .cons p ps t ts ht hts⟩

/-- The text about a file. -/
def Entry (c : Ctx) (read : Path → Res Facts) (p : Path) (b : Bytes) : Prop := (read p).bind (entry c p) = .ok b

/-- What is said about things that are not files. -/
def notices (c : Ctx) (F : Forest) : Bytes := if c.verbose then (strange F).flatMap notice else []

theorem walk_file {c : Ctx} (hc : c.toFile = true) {read : Path → Res Facts} : ∀ (F : Forest), sound F = true → ∀ {bs : List Bytes},
    Each (Entry c read) (found F) bs → ∀ s, walk c read F s = (⟨s.list ++ bs.flatten, s.cout ++ notices c F⟩, .ok ()) := by
  intro F
  induction F with
  | nil =>
    intro _ bs h s
    cases h
    simp [walk, notices, strange]
  | file p r ih =>
    intro hs bs h s
    cases h with
    | cons _ _ b bs h1 h2 =>
      unfold Entry at h1
      rw [walk, h1]
      simp only
      rw [ih hs h2]
      simp [St.put, hc, notices, strange]
  | other p r ih =>
    intro hs bs h s
    rw [walk, ih hs h]
    cases hv : c.verbose <;> simp [notices, strange, hv]
  | bad r ih => intro hs; exact absurd hs (by simp [sound])
  | dir k b r ihk ihr =>
    intro hs bs h s
    simp only [sound, Bool.and_eq_true, Bool.not_eq_true'] at hs
    obtain ⟨x, y, rfl, hx, hy⟩ := Each.split h
    rw [walk, ihk hs.1.1 hx]
    simp only [hs.1.2, Bool.false_eq_true, if_false]
    rw [ihr hs.2 hy]
    cases hv : c.verbose <;> simp [notices, strange, hv]

theorem walk_cout {c : Ctx} (hc : c.toFile = false) (hv : c.verbose = false ∨ strange F = []) {read : Path → Res Facts} : sound F = true →
    ∀ {bs : List Bytes}, Each (Entry c read) (found F) bs → ∀ s, walk c read F s = (⟨s.list, s.cout ++ bs.flatten⟩, .ok ()) := by
  induction F with
  | nil =>
    intro _ bs h s
    cases h
    simp [walk]
  | file p r ih =>
    intro hs bs h s
    cases h with
    | cons _ _ b bs h1 h2 =>
      unfold Entry at h1
      rw [walk, h1]
      simp only
      rw [ih hv hs h2]
      simp [St.put, hc]
  | other p r ih =>
    intro hs bs h s
    rcases hv with hv | hv
    · rw [walk, ih (.inl hv) hs h]
      simp [hv]
    · exact absurd hv (by simp [strange])
  | bad r ih => intro hs; exact absurd hs (by simp [sound])
  | dir k b r ihk ihr =>
    intro hs bs h s
    simp only [sound, Bool.and_eq_true, Bool.not_eq_true'] at hs
    obtain ⟨x, y, rfl, hx, hy⟩ := Each.split h
    have h1 : c.verbose = false ∨ strange k = [] := hv.imp id fun e => (List.append_eq_nil_iff.1 e).1
    have h2 : c.verbose = false ∨ strange r = [] := hv.imp id fun e => (List.append_eq_nil_iff.1 e).2
    rw [walk, ihk h1 hs.1.1 hx]
    simp only [hs.1.2, Bool.false_eq_true, if_false]
    rw [ihr h2 hs.2 hy]
    simp

/-- A walk that gets to its end has found the file system answering, and every file readable. -/
theorem walk_ok {c : Ctx} {read : Path → Res Facts} : ∀ (F : Forest) (s s' : St) (u : Unit), walk c read F s = (s', .ok u) →
    sound F = true ∧ ∃ bs, Each (Entry c read) (found F) bs := by
  intro F
  induction F with
  | nil => intro s s' u _; exact ⟨rfl, [], .nil⟩
  | file p r ih =>
    intro s s' u h
    rw [walk] at h
    cases e : (read p).bind (entry c p) with
    | ok b =>
      rw [e] at h
      obtain ⟨h1, bs, h2⟩ := ih _ _ _ h
      exact ⟨h1, b :: bs, .cons p _ b bs e h2⟩
    | throw x => rw [e] at h; exact absurd (congrArg Prod.snd h) (by simp)
    | ub x => rw [e] at h; exact absurd (congrArg Prod.snd h) (by simp)
  | other p r ih => intro s s' u h; rw [walk] at h; exact ih _ _ _ h
  | bad r ih => intro s s' u h; exact absurd (congrArg Prod.snd h) (by simp [walk])
  | dir k b r ihk ihr =>
    intro s s' u h
    rw [walk] at h
    cases e : walk c read k s with
    | mk s1 r1 =>
      rw [e] at h
      cases r1 with
      | ok v =>
        simp only at h
        cases b with
        | true => exact absurd (congrArg Prod.snd h) (by simp)
        | false =>
          obtain ⟨h1, bs, h2⟩ := ihk _ _ _ e
          obtain ⟨h3, cs, h4⟩ := ihr _ _ _ h
          exact ⟨by simp [sound, h1, h3], bs ++ cs, Each.append h2 h4⟩
      | throw x => exact absurd (congrArg Prod.snd h) (by simp)
      | ub x => exact absurd (congrArg Prod.snd h) (by simp)

/-- A file about which nothing can be said ends the walk there. -/
theorem walk_stops {c : Ctx} (hc : c.toFile = true) {read : Path → Res Facts} : ∀ (F : Forest), sound F = true → ∀ {as qs : List Path} {p : Path} {e : Exc}
    {bs : List Bytes}, found F = as ++ p :: qs → Each (Entry c read) as bs → (read p).bind (entry c p) = .throw e →
    ∀ s, ∃ out, walk c read F s = (⟨s.list ++ bs.flatten, out⟩, .throw e) := by
  intro F
  induction F with
  | nil => intro _ as qs p e bs h; exact absurd h (by simp [found])
  | file q r ih =>
    intro hs as qs p e bs h hb hp s
    cases hb with
    | nil =>
      simp only [found, List.nil_append, List.cons.injEq] at h
      rw [walk, h.1, hp]
      exact ⟨s.cout, by simp⟩
    | cons a as b bs h1 h2 =>
      simp only [found, List.cons_append, List.cons.injEq] at h
      unfold Entry at h1
      rw [walk, h.1, h1]
      simp only
      obtain ⟨out, ho⟩ := ih hs h.2 h2 hp (s.put c b)
      exact ⟨out, by rw [ho]; simp [St.put, hc]⟩
  | other q r ih =>
    intro hs as qs p e bs h hb hp s
    rw [walk]
    obtain ⟨out, ho⟩ := ih hs h hb hp (if c.verbose then { s with cout := s.cout ++ notice q } else s)
    refine ⟨out, ?_⟩
    rw [ho]
    split <;> rfl
  | bad r ih => intro hs; exact absurd hs (by simp [sound])
  | dir k b r ihk ihr =>
    intro hs as qs p e bs h hb hp s
    simp only [sound, Bool.and_eq_true, Bool.not_eq_true'] at hs
    rcases List.append_eq_append_iff.1 (show found k ++ found r = as ++ p :: qs from h) with ⟨m, rfl, hr⟩ | ⟨m, hk, hm⟩
    · obtain ⟨x, y, rfl, hx, hy⟩ := Each.split hb
      rw [walk, walk_file hc k hs.1.1 hx]
      simp only [hs.1.2, Bool.false_eq_true, if_false]
      obtain ⟨out, ho⟩ := ihr hs.2 hr hy hp ⟨s.list ++ x.flatten, s.cout ++ notices c k⟩
      exact ⟨out, by rw [ho]; simp⟩
    · cases m with
      | nil =>
        simp only [List.append_nil] at hk
        subst hk
        simp only [List.nil_append] at hm
        rw [walk, walk_file hc k hs.1.1 hb]
        simp only [hs.1.2, Bool.false_eq_true, if_false]
        obtain ⟨out, ho⟩ := ihr hs.2 (as := []) hm.symm .nil hp ⟨s.list ++ bs.flatten, s.cout ++ notices c k⟩
        exact ⟨out, by rw [ho]; simp⟩
      | cons x m =>
        simp only [List.cons_append, List.cons.injEq] at hm
        obtain ⟨rfl, -⟩ := hm
        obtain ⟨out, ho⟩ := ihk hs.1.1 hk hb hp s
        rw [walk, ho]
        exact ⟨out, rfl⟩

/-- Whether notices are given makes no difference to a playlist in a file. -/
theorem walk_verbose (c : Ctx) (hc : c.toFile = true) (read : Path → Res Facts) : ∀ (F : Forest) (s t : St), s.list = t.list →
    (walk { c with verbose := true } read F s).1.list = (walk { c with verbose := false } read F t).1.list ∧
    (walk { c with verbose := true } read F s).2 = (walk { c with verbose := false } read F t).2 := by
  intro F
  induction F with
  | nil => intro s t h; exact ⟨h, rfl⟩
  | file p r ih =>
    intro s t h
    rw [walk, walk]
    have e : entry { c with verbose := true } p = entry { c with verbose := false } p := rfl
    rw [e]
    cases (read p).bind (entry { c with verbose := false } p) with
    | ok b => exact ih _ _ (by simp [St.put, hc, h])
    | throw x => exact ⟨h, rfl⟩
    | ub x => exact ⟨h, rfl⟩
  | other p r ih => intro s t h; rw [walk, walk]; exact ih _ _ (by simp [h])
  | bad r ih => intro s t h; exact ⟨h, rfl⟩
  | dir k b r ihk ihr =>
    intro s t h
    rw [walk, walk]
    have hk := ihk s t h
    cases e1 : walk { c with verbose := true } read k s with
    | mk s1 r1 =>
      cases e2 : walk { c with verbose := false } read k t with
      | mk s2 r2 =>
        rw [e1, e2] at hk
        obtain ⟨h1, h2⟩ := hk
        simp only at h1 h2
        subst h2
        cases r1 with
        | ok v =>
          simp only
          cases b with
          | true => exact ⟨h1, rfl⟩
          | false => exact ihr _ _ h1
        | throw x => exact ⟨h1, rfl⟩
        | ub x => exact ⟨h1, rfl⟩

/-! ## Entries -/

theorem entry_two (c : Ctx) {read : Path → Res Facts} {p : Path} {f : Facts} (hr : read p = .ok f) (hf : Fine f) :
    ∃ d, Entry c read p (twoLines (seconds f) d p) ∧ (Named c.how f d ∨ IsStem p d) := by
  obtain ⟨g, hg, hn⟩ := guess_named c hf
  unfold Entry entry
  rw [hr, Res.ok_bind, hg, Res.ok_bind]
  cases g with
  | some d => exact ⟨d, rfl, .inl (hn d rfl)⟩
  | none => exact ⟨stem p, rfl, .inr (stem_spec p)⟩

theorem named_line {h : How} {f : Facts} (ho : OneLine h f) {d : Bytes} (hd : Named h f d) : 10 ∉ d := by
  have glue : ∀ {a b : Bytes}, ArtistTitle a b d → 10 ∉ a → 10 ∉ b → 10 ∉ d := by
    rintro a b ⟨-, -, rfl⟩ h1 h2
    simp only [List.mem_append, not_or]
    exact ⟨⟨h1, by decide⟩, h2⟩
  rcases hd with ⟨t, ht, x, hx, -, y, hy, -, a, b, ha, hb, hat⟩ | ⟨t, ht, a, b, ha, hb, hat⟩
  · exact glue hat (ho.v2 t ht x hx a ha) (ho.v2 t ht y hy b hb)
  · exact glue hat ((ho.v1 t ht).1 a ha) ((ho.v1 t ht).2 b hb)

theorem name_sub {p n : Bytes} (h : IsName p n) {c : Byte} (hc : c ∈ n) : c ∈ p := by
  obtain ⟨d, rfl, -⟩ := h; simp [hc]

theorem stem_sub {p s : Bytes} (h : IsStem p s) {c : Byte} (hc : c ∈ s) : c ∈ p := by
  obtain ⟨n, hn, ⟨-, rfl⟩ | ⟨-, rfl, -⟩ | ⟨-, -, e, rfl, -⟩⟩ := h
  · exact name_sub hn hc
  · exact name_sub hn hc
  · exact name_sub hn (by simp [hc])

theorem found_wanted : ∀ (F : Forest) (i : Bool), (∀ p ∈ found F, [46, 109, 112, 51] <:+ p) → wanted i F = found F := by
  intro F
  induction F with
  | nil => intro i _; rfl
  | file p r ih =>
    intro i h
    have hp := h p (by simp [found])
    have := ih i fun q hq => h q (by simp [found, hq])
    simp [wanted, found, hp, this]
  | other p r ih => intro i h; exact ih i h
  | bad r ih => intro i h; exact ih i h
  | dir k b r ihk ihr =>
    intro i h
    rw [wanted, found, ihk true fun q hq => h q (by simp [found, hq]), ihr i fun q hq => h q (by simp [found, hq])]

theorem wanted_sub : ∀ (F : Forest) (i : Bool), List.Sublist (wanted i F) (found F) := by
  intro F
  induction F with
  | nil => intro i; exact List.Sublist.slnil
  | file p r ih =>
    intro i
    rw [wanted, found]
    split
    · exact .cons _ (ih i)
    · exact .cons_cons _ (ih i)
  | other p r ih => intro i; exact ih i
  | bad r ih => intro i; exact ih i
  | dir k b r ihk ihr => intro i; exact List.Sublist.append (ihk true) (ihr i)

/-! ## UTF-8 -/

theorem Utf8.append {a b : Bytes} (h : Utf8 a) (k : Utf8 b) : Utf8 (a ++ b) := by
  induction h with
  | nil => exact k
  | one c s h1 _ ih => exact .one c _ h1 ih
  | two c d s h1 h2 h3 _ ih => exact .two c d _ h1 h2 h3 ih
  | three c d e s h1 h2 _ ih => exact .three c d e _ h1 h2 ih
  | four c d e f s h1 h2 h3 _ ih => exact .four c d e f _ h1 h2 h3 ih

theorem utf8_ascii {a : Bytes} (h : ∀ c ∈ a, c < 0x80) : Utf8 a := by
  induction a with
  | nil => exact .nil
  | cons c a ih => exact .one c a (h c (List.mem_cons_self ..)) (ih fun x hx => h x (List.mem_cons_of_mem _ hx))

theorem cont_not {c : Byte} (h : Cont c) : ¬ c < 0x80 := by
  unfold Cont at h
  simp only [UInt8.le_iff_toNat_le, UInt8.lt_iff_toNat_lt] at h ⊢
  have : (0x80 : UInt8).toNat = 128 := rfl
  omega

/-- A character of one byte does not begin inside another. -/
theorem Utf8.split {x : Byte} (hx : x < 0x80) : ∀ {l : Bytes}, Utf8 l → ∀ {a b : Bytes}, l = a ++ x :: b → Utf8 a ∧ Utf8 b := by
  have hx' : x.toNat < 128 := by simpa [UInt8.lt_iff_toNat_lt] using hx
  intro l h
  induction h with
  | nil => intro a b e; exact absurd e (by simp)
  | one c s h1 h2 ih =>
    intro a b e
    cases a with
    | nil => simp only [List.nil_append, List.cons.injEq] at e; exact ⟨.nil, e.2 ▸ h2⟩
    | cons y a =>
      simp only [List.cons_append, List.cons.injEq] at e
      obtain ⟨h3, h4⟩ := ih e.2
      exact ⟨.one _ _ (e.1 ▸ h1) h3, h4⟩
  | two c d s h1 h2 h3 h4 ih =>
    intro a b e
    match a, e with
    | [], e =>
      simp only [List.nil_append, List.cons.injEq] at e
      rw [e.1, UInt8.le_iff_toNat_le] at h1
      exact absurd h1 (by rw [show (0xc2 : UInt8).toNat = 194 from rfl]; omega)
    | [y], e =>
      simp only [List.cons_append, List.nil_append, List.cons.injEq] at e
      rw [e.2.1] at h3
      exact absurd hx (cont_not h3)
    | y :: z :: a, e =>
      simp only [List.cons_append, List.cons.injEq] at e
      obtain ⟨h5, h6⟩ := ih e.2.2
      exact ⟨e.1 ▸ e.2.1 ▸ .two c d a h1 h2 h3 h5, h6⟩
  | three c d g s h1 h2 h3 ih =>
    have hc : ¬ c < 0x80 ∧ ¬ d < 0x80 := by
      simp only [Cont, UInt8.le_iff_toNat_le, UInt8.lt_iff_toNat_lt, ← UInt8.toNat_inj] at h1 ⊢
      simp at h1 ⊢
      omega
    intro a b e
    match a, e with
    | [], e =>
      simp only [List.nil_append, List.cons.injEq] at e
      exact absurd (e.1 ▸ hx) hc.1
    | [y], e =>
      simp only [List.cons_append, List.nil_append, List.cons.injEq] at e
      exact absurd (e.2.1 ▸ hx) hc.2
    | [y, z], e =>
      simp only [List.cons_append, List.nil_append, List.cons.injEq] at e
      rw [e.2.2.1] at h2
      exact absurd hx (cont_not h2)
    | y :: z :: w :: a, e =>
      simp only [List.cons_append, List.cons.injEq] at e
      obtain ⟨h5, h6⟩ := ih e.2.2.2
      exact ⟨e.1 ▸ e.2.1 ▸ e.2.2.1 ▸ .three c d g a h1 h2 h5, h6⟩
  | four c d g k s h1 h2 h3 h4 ih =>
    have hc : ¬ c < 0x80 ∧ ¬ d < 0x80 := by
      simp only [Cont, UInt8.le_iff_toNat_le, UInt8.lt_iff_toNat_lt, ← UInt8.toNat_inj] at h1 ⊢
      simp at h1 ⊢
      omega
    intro a b e
    match a, e with
    | [], e =>
      simp only [List.nil_append, List.cons.injEq] at e
      exact absurd (e.1 ▸ hx) hc.1
    | [y], e =>
      simp only [List.cons_append, List.nil_append, List.cons.injEq] at e
      exact absurd (e.2.1 ▸ hx) hc.2
    | [y, z], e =>
      simp only [List.cons_append, List.nil_append, List.cons.injEq] at e
      rw [e.2.2.1] at h2
      exact absurd hx (cont_not h2)
    | [y, z, w], e =>
      simp only [List.cons_append, List.nil_append, List.cons.injEq] at e
      rw [e.2.2.2.1] at h3
      exact absurd hx (cont_not h3)
    | y :: z :: w :: v :: a, e =>
      simp only [List.cons_append, List.cons.injEq] at e
      obtain ⟨h5, h6⟩ := ih e.2.2.2.2
      exact ⟨e.1 ▸ e.2.1 ▸ e.2.2.1 ▸ e.2.2.2.1 ▸ .four c d g k a h1 h2 h3 h5, h6⟩

theorem name_utf8 {p n : Bytes} (h : IsName p n) (hp : Utf8 p) : Utf8 n := by
  obtain ⟨d, rfl, -, rfl | ⟨e, rfl⟩⟩ := h
  · exact hp
  · exact (Utf8.split (x := 47) (by decide) hp (a := e) (b := n) (by simp)).2

theorem stem_utf8 {p s : Bytes} (h : IsStem p s) (hp : Utf8 p) : Utf8 s := by
  obtain ⟨n, hn, ⟨-, rfl⟩ | ⟨-, rfl, -⟩ | ⟨-, -, e, rfl, -⟩⟩ := h
  · exact name_utf8 hn hp
  · exact name_utf8 hn hp
  · exact (Utf8.split (x := 46) (by decide) (name_utf8 hn hp) rfl).1

theorem twoLines_utf8 {n : Nat} {d p : Bytes} (hd : Utf8 d) (hp : Utf8 p) : Utf8 (twoLines n d p) := by
  have hn : Utf8 (Backup.dec n) := utf8_ascii fun c hc => by
    have := (Report.dec_decimal n).2.1 c hc
    simp only [UInt8.le_iff_toNat_le, UInt8.lt_iff_toNat_lt] at this ⊢
    simp at this ⊢
    omega
  unfold twoLines
  exact Utf8.append (Utf8.append (Utf8.append (Utf8.append (Utf8.append (Utf8.append (utf8_ascii (by decide)) hn) (utf8_ascii (by decide))) hd)
    (utf8_ascii (by decide))) hp) (utf8_ascii (by decide))

end M3u
end Scribbu
