import Verif.Proofs.Tagset
import Verif.Proofs.Tag22
import Verif.Proofs.Tag23
import Verif.Model.AnyTag

namespace Scribbu
namespace Tagset
open Spec

/-- What a tag looks like from outside: whether it needs unsynchronisation, its size without padding, and how it is
serialised with a given padding. -/
structure View where
  need : Bool
  cb : Bool → Nat
  bytes : Bool → Nat → Bytes

/-- What the functions of scribbu/tagset.hh rely on. `R0`: a tag; `R1`: a tag whose size has been asked for. -/
structure Sim (I : TagI τ) (R0 R1 : τ → View → Nat → Prop) : Prop where
  needs : ∀ {t V p}, R0 t V p → ∃ t', I.needs t = .ok (V.need, t') ∧ R0 t' V p
  size : ∀ {t V p} u, R0 t V p → ∃ t', I.size t u = .ok (V.cb u + p, t') ∧ R1 t' V p
  pad : ∀ {t V p}, R1 t V p → I.padding t = .ok p
  set : ∀ {t V p} q, R1 t V p → R1 (I.setPadding t q) V q
  sub : ∀ {t V p}, R1 t V p → R0 t V p
  write : ∀ {t V p} u, R0 t V p → V.cb u + p < 2 ^ 28 → ∃ t', I.write t u = .ok (V.bytes u p, t') ∧ R1 t' V p
  len : ∀ {t V p} u, R0 t V p → V.cb u + p < 2 ^ 28 →
    (V.bytes u p).length = 10 + (V.cb u + p) ∧ CompleteTag (V.bytes u p)

variable {τ : Type} {I : TagI τ} {R0 R1 : τ → View → Nat → Prop}

/-- A view and a padding. -/
abbrev Entry := View × Nat

def pick (au : ApplyUnsync) (V : View) : Bool :=
  match au with
  | .never => false
  | .always => true
  | .asNeeded => V.need

/-- Size of a tag with its header. -/
def Entry.size (au : ApplyUnsync) (e : Entry) : Nat := e.1.cb (pick au e.1) + e.2 + 10

def total (au : ApplyUnsync) (L : List Entry) : Nat := (L.map (Entry.size au)).sum

def image (au : ApplyUnsync) (L : List Entry) : List Bytes := L.map fun e => e.1.bytes (pick au e.1) e.2

/-- The tags have these views and paddings. -/
def Look (R : τ → View → Nat → Prop) : List τ → List Entry → Prop := Pairs fun t e => R t e.1 e.2

theorem compute_sim (S : Sim I R0 R1) (au : ApplyUnsync) {t : τ} {V : View} {p : Nat} (h : R0 t V p) :
    ∃ t', computeApplyUnsync I au t = .ok (pick au V, t') ∧ R0 t' V p := by
  cases au with
  | never => exact ⟨t, rfl, h⟩
  | always => exact ⟨t, rfl, h⟩
  | asNeeded => exact S.needs h

theorem sizes_sim (S : Sim I R0 R1) (au : ApplyUnsync) {ts : List τ} {L : List Entry} (h : Look R0 ts L) :
    ∃ ts', sizes I au ts = .ok (total au L, (L.map (·.2)).sum, ts') ∧ Look R1 ts' L := by
  unfold Look at h
  induction h with
  | nil => exact ⟨[], rfl, .nil⟩
  | @cons t e ts L h1 _ ih =>
    obtain ⟨ts', h2, h3⟩ := ih
    obtain ⟨t1, h4, h5⟩ := compute_sim S au h1
    obtain ⟨t2, h6, h7⟩ := S.size (pick au e.1) h5
    refine ⟨t2 :: ts', ?_, .cons h7 h3⟩
    simp only [sizes, h4, h6, S.pad h7, h2, Res.ok_bind]
    rfl

theorem writeAll_sim (S : Sim I R0 R1) (au : ApplyUnsync) {ts : List τ} {L : List Entry} (h : Look R0 ts L)
    (hs : total au L < 2 ^ 28) :
    ∃ ts', writeAll I au ts = .ok ((image au L).flatten, ts') ∧ Look R1 ts' L := by
  unfold Look at h
  induction h with
  | nil => exact ⟨[], rfl, .nil⟩
  | @cons t e ts L h1 _ ih =>
    simp only [total, List.map_cons, List.sum_cons, Entry.size] at hs
    obtain ⟨ts', h2, h3⟩ := ih (by simp only [total, Entry.size]; omega)
    obtain ⟨t1, h4, h5⟩ := compute_sim S au h1
    obtain ⟨t2, h6, h7⟩ := S.write (pick au e.1) h5 (by omega)
    refine ⟨t2 :: ts', ?_, .cons h7 h3⟩
    simp only [writeAll, h4, h6, h2, Res.ok_bind, image, List.map_cons, List.flatten_cons]

theorem image_length (S : Sim I R0 R1) (au : ApplyUnsync) {ts : List τ} {L : List Entry} (h : Look R0 ts L)
    (hs : total au L < 2 ^ 28) : (image au L).flatten.length = total au L ∧ ∀ b ∈ image au L, CompleteTag b := by
  unfold Look at h
  induction h with
  | nil => exact ⟨rfl, by simp [image]⟩
  | @cons t e ts L h1 _ ih =>
    simp only [total, List.map_cons, List.sum_cons, Entry.size] at hs
    obtain ⟨h2, h3⟩ := ih (by simp only [total, Entry.size]; omega)
    obtain ⟨h4, h5⟩ := S.len (pick au e.1) h1 (by omega)
    refine ⟨?_, ?_⟩
    · simp only [image, List.map_cons, List.flatten_cons, List.length_append, h4]
      simp only [image] at h2
      rw [h2]
      simp only [total, List.map_cons, List.sum_cons, Entry.size]
      omega
    · intro b hb
      simp only [image, List.map_cons, List.mem_cons] at hb
      rcases hb with rfl | hb
      · exact h5
      · exact h3 b hb

theorem look_sub (S : Sim I R0 R1) {ts : List τ} {L : List Entry} (h : Look R1 ts L) : Look R0 ts L := by
  unfold Look at h ⊢
  induction h with
  | nil => exact .nil
  | cons h1 _ ih => exact .cons (S.sub h1) ih

theorem look_pads (S : Sim I R0 R1) {ts : List τ} {L : List Entry} (h : Look R1 ts L) : Pads I ts (L.map (·.2)) := by
  unfold Look at h
  unfold Pads
  induction h with
  | nil => exact .nil
  | cons h1 _ ih => exact .cons (S.pad h1) ih

/-- The same views with other paddings. -/
def reset (L : List Entry) (qs : List Nat) : List Entry := List.zipWith (fun e q => (e.1, q)) L qs

theorem look_set (S : Sim I R0 R1) {ts : List τ} {L : List Entry} (h : Look R1 ts L) {qs : List Nat} (hq : qs.length = L.length) :
    Look R1 (setPads I ts qs) (reset L qs) := by
  unfold Look at h ⊢
  induction h generalizing qs with
  | nil =>
    have : qs = [] := List.length_eq_zero_iff.1 hq
    subst this
    exact .nil
  | cons h1 _ ih =>
    cases qs with
    | nil => simp at hq
    | cons q qs => exact .cons (S.set q h1) (ih (by simpa using hq))

theorem total_reset (au : ApplyUnsync) (L : List Entry) (qs : List Nat) (hq : qs.length = L.length) :
    total au (reset L qs) + (L.map (·.2)).sum = total au L + qs.sum := by
  induction L generalizing qs with
  | nil =>
    have : qs = [] := List.length_eq_zero_iff.1 hq
    subst this
    rfl
  | cons e L ih =>
    cases qs with
    | nil => simp at hq
    | cons q qs =>
      have := ih qs (by simpa using hq)
      simp only [total, reset] at this
      simp only [total, reset, List.zipWith_cons_cons, List.map_cons, List.sum_cons, Entry.size]
      omega

theorem pads_le_total (au : ApplyUnsync) (L : List Entry) : (L.map (·.2)).sum + 10 * L.length ≤ total au L := by
  induction L with
  | nil => simp [total]
  | cons e L ih =>
    simp only [total] at ih ⊢
    simp only [List.map_cons, List.sum_cons, Entry.size, List.length_cons]
    omega

theorem mem_le_sum {l : List Nat} {q : Nat} (h : q ∈ l) : q ≤ l.sum := by
  induction l with
  | nil => simp at h
  | cons a l ih =>
    simp only [List.sum_cons]
    rcases List.mem_cons.1 h with rfl | h
    · omega
    · have := ih h
      omega

theorem overlay_exact (a b rest : Bytes) (h : a.length = b.length) : overlay (a ++ rest) b = b ++ rest := by
  unfold overlay
  rw [← h, List.drop_left, List.take_of_length_le (by simp [h])]

theorem emplace_sim (S : Sim I R0 R1) (au : ApplyUnsync) {ts : List τ} {L : List Entry} (h : Look R0 ts L)
    (olds : List Bytes) (rest : Bytes) (ho : ∀ t ∈ olds, CompleteTag t) (hr : NoHeader rest)
    (hs : total au L = olds.flatten.length) (hb : olds.flatten.length < 2 ^ 28) (hne : olds.flatten ++ rest ≠ []) :
    ∃ ts', replaceEmplace I (some (olds.flatten ++ rest)) au ts = .ok ((image au L).flatten ++ rest, ts') ∧ Look R1 ts' L := by
  obtain ⟨ts1, h1, h2⟩ := sizes_sim S au h
  obtain ⟨ts2, h3, h4⟩ := writeAll_sim S au (look_sub S h2) (by omega)
  obtain ⟨h5, -⟩ := image_length S au h (by omega)
  refine ⟨ts2, ?_, h4⟩
  unfold replaceEmplace
  rw [tagsetSize_tags olds rest ho hr]
  simp only [Res.ok_bind, h1]
  rw [if_neg (by omega)]
  have := overlay_exact olds.flatten (image au L).flatten rest (by omega)
  generalize olds.flatten ++ rest = d at this hne
  cases d with
  | nil => exact absurd rfl hne
  | cons x xs => simp only [h3, Res.ok_bind, this]

theorem copy_sim (S : Sim I R0 R1) (au : ApplyUnsync) {ts : List τ} {L : List Entry} (h : Look R0 ts L)
    (olds : List Bytes) (rest : Bytes) (ho : ∀ t ∈ olds, CompleteTag t) (hr : NoHeader rest) (hb : total au L < 2 ^ 28) :
    ∃ ts', copyContents I (some (olds.flatten ++ rest)) au ts = .ok ((image au L).flatten ++ rest, ts') ∧ Look R1 ts' L := by
  obtain ⟨ts2, h3, h4⟩ := writeAll_sim S au h hb
  refine ⟨ts2, ?_, h4⟩
  unfold copyContents
  rw [h3]
  simp only [Res.ok_bind]
  rw [readRest_tags olds rest ho hr _ (by have := tags_length ho; rw [List.length_append]; omega)]
  rfl

end Tagset
end Scribbu

namespace Scribbu
namespace Tagset
open Spec

/-! ### ID3v2.2 tags -/

/-- All frames with their caches filled. -/
def freshAll22 : List Frame22 → Res (List Frame22)
  | [] => .ok []
  | f :: fs => f.fresh.bind fun g => (freshAll22 fs).bind fun gs => .ok (g :: gs)

theorem freshAll22_idem {fs gs : List Frame22} (h : freshAll22 fs = .ok gs) : freshAll22 gs = .ok gs := by
  induction fs generalizing gs with
  | nil => cases h; rfl
  | cons f fs ih =>
    simp only [freshAll22, Res.bind_eq_ok] at h
    obtain ⟨g, h1, gs', h2, h3⟩ := h
    cases h3
    simp only [freshAll22, fresh_idem h1, ih h2, Res.ok_bind]

/-- The bytes of the frames. -/
def cat22 (u : Bool) (gs : List Frame22) : Bytes := (gs.map fun g => if u then g.plain else g.unsynced).flatten

theorem framesWrite_fresh {fs gs : List Frame22} (h : freshAll22 fs = .ok gs) (u : Bool) :
    Tag22.framesWrite u fs = .ok (cat22 u gs, gs) := by
  induction fs generalizing gs with
  | nil => cases h; rfl
  | cons f fs ih =>
    simp only [freshAll22, Res.bind_eq_ok] at h
    obtain ⟨g, h1, gs', h2, h3⟩ := h
    cases h3
    simp only [Tag22.framesWrite, Frame22.write, h1, ih h2, Res.ok_bind, cat22, List.map_cons, List.flatten_cons]

theorem needs22_fresh {fs gs : List Frame22} (h : freshAll22 fs = .ok gs) :
    ∃ fs', Tag22.needsUnsync fs = .ok (gs.any (·.nfs ≠ 0), fs') ∧ freshAll22 fs' = .ok gs := by
  induction fs generalizing gs with
  | nil => cases h; exact ⟨[], rfl, rfl⟩
  | cons f fs ih =>
    simp only [freshAll22, Res.bind_eq_ok] at h
    obtain ⟨g, h1, gs', h2, h3⟩ := h
    cases h3
    simp only [Tag22.needsUnsync, Frame22.needsUnsync, h1, Res.ok_bind]
    by_cases hn : g.nfs ≠ 0
    · refine ⟨g :: fs, by rw [if_pos hn]; simp [hn], by simp only [freshAll22, fresh_idem h1, h2, Res.ok_bind]⟩
    · obtain ⟨fs', h4, h5⟩ := ih h2
      refine ⟨g :: fs', ?_, by simp only [freshAll22, fresh_idem h1, h5, Res.ok_bind]⟩
      rw [if_neg hn, h4]
      simp only [Res.ok_bind, List.any_cons]
      simp [hn]

/-- The header of an ID3v2.2 tag. -/
def hdrOf (r : Res Bytes) : Bytes := match r with | .ok b => b | _ => []

def view22 (un : Option Bool) (c : Bool) (gs : List Frame22) : View where
  need := gs.any (·.nfs ≠ 0)
  cb u := (cat22 u gs).length
  bytes u p := hdrOf (Tag22.writeHeader (wflags ⟨un, some c, some p, gs⟩ c u) (p + (cat22 u gs).length)) ++ cat22 u gs ++
    List.replicate p 0

def Q0 (t : Tag22) (V : View) (p : Nat) : Prop :=
  ∃ c gs, t.compression = some c ∧ t.padding = some p ∧ freshAll22 t.frames = .ok gs ∧ V = view22 t.unsync c gs

def Q1 (t : Tag22) (V : View) (p : Nat) : Prop :=
  ∃ c, t.compression = some c ∧ t.padding = some p ∧ freshAll22 t.frames = .ok t.frames ∧ V = view22 t.unsync c t.frames

theorem sim22 : Sim tag22I Q0 Q1 where
  needs := by
    rintro t V p ⟨c, gs, h1, h2, h3, rfl⟩
    obtain ⟨fs', h4, h5⟩ := needs22_fresh h3
    exact ⟨{ t with frames := fs' }, by simp only [tag22I, h4, Res.ok_bind]; rfl, c, gs, h1, h2, h5, rfl⟩
  size := by
    rintro t V p u ⟨c, gs, h1, h2, h3, rfl⟩
    refine ⟨{ t with frames := gs }, ?_, c, h1, h2, freshAll22_idem h3, rfl⟩
    simp only [tag22I, (write_eq t u c p _ _ h1 h2 (framesWrite_fresh h3 u)).1, view22]
    rw [Nat.add_comm]
  pad := by
    rintro t V p ⟨c, h1, h2, h3, rfl⟩
    simp [tag22I, h2, Tag22.use]
  set := by
    rintro t V p q ⟨c, h1, h2, h3, rfl⟩
    exact ⟨c, h1, rfl, h3, rfl⟩
  sub := by
    rintro t V p ⟨c, h1, h2, h3, rfl⟩
    exact ⟨c, t.frames, h1, h2, h3, rfl⟩
  write := by
    rintro t V p u ⟨c, gs, h1, h2, h3, rfl⟩ hs
    simp only [view22] at hs
    obtain ⟨hdr, h4, h5, h6⟩ := writeHeader_spec (wflags t c u) (p + (cat22 u gs).length) (by omega)
    refine ⟨{ t with frames := gs }, ?_, c, h1, h2, freshAll22_idem h3, rfl⟩
    have e : Tag22.writeHeader (wflags ⟨t.unsync, some c, some p, gs⟩ c u) (p + (cat22 u gs).length) = .ok hdr := h4
    simp only [tag22I, (write_eq t u c p _ _ h1 h2 (framesWrite_fresh h3 u)).2, h4, Res.ok_bind, view22, e, hdrOf]
  len := by
    rintro t V p u ⟨c, gs, h1, h2, h3, rfl⟩ hs
    simp only [view22] at hs
    obtain ⟨hdr, h4, h5, h6⟩ := writeHeader_spec (wflags t c u) (p + (cat22 u gs).length) (by omega)
    have e : Tag22.writeHeader (wflags ⟨t.unsync, some c, some p, gs⟩ c u) (p + (cat22 u gs).length) = .ok hdr := h4
    have hl : ((view22 t.unsync c gs).bytes u p).length = 10 + (p + (cat22 u gs).length) := by
      simp only [view22, e, hdrOf, List.length_append, h5, List.length_replicate]
      omega
    refine ⟨by rw [hl]; simp only [view22]; omega, 2, 0, wflags t c u, p + (cat22 u gs).length, ?_, hl⟩
    simp only [view22, e, hdrOf, List.append_assoc]
    exact h6 _

/-! ### ID3v2.3 tags without an extended header -/

def freshAll23 (z : Zlib) (noPad : Bool) : List Frame4 → Res (List Frame4)
  | [] => .ok []
  | f :: fs => (f.fresh z .v3 (noPad && fs.isEmpty)).bind fun g => (freshAll23 z noPad fs).bind fun gs => .ok (g :: gs)

theorem freshAll23_clean {z : Zlib} {np : Bool} {fs gs : List Frame4} (h : freshAll23 z np fs = .ok gs) :
    (∀ g ∈ gs, g.dirty = false) ∧ fs.isEmpty = gs.isEmpty := by
  induction fs generalizing gs with
  | nil => cases h; simp
  | cons f fs ih =>
    simp only [freshAll23, Res.bind_eq_ok] at h
    obtain ⟨g, h1, gs', h2, h3⟩ := h
    cases h3
    refine ⟨?_, rfl⟩
    intro x hx
    rcases List.mem_cons.1 hx with rfl | hx
    · exact (fresh4_ok_clean h1).1
    · exact (ih h2).1 x hx

theorem freshAll23_of_clean (z : Zlib) (np : Bool) {fs : List Frame4} (h : ∀ g ∈ fs, g.dirty = false) :
    freshAll23 z np fs = .ok fs := by
  induction fs with
  | nil => rfl
  | cons f fs ih =>
    simp only [freshAll23, fresh4_clean z .v3 _ (h f (by simp)), ih (fun g hg => h g (by simp [hg])), Res.ok_bind]

def cat23 (u : Bool) (gs : List Frame4) : Bytes := (gs.map fun g => if u then g.unsynced else g.plain).flatten

theorem sizeAll_fresh {z : Zlib} {np : Bool} {fs gs : List Frame4} (h : freshAll23 z np fs = .ok gs) (u : Bool) :
    Frame4.sizeAll z .v3 u np fs = .ok ((cat23 u gs).length, gs) := by
  induction fs generalizing gs with
  | nil => cases h; rfl
  | cons f fs ih =>
    simp only [freshAll23, Res.bind_eq_ok] at h
    obtain ⟨g, h1, gs', h2, h3⟩ := h
    cases h3
    simp only [Frame4.sizeAll, Frame4.serializedSize, h1, ih h2, Res.ok_bind, cat23, List.map_cons, List.flatten_cons,
      List.length_append]

theorem needs23_fresh {z : Zlib} {np : Bool} {fs gs : List Frame4} (h : freshAll23 z np fs = .ok gs) :
    ∃ fs', Tag23.framesNeedUnsync z np fs = .ok (gs.any (·.nfs ≠ 0), fs') ∧ freshAll23 z np fs' = .ok gs ∧
      fs'.isEmpty = fs.isEmpty := by
  induction fs generalizing gs with
  | nil => cases h; exact ⟨[], rfl, rfl, rfl⟩
  | cons f fs ih =>
    simp only [freshAll23, Res.bind_eq_ok] at h
    obtain ⟨g, h1, gs', h2, h3⟩ := h
    cases h3
    have hg := fresh4_clean z .v3 (np && fs.isEmpty) (fresh4_ok_clean h1).1
    simp only [Tag23.framesNeedUnsync, Frame4.needsUnsync, h1, Res.ok_bind]
    by_cases hn : g.nfs ≠ 0
    · refine ⟨g :: fs, by rw [if_pos hn]; simp [hn], ?_, rfl⟩
      simp only [freshAll23, hg, h2, Res.ok_bind]
    · obtain ⟨fs', h4, h5, h6⟩ := ih h2
      refine ⟨g :: fs', ?_, ?_, rfl⟩
      · rw [if_neg hn, h4]
        simp only [Res.ok_bind, List.any_cons]
        simp [hn]
      · simp only [freshAll23, h6, hg, h5, Res.ok_bind]

def view23 (un : Option Bool) (ex : Bool) (gs : List Frame4) : View where
  need := gs.any (·.nfs ≠ 0)
  cb u := (cat23 u gs).length
  bytes u p := hdrOf (Tag23.writeHeader (if u then Tag23.flags ⟨un, ex, none, p, gs⟩ ||| 0x80 else Tag23.flags ⟨un, ex, none, p, gs⟩)
    ((cat23 u gs).length + p)) ++ cat23 u gs ++ List.replicate p 0

def P0 (z : Zlib) (t : Tag23) (V : View) (p : Nat) : Prop :=
  ∃ gs, t.ext = none ∧ t.padding = p ∧ freshAll23 z (p == 0) t.frames = .ok gs ∧ V = view23 t.unsync t.experimental gs

def P1 (t : Tag23) (V : View) (p : Nat) : Prop :=
  t.ext = none ∧ t.padding = p ∧ (∀ g ∈ t.frames, g.dirty = false) ∧ V = view23 t.unsync t.experimental t.frames

theorem size23_fresh {z : Zlib} {t : Tag23} {gs : List Frame4} (he : t.ext = none)
    (h : freshAll23 z (t.padding == 0) t.frames = .ok gs) (u : Bool) :
    t.size z u = .ok ((cat23 u gs).length + t.padding, { t with frames := gs }) := by
  obtain ⟨un, ex, ext, pd, fs⟩ := t
  simp only at he h
  subst he
  simp only [Tag23.size, Tag23.updateCrc, Res.ok_bind, sizeAll_fresh h u, Nat.zero_add]

theorem write23_fresh {z : Zlib} {t : Tag23} {gs : List Frame4} (he : t.ext = none)
    (h : freshAll23 z (t.padding == 0) t.frames = .ok gs) (u : Bool) (hs : (cat23 u gs).length + t.padding < 2 ^ 28) :
    ∃ hdr n, Tag23.writeHeader (if u then t.flags ||| 0x80 else t.flags) ((cat23 u gs).length + t.padding) = .ok hdr ∧ hdr.length = 10 ∧
      (∀ rest, IsHeader (hdr ++ rest) 3 0 (if u then t.flags ||| 0x80 else t.flags) ((cat23 u gs).length + t.padding)) ∧
      t.write z u = .ok (hdr ++ cat23 u gs ++ List.replicate t.padding 0, n, { t with frames := gs }) := by
  obtain ⟨hdr, h4, h5, h6⟩ := writeHeader23_spec (if u then t.flags ||| 0x80 else t.flags) ((cat23 u gs).length + t.padding) hs
  obtain ⟨un, ex, ext, pd, fs⟩ := t
  simp only at he h hs
  subst he
  refine ⟨hdr, 10 + (cat23 u gs).length + pd, h4, h5, h6, ?_⟩
  have hz := size23_fresh (z := z) (t := ⟨un, ex, none, pd, fs⟩) rfl h u
  simp only [Tag23.write, hz, Res.ok_bind, h4, Tag23.updateCrc, writeAll_of_clean z .v3 u (freshAll23_clean h).1]
  simp [cat23]

theorem sim23 (z : Zlib) : Sim (tag23I z) (P0 z) P1 where
  needs := by
    rintro ⟨un, ex, ext, pd, fs⟩ V p ⟨gs, rfl, rfl, h3, rfl⟩
    obtain ⟨fs', h4, h5, h6⟩ := needs23_fresh h3
    refine ⟨⟨un, ex, none, pd, fs'⟩, ?_, gs, rfl, rfl, h5, rfl⟩
    simp only [tag23I, Tag23.needsUnsync, Tag23.updateCrc, Res.ok_bind]
    simp only at h4
    simp only [h4, Res.ok_bind]
    rfl
  size := by
    rintro t V p u ⟨gs, h1, rfl, h3, rfl⟩
    exact ⟨{ t with frames := gs }, size23_fresh h1 h3 u, h1, rfl, (freshAll23_clean h3).1, rfl⟩
  pad := by
    rintro t V p ⟨h1, rfl, h3, rfl⟩
    rfl
  set := by
    rintro t V p q ⟨h1, rfl, h3, rfl⟩
    exact ⟨h1, rfl, h3, rfl⟩
  sub := by
    rintro t V p ⟨h1, rfl, h3, rfl⟩
    exact ⟨t.frames, h1, rfl, freshAll23_of_clean z _ h3, rfl⟩
  write := by
    rintro t V p u ⟨gs, h1, rfl, h3, rfl⟩ hs
    obtain ⟨hdr, n, h4, h5, h6, h7⟩ := write23_fresh h1 h3 u hs
    refine ⟨{ t with frames := gs }, ?_, h1, rfl, (freshAll23_clean h3).1, rfl⟩
    obtain ⟨un, ex, ext, pd, fs⟩ := t
    simp only at h1
    subst h1
    have e : Tag23.writeHeader (if u then Tag23.flags ⟨un, ex, none, pd, gs⟩ ||| 0x80 else Tag23.flags ⟨un, ex, none, pd, gs⟩)
      ((cat23 u gs).length + pd) = .ok hdr := h4
    simp only [tag23I, h7, Res.ok_bind, view23, e, hdrOf]
  len := by
    rintro t V p u ⟨gs, h1, rfl, h3, rfl⟩ hs
    obtain ⟨hdr, n, h4, h5, h6, h7⟩ := write23_fresh h1 h3 u hs
    obtain ⟨un, ex, ext, pd, fs⟩ := t
    simp only at h1
    subst h1
    have e : Tag23.writeHeader (if u then Tag23.flags ⟨un, ex, none, pd, gs⟩ ||| 0x80 else Tag23.flags ⟨un, ex, none, pd, gs⟩)
      ((cat23 u gs).length + pd) = .ok hdr := h4
    have hl : ((view23 un ex gs).bytes u pd).length = 10 + ((cat23 u gs).length + pd) := by
      simp only [view23, e, hdrOf, List.length_append, h5, List.length_replicate]
      omega
    refine ⟨hl, 3, 0, if u then Tag23.flags ⟨un, ex, none, pd, fs⟩ ||| 0x80 else Tag23.flags ⟨un, ex, none, pd, fs⟩,
      (cat23 u gs).length + pd, ?_, hl⟩
    simp only [view23, e, hdrOf, List.append_assoc]
    exact h6 _

/-! ### ID3v2.3 tags with an extended header -/

/-- The checksum of frames whose serialised forms are up to date. -/
def sum23 (z : Zlib) (c : Nat) (gs : List Frame4) : Nat := gs.foldl (fun c g => z.crc32 c g.plain) c

theorem crcAll_fresh {z : Zlib} {fs gs : List Frame4} (h : freshAll23 z false fs = .ok gs) (c : Nat) :
    Frame4.crcAll z .v3 c fs = .ok (sum23 z c gs, gs) := by
  induction fs generalizing gs c with
  | nil => cases h; rfl
  | cons f fs ih =>
    simp only [freshAll23, Bool.false_and, Res.bind_eq_ok] at h
    obtain ⟨g, h1, gs', h2, h3⟩ := h
    cases h3
    simp only [Frame4.crcAll, Frame4.crc, h1, ih h2, Res.ok_bind, sum23, List.foldl_cons]

theorem freshAll23_of_crc {z : Zlib} {fs : List Frame4} {c : Nat} {r : Nat × List Frame4} (h : Frame4.crcAll z .v3 c fs = .ok r) :
    ∃ gs, freshAll23 z false fs = .ok gs := by
  induction fs generalizing c r with
  | nil => exact ⟨_, rfl⟩
  | cons f fs ih =>
    simp only [Frame4.crcAll, Frame4.crc, Res.bind_eq_ok] at h
    obtain ⟨p, ⟨g, h1, -⟩, q, h2, -⟩ := h
    obtain ⟨gs, h3⟩ := ih h2
    exact ⟨g :: gs, by simp only [freshAll23, Bool.false_and, h1, h3, Res.ok_bind]⟩

theorem freshAll23_of_size {z : Zlib} {np : Bool} {fs : List Frame4} {r : Nat × List Frame4}
    (h : Frame4.sizeAll z .v3 false np fs = .ok r) : ∃ gs, freshAll23 z np fs = .ok gs := by
  induction fs generalizing r with
  | nil => exact ⟨_, rfl⟩
  | cons f fs ih =>
    simp only [Frame4.sizeAll, Frame4.serializedSize, Res.bind_eq_ok] at h
    obtain ⟨p, ⟨g, h1, -⟩, q, h2, -⟩ := h
    obtain ⟨gs, h3⟩ := ih h2
    exact ⟨g :: gs, by simp only [freshAll23, h1, h3, Res.ok_bind]⟩

/-- The checksum that goes into the extended header, if one does. -/
def sumOf (z : Zlib) (e : Ext23) (gs : List Frame4) : Option Nat := e.crc.map fun _ => sum23 z 0 gs

def view23x (un : Option Bool) (ex : Bool) (e : Ext23) (x : Bytes) (gs : List Frame4) : View where
  need := decide (countSyncs true x ≠ 0) || gs.any (·.nfs ≠ 0)
  cb u := x.length + (cat23 u gs).length
  bytes u p := hdrOf (Tag23.writeHeader (if u then Tag23.flags ⟨un, ex, some e, p, gs⟩ ||| 0x80 else Tag23.flags ⟨un, ex, some e, p, gs⟩)
    (x.length + (cat23 u gs).length + p)) ++ x ++ cat23 u gs ++ List.replicate p 0

theorem view23x_ext (un : Option Bool) (ex : Bool) (e e' : Ext23) (x : Bytes) (gs : List Frame4) : view23x un ex e x gs = view23x un ex e' x gs := rfl

/-- The frames can be brought up to date, and the extended header is the same whether unsynchronised or not. -/
def X0 (z : Zlib) (t : Tag23) (V : View) (p : Nat) : Prop :=
  ∃ e gs, t.ext = some e ∧ CurrentExt e ∧ t.padding = p ∧ freshAll23 z (e.crc.isNone && p == 0) t.frames = .ok gs ∧
    ¬ NeedsStuffing (ext23 e.cbpad (sumOf z e gs)) ∧ V = view23x t.unsync t.experimental e (ext23 e.cbpad (sumOf z e gs)) gs

def X1 (z : Zlib) (t : Tag23) (V : View) (p : Nat) : Prop :=
  ∃ e, t.ext = some e ∧ CurrentExt e ∧ t.padding = p ∧ (∀ g ∈ t.frames, g.dirty = false) ∧
    ¬ NeedsStuffing (ext23 e.cbpad (sumOf z e t.frames)) ∧ V = view23x t.unsync t.experimental e (ext23 e.cbpad (sumOf z e t.frames)) t.frames

/-- The extended header, once it is up to date. -/
def readyExt (z : Zlib) (e : Ext23) (gs : List Frame4) (e1 : Ext23) : Prop :=
  CurrentExt e1 ∧ e1.cbpad = e.cbpad ∧ e1.crc = sumOf z e gs

theorem readyExt_same {z : Zlib} {e e1 : Ext23} {gs : List Frame4} (h : readyExt z e gs e1) : sumOf z e1 gs = sumOf z e gs ∧ e1.crc.isNone = e.crc.isNone := by
  obtain ⟨-, -, h⟩ := h
  unfold sumOf at *
  rw [h]
  cases e.crc <;> simp

theorem ready_fresh {z : Zlib} {e e1 : Ext23} {gs : List Frame4} (h : readyExt z e gs e1) : readyExt z e gs e1.fresh := by
  obtain ⟨h1, h2, h3⟩ := h
  rcases h1 with h1 | ⟨e0, h0, rfl⟩
  · have e1f : e1.fresh.cbpad = e1.cbpad ∧ e1.fresh.crc = e1.crc := by rw [ext23_fresh e1 h1]; exact ⟨rfl, rfl⟩
    exact ⟨.inr ⟨e1, h1, rfl⟩, e1f.1.trans h2, e1f.2.trans h3⟩
  · rw [ext23_fresh_idem]
    exact ⟨.inr ⟨e0, h0, rfl⟩, h2, h3⟩

theorem fresh_ready {z : Zlib} {e e1 : Ext23} {gs : List Frame4} (h : readyExt z e gs e1) (hn : ¬ NeedsStuffing (ext23 e.cbpad (sumOf z e gs))) :
    readyExt z e gs e1.fresh ∧ e1.fresh.plain = ext23 e.cbpad (sumOf z e gs) ∧ e1.fresh.unsynced = ext23 e.cbpad (sumOf z e gs) ∧
      e1.fresh.nfs = countSyncs true (ext23 e.cbpad (sumOf z e gs)) := by
  obtain ⟨h1, h2, h3⟩ := h
  have hu := (Props.C06_unchanged_iff_partial _).2 hn
  have key : ∀ e0 : Ext23, e0.dirty = true → e0.fresh.cbpad = e.cbpad → e0.fresh.crc = sumOf z e gs → e0.fresh.plain = ext23 e.cbpad (sumOf z e gs) ∧
      e0.fresh.unsynced = ext23 e.cbpad (sumOf z e gs) ∧ e0.fresh.nfs = countSyncs true (ext23 e.cbpad (sumOf z e gs)) := by
    intro e0 h0 h4 h5
    rw [ext23_fresh e0 h0] at h4 h5 ⊢
    simp only at h4 h5 ⊢
    rw [h4, h5]
    exact ⟨rfl, hu, rfl⟩
  rcases h1 with h1 | ⟨e0, h0, rfl⟩
  · have e1f : e1.fresh.cbpad = e1.cbpad ∧ e1.fresh.crc = e1.crc := by rw [ext23_fresh e1 h1]; exact ⟨rfl, rfl⟩
    exact ⟨⟨.inr ⟨e1, h1, rfl⟩, e1f.1.trans h2, e1f.2.trans h3⟩, key e1 h1 (e1f.1.trans h2) (e1f.2.trans h3)⟩
  · rw [ext23_fresh_idem]
    exact ⟨⟨.inr ⟨e0, h0, rfl⟩, h2, h3⟩, key e0 h0 h2 h3⟩

/-- What `crc` makes of a tag with an extended header. -/
theorem updateCrc_ready {z : Zlib} {un : Option Bool} {ex : Bool} {e : Ext23} {p : Nat} {fs gs : List Frame4} (hc : CurrentExt e)
    (hf : freshAll23 z (e.crc.isNone && p == 0) fs = .ok gs) :
    ∃ e1 fs1, Tag23.updateCrc z ⟨un, ex, some e, p, fs⟩ = .ok ⟨un, ex, some e1, p, fs1⟩ ∧ readyExt z e gs e1 ∧ freshAll23 z (p == 0) fs1 = .ok gs ∧
      (e.crc.isSome = true → fs1 = gs) := by
  unfold Tag23.updateCrc
  by_cases h : e.crc.isSome = true
  · simp only [h, if_true]
    obtain ⟨c, h'⟩ := Option.isSome_iff_exists.1 h
    rw [h'] at hf
    rw [crcAll_fresh (by simpa using hf) 0]
    refine ⟨_, _, rfl, ⟨currentExt_setCrc e hc _, (setCrc_val e _).2, ?_⟩, freshAll23_of_clean z _ (freshAll23_clean hf).1, fun _ => rfl⟩
    rw [(setCrc_val e _).1]
    simp [sumOf, h']
  · simp only [h]
    have h' : e.crc = none := by simpa using h
    rw [h'] at hf
    exact ⟨e, fs, rfl, ⟨hc, rfl, by simp [sumOf, h']⟩, by simpa using hf, fun k => by first | exact absurd k h | cases k⟩

/-- If the size of a tag with an extended header can be told, its frames can be brought up to date, and its extended header is. -/
theorem size23_ext {z : Zlib} {un : Option Bool} {ex : Bool} {e : Ext23} {p n : Nat} {fs : List Frame4} {t' : Tag23} (hc : CurrentExt e)
    (h : Tag23.size z ⟨un, ex, some e, p, fs⟩ false = .ok (n, t')) :
    ∃ gs e', freshAll23 z (e.crc.isNone && p == 0) fs = .ok gs ∧ t'.ext = some e' ∧ readyExt z e gs e' := by
  have key : ∃ gs, freshAll23 z (e.crc.isNone && p == 0) fs = .ok gs := by
    simp only [Tag23.size, Tag23.updateCrc, Res.bind_eq_ok] at h
    obtain ⟨t1, h1, q, h2, -⟩ := h
    by_cases hs : e.crc.isSome = true
    · simp only [hs, if_true, Res.bind_eq_ok] at h1
      obtain ⟨r, h3, -⟩ := h1
      obtain ⟨gs, h4⟩ := freshAll23_of_crc h3
      refine ⟨gs, ?_⟩
      obtain ⟨c, h'⟩ := Option.isSome_iff_exists.1 hs
      simpa [h'] using h4
    · simp only [hs] at h1
      cases h1
      obtain ⟨gs, h4⟩ := freshAll23_of_size h2
      refine ⟨gs, ?_⟩
      have h' : e.crc = none := by simpa using hs
      simpa [h'] using h4
  obtain ⟨gs, hf⟩ := key
  obtain ⟨e1, fs1, h1, h2, h3, -⟩ := updateCrc_ready (un := un) (ex := ex) hc hf
  simp only [Tag23.size, h1, Res.ok_bind, sizeAll_fresh h3 false, Ext23.serializedSize] at h
  cases h
  exact ⟨gs, _, hf, rfl, ready_fresh h2⟩

theorem needs23_clean {z : Zlib} {np : Bool} {gs : List Frame4} (h : ∀ g ∈ gs, g.dirty = false) :
    Tag23.framesNeedUnsync z np gs = .ok (gs.any (·.nfs ≠ 0), gs) := by
  induction gs with
  | nil => rfl
  | cons g gs ih =>
    simp only [Tag23.framesNeedUnsync, Frame4.needsUnsync, fresh4_clean z .v3 _ (h g (by simp)), Res.ok_bind]
    by_cases hn : g.nfs ≠ 0
    · rw [if_pos hn]
      simp [hn]
    · rw [if_neg hn, ih fun x hx => h x (by simp [hx])]
      simp only [Res.ok_bind, List.any_cons]
      simp [hn]

theorem size23x {z : Zlib} {un : Option Bool} {ex : Bool} {e : Ext23} {p : Nat} {fs gs : List Frame4} (hc : CurrentExt e)
    (hf : freshAll23 z (e.crc.isNone && p == 0) fs = .ok gs) (hn : ¬ NeedsStuffing (ext23 e.cbpad (sumOf z e gs))) (u : Bool) :
    ∃ e1, readyExt z e gs e1 ∧ Tag23.size z ⟨un, ex, some e, p, fs⟩ u =
      .ok ((ext23 e.cbpad (sumOf z e gs)).length + (cat23 u gs).length + p, ⟨un, ex, some e1, p, gs⟩) := by
  obtain ⟨e1, fs1, h1, h2, h3, -⟩ := updateCrc_ready (un := un) (ex := ex) hc hf
  obtain ⟨h4, h5, h6, -⟩ := fresh_ready h2 hn
  refine ⟨e1.fresh, h4, ?_⟩
  simp only [Tag23.size, h1, Res.ok_bind, sizeAll_fresh h3 u, Ext23.serializedSize]
  cases u <;> simp [h5, h6]

/-- What has been brought up to date stays so. -/
theorem x1_of {z : Zlib} {un : Option Bool} {ex : Bool} {e e1 : Ext23} {p : Nat} {gs : List Frame4} (h : readyExt z e gs e1)
    (hd : ∀ g ∈ gs, g.dirty = false) (hn : ¬ NeedsStuffing (ext23 e.cbpad (sumOf z e gs))) :
    X1 z ⟨un, ex, some e1, p, gs⟩ (view23x un ex e (ext23 e.cbpad (sumOf z e gs)) gs) p := by
  have hs := (readyExt_same h).1
  refine ⟨e1, rfl, h.1, rfl, hd, ?_, ?_⟩
  · simp only [hs, h.2.1]; exact hn
  · simp only [hs, h.2.1]; rfl

theorem write23x {z : Zlib} {un : Option Bool} {ex : Bool} {e : Ext23} {p : Nat} {fs gs : List Frame4} (hc : CurrentExt e)
    (hf : freshAll23 z (e.crc.isNone && p == 0) fs = .ok gs) (hn : ¬ NeedsStuffing (ext23 e.cbpad (sumOf z e gs))) (u : Bool) {hdr : Bytes}
    (hh : Tag23.writeHeader (if u then Tag23.flags ⟨un, ex, some e, p, gs⟩ ||| 0x80 else Tag23.flags ⟨un, ex, some e, p, gs⟩)
      ((ext23 e.cbpad (sumOf z e gs)).length + (cat23 u gs).length + p) = .ok hdr) :
    ∃ e1 n, readyExt z e gs e1 ∧ Tag23.write z ⟨un, ex, some e, p, fs⟩ u =
      .ok (hdr ++ ext23 e.cbpad (sumOf z e gs) ++ cat23 u gs ++ List.replicate p 0, n, ⟨un, ex, some e1, p, gs⟩) := by
  have hd := (freshAll23_clean hf).1
  obtain ⟨e1, h1, h2⟩ := size23x (un := un) (ex := ex) hc hf hn u
  have hr := readyExt_same h1
  have hf1 : freshAll23 z (e1.crc.isNone && p == 0) gs = .ok gs := freshAll23_of_clean z _ hd
  obtain ⟨e2, fs2, h3, h4, h5, -⟩ := updateCrc_ready (un := un) (ex := ex) h1.1 hf1
  have h4' : readyExt z e gs e2 := ⟨h4.1, h4.2.1.trans h1.2.1, h4.2.2.trans hr.1⟩
  obtain ⟨h6, h7, h8, -⟩ := fresh_ready h4' hn
  have hfs : fs2 = gs := by
    have : Tag23.updateCrc z ⟨un, ex, some e1, p, gs⟩ = .ok ⟨un, ex, some e2, p, fs2⟩ := h3
    unfold Tag23.updateCrc at this
    by_cases hc1 : e1.crc.isSome = true
    · simp only [hc1, if_true, crcAll_fresh (freshAll23_of_clean z false hd), Res.ok_bind] at this
      cases this; rfl
    · simp only [hc1] at this
      cases this; rfl
  subst hfs
  refine ⟨e2.fresh, 10 + (ext23 e.cbpad (sumOf z e fs2)).length + (cat23 u fs2).length + p, h6, ?_⟩
  have hfl : Tag23.flags ⟨un, ex, some e, p, fs⟩ = Tag23.flags ⟨un, ex, some e, p, fs2⟩ := rfl
  simp only [Tag23.write, h2, Res.ok_bind, hfl, hh, h3, writeAll_of_clean z .v3 u hd, Ext23.write]
  cases u <;> simp [h7, h8, cat23]

theorem sim23x (z : Zlib) : Sim (tag23I z) (X0 z) (X1 z) where
  needs := by
    rintro ⟨un, ex, ext, pd, fs⟩ V p ⟨e, gs, rfl, hc, rfl, hf, hn, rfl⟩
    obtain ⟨e1, fs1, h1, h2, h3, h4⟩ := updateCrc_ready (un := un) (ex := ex) hc hf
    obtain ⟨h5, h6, h7, h8⟩ := fresh_ready h2 hn
    have hs := readyExt_same h5
    have ans : ∀ fs', freshAll23 z (e.crc.isNone && pd == 0) fs' = .ok gs →
        X0 z ⟨un, ex, some e1.fresh, pd, fs'⟩ (view23x un ex e (ext23 e.cbpad (sumOf z e gs)) gs) pd := by
      intro fs' hf'
      refine ⟨e1.fresh, gs, rfl, h5.1, rfl, by rw [hs.2]; exact hf', ?_, ?_⟩
      · rw [hs.1, h5.2.1]; exact hn
      · rw [hs.1, h5.2.1]; rfl
    have back : ∀ fs', (e.crc.isSome = true → fs' = gs) → freshAll23 z (pd == 0) fs' = .ok gs → freshAll23 z (e.crc.isNone && pd == 0) fs' = .ok gs := by
      intro fs' k1 k2
      cases hcc : e.crc with
      | none => simpa using k2
      | some c =>
        rw [k1 (by simp [hcc])]
        exact freshAll23_of_clean z _ (freshAll23_clean hf).1
    simp only [tag23I, Tag23.needsUnsync, h1, Res.ok_bind, h8]
    by_cases hz : countSyncs true (ext23 e.cbpad (sumOf z e gs)) ≠ 0
    · rw [if_pos hz]
      exact ⟨_, by simp [view23x, hz], ans fs1 (back fs1 h4 h3)⟩
    · rw [if_neg hz]
      have hz' : countSyncs true (ext23 e.cbpad (sumOf z e gs)) = 0 := by omega
      by_cases hcc : e.crc.isSome = true
      · have := h4 hcc
        subst this
        rw [needs23_clean (freshAll23_clean hf).1]
        exact ⟨_, by simp [view23x, hz'], ans fs1 (back fs1 (fun _ => rfl) h3)⟩
      · obtain ⟨fs', k1, k2, -⟩ := needs23_fresh h3
        rw [k1]
        exact ⟨_, by simp [view23x, hz'], ans fs' (back fs' (fun k => absurd k hcc) k2)⟩
  size := by
    rintro ⟨un, ex, ext, pd, fs⟩ V p u ⟨e, gs, rfl, hc, rfl, hf, hn, rfl⟩
    obtain ⟨e1, h1, h2⟩ := size23x (un := un) (ex := ex) hc hf hn u
    exact ⟨_, h2, x1_of h1 (freshAll23_clean hf).1 hn⟩
  pad := by
    rintro t V p ⟨e, h1, hc, rfl, h3, hn, rfl⟩
    rfl
  set := by
    rintro t V p q ⟨e, h1, hc, rfl, h3, hn, rfl⟩
    exact ⟨e, h1, hc, rfl, h3, hn, rfl⟩
  sub := by
    rintro t V p ⟨e, h1, hc, rfl, h3, hn, rfl⟩
    exact ⟨e, t.frames, h1, hc, rfl, freshAll23_of_clean z _ h3, hn, rfl⟩
  write := by
    rintro ⟨un, ex, ext, pd, fs⟩ V p u ⟨e, gs, rfl, hc, rfl, hf, hn, rfl⟩ hs
    obtain ⟨hdr, h4, h5, h6⟩ := writeHeader23_spec (if u then Tag23.flags ⟨un, ex, some e, pd, gs⟩ ||| 0x80 else Tag23.flags ⟨un, ex, some e, pd, gs⟩)
      ((ext23 e.cbpad (sumOf z e gs)).length + (cat23 u gs).length + pd) hs
    obtain ⟨e1, n, h7, h8⟩ := write23x hc hf hn u h4
    exact ⟨_, by simp only [tag23I, h8, Res.ok_bind, view23x, h4, hdrOf], x1_of h7 (freshAll23_clean hf).1 hn⟩
  len := by
    rintro ⟨un, ex, ext, pd, fs⟩ V p u ⟨e, gs, rfl, hc, rfl, hf, hn, rfl⟩ hs
    obtain ⟨hdr, h4, h5, h6⟩ := writeHeader23_spec (if u then Tag23.flags ⟨un, ex, some e, pd, gs⟩ ||| 0x80 else Tag23.flags ⟨un, ex, some e, pd, gs⟩)
      ((ext23 e.cbpad (sumOf z e gs)).length + (cat23 u gs).length + pd) hs
    have hl : ((view23x un ex e (ext23 e.cbpad (sumOf z e gs)) gs).bytes u pd).length =
        10 + ((ext23 e.cbpad (sumOf z e gs)).length + (cat23 u gs).length + pd) := by
      simp only [view23x, h4, hdrOf, List.length_append, h5, List.length_replicate]
      omega
    refine ⟨hl, 3, 0, if u then Tag23.flags ⟨un, ex, some e, pd, gs⟩ ||| 0x80 else Tag23.flags ⟨un, ex, some e, pd, gs⟩,
      (ext23 e.cbpad (sumOf z e gs)).length + (cat23 u gs).length + pd, ?_, hl⟩
    simp only [view23x, h4, hdrOf, List.append_assoc]
    exact h6 _

/-! ### Tags of either kind -/

theorem Sim.or {I : TagI τ} {A0 A1 B0 B1 : τ → View → Nat → Prop} (S : Sim I A0 A1) (T : Sim I B0 B1) :
    Sim I (fun t V p => A0 t V p ∨ B0 t V p) (fun t V p => A1 t V p ∨ B1 t V p) where
  needs := by
    rintro t V p (h | h)
    · obtain ⟨t', h1, h2⟩ := S.needs h; exact ⟨t', h1, .inl h2⟩
    · obtain ⟨t', h1, h2⟩ := T.needs h; exact ⟨t', h1, .inr h2⟩
  size := by
    rintro t V p u (h | h)
    · obtain ⟨t', h1, h2⟩ := S.size u h; exact ⟨t', h1, .inl h2⟩
    · obtain ⟨t', h1, h2⟩ := T.size u h; exact ⟨t', h1, .inr h2⟩
  pad := by
    rintro t V p (h | h)
    · exact S.pad h
    · exact T.pad h
  set := by
    rintro t V p q (h | h)
    · exact .inl (S.set q h)
    · exact .inr (T.set q h)
  sub := by
    rintro t V p (h | h)
    · exact .inl (S.sub h)
    · exact .inr (T.sub h)
  write := by
    rintro t V p u (h | h) hs
    · obtain ⟨t', h1, h2⟩ := S.write u h hs; exact ⟨t', h1, .inl h2⟩
    · obtain ⟨t', h1, h2⟩ := T.write u h hs; exact ⟨t', h1, .inr h2⟩
  len := by
    rintro t V p u (h | h) hs
    · exact S.len u h hs
    · exact T.len u h hs

/-! ### Tags of either version -/

def sumR (A : τ → View → Nat → Prop) (B : σ → View → Nat → Prop) : τ ⊕ σ → View → Nat → Prop
  | .inl t => A t
  | .inr t => B t

theorem Sim.sum {I : TagI τ} {J : TagI σ} {A0 A1 : τ → View → Nat → Prop} {B0 B1 : σ → View → Nat → Prop}
    (S : Sim I A0 A1) (T : Sim J B0 B1) : Sim (I.sum J) (sumR A0 B0) (sumR A1 B1) where
  needs := by
    rintro (t | t) V p h
    · obtain ⟨t', h1, h2⟩ := S.needs h; exact ⟨.inl t', by simp [TagI.sum, h1], h2⟩
    · obtain ⟨t', h1, h2⟩ := T.needs h; exact ⟨.inr t', by simp [TagI.sum, h1], h2⟩
  size := by
    rintro (t | t) V p u h
    · obtain ⟨t', h1, h2⟩ := S.size u h; exact ⟨.inl t', by simp [TagI.sum, h1], h2⟩
    · obtain ⟨t', h1, h2⟩ := T.size u h; exact ⟨.inr t', by simp [TagI.sum, h1], h2⟩
  pad := by
    rintro (t | t) V p h
    · exact S.pad h
    · exact T.pad h
  set := by
    rintro (t | t) V p q h
    · exact S.set q h
    · exact T.set q h
  sub := by
    rintro (t | t) V p h
    · exact S.sub h
    · exact T.sub h
  write := by
    rintro (t | t) V p u h hs
    · obtain ⟨t', h1, h2⟩ := S.write u h hs; exact ⟨.inl t', by simp [TagI.sum, h1], h2⟩
    · obtain ⟨t', h1, h2⟩ := T.write u h hs; exact ⟨.inr t', by simp [TagI.sum, h1], h2⟩
  len := by
    rintro (t | t) V p u h hs
    · exact S.len u h hs
    · exact T.len u h hs

/-- No ID3v2.4 tags. -/
theorem sim24 (z : Zlib) : Sim (tag24I z) (fun _ _ _ => False) (fun _ _ _ => False) := by
  constructor <;> intros <;> contradiction

/-- Tags that can be written as they say they can. -/
def W0 (z : Zlib) : AnyTag → View → Nat → Prop := sumR Q0 (sumR (fun t V p => P0 z t V p ∨ X0 z t V p) fun _ _ _ => False)

def W1 (z : Zlib) : AnyTag → View → Nat → Prop := sumR Q1 (sumR (fun t V p => P1 t V p ∨ X1 z t V p) fun _ _ _ => False)

theorem simAny (z : Zlib) : Sim (anyI z) (W0 z) (W1 z) :=
  sim22.sum (((sim23 z).or (sim23x z)).sum (sim24 z))

/-! ### `maybe_emplace_tagset` -/

variable {τ : Type} {I : TagI τ} {R0 R1 : τ → View → Nat → Prop}

theorem serialised_sim (S : Sim I R0 R1) (au : ApplyUnsync) {t : τ} {V : View} {p : Nat} (h : R0 t V p) (q : Nat)
    (hs : V.cb (pick au V) + q < 2 ^ 28) : Serialised I au t q (V.bytes (pick au V) q) := by
  obtain ⟨t1, h1, h2⟩ := compute_sim S au h
  obtain ⟨t2, h3, h4⟩ := S.size (pick au V) h2
  obtain ⟨t3, h5, h6⟩ := S.write (pick au V) (S.sub (S.set q h4)) hs
  refine ⟨pick au V, t1, _, t2, t3, ?_, h3, h5⟩
  cases au with
  | never => cases h1; exact ⟨rfl, rfl⟩
  | always => cases h1; exact ⟨rfl, rfl⟩
  | asNeeded => exact h1

theorem reset_same (L : List Entry) : reset L (L.map (·.2)) = L := by
  induction L with
  | nil => rfl
  | cons e L ih =>
    simp only [reset] at ih
    simp [reset, ih]

theorem maybe_sim (S : Sim I R0 R1) (au : ApplyUnsync) (st : EmplaceStrategy) {ts : List τ} {L : List Entry} (h : Look R0 ts L)
    (olds : List Bytes) (rest : Bytes) (ho : ∀ t ∈ olds, CompleteTag t) (hr : NoHeader rest)
    (hb : olds.flatten.length < 2 ^ 28) (hs : total au L < 2 ^ 28) (hne : olds.flatten ++ rest ≠ [])
    (hts : ts ≠ []) (hw : ∀ e, L.head? = some e → L.length ≤ e.2 + 1) :
    (∃ how ts' qs, maybeEmplace I (some (olds.flatten ++ rest)) au st ts =
        .ok (how, (image au (reset L qs)).flatten ++ rest, ts') ∧ qs.length = L.length ∧ total au (reset L qs) < 2 ^ 28 ∧
        (how = .copied ∧ qs = L.map (·.2) ∨ how = .emplaced ∧ total au (reset L qs) = olds.flatten.length)) ∨
    (maybeEmplace I (some (olds.flatten ++ rest)) au st ts = .throw .tagsetRequest ∧ olds.flatten.length < total au L ∧
      st ≠ .onlyWithFullPadding) := by
  obtain ⟨ts1, h1, h2⟩ := sizes_sim S au h
  have hsz := tagsetSize_tags olds rest ho hr
  have hpt := pads_le_total au L
  have adj : (∃ ts2 qs, adjustPaddingTo I ts1 olds.flatten.length (total au L) = (ts2, .ok ()) ∧ Look R1 ts2 (reset L qs) ∧
        qs.length = L.length ∧ total au (reset L qs) = olds.flatten.length) ∨
      ((adjustPaddingTo I ts1 olds.flatten.length (total au L)).2 = .throw .tagsetRequest ∧ olds.flatten.length < total au L) := by
    have hl := Pads.length (look_pads S h2)
    have hl0 : ts.length = L.length := by
      clear h2 h1 hl hw hpt hs
      unfold Look at h
      induction h with
      | nil => rfl
      | @cons a b as bs _ h' ih =>
        by_cases ha : as = []
        · subst ha; cases h'; rfl
        · simp [ih ha]
    cases L with
    | nil => simp at hl0; exact absurd hl0 hts
    | cons e L =>
      have hlk := h2
      cases h2 with
      | @cons t _ ts1 _ g1 g2 =>
        have hp := look_pads S hlk
        simp only [List.map_cons] at hp
        simp only [List.map_cons, List.sum_cons, List.length_cons] at hpt
        have hmem : ∀ q ∈ L.map (·.2), q ≤ (L.map (·.2)).sum := fun q hq => mem_le_sum hq
        have := adjust_cases hp olds.flatten.length (total au (e :: L))
          (by
            intro q hq
            rcases List.mem_cons.1 hq with rfl | hq
            · omega
            · have := hmem q hq
              omega)
          (by
            have := hw e rfl
            have : ts1.length = L.length := by simpa using hl
            simp only [List.length_cons] at *
            omega)
        obtain ⟨a1, a2⟩ := this
        by_cases hk : (0 ≤ (e.2 : Int) + ((olds.flatten.length : Int) - total au (e :: L)).tdiv ((ts1.length + 1 : Nat) : Int) +
            ((olds.flatten.length : Int) - total au (e :: L)).tmod ((ts1.length + 1 : Nat) : Int) ∧
            ∀ q : Nat, q ∈ L.map (·.2) → 0 ≤ (q : Int) + ((olds.flatten.length : Int) - total au (e :: L)).tdiv ((ts1.length + 1 : Nat) : Int))
        · obtain ⟨qs, b1, b2, b3⟩ := a1 hk
          have hql : qs.length = (e :: L).length := by
            have : ts1.length = L.length := by simpa using hl
            simp only [List.length_cons]; omega
          refine .inl ⟨_, qs, b1, look_set S hlk hql, hql, ?_⟩
          have := total_reset au (e :: L) qs hql
          simp only [List.map_cons, List.sum_cons] at b3 this
          omega
        · obtain ⟨b0, k, qs, b1, -⟩ := a2 hk
          exact .inr ⟨by rw [b1], b0⟩
  unfold maybeEmplace
  rw [hsz]
  simp only [Res.ok_bind, h1]
  by_cases c1 : total au L ≤ olds.flatten.length
  · rw [if_pos c1]
    by_cases c2 : total au L < olds.flatten.length
    · rw [if_pos c2]
      rcases adj with ⟨ts2, qs, a1, a2, a3, a4⟩ | ⟨-, a1⟩
      · obtain ⟨ts3, e1, -⟩ := emplace_sim S au (look_sub S a2) olds rest ho hr a4 hb hne
        refine .inl ⟨.emplaced, ts3, qs, ?_, a3, by omega, .inr ⟨rfl, a4⟩⟩
        rw [a1]
        simp only [Res.ok_bind, e1]
      · omega
    · rw [if_neg c2]
      obtain ⟨ts3, e1, -⟩ := emplace_sim S au (look_sub S h2) olds rest ho hr (by omega) hb hne
      refine .inl ⟨.emplaced, ts3, L.map (·.2), ?_, by simp, by rw [reset_same]; exact hs, .inr ⟨rfl, by rw [reset_same]; omega⟩⟩
      simp only [e1, Res.ok_bind, reset_same]
  · rw [if_neg c1]
    by_cases c2 : olds.flatten.length ≥ total au L - (L.map (·.2)).sum ∧ st ≠ .onlyWithFullPadding
    · rw [if_pos c2]
      rcases adj with ⟨ts2, qs, a1, a2, a3, a4⟩ | ⟨a1, a2⟩
      · obtain ⟨ts3, e1, -⟩ := emplace_sim S au (look_sub S a2) olds rest ho hr a4 hb hne
        refine .inl ⟨.emplaced, ts3, qs, ?_, a3, by omega, .inr ⟨rfl, a4⟩⟩
        rw [a1]
        simp only [Res.ok_bind, e1]
      · refine .inr ⟨?_, a2, c2.2⟩
        rw [a1]
        rfl
    · rw [if_neg c2]
      obtain ⟨ts3, e1, -⟩ := copy_sim S au (look_sub S h2) olds rest ho hr hs
      refine .inl ⟨.copied, ts3, L.map (·.2), ?_, by simp, by rw [reset_same]; exact hs, .inl ⟨rfl, rfl⟩⟩
      simp only [e1, Res.ok_bind, reset_same]

/-- The file does not exist. -/
theorem maybe_sim_none (S : Sim I R0 R1) (au : ApplyUnsync) (st : EmplaceStrategy) {ts : List τ} {L : List Entry} (h : Look R0 ts L)
    (hs : total au L < 2 ^ 28) (hts : L ≠ []) :
    ∃ ts', maybeEmplace I none au st ts = .ok (.created, (image au L).flatten, ts') := by
  obtain ⟨ts1, h1, h2⟩ := sizes_sim S au h
  obtain ⟨ts2, h3, h4⟩ := writeAll_sim S au (look_sub S h2) hs
  have hpt := pads_le_total au L
  have : 0 < L.length := List.length_pos_iff.2 hts
  refine ⟨ts2, ?_⟩
  simp only [maybeEmplace, tagsetSize, Res.ok_bind, h1]
  rw [if_neg (by omega), if_neg (by omega)]
  simp only [h3, Res.ok_bind]

end Tagset
end Scribbu
