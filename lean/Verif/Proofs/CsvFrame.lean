import Verif.Spec.CsvFrame
import Verif.Proofs.ReportRow

/-! Single frames as comma- or tab-separated values: proofs. -/

namespace Scribbu
namespace CsvFrame
open Report Spec

/-- Letters and digits. -/
def Alnum (b : Bytes) : Prop := ∀ c ∈ b, (48 ≤ c ∧ c ≤ 57) ∨ (97 ≤ c ∧ c ≤ 122)

theorem alnum_decimal {b : Bytes} {n : Nat} (h : Decimal b n) : Alnum b := fun c hc => Or.inl (h.2.1 c hc)

theorem alnum_figure {c : Byte} {n : Nat} (h : HexFigure c n) : (48 ≤ c ∧ c ≤ 57) ∨ (97 ≤ c ∧ c ≤ 122) := by
  obtain ⟨h, rfl⟩ := h
  revert n
  decide

theorem alnum_pairs {a b : Bytes} (h : HexPairs a b) : Alnum a := by
  induction h with
  | nil => intro c hc; cases hc
  | cons c d i j b s l h1 h2 _ _ ih =>
    intro x hx
    simp only [List.mem_cons] at hx
    rcases hx with rfl | rfl | hx
    · exact alnum_figure h1
    · exact alnum_figure h2
    · exact ih x hx

/-- A format that undoes what it does, whatever the separator. -/
structure Undoes (q : Bool) (F : Fmt) (ok : Bytes → Prop) : Prop where
  feed : F.sep ≠ 10
  alnum : ∀ c, (48 ≤ c ∧ c ≤ 57) ∨ (97 ≤ c ∧ c ≤ 122) → c ≠ F.sep
  text : ∀ s, ok s → Cell q F.sep (F.esc s) s

theorem sep_not_alnum : ∀ s c : Byte, sepOk s = true ∨ s = 0x1f → (48 ≤ c ∧ c ≤ 57) ∨ (97 ≤ c ∧ c ≤ 122) → c ≠ s := by
  rintro s c hs hc rfl
  revert c
  intro ⟨⟨f⟩⟩
  revert f
  decide +kernel

theorem undoes_csv {sep : Byte} (h : sepOk sep = true) (hq : sep ≠ 34) : Undoes true ⟨sep, fun s => escape s sep⟩ (QuoteSafe sep) := by
  have h10 : sep ≠ 10 := by rintro rfl; exact absurd h (by decide)
  exact ⟨h10, fun c hc => sep_not_alnum sep c (.inl h) hc, fun s hs => cell_escape h10 hq hs⟩

theorem undoes_tdf (ascii : Bool) : Undoes false (tdfFmt ascii) (Unseparated (tdfFmt ascii).sep) := by
  have h10 : (tdfFmt ascii).sep ≠ 10 := by cases ascii <;> simp [tdfFmt]
  refine ⟨h10, fun c hc => sep_not_alnum _ c ?_ hc, fun s h => cell_plain h10 h.1 h.2 (by simp)⟩
  cases ascii
  · exact .inl (by decide)
  · exact .inr rfl

theorem Undoes.plain {q : Bool} {F : Fmt} {ok : Bytes → Prop} (h : Undoes q F ok) {b : Bytes} (hb : Alnum b) : Cell q F.sep b b := by
  refine cell_plain h.feed (fun hm => h.alnum _ (hb _ hm) rfl) (fun hm => ?_) (fun _ he => ?_)
  · have := hb _ hm; revert this; decide
  · have := hb 34 (List.mem_of_head? he); revert this; decide

theorem all_one (a : Pr) (s : OS) : Pr.all [a] s = a s := by
  show Pr.seq a Pr.nop s = a s
  unfold Pr.seq Pr.nop
  split <;> rename_i h
  · rw [h]
  · rfl

/-- Records that have been put are read. -/
theorem record {q : Bool} {F : Fmt} {raws vals : List Bytes} (h : Cells q F.sep raws vals) (hne : raws ≠ []) :
    records q F.sep (sepBy F.sep raws ++ [10]) = [vals] := by
  have := cells_read h [] [] hne
  simpa [records, take] using this

theorem num_ten {s : OS} {n : Nat} (h : s.hex = false ∨ n < 10) : Pr.num n s = Pr.put (Backup.dec n) s := by
  unfold Pr.num
  rcases h with h | h
  · rw [h]; rfl
  · split
    · congr 1
      have h1 : hexa n = [hexDigit n] := by rw [hexa, if_pos (by omega)]
      have h2 : Backup.dec n = [UInt8.ofNat (48 + n)] := by rw [Backup.dec, if_pos h]
      have h3 : hexDigit n = UInt8.ofNat (48 + n) := if_pos h
      rw [h1, h2, h3]
    · rfl

section
variable (F : Fmt) (pop : Encoding) (E : Std.Env) (v : Ver) (id : Bytes)

/-- A text that has to be converted first. -/
def conv (r : Res Bytes) : Pr := Pr.value (r.bind fun s => .ok (F.esc s))

theorem conv_ok {r : Res Bytes} {b : Bytes} (h : r = .ok b) : conv F r = Pr.put (F.esc b) := by
  subst h; rfl

theorem frame_ufid (x : Ufid) : frame F pop E v id (.ufid x) =
    Pr.all [conv F (E.base.latin .ISO_8859_1 x.owner), Pr.put [F.sep], Pr.put ([48, 120] ++ padded x.ident)] := rfl

theorem frame_txxx {x : Txxx} {d t : Bytes} (h1 : E.user v x.unicode x.desc = .ok d) (h2 : E.user v x.unicode x.text = .ok t) :
    frame F pop E v id (.txxx x) = Pr.all [Pr.num x.unicode.toNat, Pr.put [F.sep], Pr.put (F.esc d), Pr.put [F.sep], Pr.put (F.esc t)] := by
  funext s
  show (match (E.user v x.unicode x.desc).bind fun d => (E.user v x.unicode x.text).bind fun t => .ok (d, t) with
      | .throw e => ((s, .throw e) : OS × Res Unit)
      | .ub u => (s, .ub u)
      | .ok (d, t) => Pr.all [Pr.num x.unicode.toNat, Pr.put [F.sep], Pr.put (F.esc d), Pr.put [F.sep], Pr.put (F.esc t)] s) = _
  rw [h1, h2]
  rfl

theorem frame_comm {x : Comm} {l : Byte × Byte × Byte} (h : x.lang = some l) :
    frame F pop E v id (.comm x) = Pr.all [Pr.put [l.1, l.2.1, l.2.2], Pr.put [F.sep], conv F (E.base.asStr v x.unicode x.desc), Pr.put [F.sep],
      conv F (E.base.asStr v x.unicode x.text)] := by
  funext s
  show (match Tag22.use x.lang with
      | .throw e => ((s, .throw e) : OS × Res Unit)
      | .ub u => (s, .ub u)
      | .ok l => Pr.all [Pr.put [l.1, l.2.1, l.2.2], Pr.put [F.sep], conv F (E.base.asStr v x.unicode x.desc), Pr.put [F.sep],
          conv F (E.base.asStr v x.unicode x.text)] s) = _
  rw [h]
  rfl

theorem frame_popm (p : Popm) : frame F pop E v id (.popm p) =
    Pr.all [conv F (E.base.latin (if v = .v2 then pop else .ISO_8859_1) p.email), Pr.put [F.sep], Pr.base false, Pr.num p.rating.toNat, Pr.put [F.sep], Pr.base true,
      Pr.put (p.counter.flatMap hex2)] := by
  cases v <;> rfl

theorem frame_encr (e : Encr) (h : v ≠ .v2) : frame F pop E v id (.encr e) =
    Pr.all [conv F (E.base.latin .ISO_8859_1 e.email), Pr.put [F.sep], Json.putNum ((Tag22.use e.method).bind fun m => .ok m.toNat), Pr.put [F.sep],
        Pr.put ([48, 120] ++ padded e.data)] := by
  cases v
  · exact absurd rfl h
  · rfl
  · rfl

theorem frame_xtag (t : TagCloud) (h : v ≠ .v4) : frame F pop E v id (.xtag t) =
    Pr.all [conv F (E.base.conv .UTF_8 t.own), Pr.put [F.sep], conv F (E.base.conv .UTF_8 t.urlencoded)] := by
  cases v
  · rfl
  · rfl
  · exact absurd rfl h

end

/-- What is put one after the other. -/
theorem put_all (l : List Bytes) (s : OS) : Pr.all (l.map Pr.put) s = (⟨s.out ++ l.flatten, s.hex⟩, .ok ()) := by
  induction l generalizing s with
  | nil => simp [Pr.all, Pr.nop]
  | cons a l ih =>
    show Pr.seq (Pr.put a) (Pr.all (l.map Pr.put)) s = _
    simp only [Pr.seq, Pr.put]
    rw [ih]
    simp

theorem all_cons (p : Pr) (ps : List Pr) (s s' : OS) (h : p s = (s', .ok ())) : Pr.all (p :: ps) s = Pr.all ps s' := by
  show Pr.seq p (Pr.all ps) s = _
  simp only [Pr.seq, h]

/-- A frame is printed as a record of its cells. -/
theorem frame_ok {q : Bool} {F : Fmt} {ok : Bytes → Prop} (hF : Undoes q F ok)
    (pop : Encoding) (E : Std.Env) (v : Ver) (id : Bytes) (b : Body) (cells : List Bytes)
    (hc : FrameCells pop E v id b cells) (ht : Tame F.sep ok id b cells) (s : OS) (hs : CsvShown v s.hex b) :
    ∃ text hex cells', frame F pop E v id b s = (⟨s.out ++ text, hex⟩, .ok ()) ∧ records q F.sep (text ++ [10]) = [cells'] ∧
      FrameCells pop E v id b cells' := by
  have plain : ∀ c : Bytes, Unseparated F.sep c → c.head? ≠ some 34 → Cell q F.sep c c := fun c h1 h2 => cell_plain hF.feed h1.1 h1.2 fun _ => h2
  obtain ⟨ht1, ht2⟩ := ht
  cases hc with
  | unknown d => exact ⟨id, s.hex, [id], rfl, by simpa [sepBy] using record (F := F) (.one (plain id ht2.1 ht2.2)) (by simp), .unknown d⟩
  | text u t x h =>
    have hr := record (Cells.one (hF.text x (ht1 x List.mem_cons_self))) (List.cons_ne_nil _ _)
    refine ⟨F.esc x, s.hex, [x], ?_, hr, .text u t x h⟩
    show Pr.value ((E.base.asStr v (some u) t).bind fun s => .ok (F.esc s)) s = _
    rw [h]
    rfl
  | ufid x o h h1 h2 =>
    have hx : x.ident = [] := hs
    rw [hx] at h2
    cases h2
    refine ⟨F.esc o ++ F.sep :: [48, 120], s.hex, [o, [48, 120]], ?_, ?_, ?_⟩
    · rw [frame_ufid, conv_ok F h1, hx]
      have := put_all [F.esc o, [F.sep], [48, 120] ++ padded []] s
      simp only [List.map] at this
      rw [this]
      simp [padded]
    · simpa [sepBy] using record (F := F) (.cons (hF.text o (ht1 o (by simp))) (.one (hF.plain (b := [48, 120]) (by intro c hc; simp at hc; rcases hc with rfl | rfl <;> decide)))) (by simp)
    · exact .ufid x o [] h1 (by rw [hx]; exact .nil)
  | txxx x n d t h1 h2 h3 =>
    have hx : s.hex = false ∨ x.unicode.toNat < 10 := hs
    refine ⟨Backup.dec x.unicode.toNat ++ F.sep :: (F.esc d ++ F.sep :: F.esc t), s.hex, [Backup.dec x.unicode.toNat, d, t], ?_, ?_, ?_⟩
    · rw [frame_txxx F pop E v id h2 h3, all_cons _ _ _ _ (num_ten hx)]
      have := fun s => put_all [[F.sep], F.esc d, [F.sep], F.esc t] s
      simp only [List.map] at this
      rw [this]
      simp
    · simpa [sepBy] using record (F := F) (.cons (hF.plain (alnum_decimal (dec_decimal _))) (.cons (hF.text d (ht1 d (by simp))) (.one (hF.text t (ht1 t (by simp)))))) (by simp)
    · exact .txxx x _ d t (dec_decimal _) h2 h3
  | comm x a b c d t h1 h2 h3 =>
    have h4 := ht2 _ rfl
    refine ⟨[a, b, c] ++ F.sep :: (F.esc d ++ F.sep :: F.esc t), s.hex, [[a, b, c], d, t], ?_, ?_, ?_⟩
    · rw [frame_comm F pop E v id h1, conv_ok F h2, conv_ok F h3]
      have := put_all [[a, b, c], [F.sep], F.esc d, [F.sep], F.esc t] s
      simp only [List.map] at this
      rw [this]
      simp
    · simpa [sepBy] using record (F := F) (.cons (plain _ h4.1 h4.2) (.cons (hF.text d (ht1 d (by simp))) (.one (hF.text t (ht1 t (by simp)))))) (by simp)
    · exact .comm x a b c d t h1 h2 h3
  | pcnt c n h =>
    obtain ⟨h0, h4, hx⟩ := hs
    refine ⟨Backup.dec (beNat c), s.hex, [Backup.dec (beNat c)], ?_, by simpa [sepBy] using record (F := F) (.one (hF.plain (alnum_decimal (dec_decimal _)))) (by simp), .pcnt c _ (dec_decimal _)⟩
    show Json.putNum (counterCount c) s = _
    rw [counterCount_ok h0 h4]
    exact num_ten hx
  | popm p e r h h1 h2 h3 =>
    refine ⟨F.esc e ++ F.sep :: (Backup.dec p.rating.toNat ++ F.sep :: p.counter.flatMap hex2), true, [e, Backup.dec p.rating.toNat, p.counter.flatMap hex2], ?_, ?_, ?_⟩
    · rw [frame_popm, conv_ok F h1, all_cons _ _ _ _ rfl, all_cons _ _ _ _ rfl, all_cons _ _ _ _ rfl, all_cons _ _ _ _ (num_ten (.inl rfl)),
        all_cons _ _ _ _ rfl, all_cons _ _ _ _ rfl, all_cons _ _ _ _ rfl]
      simp [Pr.all, Pr.nop]
    · simpa [sepBy] using record (F := F) (.cons (hF.text e (ht1 e (by simp))) (.cons (hF.plain (alnum_decimal (dec_decimal _))) (.one (hF.plain (alnum_pairs (hexPairs_spec _).1))))) (by simp)
    · exact .popm p e _ _ h1 (dec_decimal _) (hexPairs_spec _).1
  | encr e a m n h h1 h2 h3 h4 =>
    obtain ⟨hv, hd, hx⟩ := hs
    have hx' : s.hex = false ∨ m.toNat < 10 := hx.imp_right fun k => k m h2
    rw [hd] at h4
    cases h4
    refine ⟨F.esc a ++ F.sep :: (Backup.dec m.toNat ++ F.sep :: [48, 120]), s.hex, [a, Backup.dec m.toNat, [48, 120]], ?_, ?_, ?_⟩
    · have hk : ∀ o, Json.putNum ((Tag22.use e.method).bind fun m => .ok m.toNat) ⟨o, s.hex⟩ = (⟨o ++ Backup.dec m.toNat, s.hex⟩, .ok ()) := by
        intro o
        rw [h2]
        exact num_ten (s := ⟨o, s.hex⟩) hx'
      rw [frame_encr F pop E v id e hv, conv_ok F h1, hd, all_cons _ _ _ _ rfl, all_cons _ _ _ _ rfl, all_cons _ _ _ _ (hk _)]
      have := fun s => put_all [[F.sep], [48, 120] ++ padded []] s
      simp only [List.map] at this
      rw [this]
      simp [padded]
    · simpa [sepBy] using record (F := F) (.cons (hF.text a (ht1 a (by simp))) (.cons (hF.plain (alnum_decimal (dec_decimal _))) (.one (hF.plain (b := [48, 120]) (by intro c hc; simp at hc; rcases hc with rfl | rfl <;> decide))))) (by simp)
    · exact .encr e a m _ [] h1 h2 (dec_decimal _) (by rw [hd]; exact .nil)
  | xtag t o u h1 h2 =>
    have hv : v ≠ .v4 := hs
    refine ⟨F.esc o ++ F.sep :: F.esc u, s.hex, [o, u], ?_, ?_, ?_⟩
    · rw [frame_xtag F pop E v id t hv, conv_ok F h1, conv_ok F h2]
      have := put_all [F.esc o, [F.sep], F.esc u] s
      simp only [List.map] at this
      rw [this]
      simp
    · simpa [sepBy] using record (F := F) (.cons (hF.text o (ht1 o (by simp))) (.one (hF.text u (ht1 u (by simp))))) (by simp)
    · exact .xtag t o u h1 h2
  | priv p a h =>
    have hv : v = .v3 := hs
    subst hv
    have h2 := ht2 a (by simp)
    refine ⟨a, s.hex, [a], ?_, by simpa [sepBy] using record (F := F) (.one (plain a h2.1 h2.2)) (by simp), .priv p a h⟩
    show Pr.value (E.ascii p.email) s = _
    rw [h]
    rfl

end CsvFrame
end Scribbu
