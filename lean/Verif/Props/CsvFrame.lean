import Verif.Proofs.CsvFrame
import Verif.Props.Std

/-! Property C150: single frames as comma- or tab-separated values. -/

namespace Scribbu.Props
open Scribbu Report Spec CsvFrame

/-- A printed frame is read as a record of its cells, by a reader that knows about quotes or not. -/
def PrintsCells (q : Bool) (sep : Byte) (pop : Encoding) (E : Std.Env) (v : Ver) (id : Bytes) (b : Body) (p : Pr) : Prop :=
  ∀ s : OS, ∃ text hex cells, p s = (⟨s.out ++ text, hex⟩, .ok ()) ∧ records q sep (text ++ [10]) = [cells] ∧ FrameCells pop E v id b cells

/-- C150 in full: whatever the separator, a frame of any class that can be converted at all is printed as a record of what is in it. -/
def C150_claim : Prop :=
  ∀ (sep : Byte) (E : Std.Env) (v : Ver) (id : Bytes) (b : Body) (cells : List Bytes), sepOk sep = true → InVersion v b →
    FrameCells .UTF_8 E v id b cells → PrintsCells true sep .UTF_8 E v id b (csv sep E v id b)

theorem zero_figure : ∀ i : Fin 16, (48 : Byte) = UInt8.ofNat (if i.val < 10 then 48 + i.val else 87 + i.val) → i.val = 0 := by decide

theorem no_figure : ∀ j : Fin 16, UInt8.ofNat (if j.val < 10 then 48 + j.val else 87 + j.val) ≠ UInt8.ofNat (16 * 0 + j.val) := by decide

theorem not_hexPairs (x : Byte) (l : Bytes) : ∀ l', ¬ HexPairs (CsvFrame.padded (x :: l)) (x :: l') := by
  intro l' h
  have e : CsvFrame.padded (x :: l) = 48 :: x :: CsvFrame.padded l := rfl
  rw [e] at h
  cases h with
  | cons c d i j b s l h1 h2 h3 h4 =>
    obtain ⟨a1, b1⟩ := h1
    have hi : i = 0 := zero_figure ⟨i, a1⟩ b1
    subst hi
    obtain ⟨a2, b2⟩ := h2
    exact no_figure ⟨j, a2⟩ (b2.symm.trans h3)

/-- **Finding** (scribbu/csv-pprinter.cc L322-327, L451-456, L610-615, L478-480): the bytes of a unique file identifier are not printed in base sixteen
but as characters, each with a zero before it. So it is whatever the identifier is, unless it is empty. -/
theorem C150_refuted_ufid (sep : Byte) (E : Std.Env) (v : Ver) (id : Bytes) (x : Ufid) (o h : Bytes)
    (ho : E.base.latin .ISO_8859_1 x.owner = .ok o) (hx : x.ident = h) (s : OS) :
    csv sep E v id (.ufid x) s = (⟨s.out ++ (escape o sep ++ sep :: 48 :: 120 :: h.flatMap fun c => [48, c]), s.hex⟩, .ok ()) := by
  subst hx
  rw [csv, frame_ufid, conv_ok _ ho]
  have := put_all [escape o sep, [sep], [48, 120] ++ CsvFrame.padded x.ident] s
  simp only [List.map] at this
  rw [this]
  simp [CsvFrame.padded]

theorem not_C150 : ¬ C150_claim := by
  intro h
  have hc : FrameCells .UTF_8 stdEnv .v3 [85, 70, 73, 68] (.ufid ⟨[], [1]⟩) [[], 48 :: 120 :: [48, 49]] :=
    .ufid _ _ _ rfl (.cons 48 49 0 1 1 [] [] (by unfold HexFigure; decide) (by unfold HexFigure; decide) rfl .nil)
  obtain ⟨text, hex, cells, h1, h2, h3⟩ := h 44 stdEnv .v3 [85, 70, 73, 68] (.ufid ⟨[], [1]⟩) _ (by decide) trivial hc ⟨[], false⟩
  rw [C150_refuted_ufid 44 stdEnv .v3 _ ⟨[], [1]⟩ [] [1] rfl rfl] at h1
  have ht : text = [44, 48, 120, 48, 1] := by
    have := congrArg (fun r => r.1.out) h1
    exact this.symm
  subst ht
  have hr : records true 44 ([44, 48, 120, 48, 1] ++ [10]) = [[[], [48, 120, 48, 1]]] := by decide
  rw [hr] at h2
  cases h3 with
  | ufid x o h _ hp =>
    simp only [List.cons.injEq, and_true, true_and] at h2
    obtain ⟨-, h2⟩ := h2
    subst h2
    exact not_hexPairs 1 [] [] hp

/-- **Finding**: so the claim is false. -/
theorem C150_refuted : ¬ C150_claim := not_C150

/-- **Finding** (scribbu/csv-pprinter.cc L361-363, L511-513, L675-677): the base that numbers are printed in is not set before a play counter is printed. Behind a
popularimeter, which leaves the stream in base sixteen, ten plays are printed as `a`. -/
theorem C150_refuted_hex :
    Pr.all [csv 44 stdEnv .v3 [80, 79, 80, 77] (.popm ⟨[], 7, [0, 0, 0, 1]⟩), Pr.put [10], csv 44 stdEnv .v3 [80, 67, 78, 84] (.pcnt [0, 0, 0, 10])] ⟨[], false⟩ =
      (⟨/- ,7,00000001 -/ [44, 55, 44, 48, 48, 48, 48, 48, 48, 48, 49, 10, 97], true⟩, .ok ()) := by
  have h : ∀ o, csv 44 stdEnv .v3 [80, 67, 78, 84] (.pcnt [0, 0, 0, 10]) ⟨o, true⟩ = (⟨o ++ [97], true⟩, .ok ()) := by
    intro o
    show Pr.num 10 ⟨o, true⟩ = _
    have : hexa 10 = [97] := by rw [hexa]; decide
    simp [Pr.num, Pr.put, this]
  have h7 : Backup.dec 7 = [55] := by rw [Backup.dec]; decide
  have hp : csv 44 stdEnv .v3 [80, 79, 80, 77] (.popm ⟨[], 7, [0, 0, 0, 1]⟩) ⟨[], false⟩ = (⟨[44, 55, 44, 48, 48, 48, 48, 48, 48, 48, 49], true⟩, .ok ()) := by
    have hl : stdEnv.base.latin (if Ver.v3 = .v2 then Encoding.UTF_8 else .ISO_8859_1) [] = .ok [] := rfl
    rw [csv, frame_popm, conv_ok _ hl, all_cons _ _ _ _ rfl, all_cons _ _ _ _ rfl, all_cons _ _ _ _ rfl, all_cons _ _ _ _ (num_ten (.inl rfl)),
      all_cons _ _ _ _ rfl, all_cons _ _ _ _ rfl, all_cons _ _ _ _ rfl]
    show (({ out := _, hex := true } : OS), Res.ok ()) = _
    have : Backup.dec (UInt8.toNat 7) = [55] := h7
    simp only [this]
    decide
  rw [all_cons _ _ _ _ hp, all_cons _ _ _ _ rfl, all_cons _ _ _ _ (h _)]
  rfl

/-- **Finding** (scribbu/csv-pprinter.cc L564-572): the owner of a private frame is put as it is: with a comma in it, the line has two fields. -/
theorem C150_refuted_priv :
    csv 44 stdEnv .v3 [80, 82, 73, 86] (.priv ⟨[97, 44, 98], [1]⟩) ⟨[], false⟩ = (⟨[97, 44, 98], false⟩, .ok ()) ∧
    records true 44 ([97, 44, 98] ++ [10]) = [[[97], [98]]] := by
  decide +kernel

/-- **Finding** (scribbu/pprinter.cc L290-291): the printers for tag clouds and private frames of ID3v2.4 are entered into the table for ID3v2.3, so that such frames
cannot be printed: an exception is thrown. -/
theorem C150_refuted_v24 (sep : Byte) (E : Std.Env) (id : Bytes) (s : OS) :
    (∀ t, csv sep E .v4 id (.xtag t) s = (s, .throw .outOfRange)) ∧ ∀ p, csv sep E .v4 id (.priv p) s = (s, .throw .outOfRange) :=
  ⟨fun _ => rfl, fun _ => rfl⟩

/-- **C150** A frame whose texts do not begin with quotes, and of a class that is printed as it should be, is printed as a record of its cells, in whatever state
the stream is.
(Missing: see the findings; and texts that begin with quotes, C95.) -/
theorem C150_partial (sep : Byte) (E : Std.Env) (v : Ver) (id : Bytes) (b : Body) (cells : List Bytes) (hs : sepOk sep = true) (hq : sep ≠ 34)
    (hc : FrameCells .UTF_8 E v id b cells) (ht : Tame sep (QuoteSafe sep) id b cells) (s : OS) (hb : CsvShown v s.hex b) :
    ∃ text hex cells', csv sep E v id b s = (⟨s.out ++ text, hex⟩, .ok ()) ∧ records true sep (text ++ [10]) = [cells'] ∧
      FrameCells .UTF_8 E v id b cells' :=
  frame_ok (undoes_csv hs hq) .UTF_8 E v id b cells hc ht s hb

/-- **C150** For tab-separated values, if there are no separators and line feeds in the texts. -/
theorem C150_tsv_partial (ascii : Bool) (E : Std.Env) (v : Ver) (id : Bytes) (b : Body) (cells : List Bytes)
    (hc : FrameCells .ISO_8859_1 E v id b cells) (ht : Tame (tdfFmt ascii).sep (Unseparated (tdfFmt ascii).sep) id b cells) (s : OS) (hb : CsvShown v s.hex b) :
    ∃ text hex cells', tdf ascii E v id b s = (⟨s.out ++ text, hex⟩, .ok ()) ∧ records false (tdfFmt ascii).sep (text ++ [10]) = [cells'] ∧
      FrameCells .ISO_8859_1 E v id b cells' :=
  frame_ok (undoes_tdf ascii) .ISO_8859_1 E v id b cells hc ht s hb

/-- A comment with semicolons and quotes in its text, printed with semicolons between the fields. -/
def csvComment : Body := .comm ⟨none, none, 0, some 0, some (101, 110, 103), [100], [97, 59, 34, 98]⟩

example : FrameCells .UTF_8 stdEnv .v3 [67, 79, 77, 77] csvComment [[101, 110, 103], [100], [97, 59, 34, 98]] :=
  .comm _ _ _ _ _ _ rfl (by decide +kernel) (by decide +kernel)

example : Tame 59 (QuoteSafe 59) [67, 79, 77, 77] csvComment [[101, 110, 103], [100], [97, 59, 34, 98]] ∧ CsvShown .v3 true csvComment := by
  refine ⟨⟨?_, ?_⟩, trivial⟩
  · intro c hc
    simp only [List.mem_cons, List.not_mem_nil, or_false] at hc
    rcases hc with rfl | rfl | rfl <;> exact .inl (by decide)
  · intro c hc
    cases hc
    exact ⟨⟨by decide, by decide⟩, by decide⟩

example : csv 59 stdEnv .v3 [67, 79, 77, 77] csvComment ⟨[], true⟩ = (⟨/- eng;d;"a;""b" -/ [101, 110, 103, 59, 100, 59, 34, 97, 59, 34, 34, 98, 34], true⟩, .ok ()) := by
  decide +kernel

end Scribbu.Props
