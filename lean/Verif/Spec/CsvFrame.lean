import Verif.Model.CsvFrame
import Verif.Spec.Report

/-! Independent specification of single frames as comma- or tab-separated values: which cells there should be. -/

namespace Scribbu.Spec
open Scribbu Report

/-- The cells for a frame: what it is asked for by the library's functions, numbers in decimal, bytes in base sixteen. -/
inductive FrameCells (pop : Encoding) (E : Std.Env) (v : Ver) (id : Bytes) : Body → List Bytes → Prop
  | unknown (d) : FrameCells pop E v id (.unknown d) [id]
  | text (u t s) : E.base.asStr v (some u) t = .ok s → FrameCells pop E v id (.text u t) [s]
  | ufid (x o h) : E.base.latin .ISO_8859_1 x.owner = .ok o → HexPairs h x.ident → FrameCells pop E v id (.ufid x) [o, 48 :: 120 :: h]
  | txxx (x n d t) : Decimal n x.unicode.toNat → E.user v x.unicode x.desc = .ok d → E.user v x.unicode x.text = .ok t →
      FrameCells pop E v id (.txxx x) [n, d, t]
  | comm (x a b c d t) : x.lang = some (a, b, c) → E.base.asStr v x.unicode x.desc = .ok d → E.base.asStr v x.unicode x.text = .ok t →
      FrameCells pop E v id (.comm x) [[a, b, c], d, t]
  | pcnt (c n) : Decimal n (beNat c) → FrameCells pop E v id (.pcnt c) [n]
  | popm (p e r h) : E.base.latin (if v = .v2 then pop else .ISO_8859_1) p.email = .ok e → Decimal r p.rating.toNat → HexPairs h p.counter →
      FrameCells pop E v id (.popm p) [e, r, h]
  | encr (e a m n h) : E.base.latin .ISO_8859_1 e.email = .ok a → e.method = some m → Decimal n m.toNat → HexPairs h e.data →
      FrameCells pop E v id (.encr e) [a, n, 48 :: 120 :: h]
  | xtag (t o u) : E.base.conv .UTF_8 t.own = .ok o → E.base.conv .UTF_8 t.urlencoded = .ok u → FrameCells pop E v id (.xtag t) [o, u]
  | priv (p a) : E.ascii p.email = .ok a → FrameCells pop E v id (.priv p) [a]

/-- What a frame of this version can be. -/
def InVersion (v : Ver) : Body → Prop
  | .encr _ => v ≠ .v2
  | .priv _ => v ≠ .v2
  | _ => True

/-- Nothing in the cells is such that it would have to be put otherwise than as it is (quotes at the beginning), and what is put without looking at it
(identifiers, languages, owners) has no separators. -/
def Tame (sep : Byte) (ok : Bytes → Prop) (id : Bytes) (b : Body) (cells : List Bytes) : Prop :=
  (∀ c ∈ cells, ok c) ∧
  match b with
  | .unknown _ => Unseparated sep id ∧ id.head? ≠ some 34
  | .comm _ => ∀ c, cells.head? = some c → Unseparated sep c ∧ c.head? ≠ some 34
  | .priv _ => ∀ c ∈ cells, Unseparated sep c ∧ c.head? ≠ some 34
  | _ => True

/-- Frames that are printed as they should be, given the base the stream is in: without identifiers and data in base sixteen, in classes that there is a
printer for, with numbers that are the same in both bases unless the stream is in base ten. -/
def CsvShown (v : Ver) (hex : Bool) : Body → Prop
  | .ufid x => x.ident = []
  | .encr e => v ≠ .v2 ∧ e.data = [] ∧ (hex = false ∨ ∀ m, e.method = some m → m.toNat < 10)
  | .pcnt c => c ≠ [] ∧ c.length ≤ 4 ∧ (hex = false ∨ beNat c < 10)
  | .xtag _ => v ≠ .v4
  | .priv _ => v = .v3
  | .txxx x => hex = false ∨ x.unicode.toNat < 10
  | _ => True

end Scribbu.Spec
