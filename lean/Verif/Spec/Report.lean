import Verif.Model.Report
import Verif.Spec.Lookup
import Verif.Spec.PopmCmd

/-! Independent specification of reports: how a reader of comma- or tab-separated values takes a document apart, and what the columns
of a row mean. -/

namespace Scribbu.Spec
open Scribbu Report

/-! ## Readers -/

/-- Where a reader is: at the beginning of a field, in a plain field, between quotes, or behind a quote between quotes. -/
inductive At | start | plain | quoted | closing
  deriving DecidableEq, Repr

/-- A reader of records that end with line feeds, of fields with `sep` between them. With `quotes`, a field that begins with a quote goes
on to the next single quote, and two quotes in it stand for one (RFC 4180; quotes elsewhere are taken as they are). `f` is
the field so far, `r` the record so far. -/
def take (quotes : Bool) (sep : Byte) : At → Bytes → List Bytes → Bytes → List (List Bytes)
  | .start, f, r, [] => if f = [] ∧ r = [] then [] else [r ++ [f]]
  | _, f, r, [] => [r ++ [f]]
  | .quoted, f, r, c :: cs => if c = 34 then take quotes sep .closing f r cs else take quotes sep .quoted (f ++ [c]) r cs
  | a, f, r, c :: cs =>
    if a = .closing ∧ c = 34 then take quotes sep .quoted (f ++ [34]) r cs
    else if c = sep then take quotes sep .start [] (r ++ [f]) cs
    else if c = 10 then (r ++ [f]) :: take quotes sep .start [] [] cs
    else if a = .start ∧ quotes ∧ c = 34 then take quotes sep .quoted f r cs
    else take quotes sep .plain (f ++ [c]) r cs

/-- The records of a document. -/
def records (quotes : Bool) (sep : Byte) (doc : Bytes) : List (List Bytes) := take quotes sep .start [] [] doc

/-! ## Columns -/

/-- A digit in base sixteen. -/
def HexFigure (c : Byte) (n : Nat) : Prop := n < 16 ∧ c = UInt8.ofNat (if n < 10 then 48 + n else 87 + n)

/-- A number in base sixteen, most significant digit first. -/
inductive Hexadecimal : Bytes → Nat → Prop
  | one (c n) : HexFigure c n → Hexadecimal [c] n
  | more (b m c n) : Hexadecimal b m → HexFigure c n → Hexadecimal (b ++ [c]) (16 * m + n)

/-- Bytes written as two hexadecimal digits each. -/
inductive HexPairs : Bytes → Bytes → Prop
  | nil : HexPairs [] []
  | cons (c d i j b s l) : HexFigure c i → HexFigure d j → b = UInt8.ofNat (16 * i + j) → HexPairs s l → HexPairs (c :: d :: s) (b :: l)

/-- A decimal number with three places that is as near as can be to `n / d`. -/
def Thousandths (cell : Bytes) (n d : Nat) : Prop :=
  ∃ a b k, cell = a ++ 46 :: b ∧ b.length = 3 ∧ Decimal (a ++ b) k ∧ 2 * (k * d) ≤ 2 * (1000 * n) + d ∧ 2 * (1000 * n) ≤ 2 * (k * d) + d

/-- The frames with an identifier. -/
def withId (id : Bytes) (l : List Spec.Item) : List Spec.Item := l.filter fun x => x.id = id

/-- The cell for a text frame: its text, or nothing. -/
def TextCell (X : Texts) (v : Ver) (l : List Spec.Item) (id : Bytes) (cell : Bytes) : Prop :=
  (withId id l = [] ∧ cell = []) ∨ ∃ x ∈ withId id l, X.frame v x.data = .ok cell

/-- The cells for the play count: how many counters there are, and the count if there is one. -/
def CountCells (N : Nat → Bytes → Prop) (c : Cfg) (l : List Spec.Item) (how what : Bytes) : Prop :=
  N (withId c.cntId l).length how ∧
  match withId c.cntId l with
  | [] => what = []
  | [x] => N (beNat x.data) what
  | _ => what = [42]

/-- The cells for the comments: their texts in order, as far as there are columns, then nothing. -/
def CommentCells (X : Texts) (v : Ver) (l : List Spec.Item) (cid : Bytes) (k : Nat) (cells : List Bytes) : Prop :=
  cells.length = k ∧ ∀ i, i < k → match (withId cid l)[i]? with
    | some x => ∃ s, cells[i]? = some s ∧ X.comment v x.data = .ok s
    | none => cells[i]? = some []

/-- The frames that hold what the columns are named for: artist, title, album, content type, who encoded it, year, languages. -/
def namedIds : Ver → List Bytes
  | .v2 => [/- TP1 -/ [84, 80, 49], /- TT2 -/ [84, 84, 50], /- TAL -/ [84, 65, 76], /- TCO -/ [84, 67, 79], /- TEN -/ [84, 69, 78],
      /- TYE -/ [84, 89, 69], /- TLA -/ [84, 76, 65]]
  | _ => [/- TPE1 -/ [84, 80, 69, 49], /- TIT2 -/ [84, 73, 84, 50], /- TALB -/ [84, 65, 76, 66], /- TCON -/ [84, 67, 79, 78], /- TENC -/ [84, 69, 78, 67],
      /- TYER -/ [84, 89, 69, 82], /- TLAN -/ [84, 76, 65, 78]]

/-- The same with "TYR", which ID3v2.2 does not know, for the year in ID3v2.2 tags. -/
def askedIds : Ver → List Bytes
  | .v2 => (namedIds .v2).set 5 [84, 89, 82]
  | v => namedIds v

/-- Which ID3v2 it is. -/
def minor : Ver → Nat
  | .v2 => 2
  | .v3 => 3
  | .v4 => 4

/-- The cells for an ID3v2 tag. `T` says in which frames the texts are, `N` how counts are shown. -/
structure Tag2Cells (T : Ver → List Bytes) (N : Nat → Bytes → Prop) (X : Texts) (k : Nat) (t : Tag2) (cells : List Bytes) : Prop where
  split : ∃ ver rev size flags unsync texts how what many comments,
    cells = [ver, rev, size, 48 :: 120 :: flags, unsync] ++ texts ++ [how, what, many] ++ comments ∧
    Decimal ver (minor t.cfg.ver) ∧ Decimal rev t.rev.toNat ∧ Decimal size t.size ∧ HexPairs flags [t.flags] ∧
    (∀ b, t.unsync = some b → unsync = if b then [49] else [48]) ∧
    (texts.length = 7 ∧ ∀ (i : Nat) id, (T t.cfg.ver)[i]? = some id → ∃ s, texts[i]? = some s ∧ TextCell X t.cfg.ver (contents t.tag) id s) ∧
    CountCells N t.cfg (contents t.tag) how what ∧
    N (withId t.cfg.comId (contents t.tag)).length many ∧
    CommentCells X t.cfg.ver (contents t.tag) t.cfg.comId k comments

/-- The cells for an ID3v1 tag. -/
def Tag1Cells (t : Tag1) (cells : List Bytes) : Prop :=
  ∃ ar ti al ye co ge, cells = [if t.v11 then [49] else [48], if t.extended then [49] else [48], ar, ti, al, ye, co, ge] ∧
    t.artist = .ok ar ∧ t.title = .ok ti ∧ t.album = .ok al ∧ t.year = .ok ye ∧ t.comment = .ok co ∧ Decimal ge t.genre.toNat

/-- The cells for a file. `P` says how paths are shown, `N` how counts are, `T` in which frames the texts are. -/
structure RowIs (T : Ver → List Bytes) (P : Path → Bytes → Prop) (N : Nat → Bytes → Prop) (X : Texts) (o : Opts) (f : Facts) (row : List Bytes) : Prop where
  split : ∃ dir name mb tag2 size md5 tag1,
    row = dir ++ [name, mb] ++ tag2 ++ [size, md5] ++ tag1 ∧
    (if o.noDir = true then dir = [] else ∃ d, dir = [d] ∧ P f.parent d) ∧ P f.name name ∧
    Thousandths mb f.size 1048576 ∧
    (match f.v2 with
      | some t => Tag2Cells T N X o.ncomm t tag2
      | none => tag2 = List.replicate (15 + o.ncomm) []) ∧
    Decimal size f.trackSize ∧ HexPairs md5 f.md5 ∧
    (match f.v1 with
      | some t => Tag1Cells t tag1
      | none => tag1 = List.replicate 8 [])

/-! ## What can be printed -/

/-- An ID3v2 tag as it is read from a file with these frames. -/
def ReadTag2 (t : Tag2) : Prop :=
  (∃ l : List (Bytes × Bytes), t.tag = l.foldl (fun t' x => t'.parseFrame t.cfg x.1 x.2) LTag.empty) ∧
  ∀ id, t.cfg.textParser id = true → id.head? = some 84

/-- Nothing about the tag keeps it from being printed: its texts (in so far as they are printed) are read as texts and can be converted to something `ok`;
a play counter has one to four bytes and is not in an ID3v2.4 tag. -/
structure Printable2 (ok : Bytes → Prop) (X : Texts) (t : Tag2) : Prop where
  read : ReadTag2 t
  texts : ∀ x ∈ contents t.tag, x.id ∈ askedIds t.cfg.ver → t.cfg.textParser x.id = true ∧ ∃ s, X.frame t.cfg.ver x.data = .ok s ∧ ok s
  comments : ∀ x ∈ contents t.tag, x.id = t.cfg.comId → ∃ s, X.comment t.cfg.ver x.data = .ok s ∧ ok s
  count : ∀ x, withId t.cfg.cntId (contents t.tag) = [x] → 1 ≤ x.data.length ∧ x.data.length ≤ 4 ∧ t.cfg.ver ≠ .v4

/-- The same of an ID3v1 tag. -/
structure Printable1 (ok : Bytes → Prop) (t : Tag1) : Prop where
  artist : ∃ s, t.artist = .ok s ∧ ok s
  title : ∃ s, t.title = .ok s ∧ ok s
  album : ∃ s, t.album = .ok s ∧ ok s
  year : ∃ s, t.year = .ok s ∧ ok s
  comment : ∃ s, t.comment = .ok s ∧ ok s

/-- The same of a file. -/
structure Printable (ok : Bytes → Prop) (path : Path → Prop) (X : Texts) (f : Facts) : Prop where
  parent : path f.parent
  name : path f.name
  v2 : ∀ t, f.v2 = some t → Printable2 ok X t
  v1 : ∀ t, f.v1 = some t → Printable1 ok t

/-- A text that a reader of separated values gets right: it does not begin with a quote, unless it has a separator or a line feed
in it. -/
def QuoteSafe (sep : Byte) (s : Bytes) : Prop := s.head? ≠ some 34 ∨ sep ∈ s ∨ 10 ∈ s

/-- A path without quotes and backslashes. -/
def PlainPath (p : Path) : Prop := 34 ∉ p ∧ 92 ∉ p

/-- A text without separators and line feeds. -/
def Unseparated (sep : Byte) (s : Bytes) : Prop := sep ∉ s ∧ 10 ∉ s

/-! ## Which files -/

/-- The files that the arguments stand for: those named, and the regular files in directories whose name ends in ".mp3". -/
inductive Covers (E : Env) : List Path → List Path → Prop
  | nil : Covers E [] []
  | file (p ps qs) : E.item p = .file → Covers E ps qs → Covers E (p :: ps) (p :: qs)
  | dir (p ps qs es) : E.item p = .dir es false → Covers E ps qs →
      Covers E (p :: ps) ((es.filter fun e => e.regular = true ∧ [46, 109, 112, 51] <:+ e.path).map (·.path) ++ qs)

/-- The rows for files: one for each that can be read, in the order of the files. -/
inductive Shown (E : Env) (R : Facts → List Bytes → Prop) : List Path → List (List Bytes) → Prop
  | nil : Shown E R [] []
  | failed (p ps rows e) : E.read p = .throw e → Shown E R ps rows → Shown E R (p :: ps) rows
  | row (p ps rows f r) : E.read p = .ok f → R f r → Shown E R ps rows → Shown E R (p :: ps) (r :: rows)

end Scribbu.Spec
