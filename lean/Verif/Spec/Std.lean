import Verif.Model.Std
import Verif.Spec.Dump

/-! # What a dump in the standard format shows -/

namespace Scribbu.Spec.Std
open Scribbu Spec.Dump

/-- Lines, each with a line feed at its end. -/
def lined (ls : List Bytes) : Bytes := ls.flatMap (· ++ [10])

/-- The lines of a text; what is behind the last line feed is one too, unless it is empty. -/
def linesOf : Bytes → List Bytes
  | [] => []
  | c :: r =>
    if c = 10 then [] :: linesOf r
    else
      match linesOf r with
      | [] => [[c]]
      | l :: ls => (c :: l) :: ls

/-- A path between quotes: quotes and backslashes in it get a backslash. -/
inductive Escaped : Bytes → Bytes → Prop
  | nil : Escaped [] []
  | plain (c p q) : c ≠ 34 → c ≠ 92 → Escaped p q → Escaped (c :: p) (c :: q)
  | special (c p q) : c = 34 ∨ c = 92 → Escaped p q → Escaped (c :: p) (92 :: c :: q)

/-- The encoding of text in a frame: by the byte that says so, and by the byte order mark. UTF-16 without a byte order mark, which
ID3v2.4 has too, is missing here. -/
inductive Coded : Ver → Byte → Bytes → Encoding → Prop
  | latin (v b) : Coded v 0 b .ISO_8859_1
  | big (v b) : v ≠ .v4 → Coded v 1 (0xfe :: 0xff :: b) .UCS_2BE
  | little (v b) : v ≠ .v4 → Coded v 1 (0xff :: 0xfe :: b) .UCS_2LE
  | bare (v b) : v ≠ .v4 → b.take 2 ≠ [0xfe, 0xff] → b.take 2 ≠ [0xff, 0xfe] → Coded v 1 b .UCS_2
  | big16 (b) : Coded .v4 1 (0xfe :: 0xff :: b) .UTF_16BE
  | little16 (b) : Coded .v4 1 (0xff :: 0xfe :: b) .UTF_16LE
  | utf8 (b) : Coded .v4 3 b .UTF_8

/-- The text of contents that say which encoding they are in. -/
def TextIn (E : Json.Env) (v : Ver) (u : Byte) (b s : Bytes) : Prop := (b = [] ∧ s = []) ∨ ∃ e, Coded v u b e ∧ Utf8 E e b s

/-- A blank, tab, line feed, vertical tab, form feed or carriage return. -/
def White (c : Byte) : Prop := c = 32 ∨ c = 9 ∨ c = 10 ∨ c = 11 ∨ c = 12 ∨ c = 13

/-- `w` is the first word of what is before the first null character. -/
def FirstWord (b w : Bytes) : Prop :=
  ∃ p q r, b = p ++ w ++ q ++ r ∧ (∀ c ∈ p, White c) ∧ (∀ c ∈ w, ¬ White c) ∧ 0 ∉ p ++ w ++ q ∧
    (q = [] ∨ ∃ c q', q = c :: q' ∧ White c ∧ w ≠ []) ∧ (r = [] ∨ ∃ r', r = 0 :: r')

/-- How a language is shown: by its name, if its code is in the table of languages; else the code in base sixteen. -/
inductive LangShown : Byte × Byte × Byte → Bytes → Prop
  | known (l w x n) : FirstWord [l.1, l.2.1, l.2.2] w → Language.inTable.lookup w = some x → Language.outTable.lookup x = some n → LangShown l n
  | other (l w a b c) : FirstWord [l.1, l.2.1, l.2.2] w → Language.inTable.lookup w = none → HexPairs a [l.1] → HexPairs b [l.2.1] → HexPairs c [l.2.2] →
      LangShown l (/- 0x -/ [48, 120] ++ a ++ /- ,0x -/ [44, 48, 120] ++ b ++ /- ,0x -/ [44, 48, 120] ++ c)

/-- Bytes in base sixteen with blanks between them. -/
inductive Spaced : Bytes → Bytes → Prop
  | one (h b) : HexPairs h [b] → Spaced h [b]
  | more (h b s l) : HexPairs h [b] → Spaced s l → Spaced (h ++ 32 :: s) (b :: l)

/-- Bytes as far as they are visible ASCII characters; full stops for others. -/
inductive Visible : Bytes → Bytes → Prop
  | nil : Visible [] []
  | same (b s l) : 32 ≤ b → b ≤ 126 → Visible s l → Visible (b :: s) (b :: l)
  | stop (b s l) : ¬ (32 ≤ b ∧ b ≤ 126) → Visible s l → Visible (46 :: s) (b :: l)

/-- Texts with commas and blanks between them. -/
def commas : List Bytes → Bytes
  | [] => []
  | x :: l => x ++ l.flatMap (/- ,  -/ [44, 32] ++ ·)

/-- The lines for a frame. Each is indented but for those of comments and of unknown frames in ID3v2.3 and ID3v2.4 tags. -/
inductive FrameShows (E : Std.Env) (v : Ver) (ind id : Bytes) : Body → List Bytes → Prop
  | unknown2 (d) : v = .v2 → FrameShows E v ind id (.unknown d) [ind ++ id ++ /- : UNKNOWN -/ [58, 32, 85, 78, 75, 78, 79, 87, 78]]
  | unknown (d n) : v ≠ .v2 → Decimal n d.length → FrameShows E v ind id (.unknown d) [/- frame  -/ [102, 114, 97, 109, 101, 32] ++ id ++ /-  ( -/ [32, 40] ++ n ++ /-  bytes) -/ [32, 98, 121, 116, 101, 115, 41]]
  | text (u t s) : TextIn E.base v u t s → FrameShows E v ind id (.text u t) [ind ++ id ++ /- :  -/ [58, 32] ++ s]
  | ufid (x o h pad) : Utf8 E.base .ASCII x.owner o → HexPairs h x.ident → (v = .v2 → pad = /-       -/ [32, 32, 32, 32, 32]) → (v ≠ .v2 → pad = /-        -/ [32, 32, 32, 32, 32, 32]) →
      FrameShows E v ind id (.ufid x) [ind ++ id ++ /- :  -/ [58, 32] ++ o, ind ++ pad ++ h]
  | txxx (x d s) : TextIn E.base v x.unicode x.desc d → TextIn E.base v x.unicode x.text s →
      FrameShows E v ind id (.txxx x) [ind ++ id ++ /- :  -/ [58, 32] ++ d, ind ++ s]
  | comm (x u l n d s) : x.unicode = some u → x.lang = some l → LangShown l n → TextIn E.base v u x.desc d → TextIn E.base v u x.text s →
      FrameShows E v ind id (.comm x) [id ++ /-  ( -/ [32, 40] ++ n ++ /- ,  -/ [44, 32] ++ (if d = [] then /- <no description> -/ [60, 110, 111, 32, 100, 101, 115, 99, 114, 105, 112, 116, 105, 111, 110, 62] else d) ++ /- ): -/ [41, 58], if s = [] then /- <no text> -/ [60, 110, 111, 32, 116, 101, 120, 116, 62] else s]
  | pcnt (c n) : c ≠ [] → c.length ≤ 4 → Decimal n (beNat c) → FrameShows E v ind id (.pcnt c) [ind ++ id ++ /- :  -/ [58, 32] ++ n]
  | popm (p e r h) : Utf8 E.base .ASCII p.email e → Decimal r p.rating.toNat → HexPairs h p.counter →
      FrameShows E v ind id (.popm p) [ind ++ id ++ /- :  -/ [58, 32] ++ e, ind ++ /- rating:  -/ [114, 97, 116, 105, 110, 103, 58, 32] ++ r, ind ++ /- counter:  -/ [99, 111, 117, 110, 116, 101, 114, 58, 32] ++ h]
  | xtag (t) :
      FrameShows E v ind id (.xtag t) ([ind ++ id ++ /- :  -/ [58, 32] ++ t.own, ind ++ /- tags: -/ [116, 97, 103, 115, 58]] ++ t.tags.map fun x => ind ++ x.1 ++ /- :  -/ [58, 32] ++ commas x.2)
  | encr (x e m n h) : v ≠ .v2 → Utf8 E.base .ASCII x.email e → x.method = some m → Decimal n m.toNat → HexPairs h x.data →
      FrameShows E v ind id (.encr x) [ind ++ id ++ /- :  -/ [58, 32] ++ e, ind ++ /- Method symbol:  -/ [77, 101, 116, 104, 111, 100, 32, 115, 121, 109, 98, 111, 108, 58, 32] ++ n, ind ++ /- Encryption data:  -/ [69, 110, 99, 114, 121, 112, 116, 105, 111, 110, 32, 100, 97, 116, 97, 58, 32] ++ h]
  | priv (p e n s a) : v ≠ .v2 → Utf8 E.base .ASCII p.email e → Decimal n p.contents.length → Spaced s (p.contents.take 16) → Visible a (p.contents.take 16) →
      FrameShows E v ind id (.priv p) [ind ++ id ++ /-  ( -/ [32, 40] ++ e ++ /- ):  -/ [41, 58, 32] ++ n ++ /-  bytes beginning with: -/ [32, 98, 121, 116, 101, 115, 32, 98, 101, 103, 105, 110, 110, 105, 110, 103, 32, 119, 105, 116, 104, 58], ind ++ s ++ /-   > -/ [32, 32, 62] ++ a ++ /- < -/ [60]]

/-- The lines for the frames of a tag, in their order. -/
inductive FramesShow (E : Std.Env) (v : Ver) (ind : Bytes) : List (Bytes × Body) → List Bytes → Prop
  | nil : FramesShow E v ind [] []
  | cons {f fs l ls} : FrameShows E v ind f.1 f.2 l → FramesShow E v ind fs ls → FramesShow E v ind (f :: fs) (l ++ ls)

/-- The text of one of the frames with an identifier; something else instead, if there is none. -/
def Named (E : Std.Env) (t : Std.Tag) (id dflt s : Bytes) : Prop :=
  ((∀ f ∈ t.frames, f.1 ≠ id) ∧ s = dflt) ∨ ∃ u b, (id, Body.text u b) ∈ t.frames ∧ TextIn E.base t.ver u b s

/-- The frames in which artist, title, album, year, track, content type and encoder are. -/
def idsOf : Ver → List Bytes
  | .v2 => [/- TP1 -/ [84, 80, 49], /- TT2 -/ [84, 84, 50], /- TAL -/ [84, 65, 76], /- TYE -/ [84, 89, 69], /- TRK -/ [84, 82, 75], /- TCO -/ [84, 67, 79], /- TEN -/ [84, 69, 78]]
  | _ => [/- TPE1 -/ [84, 80, 69, 49], /- TIT2 -/ [84, 73, 84, 50], /- TALB -/ [84, 65, 76, 66], /- TYER -/ [84, 89, 69, 82], /- TRCK -/ [84, 82, 67, 75], /- TCON -/ [84, 67, 79, 78], /- TENC -/ [84, 69, 78, 67]]

/-- Something around the text of one of the frames with an identifier; nothing, if there is none. -/
def Around (E : Std.Env) (t : Std.Tag) (id pre post s : Bytes) : Prop :=
  ((∀ f ∈ t.frames, f.1 ≠ id) ∧ s = []) ∨ ∃ u b x, (id, Body.text u b) ∈ t.frames ∧ TextIn E.base t.ver u b x ∧ s = pre ++ x ++ post

/-- The lines for an ID3v2 tag. -/
inductive TagShows (E : Std.Env) (ind : Bytes) (t : Std.Tag) : List Bytes → Prop
  | mk (ai ti ali yi ki ci ei v r n s fh ar tt al ye tr ps : Bytes) (sn pn : Nat) (fb : Byte) (b : Bool) (ct en fs : List Bytes) :
      idsOf t.ver = [ai, ti, ali, yi, ki, ci, ei] → Decimal v (minor t.ver) → Decimal r t.rev.toNat → t.size = .ok sn → Decimal n sn →
      t.unsync = some b → s = (if b then /- unsynchronised -/ [117, 110, 115, 121, 110, 99, 104, 114, 111, 110, 105, 115, 101, 100] else /- synchronised -/ [115, 121, 110, 99, 104, 114, 111, 110, 105, 115, 101, 100]) → t.flags = .ok fb → HexPairs fh [fb] →
      Named E t ai /- <no artist> -/ [60, 110, 111, 32, 97, 114, 116, 105, 115, 116, 62] ar → Named E t ti /- <no title> -/ [60, 110, 111, 32, 116, 105, 116, 108, 101, 62] tt → Named E t ali /- <no album> -/ [60, 110, 111, 32, 97, 108, 98, 117, 109, 62] al → Named E t yi /- <no year> -/ [60, 110, 111, 32, 121, 101, 97, 114, 62] ye →
      Around E t ki /-  (track  -/ [32, 40, 116, 114, 97, 99, 107, 32] /- ) -/ [41] tr →
      (∃ x, Around E t ci /- Content-type  -/ [67, 111, 110, 116, 101, 110, 116, 45, 116, 121, 112, 101, 32] [] x ∧ ct = if x = [] then [] else [ind ++ x]) →
      (∃ x, Around E t ei /- Encoded by  -/ [69, 110, 99, 111, 100, 101, 100, 32, 98, 121, 32] [] x ∧ en = if x = [] then [] else [ind ++ x]) →
      FramesShow E t.ver ind t.frames fs → t.padding = .ok pn → Decimal ps pn →
      TagShows E ind t ([ind ++ /- ID3v2. -/ [73, 68, 51, 118, 50, 46] ++ v ++ /- (. -/ [40, 46] ++ r ++ /- ) Tag: -/ [41, 32, 84, 97, 103, 58], ind ++ n ++ /-  bytes,  -/ [32, 98, 121, 116, 101, 115, 44, 32] ++ s, ind ++ /- flags: 0x -/ [102, 108, 97, 103, 115, 58, 32, 48, 120] ++ fh,
        ind ++ ar ++ /-  -  -/ [32, 45, 32] ++ tt, ind ++ al ++ tr ++ /- ,  -/ [44, 32] ++ ye] ++ ct ++ en ++ fs ++ [ind ++ ps ++ /-  bytes of padding -/ [32, 98, 121, 116, 101, 115, 32, 111, 102, 32, 112, 97, 100, 100, 105, 110, 103]])

/-- The lines for several tags. -/
inductive TagsShow (E : Std.Env) (ind : Bytes) : List Std.Tag → List Bytes → Prop
  | nil : TagsShow E ind [] []
  | cons {t ts l ls} : TagShows E ind t l → TagsShow E ind ts ls → TagsShow E ind (t :: ts) (l ++ ls)

/-- The lines for the track. -/
def TrackShows (ind : Bytes) (size : Nat) (md5 : Bytes) (ls : List Bytes) : Prop :=
  ∃ n h, Decimal n size ∧ HexPairs h md5 ∧ ls = [ind ++ n ++ /-  bytes of track data: -/ [32, 98, 121, 116, 101, 115, 32, 111, 102, 32, 116, 114, 97, 99, 107, 32, 100, 97, 116, 97, 58], ind ++ /- MD5:  -/ [77, 68, 53, 58, 32] ++ h]

/-- How a genre is shown: by its name, unless that is not wanted or there is none; `dflt` is shown of a genre without name, its number behind it
if `numbered`. -/
def GenreShown (expand numbered : Bool) (dflt : Bytes) (g : Byte) (s : Bytes) : Prop :=
  (expand = false ∧ ∃ n, Decimal n g.toNat ∧ s = /- genre  -/ [103, 101, 110, 114, 101, 32] ++ n) ∨
  (expand = true ∧ Genres.textForGenre g = some s) ∨
  (expand = true ∧ Genres.textForGenre g = none ∧ ((numbered = true ∧ ∃ n, Decimal n g.toNat ∧ s = dflt ++ n) ∨ (numbered = false ∧ s = dflt)))

/-- The lines for an ID3v1 tag. -/
inductive V1Shows (E : Std.Env) (ind : Bytes) (t : V1Tag) : List Bytes → Prop
  | mk (ar ti al ye co tr : Bytes) (ge : List Bytes) :
      Utf8 E.base E.base.v1 t.artist ar → Utf8 E.base E.base.v1 t.title ti → Utf8 E.base E.base.v1 t.album al → Utf8 E.base E.base.v1 t.year ye →
      Utf8 E.base E.base.v1 t.comment co →
      (t.v11 = false ∧ tr = [] ∨ t.v11 = true ∧ ∃ k n, t.track = some k ∧ Decimal n k.toNat ∧ tr = /-  (track  -/ [32, 40, 116, 114, 97, 99, 107, 32] ++ n ++ /- ) -/ [41]) →
      (t.extended = false ∧ (∃ g, GenreShown E.expand true /- unknown genre  -/ [117, 110, 107, 110, 111, 119, 110, 32, 103, 101, 110, 114, 101, 32] t.genre g ∧ ge = [ind ++ g]) ∨
       t.extended = true ∧ ∃ eg g sb s eb e pb p, Utf8 E.base E.base.v1 t.extGenre eg ∧ GenreShown E.expand false /- unrecognized genre -/ [117, 110, 114, 101, 99, 111, 103, 110, 105, 122, 101, 100, 32, 103, 101, 110, 114, 101] t.genre g ∧
         t.startTime = some sb ∧ Utf8 E.base E.base.v1 sb s ∧ t.endTime = some eb ∧ Utf8 E.base E.base.v1 eb e ∧ t.speed = some pb ∧ Decimal p pb.toNat ∧
         ge = [ind ++ eg ++ /- / -/ [47] ++ g, ind ++ s ++ /- - -/ [45] ++ e ++ /- : speed  -/ [58, 32, 115, 112, 101, 101, 100, 32] ++ p, []]) →
      V1Shows E ind t ([ind ++ /- ID3v1 -/ [73, 68, 51, 118, 49] ++ (if t.v11 = true then /- .1 -/ [46, 49] else []) ++ (if t.extended = true then /-  (enhanced) -/ [32, 40, 101, 110, 104, 97, 110, 99, 101, 100, 41] else []) ++ /- :  -/ [58, 32] ++ ar ++ /-  -  -/ [32, 45, 32] ++ ti,
        ind ++ al ++ tr ++ /- ,  -/ [44, 32] ++ ye, ind ++ co] ++ ge)

/-- The lines for a file: its path, when it was modified, the ID3v2 tags, the track, the ID3v1 tag, as far as they are to be shown, and an empty line. -/
def FileShows (E : Std.Env) (ind : Bytes) (o : Dump.Opts) (p : Path) (time : Bytes) (f : Std.Facts) (ls : List Bytes) : Prop :=
  ∃ q a b c, Escaped p q ∧ ls = [[34] ++ q ++ /- ": -/ [34, 58], /- Last Modified:  -/ [76, 97, 115, 116, 32, 77, 111, 100, 105, 102, 105, 101, 100, 58, 32] ++ time] ++ a ++ b ++ c ++ [[]] ∧
    (Spec.Dump.Shown o o.v2 ∧ TagsShow E ind f.v2 a ∨ ¬ Spec.Dump.Shown o o.v2 ∧ a = []) ∧
    (Spec.Dump.Shown o o.track ∧ TrackShows ind f.size f.md5 b ∨ ¬ Spec.Dump.Shown o o.track ∧ b = []) ∧
    (Spec.Dump.Shown o o.v1 ∧ (f.v1 = none ∧ c = [] ∨ ∃ t, f.v1 = some t ∧ V1Shows E ind t c) ∨ ¬ Spec.Dump.Shown o o.v1 ∧ c = [])

/-- Files that can be read and shown: what reading each of them gives, and when it was modified. -/
inductive Readable (E : Std.Env) (w : Std.World) : List Path → List (Path × Bytes × Std.Facts) → Prop
  | nil : Readable E w [] []
  | cons {p ps t f fs} : w.time p = some t → Std.readFile E.base.z E.base.md5 (w.base.file p).data = .ok f → Readable E w ps fs →
      Readable E w (p :: ps) ((p, t, f) :: fs)

/-- The lines for several files. -/
inductive FilesShow (E : Std.Env) (ind : Bytes) (o : Dump.Opts) : List (Path × Bytes × Std.Facts) → List Bytes → Prop
  | nil : FilesShow E ind o [] []
  | cons {p t f fs l ls} : FileShows E ind o p t f l → FilesShow E ind o fs ls → FilesShow E ind o ((p, t, f) :: fs) (l ++ ls)

/-- Whatever is to be shown of a file can be shown: the sizes of its tags are known, its frames can be put into lines, the texts in its ID3v1 tag
can be converted. -/
structure Showable (E : Std.Env) (ind : Bytes) (o : Dump.Opts) (f : Std.Facts) : Prop where
  size : Spec.Dump.Shown o o.v2 → ∀ t ∈ f.v2, ∃ n, t.size = .ok n
  frames : Spec.Dump.Shown o o.v2 → ∀ t ∈ f.v2, ∀ x ∈ t.frames, ∃ l, FrameShows E t.ver ind x.1 x.2 l
  v1 : Spec.Dump.Shown o o.v1 → ∀ t, f.v1 = some t →
    ∀ b ∈ [t.artist, t.title, t.album, t.year, t.comment, t.extGenre] ++ t.startTime.toList ++ t.endTime.toList, ∃ s, Utf8 E.base E.base.v1 b s

/-- What is shown as it should be: all but encryption methods, tag clouds and private frames of ID3v2.4, and comments the code of whose
language is not in ASCII. -/
def Fit : Ver → Body → Prop
  | _, .encr _ => False
  | v, .xtag _ => v ≠ .v4
  | v, .priv _ => v = .v3
  | _, .comm x => ∀ l, x.lang = some l → l.1 < 0x80 ∧ l.2.1 < 0x80 ∧ l.2.2 < 0x80
  | _, _ => True

end Scribbu.Spec.Std
