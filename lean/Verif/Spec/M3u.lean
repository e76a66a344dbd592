import Verif.Model.M3u
import Verif.Spec.Commands
import Verif.Spec.PopmCmd

/-! Independent specification of playlists: how a reader of extended M3U takes one apart, and what the sub-command `m3u` is to put
into it. -/

namespace Scribbu.Spec.M3u
open Scribbu Commands Spec

/-! ## Readers -/

/-- The lines of a text; what follows the last line feed is a line if it is not empty. `l` is the line so far. -/
def linesFrom : Bytes → Bytes → List Bytes
  | l, [] => if l = [] then [] else [l]
  | l, c :: cs => if c = 10 then l :: linesFrom [] cs else linesFrom (l ++ [c]) cs

/-- The lines of a text. -/
def lines (b : Bytes) : List Bytes := linesFrom [] b

/-- An item of a playlist: seconds and title, if they are said, and the path. -/
structure Track where
  info : Option (Nat × Bytes)
  path : Bytes
  deriving DecidableEq, Repr

/-- Whether a byte is a digit. -/
def digit (c : Byte) : Bool := 48 ≤ c && c ≤ 57

/-- What a line `#EXTINF:seconds,title` says. -/
def extinf (l : Bytes) : Option (Nat × Bytes) :=
  if l.take 8 = [35, 69, 88, 84, 73, 78, 70, 58] then
    match (l.drop 8).dropWhile digit with
    | 44 :: t => some (decVal ((l.drop 8).takeWhile digit), t)
    | _ => none
  else none

/-- The items that lines are about: empty lines are skipped, lines with `#` in front are comments unless they say something about the next path, the other
lines are paths. -/
def tracksFrom : Option (Nat × Bytes) → List Bytes → List Track
  | _, [] => []
  | i, l :: ls =>
    if l = [] then tracksFrom i ls
    else if l.head? = some 35 then
      tracksFrom (match extinf l with | some x => some x | none => i) ls
    else ⟨i, l⟩ :: tracksFrom none ls

/-- The items of a playlist. -/
def tracks (doc : Bytes) : List Track := tracksFrom none (lines doc)

/-- `#EXTM3U`, the line that an extended playlist begins with. -/
def header : Bytes := [35, 69, 88, 84, 77, 51, 85]

/-! ## What there is to list -/

/-- The regular files that there are, in the order of the walk. -/
def found : M3u.Forest → List Path
  | .nil => []
  | .file p r => p :: found r
  | .other _ r => found r
  | .bad r => found r
  | .dir k _ r => found k ++ found r

/-- What is neither file nor directory, or is not there. -/
def strange : M3u.Forest → List Path
  | .nil => []
  | .file _ r => strange r
  | .other p r => p :: strange r
  | .bad r => strange r
  | .dir k _ r => strange k ++ strange r

/-- The arguments that are neither file nor directory, or are not there. -/
def idle : M3u.Forest → List Path
  | .nil => []
  | .file _ r => idle r
  | .other p r => p :: idle r
  | .bad r => idle r
  | .dir _ _ r => idle r

/-- The file system answers all questions. -/
def sound : M3u.Forest → Bool
  | .nil => true
  | .file _ r => sound r
  | .other _ r => sound r
  | .bad _ => false
  | .dir k broken r => sound k && !broken && sound r

/-- The files that are listed by name, and those in directories that are called `.mp3`. `inside` says whether we are in a directory. -/
def wanted (inside : Bool) : M3u.Forest → List Path
  | .nil => []
  | .file p r => if inside && !decide ([46, 109, 112, 51] <:+ p) then wanted inside r else p :: wanted inside r
  | .other _ r => wanted inside r
  | .bad r => wanted inside r
  | .dir k _ r => wanted true k ++ wanted inside r

/-! ## What there is to say about a file -/

/-- The frames for the artist and for the title. -/
def nameIds : Ver → Bytes × Bytes
  | .v2 => (/- TP1 -/ [84, 80, 49], /- TT2 -/ [84, 84, 50])
  | _ => (/- TPE1 -/ [84, 80, 69, 49], /- TIT2 -/ [84, 73, 84, 50])

/-- How texts are converted: from which encoding if one is named, to which, and what is done about characters that are not in it. -/
structure How where
  conv : M3u.Conv
  src : Option Encoding
  dst : Encoding
  rsp : OnNo

/-- The text of a frame. -/
def How.frame (h : How) (v : Ver) (d : Bytes) : Option Bytes := h.conv.frame v d h.dst h.rsp h.src

/-- The text of a field of an ID3v1 tag. -/
def How.field (h : How) (d : Bytes) : Option Bytes := h.conv.field d h.src h.dst h.rsp

/-- Artist and title as they are shown. -/
def ArtistTitle (a t d : Bytes) : Prop := a ≠ [] ∧ t ≠ [] ∧ d = a ++ [32, 45, 32] ++ t

/-- `d` is the artist and the title that an ID3v2 tag names. -/
def Named2 (h : How) (t : Tg) (d : Bytes) : Prop :=
  ∃ x ∈ contents t.tag, x.id = (nameIds t.cfg.ver).1 ∧ ∃ y ∈ contents t.tag, y.id = (nameIds t.cfg.ver).2 ∧
    ∃ a b, h.frame t.cfg.ver x.data = some a ∧ h.frame t.cfg.ver y.data = some b ∧ ArtistTitle a b d

/-- `d` is the artist and the title that an ID3v1 tag names. -/
def Named1 (h : How) (t : V1Tag) (d : Bytes) : Prop := ∃ a b, h.field t.artist = some a ∧ h.field t.title = some b ∧ ArtistTitle a b d

/-- `d` is the artist and the title that some tag of the file names. -/
def Named (h : How) (f : M3u.Facts) (d : Bytes) : Prop := (∃ t ∈ f.v2, Named2 h t d) ∨ ∃ t, f.v1 = some t ∧ Named1 h t d

/-- The name of a file, without the directory. -/
def IsName (p name : Bytes) : Prop := ∃ dir, p = dir ++ name ∧ 47 ∉ name ∧ (dir = [] ∨ ∃ d, dir = d ++ [47])

/-- The name of a file, without the directory and without the extension, which begins with the last full stop unless that begins the name. -/
def IsStem (p s : Bytes) : Prop :=
  ∃ name, IsName p name ∧
    ((name = [46, 46] ∧ s = name) ∨ (name ≠ [46, 46] ∧ s = name ∧ 46 ∉ name.tail) ∨
     (name ≠ [46, 46] ∧ s ≠ [] ∧ ∃ ext, name = s ++ 46 :: ext ∧ 46 ∉ ext))

/-- The number of whole seconds nearest to the duration. -/
def Nearest (n : Nat) (f : M3u.Facts) : Prop :=
  2 * (n * f.den) ≤ 2 * (f.num * f.frames) + f.den ∧ 2 * (f.num * f.frames) < 2 * (n * f.den) + f.den

/-- An item about a file: the path, the duration, and as title what a tag names or the name of the file. -/
def About (h : How) (read : Path → Res M3u.Facts) (p : Path) (t : Track) : Prop :=
  ∃ f n d, read p = .ok f ∧ t.path = p ∧ t.info = some (n, d) ∧ Nearest n f ∧ (Named h f d ∨ IsStem p d)

/-- One thing about each of the files, in order. -/
inductive Each {β : Type} (R : Path → β → Prop) : List Path → List β → Prop
  | nil : Each R [] []
  | cons (p ps t ts) : R p t → Each R ps ts → Each R (p :: ps) (t :: ts)

/-- A file that can be read: its ID3v2 tags are as found in files and know the frames for artist and title as texts, and sampling rates
are positive. -/
structure Fine (f : M3u.Facts) : Prop where
  tags : ∀ t ∈ f.v2, ReadTag t ∧ (∀ id, t.cfg.textParser id = true → id.head? = some 84) ∧
    t.cfg.textParser (nameIds t.cfg.ver).1 = true ∧ t.cfg.textParser (nameIds t.cfg.ver).2 = true
  rate : 0 < f.den

/-- A path that a reader takes for one: not empty, no line feed, no `#` in front. -/
def PathLine (p : Bytes) : Prop := p ≠ [] ∧ 10 ∉ p ∧ p.head? ≠ some 35

/-- No text of the file has a line feed in it once it is converted. -/
structure OneLine (h : How) (f : M3u.Facts) : Prop where
  v2 : ∀ t ∈ f.v2, ∀ x ∈ contents t.tag, ∀ s, h.frame t.cfg.ver x.data = some s → 10 ∉ s
  v1 : ∀ t, f.v1 = some t → (∀ s, h.field t.artist = some s → 10 ∉ s) ∧ ∀ s, h.field t.title = some s → 10 ∉ s

/-! ## UTF-8 -/

/-- A byte that continues a character. -/
def Cont (c : Byte) : Prop := 0x80 ≤ c ∧ c ≤ 0xbf

/-- Well-formed UTF-8: RFC 3629, section 4. -/
inductive Utf8 : Bytes → Prop
  | nil : Utf8 []
  | one (c s) : c < 0x80 → Utf8 s → Utf8 (c :: s)
  | two (c d s) : 0xc2 ≤ c → c ≤ 0xdf → Cont d → Utf8 s → Utf8 (c :: d :: s)
  | three (c d e s) : ((c = 0xe0 ∧ 0xa0 ≤ d ∧ d ≤ 0xbf) ∨ (0xe1 ≤ c ∧ c ≤ 0xec ∧ Cont d) ∨ (c = 0xed ∧ 0x80 ≤ d ∧ d ≤ 0x9f) ∨
      (0xee ≤ c ∧ c ≤ 0xef ∧ Cont d)) → Cont e → Utf8 s → Utf8 (c :: d :: e :: s)
  | four (c d e f s) : ((c = 0xf0 ∧ 0x90 ≤ d ∧ d ≤ 0xbf) ∨ (0xf1 ≤ c ∧ c ≤ 0xf3 ∧ Cont d) ∨ (c = 0xf4 ∧ 0x80 ≤ d ∧ d ≤ 0x8f)) →
      Cont e → Cont f → Utf8 s → Utf8 (c :: d :: e :: f :: s)

end Scribbu.Spec.M3u
