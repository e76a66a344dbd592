import Verif.Model.Commands
import Verif.Spec.Lookup
import Verif.Spec.Genres

/-! Independent specification of what the sub-command `genre` does, and of tags made from tags of the other kind. -/

namespace Scribbu.Spec
open Scribbu Commands Process

/-- Of the frames, only one is new or different: a text frame with identifier `id`, whose contents are now `d`. -/
def OnlyFrame (id d : Bytes) (before after : List Item) : Prop :=
  ((∀ x ∈ before, x.id = id → x.cls ≠ .text) ∧ after = before ++ [⟨id, .text, d⟩]) ∨
  ∃ a x b, before = a ++ x :: b ∧ x.id = id ∧ x.cls = .text ∧ after = a ++ ⟨id, .text, d⟩ :: b

/-- The tag has been given the genre: it answers it when asked for its content type, and nothing else about it is different. -/
def GenreSet (C : Conv) (text : Bytes) (t t' : Tg) : Prop :=
  t'.cfg = t.cfg ∧ t'.text C .tcon = .ok text ∧
  (contents t'.tag = contents t.tag ∨
   ∃ id d, frameId t.cfg.ver .tcon = .ok id ∧ C.frameText t.cfg.ver d = .ok text ∧ OnlyFrame id d (contents t.tag) (contents t'.tag))

/-- The ID3v1 tag has been given the genre; nothing else is different but, in an enhanced tag, its text for the genre. -/
def V1GenreSet (g : Byte) (t t' : V1Tag) : Prop :=
  t' = { t with genre := g, extGenre := t'.extGenre } ∧ (t.extended = false → t'.extGenre = t.extGenre)

/-- Conversions that can make something of every frame, can put the genre into a frame such that it reads back, and can put names
of genres into ID3v1 tags. -/
structure Able (C : Conv) (text : Bytes) : Prop where
  reads : ∀ v d, ∃ s, C.frameText v d = .ok s
  writes : ∀ v, ∃ d, C.frameData v text = .ok d ∧ C.frameText v d = .ok text
  plain : ∀ s, ∃ b, C.v1Plain s = .ok b

/-- A tag as read from a file with these frames. -/
def tagOf (c : Cfg) (frames : List (Bytes × Bytes)) : Tg := ⟨c, frames.foldl (fun t x => t.parseFrame c x.1 x.2) LTag.empty⟩

/-- A tag as read from some file. -/
def ReadTag (t : Tg) : Prop := ∃ l, t = tagOf t.cfg l

/-- A text that can be put into a frame of an ID3v2.3 tag such that it reads back. -/
def Trips (C : Conv) (s : Bytes) : Prop := ∃ d, C.frameData .v3 s = .ok d ∧ C.frameText .v3 d = .ok s

/-- The text of a field of an ID3v1 tag can be read, and put into an ID3v2.3 tag. -/
def FieldOk (C : Conv) (field : Bytes) : Prop := ∃ s, C.v1Text field = .ok s ∧ Trips C s

/-- An ID3v1 tag whose fields can all be read and put into an ID3v2.3 tag. -/
structure Readable (C : Conv) (v1 : V1Tag) : Prop where
  artist : FieldOk C v1.artist
  title : FieldOk C v1.title
  album : FieldOk C v1.album
  year : FieldOk C v1.year
  comment : ∃ s d, C.v1Text v1.comment = .ok s ∧ C.comment s = .ok d
  genre : ∀ name ∈ genres, Trips C name

/-- What a field says, if anything, is what the tag answers. -/
def Kept (C : Conv) (field : Bytes) (f : TextFrame) (t : Tg) : Prop := ∀ s, C.v1Text field = .ok s → s ≠ [] → t.text C f = .ok s

/-- The ID3v2 tag says what the ID3v1 tag says (but for the number of the track). A year is four characters. -/
structure CopiedV1 (C : Conv) (v1 : V1Tag) (t : Tg) : Prop where
  artist : Kept C v1.artist .tpe1 t
  title : Kept C v1.title .tit2 t
  album : Kept C v1.album .talb t
  year : ∀ s, C.v1Text v1.year = .ok s → s.length = 4 → t.text C .tyer = .ok s
  comment : ∀ s d, C.v1Text v1.comment = .ok s → s ≠ [] → C.comment s = .ok d → ∃ x ∈ contents t.tag, x.cls = .com ∧ x.data = d
  genre : ∀ name, genres[v1.genre.toNat]? = some name → t.text C .tcon = .ok name

/-- A field of `n` bytes with the first text of a kind, among those the tags answer, that is not empty: cut to that size or filled up
with zeros; only zeros if there is no such text. -/
def FirstText (C : Conv) (f : TextFrame) (v2 : List Tg) (n : Nat) (field : Bytes) : Prop :=
  ((∀ t ∈ v2, t.text C f = .ok [] ∨ t.text C f = .throw .unknownFrame) ∧ field = List.replicate n 0) ∨
  ∃ a t b s d, v2 = a ++ t :: b ∧ (∀ t ∈ a, t.text C f = .ok [] ∨ t.text C f = .throw .unknownFrame) ∧ t.text C f = .ok s ∧ s ≠ [] ∧
    C.v1Data s = .ok d ∧ field.length = n ∧ (field = d.take n ∨ ∃ k, field = d ++ List.replicate k 0)

/-- The same for the year: the first text of four characters, none of which is zero. -/
def FirstYear (C : Conv) (v2 : List Tg) (field : Bytes) : Prop :=
  ∀ a t b s, v2 = a ++ t :: b → (∀ t ∈ a, ∀ s, t.text C .tyer = .ok s → s.length ≠ 4) → t.text C .tyer = .ok s → s.length = 4 →
    (0 : Byte) ∉ s → field = s

/-- The ID3v1 tag says what the first of the ID3v2 tags that says something says. -/
structure CopiedV2 (C : Conv) (v2 : List Tg) (t : V1Tag) : Prop where
  title : FirstText C .tit2 v2 30 t.title
  artist : FirstText C .tpe1 v2 30 t.artist
  album : FirstText C .talb v2 30 t.album
  year : FirstYear C v2 t.year
  plain : t.extended = false ∧ t.v11 = false ∧ t.comment = List.replicate 30 0

/-- Conversions that can make something of every frame in the tags, can put any text into an ID3v1 tag and find a genre for what the tags
say (if not empty). -/
structure V2Able (C : Conv) (v2 : List Tg) : Prop where
  reads : ∀ v d, ∃ s, C.frameText v d = .ok s
  plain : ∀ s, ∃ b, C.v1Data s = .ok b
  match_ : ∀ t ∈ v2, ∀ s, t.text C .tcon = .ok s → s ≠ [] → ∃ r, Genres.matchGenre C.chars C.lower s = .ok r

mutual
/-- The files that an argument stands for: itself, or those beneath it. -/
def filesOf : Entry → List Path
  | .file p => [p]
  | .dir _ l => filesIn l
  | .other _ => []

/-- The same for several. -/
def filesIn : Entries → List Path
  | .nil => []
  | .cons e l => filesOf e ++ filesIn l
end

/-- Files processed one after the other, as far as the first that fails. -/
def untilFailure (F : Path → FM Unit) : List Path → FS → Res Unit × FS
  | [], s => (.ok (), s)
  | p :: ps, s =>
    match (F p s).res with
    | .ok _ => untilFailure F ps (F p s).fs
    | .throw e => (.throw e, (F p s).fs)
    | .ub u => (.ub u, (F p s).fs)

/-- Files processed one after the other, whether or not some fail. -/
def regardless (F : Path → FM Unit) : List Path → FS → FS
  | [], s => s
  | p :: ps, s => regardless F ps (F p s).fs

/-- A number below 1000 in decimal. -/
def decimal3 (n : Nat) : Bytes :=
  if n < 10 then [UInt8.ofNat (48 + n)]
  else if n < 100 then [UInt8.ofNat (48 + n / 10), UInt8.ofNat (48 + n % 10)]
  else [UInt8.ofNat (48 + n / 100), UInt8.ofNat (48 + n / 10 % 10), UInt8.ofNat (48 + n % 10)]

end Scribbu.Spec
