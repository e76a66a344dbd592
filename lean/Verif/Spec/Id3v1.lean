import Verif.Model.Basic

/-! Independent description of ID3v1 tag images and where they sit in a file. -/

namespace Scribbu.Spec

/-- "TAG" -/
def TAG : Bytes := [0x54, 0x41, 0x47]
/-- "TAG+" -/
def TAGP : Bytes := [0x54, 0x41, 0x47, 0x2b]

/-- The fields of a 128-byte ID3v1 image (layout of scribbu/id3v1.hh L42-50). -/
structure StdFields where
  title : Bytes
  artist : Bytes
  album : Bytes
  year : Bytes
  comment : Bytes
  genre : Byte

def StdFields.Ok (f : StdFields) : Prop :=
  f.title.length = 30 ∧ f.artist.length = 30 ∧ f.album.length = 30 ∧ f.year.length = 4 ∧
  f.comment.length = 30

/-- The 128-byte image. -/
def StdFields.image (f : StdFields) : Bytes :=
  TAG ++ f.title ++ f.artist ++ f.album ++ f.year ++ f.comment ++ [f.genre]

/-- The additional fields of the 227-byte enhanced block (id3v1.hh L119-128). -/
structure ExtFields where
  title : Bytes
  artist : Bytes
  album : Bytes
  speed : Byte
  genre : Bytes
  start : Bytes
  stop : Bytes

def ExtFields.Ok (f : ExtFields) : Prop :=
  f.title.length = 60 ∧ f.artist.length = 60 ∧ f.album.length = 60 ∧ f.genre.length = 30 ∧
  f.start.length = 6 ∧ f.stop.length = 6

/-- The 227-byte enhanced block. -/
def ExtFields.image (f : ExtFields) : Bytes :=
  TAGP ++ f.title ++ f.artist ++ f.album ++ [f.speed] ++ f.genre ++ f.start ++ f.stop

/-- ID3v1.1 convention: a zero followed by a non-zero track number at the end of
the comment. -/
def Is11 (comment : Bytes) : Prop :=
  ∃ c n, comment = c ++ [0, n] ∧ n ≠ 0

/-- `f` has "TAG+" 355 bytes before its end, at offset `n`. -/
def ExtAt (f : Bytes) (n : Nat) : Prop :=
  ∃ body tail, f = body ++ TAGP ++ tail ∧ body.length = n ∧ tail.length = 351

/-- `f` has "TAG" 128 bytes before its end, at offset `n`. -/
def StdAt (f : Bytes) (n : Nat) : Prop :=
  ∃ body tail, f = body ++ TAG ++ tail ∧ body.length = n ∧ tail.length = 125

/-- Fixed-width NUL-padded field. -/
def padded (n : Nat) (b : Bytes) : Bytes := (b ++ List.replicate n 0).take n

end Scribbu.Spec
