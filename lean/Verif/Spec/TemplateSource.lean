import Verif.Model.Template
import Verif.Spec.Template

/-!
# How a template is written, and what it stands for

A template as the manual (doc/scribbu.texi L1222-1400) explains it: a sequence of texts, of replacements in short form (`%A`) or
long form (`%(artist)`, `%(artist:option&option)`), and of optional parts in parentheses followed by a question mark. Only what
the grammar lets one write is included here; what it leaves out is the subject of C63.
-/

namespace Scribbu.Spec
open Scribbu.Tbt

/-- Long names of the replacements that take options on the source, the encoding, …. -/
inductive FieldName where
  | album | artist | contentType | genre | title
  deriving DecidableEq, Repr

/-- Long names of the replacements that stand for parts of the file's name. -/
inductive FileName where
  | basename | fileBasename | extension | fileExtension
  deriving DecidableEq, Repr

/-- All long names. -/
inductive LongName where
  | field (n : FieldName) | file (n : FileName) | encodedBy | md5 | size | year
  deriving DecidableEq, Repr

/-- How it is written. -/
def FieldName.bytes : FieldName → Bytes
  | .album => /- album -/ [97, 108, 98, 117, 109]
  | .artist => /- artist -/ [97, 114, 116, 105, 115, 116]
  | .contentType => /- content-type -/ [99, 111, 110, 116, 101, 110, 116, 45, 116, 121, 112, 101]
  | .genre => /- genre -/ [103, 101, 110, 114, 101]
  | .title => /- title -/ [116, 105, 116, 108, 101]

@[inherit_doc FieldName.bytes] def FileName.bytes : FileName → Bytes
  | .basename => /- basename -/ [98, 97, 115, 101, 110, 97, 109, 101]
  | .fileBasename => /- file-basename -/ [102, 105, 108, 101, 45, 98, 97, 115, 101, 110, 97, 109, 101]
  | .extension => /- extension -/ [101, 120, 116, 101, 110, 115, 105, 111, 110]
  | .fileExtension => /- file-extension -/ [102, 105, 108, 101, 45, 101, 120, 116, 101, 110, 115, 105, 111, 110]

@[inherit_doc FieldName.bytes] def LongName.bytes : LongName → Bytes
  | .field n => n.bytes
  | .file n => n.bytes
  | .encodedBy => /- encoded-by -/ [101, 110, 99, 111, 100, 101, 100, 45, 98, 121]
  | .md5 => /- md5 -/ [109, 100, 53]
  | .size => /- size -/ [115, 105, 122, 101]
  | .year => /- year -/ [121, 101, 97, 114]

/-- The short form of a name. -/
def shortForm : Name → UInt8
  | .album => /- L -/ 76
  | .artist => /- A -/ 65
  | .basename => /- b -/ 98
  | .contentType => /- G -/ 71
  | .encodedBy => /- e -/ 101
  | .extension => /- E -/ 69
  | .md5 => /- 5 -/ 53
  | .size => /- S -/ 83
  | .title => /- T -/ 84
  | .year => /- Y -/ 89

/-- What a long name stands for. -/
def FieldName.field : FieldName → Field
  | .album => .album
  | .artist => .artist
  | .contentType => .contentType
  | .genre => .contentType
  | .title => .title

@[inherit_doc FieldName.field] def FieldName.name : FieldName → Name
  | .album => .album
  | .artist => .artist
  | .contentType => .contentType
  | .genre => .contentType
  | .title => .title

@[inherit_doc FieldName.field] def FileName.name : FileName → Name
  | .basename => .basename
  | .fileBasename => .basename
  | .extension => .extension
  | .fileExtension => .extension

@[inherit_doc FieldName.field] def LongName.name : LongName → Name
  | .field n => n.name
  | .file n => n.name
  | .encodedBy => .encodedBy
  | .md5 => .md5
  | .size => .size
  | .year => .year

/-- Options on the text. -/
inductive TextOption where
  | the | thePrefix | theSuffix
  | cap | capUpper | capLower | capFirst
  | compress | replace (t : Bytes) | both (t : Bytes)
  deriving DecidableEq, Repr

/-- How it is written. -/
def TextOption.bytes : TextOption → Bytes
  | .the => /- the -/ [116, 104, 101]
  | .thePrefix => /- the=prefix -/ [116, 104, 101, 61, 112, 114, 101, 102, 105, 120]
  | .theSuffix => /- the=suffix -/ [116, 104, 101, 61, 115, 117, 102, 102, 105, 120]
  | .cap => /- capitalization -/ [99, 97, 112, 105, 116, 97, 108, 105, 122, 97, 116, 105, 111, 110]
  | .capUpper => /- capitalization=all-upper -/ [99, 97, 112, 105, 116, 97, 108, 105, 122, 97, 116, 105, 111, 110, 61, 97, 108, 108, 45, 117, 112, 112, 101, 114]
  | .capLower => /- capitalization=all-lower -/ [99, 97, 112, 105, 116, 97, 108, 105, 122, 97, 116, 105, 111, 110, 61, 97, 108, 108, 45, 108, 111, 119, 101, 114]
  | .capFirst => /- capitalization=capitalize -/ [99, 97, 112, 105, 116, 97, 108, 105, 122, 97, 116, 105, 111, 110, 61, 99, 97, 112, 105, 116, 97, 108, 105, 122, 101]
  | .compress => /- compress -/ [99, 111, 109, 112, 114, 101, 115, 115]
  | .replace t => /- ws= -/ [119, 115, 61] ++ escape t
  | .both t => /- compressws= -/ [99, 111, 109, 112, 114, 101, 115, 115, 119, 115, 61] ++ escape t

/-- What kind of option it is; only one of a kind may be given. -/
def TextOption.kind : TextOption → Nat
  | .the | .thePrefix | .theSuffix => 0
  | .cap | .capUpper | .capLower | .capFirst => 1
  | .compress | .replace _ | .both _ => 2

/-- The encodings of ID3v1 text one can choose. -/
inductive TextEnc where
  | auto | iso8859_1 | ascii | cp1252 | utf8
  deriving DecidableEq, Repr

/-- How it is written. -/
def TextEnc.bytes : TextEnc → Bytes
  | .auto => /- auto -/ [97, 117, 116, 111]
  | .iso8859_1 => /- iso-8859-1 -/ [105, 115, 111, 45, 56, 56, 53, 57, 45, 49]
  | .ascii => /- ascii -/ [97, 115, 99, 105, 105]
  | .cp1252 => /- cp1252 -/ [99, 112, 49, 50, 53, 50]
  | .utf8 => /- utf-8 -/ [117, 116, 102, 45, 56]

/-- What it stands for. -/
def TextEnc.enc : TextEnc → V1Enc
  | .auto => .automatic
  | .iso8859_1 => .iso8859_1
  | .ascii => .ascii
  | .cp1252 => .cp1252
  | .utf8 => .utf8

/-- How an output encoding is written. -/
def outBytes : OutEnc → Bytes
  | .utf8 => /- utf-8 -/ [117, 116, 102, 45, 56]
  | .ascii => /- ascii -/ [97, 115, 99, 105, 105]
  | .cp1252 => /- cp1252 -/ [99, 112, 49, 50, 53, 50]
  | .iso8859_1 => /- iso-8859-1 -/ [105, 115, 111, 45, 56, 56, 53, 57, 45, 49]

/-- Options of a field. -/
inductive FieldOption where
  | text (o : TextOption) | preferV2 | preferV1 | v1 (e : TextEnc) | output (e : OutEnc)
  deriving DecidableEq, Repr

/-- How it is written. -/
def FieldOption.bytes : FieldOption → Bytes
  | .text o => o.bytes
  | .preferV2 => /- prefer-v2 -/ [112, 114, 101, 102, 101, 114, 45, 118, 50]
  | .preferV1 => /- prefer-v1 -/ [112, 114, 101, 102, 101, 114, 45, 118, 49]
  | .v1 e => /- v1-encoding= -/ [118, 49, 45, 101, 110, 99, 111, 100, 105, 110, 103, 61] ++ e.bytes
  | .output e => /- output= -/ [111, 117, 116, 112, 117, 116, 61] ++ outBytes e

/-- What kind of option it is; only one of a kind may be given. -/
def FieldOption.kind : FieldOption → Nat
  | .text o => o.kind
  | .preferV2 | .preferV1 => 3
  | .v1 _ => 4
  | .output _ => 5

/-- What an option changes. -/
def TextOption.setA (a : AOpts) : TextOption → AOpts
  | .the | .theSuffix => { a with the := .makeSuffix }
  | .thePrefix => { a with the := .makePrefix }
  | .cap | .capFirst => { a with cap := .capitalize }
  | .capUpper => { a with cap := .allUpper }
  | .capLower => { a with cap := .allLower }
  | .compress => { a with compress := true }
  | .replace t => { a with replace := t }
  | .both t => { a with compress := true, replace := t }

@[inherit_doc TextOption.setA] def TextOption.setF (a : FOpts) : TextOption → FOpts
  | .the | .theSuffix => { a with the := .makeSuffix }
  | .thePrefix => { a with the := .makePrefix }
  | .cap | .capFirst => { a with cap := .capitalize }
  | .capUpper => { a with cap := .allUpper }
  | .capLower => { a with cap := .allLower }
  | .compress => { a with compress := true }
  | .replace t => { a with replace := t }
  | .both t => { a with compress := true, replace := t }

@[inherit_doc TextOption.setA] def FieldOption.set (a : AOpts) : FieldOption → AOpts
  | .text o => o.setA a
  | .preferV2 => { a with sp := .preferV2 }
  | .preferV1 => { a with sp := .preferV1 }
  | .v1 e => { a with v1 := e.enc }
  | .output e => { a with out := e }

/-- How a base is written. -/
def baseBytes : Base → Bytes
  | .decimal => /- base=decimal -/ [98, 97, 115, 101, 61, 100, 101, 99, 105, 109, 97, 108]
  | .hex => /- base=hex -/ [98, 97, 115, 101, 61, 104, 101, 120]

/-- A template. -/
inductive Source where
  | nil
  | text (b : Bytes) (rest : Source)
  | short (n : Name) (rest : Source)
  | long (n : LongName) (rest : Source)
  | fieldOptions (n : FieldName) (o : FieldOption) (os : List FieldOption) (rest : Source)
  | fileOptions (n : FileName) (o : TextOption) (os : List TextOption) (rest : Source)
  | md5Base (b : Base) (rest : Source)
  | sizeBase (b : Base) (rest : Source)
  | optional (inner rest : Source)
  deriving DecidableEq, Repr

/-- Options, separated by `&`. -/
def amps : List Bytes → Bytes
  | [] => []
  | [o] => o
  | o :: os => o ++ 38 :: amps os

/-- A template as it is written. -/
def Source.bytes : Source → Bytes
  | .nil => []
  | .text b rest => escape b ++ rest.bytes
  | .short n rest => 37 :: shortForm n :: rest.bytes
  | .long n rest => 37 :: 40 :: (n.bytes ++ 41 :: rest.bytes)
  | .fieldOptions n o os rest =>
    37 :: 40 :: (n.bytes ++ 58 :: (amps ((o :: os).map FieldOption.bytes) ++ 41 :: rest.bytes))
  | .fileOptions n o os rest =>
    37 :: 40 :: (n.bytes ++ 58 :: (amps ((o :: os).map TextOption.bytes) ++ 41 :: rest.bytes))
  | .md5Base b rest => /- %(md5: -/ [37, 40, 109, 100, 53, 58] ++ (baseBytes b ++ 41 :: rest.bytes)
  | .sizeBase b rest => /- %(size: -/ [37, 40, 115, 105, 122, 101, 58] ++ (baseBytes b ++ 41 :: rest.bytes)
  | .optional inner rest => 40 :: (inner.bytes ++ 41 :: 63 :: rest.bytes)

/-- The parts of a file's name a replacement stands for. -/
def FileName.term (o : FOpts) : FileName → Atom
  | .basename | .fileBasename => .basename o
  | .extension | .fileExtension => .extension o

/-- A template as the program is to understand it. -/
def Source.meaning : Source → Tpl
  | .nil => .nil
  | .text b rest => .atom (.text b) rest.meaning
  | .short n rest => .atom n.term rest.meaning
  | .long n rest => .atom n.name.term rest.meaning
  | .fieldOptions n o os rest => .atom (.field n.field ((o :: os).foldl FieldOption.set {})) rest.meaning
  | .fileOptions n o os rest => .atom (n.term ((o :: os).foldl TextOption.setF {})) rest.meaning
  | .md5Base b rest => .atom (.md5 ⟨some b, none⟩) rest.meaning
  | .sizeBase b rest => .atom (.size ⟨some b, none⟩) rest.meaning
  | .optional inner rest => .sub inner.meaning rest.meaning

/-- The words that are not taken as a replacement for white space. -/
def reserved : List Bytes := [
  /- yy -/ [121, 121],
  /- yyyy -/ [121, 121, 121, 121],
  /- ascii -/ [97, 115, 99, 105, 105],
  /- auto -/ [97, 117, 116, 111],
  /- all-lower -/ [97, 108, 108, 45, 108, 111, 119, 101, 114],
  /- all-upper -/ [97, 108, 108, 45, 117, 112, 112, 101, 114],
  /- capitalize -/ [99, 97, 112, 105, 116, 97, 108, 105, 122, 101],
  /- cp1252 -/ [99, 112, 49, 50, 53, 50],
  /- decimal -/ [100, 101, 99, 105, 109, 97, 108],
  /- hex -/ [104, 101, 120],
  /- hex-case -/ [104, 101, 120, 45, 99, 97, 115, 101],
  /- iso-8859-1 -/ [105, 115, 111, 45, 56, 56, 53, 57, 45, 49],
  /- L -/ [76],
  /- prefix -/ [112, 114, 101, 102, 105, 120],
  /- suffix -/ [115, 117, 102, 102, 105, 120],
  /- U -/ [85],
  /- utf-8 -/ [117, 116, 102, 45, 56],
  /- utf-16-be -/ [117, 116, 102, 45, 49, 54, 45, 98, 101],
  /- utf-16-le -/ [117, 116, 102, 45, 49, 54, 45, 108, 101],
  /- utf-32 -/ [117, 116, 102, 45, 51, 50],
  /- v1-only -/ [118, 49, 45, 111, 110, 108, 121],
  /- v2-only -/ [118, 50, 45, 111, 110, 108, 121]]

/-- A text that can be written: not empty, no null character, and no `=` (see C40). -/
def Writable (b : Bytes) : Prop := b ≠ [] ∧ 0 ∉ b ∧ 61 ∉ b

instance (b : Bytes) : Decidable (Writable b) := inferInstanceAs (Decidable (_ ∧ _ ∧ _))

/-- A replacement for white space that can be written. -/
def TextOption.Ok : TextOption → Prop
  | .replace t | .both t => Writable t ∧ t ∉ reserved
  | _ => True

instance (o : TextOption) : Decidable o.Ok := by cases o <;> unfold TextOption.Ok <;> infer_instance

@[inherit_doc TextOption.Ok] def FieldOption.Ok : FieldOption → Prop
  | .text o => o.Ok
  | _ => True

instance (o : FieldOption) : Decidable o.Ok := by cases o <;> unfold FieldOption.Ok <;> infer_instance

/-- Does the template start with a text? -/
def Source.startsText : Source → Bool
  | .text _ _ => true
  | _ => false

/-- A short form that what follows would turn into another word: `%b` before `ase`, `%e` before `xtension` or `ncoded-by`. -/
def swallowed (n : Name) (rest : Bytes) : Bool :=
  match n with
  | .basename => [97, 115, 101].isPrefixOf rest
  | .encodedBy => [120, 116, 101, 110, 115, 105, 111, 110].isPrefixOf rest || [110, 99, 111, 100, 101, 100, 45, 98, 121].isPrefixOf rest
  | _ => false

/-- A template that means what it says: texts can be written and are not split in two, options are not repeated, optional
parts are not empty, and short forms are not mistaken for other words. -/
def Source.Ok : Source → Prop
  | .nil => True
  | .text b rest => Writable b ∧ rest.startsText = false ∧ rest.Ok
  | .short n rest => swallowed n rest.bytes = false ∧ rest.Ok
  | .long _ rest => rest.Ok
  | .fieldOptions _ o os rest =>
    (∀ x ∈ o :: os, x.Ok) ∧ ((o :: os).map FieldOption.kind).Nodup ∧ rest.Ok
  | .fileOptions _ o os rest => (∀ x ∈ o :: os, x.Ok) ∧ ((o :: os).map TextOption.kind).Nodup ∧ rest.Ok
  | .md5Base _ rest => rest.Ok
  | .sizeBase _ rest => rest.Ok
  | .optional inner rest => inner ≠ .nil ∧ inner.Ok ∧ rest.Ok

end Scribbu.Spec
