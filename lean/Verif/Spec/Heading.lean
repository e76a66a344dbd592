import Verif.Spec.Sections
import Verif.Spec.Tag23

/-! # What the headers of the tags of a file say -/

namespace Scribbu.Spec
open Scribbu

/-- A tag by its header: version, revision, flags, the size announced; and that many bytes after the header. -/
structure Head where
  version : Byte
  revision : Byte
  flags : Byte
  size : Nat
  content : Bytes

/-- The tags at the beginning of a file. -/
inductive HeadsTo : Bytes → List Head → Prop
  | none {d} : (∀ v r f n, ¬ IsHeader d v r f n) → HeadsTo d []
  | tag {d v r f n hs} : IsHeader d v r f n → HeadsTo (d.drop (tagSpan v f n)) hs → HeadsTo d (⟨v, r, f, n, (d.drop 10).take n⟩ :: hs)

/-- The flags that are defined: unsynchronisation and compression; unsynchronisation, extended header and experimental indicator; the same and the footer. -/
def knownFlags (v : Byte) : Byte := if v = 2 then 0xc0 else if v = 3 then 0xe0 else 0xf0

/-- The number of a version. -/
def verOf (v : Byte) : Option Ver := if v = 2 then some .v2 else if v = 3 then some .v3 else if v = 4 then some .v4 else none

/-- A frame in a file: its identifier, its first flag byte (the second is zero), and its payload, which is that of a body that has an unambiguous encoding. -/
structure Laid where
  id : Id4
  flag : Byte
  payload : Bytes
  body : Body

/-- Of ID3v2.3 or ID3v2.4. -/
def Laid.Ok (ver : Ver) (x : Laid) : Prop :=
  WFBody ver (kind4 x.id) x.body ∧ x.body.serialize = .ok x.payload ∧ x.id ≠ ⟨0, 0, 0, 0⟩ ∧ x.payload ≠ [] ∧ x.payload.length < maxSize4 ver

/-- Its bytes. -/
def Laid.bytes (ver : Ver) (x : Laid) : Bytes := frame4 ver x.id x.flag 0 x.payload

/-- The content of a tag without extended header: these frames and that many bytes of padding. -/
def LaidOut (ver : Ver) (content : Bytes) (fs : List Laid) (pad : Nat) : Prop :=
  (∀ x ∈ fs, x.Ok ver) ∧ content = (fs.map (Laid.bytes ver)).flatten ++ List.replicate pad 0

/-- A frame of ID3v2.2 in a file. -/
structure Laid2 where
  id : Id3
  payload : Bytes
  body : Body

/-- Its payload is that of a body that has an unambiguous encoding. -/
def Laid2.Ok (x : Laid2) : Prop :=
  WFBody .v2 (kind22 x.id) x.body ∧ x.body.serialize = .ok x.payload ∧ x.id ≠ ⟨0, 0, 0⟩ ∧ x.payload ≠ [] ∧ x.payload.length < 2 ^ 24

/-- The content of a tag of ID3v2.2: these frames and that many bytes of padding. -/
def LaidOut2 (content : Bytes) (fs : List Laid2) (pad : Nat) : Prop :=
  (∀ x ∈ fs, x.Ok) ∧ content = frames22 (fs.map fun x => (x.id, x.payload)) ++ List.replicate pad 0

end Scribbu.Spec
