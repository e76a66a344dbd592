import Verif.Spec.Scheme

/-! # What `write-tagset` is to write for an object (ID3v2.3) -/

namespace Scribbu.Spec.Scheme
open Scribbu Scribbu.Scheme

/-- A text as it is stored in a frame: iconv makes `b` of it. If it is to be read back: of `b` the text is made again, in a frame of
ID3v2.3 that has `u` for its encoding. -/
def Stored (E : Scheme.Env) (back : Prop) (u : Byte) (e : Encoding) (s b : Bytes) : Prop :=
  0 ∉ s ∧ Charset.toBytes E.lib E.mem .UTF_8 e false .fail s = .ok b ∧ (back → IsText E s ∧ Std.TextIn E.toEnv .v3 u b s)

/-- A language by its code in ISO 639-2, as comments have it. -/
def KnownLanguage (E : Scheme.Env) (l : Byte × Byte × Byte) : Prop :=
  ∃ x, Language.parse [l.1, l.2.1, l.2.2] = .ok x ∧ Language.toIso2 E.langs x = .ok [l.1, l.2.1, l.2.2]

/-- The data of the frame for an object: class, the slots after the common ones, bytes (id3v2.3.0, section 4). `back`: what is needed
besides for it to be read back. -/
inductive Data (E : Scheme.Env) (back : Prop) : Klass → List Val → Bytes → Prop
  | text (s b) : Stored E back 0 .ISO_8859_1 s b → Data E back .text [.str s] ([0] ++ b)
  | comment (l : Byte × Byte × Byte) (d t db tb) : 0 ∉ [l.1, l.2.1, l.2.2] → KnownLanguage E l →
      (back → (l.1 < 128 ∧ l.2.1 < 128 ∧ l.2.2 < 128) ∧ IsText E [l.1, l.2.1, l.2.2]) →
      Stored E back 1 .UCS_2 d db → Stored E back 1 .UCS_2 t tb → (back → NoNul 2 db) →
      Data E back .comment [.str [l.1, l.2.1, l.2.2], .str d, .str t] ([1] ++ [l.1, l.2.1, l.2.2] ++ db ++ [0, 0] ++ tb)
  | udt (d t db tb) : Stored E back 1 .UCS_2 d db → Stored E back 1 .UCS_2 t tb → (back → NoNul 2 db) →
      Data E back .udt [.str d, .str t] ([1] ++ db ++ [0, 0] ++ tb)
  | playCount (n) : n < 2 ^ 64 → (back → n < 2 ^ 32) → Data E back .playCount [.num n] (resetCounter n)
  | popm (e) (r : Byte) (n) : 0 ∉ e → (back → IsText E e ∧ Dump.Utf8 E.toEnv .ISO_8859_1 e e) → n < 2 ^ 64 → (back → n < 2 ^ 32) →
      Data E back .popm [.str e, .num r.toNat, .num n] (e ++ [0] ++ [r] ++ resetCounter n)
  | tagCloud (t : TagCloud) : MapOk t.tags → 0 ∉ t.own → (∀ e ∈ t.tags, 0 ∉ e.1 ∧ ∀ v ∈ e.2, 0 ∉ v) →
      (back → IsText E t.own ∧ ∀ e ∈ t.tags, (IsText E e.1 ∧ ∀ x ∈ e.2, IsAnyText E x) ∧ (e.2.map fun v => v.length + 1).sum < 2 ^ 32) →
      Data E back .tagCloud [.str t.own, cloudList t.tags] t.write

/-- The slots `tap`, `fap`, `ro` and `unsync` of a frame without attributes. -/
def plainSlots : List Val := [.bool true, .bool true, .bool false, .nil]

/-- The bytes of a frame without attributes: identifier, size, flags, data (id3v2.3.0, section 3.3). -/
def frame23 (id : Id4) (d : Bytes) : Bytes := [id.a, id.b, id.c, id.d] ++ be32 d.length ++ [0, 0] ++ d

/-- Whether an object is one for a frame with an identifier and data: by its symbol, or, for frames of other kinds, by all the bytes of the
frame. -/
inductive FrameObj (E : Scheme.Env) (back : Prop) : Obj → Id4 → Bytes → Prop
  | known (s i id l d) : (s, i, id) ∈ documented → Data E back (classOf s) l d → d.length < 2 ^ 28 →
      FrameObj E back ⟨classOf s, .sym s :: plainSlots ++ l⟩ id d
  | unknown (id : Id4) (d) : d ≠ [] → 0 ∉ [id.a, id.b, id.c, id.d] → kind4 id = .unknown → d.length < 2 ^ 28 →
      (back → IsAnyText E [id.a, id.b, id.c, id.d]) →
      FrameObj E back ⟨.unk, .sym /- unknown-frame -/ [117, 110, 107, 110, 111, 119, 110, 45, 102, 114, 97, 109, 101] :: plainSlots ++ [.str [id.a, id.b, id.c, id.d], .bv (frame23 id d)]⟩ id d

/-- What follows the header of the tag for an object: the frames, in order, and the padding. -/
inductive TagBody (E : Scheme.Env) (back : Prop) : TagObj → Bytes → Prop
  | mk (x : Bool) (os) (fs : List (Id4 × Bytes)) (pad) : Pairs (fun o f => FrameObj E back o f.1 f.2) os fs →
      TagBody E back ⟨.bool x, os, .num pad⟩ ((fs.map fun f => frame23 f.1 f.2).flatten ++ List.replicate pad 0)

/-- The tag for an object: a header of ten bytes that has the flags (at most: experimental) and the size, and what follows it. -/
def TagImage (E : Scheme.Env) (back : Prop) (t : TagObj) (b : Bytes) : Prop :=
  ∃ hdr body, b = hdr ++ body ∧ hdr.length = 10 ∧ TagBody E back t body ∧
    ∀ rest, IsHeader (hdr ++ rest) 3 0 (if t.experimental = .bool true then 0x20 else 0) body.length

/-- The values that the slots of a class are documented to have (scheme/scribbu.scm L141-230). -/
inductive Values : Klass → List Val → Prop
  | text (t) : Values .text [.str t]
  | comment (l d t) : Values .comment [.str l, .str d, .str t]
  | udt (d t) : Values .udt [.str d, .str t]
  | playCount (n) : n < 2 ^ 64 → Values .playCount [.num n]
  | popm (e r n) : r < 2 ^ 8 → n < 2 ^ 64 → Values .popm [.str e, .num r, .num n]
  | tagCloud (o) (m : TagMap) : Values .tagCloud [.str o, cloudList m]
  | priv (o d) : Values .priv [.str o, .bv d]

/-- An object for a frame as it is documented: of the class that belongs to its symbol, the slots `tap`, `fap` and `ro` booleans,
`unsync` not set or a boolean. -/
inductive Proper : Obj → Prop
  | known (s i id) (a b c : Bool) (u l) : (s, i, id) ∈ documented → (u = .nil ∨ u = .bool false ∨ u = .bool true) → Values (classOf s) l →
      Proper ⟨classOf s, .sym s :: .bool a :: .bool b :: .bool c :: u :: l⟩
  | unknown (a b c : Bool) (u) (id d : Bytes) : (u = .nil ∨ u = .bool false ∨ u = .bool true) → id.length = 4 → 10 ≤ d.length →
      Proper ⟨.unk, [.sym /- unknown-frame -/ [117, 110, 107, 110, 111, 119, 110, 45, 102, 114, 97, 109, 101], .bool a, .bool b, .bool c, u, .str id, .bv d]⟩

/-- An object for a tag, likewise. -/
inductive ProperTag : TagObj → Prop
  | mk (x : Bool) (os pad) : (∀ o ∈ os, Proper o) → pad < 2 ^ 28 → ProperTag ⟨.bool x, os, .num pad⟩

/-- The values of `#:apply-unsync`. -/
def UnsyncArg (v : Val) : Prop := v = .bool false ∨ v = .bool true ∨ v = .sym /- as-needed -/ [97, 115, 45, 110, 101, 101, 100, 101, 100]

/-- What there is to see of a frame: the class and the slots but `unsync`. -/
def seen (o : Obj) : Klass × List Val := (o.cls, o.slots.eraseIdx 4)

end Scribbu.Spec.Scheme
