import Verif.Model.Unsync
import Verif.Model.Id3v1
import Verif.Model.TagCloud

/-! # Frame bodies shared by all ID3v2 versions

`play_count`, `popularimeter`, `unique_file_id`, `encryption_method`,
`user_defined_text` and `comments`: scribbu/framesv2.hh L440-970,
scribbu/framesv2.cc L619-1258.

A parsing constructor gets a range `[p0, p1)` inside some larger buffer. Where a parser
can look beyond `p1`, the model takes the memory from `p0` to the end of that buffer
(`mem`) and the length `n = p1 - p0`; reading beyond `mem` is UB. Members that a
constructor leaves uninitialised are `none`; using them is UB.

Text conversion (`convert_encoding`, i.e. iconv) is not modelled: where the code converts,
the converted bytes, or the conversion, are parameters. -/

namespace Scribbu

/-- `enum class id3v2_version`: scribbu/framesv2.hh L186. -/
inductive Ver | v2 | v3 | v4
  deriving DecidableEq, Repr

/-! ## Counters -/

/-- `counter_[0] << 8 | ...`, assigned to a `uint32_t`: `play_count::count`,
scribbu/framesv2.cc L1074-1095 and `popularimeter::count`, L1159-1180. With an empty
counter the result is an uninitialised variable. -/
def counterCount : Bytes → Res Nat
  | [] => .ub .uninit
  | [a] => .ok a.toNat
  | [a, b] => .ok ((a.toNat <<< 8) ||| b.toNat)
  | [a, b, c] => .ok ((a.toNat <<< 16) ||| (b.toNat <<< 8) ||| c.toNat)
  | [a, b, c, d] => .ok ((a.toNat <<< 24) ||| (b.toNat <<< 16) ||| (c.toNat <<< 8) ||| d.toNat)
  | _ => .throw .domainError

/-- The loop of `reset_counter`: scribbu/framesv2.cc L1147-1150 (and L1253-1256). -/
def fillBE : Nat → Nat → Bytes
  | 0, _ => []
  | cb + 1, n => fillBE cb (n >>> 8) ++ [UInt8.ofNat (n &&& 0xff)]

/-- `reset_counter(n)`: scribbu/framesv2.cc L1134-1151 (and L1240-1257). Simplified:
`floor(log2(n)/8.)` is computed in `double` by the code and exactly here; the two agree
for every `n < 2^48`, and above that the code can only produce one more leading zero. -/
def resetCounter (n : Nat) : Bytes :=
  if n = 0 then [0] else fillBE (Nat.log2 n / 8 + 1) n

/-- `inc()`: scribbu/framesv2.hh L855-856 and L942-943. -/
def counterInc (c : Bytes) : Res Bytes := (counterCount c).bind fun n => .ok (resetCounter (n + 1))

/-- `play_count::serialized_size(unsync)`: scribbu/framesv2.cc L1103-1111. -/
def counterSerializedSize (c : Bytes) (unsync : Bool) : Nat :=
  c.length + (if unsync then countSyncs false c else 0)

/-! ## Popularimeter -/

/-- Data members of `class popularimeter`: scribbu/framesv2.hh L964-966. -/
structure Popm where
  email : Bytes
  rating : Byte
  counter : Bytes
  deriving DecidableEq, Repr

namespace Popm

/-- `popularimeter(p0, p1)`: scribbu/framesv2.hh L899-908. Without a NUL, or with nothing
behind it, the rating is read from beyond the range and the copy that follows is over an
inverted range. -/
def parse (b : Bytes) : Res Popm :=
  let email := b.takeWhile (· ≠ 0)
  match b.drop email.length with
  | _ :: rating :: counter => .ok ⟨email, rating, counter⟩
  | _ => .ub .oobRead

/-- `popularimeter(own, rating, count)`: scribbu/framesv2.hh L910-917. -/
def make (own : Bytes) (rating : Byte) (n : Nat) : Popm := ⟨own, rating, resetCounter n⟩

/-- `count()`: scribbu/framesv2.cc L1159-1180. -/
def count (p : Popm) : Res Nat := counterCount p.counter

/-- `size()`: scribbu/framesv2.cc L1182-1186. -/
def size (p : Popm) : Nat := p.email.length + 2 + p.counter.length

/-- `write(os)`: scribbu/framesv2.cc L1204-1218. -/
def write (p : Popm) : Bytes := p.email ++ [0] ++ [p.rating] ++ p.counter

/-- `count_syncs(false_only)`: scribbu/framesv2.cc L1220-1238. -/
def countSyncs (p : Popm) (falseOnly : Bool) : Nat :=
  Scribbu.countSyncs falseOnly p.email +
    (match p.counter with
     | [] => 0
     | c :: _ => if (if falseOnly then isFalseSync p.rating c else needsUnsync p.rating c) then 1 else 0) +
    Scribbu.countSyncs falseOnly p.counter

/-- `serialized_size(unsync)`: scribbu/framesv2.cc L1188-1196. -/
def serializedSize (p : Popm) (unsync : Bool) : Nat :=
  p.size + (if unsync then p.countSyncs false else 0)

end Popm

/-! ## Unique file identifier -/

/-- Data members of `class unique_file_id`: scribbu/framesv2.hh L508-509. -/
structure Ufid where
  owner : Bytes
  ident : Bytes
  deriving DecidableEq, Repr

namespace Ufid

/-- `unique_file_id(p0, p1)`: scribbu/framesv2.hh L466-482. -/
def parse (b : Bytes) : Ufid :=
  let owner := b.takeWhile (· ≠ 0)
  ⟨owner, (b.drop owner.length).drop 1⟩

/-- `size()`: scribbu/framesv2.cc L625-629. -/
def size (u : Ufid) : Nat := u.owner.length + 1 + u.ident.length

/-- `write(os)`: scribbu/framesv2.cc L647-660. -/
def write (u : Ufid) : Bytes := u.owner ++ [0] ++ u.ident

/-- `count_syncs(false_only)`: scribbu/framesv2.cc L662-672. -/
def countSyncs (u : Ufid) (falseOnly : Bool) : Nat :=
  Scribbu.countSyncs falseOnly u.owner + Scribbu.countSyncs falseOnly u.ident

/-- `serialized_size(unsync)`: scribbu/framesv2.cc L631-639. -/
def serializedSize (u : Ufid) (unsync : Bool) : Nat :=
  u.size + (if unsync then u.countSyncs false else 0)

end Ufid

/-! ## Encryption method registration -/

/-- Data members of `class encryption_method`: scribbu/framesv2.hh L573-575. -/
structure Encr where
  email : Bytes
  method : Option Byte
  data : Bytes
  deriving DecidableEq, Repr

namespace Encr

/-- `encryption_method(p0, p1)`: scribbu/framesv2.hh L531-546. -/
def parse (b : Bytes) : Encr :=
  let email := b.takeWhile (· ≠ 0)
  match b.drop email.length with
  | _ :: m :: data => ⟨email, some m, data⟩
  | _ => ⟨email, none, []⟩

/-- `size()`: scribbu/framesv2.cc L679-684. -/
def size (e : Encr) : Nat := e.email.length + 1 + 1 + e.data.length

/-- `write(os)`: scribbu/framesv2.cc L703-716. No terminator is written. -/
def write (e : Encr) : Res Bytes :=
  match e.method with
  | none => .ub .uninit
  | some m => .ok (e.email ++ [m] ++ e.data)

/-- `count_syncs(false_only)`: scribbu/framesv2.cc L718-747. Both branches of the test between
method and data use `is_false_sync`. -/
def countSyncs (e : Encr) (falseOnly : Bool) : Res Nat :=
  match e.method with
  | none => .ub .uninit
  | some m =>
    .ok (Scribbu.countSyncs falseOnly e.email +
      (match e.email.getLast? with
       | none => 0
       | some x => if (if falseOnly then isFalseSync x m else needsUnsync x m) then 1 else 0) +
      (match e.data with
       | [] => 0
       | y :: _ => if isFalseSync m y then 1 else 0) +
      Scribbu.countSyncs falseOnly e.data)

end Encr

/-! ## User-defined text -/

/-- `find_trailing_null(code_unit, p0, p1)`: scribbu/framesv2.hh L86-106, from index `i` of `mem`
to index `n`; `two` says that `code_unit` is 2 (it is 1 otherwise). -/
def findTrailingNull (two : Bool) (mem : Bytes) (n i : Nat) : Res Nat :=
  if i < n then
    (rd mem i).bind fun b0 =>
    if two = false ∧ b0 = 0 then .ok i
    else (rd mem (i + 1)).bind fun b1 =>
      if b0 = 0 ∧ b1 = 0 then .ok i
      else findTrailingNull two mem n (i + (if two then 2 else 1))
  else .ok i
termination_by n - i
decreasing_by split <;> omega

/-- The size of a string terminator chosen by both parsers:
scribbu/framesv2.hh L603-608 and L727-732. -/
def cbnilOf (ver : Ver) (unicode : Byte) : Nat :=
  match ver with
  | .v2 | .v3 => if unicode ≠ 0 then 2 else 1
  | .v4 => if unicode = 0 ∨ unicode = 3 then 1 else 2

/-- Description and text: the tail of both parsers, scribbu/framesv2.hh L611-618 and
L741-748, for the range from index `i` of `mem` to index `n`. -/
def parseDescText (cbnil : Nat) (mem : Bytes) (n i : Nat) : Res (Bytes × Bytes) :=
  (findTrailingNull (cbnil == 2) mem n i).bind fun p =>
  (slice mem i (p - i)).bind fun desc =>
  if p + cbnil ≤ n then
    (slice mem (p + cbnil) (n - (p + cbnil))).bind fun text => .ok (desc, text)
  else .ok (desc, [])

/-- Data members of `class user_defined_text`: scribbu/framesv2.hh L655-658. -/
structure Txxx where
  cbnil : Nat
  unicode : Byte
  desc : Bytes
  text : Bytes
  deriving DecidableEq, Repr

/-- `use_unicode`: scribbu/framesv2.hh L180-184. -/
inductive UseUnicode | no | yes | withBom
  deriving DecidableEq, Repr

namespace Txxx

/-- `user_defined_text(ver, p0, p1)`: scribbu/framesv2.hh L595-619. -/
def parse (ver : Ver) (mem : Bytes) (n : Nat) : Res Txxx :=
  (rd mem 0).bind fun unicode =>
  let cbnil := cbnilOf ver unicode
  (parseDescText cbnil mem n 1).bind fun (desc, text) =>
  .ok ⟨cbnil, unicode, desc, text⟩

/-- `user_defined_text(ver, text, src, unicode, dsc)`: scribbu/framesv2.cc L754-812, for
already converted `text` and `dsc`. -/
def make (ver : Ver) (u : UseUnicode) (text dsc : Bytes) : Txxx :=
  match ver, u with
  | .v4, .no => ⟨1, 0, dsc, text⟩
  | .v4, _ => ⟨1, 4, dsc, text⟩
  | _, .no => ⟨1, 0, dsc, text⟩
  | _, _ => ⟨2, 1, dsc, text⟩

/-- `size()`: scribbu/framesv2.cc L814-818. -/
def size (t : Txxx) : Nat := 1 + t.desc.length + t.cbnil + t.text.length

/-- `write(os)`: scribbu/framesv2.cc L837-864. -/
def write (t : Txxx) : Bytes :=
  [t.unicode] ++ t.desc ++ (if t.cbnil = 2 then [0, 0] else [0]) ++ t.text

/-- `count_syncs(false_only)`: scribbu/framesv2.cc L866-886. -/
def countSyncs (t : Txxx) (falseOnly : Bool) : Nat :=
  (match t.desc with
   | [] => 0
   | d :: _ => if (if falseOnly then isFalseSync t.unicode d else needsUnsync t.unicode d) then 1 else 0) +
  Scribbu.countSyncs falseOnly t.desc + Scribbu.countSyncs falseOnly t.text

/-- `serialized_size(unsync)`: scribbu/framesv2.cc L820-828. -/
def serializedSize (t : Txxx) (unsync : Bool) : Nat :=
  t.size + (if unsync then t.countSyncs false else 0)

end Txxx

/-! ## Comments -/

/-- The members of `enum class encoding` a comment can be in: scribbu/charsets.hh L56-. -/
inductive Enc | iso88591 | ucs2 | utf16 | utf16be | utf8
  deriving DecidableEq, Repr

/-- Data members of `class comments`: scribbu/framesv2.hh L804-810. -/
structure Comm where
  ver : Option Ver
  dstEnc : Option Enc
  cbnil : Nat
  unicode : Option Byte
  lang : Option (Byte × Byte × Byte)
  desc : Bytes
  text : Bytes
  deriving DecidableEq, Repr

namespace Comm

/-- The `switch` statements on `unicode_`: scribbu/framesv2.hh L697-725. -/
def encOf (ver : Ver) (unicode : Byte) : Option Enc :=
  match ver with
  | .v2 | .v3 => if unicode = 0 then some .iso88591 else if unicode = 1 then some .ucs2 else none
  | .v4 =>
    if unicode = 0 then some .iso88591 else if unicode = 1 then some .utf16
    else if unicode = 2 then some .utf16be else if unicode = 3 then some .utf8 else none

/-- `comments(ver, p0, p1)`: scribbu/framesv2.hh L687-752. `bad_unicode_value` is
`Exc.other`. -/
def parse (ver : Ver) (mem : Bytes) (n : Nat) : Res Comm :=
  if n = 0 then .ok ⟨some ver, none, 1, none, none, [], []⟩
  else
    (rd mem 0).bind fun unicode =>
    match encOf ver unicode with
    | none => .throw .other
    | some enc =>
      let cbnil := cbnilOf ver unicode
      if 4 ≤ n then
        (rd mem 1).bind fun a => (rd mem 2).bind fun b => (rd mem 3).bind fun c =>
        if n = 4 then .ok ⟨some ver, some enc, cbnil, some unicode, some (a, b, c), [], []⟩
        else
          (parseDescText cbnil mem n 4).bind fun (desc, text) =>
          .ok ⟨some ver, some enc, cbnil, some unicode, some (a, b, c), desc, text⟩
      else .ok ⟨some ver, some enc, cbnil, some unicode, none, [], []⟩

/-- `comments(ver, lang, text, src, unicode, dsc)`: scribbu/framesv2.cc L893-958, for
already converted `text` and `dsc` and the code `lang` of the language. `ver_` and
`dst_enc_` are not initialised. -/
def make (ver : Ver) (u : UseUnicode) (lang : Byte × Byte × Byte) (text dsc : Bytes) : Comm :=
  match ver, u with
  | .v4, .no => ⟨none, none, 1, some 0, some lang, dsc, text⟩
  | .v4, _ => ⟨none, none, 1, some 3, some lang, dsc, text⟩
  | _, .no => ⟨none, none, 1, some 0, some lang, dsc, text⟩
  | _, _ => ⟨none, none, 2, some 1, some lang, dsc, text⟩

/-- `add_bom()`: scribbu/framesv2.cc L1060-1067. -/
def addBom (c : Comm) : Res Bool :=
  match c.ver, c.dstEnc with
  | some v, some e => .ok ((v = .v2 && e = .ucs2) || (v = .v3 && e = .ucs2) || (v = .v4 && e = .utf16))
  | _, _ => .ub .uninit

/-- `description(text, src)`: scribbu/framesv2.cc L960-964; `conv` is the conversion of the
argument to the given encoding, with a byte-order mark or not. -/
def setDescription (conv : Enc → Bool → Res Bytes) (c : Comm) : Res Comm :=
  match c.dstEnc with
  | none => .ub .uninit
  | some e => c.addBom.bind fun bom => (conv e bom).bind fun b => .ok { c with desc := b }

/-- `text(text, src)`: scribbu/framesv2.cc L966-970. -/
def setText (conv : Enc → Bool → Res Bytes) (c : Comm) : Res Comm :=
  match c.dstEnc with
  | none => .ub .uninit
  | some e => c.addBom.bind fun bom => (conv e bom).bind fun b => .ok { c with text := b }

/-- `size()`: scribbu/framesv2.cc L972-976. -/
def size (c : Comm) : Nat := 4 + c.desc.length + c.cbnil + c.text.length

/-- `write(os)`: scribbu/framesv2.cc L994-1017. -/
def write (c : Comm) : Res Bytes :=
  match c.unicode, c.lang with
  | some u, some (l0, l1, l2) =>
    .ok ([u] ++ [l0, l1, l2] ++ c.desc ++ List.replicate c.cbnil 0 ++ c.text)
  | _, _ => .ub .uninit

/-- `count_syncs(false_only)`: scribbu/framesv2.cc L1019-1058. -/
def countSyncs (c : Comm) (falseOnly : Bool) : Res Nat :=
  let pair (x y : Byte) : Nat :=
    if (if falseOnly then isFalseSync x y else needsUnsync x y) then 1 else 0
  match c.unicode, c.lang with
  | some u, some (l0, l1, l2) =>
    match c.desc, c.text with
    | [], _ => .ok (pair u l0 + Scribbu.countSyncs falseOnly [l0, l1, l2] + Scribbu.countSyncs falseOnly c.text)
    | _ :: _, [] => .ub .emptyContainer
    | d :: ds, t :: _ =>
      .ok (pair u l0 + Scribbu.countSyncs falseOnly [l0, l1, l2] + pair l2 d +
        Scribbu.countSyncs falseOnly c.desc + pair ((d :: ds).getLast (by simp)) t +
        Scribbu.countSyncs falseOnly c.text)
  | _, _ => .ub .uninit

end Comm
/-! ## Private data -/

/-- Data members of `class private_frame`: scribbu/framesv23.hh L390-391. -/
structure Priv where
  email : Bytes
  contents : Bytes
  deriving DecidableEq, Repr

namespace Priv

/-- `private_frame(p0, p1)`: scribbu/framesv23.hh L332-338. Without a NUL the pointer is moved
beyond the end and the copy that follows is over an inverted range. -/
def parse (b : Bytes) : Res Priv :=
  let email := b.takeWhile (· ≠ 0)
  match b.drop email.length with
  | _ :: contents => .ok ⟨email, contents⟩
  | [] => .ub .oobRead

/-- `size()`: scribbu/framesv23.cc L256-259. -/
def size (p : Priv) : Nat := p.email.length + 1 + p.contents.length

/-- `write(os)`: scribbu/framesv23.cc L276-289. -/
def write (p : Priv) : Bytes := p.email ++ [0] ++ p.contents

/-- `count_syncs(false_only)`: scribbu/framesv23.cc L291-300. -/
def countSyncs (p : Priv) (falseOnly : Bool) : Nat :=
  Scribbu.countSyncs falseOnly p.email + Scribbu.countSyncs falseOnly p.contents

/-- `serialized_size(unsync)`: scribbu/framesv23.cc L261-268. -/
def serializedSize (p : Priv) (unsync : Bool) : Nat :=
  p.size + (if unsync then p.countSyncs false else 0)

end Priv
end Scribbu
