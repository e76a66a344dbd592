import Verif.Model.VbrTags

/-! # Encoder tags, as scribbu/mp3.hh documents them -/

namespace Scribbu.Spec
open Scribbu.Vbr (Method Xing)

/-- A 32-bit big-endian number. -/
def be4 (n : Nat) : Bytes := [UInt8.ofNat (n / 2 ^ 24), UInt8.ofNat (n / 2 ^ 16), UInt8.ofNat (n / 2 ^ 8), UInt8.ofNat n]

/-- The optional fields: nothing, or four bytes. -/
def optional4 : Option Nat → Bytes
  | none => []
  | some n => be4 n

/-- A Xing tag behind its identifier: flags, then the fields that are there, in order. -/
def xingBytes (x : Xing) : Bytes :=
  be4 ((if x.frames.isSome then 1 else 0) + (if x.bytes.isSome then 2 else 0) + (if x.toc.isSome then 4 else 0) +
    (if x.quality.isSome then 8 else 0)) ++
  optional4 x.frames ++ optional4 x.bytes ++ x.toc.getD [] ++ optional4 x.quality

/-- What fits such a tag. -/
def Fits (x : Xing) : Prop :=
  (∀ n, x.frames = some n → n < 2 ^ 32) ∧ (∀ n, x.bytes = some n → n < 2 ^ 32) ∧ (∀ b, x.toc = some b → b.length = 100) ∧
    ∀ n, x.quality = some n → n < 2 ^ 32

/-- The encoding methods, by number. -/
def lameMethods : List (Nat × Method) :=
  [(0, .unknown), (1, .constant), (2, .abr), (3, .vbr1), (4, .vbr2), (5, .vbr3), (6, .vbr4), (8, .cbrTwoPass), (9, .abrTwoPass)]

/-- The parts of a LAME tag in order, with the sizes they have. -/
structure LameLayout where
  version : Bytes
  revAndMethod : Byte
  lowpass : Byte
  gain : Bytes
  flags : Byte
  bitrate : Byte
  delays : Bytes
  misc : Byte
  mp3gain : Byte
  presets : Bytes
  size : Nat
  h9 : version.length = 9
  h8 : gain.length = 8
  h3 : delays.length = 3
  h2 : presets.length = 2

/-- The tag as bytes. -/
def LameLayout.bytes (l : LameLayout) : Bytes :=
  l.version ++ [l.revAndMethod, l.lowpass] ++ l.gain ++ [l.flags, l.bitrate] ++ l.delays ++ [l.misc, l.mp3gain] ++ l.presets ++ be4 l.size

/-- A VBRI tag behind its identifier: version, delay, quality, size, frames, number of entries, scale, size of an entry, frames per
entry, the table. -/
def vbriBytes (version delay quality : Byte × Byte) (bytes frames : Nat) (entries scale entrySize perEntry : Byte × Byte) (toc : Bytes) : Bytes :=
  [version.1, version.2, delay.1, delay.2, quality.1, quality.2] ++ be4 bytes ++ be4 frames ++
  [entries.1, entries.2, scale.1, scale.2, entrySize.1, entrySize.2, perEntry.1, perEntry.2] ++ toc

end Scribbu.Spec
