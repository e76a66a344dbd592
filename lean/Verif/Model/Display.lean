import Verif.Model.Scheme
import Verif.Model.Report

/-! # The Scheme API: `make` and `display`

The classes of scheme/scribbu.scm L128-281, what GOOPS makes of their definitions, and the methods of `display`. -/

namespace Scribbu
namespace Scheme

/-! ## `make` -/

/-- The definition of a slot: the name of its accessor, its initial value, and the keyword for it, if what is given as
`#:init-keyword` is a keyword. -/
structure SlotDef where
  accessor : Bytes
  init : Val
  kw : Option Bytes
  deriving DecidableEq, Repr

/-- A slot whose keyword is named like its accessor, as all but one are. -/
def keyed (n : Bytes) (i : Val) : SlotDef := ⟨n, i, some n⟩

/-- The slots of `<id3v2-frame>`: scheme/scribbu.scm L194-199. -/
def frameSlots : List SlotDef :=
  [keyed /- id -/ [105, 100] (.sym symUnknown), keyed /- tap -/ [116, 97, 112] .nil, keyed /- fap -/ [102, 97, 112] .nil, keyed /- ro -/ [114, 111] .nil, keyed /- unsync -/ [117, 110, 115, 121, 110, 99] .nil]

/-- The slots a class adds to them: scheme/scribbu.scm L201-275. -/
def ownSlots : Klass → List SlotDef
  | .unk => [keyed /- frameid -/ [102, 114, 97, 109, 101, 105, 100] (.str []), keyed /- data -/ [100, 97, 116, 97] (.bv [])]
  | .text => [keyed /- text -/ [116, 101, 120, 116] (.str [])]
  | .comment => [keyed /- lang -/ [108, 97, 110, 103] (.str /- eng -/ [101, 110, 103]), keyed /- dsc -/ [100, 115, 99] (.str []), keyed /- text -/ [116, 101, 120, 116] (.str [])]
  | .udt => [keyed /- dsc -/ [100, 115, 99] (.str []), keyed /- text -/ [116, 101, 120, 116] (.str [])]
  | .playCount => [keyed /- count -/ [99, 111, 117, 110, 116] (.num 0)]
  | .popm => [keyed /- e-mail -/ [101, 45, 109, 97, 105, 108] (.str []), keyed /- rating -/ [114, 97, 116, 105, 110, 103] (.num 0), keyed /- count -/ [99, 111, 117, 110, 116] (.num 0)]
  | .tagCloud => [keyed /- owner -/ [111, 119, 110, 101, 114] (.str []), keyed /- tags -/ [116, 97, 103, 115] .nil]
  | .priv => [keyed /- owner -/ [111, 119, 110, 101, 114] (.str []), keyed /- data -/ [100, 97, 116, 97] (.bv [])]
  | .other => []

/-- The slots of `<id3v1-tag>`: scheme/scribbu.scm L128-139. -/
def v1Slots : List SlotDef :=
  [keyed /- title -/ [116, 105, 116, 108, 101] (.str []), keyed /- artist -/ [97, 114, 116, 105, 115, 116] (.str []), keyed /- album -/ [97, 108, 98, 117, 109] (.str []), keyed /- year -/ [121, 101, 97, 114] .nil, keyed /- comment -/ [99, 111, 109, 109, 101, 110, 116] (.str []),
   keyed /- genre -/ [103, 101, 110, 114, 101] (.num 255), keyed /- track-no -/ [116, 114, 97, 99, 107, 45, 110, 111] .nil, keyed /- enh-genre -/ [101, 110, 104, 45, 103, 101, 110, 114, 101] (.str []), keyed /- speed -/ [115, 112, 101, 101, 100] .nil, keyed /- start-time -/ [115, 116, 97, 114, 116, 45, 116, 105, 109, 101] (.str []),
   keyed /- end-time -/ [101, 110, 100, 45, 116, 105, 109, 101] (.str [])]

/-- The slot `experimental` of `<id3v2-tag>`: scheme/scribbu.scm L278-279. The value of `#:init-keyword` is that of the variable
`experimental`, the accessor, which no keyword is `eq?` to. -/
def expSlot : SlotDef := ⟨/- experimental -/ [101, 120, 112, 101, 114, 105, 109, 101, 110, 116, 97, 108], .nil, none⟩

/-- The slot `padding` of `<id3v2-tag>`: scheme/scribbu.scm L281. -/
def padSlot : SlotDef := keyed /- padding -/ [112, 97, 100, 100, 105, 110, 103] (.num 0)

/-- The value a slot gets: that of the first of the arguments with its keyword, or the initial one. Arguments with other keywords
are ignored. (`%initialize-object` of GOOPS.) -/
def SlotDef.value (d : SlotDef) (args : List (Bytes × Val)) : Val :=
  match d.kw with
  | none => d.init
  | some k =>
    match args.find? fun a => a.1 = k with
    | some a => a.2
    | none => d.init

/-- `(make <...> #:k1 v1 ...)` for a class of frames. -/
def makeFrame (c : Klass) (args : List (Bytes × Val)) : Obj := ⟨c, (frameSlots ++ ownSlots c).map (·.value args)⟩

/-- `(make <id3v1-tag> ...)`. -/
def makeV1 (args : List (Bytes × Val)) : List Val := v1Slots.map (·.value args)

/-- `(make <id3v2-tag> #:frames frames ...)`: scheme/scribbu.scm L277-281. Simplified: the frames are given apart. -/
def makeTag (frames : List Obj) (args : List (Bytes × Val)) : TagObj := ⟨expSlot.value args, frames, padSlot.value args⟩

/-! ## `display` -/

/-- A byte of a string as `write` has it. Simplified: in characters that are not ASCII nothing is escaped. -/
def writeByte (b : Byte) : Bytes :=
  if b = 34 || b = 92 then [92, b]
  else if b = 7 then [92, 97]
  else if b = 8 then [92, 98]
  else if b = 9 then [92, 116]
  else if b = 10 then [92, 110]
  else if b = 11 then [92, 118]
  else if b = 12 then [92, 102]
  else if b = 13 then [92, 114]
  else if b < 32 || b = 127 then [92, 120] ++ Report.hex2 b
  else [b]

/-- A string as `write` has it. -/
def writeStr (s : Bytes) : Bytes := [34] ++ s.flatMap writeByte ++ [34]

/-- The elements of a bytevector, with spaces between them. -/
def numbers : Bytes → Bytes
  | [] => []
  | [b] => Backup.dec b.toNat
  | b :: bs => Backup.dec b.toNat ++ [32] ++ numbers bs

/-- What Guile's `display` prints of a value (`tail` is false), and of the rest of a list. Simplified: symbols are those that need
no `#{ }#`. -/
def shown : Bool → Val → Bytes
  | false, .nil => /- () -/ [40, 41]
  | false, .enil => /- #nil -/ [35, 110, 105, 108]
  | false, .cons a d => [40] ++ shown false a ++ shown true d
  | true, .nil => [41]
  | true, .enil => [41]
  | true, .cons a d => [32] ++ shown false a ++ shown true d
  | t, .bool b => (if t then /-  .  -/ [32, 46, 32] else []) ++ (if b then /- #t -/ [35, 116] else /- #f -/ [35, 102]) ++ (if t then [41] else [])
  | t, .num n => (if t then /-  .  -/ [32, 46, 32] else []) ++ Backup.dec n ++ (if t then [41] else [])
  | t, .str s => (if t then /-  .  -/ [32, 46, 32] else []) ++ s ++ (if t then [41] else [])
  | t, .sym s => (if t then /-  .  -/ [32, 46, 32] else []) ++ s ++ (if t then [41] else [])
  | t, .bv b => (if t then /-  .  -/ [32, 46, 32] else []) ++ /- #vu8( -/ [35, 118, 117, 56, 40] ++ numbers b ++ [41] ++ (if t then [41] else [])

/-- `~a`. -/
def fmtA (v : Val) : Bytes := shown false v

/-- `~s`: strings are written. Simplified: other values as with `~a`, which makes a difference for lists with strings in them. -/
def fmtS : Val → Bytes
  | .str s => writeStr s
  | v => fmtA v

/-- `~d`: a number, or an error. -/
def fmtD : Val → Ret Bytes
  | .num n => .ok (Backup.dec n)
  | _ => .guile

/-- `pp-bytevector`: scheme/scribbu.scm L205-221: at most eight bytes. -/
def ppBytes : Val → Ret Bytes
  | .bv b =>
    let p := b.take 8
    .ok (/- { -/ [123] ++ p.flatMap (fun x => Report.hex2 x ++ [32]) ++ /-  < -/ [32, 60] ++ p.map (fun x => if 31 < x && x < 127 then x else 46) ++ /- >} -/ [62, 125])
  | _ => .guile

/-- `(slot-ref x ...)` of the slot with this index. -/
def slotRef (s : List Val) (i : Nat) : Ret Val :=
  match s[i]? with
  | some v => .ok v
  | none => .guile

/-- `display` of a frame: scheme/scribbu.scm L223-224, L229-230, L237-239, L245-246, L251-252, L259-261, L267-268, L274-275. There is
no method for other classes. -/
def Obj.display (o : Obj) : Ret Bytes :=
  let s := slotRef o.slots
  match o.cls with
  | .unk => (s 5).bind fun i => (s 6).bind fun d => (ppBytes d).bind fun p => .ok (/- <unk-frame  -/ [60, 117, 110, 107, 45, 102, 114, 97, 109, 101, 32] ++ fmtS i ++ /-   -/ [32] ++ p ++ /- > -/ [62])
  | .text => (s 0).bind fun i => (s 5).bind fun t => .ok (/- < -/ [60] ++ fmtA i ++ /-   -/ [32] ++ fmtS t ++ /- > -/ [62])
  | .comment => (s 5).bind fun l => (s 6).bind fun d => (s 7).bind fun t =>
    .ok (/- <comment ( -/ [60, 99, 111, 109, 109, 101, 110, 116, 32, 40] ++ fmtA l ++ /- ,  -/ [44, 32] ++ fmtA d ++ /- )  -/ [41, 32] ++ fmtA t ++ /- > -/ [62])
  | .udt => (s 5).bind fun d => .ok (/- <user-defined-text  -/ [60, 117, 115, 101, 114, 45, 100, 101, 102, 105, 110, 101, 100, 45, 116, 101, 120, 116, 32] ++ fmtA d ++ /- > -/ [62])
  | .playCount => (s 5).bind fun c => .ok (/- <play-count  -/ [60, 112, 108, 97, 121, 45, 99, 111, 117, 110, 116, 32] ++ fmtA c ++ /- > -/ [62])
  | .popm => (s 5).bind fun e => (s 6).bind fun r => (s 7).bind fun c =>
    .ok (/- <popularimeter  -/ [60, 112, 111, 112, 117, 108, 97, 114, 105, 109, 101, 116, 101, 114, 32] ++ fmtA e ++ /- ,  -/ [44, 32] ++ fmtA r ++ /- ,  -/ [44, 32] ++ fmtA c ++ /- > -/ [62])
  | .tagCloud => (s 5).bind fun w => (s 6).bind fun t => .ok (/- <tag cloud ( -/ [60, 116, 97, 103, 32, 99, 108, 111, 117, 100, 32, 40] ++ fmtA w ++ /- )  -/ [41, 32] ++ fmtA t ++ /- > -/ [62])
  | .priv => (s 5).bind fun w => (s 6).bind fun d => (ppBytes d).bind fun p => .ok (/- <private ( -/ [60, 112, 114, 105, 118, 97, 116, 101, 32, 40] ++ fmtA w ++ /- )  -/ [41, 32] ++ p ++ /- > -/ [62])
  | .other => .guile

/-- `display` of an `<id3v1-tag>`: scheme/scribbu.scm L141-145. -/
def displayV1 (s : List Val) : Ret Bytes :=
  (slotRef s 1).bind fun a => (slotRef s 0).bind fun t => .ok (/- <id3v1-tag  -/ [60, 105, 100, 51, 118, 49, 45, 116, 97, 103, 32] ++ fmtA a ++ /-  -  -/ [32, 45, 32] ++ fmtA t ++ /- > -/ [62])

/-- `(slot-ref x 'text)`, for a frame of any class. -/
def Obj.textSlot (o : Obj) : Ret Val :=
  match o.cls with
  | .text => slotRef o.slots 5
  | .comment => slotRef o.slots 7
  | .udt => slotRef o.slots 6
  | _ => .guile

/-- The text of the first of some frames, or the empty string: scheme/scribbu.scm L285-289. -/
def firstText : List Obj → Ret Val
  | [] => .ok (.str [])
  | o :: _ => o.textSlot

/-- `display` of an `<id3v2-tag>`: scheme/scribbu.scm L283-293. Simplified: where this fails, part of it may have been printed. -/
def TagObj.display (t : TagObj) : Ret Bytes :=
  (firstText (getFrames t /- artist-frame -/ [97, 114, 116, 105, 115, 116, 45, 102, 114, 97, 109, 101])).bind fun a => (firstText (getFrames t /- title-frame -/ [116, 105, 116, 108, 101, 45, 102, 114, 97, 109, 101])).bind fun ti =>
  (fmtD t.padding).bind fun p => .ok (/- <id3v2-tag  -/ [60, 105, 100, 51, 118, 50, 45, 116, 97, 103, 32] ++ fmtA a ++ /-  -  -/ [32, 45, 32] ++ fmtA ti ++ /-  ( -/ [32, 40] ++ p ++ /-  bytes padding) -/ [32, 98, 121, 116, 101, 115, 32, 112, 97, 100, 100, 105, 110, 103, 41] ++ /- > -/ [62])

end Scheme
end Scribbu
