import Verif.Model.Basic

/-!
# Names of text frames (scribbu/framesv2.hh, scribbu/framesv2.cc)

The tables are transcribed from the source by a script, entry by entry.
-/

namespace Scribbu

/-- `enum class id3v2_text_frames`: scribbu/framesv2.hh L189-228. Its values are all there are in the model; in C++ a value outside
the list takes a cast. (`text` and `time` of the source are called `textw` and `timeR`.) -/
inductive TextFrame where
  | talb
  | tbpm
  | tcom
  | tcon
  | tcop
  | tdat
  | tdly
  | tenc
  | textw
  | tflt
  | timeR
  | tit1
  | tit2
  | tit3
  | tkey
  | tlan
  | tlen
  | tmed
  | toal
  | tofn
  | toly
  | tope
  | tory
  | town
  | tpe1
  | tpe2
  | tpe3
  | tpe4
  | tpos
  | tpub
  | trck
  | trda
  | trsn
  | trso
  | tsiz
  | tsrc
  | tsse
  | tyer
  deriving DecidableEq, Repr

namespace TextFrame

/-- All values. -/
def all : List TextFrame := [.talb, .tbpm, .tcom, .tcon, .tcop, .tdat, .tdly, .tenc, .textw, .tflt, .timeR, .tit1, .tit2, .tit3, .tkey, .tlan, .tlen, .tmed, .toal, .tofn, .toly, .tope, .tory, .town, .tpe1, .tpe2, .tpe3, .tpe4, .tpos, .tpub, .trck, .trda, .trsn, .trso, .tsiz, .tsrc, .tsse, .tyer]

/-- The table of `operator>>`: scribbu/framesv2.cc L79-240. -/
def inTable : List (Bytes × TextFrame) := [
  /- talb -/ ([116, 97, 108, 98], .talb),
  /- TALB -/ ([84, 65, 76, 66], .talb),
  /- tal -/ ([116, 97, 108], .talb),
  /- TAL -/ ([84, 65, 76], .talb),
  /- album -/ ([97, 108, 98, 117, 109], .talb),
  /- tbpm -/ ([116, 98, 112, 109], .tbpm),
  /- TBPM -/ ([84, 66, 80, 77], .tbpm),
  /- tbm -/ ([116, 98, 109], .tbpm),
  /- TBM -/ ([84, 66, 77], .tbpm),
  /- tcom -/ ([116, 99, 111, 109], .tcom),
  /- TCOM -/ ([84, 67, 79, 77], .tcom),
  /- tcm -/ ([116, 99, 109], .tcom),
  /- TCM -/ ([84, 67, 77], .tcom),
  /- composer -/ ([99, 111, 109, 112, 111, 115, 101, 114], .tcom),
  /- tcon -/ ([116, 99, 111, 110], .tcon),
  /- TCON -/ ([84, 67, 79, 78], .tcon),
  /- tco -/ ([116, 99, 111], .tcon),
  /- TCO -/ ([84, 67, 79], .tcon),
  /- content-type -/ ([99, 111, 110, 116, 101, 110, 116, 45, 116, 121, 112, 101], .tcon),
  /- genre -/ ([103, 101, 110, 114, 101], .tcon),
  /- tcop -/ ([116, 99, 111, 112], .tcop),
  /- TCOP -/ ([84, 67, 79, 80], .tcop),
  /- tcr -/ ([116, 99, 114], .tcop),
  /- TCR -/ ([84, 67, 82], .tcop),
  /- tdat -/ ([116, 100, 97, 116], .tdat),
  /- TDAT -/ ([84, 68, 65, 84], .tdat),
  /- tda -/ ([116, 100, 97], .tdat),
  /- TDA -/ ([84, 68, 65], .tdat),
  /- date -/ ([100, 97, 116, 101], .tdat),
  /- tdly -/ ([116, 100, 108, 121], .tdly),
  /- TDLY -/ ([84, 68, 76, 89], .tdly),
  /- tdy -/ ([116, 100, 121], .tdly),
  /- TDY -/ ([84, 68, 89], .tdly),
  /- tenc -/ ([116, 101, 110, 99], .tenc),
  /- TENC -/ ([84, 69, 78, 67], .tenc),
  /- ten -/ ([116, 101, 110], .tenc),
  /- TEN -/ ([84, 69, 78], .tenc),
  /- encoded-by -/ ([101, 110, 99, 111, 100, 101, 100, 45, 98, 121], .tenc),
  /- text -/ ([116, 101, 120, 116], .textw),
  /- TEXT -/ ([84, 69, 88, 84], .textw),
  /- txt -/ ([116, 120, 116], .textw),
  /- TXT -/ ([84, 88, 84], .textw),
  /- tflt -/ ([116, 102, 108, 116], .tflt),
  /- TFLT -/ ([84, 70, 76, 84], .tflt),
  /- tft -/ ([116, 102, 116], .tflt),
  /- TFT -/ ([84, 70, 84], .tflt),
  /- time -/ ([116, 105, 109, 101], .timeR),
  /- TIME -/ ([84, 73, 77, 69], .timeR),
  /- tim -/ ([116, 105, 109], .timeR),
  /- TIM -/ ([84, 73, 77], .timeR),
  /- time -/ ([116, 105, 109, 101], .timeR),
  /- tt1 -/ ([116, 116, 49], .tit1),
  /- TT1 -/ ([84, 84, 49], .tit1),
  /- tit1 -/ ([116, 105, 116, 49], .tit1),
  /- TIT1 -/ ([84, 73, 84, 49], .tit1),
  /- tit2 -/ ([116, 105, 116, 50], .tit2),
  /- TIT2 -/ ([84, 73, 84, 50], .tit2),
  /- tt2 -/ ([116, 116, 50], .tit2),
  /- TT2 -/ ([84, 84, 50], .tit2),
  /- title -/ ([116, 105, 116, 108, 101], .tit2),
  /- tit3 -/ ([116, 105, 116, 51], .tit3),
  /- TIT3 -/ ([84, 73, 84, 51], .tit3),
  /- tt3 -/ ([116, 116, 51], .tit3),
  /- TT3 -/ ([84, 84, 51], .tit3),
  /- sub-title -/ ([115, 117, 98, 45, 116, 105, 116, 108, 101], .tit3),
  /- tkey -/ ([116, 107, 101, 121], .tkey),
  /- TKEY -/ ([84, 75, 69, 89], .tkey),
  /- tke -/ ([116, 107, 101], .tkey),
  /- TKE -/ ([84, 75, 69], .tkey),
  /- tlan -/ ([116, 108, 97, 110], .tlan),
  /- TLAN -/ ([84, 76, 65, 78], .tlan),
  /- tla -/ ([116, 108, 97], .tlan),
  /- TLA -/ ([84, 76, 65], .tlan),
  /- languages -/ ([108, 97, 110, 103, 117, 97, 103, 101, 115], .tlan),
  /- tlen -/ ([116, 108, 101, 110], .tlen),
  /- TLEN -/ ([84, 76, 69, 78], .tlen),
  /- tle -/ ([116, 108, 101], .tlen),
  /- TLE -/ ([84, 76, 69], .tlen),
  /- length -/ ([108, 101, 110, 103, 116, 104], .tlen),
  /- tmed -/ ([116, 109, 101, 100], .tmed),
  /- TMED -/ ([84, 77, 69, 68], .tmed),
  /- tmt -/ ([116, 109, 116], .tmed),
  /- TMT -/ ([84, 77, 84], .tmed),
  /- toal -/ ([116, 111, 97, 108], .toal),
  /- TOAL -/ ([84, 79, 65, 76], .toal),
  /- tot -/ ([116, 111, 116], .toal),
  /- TOT -/ ([84, 79, 84], .toal),
  /- tofn -/ ([116, 111, 102, 110], .tofn),
  /- TOFN -/ ([84, 79, 70, 78], .tofn),
  /- tof -/ ([116, 111, 102], .tofn),
  /- TOF -/ ([84, 79, 70], .tofn),
  /- toly -/ ([116, 111, 108, 121], .toly),
  /- TOLY -/ ([84, 79, 76, 89], .toly),
  /- tol -/ ([116, 111, 108], .toly),
  /- TOL -/ ([84, 79, 76], .toly),
  /- tope -/ ([116, 111, 112, 101], .tope),
  /- TOPE -/ ([84, 79, 80, 69], .tope),
  /- toa -/ ([116, 111, 97], .tope),
  /- TOA -/ ([84, 79, 65], .tope),
  /- tory -/ ([116, 111, 114, 121], .tory),
  /- TORY -/ ([84, 79, 82, 89], .tory),
  /- tor -/ ([116, 111, 114], .tory),
  /- TOR -/ ([84, 79, 82], .tory),
  /- town -/ ([116, 111, 119, 110], .town),
  /- TOWN -/ ([84, 79, 87, 78], .town),
  /- tpe1 -/ ([116, 112, 101, 49], .tpe1),
  /- TPE1 -/ ([84, 80, 69, 49], .tpe1),
  /- tp1 -/ ([116, 112, 49], .tpe1),
  /- TP1 -/ ([84, 80, 49], .tpe1),
  /- artist -/ ([97, 114, 116, 105, 115, 116], .tpe1),
  /- tpe2 -/ ([116, 112, 101, 50], .tpe2),
  /- TPE2 -/ ([84, 80, 69, 50], .tpe2),
  /- tp2 -/ ([116, 112, 50], .tpe2),
  /- TP2 -/ ([84, 80, 50], .tpe2),
  /- tpe3 -/ ([116, 112, 101, 51], .tpe3),
  /- TPE3 -/ ([84, 80, 69, 51], .tpe3),
  /- tp3 -/ ([116, 112, 51], .tpe3),
  /- TP3 -/ ([84, 80, 51], .tpe3),
  /- tpe4 -/ ([116, 112, 101, 52], .tpe4),
  /- TPE4 -/ ([84, 80, 69, 52], .tpe4),
  /- tp4 -/ ([116, 112, 52], .tpe4),
  /- TP4 -/ ([84, 80, 52], .tpe4),
  /- tpos -/ ([116, 112, 111, 115], .tpos),
  /- TPOS -/ ([84, 80, 79, 83], .tpos),
  /- tpa -/ ([116, 112, 97], .tpos),
  /- TPA -/ ([84, 80, 65], .tpos),
  /- tpub -/ ([116, 112, 117, 98], .tpub),
  /- TPUB -/ ([84, 80, 85, 66], .tpub),
  /- tpb -/ ([116, 112, 98], .tpub),
  /- TPB -/ ([84, 80, 66], .tpub),
  /- trck -/ ([116, 114, 99, 107], .trck),
  /- TRCK -/ ([84, 82, 67, 75], .trck),
  /- trk -/ ([116, 114, 107], .trck),
  /- TRK -/ ([84, 82, 75], .trck),
  /- track -/ ([116, 114, 97, 99, 107], .trck),
  /- trda -/ ([116, 114, 100, 97], .trda),
  /- TRDA -/ ([84, 82, 68, 65], .trda),
  /- trd -/ ([116, 114, 100], .trda),
  /- TRD -/ ([84, 82, 68], .trda),
  /- trsn -/ ([116, 114, 115, 110], .trsn),
  /- TRSN -/ ([84, 82, 83, 78], .trsn),
  /- trso -/ ([116, 114, 115, 111], .trso),
  /- TRSO -/ ([84, 82, 83, 79], .trso),
  /- tsiz -/ ([116, 115, 105, 122], .tsiz),
  /- TSIZ -/ ([84, 83, 73, 90], .tsiz),
  /- tsi -/ ([116, 115, 105], .tsiz),
  /- TSI -/ ([84, 83, 73], .tsiz),
  /- tsrc -/ ([116, 115, 114, 99], .tsrc),
  /- TSRC -/ ([84, 83, 82, 67], .tsrc),
  /- trc -/ ([116, 114, 99], .tsrc),
  /- TRC -/ ([84, 82, 67], .tsrc),
  /- tsse -/ ([116, 115, 115, 101], .tsse),
  /- TSSE -/ ([84, 83, 83, 69], .tsse),
  /- tss -/ ([116, 115, 115], .tsse),
  /- TSS -/ ([84, 83, 83], .tsse),
  /- tyer -/ ([116, 121, 101, 114], .tyer),
  /- TYER -/ ([84, 89, 69, 82], .tyer),
  /- tye -/ ([116, 121, 101], .tyer),
  /- TYE -/ ([84, 89, 69], .tyer),
  /- year -/ ([121, 101, 97, 114], .tyer)]

/-- The table of `operator<<`: scribbu/framesv2.cc L256-295. -/
def outTable : List (TextFrame × Bytes) := [
  (.talb, [116, 97, 108, 98]),
  (.tbpm, [116, 98, 112, 109]),
  (.tcom, [116, 99, 111, 109]),
  (.tcon, [116, 99, 111, 110]),
  (.tcop, [116, 99, 111, 112]),
  (.tdat, [116, 100, 97, 116]),
  (.tdly, [116, 100, 108, 121]),
  (.tenc, [116, 101, 110, 99]),
  (.textw, [116, 101, 120, 116]),
  (.tflt, [116, 102, 108, 116]),
  (.timeR, [116, 105, 109, 101]),
  (.tit1, [116, 105, 116, 49]),
  (.tit2, [116, 105, 116, 50]),
  (.tit3, [116, 105, 116, 51]),
  (.tkey, [116, 107, 101, 121]),
  (.tlan, [116, 108, 97, 110]),
  (.tlen, [116, 108, 101, 110]),
  (.tmed, [116, 109, 101, 100]),
  (.toal, [116, 111, 97, 108]),
  (.tofn, [116, 111, 102, 110]),
  (.toly, [116, 111, 108, 121]),
  (.tope, [116, 111, 112, 101]),
  (.tory, [116, 111, 114, 121]),
  (.town, [116, 111, 119, 110]),
  (.tpe1, [116, 112, 101, 49]),
  (.tpe2, [116, 112, 101, 50]),
  (.tpe3, [116, 112, 101, 51]),
  (.tpe4, [116, 112, 101, 52]),
  (.tpos, [116, 112, 111, 115]),
  (.tpub, [116, 112, 117, 98]),
  (.trck, [116, 114, 99, 107]),
  (.trda, [116, 114, 100, 97]),
  (.trsn, [116, 114, 115, 110]),
  (.trso, [116, 114, 115, 111]),
  (.tsiz, [116, 115, 105, 122]),
  (.tsrc, [116, 115, 114, 99]),
  (.tsse, [116, 115, 115, 101]),
  (.tyer, [116, 121, 101, 114])]

/-- The word that `is >> text` reads: without white space in front, up to white space. If there is none, `text` is empty. -/
def word (b : Bytes) : Bytes :=
  let blank : Byte → Bool := fun c => c = 32 ∨ (9 ≤ c ∧ c ≤ 13)
  (b.dropWhile blank).takeWhile fun c => !blank c

/-- `operator>>`: scribbu/framesv2.cc L74-248. The stream is taken to have exceptions off. -/
def parse (b : Bytes) : Res TextFrame :=
  match inTable.find? fun e => e.1 = word b with
  | some e => .ok e.2
  | none => .throw .outOfRange

/-- `operator<<`: scribbu/framesv2.cc L250-298. -/
def print (x : TextFrame) : Res Bytes :=
  match outTable.find? fun e => e.1 = x with
  | some e => .ok e.2
  | none => .throw .outOfRange

/-- `frame_id3(id3v2_text_frames)`: scribbu/framesv2.cc L351-419. -/
def id3 : TextFrame → Res Bytes
  | .talb => .ok [84, 65, 76]  -- TAL
  | .tbpm => .ok [84, 66, 77]  -- TBM
  | .tcom => .ok [84, 67, 77]  -- TCM
  | .tcon => .ok [84, 67, 79]  -- TCO
  | .tcop => .ok [84, 67, 82]  -- TCR
  | .tdat => .ok [84, 68, 65]  -- TDA
  | .tdly => .ok [84, 68, 89]  -- TDY
  | .tenc => .ok [84, 69, 78]  -- TEN
  | .textw => .ok [84, 88, 84]  -- TXT
  | .tflt => .ok [84, 70, 84]  -- TFT
  | .timeR => .ok [84, 73, 77]  -- TIM
  | .tit1 => .ok [84, 84, 49]  -- TT1
  | .tit2 => .ok [84, 84, 50]  -- TT2
  | .tit3 => .ok [84, 84, 51]  -- TT3
  | .tkey => .ok [84, 75, 69]  -- TKE
  | .tlan => .ok [84, 76, 65]  -- TLA
  | .tlen => .ok [84, 76, 69]  -- TLE
  | .tofn => .ok [84, 79, 70]  -- TOF
  | .tpe1 => .ok [84, 80, 49]  -- TP1
  | .tpe2 => .ok [84, 80, 50]  -- TP2
  | .tpe3 => .ok [84, 80, 51]  -- TP3
  | .tpe4 => .ok [84, 80, 52]  -- TP4
  | .tpos => .ok [84, 80, 65]  -- TPA
  | .tpub => .ok [84, 80, 66]  -- TPB
  | .trck => .ok [84, 82, 75]  -- TRK
  | .trda => .ok [84, 82, 68]  -- TRD
  | .tsiz => .ok [84, 83, 73]  -- TSI
  | .tsrc => .ok [84, 82, 67]  -- TRC
  | .tsse => .ok [84, 83, 83]  -- TSS
  | .tyer => .ok [84, 89, 69]  -- TYE
  | _ => .throw .unknownFrame

/-- `frame_id4(id3v2_text_frames)`: scribbu/framesv2.cc L468-590. -/
def id4 : TextFrame → Res Bytes
  | .talb => .ok [84, 65, 76, 66]  -- TALB
  | .tbpm => .ok [84, 66, 80, 77]  -- TBPM
  | .tcom => .ok [84, 67, 79, 77]  -- TCOM
  | .tcon => .ok [84, 67, 79, 78]  -- TCON
  | .tcop => .ok [84, 67, 79, 80]  -- TCOP
  | .tdat => .ok [84, 68, 65, 84]  -- TDAT
  | .tdly => .ok [84, 68, 76, 89]  -- TDLY
  | .tenc => .ok [84, 69, 78, 67]  -- TENC
  | .textw => .ok [84, 69, 88, 84]  -- TEXT
  | .tflt => .ok [84, 70, 76, 84]  -- TFLT
  | .timeR => .ok [84, 73, 77, 69]  -- TIME
  | .tit1 => .ok [84, 73, 84, 49]  -- TIT1
  | .tit2 => .ok [84, 73, 84, 50]  -- TIT2
  | .tit3 => .ok [84, 73, 84, 51]  -- TIT3
  | .tkey => .ok [84, 75, 69, 89]  -- TKEY
  | .tlan => .ok [84, 76, 65, 78]  -- TLAN
  | .tlen => .ok [84, 76, 69, 78]  -- TLEN
  | .tmed => .ok [84, 77, 69, 68]  -- TMED
  | .toal => .ok [84, 79, 65, 76]  -- TOAL
  | .tofn => .ok [84, 79, 70, 78]  -- TOFN
  | .toly => .ok [84, 79, 76, 89]  -- TOLY
  | .tope => .ok [84, 79, 80, 69]  -- TOPE
  | .tory => .ok [84, 79, 82, 89]  -- TORY
  | .town => .ok [84, 79, 87, 78]  -- TOWN
  | .tpe1 => .ok [84, 80, 69, 49]  -- TPE1
  | .tpe2 => .ok [84, 80, 69, 50]  -- TPE2
  | .tpe3 => .ok [84, 80, 69, 51]  -- TPE3
  | .tpe4 => .ok [84, 80, 69, 52]  -- TPE4
  | .tpos => .ok [84, 80, 79, 83]  -- TPOS
  | .tpub => .ok [84, 80, 85, 66]  -- TPUB
  | .trck => .ok [84, 82, 67, 75]  -- TRCK
  | .trda => .ok [84, 82, 68, 65]  -- TRDA
  | .trsn => .ok [84, 82, 83, 78]  -- TRSN
  | .trso => .ok [84, 82, 83, 79]  -- TRSO
  | .tsiz => .ok [84, 83, 73, 90]  -- TSIZ
  | .tsrc => .ok [84, 83, 82, 67]  -- TSRC
  | .tsse => .ok [84, 83, 83, 69]  -- TSSE
  | .tyer => .ok [84, 89, 69, 82]  -- TYER

end TextFrame
end Scribbu
