import Verif.Model.Charset
import Verif.Model.TextFrame
import Verif.Model.Backup

/-!
# The messages of exceptions (`what()`)

Each class has a `what()` that puts its message together when it is first asked for. All of them are `noexcept`: if putting the message
together throws, the program is terminated. Exceptions made of the messages of other libraries only (`zlib_error`, `openssl_error`) are not
modelled.
-/

namespace Scribbu.Errors

/-- What an exception knows of an identifier: `id3_` and `id4_`, the other of which is all zeros (scribbu/id3v2.hh L564-622,
scribbu/framesv2.hh L266-267, L306-307). -/
inductive FrameName where
  | three (a b c : Byte)
  | four (a b c d : Byte)
  deriving DecidableEq, Repr

/-- `if (id3_.null()) stm << id4_; else stm << id3_;`: scribbu/id3v2.cc L314-319 (and L332-337, L355-360); `null()` and `as_string()` are
scribbu/framesv2.hh L278-280, L286-288; L318-320. -/
def FrameName.text : FrameName → Bytes
  | .three a b c => if a = 0 ∧ b = 0 ∧ c = 0 then [0, 0, 0, 0] else [a, b, c]
  | .four a b c d => [a, b, c, d]

/-- `invalid_tagset_request::cause`: scribbu/tagset.hh L167-170. -/
inductive TagsetCause where
  | emplaceMismatchSz | adjPadNotEnough
  deriving DecidableEq, Repr

/-- `mp3_audio_frame::error::cause`: scribbu/mp3.hh L725-732. -/
inductive Mp3Cause where
  | badMpegSpecVersion | badLayer | noSync | freeBitrate | badBitrate | badSamplingRate
  deriving DecidableEq, Repr

/-- `tagset_processor::unknown_op`: src/command-utilities.hh L231-240. -/
inductive UnknownOp where
  | createV1FromV2 | createV1 | createV2FromV1 | createV2 | processV1 | processV22 | processV23 | processV24
  deriving DecidableEq, Repr

/-- `all_source_preference`: scribbu/tbt-support.hh L48-53. -/
inductive SourcePref where
  | preferV2 | preferV1 | v2Only | v1Only
  deriving DecidableEq, Repr

/-- `size_opt`, `ws_xform`, `md5_opt`, `file_opt` and `aacet_opt`, as the constructors of `duplicate_option` take them: scribbu/tbt-support.hh
L99-120. -/
inductive Opt where
  | sizeBase | sizeHexCase
  | wsCompress | wsReplace
  | md5Base | md5HexCase
  | fileThe | fileCap | fileWs
  | aacetSource | aacetV1Enc | aacetThe | aacetCap | aacetWs | aacetOutEnc
  deriving DecidableEq, Repr

/-- An exception, of any of the classes. `errno_` is given as the text that `strerror` has for it. -/
inductive Err where
  | duplicateFrame (f : FrameName) (n : Nat)
  | unknownFrame (f : FrameName)
  | reservedFrame (f : FrameName)
  | invalidTag
  | noTag
  | unknownVersion (v : Byte)
  | unknownTextFrame (x : TextFrame)
  | badUnicode (b : Byte)
  | iconv (errno : Bytes)
  | badCodeUnit (e : Encoding) (cb : Nat)
  | badSeparator (c : Byte)
  | invalidExtHeader
  | invalidV1Tag
  | tagset (c : TagsetCause)
  | mp3 (c : Mp3Cause)
  | fileOpen (name errno : Bytes)
  | fileNotFound (p : Bytes)
  | badGenre (g : Byte)
  | badOperation (op : UnknownOp)
  | badV2Version (v : Byte)
  | missingSource (s : SourcePref) (tag : Option Bytes)
  | duplicateOption (o : Opt)
  deriving DecidableEq, Repr

/-- `stm << (int) c` of a `char` (signed). -/
def signed (c : Byte) : Bytes := if c.toNat < 128 then Backup.dec c.toNat else 45 :: Backup.dec (256 - c.toNat)

/-- The loop of `std::quoted`. -/
def escape : Bytes → Bytes
  | [] => []
  | c :: s => if c = 34 ∨ c = 92 then 92 :: c :: escape s else c :: escape s

/-- `stm << pth` of a `std::filesystem::path` (`std::quoted`). -/
def quoted (p : Bytes) : Bytes := 34 :: escape p ++ [34]

/-- scribbu/tagset.cc L31-54. -/
def tagsetText : TagsetCause → Bytes
  | .emplaceMismatchSz => /- replace_tagset_emplace called with a new tagset whose size does not match the existing tagset -/ [114, 101, 112, 108, 97, 99, 101, 95, 116, 97, 103, 115, 101, 116, 95, 101, 109, 112, 108, 97, 99, 101, 32, 99, 97, 108, 108, 101, 100, 32, 119, 105, 116, 104, 32, 97, 32, 110, 101, 119, 32, 116, 97, 103, 115, 101, 116, 32, 119, 104, 111, 115, 101, 32, 115, 105, 122, 101, 32, 100, 111, 101, 115, 32, 110, 111, 116, 32, 109, 97, 116, 99, 104, 32, 116, 104, 101, 32, 101, 120, 105, 115, 116, 105, 110, 103, 32, 116, 97, 103, 115, 101, 116]
  | .adjPadNotEnough => /- adjust_padding_to called to reduce tagset size, but there's not enough padding to satisfy the requested size -/ [97, 100, 106, 117, 115, 116, 95, 112, 97, 100, 100, 105, 110, 103, 95, 116, 111, 32, 99, 97, 108, 108, 101, 100, 32, 116, 111, 32, 114, 101, 100, 117, 99, 101, 32, 116, 97, 103, 115, 101, 116, 32, 115, 105, 122, 101, 44, 32, 98, 117, 116, 32, 116, 104, 101, 114, 101, 39, 115, 32, 110, 111, 116, 32, 101, 110, 111, 117, 103, 104, 32, 112, 97, 100, 100, 105, 110, 103, 32, 116, 111, 32, 115, 97, 116, 105, 115, 102, 121, 32, 116, 104, 101, 32, 114, 101, 113, 117, 101, 115, 116, 101, 100, 32, 115, 105, 122, 101]

/-- scribbu/mp3.cc L225-256. -/
def mp3Text : Mp3Cause → Bytes
  | .badMpegSpecVersion => /- bad MPEG spec version -/ [98, 97, 100, 32, 77, 80, 69, 71, 32, 115, 112, 101, 99, 32, 118, 101, 114, 115, 105, 111, 110]
  | .badLayer => /- bad MPEG audio layer -/ [98, 97, 100, 32, 77, 80, 69, 71, 32, 97, 117, 100, 105, 111, 32, 108, 97, 121, 101, 114]
  | .noSync => /- no sync found -/ [110, 111, 32, 115, 121, 110, 99, 32, 102, 111, 117, 110, 100]
  | .freeBitrate => /- free bitrates not supported -/ [102, 114, 101, 101, 32, 98, 105, 116, 114, 97, 116, 101, 115, 32, 110, 111, 116, 32, 115, 117, 112, 112, 111, 114, 116, 101, 100]
  | .badBitrate => /- unsupported (or unknown) bitrate -/ [117, 110, 115, 117, 112, 112, 111, 114, 116, 101, 100, 32, 40, 111, 114, 32, 117, 110, 107, 110, 111, 119, 110, 41, 32, 98, 105, 116, 114, 97, 116, 101]
  | .badSamplingRate => /- unsupported (or unknown) sampling rate -/ [117, 110, 115, 117, 112, 112, 111, 114, 116, 101, 100, 32, 40, 111, 114, 32, 117, 110, 107, 110, 111, 119, 110, 41, 32, 115, 97, 109, 112, 108, 105, 110, 103, 32, 114, 97, 116, 101]

/-- src/command-utilities.cc L199-229. -/
def opText : UnknownOp → Bytes
  | .createV1FromV2 => /- creating an ID3v1 tag from one or more ID3v2 -/ [99, 114, 101, 97, 116, 105, 110, 103, 32, 97, 110, 32, 73, 68, 51, 118, 49, 32, 116, 97, 103, 32, 102, 114, 111, 109, 32, 111, 110, 101, 32, 111, 114, 32, 109, 111, 114, 101, 32, 73, 68, 51, 118, 50]
  | .createV1 => /- creating an ID3v1 tag from scratch -/ [99, 114, 101, 97, 116, 105, 110, 103, 32, 97, 110, 32, 73, 68, 51, 118, 49, 32, 116, 97, 103, 32, 102, 114, 111, 109, 32, 115, 99, 114, 97, 116, 99, 104]
  | .createV2FromV1 => /- creating an ID3v2 tag from an ID3v1 -/ [99, 114, 101, 97, 116, 105, 110, 103, 32, 97, 110, 32, 73, 68, 51, 118, 50, 32, 116, 97, 103, 32, 102, 114, 111, 109, 32, 97, 110, 32, 73, 68, 51, 118, 49]
  | .createV2 => /- creating an ID3v2 tag from scratch -/ [99, 114, 101, 97, 116, 105, 110, 103, 32, 97, 110, 32, 73, 68, 51, 118, 50, 32, 116, 97, 103, 32, 102, 114, 111, 109, 32, 115, 99, 114, 97, 116, 99, 104]
  | .processV1 => /- processing an ID3v1 tag -/ [112, 114, 111, 99, 101, 115, 115, 105, 110, 103, 32, 97, 110, 32, 73, 68, 51, 118, 49, 32, 116, 97, 103]
  | .processV22 => /- processing an ID3v2.2 tag -/ [112, 114, 111, 99, 101, 115, 115, 105, 110, 103, 32, 97, 110, 32, 73, 68, 51, 118, 50, 46, 50, 32, 116, 97, 103]
  | .processV23 => /- processing an ID3v2.3 tag -/ [112, 114, 111, 99, 101, 115, 115, 105, 110, 103, 32, 97, 110, 32, 73, 68, 51, 118, 50, 46, 51, 32, 116, 97, 103]
  | .processV24 => /- processing an ID3v2.4 tag -/ [112, 114, 111, 99, 101, 115, 115, 105, 110, 103, 32, 97, 110, 32, 73, 68, 51, 118, 50, 46, 52, 32, 116, 97, 103]

/-- scribbu/tbt-support.cc L36-57. -/
def prefText : SourcePref → Bytes
  | .preferV2 => /- prefer ID3v2, fall back to ID3v1 -/ [112, 114, 101, 102, 101, 114, 32, 73, 68, 51, 118, 50, 44, 32, 102, 97, 108, 108, 32, 98, 97, 99, 107, 32, 116, 111, 32, 73, 68, 51, 118, 49]
  | .preferV1 => /- prefer ID3v1, fall back to ID3v2 -/ [112, 114, 101, 102, 101, 114, 32, 73, 68, 51, 118, 49, 44, 32, 102, 97, 108, 108, 32, 98, 97, 99, 107, 32, 116, 111, 32, 73, 68, 51, 118, 50]
  | .v2Only => /- accept ID3v2 only -/ [97, 99, 99, 101, 112, 116, 32, 73, 68, 51, 118, 50, 32, 111, 110, 108, 121]
  | .v1Only => /- accept ID3v1 only -/ [97, 99, 99, 101, 112, 116, 32, 73, 68, 51, 118, 49, 32, 111, 110, 108, 121]

/-- scribbu/tbt-support.cc L76-174. -/
def optText : Opt → Bytes
  | .sizeBase => /- base -/ [98, 97, 115, 101]
  | .sizeHexCase => /- hex case -/ [104, 101, 120, 32, 99, 97, 115, 101]
  | .wsCompress => /- compress -/ [99, 111, 109, 112, 114, 101, 115, 115]
  | .wsReplace => /- replace -/ [114, 101, 112, 108, 97, 99, 101]
  | .md5Base => /- base -/ [98, 97, 115, 101]
  | .md5HexCase => /- hex case -/ [104, 101, 120, 32, 99, 97, 115, 101]
  | .fileThe => /- the -/ [116, 104, 101]
  | .fileCap => /- cap -/ [99, 97, 112]
  | .fileWs => /- ws -/ [119, 115]
  | .aacetSource => /- (all)source prefs -/ [40, 97, 108, 108, 41, 115, 111, 117, 114, 99, 101, 32, 112, 114, 101, 102, 115]
  | .aacetV1Enc => /- ID3v1 encoding -/ [73, 68, 51, 118, 49, 32, 101, 110, 99, 111, 100, 105, 110, 103]
  | .aacetThe => /- the -/ [116, 104, 101]
  | .aacetCap => /- cap -/ [99, 97, 112]
  | .aacetWs => /- ws -/ [119, 115]
  | .aacetOutEnc => /- output encoding -/ [111, 117, 116, 112, 117, 116, 32, 101, 110, 99, 111, 100, 105, 110, 103]

/-- The text that `what()` puts together: scribbu/id3v2.cc L308-401, scribbu/framesv2.cc L304-331, scribbu/charsets.cc L473-481 and
L621-629, scribbu/csv-pprinter.cc L33-41, scribbu/id3v23.cc L180-184, scribbu/id3v24.cc L179-183, scribbu/id3v1.cc L36-40, scribbu/tagset.cc
L31-54, scribbu/mp3.cc L225-256, scribbu/scribbu.cc L98-107, src/command-utilities.cc L53-62 and L194-246, src/genre.cc L300-310,
scribbu/tbt-support.cc L59-73 and L272-304. The `default:` cases, for values that are none of the enumerators, are left out. -/
def full : Err → Res Bytes
  | .duplicateFrame f n => .ok (/- Frame  -/ [70, 114, 97, 109, 101, 32] ++ (f.text ++ (/-  was defined  -/ [32, 119, 97, 115, 32, 100, 101, 102, 105, 110, 101, 100, 32] ++ (Backup.dec n ++ /-  times -/ [32, 116, 105, 109, 101, 115]))))
  | .unknownFrame f => .ok (/- Unknown frame  -/ [85, 110, 107, 110, 111, 119, 110, 32, 102, 114, 97, 109, 101, 32] ++ f.text)
  | .reservedFrame f => .ok (/- frame  -/ [102, 114, 97, 109, 101, 32] ++ (f.text ++ /-  is reserved; it's parser may not be replaced -/ [32, 105, 115, 32, 114, 101, 115, 101, 114, 118, 101, 100, 59, 32, 105, 116, 39, 115, 32, 112, 97, 114, 115, 101, 114, 32, 109, 97, 121, 32, 110, 111, 116, 32, 98, 101, 32, 114, 101, 112, 108, 97, 99, 101, 100]))
  | .invalidTag => .ok /- invalid tag -/ [105, 110, 118, 97, 108, 105, 100, 32, 116, 97, 103]
  | .noTag => .ok /- no tag -/ [110, 111, 32, 116, 97, 103]
  | .unknownVersion v => .ok (/- Unknown version  -/ [85, 110, 107, 110, 111, 119, 110, 32, 118, 101, 114, 115, 105, 111, 110, 32] ++ Backup.dec v.toNat)
  | .unknownTextFrame x => x.print.bind fun s =>
    .ok (/- Unknown ID3v2 text frame ` -/ [85, 110, 107, 110, 111, 119, 110, 32, 73, 68, 51, 118, 50, 32, 116, 101, 120, 116, 32, 102, 114, 97, 109, 101, 32, 96] ++ (s ++ /- ': this is likely a bug; please report this to sp1ff@pobox.com -/ [39, 58, 32, 116, 104, 105, 115, 32, 105, 115, 32, 108, 105, 107, 101, 108, 121, 32, 97, 32, 98, 117, 103, 59, 32, 112, 108, 101, 97, 115, 101, 32, 114, 101, 112, 111, 114, 116, 32, 116, 104, 105, 115, 32, 116, 111, 32, 115, 112, 49, 102, 102, 64, 112, 111, 98, 111, 120, 46, 99, 111, 109]))
  | .badUnicode b => .ok (/- Unknown value for the Unicode byte:  -/ [85, 110, 107, 110, 111, 119, 110, 32, 118, 97, 108, 117, 101, 32, 102, 111, 114, 32, 116, 104, 101, 32, 85, 110, 105, 99, 111, 100, 101, 32, 98, 121, 116, 101, 58, 32] ++ [b])
  | .iconv e => .ok (/- iconv failure:  -/ [105, 99, 111, 110, 118, 32, 102, 97, 105, 108, 117, 114, 101, 58, 32] ++ e)
  | .badCodeUnit e cb => e.print.bind fun s => .ok (Backup.dec cb ++ (/-  is an invalid code unit for encoding  -/ [32, 105, 115, 32, 97, 110, 32, 105, 110, 118, 97, 108, 105, 100, 32, 99, 111, 100, 101, 32, 117, 110, 105, 116, 32, 102, 111, 114, 32, 101, 110, 99, 111, 100, 105, 110, 103, 32] ++ s))
  | .badSeparator c => .ok (signed c ++ /-  is not a valid separater -/ [32, 105, 115, 32, 110, 111, 116, 32, 97, 32, 118, 97, 108, 105, 100, 32, 115, 101, 112, 97, 114, 97, 116, 101, 114])
  | .invalidExtHeader => .ok /- invalid extended header -/ [105, 110, 118, 97, 108, 105, 100, 32, 101, 120, 116, 101, 110, 100, 101, 100, 32, 104, 101, 97, 100, 101, 114]
  | .invalidV1Tag => .ok /- invalid ID3v1 tag -/ [105, 110, 118, 97, 108, 105, 100, 32, 73, 68, 51, 118, 49, 32, 116, 97, 103]
  | .tagset c => .ok (tagsetText c)
  | .mp3 c => .ok (mp3Text c)
  | .fileOpen n e => .ok (/- Failed to open ` -/ [70, 97, 105, 108, 101, 100, 32, 116, 111, 32, 111, 112, 101, 110, 32, 96] ++ (n ++ (/- ':  -/ [39, 58, 32] ++ e)))
  | .fileNotFound p => .ok (/- `` -/ [96, 96] ++ (quoted p ++ /- '' not found -/ [39, 39, 32, 110, 111, 116, 32, 102, 111, 117, 110, 100]))
  | .badGenre g => .ok (/- invalid ID3v1 numeric genre  -/ [105, 110, 118, 97, 108, 105, 100, 32, 73, 68, 51, 118, 49, 32, 110, 117, 109, 101, 114, 105, 99, 32, 103, 101, 110, 114, 101, 32] ++ Backup.dec g.toNat)
  | .badOperation op => .ok (/- A tagset_processor virtual was invoked on a subclass for which it makes no sense:  -/ [65, 32, 116, 97, 103, 115, 101, 116, 95, 112, 114, 111, 99, 101, 115, 115, 111, 114, 32, 118, 105, 114, 116, 117, 97, 108, 32, 119, 97, 115, 32, 105, 110, 118, 111, 107, 101, 100, 32, 111, 110, 32, 97, 32, 115, 117, 98, 99, 108, 97, 115, 115, 32, 102, 111, 114, 32, 119, 104, 105, 99, 104, 32, 105, 116, 32, 109, 97, 107, 101, 115, 32, 110, 111, 32, 115, 101, 110, 115, 101, 58, 32] ++ (opText op ++
      /- , This is almost certainly a bug; please consider reporting it to sp1ff@pobox.com -/ [44, 32, 84, 104, 105, 115, 32, 105, 115, 32, 97, 108, 109, 111, 115, 116, 32, 99, 101, 114, 116, 97, 105, 110, 108, 121, 32, 97, 32, 98, 117, 103, 59, 32, 112, 108, 101, 97, 115, 101, 32, 99, 111, 110, 115, 105, 100, 101, 114, 32, 114, 101, 112, 111, 114, 116, 105, 110, 103, 32, 105, 116, 32, 116, 111, 32, 115, 112, 49, 102, 102, 64, 112, 111, 98, 111, 120, 46, 99, 111, 109]))
  | .badV2Version v => .ok (/- unknown ID3v2 version  -/ [117, 110, 107, 110, 111, 119, 110, 32, 73, 68, 51, 118, 50, 32, 118, 101, 114, 115, 105, 111, 110, 32] ++ Backup.dec v.toNat)
  | .missingSource s tag => .ok (/- Missing tag source ( -/ [77, 105, 115, 115, 105, 110, 103, 32, 116, 97, 103, 32, 115, 111, 117, 114, 99, 101, 32, 40] ++ (prefText s ++ (/- ) -/ [41] ++
      match tag with
      | none => []
      | some t => /-  while evaluating tag ' -/ [32, 119, 104, 105, 108, 101, 32, 101, 118, 97, 108, 117, 97, 116, 105, 110, 103, 32, 116, 97, 103, 32, 39] ++ (t ++ /- ' -/ [39]))))
  | .duplicateOption o => .ok (/- duplicate option  -/ [100, 117, 112, 108, 105, 99, 97, 116, 101, 32, 111, 112, 116, 105, 111, 110, 32] ++ optText o)

/-- What the caller sees of it: `c_str()`, up to the first zero; nothing at all if the program is terminated. -/
def what (e : Err) : Option Bytes :=
  match full e with
  | .ok m => some (m.takeWhile (· ≠ 0))
  | _ => none

end Scribbu.Errors
