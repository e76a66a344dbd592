import Verif.Model.TextFrame

/-!
# Character encodings (scribbu/charsets.hh, scribbu/charsets.cc)

The tables are transcribed from the source by a script, entry by entry.
-/

namespace Scribbu

/-- `enum class encoding`: scribbu/charsets.hh L56-110, without `MAX_ENCODING`. -/
inductive Encoding where
  | ASCII
  | ISO_8859_1
  | ISO_8859_2
  | ISO_8859_3
  | ISO_8859_4
  | ISO_8859_5
  | ISO_8859_7
  | ISO_8859_9
  | ISO_8859_10
  | ISO_8859_13
  | ISO_8859_14
  | ISO_8859_15
  | ISO_8859_16
  | KOI8_R
  | KOI8_U
  | KOI8_RU
  | CP1250
  | CP1251
  | CP1252
  | CP1253
  | CP1254
  | CP1257
  | CP850
  | CP866
  | CP1131
  | MacRoman
  | MacCentralEurope
  | MacIceland
  | MacCroatian
  | MacRomania
  | MacCyrillic
  | MacUkraine
  | MacGreek
  | MacTurkish
  | Macintosh
  | ISO_8859_6
  | ISO_8859_8
  | CP1255
  | CP1256
  | CP862
  | MacHebrew
  | MacArabic
  | EUC_JP
  | SHIFT_JIS
  | CP932
  | ISO_2022_JP
  | ISO_2022_JP_2
  | ISO_2022_JP_1
  | ISO_2022_JP_MS
  | EUC_CN
  | HZ
  | GBK
  | CP936
  | GB18030
  | EUC_TW
  | BIG5
  | CP950
  | BIG5_HKSCS
  | BIG5_HKSCS_2004
  | BIG5_HKSCS_2001
  | BIG5_HKSCS_1999
  | ISO_2022_CN
  | ISO_2022_CN_EXT
  | EUC_KR
  | CP949
  | ISO_2022_KR
  | JOHAB
  | ARMSCII_8
  | Georgian_Academy
  | Georgian_PS
  | KOI8_T
  | PT154
  | RK1048
  | TIS_620
  | CP874
  | MacThai
  | MuleLao_1
  | CP1133
  | VISCII
  | TCVN
  | CP1258
  | HP_ROMAN8
  | NEXTSTEP
  | UTF_8
  | UCS_2
  | UCS_2BE
  | UCS_2LE
  | UCS_4
  | UCS_4BE
  | UCS_4LE
  | UTF_16
  | UTF_16BE
  | UTF_16LE
  | UTF_32
  | UTF_32BE
  | UTF_32LE
  | UTF_7
  | C99
  | JAVA
  deriving DecidableEq, Repr

namespace Encoding

/-- All values. -/
def all : List Encoding := [
  .ASCII,
  .ISO_8859_1,
  .ISO_8859_2,
  .ISO_8859_3,
  .ISO_8859_4,
  .ISO_8859_5,
  .ISO_8859_7,
  .ISO_8859_9,
  .ISO_8859_10,
  .ISO_8859_13,
  .ISO_8859_14,
  .ISO_8859_15,
  .ISO_8859_16,
  .KOI8_R,
  .KOI8_U,
  .KOI8_RU,
  .CP1250,
  .CP1251,
  .CP1252,
  .CP1253,
  .CP1254,
  .CP1257,
  .CP850,
  .CP866,
  .CP1131,
  .MacRoman,
  .MacCentralEurope,
  .MacIceland,
  .MacCroatian,
  .MacRomania,
  .MacCyrillic,
  .MacUkraine,
  .MacGreek,
  .MacTurkish,
  .Macintosh,
  .ISO_8859_6,
  .ISO_8859_8,
  .CP1255,
  .CP1256,
  .CP862,
  .MacHebrew,
  .MacArabic,
  .EUC_JP,
  .SHIFT_JIS,
  .CP932,
  .ISO_2022_JP,
  .ISO_2022_JP_2,
  .ISO_2022_JP_1,
  .ISO_2022_JP_MS,
  .EUC_CN,
  .HZ,
  .GBK,
  .CP936,
  .GB18030,
  .EUC_TW,
  .BIG5,
  .CP950,
  .BIG5_HKSCS,
  .BIG5_HKSCS_2004,
  .BIG5_HKSCS_2001,
  .BIG5_HKSCS_1999,
  .ISO_2022_CN,
  .ISO_2022_CN_EXT,
  .EUC_KR,
  .CP949,
  .ISO_2022_KR,
  .JOHAB,
  .ARMSCII_8,
  .Georgian_Academy,
  .Georgian_PS,
  .KOI8_T,
  .PT154,
  .RK1048,
  .TIS_620,
  .CP874,
  .MacThai,
  .MuleLao_1,
  .CP1133,
  .VISCII,
  .TCVN,
  .CP1258,
  .HP_ROMAN8,
  .NEXTSTEP,
  .UTF_8,
  .UCS_2,
  .UCS_2BE,
  .UCS_2LE,
  .UCS_4,
  .UCS_4BE,
  .UCS_4LE,
  .UTF_16,
  .UTF_16BE,
  .UTF_16LE,
  .UTF_32,
  .UTF_32BE,
  .UTF_32LE,
  .UTF_7,
  .C99,
  .JAVA]

/-- The table of `operator>>`: scribbu/charsets.cc L103-217. -/
def inTable : List (Bytes × Encoding) := [
  /- ASCII -/ ([65, 83, 67, 73, 73], .ASCII),
  /- ISO-8859-1 -/ ([73, 83, 79, 45, 56, 56, 53, 57, 45, 49], .ISO_8859_1),
  /- ISO-8859-2 -/ ([73, 83, 79, 45, 56, 56, 53, 57, 45, 50], .ISO_8859_2),
  /- ISO-8859-3 -/ ([73, 83, 79, 45, 56, 56, 53, 57, 45, 51], .ISO_8859_3),
  /- ISO-8859-4 -/ ([73, 83, 79, 45, 56, 56, 53, 57, 45, 52], .ISO_8859_4),
  /- ISO-8859-5 -/ ([73, 83, 79, 45, 56, 56, 53, 57, 45, 53], .ISO_8859_5),
  /- ISO-8859-7 -/ ([73, 83, 79, 45, 56, 56, 53, 57, 45, 55], .ISO_8859_7),
  /- ISO-8859-9 -/ ([73, 83, 79, 45, 56, 56, 53, 57, 45, 57], .ISO_8859_9),
  /- ISO-8859-10 -/ ([73, 83, 79, 45, 56, 56, 53, 57, 45, 49, 48], .ISO_8859_10),
  /- ISO-8859-13 -/ ([73, 83, 79, 45, 56, 56, 53, 57, 45, 49, 51], .ISO_8859_13),
  /- ISO-8859-14 -/ ([73, 83, 79, 45, 56, 56, 53, 57, 45, 49, 52], .ISO_8859_14),
  /- ISO-8859-15 -/ ([73, 83, 79, 45, 56, 56, 53, 57, 45, 49, 53], .ISO_8859_15),
  /- ISO-8859-16 -/ ([73, 83, 79, 45, 56, 56, 53, 57, 45, 49, 54], .ISO_8859_16),
  /- KOI8-R -/ ([75, 79, 73, 56, 45, 82], .KOI8_R),
  /- KOI8-U -/ ([75, 79, 73, 56, 45, 85], .KOI8_U),
  /- KOI8-RU -/ ([75, 79, 73, 56, 45, 82, 85], .KOI8_RU),
  /- CP1250 -/ ([67, 80, 49, 50, 53, 48], .CP1250),
  /- CP1251 -/ ([67, 80, 49, 50, 53, 49], .CP1251),
  /- CP1252 -/ ([67, 80, 49, 50, 53, 50], .CP1252),
  /- CP1253 -/ ([67, 80, 49, 50, 53, 51], .CP1253),
  /- CP1254 -/ ([67, 80, 49, 50, 53, 52], .CP1254),
  /- CP1257 -/ ([67, 80, 49, 50, 53, 55], .CP1257),
  /- CP850 -/ ([67, 80, 56, 53, 48], .CP850),
  /- CP866 -/ ([67, 80, 56, 54, 54], .CP866),
  /- CP1131 -/ ([67, 80, 49, 49, 51, 49], .CP1131),
  /- MacRoman -/ ([77, 97, 99, 82, 111, 109, 97, 110], .MacRoman),
  /- MacCentralEurope -/ ([77, 97, 99, 67, 101, 110, 116, 114, 97, 108, 69, 117, 114, 111, 112, 101], .MacCentralEurope),
  /- MacIceland -/ ([77, 97, 99, 73, 99, 101, 108, 97, 110, 100], .MacIceland),
  /- MacCroatian -/ ([77, 97, 99, 67, 114, 111, 97, 116, 105, 97, 110], .MacCroatian),
  /- MacRomania -/ ([77, 97, 99, 82, 111, 109, 97, 110, 105, 97], .MacRomania),
  /- MacCyrillic -/ ([77, 97, 99, 67, 121, 114, 105, 108, 108, 105, 99], .MacCyrillic),
  /- MacUkraine -/ ([77, 97, 99, 85, 107, 114, 97, 105, 110, 101], .MacUkraine),
  /- MacGreek -/ ([77, 97, 99, 71, 114, 101, 101, 107], .MacGreek),
  /- MacTurkish -/ ([77, 97, 99, 84, 117, 114, 107, 105, 115, 104], .MacTurkish),
  /- Macintosh -/ ([77, 97, 99, 105, 110, 116, 111, 115, 104], .Macintosh),
  /- ISO-8859-6 -/ ([73, 83, 79, 45, 56, 56, 53, 57, 45, 54], .ISO_8859_6),
  /- ISO-8859-8 -/ ([73, 83, 79, 45, 56, 56, 53, 57, 45, 56], .ISO_8859_8),
  /- CP1255 -/ ([67, 80, 49, 50, 53, 53], .CP1255),
  /- CP1256 -/ ([67, 80, 49, 50, 53, 54], .CP1256),
  /- CP862 -/ ([67, 80, 56, 54, 50], .CP862),
  /- MacHebrew -/ ([77, 97, 99, 72, 101, 98, 114, 101, 119], .MacHebrew),
  /- MacArabic -/ ([77, 97, 99, 65, 114, 97, 98, 105, 99], .MacArabic),
  /- EUC-JP -/ ([69, 85, 67, 45, 74, 80], .EUC_JP),
  /- SHIFT-JIS -/ ([83, 72, 73, 70, 84, 45, 74, 73, 83], .SHIFT_JIS),
  /- CP932 -/ ([67, 80, 57, 51, 50], .CP932),
  /- ISO-2022-JP -/ ([73, 83, 79, 45, 50, 48, 50, 50, 45, 74, 80], .ISO_2022_JP),
  /- ISO-2022-JP-2 -/ ([73, 83, 79, 45, 50, 48, 50, 50, 45, 74, 80, 45, 50], .ISO_2022_JP_2),
  /- ISO-2022-JP-1 -/ ([73, 83, 79, 45, 50, 48, 50, 50, 45, 74, 80, 45, 49], .ISO_2022_JP_1),
  /- ISO-2022-JP-MS -/ ([73, 83, 79, 45, 50, 48, 50, 50, 45, 74, 80, 45, 77, 83], .ISO_2022_JP_MS),
  /- EUC-CN -/ ([69, 85, 67, 45, 67, 78], .EUC_CN),
  /- HZ -/ ([72, 90], .HZ),
  /- GBK -/ ([71, 66, 75], .GBK),
  /- CP936 -/ ([67, 80, 57, 51, 54], .CP936),
  /- GB18030 -/ ([71, 66, 49, 56, 48, 51, 48], .GB18030),
  /- EUC-TW -/ ([69, 85, 67, 45, 84, 87], .EUC_TW),
  /- BIG5 -/ ([66, 73, 71, 53], .BIG5),
  /- CP950 -/ ([67, 80, 57, 53, 48], .CP950),
  /- BIG5-HKSCS -/ ([66, 73, 71, 53, 45, 72, 75, 83, 67, 83], .BIG5_HKSCS),
  /- BIG5-HKSCS:2004 -/ ([66, 73, 71, 53, 45, 72, 75, 83, 67, 83, 58, 50, 48, 48, 52], .BIG5_HKSCS_2004),
  /- BIG5-HKSCS:2001 -/ ([66, 73, 71, 53, 45, 72, 75, 83, 67, 83, 58, 50, 48, 48, 49], .BIG5_HKSCS_2001),
  /- BIG5-HKSCS:1999 -/ ([66, 73, 71, 53, 45, 72, 75, 83, 67, 83, 58, 49, 57, 57, 57], .BIG5_HKSCS_1999),
  /- ISO-2022-CN -/ ([73, 83, 79, 45, 50, 48, 50, 50, 45, 67, 78], .ISO_2022_CN),
  /- ISO-2022-CN-EXT -/ ([73, 83, 79, 45, 50, 48, 50, 50, 45, 67, 78, 45, 69, 88, 84], .ISO_2022_CN_EXT),
  /- EUC-KR -/ ([69, 85, 67, 45, 75, 82], .EUC_KR),
  /- CP949 -/ ([67, 80, 57, 52, 57], .CP949),
  /- ISO-2022-KR -/ ([73, 83, 79, 45, 50, 48, 50, 50, 45, 75, 82], .ISO_2022_KR),
  /- JOHAB -/ ([74, 79, 72, 65, 66], .JOHAB),
  /- ARMSCII-8 -/ ([65, 82, 77, 83, 67, 73, 73, 45, 56], .ARMSCII_8),
  /- Georgian-Academy -/ ([71, 101, 111, 114, 103, 105, 97, 110, 45, 65, 99, 97, 100, 101, 109, 121], .Georgian_Academy),
  /- Georgian-PS -/ ([71, 101, 111, 114, 103, 105, 97, 110, 45, 80, 83], .Georgian_PS),
  /- KOI8-T -/ ([75, 79, 73, 56, 45, 84], .KOI8_T),
  /- PT154 -/ ([80, 84, 49, 53, 52], .PT154),
  /- RK1048 -/ ([82, 75, 49, 48, 52, 56], .RK1048),
  /- TIS-620 -/ ([84, 73, 83, 45, 54, 50, 48], .TIS_620),
  /- CP874 -/ ([67, 80, 56, 55, 52], .CP874),
  /- MacThai -/ ([77, 97, 99, 84, 104, 97, 105], .MacThai),
  /- MuleLao-1 -/ ([77, 117, 108, 101, 76, 97, 111, 45, 49], .MuleLao_1),
  /- CP1133 -/ ([67, 80, 49, 49, 51, 51], .CP1133),
  /- VISCII -/ ([86, 73, 83, 67, 73, 73], .VISCII),
  /- TCVN -/ ([84, 67, 86, 78], .TCVN),
  /- CP1258 -/ ([67, 80, 49, 50, 53, 56], .CP1258),
  /- HP-ROMAN8 -/ ([72, 80, 45, 82, 79, 77, 65, 78, 56], .HP_ROMAN8),
  /- NEXTSTEP -/ ([78, 69, 88, 84, 83, 84, 69, 80], .NEXTSTEP),
  /- UTF-8 -/ ([85, 84, 70, 45, 56], .UTF_8),
  /- UCS-2 -/ ([85, 67, 83, 45, 50], .UCS_2),
  /- UCS-2BE -/ ([85, 67, 83, 45, 50, 66, 69], .UCS_2BE),
  /- UCS-2LE -/ ([85, 67, 83, 45, 50, 76, 69], .UCS_2LE),
  /- UCS-4 -/ ([85, 67, 83, 45, 52], .UCS_4),
  /- UCS-4BE -/ ([85, 67, 83, 45, 52, 66, 69], .UCS_4BE),
  /- UCS-4LE -/ ([85, 67, 83, 45, 52, 76, 69], .UCS_4LE),
  /- UTF-16 -/ ([85, 84, 70, 45, 49, 54], .UTF_16),
  /- UTF-16BE -/ ([85, 84, 70, 45, 49, 54, 66, 69], .UTF_16BE),
  /- UTF-16LE -/ ([85, 84, 70, 45, 49, 54, 76, 69], .UTF_16LE),
  /- UTF-32 -/ ([85, 84, 70, 45, 51, 50], .UTF_32),
  /- UTF-32BE -/ ([85, 84, 70, 45, 51, 50, 66, 69], .UTF_32BE),
  /- UTF-32LE -/ ([85, 84, 70, 45, 51, 50, 76, 69], .UTF_32LE),
  /- UTF-7 -/ ([85, 84, 70, 45, 55], .UTF_7),
  /- C99 -/ ([67, 57, 57], .C99),
  /- JAVA -/ ([74, 65, 86, 65], .JAVA)]

/-- The table of `operator<<`: scribbu/charsets.cc L230-344. -/
def outTable : List (Encoding × Bytes) := [
  /- ASCII -/ (.ASCII, [65, 83, 67, 73, 73]),
  /- ISO-8859-1 -/ (.ISO_8859_1, [73, 83, 79, 45, 56, 56, 53, 57, 45, 49]),
  /- ISO-8859-2 -/ (.ISO_8859_2, [73, 83, 79, 45, 56, 56, 53, 57, 45, 50]),
  /- ISO-8859-3 -/ (.ISO_8859_3, [73, 83, 79, 45, 56, 56, 53, 57, 45, 51]),
  /- ISO-8859-4 -/ (.ISO_8859_4, [73, 83, 79, 45, 56, 56, 53, 57, 45, 52]),
  /- ISO-8859-5 -/ (.ISO_8859_5, [73, 83, 79, 45, 56, 56, 53, 57, 45, 53]),
  /- ISO-8859-7 -/ (.ISO_8859_7, [73, 83, 79, 45, 56, 56, 53, 57, 45, 55]),
  /- ISO-8859-9 -/ (.ISO_8859_9, [73, 83, 79, 45, 56, 56, 53, 57, 45, 57]),
  /- ISO-8859-10 -/ (.ISO_8859_10, [73, 83, 79, 45, 56, 56, 53, 57, 45, 49, 48]),
  /- ISO-8859-13 -/ (.ISO_8859_13, [73, 83, 79, 45, 56, 56, 53, 57, 45, 49, 51]),
  /- ISO-8859-14 -/ (.ISO_8859_14, [73, 83, 79, 45, 56, 56, 53, 57, 45, 49, 52]),
  /- ISO-8859-15 -/ (.ISO_8859_15, [73, 83, 79, 45, 56, 56, 53, 57, 45, 49, 53]),
  /- ISO-8859-16 -/ (.ISO_8859_16, [73, 83, 79, 45, 56, 56, 53, 57, 45, 49, 54]),
  /- KOI8-R -/ (.KOI8_R, [75, 79, 73, 56, 45, 82]),
  /- KOI8-U -/ (.KOI8_U, [75, 79, 73, 56, 45, 85]),
  /- KOI8-RU -/ (.KOI8_RU, [75, 79, 73, 56, 45, 82, 85]),
  /- CP1250 -/ (.CP1250, [67, 80, 49, 50, 53, 48]),
  /- CP1251 -/ (.CP1251, [67, 80, 49, 50, 53, 49]),
  /- CP1252 -/ (.CP1252, [67, 80, 49, 50, 53, 50]),
  /- CP1253 -/ (.CP1253, [67, 80, 49, 50, 53, 51]),
  /- CP1254 -/ (.CP1254, [67, 80, 49, 50, 53, 52]),
  /- CP1257 -/ (.CP1257, [67, 80, 49, 50, 53, 55]),
  /- CP850 -/ (.CP850, [67, 80, 56, 53, 48]),
  /- CP866 -/ (.CP866, [67, 80, 56, 54, 54]),
  /- CP1131 -/ (.CP1131, [67, 80, 49, 49, 51, 49]),
  /- MacRoman -/ (.MacRoman, [77, 97, 99, 82, 111, 109, 97, 110]),
  /- MacCentralEurope -/ (.MacCentralEurope, [77, 97, 99, 67, 101, 110, 116, 114, 97, 108, 69, 117, 114, 111, 112, 101]),
  /- MacIceland -/ (.MacIceland, [77, 97, 99, 73, 99, 101, 108, 97, 110, 100]),
  /- MacCroatian -/ (.MacCroatian, [77, 97, 99, 67, 114, 111, 97, 116, 105, 97, 110]),
  /- MacRomania -/ (.MacRomania, [77, 97, 99, 82, 111, 109, 97, 110, 105, 97]),
  /- MacCyrillic -/ (.MacCyrillic, [77, 97, 99, 67, 121, 114, 105, 108, 108, 105, 99]),
  /- MacUkraine -/ (.MacUkraine, [77, 97, 99, 85, 107, 114, 97, 105, 110, 101]),
  /- MacGreek -/ (.MacGreek, [77, 97, 99, 71, 114, 101, 101, 107]),
  /- MacTurkish -/ (.MacTurkish, [77, 97, 99, 84, 117, 114, 107, 105, 115, 104]),
  /- Macintosh -/ (.Macintosh, [77, 97, 99, 105, 110, 116, 111, 115, 104]),
  /- ISO-8859-6 -/ (.ISO_8859_6, [73, 83, 79, 45, 56, 56, 53, 57, 45, 54]),
  /- ISO-8859-8 -/ (.ISO_8859_8, [73, 83, 79, 45, 56, 56, 53, 57, 45, 56]),
  /- CP1255 -/ (.CP1255, [67, 80, 49, 50, 53, 53]),
  /- CP1256 -/ (.CP1256, [67, 80, 49, 50, 53, 54]),
  /- CP862 -/ (.CP862, [67, 80, 56, 54, 50]),
  /- MacHebrew -/ (.MacHebrew, [77, 97, 99, 72, 101, 98, 114, 101, 119]),
  /- MacArabic -/ (.MacArabic, [77, 97, 99, 65, 114, 97, 98, 105, 99]),
  /- EUC-JP -/ (.EUC_JP, [69, 85, 67, 45, 74, 80]),
  /- SHIFT-JIS -/ (.SHIFT_JIS, [83, 72, 73, 70, 84, 45, 74, 73, 83]),
  /- CP932 -/ (.CP932, [67, 80, 57, 51, 50]),
  /- ISO-2022-JP -/ (.ISO_2022_JP, [73, 83, 79, 45, 50, 48, 50, 50, 45, 74, 80]),
  /- ISO-2022-JP-2 -/ (.ISO_2022_JP_2, [73, 83, 79, 45, 50, 48, 50, 50, 45, 74, 80, 45, 50]),
  /- ISO-2022-JP-1 -/ (.ISO_2022_JP_1, [73, 83, 79, 45, 50, 48, 50, 50, 45, 74, 80, 45, 49]),
  /- ISO-2022-JP-MS -/ (.ISO_2022_JP_MS, [73, 83, 79, 45, 50, 48, 50, 50, 45, 74, 80, 45, 77, 83]),
  /- EUC-CN -/ (.EUC_CN, [69, 85, 67, 45, 67, 78]),
  /- HZ -/ (.HZ, [72, 90]),
  /- GBK -/ (.GBK, [71, 66, 75]),
  /- CP936 -/ (.CP936, [67, 80, 57, 51, 54]),
  /- GB18030 -/ (.GB18030, [71, 66, 49, 56, 48, 51, 48]),
  /- EUC-TW -/ (.EUC_TW, [69, 85, 67, 45, 84, 87]),
  /- BIG5 -/ (.BIG5, [66, 73, 71, 53]),
  /- CP950 -/ (.CP950, [67, 80, 57, 53, 48]),
  /- BIG5-HKSCS -/ (.BIG5_HKSCS, [66, 73, 71, 53, 45, 72, 75, 83, 67, 83]),
  /- BIG5-HKSCS:2004 -/ (.BIG5_HKSCS_2004, [66, 73, 71, 53, 45, 72, 75, 83, 67, 83, 58, 50, 48, 48, 52]),
  /- BIG5-HKSCS:2001 -/ (.BIG5_HKSCS_2001, [66, 73, 71, 53, 45, 72, 75, 83, 67, 83, 58, 50, 48, 48, 49]),
  /- BIG5-HKSCS:1999 -/ (.BIG5_HKSCS_1999, [66, 73, 71, 53, 45, 72, 75, 83, 67, 83, 58, 49, 57, 57, 57]),
  /- ISO-2022-CN -/ (.ISO_2022_CN, [73, 83, 79, 45, 50, 48, 50, 50, 45, 67, 78]),
  /- ISO-2022-CN-EXT -/ (.ISO_2022_CN_EXT, [73, 83, 79, 45, 50, 48, 50, 50, 45, 67, 78, 45, 69, 88, 84]),
  /- EUC-KR -/ (.EUC_KR, [69, 85, 67, 45, 75, 82]),
  /- CP949 -/ (.CP949, [67, 80, 57, 52, 57]),
  /- ISO-2022-KR -/ (.ISO_2022_KR, [73, 83, 79, 45, 50, 48, 50, 50, 45, 75, 82]),
  /- JOHAB -/ (.JOHAB, [74, 79, 72, 65, 66]),
  /- ARMSCII-8 -/ (.ARMSCII_8, [65, 82, 77, 83, 67, 73, 73, 45, 56]),
  /- Georgian-Academy -/ (.Georgian_Academy, [71, 101, 111, 114, 103, 105, 97, 110, 45, 65, 99, 97, 100, 101, 109, 121]),
  /- Georgian-PS -/ (.Georgian_PS, [71, 101, 111, 114, 103, 105, 97, 110, 45, 80, 83]),
  /- KOI8-T -/ (.KOI8_T, [75, 79, 73, 56, 45, 84]),
  /- PT154 -/ (.PT154, [80, 84, 49, 53, 52]),
  /- RK1048 -/ (.RK1048, [82, 75, 49, 48, 52, 56]),
  /- TIS-620 -/ (.TIS_620, [84, 73, 83, 45, 54, 50, 48]),
  /- CP874 -/ (.CP874, [67, 80, 56, 55, 52]),
  /- MacThai -/ (.MacThai, [77, 97, 99, 84, 104, 97, 105]),
  /- MuleLao-1 -/ (.MuleLao_1, [77, 117, 108, 101, 76, 97, 111, 45, 49]),
  /- CP1133 -/ (.CP1133, [67, 80, 49, 49, 51, 51]),
  /- VISCII -/ (.VISCII, [86, 73, 83, 67, 73, 73]),
  /- TCVN -/ (.TCVN, [84, 67, 86, 78]),
  /- CP1258 -/ (.CP1258, [67, 80, 49, 50, 53, 56]),
  /- HP-ROMAN8 -/ (.HP_ROMAN8, [72, 80, 45, 82, 79, 77, 65, 78, 56]),
  /- NEXTSTEP -/ (.NEXTSTEP, [78, 69, 88, 84, 83, 84, 69, 80]),
  /- UTF-8 -/ (.UTF_8, [85, 84, 70, 45, 56]),
  /- UCS-2 -/ (.UCS_2, [85, 67, 83, 45, 50]),
  /- UCS-2BE -/ (.UCS_2BE, [85, 67, 83, 45, 50, 66, 69]),
  /- UCS-2LE -/ (.UCS_2LE, [85, 67, 83, 45, 50, 76, 69]),
  /- UCS-4 -/ (.UCS_4, [85, 67, 83, 45, 52]),
  /- UCS-4BE -/ (.UCS_4BE, [85, 67, 83, 45, 52, 66, 69]),
  /- UCS-4LE -/ (.UCS_4LE, [85, 67, 83, 45, 52, 76, 69]),
  /- UTF-16 -/ (.UTF_16, [85, 84, 70, 45, 49, 54]),
  /- UTF-16BE -/ (.UTF_16BE, [85, 84, 70, 45, 49, 54, 66, 69]),
  /- UTF-16LE -/ (.UTF_16LE, [85, 84, 70, 45, 49, 54, 76, 69]),
  /- UTF-32 -/ (.UTF_32, [85, 84, 70, 45, 51, 50]),
  /- UTF-32BE -/ (.UTF_32BE, [85, 84, 70, 45, 51, 50, 66, 69]),
  /- UTF-32LE -/ (.UTF_32LE, [85, 84, 70, 45, 51, 50, 76, 69]),
  /- UTF-7 -/ (.UTF_7, [85, 84, 70, 45, 55]),
  /- C99 -/ (.C99, [67, 57, 57]),
  /- JAVA -/ (.JAVA, [74, 65, 86, 65])]

/-- The names given to `iconv_open`: scribbu/charsets.cc L491-605. -/
def iconvTable : List (Encoding × Bytes) := [
  /- ASCII -/ (.ASCII, [65, 83, 67, 73, 73]),
  /- ISO-8859-1 -/ (.ISO_8859_1, [73, 83, 79, 45, 56, 56, 53, 57, 45, 49]),
  /- ISO-8859-2 -/ (.ISO_8859_2, [73, 83, 79, 45, 56, 56, 53, 57, 45, 50]),
  /- ISO-8859-3 -/ (.ISO_8859_3, [73, 83, 79, 45, 56, 56, 53, 57, 45, 51]),
  /- ISO-8859-4 -/ (.ISO_8859_4, [73, 83, 79, 45, 56, 56, 53, 57, 45, 52]),
  /- ISO-8859-5 -/ (.ISO_8859_5, [73, 83, 79, 45, 56, 56, 53, 57, 45, 53]),
  /- ISO-8859-7 -/ (.ISO_8859_7, [73, 83, 79, 45, 56, 56, 53, 57, 45, 55]),
  /- ISO-8859-9 -/ (.ISO_8859_9, [73, 83, 79, 45, 56, 56, 53, 57, 45, 57]),
  /- ISO-8859-10 -/ (.ISO_8859_10, [73, 83, 79, 45, 56, 56, 53, 57, 45, 49, 48]),
  /- ISO-8859-13 -/ (.ISO_8859_13, [73, 83, 79, 45, 56, 56, 53, 57, 45, 49, 51]),
  /- ISO-8859-14 -/ (.ISO_8859_14, [73, 83, 79, 45, 56, 56, 53, 57, 45, 49, 52]),
  /- ISO-8859-15 -/ (.ISO_8859_15, [73, 83, 79, 45, 56, 56, 53, 57, 45, 49, 53]),
  /- ISO-8859-16 -/ (.ISO_8859_16, [73, 83, 79, 45, 56, 56, 53, 57, 45, 49, 54]),
  /- KOI8-R -/ (.KOI8_R, [75, 79, 73, 56, 45, 82]),
  /- KOI8-U -/ (.KOI8_U, [75, 79, 73, 56, 45, 85]),
  /- KOI8-RU -/ (.KOI8_RU, [75, 79, 73, 56, 45, 82, 85]),
  /- CP1250 -/ (.CP1250, [67, 80, 49, 50, 53, 48]),
  /- CP1251 -/ (.CP1251, [67, 80, 49, 50, 53, 49]),
  /- CP1252 -/ (.CP1252, [67, 80, 49, 50, 53, 50]),
  /- CP1253 -/ (.CP1253, [67, 80, 49, 50, 53, 51]),
  /- CP1254 -/ (.CP1254, [67, 80, 49, 50, 53, 52]),
  /- CP1257 -/ (.CP1257, [67, 80, 49, 50, 53, 55]),
  /- CP850 -/ (.CP850, [67, 80, 56, 53, 48]),
  /- CP866 -/ (.CP866, [67, 80, 56, 54, 54]),
  /- CP1131 -/ (.CP1131, [67, 80, 49, 49, 51, 49]),
  /- MacRoman -/ (.MacRoman, [77, 97, 99, 82, 111, 109, 97, 110]),
  /- MacCentralEurope -/ (.MacCentralEurope, [77, 97, 99, 67, 101, 110, 116, 114, 97, 108, 69, 117, 114, 111, 112, 101]),
  /- MacIceland -/ (.MacIceland, [77, 97, 99, 73, 99, 101, 108, 97, 110, 100]),
  /- MacCroatian -/ (.MacCroatian, [77, 97, 99, 67, 114, 111, 97, 116, 105, 97, 110]),
  /- MacRomania -/ (.MacRomania, [77, 97, 99, 82, 111, 109, 97, 110, 105, 97]),
  /- MacCyrillic -/ (.MacCyrillic, [77, 97, 99, 67, 121, 114, 105, 108, 108, 105, 99]),
  /- MacUkraine -/ (.MacUkraine, [77, 97, 99, 85, 107, 114, 97, 105, 110, 101]),
  /- MacGreek -/ (.MacGreek, [77, 97, 99, 71, 114, 101, 101, 107]),
  /- MacTurkish -/ (.MacTurkish, [77, 97, 99, 84, 117, 114, 107, 105, 115, 104]),
  /- Macintosh -/ (.Macintosh, [77, 97, 99, 105, 110, 116, 111, 115, 104]),
  /- ISO-8859-6 -/ (.ISO_8859_6, [73, 83, 79, 45, 56, 56, 53, 57, 45, 54]),
  /- ISO-8859-8 -/ (.ISO_8859_8, [73, 83, 79, 45, 56, 56, 53, 57, 45, 56]),
  /- CP1255 -/ (.CP1255, [67, 80, 49, 50, 53, 53]),
  /- CP1256 -/ (.CP1256, [67, 80, 49, 50, 53, 54]),
  /- CP862 -/ (.CP862, [67, 80, 56, 54, 50]),
  /- MacHebrew -/ (.MacHebrew, [77, 97, 99, 72, 101, 98, 114, 101, 119]),
  /- MacArabic -/ (.MacArabic, [77, 97, 99, 65, 114, 97, 98, 105, 99]),
  /- EUC-JP -/ (.EUC_JP, [69, 85, 67, 45, 74, 80]),
  /- SHIFT-JIS -/ (.SHIFT_JIS, [83, 72, 73, 70, 84, 45, 74, 73, 83]),
  /- CP932 -/ (.CP932, [67, 80, 57, 51, 50]),
  /- ISO-2022-JP -/ (.ISO_2022_JP, [73, 83, 79, 45, 50, 48, 50, 50, 45, 74, 80]),
  /- ISO-2022-JP-2 -/ (.ISO_2022_JP_2, [73, 83, 79, 45, 50, 48, 50, 50, 45, 74, 80, 45, 50]),
  /- ISO-2022-JP-1 -/ (.ISO_2022_JP_1, [73, 83, 79, 45, 50, 48, 50, 50, 45, 74, 80, 45, 49]),
  /- ISO-2022-JP-MS -/ (.ISO_2022_JP_MS, [73, 83, 79, 45, 50, 48, 50, 50, 45, 74, 80, 45, 77, 83]),
  /- EUC-CN -/ (.EUC_CN, [69, 85, 67, 45, 67, 78]),
  /- HZ -/ (.HZ, [72, 90]),
  /- GBK -/ (.GBK, [71, 66, 75]),
  /- CP936 -/ (.CP936, [67, 80, 57, 51, 54]),
  /- GB18030 -/ (.GB18030, [71, 66, 49, 56, 48, 51, 48]),
  /- EUC-TW -/ (.EUC_TW, [69, 85, 67, 45, 84, 87]),
  /- BIG5 -/ (.BIG5, [66, 73, 71, 53]),
  /- CP950 -/ (.CP950, [67, 80, 57, 53, 48]),
  /- BIG5-HKSCS -/ (.BIG5_HKSCS, [66, 73, 71, 53, 45, 72, 75, 83, 67, 83]),
  /- BIG5-HKSCS:2004 -/ (.BIG5_HKSCS_2004, [66, 73, 71, 53, 45, 72, 75, 83, 67, 83, 58, 50, 48, 48, 52]),
  /- BIG5-HKSCS:2001 -/ (.BIG5_HKSCS_2001, [66, 73, 71, 53, 45, 72, 75, 83, 67, 83, 58, 50, 48, 48, 49]),
  /- BIG5-HKSCS:1999 -/ (.BIG5_HKSCS_1999, [66, 73, 71, 53, 45, 72, 75, 83, 67, 83, 58, 49, 57, 57, 57]),
  /- ISO-2022-CN -/ (.ISO_2022_CN, [73, 83, 79, 45, 50, 48, 50, 50, 45, 67, 78]),
  /- ISO-2022-CN-EXT -/ (.ISO_2022_CN_EXT, [73, 83, 79, 45, 50, 48, 50, 50, 45, 67, 78, 45, 69, 88, 84]),
  /- EUC-KR -/ (.EUC_KR, [69, 85, 67, 45, 75, 82]),
  /- CP949 -/ (.CP949, [67, 80, 57, 52, 57]),
  /- ISO-2022-KR -/ (.ISO_2022_KR, [73, 83, 79, 45, 50, 48, 50, 50, 45, 75, 82]),
  /- JOHAB -/ (.JOHAB, [74, 79, 72, 65, 66]),
  /- ARMSCII-8 -/ (.ARMSCII_8, [65, 82, 77, 83, 67, 73, 73, 45, 56]),
  /- Georgian-Academy -/ (.Georgian_Academy, [71, 101, 111, 114, 103, 105, 97, 110, 45, 65, 99, 97, 100, 101, 109, 121]),
  /- Georgian-PS -/ (.Georgian_PS, [71, 101, 111, 114, 103, 105, 97, 110, 45, 80, 83]),
  /- KOI8-T -/ (.KOI8_T, [75, 79, 73, 56, 45, 84]),
  /- PT154 -/ (.PT154, [80, 84, 49, 53, 52]),
  /- RK1048 -/ (.RK1048, [82, 75, 49, 48, 52, 56]),
  /- TIS-620 -/ (.TIS_620, [84, 73, 83, 45, 54, 50, 48]),
  /- CP874 -/ (.CP874, [67, 80, 56, 55, 52]),
  /- MacThai -/ (.MacThai, [77, 97, 99, 84, 104, 97, 105]),
  /- MuleLao-1 -/ (.MuleLao_1, [77, 117, 108, 101, 76, 97, 111, 45, 49]),
  /- CP1133 -/ (.CP1133, [67, 80, 49, 49, 51, 51]),
  /- VISCII -/ (.VISCII, [86, 73, 83, 67, 73, 73]),
  /- TCVN -/ (.TCVN, [84, 67, 86, 78]),
  /- CP1258 -/ (.CP1258, [67, 80, 49, 50, 53, 56]),
  /- HP-ROMAN8 -/ (.HP_ROMAN8, [72, 80, 45, 82, 79, 77, 65, 78, 56]),
  /- NEXTSTEP -/ (.NEXTSTEP, [78, 69, 88, 84, 83, 84, 69, 80]),
  /- UTF-8 -/ (.UTF_8, [85, 84, 70, 45, 56]),
  /- UCS-2 -/ (.UCS_2, [85, 67, 83, 45, 50]),
  /- UCS-2BE -/ (.UCS_2BE, [85, 67, 83, 45, 50, 66, 69]),
  /- UCS-2LE -/ (.UCS_2LE, [85, 67, 83, 45, 50, 76, 69]),
  /- UCS-4 -/ (.UCS_4, [85, 67, 83, 45, 52]),
  /- UCS-4BE -/ (.UCS_4BE, [85, 67, 83, 45, 52, 66, 69]),
  /- UCS-4LE -/ (.UCS_4LE, [85, 67, 83, 45, 52, 76, 69]),
  /- UTF-16 -/ (.UTF_16, [85, 84, 70, 45, 49, 54]),
  /- UTF-16BE -/ (.UTF_16BE, [85, 84, 70, 45, 49, 54, 66, 69]),
  /- UTF-16LE -/ (.UTF_16LE, [85, 84, 70, 45, 49, 54, 76, 69]),
  /- UTF-32 -/ (.UTF_32, [85, 84, 70, 45, 51, 50]),
  /- UTF-32BE -/ (.UTF_32BE, [85, 84, 70, 45, 51, 50, 66, 69]),
  /- UTF-32LE -/ (.UTF_32LE, [85, 84, 70, 45, 51, 50, 76, 69]),
  /- UTF-7 -/ (.UTF_7, [85, 84, 70, 45, 55]),
  /- C99 -/ (.C99, [67, 57, 57]),
  /- JAVA -/ (.JAVA, [74, 65, 86, 65])]

/-- The table of `encoding_from_locale_name`: scribbu/charsets.cc L43-79. -/
def localeTable : List (Bytes × Encoding) := [
  /- ASCII -/ ([65, 83, 67, 73, 73], .ASCII),
  /- US-ASCII -/ ([85, 83, 45, 65, 83, 67, 73, 73], .ASCII),
  /- UTF-8 -/ ([85, 84, 70, 45, 56], .UTF_8),
  /- utf8 -/ ([117, 116, 102, 56], .UTF_8),
  /- ISO8859-1 -/ ([73, 83, 79, 56, 56, 53, 57, 45, 49], .ISO_8859_1),
  /- ISO8859-2 -/ ([73, 83, 79, 56, 56, 53, 57, 45, 50], .ISO_8859_2),
  /- ISO8859-3 -/ ([73, 83, 79, 56, 56, 53, 57, 45, 51], .ISO_8859_3),
  /- ISO8859-4 -/ ([73, 83, 79, 56, 56, 53, 57, 45, 52], .ISO_8859_4),
  /- ISO8859-5 -/ ([73, 83, 79, 56, 56, 53, 57, 45, 53], .ISO_8859_5),
  /- ISO8859-7 -/ ([73, 83, 79, 56, 56, 53, 57, 45, 55], .ISO_8859_7),
  /- ISO8859-9 -/ ([73, 83, 79, 56, 56, 53, 57, 45, 57], .ISO_8859_9),
  /- ISO8859-10 -/ ([73, 83, 79, 56, 56, 53, 57, 45, 49, 48], .ISO_8859_10),
  /- ISO8859-13 -/ ([73, 83, 79, 56, 56, 53, 57, 45, 49, 51], .ISO_8859_13),
  /- ISO8859-14 -/ ([73, 83, 79, 56, 56, 53, 57, 45, 49, 52], .ISO_8859_14),
  /- ISO8859-15 -/ ([73, 83, 79, 56, 56, 53, 57, 45, 49, 53], .ISO_8859_15),
  /- ISO8859-16 -/ ([73, 83, 79, 56, 56, 53, 57, 45, 49, 54], .ISO_8859_16),
  /- CP1131 -/ ([67, 80, 49, 49, 51, 49], .CP1131),
  /- CP1133 -/ ([67, 80, 49, 49, 51, 51], .CP1133),
  /- CP1250, -/ ([67, 80, 49, 50, 53, 48, 44], .CP1250),
  /- CP1251 -/ ([67, 80, 49, 50, 53, 49], .CP1251),
  /- CP1252, -/ ([67, 80, 49, 50, 53, 50, 44], .CP1252),
  /- CP1253, -/ ([67, 80, 49, 50, 53, 51, 44], .CP1253),
  /- CP1254, -/ ([67, 80, 49, 50, 53, 52, 44], .CP1254),
  /- CP1255, -/ ([67, 80, 49, 50, 53, 53, 44], .CP1255),
  /- CP1256, -/ ([67, 80, 49, 50, 53, 54, 44], .CP1256),
  /- CP1257, -/ ([67, 80, 49, 50, 53, 55, 44], .CP1257),
  /- CP1258 -/ ([67, 80, 49, 50, 53, 56], .CP1258),
  /- CP850, -/ ([67, 80, 56, 53, 48, 44], .CP850),
  /- CP862, -/ ([67, 80, 56, 54, 50, 44], .CP862),
  /- CP866, -/ ([67, 80, 56, 54, 54, 44], .CP866),
  /- CP874 -/ ([67, 80, 56, 55, 52], .CP874),
  /- CP932 -/ ([67, 80, 57, 51, 50], .CP932),
  /- CP936 -/ ([67, 80, 57, 51, 54], .CP936),
  /- CP949 -/ ([67, 80, 57, 52, 57], .CP949),
  /- CP950 -/ ([67, 80, 57, 53, 48], .CP950)]

/-- The set in `char_traits<char>::is_code_unit`: scribbu/charsets.cc L383. -/
def notChar : List Encoding := [.UCS_2, .UCS_2BE, .UCS_2LE, .UCS_4, .UCS_4BE, .UCS_4LE, .UTF_16, .UTF_16BE, .UTF_16LE, .UTF_32, .UTF_32BE, .UTF_32LE, .UTF_7, .C99, .JAVA]

/-- The set in `char_traits<wchar_t>::is_code_unit`: scribbu/charsets.cc L409. -/
def wchar : List Encoding := [.UCS_4, .UCS_4BE, .UCS_4LE, .UTF_32, .UTF_32BE, .UTF_32LE]

/-- The set in `char_traits<char16_t>::is_code_unit`: scribbu/charsets.cc L426. -/
def char16 : List Encoding := [.UCS_2, .UCS_2BE, .UCS_2LE, .UCS_4, .UCS_4BE, .UCS_4LE, .UTF_16, .UTF_16BE, .UTF_16LE]

/-- The set in `char_traits<char32_t>::is_code_unit`: scribbu/charsets.cc L446. -/
def char32 : List Encoding := [.UCS_4, .UCS_4BE, .UCS_4LE, .UTF_32, .UTF_32BE, .UTF_32LE]

end Encoding
end Scribbu
