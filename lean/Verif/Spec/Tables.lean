import Verif.Model.TextFrame

/-! # Identifiers of text frames in the standards, ISO 639 codes

Written down from the standards (id3v2-00 section 4.2, id3v2.3.0 section 4.2, ISO 639), not from the code. -/

namespace Scribbu.Spec

/-- Identifiers of text frames in ID3v2.3. -/
def stdId4 : List (TextFrame × Bytes) := [
  /- TALB -/ (.talb, [84, 65, 76, 66]),
  /- TBPM -/ (.tbpm, [84, 66, 80, 77]),
  /- TCOM -/ (.tcom, [84, 67, 79, 77]),
  /- TCON -/ (.tcon, [84, 67, 79, 78]),
  /- TCOP -/ (.tcop, [84, 67, 79, 80]),
  /- TDAT -/ (.tdat, [84, 68, 65, 84]),
  /- TDLY -/ (.tdly, [84, 68, 76, 89]),
  /- TENC -/ (.tenc, [84, 69, 78, 67]),
  /- TEXT -/ (.textw, [84, 69, 88, 84]),
  /- TFLT -/ (.tflt, [84, 70, 76, 84]),
  /- TIME -/ (.timeR, [84, 73, 77, 69]),
  /- TIT1 -/ (.tit1, [84, 73, 84, 49]),
  /- TIT2 -/ (.tit2, [84, 73, 84, 50]),
  /- TIT3 -/ (.tit3, [84, 73, 84, 51]),
  /- TKEY -/ (.tkey, [84, 75, 69, 89]),
  /- TLAN -/ (.tlan, [84, 76, 65, 78]),
  /- TLEN -/ (.tlen, [84, 76, 69, 78]),
  /- TMED -/ (.tmed, [84, 77, 69, 68]),
  /- TOAL -/ (.toal, [84, 79, 65, 76]),
  /- TOFN -/ (.tofn, [84, 79, 70, 78]),
  /- TOLY -/ (.toly, [84, 79, 76, 89]),
  /- TOPE -/ (.tope, [84, 79, 80, 69]),
  /- TORY -/ (.tory, [84, 79, 82, 89]),
  /- TOWN -/ (.town, [84, 79, 87, 78]),
  /- TPE1 -/ (.tpe1, [84, 80, 69, 49]),
  /- TPE2 -/ (.tpe2, [84, 80, 69, 50]),
  /- TPE3 -/ (.tpe3, [84, 80, 69, 51]),
  /- TPE4 -/ (.tpe4, [84, 80, 69, 52]),
  /- TPOS -/ (.tpos, [84, 80, 79, 83]),
  /- TPUB -/ (.tpub, [84, 80, 85, 66]),
  /- TRCK -/ (.trck, [84, 82, 67, 75]),
  /- TRDA -/ (.trda, [84, 82, 68, 65]),
  /- TRSN -/ (.trsn, [84, 82, 83, 78]),
  /- TRSO -/ (.trso, [84, 82, 83, 79]),
  /- TSIZ -/ (.tsiz, [84, 83, 73, 90]),
  /- TSRC -/ (.tsrc, [84, 83, 82, 67]),
  /- TSSE -/ (.tsse, [84, 83, 83, 69]),
  /- TYER -/ (.tyer, [84, 89, 69, 82])]

/-- Identifiers of text frames in ID3v2.2, for those it has. -/
def stdId3 : List (TextFrame × Bytes) := [
  /- TAL -/ (.talb, [84, 65, 76]),
  /- TBP -/ (.tbpm, [84, 66, 80]),
  /- TCM -/ (.tcom, [84, 67, 77]),
  /- TCO -/ (.tcon, [84, 67, 79]),
  /- TCR -/ (.tcop, [84, 67, 82]),
  /- TDA -/ (.tdat, [84, 68, 65]),
  /- TDY -/ (.tdly, [84, 68, 89]),
  /- TEN -/ (.tenc, [84, 69, 78]),
  /- TXT -/ (.textw, [84, 88, 84]),
  /- TFT -/ (.tflt, [84, 70, 84]),
  /- TIM -/ (.timeR, [84, 73, 77]),
  /- TT1 -/ (.tit1, [84, 84, 49]),
  /- TT2 -/ (.tit2, [84, 84, 50]),
  /- TT3 -/ (.tit3, [84, 84, 51]),
  /- TKE -/ (.tkey, [84, 75, 69]),
  /- TLA -/ (.tlan, [84, 76, 65]),
  /- TLE -/ (.tlen, [84, 76, 69]),
  /- TMT -/ (.tmed, [84, 77, 84]),
  /- TOT -/ (.toal, [84, 79, 84]),
  /- TOF -/ (.tofn, [84, 79, 70]),
  /- TOL -/ (.toly, [84, 79, 76]),
  /- TOA -/ (.tope, [84, 79, 65]),
  /- TOR -/ (.tory, [84, 79, 82]),
  /- TP1 -/ (.tpe1, [84, 80, 49]),
  /- TP2 -/ (.tpe2, [84, 80, 50]),
  /- TP3 -/ (.tpe3, [84, 80, 51]),
  /- TP4 -/ (.tpe4, [84, 80, 52]),
  /- TPA -/ (.tpos, [84, 80, 65]),
  /- TPB -/ (.tpub, [84, 80, 66]),
  /- TRK -/ (.trck, [84, 82, 75]),
  /- TRD -/ (.trda, [84, 82, 68]),
  /- TSI -/ (.tsiz, [84, 83, 73]),
  /- TRC -/ (.tsrc, [84, 82, 67]),
  /- TSS -/ (.tsse, [84, 83, 83]),
  /- TYE -/ (.tyer, [84, 89, 69])]

/-- ISO 639: the code of two letters, and those of three (bibliographic, terminological). -/
def iso639 : List (Bytes × Bytes × Bytes) := [
  /- aa:aar -/ ([97, 97], [97, 97, 114], [97, 97, 114]),
  /- ab:abk -/ ([97, 98], [97, 98, 107], [97, 98, 107]),
  /- af:afr -/ ([97, 102], [97, 102, 114], [97, 102, 114]),
  /- ak:aka -/ ([97, 107], [97, 107, 97], [97, 107, 97]),
  /- sq:alb:sqi -/ ([115, 113], [97, 108, 98], [115, 113, 105]),
  /- am:amh -/ ([97, 109], [97, 109, 104], [97, 109, 104]),
  /- ar:ara -/ ([97, 114], [97, 114, 97], [97, 114, 97]),
  /- an:arg -/ ([97, 110], [97, 114, 103], [97, 114, 103]),
  /- hy:arm:hye -/ ([104, 121], [97, 114, 109], [104, 121, 101]),
  /- as:asm -/ ([97, 115], [97, 115, 109], [97, 115, 109]),
  /- av:ava -/ ([97, 118], [97, 118, 97], [97, 118, 97]),
  /- ae:ave -/ ([97, 101], [97, 118, 101], [97, 118, 101]),
  /- ay:aym -/ ([97, 121], [97, 121, 109], [97, 121, 109]),
  /- az:aze -/ ([97, 122], [97, 122, 101], [97, 122, 101]),
  /- ba:bak -/ ([98, 97], [98, 97, 107], [98, 97, 107]),
  /- bm:bam -/ ([98, 109], [98, 97, 109], [98, 97, 109]),
  /- eu:baq:eus -/ ([101, 117], [98, 97, 113], [101, 117, 115]),
  /- be:bel -/ ([98, 101], [98, 101, 108], [98, 101, 108]),
  /- bn:ben -/ ([98, 110], [98, 101, 110], [98, 101, 110]),
  /- bh:bih -/ ([98, 104], [98, 105, 104], [98, 105, 104]),
  /- bi:bis -/ ([98, 105], [98, 105, 115], [98, 105, 115]),
  /- bo:tib:bod -/ ([98, 111], [116, 105, 98], [98, 111, 100]),
  /- bs:bos -/ ([98, 115], [98, 111, 115], [98, 111, 115]),
  /- br:bre -/ ([98, 114], [98, 114, 101], [98, 114, 101]),
  /- bg:bul -/ ([98, 103], [98, 117, 108], [98, 117, 108]),
  /- my:bur:mya -/ ([109, 121], [98, 117, 114], [109, 121, 97]),
  /- ca:cat -/ ([99, 97], [99, 97, 116], [99, 97, 116]),
  /- cs:cze:ces -/ ([99, 115], [99, 122, 101], [99, 101, 115]),
  /- ch:cha -/ ([99, 104], [99, 104, 97], [99, 104, 97]),
  /- ce:che -/ ([99, 101], [99, 104, 101], [99, 104, 101]),
  /- zh:chi:zho -/ ([122, 104], [99, 104, 105], [122, 104, 111]),
  /- cu:chu -/ ([99, 117], [99, 104, 117], [99, 104, 117]),
  /- cv:chv -/ ([99, 118], [99, 104, 118], [99, 104, 118]),
  /- kw:cor -/ ([107, 119], [99, 111, 114], [99, 111, 114]),
  /- co:cos -/ ([99, 111], [99, 111, 115], [99, 111, 115]),
  /- cr:cre -/ ([99, 114], [99, 114, 101], [99, 114, 101]),
  /- cy:wel:cym -/ ([99, 121], [119, 101, 108], [99, 121, 109]),
  /- da:dan -/ ([100, 97], [100, 97, 110], [100, 97, 110]),
  /- de:ger:deu -/ ([100, 101], [103, 101, 114], [100, 101, 117]),
  /- dv:div -/ ([100, 118], [100, 105, 118], [100, 105, 118]),
  /- nl:dut:nld -/ ([110, 108], [100, 117, 116], [110, 108, 100]),
  /- dz:dzo -/ ([100, 122], [100, 122, 111], [100, 122, 111]),
  /- el:gre:ell -/ ([101, 108], [103, 114, 101], [101, 108, 108]),
  /- en:eng -/ ([101, 110], [101, 110, 103], [101, 110, 103]),
  /- eo:epo -/ ([101, 111], [101, 112, 111], [101, 112, 111]),
  /- et:est -/ ([101, 116], [101, 115, 116], [101, 115, 116]),
  /- ee:ewe -/ ([101, 101], [101, 119, 101], [101, 119, 101]),
  /- fo:fao -/ ([102, 111], [102, 97, 111], [102, 97, 111]),
  /- fa:per:fas -/ ([102, 97], [112, 101, 114], [102, 97, 115]),
  /- fj:fij -/ ([102, 106], [102, 105, 106], [102, 105, 106]),
  /- fi:fin -/ ([102, 105], [102, 105, 110], [102, 105, 110]),
  /- fr:fre:fra -/ ([102, 114], [102, 114, 101], [102, 114, 97]),
  /- fy:fry -/ ([102, 121], [102, 114, 121], [102, 114, 121]),
  /- ff:ful -/ ([102, 102], [102, 117, 108], [102, 117, 108]),
  /- ka:geo:kat -/ ([107, 97], [103, 101, 111], [107, 97, 116]),
  /- gd:gla -/ ([103, 100], [103, 108, 97], [103, 108, 97]),
  /- ga:gle -/ ([103, 97], [103, 108, 101], [103, 108, 101]),
  /- gl:glg -/ ([103, 108], [103, 108, 103], [103, 108, 103]),
  /- gv:glv -/ ([103, 118], [103, 108, 118], [103, 108, 118]),
  /- gn:grn -/ ([103, 110], [103, 114, 110], [103, 114, 110]),
  /- gu:guj -/ ([103, 117], [103, 117, 106], [103, 117, 106]),
  /- ht:hat -/ ([104, 116], [104, 97, 116], [104, 97, 116]),
  /- ha:hau -/ ([104, 97], [104, 97, 117], [104, 97, 117]),
  /- he:heb -/ ([104, 101], [104, 101, 98], [104, 101, 98]),
  /- hz:her -/ ([104, 122], [104, 101, 114], [104, 101, 114]),
  /- hi:hin -/ ([104, 105], [104, 105, 110], [104, 105, 110]),
  /- ho:hmo -/ ([104, 111], [104, 109, 111], [104, 109, 111]),
  /- hr:hrv -/ ([104, 114], [104, 114, 118], [104, 114, 118]),
  /- hu:hun -/ ([104, 117], [104, 117, 110], [104, 117, 110]),
  /- ig:ibo -/ ([105, 103], [105, 98, 111], [105, 98, 111]),
  /- is:ice:isl -/ ([105, 115], [105, 99, 101], [105, 115, 108]),
  /- io:ido -/ ([105, 111], [105, 100, 111], [105, 100, 111]),
  /- ii:iii -/ ([105, 105], [105, 105, 105], [105, 105, 105]),
  /- iu:iku -/ ([105, 117], [105, 107, 117], [105, 107, 117]),
  /- ie:ile -/ ([105, 101], [105, 108, 101], [105, 108, 101]),
  /- ia:ina -/ ([105, 97], [105, 110, 97], [105, 110, 97]),
  /- id:ind -/ ([105, 100], [105, 110, 100], [105, 110, 100]),
  /- ik:ipk -/ ([105, 107], [105, 112, 107], [105, 112, 107]),
  /- it:ita -/ ([105, 116], [105, 116, 97], [105, 116, 97]),
  /- jv:jav -/ ([106, 118], [106, 97, 118], [106, 97, 118]),
  /- ja:jpn -/ ([106, 97], [106, 112, 110], [106, 112, 110]),
  /- kl:kal -/ ([107, 108], [107, 97, 108], [107, 97, 108]),
  /- kn:kan -/ ([107, 110], [107, 97, 110], [107, 97, 110]),
  /- ks:kas -/ ([107, 115], [107, 97, 115], [107, 97, 115]),
  /- kr:kau -/ ([107, 114], [107, 97, 117], [107, 97, 117]),
  /- kk:kaz -/ ([107, 107], [107, 97, 122], [107, 97, 122]),
  /- km:khm -/ ([107, 109], [107, 104, 109], [107, 104, 109]),
  /- ki:kik -/ ([107, 105], [107, 105, 107], [107, 105, 107]),
  /- rw:kin -/ ([114, 119], [107, 105, 110], [107, 105, 110]),
  /- ky:kir -/ ([107, 121], [107, 105, 114], [107, 105, 114]),
  /- kv:kom -/ ([107, 118], [107, 111, 109], [107, 111, 109]),
  /- kg:kon -/ ([107, 103], [107, 111, 110], [107, 111, 110]),
  /- ko:kor -/ ([107, 111], [107, 111, 114], [107, 111, 114]),
  /- kj:kua -/ ([107, 106], [107, 117, 97], [107, 117, 97]),
  /- ku:kur -/ ([107, 117], [107, 117, 114], [107, 117, 114]),
  /- lo:lao -/ ([108, 111], [108, 97, 111], [108, 97, 111]),
  /- la:lat -/ ([108, 97], [108, 97, 116], [108, 97, 116]),
  /- lv:lav -/ ([108, 118], [108, 97, 118], [108, 97, 118]),
  /- li:lim -/ ([108, 105], [108, 105, 109], [108, 105, 109]),
  /- ln:lin -/ ([108, 110], [108, 105, 110], [108, 105, 110]),
  /- lt:lit -/ ([108, 116], [108, 105, 116], [108, 105, 116]),
  /- lb:ltz -/ ([108, 98], [108, 116, 122], [108, 116, 122]),
  /- lu:lub -/ ([108, 117], [108, 117, 98], [108, 117, 98]),
  /- lg:lug -/ ([108, 103], [108, 117, 103], [108, 117, 103]),
  /- mk:mac:mkd -/ ([109, 107], [109, 97, 99], [109, 107, 100]),
  /- mh:mah -/ ([109, 104], [109, 97, 104], [109, 97, 104]),
  /- ml:mal -/ ([109, 108], [109, 97, 108], [109, 97, 108]),
  /- mi:mao:mri -/ ([109, 105], [109, 97, 111], [109, 114, 105]),
  /- mr:mar -/ ([109, 114], [109, 97, 114], [109, 97, 114]),
  /- ms:may:msa -/ ([109, 115], [109, 97, 121], [109, 115, 97]),
  /- mg:mlg -/ ([109, 103], [109, 108, 103], [109, 108, 103]),
  /- mt:mlt -/ ([109, 116], [109, 108, 116], [109, 108, 116]),
  /- mn:mon -/ ([109, 110], [109, 111, 110], [109, 111, 110]),
  /- na:nau -/ ([110, 97], [110, 97, 117], [110, 97, 117]),
  /- nv:nav -/ ([110, 118], [110, 97, 118], [110, 97, 118]),
  /- nr:nbl -/ ([110, 114], [110, 98, 108], [110, 98, 108]),
  /- nd:nde -/ ([110, 100], [110, 100, 101], [110, 100, 101]),
  /- ng:ndo -/ ([110, 103], [110, 100, 111], [110, 100, 111]),
  /- ne:nep -/ ([110, 101], [110, 101, 112], [110, 101, 112]),
  /- nn:nno -/ ([110, 110], [110, 110, 111], [110, 110, 111]),
  /- nb:nob -/ ([110, 98], [110, 111, 98], [110, 111, 98]),
  /- no:nor -/ ([110, 111], [110, 111, 114], [110, 111, 114]),
  /- ny:nya -/ ([110, 121], [110, 121, 97], [110, 121, 97]),
  /- oc:oci -/ ([111, 99], [111, 99, 105], [111, 99, 105]),
  /- oj:oji -/ ([111, 106], [111, 106, 105], [111, 106, 105]),
  /- or:ori -/ ([111, 114], [111, 114, 105], [111, 114, 105]),
  /- om:orm -/ ([111, 109], [111, 114, 109], [111, 114, 109]),
  /- os:oss -/ ([111, 115], [111, 115, 115], [111, 115, 115]),
  /- pa:pan -/ ([112, 97], [112, 97, 110], [112, 97, 110]),
  /- pi:pli -/ ([112, 105], [112, 108, 105], [112, 108, 105]),
  /- pl:pol -/ ([112, 108], [112, 111, 108], [112, 111, 108]),
  /- pt:por -/ ([112, 116], [112, 111, 114], [112, 111, 114]),
  /- ps:pus -/ ([112, 115], [112, 117, 115], [112, 117, 115]),
  /- qu:que -/ ([113, 117], [113, 117, 101], [113, 117, 101]),
  /- rm:roh -/ ([114, 109], [114, 111, 104], [114, 111, 104]),
  /- ro:rum:ron -/ ([114, 111], [114, 117, 109], [114, 111, 110]),
  /- rn:run -/ ([114, 110], [114, 117, 110], [114, 117, 110]),
  /- ru:rus -/ ([114, 117], [114, 117, 115], [114, 117, 115]),
  /- sg:sag -/ ([115, 103], [115, 97, 103], [115, 97, 103]),
  /- sa:san -/ ([115, 97], [115, 97, 110], [115, 97, 110]),
  /- si:sin -/ ([115, 105], [115, 105, 110], [115, 105, 110]),
  /- sk:slo:slk -/ ([115, 107], [115, 108, 111], [115, 108, 107]),
  /- sl:slv -/ ([115, 108], [115, 108, 118], [115, 108, 118]),
  /- se:sme -/ ([115, 101], [115, 109, 101], [115, 109, 101]),
  /- sm:smo -/ ([115, 109], [115, 109, 111], [115, 109, 111]),
  /- sn:sna -/ ([115, 110], [115, 110, 97], [115, 110, 97]),
  /- sd:snd -/ ([115, 100], [115, 110, 100], [115, 110, 100]),
  /- so:som -/ ([115, 111], [115, 111, 109], [115, 111, 109]),
  /- st:sot -/ ([115, 116], [115, 111, 116], [115, 111, 116]),
  /- es:spa -/ ([101, 115], [115, 112, 97], [115, 112, 97]),
  /- sc:srd -/ ([115, 99], [115, 114, 100], [115, 114, 100]),
  /- sr:srp -/ ([115, 114], [115, 114, 112], [115, 114, 112]),
  /- ss:ssw -/ ([115, 115], [115, 115, 119], [115, 115, 119]),
  /- su:sun -/ ([115, 117], [115, 117, 110], [115, 117, 110]),
  /- sw:swa -/ ([115, 119], [115, 119, 97], [115, 119, 97]),
  /- sv:swe -/ ([115, 118], [115, 119, 101], [115, 119, 101]),
  /- ty:tah -/ ([116, 121], [116, 97, 104], [116, 97, 104]),
  /- ta:tam -/ ([116, 97], [116, 97, 109], [116, 97, 109]),
  /- tt:tat -/ ([116, 116], [116, 97, 116], [116, 97, 116]),
  /- te:tel -/ ([116, 101], [116, 101, 108], [116, 101, 108]),
  /- tg:tgk -/ ([116, 103], [116, 103, 107], [116, 103, 107]),
  /- tl:tgl -/ ([116, 108], [116, 103, 108], [116, 103, 108]),
  /- th:tha -/ ([116, 104], [116, 104, 97], [116, 104, 97]),
  /- ti:tir -/ ([116, 105], [116, 105, 114], [116, 105, 114]),
  /- to:ton -/ ([116, 111], [116, 111, 110], [116, 111, 110]),
  /- tn:tsn -/ ([116, 110], [116, 115, 110], [116, 115, 110]),
  /- ts:tso -/ ([116, 115], [116, 115, 111], [116, 115, 111]),
  /- tk:tuk -/ ([116, 107], [116, 117, 107], [116, 117, 107]),
  /- tr:tur -/ ([116, 114], [116, 117, 114], [116, 117, 114]),
  /- tw:twi -/ ([116, 119], [116, 119, 105], [116, 119, 105]),
  /- ug:uig -/ ([117, 103], [117, 105, 103], [117, 105, 103]),
  /- uk:ukr -/ ([117, 107], [117, 107, 114], [117, 107, 114]),
  /- ur:urd -/ ([117, 114], [117, 114, 100], [117, 114, 100]),
  /- uz:uzb -/ ([117, 122], [117, 122, 98], [117, 122, 98]),
  /- ve:ven -/ ([118, 101], [118, 101, 110], [118, 101, 110]),
  /- vi:vie -/ ([118, 105], [118, 105, 101], [118, 105, 101]),
  /- vo:vol -/ ([118, 111], [118, 111, 108], [118, 111, 108]),
  /- wa:wln -/ ([119, 97], [119, 108, 110], [119, 108, 110]),
  /- wo:wol -/ ([119, 111], [119, 111, 108], [119, 111, 108]),
  /- xh:xho -/ ([120, 104], [120, 104, 111], [120, 104, 111]),
  /- yi:yid -/ ([121, 105], [121, 105, 100], [121, 105, 100]),
  /- yo:yor -/ ([121, 111], [121, 111, 114], [121, 111, 114]),
  /- za:zha -/ ([122, 97], [122, 104, 97], [122, 104, 97]),
  /- zu:zul -/ ([122, 117], [122, 117, 108], [122, 117, 108])]

end Scribbu.Spec
