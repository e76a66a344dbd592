import Verif.Model.TextFrame

/-!
# Languages (scribbu/charsets.hh, scribbu/charsets.cc)

The tables are transcribed from the source by a script, entry by entry.
-/

namespace Scribbu

/-- `enum class language`: scribbu/charsets.hh L274-784, by position: 0 is `from_locale`, the others are as in `Language.enums`. -/
abbrev Language := Nat

namespace Language

/-- `language::from_locale`. -/
def fromLocale : Language := 0

/-- The enumerators but for `from_locale`, in order: scribbu/charsets.hh L277-783. -/
def enums : List Bytes := [
  /- 1 aar -/ [97, 97, 114],
  /- 2 abk -/ [97, 98, 107],
  /- 3 ace -/ [97, 99, 101],
  /- 4 ach -/ [97, 99, 104],
  /- 5 ada -/ [97, 100, 97],
  /- 6 ady -/ [97, 100, 121],
  /- 7 afa -/ [97, 102, 97],
  /- 8 afh -/ [97, 102, 104],
  /- 9 afr -/ [97, 102, 114],
  /- 10 ain -/ [97, 105, 110],
  /- 11 aka -/ [97, 107, 97],
  /- 12 akk -/ [97, 107, 107],
  /- 13 alb -/ [97, 108, 98],
  /- 14 ale -/ [97, 108, 101],
  /- 15 alg -/ [97, 108, 103],
  /- 16 alt -/ [97, 108, 116],
  /- 17 amh -/ [97, 109, 104],
  /- 18 ang -/ [97, 110, 103],
  /- 19 anp -/ [97, 110, 112],
  /- 20 apa -/ [97, 112, 97],
  /- 21 ara -/ [97, 114, 97],
  /- 22 arc -/ [97, 114, 99],
  /- 23 arg -/ [97, 114, 103],
  /- 24 arm -/ [97, 114, 109],
  /- 25 arn -/ [97, 114, 110],
  /- 26 arp -/ [97, 114, 112],
  /- 27 art -/ [97, 114, 116],
  /- 28 arw -/ [97, 114, 119],
  /- 29 ASM -/ [65, 83, 77],
  /- 30 ast -/ [97, 115, 116],
  /- 31 ath -/ [97, 116, 104],
  /- 32 aus -/ [97, 117, 115],
  /- 33 ava -/ [97, 118, 97],
  /- 34 ave -/ [97, 118, 101],
  /- 35 awa -/ [97, 119, 97],
  /- 36 aym -/ [97, 121, 109],
  /- 37 aze -/ [97, 122, 101],
  /- 38 bad -/ [98, 97, 100],
  /- 39 bai -/ [98, 97, 105],
  /- 40 bak -/ [98, 97, 107],
  /- 41 bal -/ [98, 97, 108],
  /- 42 bam -/ [98, 97, 109],
  /- 43 ban -/ [98, 97, 110],
  /- 44 baq -/ [98, 97, 113],
  /- 45 bas -/ [98, 97, 115],
  /- 46 bat -/ [98, 97, 116],
  /- 47 bej -/ [98, 101, 106],
  /- 48 bel -/ [98, 101, 108],
  /- 49 bem -/ [98, 101, 109],
  /- 50 ben -/ [98, 101, 110],
  /- 51 ber -/ [98, 101, 114],
  /- 52 bho -/ [98, 104, 111],
  /- 53 bih -/ [98, 105, 104],
  /- 54 bik -/ [98, 105, 107],
  /- 55 bin -/ [98, 105, 110],
  /- 56 bis -/ [98, 105, 115],
  /- 57 bla -/ [98, 108, 97],
  /- 58 bnt -/ [98, 110, 116],
  /- 59 bod -/ [98, 111, 100],
  /- 60 bos -/ [98, 111, 115],
  /- 61 bra -/ [98, 114, 97],
  /- 62 bre -/ [98, 114, 101],
  /- 63 btk -/ [98, 116, 107],
  /- 64 bua -/ [98, 117, 97],
  /- 65 bug -/ [98, 117, 103],
  /- 66 bul -/ [98, 117, 108],
  /- 67 bur -/ [98, 117, 114],
  /- 68 byn -/ [98, 121, 110],
  /- 69 cad -/ [99, 97, 100],
  /- 70 cai -/ [99, 97, 105],
  /- 71 car -/ [99, 97, 114],
  /- 72 cat -/ [99, 97, 116],
  /- 73 cau -/ [99, 97, 117],
  /- 74 ceb -/ [99, 101, 98],
  /- 75 cel -/ [99, 101, 108],
  /- 76 ces -/ [99, 101, 115],
  /- 77 cha -/ [99, 104, 97],
  /- 78 chb -/ [99, 104, 98],
  /- 79 che -/ [99, 104, 101],
  /- 80 chg -/ [99, 104, 103],
  /- 81 chi -/ [99, 104, 105],
  /- 82 chk -/ [99, 104, 107],
  /- 83 chm -/ [99, 104, 109],
  /- 84 chn -/ [99, 104, 110],
  /- 85 cho -/ [99, 104, 111],
  /- 86 chp -/ [99, 104, 112],
  /- 87 chr -/ [99, 104, 114],
  /- 88 chu -/ [99, 104, 117],
  /- 89 chv -/ [99, 104, 118],
  /- 90 chy -/ [99, 104, 121],
  /- 91 cmc -/ [99, 109, 99],
  /- 92 cnr -/ [99, 110, 114],
  /- 93 cop -/ [99, 111, 112],
  /- 94 cor -/ [99, 111, 114],
  /- 95 cos -/ [99, 111, 115],
  /- 96 cpe -/ [99, 112, 101],
  /- 97 cpf -/ [99, 112, 102],
  /- 98 cpp -/ [99, 112, 112],
  /- 99 cre -/ [99, 114, 101],
  /- 100 crh -/ [99, 114, 104],
  /- 101 crp -/ [99, 114, 112],
  /- 102 csb -/ [99, 115, 98],
  /- 103 cus -/ [99, 117, 115],
  /- 104 cym -/ [99, 121, 109],
  /- 105 cze -/ [99, 122, 101],
  /- 106 dak -/ [100, 97, 107],
  /- 107 dan -/ [100, 97, 110],
  /- 108 dar -/ [100, 97, 114],
  /- 109 day -/ [100, 97, 121],
  /- 110 del -/ [100, 101, 108],
  /- 111 den -/ [100, 101, 110],
  /- 112 deu -/ [100, 101, 117],
  /- 113 dgr -/ [100, 103, 114],
  /- 114 din -/ [100, 105, 110],
  /- 115 DIV -/ [68, 73, 86],
  /- 116 doi -/ [100, 111, 105],
  /- 117 dra -/ [100, 114, 97],
  /- 118 dsb -/ [100, 115, 98],
  /- 119 dua -/ [100, 117, 97],
  /- 120 dum -/ [100, 117, 109],
  /- 121 dut -/ [100, 117, 116],
  /- 122 dyu -/ [100, 121, 117],
  /- 123 dzo -/ [100, 122, 111],
  /- 124 efi -/ [101, 102, 105],
  /- 125 egy -/ [101, 103, 121],
  /- 126 eka -/ [101, 107, 97],
  /- 127 ell -/ [101, 108, 108],
  /- 128 elx -/ [101, 108, 120],
  /- 129 eng -/ [101, 110, 103],
  /- 130 enm -/ [101, 110, 109],
  /- 131 epo -/ [101, 112, 111],
  /- 132 est -/ [101, 115, 116],
  /- 133 eus -/ [101, 117, 115],
  /- 134 ewe -/ [101, 119, 101],
  /- 135 ewo -/ [101, 119, 111],
  /- 136 fan -/ [102, 97, 110],
  /- 137 fao -/ [102, 97, 111],
  /- 138 fas -/ [102, 97, 115],
  /- 139 fat -/ [102, 97, 116],
  /- 140 fij -/ [102, 105, 106],
  /- 141 fil -/ [102, 105, 108],
  /- 142 fin -/ [102, 105, 110],
  /- 143 fiu -/ [102, 105, 117],
  /- 144 fon -/ [102, 111, 110],
  /- 145 fra -/ [102, 114, 97],
  /- 146 fre -/ [102, 114, 101],
  /- 147 frm -/ [102, 114, 109],
  /- 148 fro -/ [102, 114, 111],
  /- 149 frr -/ [102, 114, 114],
  /- 150 frs -/ [102, 114, 115],
  /- 151 fry -/ [102, 114, 121],
  /- 152 ful -/ [102, 117, 108],
  /- 153 fur -/ [102, 117, 114],
  /- 154 gaa -/ [103, 97, 97],
  /- 155 gay -/ [103, 97, 121],
  /- 156 gba -/ [103, 98, 97],
  /- 157 gem -/ [103, 101, 109],
  /- 158 geo -/ [103, 101, 111],
  /- 159 ger -/ [103, 101, 114],
  /- 160 gez -/ [103, 101, 122],
  /- 161 gil -/ [103, 105, 108],
  /- 162 gla -/ [103, 108, 97],
  /- 163 gle -/ [103, 108, 101],
  /- 164 glg -/ [103, 108, 103],
  /- 165 glv -/ [103, 108, 118],
  /- 166 gmh -/ [103, 109, 104],
  /- 167 goh -/ [103, 111, 104],
  /- 168 gon -/ [103, 111, 110],
  /- 169 gor -/ [103, 111, 114],
  /- 170 got -/ [103, 111, 116],
  /- 171 grb -/ [103, 114, 98],
  /- 172 grc -/ [103, 114, 99],
  /- 173 gre -/ [103, 114, 101],
  /- 174 grn -/ [103, 114, 110],
  /- 175 gsw -/ [103, 115, 119],
  /- 176 guj -/ [103, 117, 106],
  /- 177 gwi -/ [103, 119, 105],
  /- 178 hai -/ [104, 97, 105],
  /- 179 hat -/ [104, 97, 116],
  /- 180 hau -/ [104, 97, 117],
  /- 181 haw -/ [104, 97, 119],
  /- 182 heb -/ [104, 101, 98],
  /- 183 her -/ [104, 101, 114],
  /- 184 hil -/ [104, 105, 108],
  /- 185 him -/ [104, 105, 109],
  /- 186 hin -/ [104, 105, 110],
  /- 187 hit -/ [104, 105, 116],
  /- 188 hmn -/ [104, 109, 110],
  /- 189 hmo -/ [104, 109, 111],
  /- 190 hrv -/ [104, 114, 118],
  /- 191 hsb -/ [104, 115, 98],
  /- 192 hun -/ [104, 117, 110],
  /- 193 hup -/ [104, 117, 112],
  /- 194 hye -/ [104, 121, 101],
  /- 195 iba -/ [105, 98, 97],
  /- 196 ibo -/ [105, 98, 111],
  /- 197 ice -/ [105, 99, 101],
  /- 198 ido -/ [105, 100, 111],
  /- 199 iii -/ [105, 105, 105],
  /- 200 ijo -/ [105, 106, 111],
  /- 201 iku -/ [105, 107, 117],
  /- 202 ile -/ [105, 108, 101],
  /- 203 ilo -/ [105, 108, 111],
  /- 204 ina -/ [105, 110, 97],
  /- 205 inc -/ [105, 110, 99],
  /- 206 ind -/ [105, 110, 100],
  /- 207 ine -/ [105, 110, 101],
  /- 208 inh -/ [105, 110, 104],
  /- 209 ipk -/ [105, 112, 107],
  /- 210 ira -/ [105, 114, 97],
  /- 211 iro -/ [105, 114, 111],
  /- 212 isl -/ [105, 115, 108],
  /- 213 ita -/ [105, 116, 97],
  /- 214 jav -/ [106, 97, 118],
  /- 215 jbo -/ [106, 98, 111],
  /- 216 jpn -/ [106, 112, 110],
  /- 217 jpr -/ [106, 112, 114],
  /- 218 jrb -/ [106, 114, 98],
  /- 219 kaa -/ [107, 97, 97],
  /- 220 kab -/ [107, 97, 98],
  /- 221 kac -/ [107, 97, 99],
  /- 222 kal -/ [107, 97, 108],
  /- 223 kam -/ [107, 97, 109],
  /- 224 kan -/ [107, 97, 110],
  /- 225 kar -/ [107, 97, 114],
  /- 226 kas -/ [107, 97, 115],
  /- 227 kat -/ [107, 97, 116],
  /- 228 kau -/ [107, 97, 117],
  /- 229 kaw -/ [107, 97, 119],
  /- 230 kaz -/ [107, 97, 122],
  /- 231 kbd -/ [107, 98, 100],
  /- 232 kha -/ [107, 104, 97],
  /- 233 khi -/ [107, 104, 105],
  /- 234 khm -/ [107, 104, 109],
  /- 235 kho -/ [107, 104, 111],
  /- 236 kik -/ [107, 105, 107],
  /- 237 kin -/ [107, 105, 110],
  /- 238 kir -/ [107, 105, 114],
  /- 239 kmb -/ [107, 109, 98],
  /- 240 kok -/ [107, 111, 107],
  /- 241 kom -/ [107, 111, 109],
  /- 242 kon -/ [107, 111, 110],
  /- 243 kor -/ [107, 111, 114],
  /- 244 kos -/ [107, 111, 115],
  /- 245 kpe -/ [107, 112, 101],
  /- 246 krc -/ [107, 114, 99],
  /- 247 krl -/ [107, 114, 108],
  /- 248 kro -/ [107, 114, 111],
  /- 249 kru -/ [107, 114, 117],
  /- 250 kua -/ [107, 117, 97],
  /- 251 kum -/ [107, 117, 109],
  /- 252 kur -/ [107, 117, 114],
  /- 253 kut -/ [107, 117, 116],
  /- 254 lad -/ [108, 97, 100],
  /- 255 lah -/ [108, 97, 104],
  /- 256 lam -/ [108, 97, 109],
  /- 257 lao -/ [108, 97, 111],
  /- 258 lat -/ [108, 97, 116],
  /- 259 lav -/ [108, 97, 118],
  /- 260 lez -/ [108, 101, 122],
  /- 261 lim -/ [108, 105, 109],
  /- 262 lin -/ [108, 105, 110],
  /- 263 lit -/ [108, 105, 116],
  /- 264 lol -/ [108, 111, 108],
  /- 265 loz -/ [108, 111, 122],
  /- 266 ltz -/ [108, 116, 122],
  /- 267 lua -/ [108, 117, 97],
  /- 268 lub -/ [108, 117, 98],
  /- 269 lug -/ [108, 117, 103],
  /- 270 lui -/ [108, 117, 105],
  /- 271 lun -/ [108, 117, 110],
  /- 272 luo -/ [108, 117, 111],
  /- 273 lus -/ [108, 117, 115],
  /- 274 mac -/ [109, 97, 99],
  /- 275 mad -/ [109, 97, 100],
  /- 276 mag -/ [109, 97, 103],
  /- 277 mah -/ [109, 97, 104],
  /- 278 mai -/ [109, 97, 105],
  /- 279 mak -/ [109, 97, 107],
  /- 280 mal -/ [109, 97, 108],
  /- 281 man -/ [109, 97, 110],
  /- 282 mao -/ [109, 97, 111],
  /- 283 MAP -/ [77, 65, 80],
  /- 284 mar -/ [109, 97, 114],
  /- 285 mas -/ [109, 97, 115],
  /- 286 may -/ [109, 97, 121],
  /- 287 mdf -/ [109, 100, 102],
  /- 288 mdr -/ [109, 100, 114],
  /- 289 men -/ [109, 101, 110],
  /- 290 mga -/ [109, 103, 97],
  /- 291 mic -/ [109, 105, 99],
  /- 292 MIN -/ [77, 73, 78],
  /- 293 mis -/ [109, 105, 115],
  /- 294 mkd -/ [109, 107, 100],
  /- 295 mkh -/ [109, 107, 104],
  /- 296 mlg -/ [109, 108, 103],
  /- 297 mlt -/ [109, 108, 116],
  /- 298 mnc -/ [109, 110, 99],
  /- 299 mni -/ [109, 110, 105],
  /- 300 mno -/ [109, 110, 111],
  /- 301 moh -/ [109, 111, 104],
  /- 302 mon -/ [109, 111, 110],
  /- 303 mos -/ [109, 111, 115],
  /- 304 mri -/ [109, 114, 105],
  /- 305 msa -/ [109, 115, 97],
  /- 306 mul -/ [109, 117, 108],
  /- 307 mun -/ [109, 117, 110],
  /- 308 mus -/ [109, 117, 115],
  /- 309 mwl -/ [109, 119, 108],
  /- 310 mwr -/ [109, 119, 114],
  /- 311 mya -/ [109, 121, 97],
  /- 312 myn -/ [109, 121, 110],
  /- 313 myv -/ [109, 121, 118],
  /- 314 nah -/ [110, 97, 104],
  /- 315 nai -/ [110, 97, 105],
  /- 316 nap -/ [110, 97, 112],
  /- 317 nau -/ [110, 97, 117],
  /- 318 nav -/ [110, 97, 118],
  /- 319 nbl -/ [110, 98, 108],
  /- 320 nde -/ [110, 100, 101],
  /- 321 ndo -/ [110, 100, 111],
  /- 322 nds -/ [110, 100, 115],
  /- 323 nep -/ [110, 101, 112],
  /- 324 NEW -/ [78, 69, 87],
  /- 325 nia -/ [110, 105, 97],
  /- 326 nic -/ [110, 105, 99],
  /- 327 niu -/ [110, 105, 117],
  /- 328 nld -/ [110, 108, 100],
  /- 329 nno -/ [110, 110, 111],
  /- 330 nob -/ [110, 111, 98],
  /- 331 nog -/ [110, 111, 103],
  /- 332 non -/ [110, 111, 110],
  /- 333 nor -/ [110, 111, 114],
  /- 334 nqo -/ [110, 113, 111],
  /- 335 nso -/ [110, 115, 111],
  /- 336 nub -/ [110, 117, 98],
  /- 337 nwc -/ [110, 119, 99],
  /- 338 nya -/ [110, 121, 97],
  /- 339 nym -/ [110, 121, 109],
  /- 340 nyn -/ [110, 121, 110],
  /- 341 nyo -/ [110, 121, 111],
  /- 342 nzi -/ [110, 122, 105],
  /- 343 oci -/ [111, 99, 105],
  /- 344 oji -/ [111, 106, 105],
  /- 345 ori -/ [111, 114, 105],
  /- 346 orm -/ [111, 114, 109],
  /- 347 osa -/ [111, 115, 97],
  /- 348 oss -/ [111, 115, 115],
  /- 349 ota -/ [111, 116, 97],
  /- 350 oto -/ [111, 116, 111],
  /- 351 paa -/ [112, 97, 97],
  /- 352 pag -/ [112, 97, 103],
  /- 353 pal -/ [112, 97, 108],
  /- 354 pam -/ [112, 97, 109],
  /- 355 pan -/ [112, 97, 110],
  /- 356 pap -/ [112, 97, 112],
  /- 357 pau -/ [112, 97, 117],
  /- 358 peo -/ [112, 101, 111],
  /- 359 per -/ [112, 101, 114],
  /- 360 phi -/ [112, 104, 105],
  /- 361 phn -/ [112, 104, 110],
  /- 362 pli -/ [112, 108, 105],
  /- 363 pol -/ [112, 111, 108],
  /- 364 pon -/ [112, 111, 110],
  /- 365 por -/ [112, 111, 114],
  /- 366 pra -/ [112, 114, 97],
  /- 367 pro -/ [112, 114, 111],
  /- 368 pus -/ [112, 117, 115],
  /- 369 qaa -/ [113, 97, 97],
  /- 370 que -/ [113, 117, 101],
  /- 371 raj -/ [114, 97, 106],
  /- 372 rap -/ [114, 97, 112],
  /- 373 rar -/ [114, 97, 114],
  /- 374 roa -/ [114, 111, 97],
  /- 375 roh -/ [114, 111, 104],
  /- 376 rom -/ [114, 111, 109],
  /- 377 ron -/ [114, 111, 110],
  /- 378 rum -/ [114, 117, 109],
  /- 379 run -/ [114, 117, 110],
  /- 380 rup -/ [114, 117, 112],
  /- 381 rus -/ [114, 117, 115],
  /- 382 sad -/ [115, 97, 100],
  /- 383 sag -/ [115, 97, 103],
  /- 384 sah -/ [115, 97, 104],
  /- 385 sai -/ [115, 97, 105],
  /- 386 sal -/ [115, 97, 108],
  /- 387 sam -/ [115, 97, 109],
  /- 388 san -/ [115, 97, 110],
  /- 389 sas -/ [115, 97, 115],
  /- 390 sat -/ [115, 97, 116],
  /- 391 scn -/ [115, 99, 110],
  /- 392 sco -/ [115, 99, 111],
  /- 393 sel -/ [115, 101, 108],
  /- 394 sem -/ [115, 101, 109],
  /- 395 sga -/ [115, 103, 97],
  /- 396 sgn -/ [115, 103, 110],
  /- 397 shn -/ [115, 104, 110],
  /- 398 sid -/ [115, 105, 100],
  /- 399 sin -/ [115, 105, 110],
  /- 400 sio -/ [115, 105, 111],
  /- 401 sit -/ [115, 105, 116],
  /- 402 sla -/ [115, 108, 97],
  /- 403 slo -/ [115, 108, 111],
  /- 404 slk -/ [115, 108, 107],
  /- 405 slv -/ [115, 108, 118],
  /- 406 sma -/ [115, 109, 97],
  /- 407 sme -/ [115, 109, 101],
  /- 408 smi -/ [115, 109, 105],
  /- 409 smj -/ [115, 109, 106],
  /- 410 smn -/ [115, 109, 110],
  /- 411 smo -/ [115, 109, 111],
  /- 412 sms -/ [115, 109, 115],
  /- 413 sna -/ [115, 110, 97],
  /- 414 snd -/ [115, 110, 100],
  /- 415 snk -/ [115, 110, 107],
  /- 416 sog -/ [115, 111, 103],
  /- 417 som -/ [115, 111, 109],
  /- 418 son -/ [115, 111, 110],
  /- 419 sot -/ [115, 111, 116],
  /- 420 spa -/ [115, 112, 97],
  /- 421 sqi -/ [115, 113, 105],
  /- 422 srd -/ [115, 114, 100],
  /- 423 srn -/ [115, 114, 110],
  /- 424 srp -/ [115, 114, 112],
  /- 425 srr -/ [115, 114, 114],
  /- 426 ssa -/ [115, 115, 97],
  /- 427 ssw -/ [115, 115, 119],
  /- 428 suk -/ [115, 117, 107],
  /- 429 sun -/ [115, 117, 110],
  /- 430 sus -/ [115, 117, 115],
  /- 431 sux -/ [115, 117, 120],
  /- 432 swa -/ [115, 119, 97],
  /- 433 swe -/ [115, 119, 101],
  /- 434 syc -/ [115, 121, 99],
  /- 435 syr -/ [115, 121, 114],
  /- 436 tah -/ [116, 97, 104],
  /- 437 tai -/ [116, 97, 105],
  /- 438 tam -/ [116, 97, 109],
  /- 439 tat -/ [116, 97, 116],
  /- 440 tel -/ [116, 101, 108],
  /- 441 tem -/ [116, 101, 109],
  /- 442 ter -/ [116, 101, 114],
  /- 443 tet -/ [116, 101, 116],
  /- 444 tgk -/ [116, 103, 107],
  /- 445 tgl -/ [116, 103, 108],
  /- 446 tha -/ [116, 104, 97],
  /- 447 tib -/ [116, 105, 98],
  /- 448 tig -/ [116, 105, 103],
  /- 449 tir -/ [116, 105, 114],
  /- 450 tiv -/ [116, 105, 118],
  /- 451 tkl -/ [116, 107, 108],
  /- 452 tlh -/ [116, 108, 104],
  /- 453 tli -/ [116, 108, 105],
  /- 454 tmh -/ [116, 109, 104],
  /- 455 tog -/ [116, 111, 103],
  /- 456 ton -/ [116, 111, 110],
  /- 457 tpi -/ [116, 112, 105],
  /- 458 tsi -/ [116, 115, 105],
  /- 459 tsn -/ [116, 115, 110],
  /- 460 tso -/ [116, 115, 111],
  /- 461 tuk -/ [116, 117, 107],
  /- 462 tum -/ [116, 117, 109],
  /- 463 tup -/ [116, 117, 112],
  /- 464 tur -/ [116, 117, 114],
  /- 465 tut -/ [116, 117, 116],
  /- 466 tvl -/ [116, 118, 108],
  /- 467 twi -/ [116, 119, 105],
  /- 468 tyv -/ [116, 121, 118],
  /- 469 udm -/ [117, 100, 109],
  /- 470 uga -/ [117, 103, 97],
  /- 471 uig -/ [117, 105, 103],
  /- 472 ukr -/ [117, 107, 114],
  /- 473 umb -/ [117, 109, 98],
  /- 474 und -/ [117, 110, 100],
  /- 475 urd -/ [117, 114, 100],
  /- 476 uzb -/ [117, 122, 98],
  /- 477 vai -/ [118, 97, 105],
  /- 478 ven -/ [118, 101, 110],
  /- 479 vie -/ [118, 105, 101],
  /- 480 vol -/ [118, 111, 108],
  /- 481 vot -/ [118, 111, 116],
  /- 482 wak -/ [119, 97, 107],
  /- 483 wal -/ [119, 97, 108],
  /- 484 war -/ [119, 97, 114],
  /- 485 was -/ [119, 97, 115],
  /- 486 wel -/ [119, 101, 108],
  /- 487 wen -/ [119, 101, 110],
  /- 488 wln -/ [119, 108, 110],
  /- 489 wol -/ [119, 111, 108],
  /- 490 xal -/ [120, 97, 108],
  /- 491 xho -/ [120, 104, 111],
  /- 492 yao -/ [121, 97, 111],
  /- 493 yap -/ [121, 97, 112],
  /- 494 yid -/ [121, 105, 100],
  /- 495 yor -/ [121, 111, 114],
  /- 496 ypk -/ [121, 112, 107],
  /- 497 zap -/ [122, 97, 112],
  /- 498 zbl -/ [122, 98, 108],
  /- 499 zen -/ [122, 101, 110],
  /- 500 zgh -/ [122, 103, 104],
  /- 501 zha -/ [122, 104, 97],
  /- 502 zho -/ [122, 104, 111],
  /- 503 znd -/ [122, 110, 100],
  /- 504 zul -/ [122, 117, 108],
  /- 505 zun -/ [122, 117, 110],
  /- 506 zxx -/ [122, 120, 120],
  /- 507 zza -/ [122, 122, 97]]

/-- The insertions `H` of `language_from_iso_639_1`, in order: scribbu/charsets.cc L940-1143. -/
def iso1 : List (Bytes × Language) := [
  /- aa aar -/ ([97, 97], 1),
  /- ab abk -/ ([97, 98], 2),
  /- af afr -/ ([97, 102], 9),
  /- ak aka -/ ([97, 107], 11),
  /- sq alb -/ ([115, 113], 13),
  /- am amh -/ ([97, 109], 17),
  /- ar ara -/ ([97, 114], 21),
  /- an arg -/ ([97, 110], 23),
  /- hy arm -/ ([104, 121], 24),
  /- as ASM -/ ([97, 115], 29),
  /- av ava -/ ([97, 118], 33),
  /- ae ave -/ ([97, 101], 34),
  /- ay aym -/ ([97, 121], 36),
  /- az aze -/ ([97, 122], 37),
  /- ba bak -/ ([98, 97], 40),
  /- bm bam -/ ([98, 109], 42),
  /- eu baq -/ ([101, 117], 44),
  /- be bel -/ ([98, 101], 48),
  /- bn ben -/ ([98, 110], 50),
  /- bh bih -/ ([98, 104], 53),
  /- bi bis -/ ([98, 105], 56),
  /- bo bod -/ ([98, 111], 59),
  /- bs bos -/ ([98, 115], 60),
  /- br bre -/ ([98, 114], 62),
  /- bg bul -/ ([98, 103], 66),
  /- my bur -/ ([109, 121], 67),
  /- ca cat -/ ([99, 97], 72),
  /- cs ces -/ ([99, 115], 76),
  /- ch cha -/ ([99, 104], 77),
  /- ce che -/ ([99, 101], 79),
  /- zh chi -/ ([122, 104], 81),
  /- cu chu -/ ([99, 117], 88),
  /- cv chv -/ ([99, 118], 89),
  /- kw cor -/ ([107, 119], 94),
  /- co cos -/ ([99, 111], 95),
  /- cr cre -/ ([99, 114], 99),
  /- cy cym -/ ([99, 121], 104),
  /- cs cze -/ ([99, 115], 105),
  /- da dan -/ ([100, 97], 107),
  /- de deu -/ ([100, 101], 112),
  /- dv DIV -/ ([100, 118], 115),
  /- nl dut -/ ([110, 108], 121),
  /- dz dzo -/ ([100, 122], 123),
  /- el ell -/ ([101, 108], 127),
  /- en eng -/ ([101, 110], 129),
  /- eo epo -/ ([101, 111], 131),
  /- et est -/ ([101, 116], 132),
  /- eu eus -/ ([101, 117], 133),
  /- ee ewe -/ ([101, 101], 134),
  /- fo fao -/ ([102, 111], 137),
  /- fa fas -/ ([102, 97], 138),
  /- fj fij -/ ([102, 106], 140),
  /- fi fin -/ ([102, 105], 142),
  /- fr fra -/ ([102, 114], 145),
  /- fr fre -/ ([102, 114], 146),
  /- fy fry -/ ([102, 121], 151),
  /- ff ful -/ ([102, 102], 152),
  /- ka geo -/ ([107, 97], 158),
  /- de ger -/ ([100, 101], 159),
  /- gd gla -/ ([103, 100], 162),
  /- ga gle -/ ([103, 97], 163),
  /- gl glg -/ ([103, 108], 164),
  /- gv glv -/ ([103, 118], 165),
  /- el gre -/ ([101, 108], 173),
  /- gn grn -/ ([103, 110], 174),
  /- gu guj -/ ([103, 117], 176),
  /- ht hat -/ ([104, 116], 179),
  /- ha hau -/ ([104, 97], 180),
  /- he heb -/ ([104, 101], 182),
  /- hz her -/ ([104, 122], 183),
  /- hi hin -/ ([104, 105], 186),
  /- ho hmo -/ ([104, 111], 189),
  /- hr hrv -/ ([104, 114], 190),
  /- hu hun -/ ([104, 117], 192),
  /- hy hye -/ ([104, 121], 194),
  /- ig ibo -/ ([105, 103], 196),
  /- is ice -/ ([105, 115], 197),
  /- io ido -/ ([105, 111], 198),
  /- ii iii -/ ([105, 105], 199),
  /- iu iku -/ ([105, 117], 201),
  /- ie ile -/ ([105, 101], 202),
  /- ia ina -/ ([105, 97], 204),
  /- id ind -/ ([105, 100], 206),
  /- ik ipk -/ ([105, 107], 209),
  /- is isl -/ ([105, 115], 212),
  /- it ita -/ ([105, 116], 213),
  /- jv jav -/ ([106, 118], 214),
  /- ja jpn -/ ([106, 97], 216),
  /- kl kal -/ ([107, 108], 222),
  /- kn kan -/ ([107, 110], 224),
  /- ks kas -/ ([107, 115], 226),
  /- ka kat -/ ([107, 97], 227),
  /- kr kau -/ ([107, 114], 228),
  /- kk kaz -/ ([107, 107], 230),
  /- km khm -/ ([107, 109], 234),
  /- ki kik -/ ([107, 105], 236),
  /- rw kin -/ ([114, 119], 237),
  /- ky kir -/ ([107, 121], 238),
  /- kv kom -/ ([107, 118], 241),
  /- kg kon -/ ([107, 103], 242),
  /- ko kor -/ ([107, 111], 243),
  /- kj kua -/ ([107, 106], 250),
  /- ku kur -/ ([107, 117], 252),
  /- lo lao -/ ([108, 111], 257),
  /- la lat -/ ([108, 97], 258),
  /- lv lav -/ ([108, 118], 259),
  /- li lim -/ ([108, 105], 261),
  /- ln lin -/ ([108, 110], 262),
  /- lt lit -/ ([108, 116], 263),
  /- lb ltz -/ ([108, 98], 266),
  /- lu lub -/ ([108, 117], 268),
  /- lg lug -/ ([108, 103], 269),
  /- mk mac -/ ([109, 107], 274),
  /- mh mah -/ ([109, 104], 277),
  /- ml mal -/ ([109, 108], 280),
  /- mi mao -/ ([109, 105], 282),
  /- mr mar -/ ([109, 114], 284),
  /- ms may -/ ([109, 115], 286),
  /- mk mkd -/ ([109, 107], 294),
  /- mg mlg -/ ([109, 103], 296),
  /- mt mlt -/ ([109, 116], 297),
  /- mn mon -/ ([109, 110], 302),
  /- mi mri -/ ([109, 105], 304),
  /- ms msa -/ ([109, 115], 305),
  /- my mya -/ ([109, 121], 311),
  /- na nau -/ ([110, 97], 317),
  /- nv nav -/ ([110, 118], 318),
  /- nr nbl -/ ([110, 114], 319),
  /- nd nde -/ ([110, 100], 320),
  /- ng ndo -/ ([110, 103], 321),
  /- ne nep -/ ([110, 101], 323),
  /- nl nld -/ ([110, 108], 328),
  /- nn nno -/ ([110, 110], 329),
  /- nb nob -/ ([110, 98], 330),
  /- no nor -/ ([110, 111], 333),
  /- ny nya -/ ([110, 121], 338),
  /- oc oci -/ ([111, 99], 343),
  /- oj oji -/ ([111, 106], 344),
  /- or ori -/ ([111, 114], 345),
  /- om orm -/ ([111, 109], 346),
  /- os oss -/ ([111, 115], 348),
  /- pa pan -/ ([112, 97], 355),
  /- fa per -/ ([102, 97], 359),
  /- pi pli -/ ([112, 105], 362),
  /- pl pol -/ ([112, 108], 363),
  /- pt por -/ ([112, 116], 365),
  /- ps pus -/ ([112, 115], 368),
  /- qu que -/ ([113, 117], 370),
  /- rm roh -/ ([114, 109], 375),
  /- ro ron -/ ([114, 111], 377),
  /- ro rum -/ ([114, 111], 378),
  /- rn run -/ ([114, 110], 379),
  /- ru rus -/ ([114, 117], 381),
  /- sg sag -/ ([115, 103], 383),
  /- sa san -/ ([115, 97], 388),
  /- si sin -/ ([115, 105], 399),
  /- sk slo -/ ([115, 107], 403),
  /- sk slk -/ ([115, 107], 404),
  /- sl slv -/ ([115, 108], 405),
  /- se sme -/ ([115, 101], 407),
  /- sm smo -/ ([115, 109], 411),
  /- sn sna -/ ([115, 110], 413),
  /- sd snd -/ ([115, 100], 414),
  /- so som -/ ([115, 111], 417),
  /- st sot -/ ([115, 116], 419),
  /- es spa -/ ([101, 115], 420),
  /- sq sqi -/ ([115, 113], 421),
  /- sc srd -/ ([115, 99], 422),
  /- sr srp -/ ([115, 114], 424),
  /- ss ssw -/ ([115, 115], 427),
  /- su sun -/ ([115, 117], 429),
  /- sw swa -/ ([115, 119], 432),
  /- sv swe -/ ([115, 118], 433),
  /- ty tah -/ ([116, 121], 436),
  /- ta tam -/ ([116, 97], 438),
  /- tt tat -/ ([116, 116], 439),
  /- te tel -/ ([116, 101], 440),
  /- tg tgk -/ ([116, 103], 444),
  /- tl tgl -/ ([116, 108], 445),
  /- th tha -/ ([116, 104], 446),
  /- bo tib -/ ([98, 111], 447),
  /- ti tir -/ ([116, 105], 449),
  /- to ton -/ ([116, 111], 456),
  /- tn tsn -/ ([116, 110], 459),
  /- ts tso -/ ([116, 115], 460),
  /- tk tuk -/ ([116, 107], 461),
  /- tr tur -/ ([116, 114], 464),
  /- tw twi -/ ([116, 119], 467),
  /- ug uig -/ ([117, 103], 471),
  /- uk ukr -/ ([117, 107], 472),
  /- ur urd -/ ([117, 114], 475),
  /- uz uzb -/ ([117, 122], 476),
  /- ve ven -/ ([118, 101], 478),
  /- vi vie -/ ([118, 105], 479),
  /- vo vol -/ ([118, 111], 480),
  /- cy wel -/ ([99, 121], 486),
  /- wa wln -/ ([119, 97], 488),
  /- wo wol -/ ([119, 111], 489),
  /- xh xho -/ ([120, 104], 491),
  /- yi yid -/ ([121, 105], 494),
  /- yo yor -/ ([121, 111], 495),
  /- za zha -/ ([122, 97], 501),
  /- zh zho -/ ([122, 104], 502),
  /- zu zul -/ ([122, 117], 504)]

/-- The cases `F` of `language_to_iso_639_2`: scribbu/charsets.cc L1191-1697. -/
def iso2 : List (Language × Bytes) := [
  (1, [97, 97, 114]),
  (2, [97, 98, 107]),
  (3, [97, 99, 101]),
  (4, [97, 99, 104]),
  (5, [97, 100, 97]),
  (6, [97, 100, 121]),
  (7, [97, 102, 97]),
  (8, [97, 102, 104]),
  (9, [97, 102, 114]),
  (10, [97, 105, 110]),
  (11, [97, 107, 97]),
  (12, [97, 107, 107]),
  (13, [97, 108, 98]),
  (14, [97, 108, 101]),
  (15, [97, 108, 103]),
  (16, [97, 108, 116]),
  (17, [97, 109, 104]),
  (18, [97, 110, 103]),
  (19, [97, 110, 112]),
  (20, [97, 112, 97]),
  (21, [97, 114, 97]),
  (22, [97, 114, 99]),
  (23, [97, 114, 103]),
  (24, [97, 114, 109]),
  (25, [97, 114, 110]),
  (26, [97, 114, 112]),
  (27, [97, 114, 116]),
  (28, [97, 114, 119]),
  (29, [65, 83, 77]),
  (30, [97, 115, 116]),
  (31, [97, 116, 104]),
  (32, [97, 117, 115]),
  (33, [97, 118, 97]),
  (34, [97, 118, 101]),
  (35, [97, 119, 97]),
  (36, [97, 121, 109]),
  (37, [97, 122, 101]),
  (38, [98, 97, 100]),
  (39, [98, 97, 105]),
  (40, [98, 97, 107]),
  (41, [98, 97, 108]),
  (42, [98, 97, 109]),
  (43, [98, 97, 110]),
  (44, [98, 97, 113]),
  (45, [98, 97, 115]),
  (46, [98, 97, 116]),
  (47, [98, 101, 106]),
  (48, [98, 101, 108]),
  (49, [98, 101, 109]),
  (50, [98, 101, 110]),
  (51, [98, 101, 114]),
  (52, [98, 104, 111]),
  (53, [98, 105, 104]),
  (54, [98, 105, 107]),
  (55, [98, 105, 110]),
  (56, [98, 105, 115]),
  (57, [98, 108, 97]),
  (58, [98, 110, 116]),
  (59, [98, 111, 100]),
  (60, [98, 111, 115]),
  (61, [98, 114, 97]),
  (62, [98, 114, 101]),
  (63, [98, 116, 107]),
  (64, [98, 117, 97]),
  (65, [98, 117, 103]),
  (66, [98, 117, 108]),
  (67, [98, 117, 114]),
  (68, [98, 121, 110]),
  (69, [99, 97, 100]),
  (70, [99, 97, 105]),
  (71, [99, 97, 114]),
  (72, [99, 97, 116]),
  (73, [99, 97, 117]),
  (74, [99, 101, 98]),
  (75, [99, 101, 108]),
  (76, [99, 101, 115]),
  (77, [99, 104, 97]),
  (78, [99, 104, 98]),
  (79, [99, 104, 101]),
  (80, [99, 104, 103]),
  (81, [99, 104, 105]),
  (82, [99, 104, 107]),
  (83, [99, 104, 109]),
  (84, [99, 104, 110]),
  (85, [99, 104, 111]),
  (86, [99, 104, 112]),
  (87, [99, 104, 114]),
  (88, [99, 104, 117]),
  (89, [99, 104, 118]),
  (90, [99, 104, 121]),
  (91, [99, 109, 99]),
  (92, [99, 110, 114]),
  (93, [99, 111, 112]),
  (94, [99, 111, 114]),
  (95, [99, 111, 115]),
  (96, [99, 112, 101]),
  (97, [99, 112, 102]),
  (98, [99, 112, 112]),
  (99, [99, 114, 101]),
  (100, [99, 114, 104]),
  (101, [99, 114, 112]),
  (102, [99, 115, 98]),
  (103, [99, 117, 115]),
  (104, [99, 121, 109]),
  (105, [99, 122, 101]),
  (106, [100, 97, 107]),
  (107, [100, 97, 110]),
  (108, [100, 97, 114]),
  (109, [100, 97, 121]),
  (110, [100, 101, 108]),
  (111, [100, 101, 110]),
  (112, [100, 101, 117]),
  (113, [100, 103, 114]),
  (114, [100, 105, 110]),
  (115, [68, 73, 86]),
  (116, [100, 111, 105]),
  (117, [100, 114, 97]),
  (118, [100, 115, 98]),
  (119, [100, 117, 97]),
  (120, [100, 117, 109]),
  (121, [100, 117, 116]),
  (122, [100, 121, 117]),
  (123, [100, 122, 111]),
  (124, [101, 102, 105]),
  (125, [101, 103, 121]),
  (126, [101, 107, 97]),
  (127, [101, 108, 108]),
  (128, [101, 108, 120]),
  (129, [101, 110, 103]),
  (130, [101, 110, 109]),
  (131, [101, 112, 111]),
  (132, [101, 115, 116]),
  (133, [101, 117, 115]),
  (134, [101, 119, 101]),
  (135, [101, 119, 111]),
  (136, [102, 97, 110]),
  (137, [102, 97, 111]),
  (138, [102, 97, 115]),
  (139, [102, 97, 116]),
  (140, [102, 105, 106]),
  (141, [102, 105, 108]),
  (142, [102, 105, 110]),
  (143, [102, 105, 117]),
  (144, [102, 111, 110]),
  (145, [102, 114, 97]),
  (146, [102, 114, 101]),
  (147, [102, 114, 109]),
  (148, [102, 114, 111]),
  (149, [102, 114, 114]),
  (150, [102, 114, 115]),
  (151, [102, 114, 121]),
  (152, [102, 117, 108]),
  (153, [102, 117, 114]),
  (154, [103, 97, 97]),
  (155, [103, 97, 121]),
  (156, [103, 98, 97]),
  (157, [103, 101, 109]),
  (158, [103, 101, 111]),
  (159, [103, 101, 114]),
  (160, [103, 101, 122]),
  (161, [103, 105, 108]),
  (162, [103, 108, 97]),
  (163, [103, 108, 101]),
  (164, [103, 108, 103]),
  (165, [103, 108, 118]),
  (166, [103, 109, 104]),
  (167, [103, 111, 104]),
  (168, [103, 111, 110]),
  (169, [103, 111, 114]),
  (170, [103, 111, 116]),
  (171, [103, 114, 98]),
  (172, [103, 114, 99]),
  (173, [103, 114, 101]),
  (174, [103, 114, 110]),
  (175, [103, 115, 119]),
  (176, [103, 117, 106]),
  (177, [103, 119, 105]),
  (178, [104, 97, 105]),
  (179, [104, 97, 116]),
  (180, [104, 97, 117]),
  (181, [104, 97, 119]),
  (182, [104, 101, 98]),
  (183, [104, 101, 114]),
  (184, [104, 105, 108]),
  (185, [104, 105, 109]),
  (186, [104, 105, 110]),
  (187, [104, 105, 116]),
  (188, [104, 109, 110]),
  (189, [104, 109, 111]),
  (190, [104, 114, 118]),
  (191, [104, 115, 98]),
  (192, [104, 117, 110]),
  (193, [104, 117, 112]),
  (194, [104, 121, 101]),
  (195, [105, 98, 97]),
  (196, [105, 98, 111]),
  (197, [105, 99, 101]),
  (198, [105, 100, 111]),
  (199, [105, 105, 105]),
  (200, [105, 106, 111]),
  (201, [105, 107, 117]),
  (202, [105, 108, 101]),
  (203, [105, 108, 111]),
  (204, [105, 110, 97]),
  (205, [105, 110, 99]),
  (206, [105, 110, 100]),
  (207, [105, 110, 101]),
  (208, [105, 110, 104]),
  (209, [105, 112, 107]),
  (210, [105, 114, 97]),
  (211, [105, 114, 111]),
  (212, [105, 115, 108]),
  (213, [105, 116, 97]),
  (214, [106, 97, 118]),
  (215, [106, 98, 111]),
  (216, [106, 112, 110]),
  (217, [106, 112, 114]),
  (218, [106, 114, 98]),
  (219, [107, 97, 97]),
  (220, [107, 97, 98]),
  (221, [107, 97, 99]),
  (222, [107, 97, 108]),
  (223, [107, 97, 109]),
  (224, [107, 97, 110]),
  (225, [107, 97, 114]),
  (226, [107, 97, 115]),
  (227, [107, 97, 116]),
  (228, [107, 97, 117]),
  (229, [107, 97, 119]),
  (230, [107, 97, 122]),
  (231, [107, 98, 100]),
  (232, [107, 104, 97]),
  (233, [107, 104, 105]),
  (234, [107, 104, 109]),
  (235, [107, 104, 111]),
  (236, [107, 105, 107]),
  (237, [107, 105, 110]),
  (238, [107, 105, 114]),
  (239, [107, 109, 98]),
  (240, [107, 111, 107]),
  (241, [107, 111, 109]),
  (242, [107, 111, 110]),
  (243, [107, 111, 114]),
  (244, [107, 111, 115]),
  (245, [107, 112, 101]),
  (246, [107, 114, 99]),
  (247, [107, 114, 108]),
  (248, [107, 114, 111]),
  (249, [107, 114, 117]),
  (250, [107, 117, 97]),
  (251, [107, 117, 109]),
  (252, [107, 117, 114]),
  (253, [107, 117, 116]),
  (254, [108, 97, 100]),
  (255, [108, 97, 104]),
  (256, [108, 97, 109]),
  (257, [108, 97, 111]),
  (258, [108, 97, 116]),
  (259, [108, 97, 118]),
  (260, [108, 101, 122]),
  (261, [108, 105, 109]),
  (262, [108, 105, 110]),
  (263, [108, 105, 116]),
  (264, [108, 111, 108]),
  (265, [108, 111, 122]),
  (266, [108, 116, 122]),
  (267, [108, 117, 97]),
  (268, [108, 117, 98]),
  (269, [108, 117, 103]),
  (270, [108, 117, 105]),
  (271, [108, 117, 110]),
  (272, [108, 117, 111]),
  (273, [108, 117, 115]),
  (274, [109, 97, 99]),
  (275, [109, 97, 100]),
  (276, [109, 97, 103]),
  (277, [109, 97, 104]),
  (278, [109, 97, 105]),
  (279, [109, 97, 107]),
  (280, [109, 97, 108]),
  (281, [109, 97, 110]),
  (282, [109, 97, 111]),
  (283, [77, 65, 80]),
  (284, [109, 97, 114]),
  (285, [109, 97, 115]),
  (286, [109, 97, 121]),
  (287, [109, 100, 102]),
  (288, [109, 100, 114]),
  (289, [109, 101, 110]),
  (290, [109, 103, 97]),
  (291, [109, 105, 99]),
  (292, [77, 73, 78]),
  (293, [109, 105, 115]),
  (294, [109, 107, 100]),
  (295, [109, 107, 104]),
  (296, [109, 108, 103]),
  (297, [109, 108, 116]),
  (298, [109, 110, 99]),
  (299, [109, 110, 105]),
  (300, [109, 110, 111]),
  (301, [109, 111, 104]),
  (302, [109, 111, 110]),
  (303, [109, 111, 115]),
  (304, [109, 114, 105]),
  (305, [109, 115, 97]),
  (306, [109, 117, 108]),
  (307, [109, 117, 110]),
  (308, [109, 117, 115]),
  (309, [109, 119, 108]),
  (310, [109, 119, 114]),
  (311, [109, 121, 97]),
  (312, [109, 121, 110]),
  (313, [109, 121, 118]),
  (314, [110, 97, 104]),
  (315, [110, 97, 105]),
  (316, [110, 97, 112]),
  (317, [110, 97, 117]),
  (318, [110, 97, 118]),
  (319, [110, 98, 108]),
  (320, [110, 100, 101]),
  (321, [110, 100, 111]),
  (322, [110, 100, 115]),
  (323, [110, 101, 112]),
  (324, [78, 69, 87]),
  (325, [110, 105, 97]),
  (326, [110, 105, 99]),
  (327, [110, 105, 117]),
  (328, [110, 108, 100]),
  (329, [110, 110, 111]),
  (330, [110, 111, 98]),
  (331, [110, 111, 103]),
  (332, [110, 111, 110]),
  (333, [110, 111, 114]),
  (334, [110, 113, 111]),
  (335, [110, 115, 111]),
  (336, [110, 117, 98]),
  (337, [110, 119, 99]),
  (338, [110, 121, 97]),
  (339, [110, 121, 109]),
  (340, [110, 121, 110]),
  (341, [110, 121, 111]),
  (342, [110, 122, 105]),
  (343, [111, 99, 105]),
  (344, [111, 106, 105]),
  (345, [111, 114, 105]),
  (346, [111, 114, 109]),
  (347, [111, 115, 97]),
  (348, [111, 115, 115]),
  (349, [111, 116, 97]),
  (350, [111, 116, 111]),
  (351, [112, 97, 97]),
  (352, [112, 97, 103]),
  (353, [112, 97, 108]),
  (354, [112, 97, 109]),
  (355, [112, 97, 110]),
  (356, [112, 97, 112]),
  (357, [112, 97, 117]),
  (358, [112, 101, 111]),
  (359, [112, 101, 114]),
  (360, [112, 104, 105]),
  (361, [112, 104, 110]),
  (362, [112, 108, 105]),
  (363, [112, 111, 108]),
  (364, [112, 111, 110]),
  (365, [112, 111, 114]),
  (366, [112, 114, 97]),
  (367, [112, 114, 111]),
  (368, [112, 117, 115]),
  (369, [113, 97, 97]),
  (370, [113, 117, 101]),
  (371, [114, 97, 106]),
  (372, [114, 97, 112]),
  (373, [114, 97, 114]),
  (374, [114, 111, 97]),
  (375, [114, 111, 104]),
  (376, [114, 111, 109]),
  (377, [114, 111, 110]),
  (378, [114, 117, 109]),
  (379, [114, 117, 110]),
  (380, [114, 117, 112]),
  (381, [114, 117, 115]),
  (382, [115, 97, 100]),
  (383, [115, 97, 103]),
  (384, [115, 97, 104]),
  (385, [115, 97, 105]),
  (386, [115, 97, 108]),
  (387, [115, 97, 109]),
  (388, [115, 97, 110]),
  (389, [115, 97, 115]),
  (390, [115, 97, 116]),
  (391, [115, 99, 110]),
  (392, [115, 99, 111]),
  (393, [115, 101, 108]),
  (394, [115, 101, 109]),
  (395, [115, 103, 97]),
  (396, [115, 103, 110]),
  (397, [115, 104, 110]),
  (398, [115, 105, 100]),
  (399, [115, 105, 110]),
  (400, [115, 105, 111]),
  (401, [115, 105, 116]),
  (402, [115, 108, 97]),
  (403, [115, 108, 111]),
  (404, [115, 108, 107]),
  (405, [115, 108, 118]),
  (406, [115, 109, 97]),
  (407, [115, 109, 101]),
  (408, [115, 109, 105]),
  (409, [115, 109, 106]),
  (410, [115, 109, 110]),
  (411, [115, 109, 111]),
  (412, [115, 109, 115]),
  (413, [115, 110, 97]),
  (414, [115, 110, 100]),
  (415, [115, 110, 107]),
  (416, [115, 111, 103]),
  (417, [115, 111, 109]),
  (418, [115, 111, 110]),
  (419, [115, 111, 116]),
  (420, [115, 112, 97]),
  (421, [115, 113, 105]),
  (422, [115, 114, 100]),
  (423, [115, 114, 110]),
  (424, [115, 114, 112]),
  (425, [115, 114, 114]),
  (426, [115, 115, 97]),
  (427, [115, 115, 119]),
  (428, [115, 117, 107]),
  (429, [115, 117, 110]),
  (430, [115, 117, 115]),
  (431, [115, 117, 120]),
  (432, [115, 119, 97]),
  (433, [115, 119, 101]),
  (434, [115, 121, 99]),
  (435, [115, 121, 114]),
  (436, [116, 97, 104]),
  (437, [116, 97, 105]),
  (438, [116, 97, 109]),
  (439, [116, 97, 116]),
  (440, [116, 101, 108]),
  (441, [116, 101, 109]),
  (442, [116, 101, 114]),
  (443, [116, 101, 116]),
  (444, [116, 103, 107]),
  (445, [116, 103, 108]),
  (446, [116, 104, 97]),
  (447, [116, 105, 98]),
  (448, [116, 105, 103]),
  (449, [116, 105, 114]),
  (450, [116, 105, 118]),
  (451, [116, 107, 108]),
  (452, [116, 108, 104]),
  (453, [116, 108, 105]),
  (454, [116, 109, 104]),
  (455, [116, 111, 103]),
  (456, [116, 111, 110]),
  (457, [116, 112, 105]),
  (458, [116, 115, 105]),
  (459, [116, 115, 110]),
  (460, [116, 115, 111]),
  (461, [116, 117, 107]),
  (462, [116, 117, 109]),
  (463, [116, 117, 112]),
  (464, [116, 117, 114]),
  (465, [116, 117, 116]),
  (466, [116, 118, 108]),
  (467, [116, 119, 105]),
  (468, [116, 121, 118]),
  (469, [117, 100, 109]),
  (470, [117, 103, 97]),
  (471, [117, 105, 103]),
  (472, [117, 107, 114]),
  (473, [117, 109, 98]),
  (474, [117, 110, 100]),
  (475, [117, 114, 100]),
  (476, [117, 122, 98]),
  (477, [118, 97, 105]),
  (478, [118, 101, 110]),
  (479, [118, 105, 101]),
  (480, [118, 111, 108]),
  (481, [118, 111, 116]),
  (482, [119, 97, 107]),
  (483, [119, 97, 108]),
  (484, [119, 97, 114]),
  (485, [119, 97, 115]),
  (486, [119, 101, 108]),
  (487, [119, 101, 110]),
  (488, [119, 108, 110]),
  (489, [119, 111, 108]),
  (490, [120, 97, 108]),
  (491, [120, 104, 111]),
  (492, [121, 97, 111]),
  (493, [121, 97, 112]),
  (494, [121, 105, 100]),
  (495, [121, 111, 114]),
  (496, [121, 112, 107]),
  (497, [122, 97, 112]),
  (498, [122, 98, 108]),
  (499, [122, 101, 110]),
  (500, [122, 103, 104]),
  (501, [122, 104, 97]),
  (502, [122, 104, 111]),
  (503, [122, 110, 100]),
  (504, [122, 117, 108]),
  (505, [122, 117, 110]),
  (506, [122, 120, 120]),
  (507, [122, 122, 97])]

/-- The table of `operator>>`: scribbu/charsets.cc L1712-2220. -/
def inTable : List (Bytes × Language) := [
  ([97, 97, 114], 1),
  ([97, 98, 107], 2),
  ([97, 99, 101], 3),
  ([97, 99, 104], 4),
  ([97, 100, 97], 5),
  ([97, 100, 121], 6),
  ([97, 102, 97], 7),
  ([97, 102, 104], 8),
  ([97, 102, 114], 9),
  ([97, 105, 110], 10),
  ([97, 107, 97], 11),
  ([97, 107, 107], 12),
  ([97, 108, 98], 13),
  ([97, 108, 101], 14),
  ([97, 108, 103], 15),
  ([97, 108, 116], 16),
  ([97, 109, 104], 17),
  ([97, 110, 103], 18),
  ([97, 110, 112], 19),
  ([97, 112, 97], 20),
  ([97, 114, 97], 21),
  ([97, 114, 99], 22),
  ([97, 114, 103], 23),
  ([97, 114, 109], 24),
  ([97, 114, 110], 25),
  ([97, 114, 112], 26),
  ([97, 114, 116], 27),
  ([97, 114, 119], 28),
  ([65, 83, 77], 29),
  ([97, 115, 116], 30),
  ([97, 116, 104], 31),
  ([97, 117, 115], 32),
  ([97, 118, 97], 33),
  ([97, 118, 101], 34),
  ([97, 119, 97], 35),
  ([97, 121, 109], 36),
  ([97, 122, 101], 37),
  ([98, 97, 100], 38),
  ([98, 97, 105], 39),
  ([98, 97, 107], 40),
  ([98, 97, 108], 41),
  ([98, 97, 109], 42),
  ([98, 97, 110], 43),
  ([98, 97, 113], 44),
  ([98, 97, 115], 45),
  ([98, 97, 116], 46),
  ([98, 101, 106], 47),
  ([98, 101, 108], 48),
  ([98, 101, 109], 49),
  ([98, 101, 110], 50),
  ([98, 101, 114], 51),
  ([98, 104, 111], 52),
  ([98, 105, 104], 53),
  ([98, 105, 107], 54),
  ([98, 105, 110], 55),
  ([98, 105, 115], 56),
  ([98, 108, 97], 57),
  ([98, 110, 116], 58),
  ([98, 111, 100], 59),
  ([98, 111, 115], 60),
  ([98, 114, 97], 61),
  ([98, 114, 101], 62),
  ([98, 116, 107], 63),
  ([98, 117, 97], 64),
  ([98, 117, 103], 65),
  ([98, 117, 108], 66),
  ([98, 117, 114], 67),
  ([98, 121, 110], 68),
  ([99, 97, 100], 69),
  ([99, 97, 105], 70),
  ([99, 97, 114], 71),
  ([99, 97, 116], 72),
  ([99, 97, 117], 73),
  ([99, 101, 98], 74),
  ([99, 101, 108], 75),
  ([99, 101, 115], 76),
  ([99, 104, 97], 77),
  ([99, 104, 98], 78),
  ([99, 104, 101], 79),
  ([99, 104, 103], 80),
  ([99, 104, 105], 81),
  ([99, 104, 107], 82),
  ([99, 104, 109], 83),
  ([99, 104, 110], 84),
  ([99, 104, 111], 85),
  ([99, 104, 112], 86),
  ([99, 104, 114], 87),
  ([99, 104, 117], 88),
  ([99, 104, 118], 89),
  ([99, 104, 121], 90),
  ([99, 109, 99], 91),
  ([99, 110, 114], 92),
  ([99, 111, 112], 93),
  ([99, 111, 114], 94),
  ([99, 111, 115], 95),
  ([99, 112, 101], 96),
  ([99, 112, 102], 97),
  ([99, 112, 112], 98),
  ([99, 114, 101], 99),
  ([99, 114, 104], 100),
  ([99, 114, 112], 101),
  ([99, 115, 98], 102),
  ([99, 117, 115], 103),
  ([99, 121, 109], 104),
  ([99, 122, 101], 105),
  ([100, 97, 107], 106),
  ([100, 97, 110], 107),
  ([100, 97, 114], 108),
  ([100, 97, 121], 109),
  ([100, 101, 108], 110),
  ([100, 101, 110], 111),
  ([100, 101, 117], 112),
  ([100, 103, 114], 113),
  ([100, 105, 110], 114),
  ([68, 73, 86], 115),
  ([100, 111, 105], 116),
  ([100, 114, 97], 117),
  ([100, 115, 98], 118),
  ([100, 117, 97], 119),
  ([100, 117, 109], 120),
  ([100, 117, 116], 121),
  ([100, 121, 117], 122),
  ([100, 122, 111], 123),
  ([101, 102, 105], 124),
  ([101, 103, 121], 125),
  ([101, 107, 97], 126),
  ([101, 108, 108], 127),
  ([101, 108, 120], 128),
  ([101, 110, 103], 129),
  ([101, 110, 109], 130),
  ([101, 112, 111], 131),
  ([101, 115, 116], 132),
  ([101, 117, 115], 133),
  ([101, 119, 101], 134),
  ([101, 119, 111], 135),
  ([102, 97, 110], 136),
  ([102, 97, 111], 137),
  ([102, 97, 115], 138),
  ([102, 97, 116], 139),
  ([102, 105, 106], 140),
  ([102, 105, 108], 141),
  ([102, 105, 110], 142),
  ([102, 105, 117], 143),
  ([102, 111, 110], 144),
  ([102, 114, 97], 145),
  ([102, 114, 101], 146),
  ([102, 114, 109], 147),
  ([102, 114, 111], 148),
  ([102, 114, 114], 149),
  ([102, 114, 115], 150),
  ([102, 114, 121], 151),
  ([102, 117, 108], 152),
  ([102, 117, 114], 153),
  ([103, 97, 97], 154),
  ([103, 97, 121], 155),
  ([103, 98, 97], 156),
  ([103, 101, 109], 157),
  ([103, 101, 111], 158),
  ([103, 101, 114], 159),
  ([103, 101, 122], 160),
  ([103, 105, 108], 161),
  ([103, 108, 97], 162),
  ([103, 108, 101], 163),
  ([103, 108, 103], 164),
  ([103, 108, 118], 165),
  ([103, 109, 104], 166),
  ([103, 111, 104], 167),
  ([103, 111, 110], 168),
  ([103, 111, 114], 169),
  ([103, 111, 116], 170),
  ([103, 114, 98], 171),
  ([103, 114, 99], 172),
  ([103, 114, 101], 173),
  ([103, 114, 110], 174),
  ([103, 115, 119], 175),
  ([103, 117, 106], 176),
  ([103, 119, 105], 177),
  ([104, 97, 105], 178),
  ([104, 97, 116], 179),
  ([104, 97, 117], 180),
  ([104, 97, 119], 181),
  ([104, 101, 98], 182),
  ([104, 101, 114], 183),
  ([104, 105, 108], 184),
  ([104, 105, 109], 185),
  ([104, 105, 110], 186),
  ([104, 105, 116], 187),
  ([104, 109, 110], 188),
  ([104, 109, 111], 189),
  ([104, 114, 118], 190),
  ([104, 115, 98], 191),
  ([104, 117, 110], 192),
  ([104, 117, 112], 193),
  ([104, 121, 101], 194),
  ([105, 98, 97], 195),
  ([105, 98, 111], 196),
  ([105, 99, 101], 197),
  ([105, 100, 111], 198),
  ([105, 105, 105], 199),
  ([105, 106, 111], 200),
  ([105, 107, 117], 201),
  ([105, 108, 101], 202),
  ([105, 108, 111], 203),
  ([105, 110, 97], 204),
  ([105, 110, 99], 205),
  ([105, 110, 100], 206),
  ([105, 110, 101], 207),
  ([105, 110, 104], 208),
  ([105, 112, 107], 209),
  ([105, 114, 97], 210),
  ([105, 114, 111], 211),
  ([105, 115, 108], 212),
  ([105, 116, 97], 213),
  ([106, 97, 118], 214),
  ([106, 98, 111], 215),
  ([106, 112, 110], 216),
  ([106, 112, 114], 217),
  ([106, 114, 98], 218),
  ([107, 97, 97], 219),
  ([107, 97, 98], 220),
  ([107, 97, 99], 221),
  ([107, 97, 108], 222),
  ([107, 97, 109], 223),
  ([107, 97, 110], 224),
  ([107, 97, 114], 225),
  ([107, 97, 115], 226),
  ([107, 97, 116], 227),
  ([107, 97, 117], 228),
  ([107, 97, 119], 229),
  ([107, 97, 122], 230),
  ([107, 98, 100], 231),
  ([107, 104, 97], 232),
  ([107, 104, 105], 233),
  ([107, 104, 109], 234),
  ([107, 104, 111], 235),
  ([107, 105, 107], 236),
  ([107, 105, 110], 237),
  ([107, 105, 114], 238),
  ([107, 109, 98], 239),
  ([107, 111, 107], 240),
  ([107, 111, 109], 241),
  ([107, 111, 110], 242),
  ([107, 111, 114], 243),
  ([107, 111, 115], 244),
  ([107, 112, 101], 245),
  ([107, 114, 99], 246),
  ([107, 114, 108], 247),
  ([107, 114, 111], 248),
  ([107, 114, 117], 249),
  ([107, 117, 97], 250),
  ([107, 117, 109], 251),
  ([107, 117, 114], 252),
  ([107, 117, 116], 253),
  ([108, 97, 100], 254),
  ([108, 97, 104], 255),
  ([108, 97, 109], 256),
  ([108, 97, 111], 257),
  ([108, 97, 116], 258),
  ([108, 97, 118], 259),
  ([108, 101, 122], 260),
  ([108, 105, 109], 261),
  ([108, 105, 110], 262),
  ([108, 105, 116], 263),
  ([108, 111, 108], 264),
  ([108, 111, 122], 265),
  ([108, 116, 122], 266),
  ([108, 117, 97], 267),
  ([108, 117, 98], 268),
  ([108, 117, 103], 269),
  ([108, 117, 105], 270),
  ([108, 117, 110], 271),
  ([108, 117, 111], 272),
  ([108, 117, 115], 273),
  ([109, 97, 99], 274),
  ([109, 97, 100], 275),
  ([109, 97, 103], 276),
  ([109, 97, 104], 277),
  ([109, 97, 105], 278),
  ([109, 97, 107], 279),
  ([109, 97, 108], 280),
  ([109, 97, 110], 281),
  ([109, 97, 111], 282),
  ([77, 65, 80], 283),
  ([109, 97, 114], 284),
  ([109, 97, 115], 285),
  ([109, 97, 121], 286),
  ([109, 100, 102], 287),
  ([109, 100, 114], 288),
  ([109, 101, 110], 289),
  ([109, 103, 97], 290),
  ([109, 105, 99], 291),
  ([77, 73, 78], 292),
  ([109, 105, 115], 293),
  ([109, 107, 100], 294),
  ([109, 107, 104], 295),
  ([109, 108, 103], 296),
  ([109, 108, 116], 297),
  ([109, 110, 99], 298),
  ([109, 110, 105], 299),
  ([109, 110, 111], 300),
  ([109, 111, 104], 301),
  ([109, 111, 110], 302),
  ([109, 111, 115], 303),
  ([109, 114, 105], 304),
  ([109, 115, 97], 305),
  ([109, 117, 108], 306),
  ([109, 117, 110], 307),
  ([109, 117, 115], 308),
  ([109, 119, 108], 309),
  ([109, 119, 114], 310),
  ([109, 121, 97], 311),
  ([109, 121, 110], 312),
  ([109, 121, 118], 313),
  ([110, 97, 104], 314),
  ([110, 97, 105], 315),
  ([110, 97, 112], 316),
  ([110, 97, 117], 317),
  ([110, 97, 118], 318),
  ([110, 98, 108], 319),
  ([110, 100, 101], 320),
  ([110, 100, 111], 321),
  ([110, 100, 115], 322),
  ([110, 101, 112], 323),
  ([78, 69, 87], 324),
  ([110, 105, 97], 325),
  ([110, 105, 99], 326),
  ([110, 105, 117], 327),
  ([110, 108, 100], 328),
  ([110, 110, 111], 329),
  ([110, 111, 98], 330),
  ([110, 111, 103], 331),
  ([110, 111, 110], 332),
  ([110, 111, 114], 333),
  ([110, 113, 111], 334),
  ([110, 115, 111], 335),
  ([110, 117, 98], 336),
  ([110, 119, 99], 337),
  ([110, 121, 97], 338),
  ([110, 121, 109], 339),
  ([110, 121, 110], 340),
  ([110, 121, 111], 341),
  ([110, 122, 105], 342),
  ([111, 99, 105], 343),
  ([111, 106, 105], 344),
  ([111, 114, 105], 345),
  ([111, 114, 109], 346),
  ([111, 115, 97], 347),
  ([111, 115, 115], 348),
  ([111, 116, 97], 349),
  ([111, 116, 111], 350),
  ([112, 97, 97], 351),
  ([112, 97, 103], 352),
  ([112, 97, 108], 353),
  ([112, 97, 109], 354),
  ([112, 97, 110], 355),
  ([112, 97, 112], 356),
  ([112, 97, 117], 357),
  ([112, 101, 111], 358),
  ([112, 101, 114], 359),
  ([112, 104, 105], 360),
  ([112, 104, 110], 361),
  ([112, 108, 105], 362),
  ([112, 111, 108], 363),
  ([112, 111, 110], 364),
  ([112, 111, 114], 365),
  ([112, 114, 97], 366),
  ([112, 114, 111], 367),
  ([112, 117, 115], 368),
  ([113, 97, 97], 369),
  ([113, 117, 101], 370),
  ([114, 97, 106], 371),
  ([114, 97, 112], 372),
  ([114, 97, 114], 373),
  ([114, 111, 97], 374),
  ([114, 111, 104], 375),
  ([114, 111, 109], 376),
  ([114, 111, 110], 377),
  ([114, 117, 109], 378),
  ([114, 117, 110], 379),
  ([114, 117, 112], 380),
  ([114, 117, 115], 381),
  ([115, 97, 100], 382),
  ([115, 97, 103], 383),
  ([115, 97, 104], 384),
  ([115, 97, 105], 385),
  ([115, 97, 108], 386),
  ([115, 97, 109], 387),
  ([115, 97, 110], 388),
  ([115, 97, 115], 389),
  ([115, 97, 116], 390),
  ([115, 99, 110], 391),
  ([115, 99, 111], 392),
  ([115, 101, 108], 393),
  ([115, 101, 109], 394),
  ([115, 103, 97], 395),
  ([115, 103, 110], 396),
  ([115, 104, 110], 397),
  ([115, 105, 100], 398),
  ([115, 105, 110], 399),
  ([115, 105, 111], 400),
  ([115, 105, 116], 401),
  ([115, 108, 97], 402),
  ([115, 108, 111], 403),
  ([115, 108, 107], 404),
  ([115, 108, 118], 405),
  ([115, 109, 97], 406),
  ([115, 109, 101], 407),
  ([115, 109, 105], 408),
  ([115, 109, 106], 409),
  ([115, 109, 110], 410),
  ([115, 109, 111], 411),
  ([115, 109, 115], 412),
  ([115, 110, 97], 413),
  ([115, 110, 100], 414),
  ([115, 110, 107], 415),
  ([115, 111, 103], 416),
  ([115, 111, 109], 417),
  ([115, 111, 110], 418),
  ([115, 111, 116], 419),
  ([115, 112, 97], 420),
  ([115, 113, 105], 421),
  ([115, 114, 100], 422),
  ([115, 114, 110], 423),
  ([115, 114, 112], 424),
  ([115, 114, 114], 425),
  ([115, 115, 97], 426),
  ([115, 115, 119], 427),
  ([115, 117, 107], 428),
  ([115, 117, 110], 429),
  ([115, 117, 115], 430),
  ([115, 117, 120], 431),
  ([115, 119, 97], 432),
  ([115, 119, 101], 433),
  ([115, 121, 99], 434),
  ([115, 121, 114], 435),
  ([116, 97, 104], 436),
  ([116, 97, 105], 437),
  ([116, 97, 109], 438),
  ([116, 97, 116], 439),
  ([116, 101, 108], 440),
  ([116, 101, 109], 441),
  ([116, 101, 114], 442),
  ([116, 101, 116], 443),
  ([116, 103, 107], 444),
  ([116, 103, 108], 445),
  ([116, 104, 97], 446),
  ([116, 105, 98], 447),
  ([116, 105, 103], 448),
  ([116, 105, 114], 449),
  ([116, 105, 118], 450),
  ([116, 107, 108], 451),
  ([116, 108, 104], 452),
  ([116, 108, 105], 453),
  ([116, 109, 104], 454),
  ([116, 111, 103], 455),
  ([116, 111, 110], 456),
  ([116, 112, 105], 457),
  ([116, 115, 105], 458),
  ([116, 115, 110], 459),
  ([116, 115, 111], 460),
  ([116, 117, 107], 461),
  ([116, 117, 109], 462),
  ([116, 117, 112], 463),
  ([116, 117, 114], 464),
  ([116, 117, 116], 465),
  ([116, 118, 108], 466),
  ([116, 119, 105], 467),
  ([116, 121, 118], 468),
  ([117, 100, 109], 469),
  ([117, 103, 97], 470),
  ([117, 105, 103], 471),
  ([117, 107, 114], 472),
  ([117, 109, 98], 473),
  ([117, 110, 100], 474),
  ([117, 114, 100], 475),
  ([117, 122, 98], 476),
  ([118, 97, 105], 477),
  ([118, 101, 110], 478),
  ([118, 105, 101], 479),
  ([118, 111, 108], 480),
  ([118, 111, 116], 481),
  ([119, 97, 107], 482),
  ([119, 97, 108], 483),
  ([119, 97, 114], 484),
  ([119, 97, 115], 485),
  ([119, 101, 108], 486),
  ([119, 101, 110], 487),
  ([119, 108, 110], 488),
  ([119, 111, 108], 489),
  ([120, 97, 108], 490),
  ([120, 104, 111], 491),
  ([121, 97, 111], 492),
  ([121, 97, 112], 493),
  ([121, 105, 100], 494),
  ([121, 111, 114], 495),
  ([121, 112, 107], 496),
  ([122, 97, 112], 497),
  ([122, 98, 108], 498),
  ([122, 101, 110], 499),
  ([122, 103, 104], 500),
  ([122, 104, 97], 501),
  ([122, 104, 111], 502),
  ([122, 110, 100], 503),
  ([122, 117, 108], 504),
  ([122, 117, 110], 505),
  ([122, 120, 120], 506),
  ([122, 122, 97], 507)]

/-- The table of `operator<<`: scribbu/charsets.cc L2234-2742. -/
def outTable : List (Language × Bytes) := [
  (1, [97, 97, 114]),
  (2, [97, 98, 107]),
  (3, [97, 99, 101]),
  (4, [97, 99, 104]),
  (5, [97, 100, 97]),
  (6, [97, 100, 121]),
  (7, [97, 102, 97]),
  (8, [97, 102, 104]),
  (9, [97, 102, 114]),
  (10, [97, 105, 110]),
  (11, [97, 107, 97]),
  (12, [97, 107, 107]),
  (13, [97, 108, 98]),
  (14, [97, 108, 101]),
  (15, [97, 108, 103]),
  (16, [97, 108, 116]),
  (17, [97, 109, 104]),
  (18, [97, 110, 103]),
  (19, [97, 110, 112]),
  (20, [97, 112, 97]),
  (21, [97, 114, 97]),
  (22, [97, 114, 99]),
  (23, [97, 114, 103]),
  (24, [97, 114, 109]),
  (25, [97, 114, 110]),
  (26, [97, 114, 112]),
  (27, [97, 114, 116]),
  (28, [97, 114, 119]),
  (29, [65, 83, 77]),
  (30, [97, 115, 116]),
  (31, [97, 116, 104]),
  (32, [97, 117, 115]),
  (33, [97, 118, 97]),
  (34, [97, 118, 101]),
  (35, [97, 119, 97]),
  (36, [97, 121, 109]),
  (37, [97, 122, 101]),
  (38, [98, 97, 100]),
  (39, [98, 97, 105]),
  (40, [98, 97, 107]),
  (41, [98, 97, 108]),
  (42, [98, 97, 109]),
  (43, [98, 97, 110]),
  (44, [98, 97, 113]),
  (45, [98, 97, 115]),
  (46, [98, 97, 116]),
  (47, [98, 101, 106]),
  (48, [98, 101, 108]),
  (49, [98, 101, 109]),
  (50, [98, 101, 110]),
  (51, [98, 101, 114]),
  (52, [98, 104, 111]),
  (53, [98, 105, 104]),
  (54, [98, 105, 107]),
  (55, [98, 105, 110]),
  (56, [98, 105, 115]),
  (57, [98, 108, 97]),
  (58, [98, 110, 116]),
  (59, [98, 111, 100]),
  (60, [98, 111, 115]),
  (61, [98, 114, 97]),
  (62, [98, 114, 101]),
  (63, [98, 116, 107]),
  (64, [98, 117, 97]),
  (65, [98, 117, 103]),
  (66, [98, 117, 108]),
  (67, [98, 117, 114]),
  (68, [98, 121, 110]),
  (69, [99, 97, 100]),
  (70, [99, 97, 105]),
  (71, [99, 97, 114]),
  (72, [99, 97, 116]),
  (73, [99, 97, 117]),
  (74, [99, 101, 98]),
  (75, [99, 101, 108]),
  (76, [99, 101, 115]),
  (77, [99, 104, 97]),
  (78, [99, 104, 98]),
  (79, [99, 104, 101]),
  (80, [99, 104, 103]),
  (81, [99, 104, 105]),
  (82, [99, 104, 107]),
  (83, [99, 104, 109]),
  (84, [99, 104, 110]),
  (85, [99, 104, 111]),
  (86, [99, 104, 112]),
  (87, [99, 104, 114]),
  (88, [99, 104, 117]),
  (89, [99, 104, 118]),
  (90, [99, 104, 121]),
  (91, [99, 109, 99]),
  (92, [99, 110, 114]),
  (93, [99, 111, 112]),
  (94, [99, 111, 114]),
  (95, [99, 111, 115]),
  (96, [99, 112, 101]),
  (97, [99, 112, 102]),
  (98, [99, 112, 112]),
  (99, [99, 114, 101]),
  (100, [99, 114, 104]),
  (101, [99, 114, 112]),
  (102, [99, 115, 98]),
  (103, [99, 117, 115]),
  (104, [99, 121, 109]),
  (105, [99, 122, 101]),
  (106, [100, 97, 107]),
  (107, [100, 97, 110]),
  (108, [100, 97, 114]),
  (109, [100, 97, 121]),
  (110, [100, 101, 108]),
  (111, [100, 101, 110]),
  (112, [100, 101, 117]),
  (113, [100, 103, 114]),
  (114, [100, 105, 110]),
  (115, [68, 73, 86]),
  (116, [100, 111, 105]),
  (117, [100, 114, 97]),
  (118, [100, 115, 98]),
  (119, [100, 117, 97]),
  (120, [100, 117, 109]),
  (121, [100, 117, 116]),
  (122, [100, 121, 117]),
  (123, [100, 122, 111]),
  (124, [101, 102, 105]),
  (125, [101, 103, 121]),
  (126, [101, 107, 97]),
  (127, [101, 108, 108]),
  (128, [101, 108, 120]),
  (129, [101, 110, 103]),
  (130, [101, 110, 109]),
  (131, [101, 112, 111]),
  (132, [101, 115, 116]),
  (133, [101, 117, 115]),
  (134, [101, 119, 101]),
  (135, [101, 119, 111]),
  (136, [102, 97, 110]),
  (137, [102, 97, 111]),
  (138, [102, 97, 115]),
  (139, [102, 97, 116]),
  (140, [102, 105, 106]),
  (141, [102, 105, 108]),
  (142, [102, 105, 110]),
  (143, [102, 105, 117]),
  (144, [102, 111, 110]),
  (145, [102, 114, 97]),
  (146, [102, 114, 101]),
  (147, [102, 114, 109]),
  (148, [102, 114, 111]),
  (149, [102, 114, 114]),
  (150, [102, 114, 115]),
  (151, [102, 114, 121]),
  (152, [102, 117, 108]),
  (153, [102, 117, 114]),
  (154, [103, 97, 97]),
  (155, [103, 97, 121]),
  (156, [103, 98, 97]),
  (157, [103, 101, 109]),
  (158, [103, 101, 111]),
  (159, [103, 101, 114]),
  (160, [103, 101, 122]),
  (161, [103, 105, 108]),
  (162, [103, 108, 97]),
  (163, [103, 108, 101]),
  (164, [103, 108, 103]),
  (165, [103, 108, 118]),
  (166, [103, 109, 104]),
  (167, [103, 111, 104]),
  (168, [103, 111, 110]),
  (169, [103, 111, 114]),
  (170, [103, 111, 116]),
  (171, [103, 114, 98]),
  (172, [103, 114, 99]),
  (173, [103, 114, 101]),
  (174, [103, 114, 110]),
  (175, [103, 115, 119]),
  (176, [103, 117, 106]),
  (177, [103, 119, 105]),
  (178, [104, 97, 105]),
  (179, [104, 97, 116]),
  (180, [104, 97, 117]),
  (181, [104, 97, 119]),
  (182, [104, 101, 98]),
  (183, [104, 101, 114]),
  (184, [104, 105, 108]),
  (185, [104, 105, 109]),
  (186, [104, 105, 110]),
  (187, [104, 105, 116]),
  (188, [104, 109, 110]),
  (189, [104, 109, 111]),
  (190, [104, 114, 118]),
  (191, [104, 115, 98]),
  (192, [104, 117, 110]),
  (193, [104, 117, 112]),
  (194, [104, 121, 101]),
  (195, [105, 98, 97]),
  (196, [105, 98, 111]),
  (197, [105, 99, 101]),
  (198, [105, 100, 111]),
  (199, [105, 105, 105]),
  (200, [105, 106, 111]),
  (201, [105, 107, 117]),
  (202, [105, 108, 101]),
  (203, [105, 108, 111]),
  (204, [105, 110, 97]),
  (205, [105, 110, 99]),
  (206, [105, 110, 100]),
  (207, [105, 110, 101]),
  (208, [105, 110, 104]),
  (209, [105, 112, 107]),
  (210, [105, 114, 97]),
  (211, [105, 114, 111]),
  (212, [105, 115, 108]),
  (213, [105, 116, 97]),
  (214, [106, 97, 118]),
  (215, [106, 98, 111]),
  (216, [106, 112, 110]),
  (217, [106, 112, 114]),
  (218, [106, 114, 98]),
  (219, [107, 97, 97]),
  (220, [107, 97, 98]),
  (221, [107, 97, 99]),
  (222, [107, 97, 108]),
  (223, [107, 97, 109]),
  (224, [107, 97, 110]),
  (225, [107, 97, 114]),
  (226, [107, 97, 115]),
  (227, [107, 97, 116]),
  (228, [107, 97, 117]),
  (229, [107, 97, 119]),
  (230, [107, 97, 122]),
  (231, [107, 98, 100]),
  (232, [107, 104, 97]),
  (233, [107, 104, 105]),
  (234, [107, 104, 109]),
  (235, [107, 104, 111]),
  (236, [107, 105, 107]),
  (237, [107, 105, 110]),
  (238, [107, 105, 114]),
  (239, [107, 109, 98]),
  (240, [107, 111, 107]),
  (241, [107, 111, 109]),
  (242, [107, 111, 110]),
  (243, [107, 111, 114]),
  (244, [107, 111, 115]),
  (245, [107, 112, 101]),
  (246, [107, 114, 99]),
  (247, [107, 114, 108]),
  (248, [107, 114, 111]),
  (249, [107, 114, 117]),
  (250, [107, 117, 97]),
  (251, [107, 117, 109]),
  (252, [107, 117, 114]),
  (253, [107, 117, 116]),
  (254, [108, 97, 100]),
  (255, [108, 97, 104]),
  (256, [108, 97, 109]),
  (257, [108, 97, 111]),
  (258, [108, 97, 116]),
  (259, [108, 97, 118]),
  (260, [108, 101, 122]),
  (261, [108, 105, 109]),
  (262, [108, 105, 110]),
  (263, [108, 105, 116]),
  (264, [108, 111, 108]),
  (265, [108, 111, 122]),
  (266, [108, 116, 122]),
  (267, [108, 117, 97]),
  (268, [108, 117, 98]),
  (269, [108, 117, 103]),
  (270, [108, 117, 105]),
  (271, [108, 117, 110]),
  (272, [108, 117, 111]),
  (273, [108, 117, 115]),
  (274, [109, 97, 99]),
  (275, [109, 97, 100]),
  (276, [109, 97, 103]),
  (277, [109, 97, 104]),
  (278, [109, 97, 105]),
  (279, [109, 97, 107]),
  (280, [109, 97, 108]),
  (281, [109, 97, 110]),
  (282, [109, 97, 111]),
  (283, [77, 65, 80]),
  (284, [109, 97, 114]),
  (285, [109, 97, 115]),
  (286, [109, 97, 121]),
  (287, [109, 100, 102]),
  (288, [109, 100, 114]),
  (289, [109, 101, 110]),
  (290, [109, 103, 97]),
  (291, [109, 105, 99]),
  (292, [77, 73, 78]),
  (293, [109, 105, 115]),
  (294, [109, 107, 100]),
  (295, [109, 107, 104]),
  (296, [109, 108, 103]),
  (297, [109, 108, 116]),
  (298, [109, 110, 99]),
  (299, [109, 110, 105]),
  (300, [109, 110, 111]),
  (301, [109, 111, 104]),
  (302, [109, 111, 110]),
  (303, [109, 111, 115]),
  (304, [109, 114, 105]),
  (305, [109, 115, 97]),
  (306, [109, 117, 108]),
  (307, [109, 117, 110]),
  (308, [109, 117, 115]),
  (309, [109, 119, 108]),
  (310, [109, 119, 114]),
  (311, [109, 121, 97]),
  (312, [109, 121, 110]),
  (313, [109, 121, 118]),
  (314, [110, 97, 104]),
  (315, [110, 97, 105]),
  (316, [110, 97, 112]),
  (317, [110, 97, 117]),
  (318, [110, 97, 118]),
  (319, [110, 98, 108]),
  (320, [110, 100, 101]),
  (321, [110, 100, 111]),
  (322, [110, 100, 115]),
  (323, [110, 101, 112]),
  (324, [78, 69, 87]),
  (325, [110, 105, 97]),
  (326, [110, 105, 99]),
  (327, [110, 105, 117]),
  (328, [110, 108, 100]),
  (329, [110, 110, 111]),
  (330, [110, 111, 98]),
  (331, [110, 111, 103]),
  (332, [110, 111, 110]),
  (333, [110, 111, 114]),
  (334, [110, 113, 111]),
  (335, [110, 115, 111]),
  (336, [110, 117, 98]),
  (337, [110, 119, 99]),
  (338, [110, 121, 97]),
  (339, [110, 121, 109]),
  (340, [110, 121, 110]),
  (341, [110, 121, 111]),
  (342, [110, 122, 105]),
  (343, [111, 99, 105]),
  (344, [111, 106, 105]),
  (345, [111, 114, 105]),
  (346, [111, 114, 109]),
  (347, [111, 115, 97]),
  (348, [111, 115, 115]),
  (349, [111, 116, 97]),
  (350, [111, 116, 111]),
  (351, [112, 97, 97]),
  (352, [112, 97, 103]),
  (353, [112, 97, 108]),
  (354, [112, 97, 109]),
  (355, [112, 97, 110]),
  (356, [112, 97, 112]),
  (357, [112, 97, 117]),
  (358, [112, 101, 111]),
  (359, [112, 101, 114]),
  (360, [112, 104, 105]),
  (361, [112, 104, 110]),
  (362, [112, 108, 105]),
  (363, [112, 111, 108]),
  (364, [112, 111, 110]),
  (365, [112, 111, 114]),
  (366, [112, 114, 97]),
  (367, [112, 114, 111]),
  (368, [112, 117, 115]),
  (369, [113, 97, 97]),
  (370, [113, 117, 101]),
  (371, [114, 97, 106]),
  (372, [114, 97, 112]),
  (373, [114, 97, 114]),
  (374, [114, 111, 97]),
  (375, [114, 111, 104]),
  (376, [114, 111, 109]),
  (377, [114, 111, 110]),
  (378, [114, 117, 109]),
  (379, [114, 117, 110]),
  (380, [114, 117, 112]),
  (381, [114, 117, 115]),
  (382, [115, 97, 100]),
  (383, [115, 97, 103]),
  (384, [115, 97, 104]),
  (385, [115, 97, 105]),
  (386, [115, 97, 108]),
  (387, [115, 97, 109]),
  (388, [115, 97, 110]),
  (389, [115, 97, 115]),
  (390, [115, 97, 116]),
  (391, [115, 99, 110]),
  (392, [115, 99, 111]),
  (393, [115, 101, 108]),
  (394, [115, 101, 109]),
  (395, [115, 103, 97]),
  (396, [115, 103, 110]),
  (397, [115, 104, 110]),
  (398, [115, 105, 100]),
  (399, [115, 105, 110]),
  (400, [115, 105, 111]),
  (401, [115, 105, 116]),
  (402, [115, 108, 97]),
  (403, [115, 108, 111]),
  (404, [115, 108, 107]),
  (405, [115, 108, 118]),
  (406, [115, 109, 97]),
  (407, [115, 109, 101]),
  (408, [115, 109, 105]),
  (409, [115, 109, 106]),
  (410, [115, 109, 110]),
  (411, [115, 109, 111]),
  (412, [115, 109, 115]),
  (413, [115, 110, 97]),
  (414, [115, 110, 100]),
  (415, [115, 110, 107]),
  (416, [115, 111, 103]),
  (417, [115, 111, 109]),
  (418, [115, 111, 110]),
  (419, [115, 111, 116]),
  (420, [115, 112, 97]),
  (421, [115, 113, 105]),
  (422, [115, 114, 100]),
  (423, [115, 114, 110]),
  (424, [115, 114, 112]),
  (425, [115, 114, 114]),
  (426, [115, 115, 97]),
  (427, [115, 115, 119]),
  (428, [115, 117, 107]),
  (429, [115, 117, 110]),
  (430, [115, 117, 115]),
  (431, [115, 117, 120]),
  (432, [115, 119, 97]),
  (433, [115, 119, 101]),
  (434, [115, 121, 99]),
  (435, [115, 121, 114]),
  (436, [116, 97, 104]),
  (437, [116, 97, 105]),
  (438, [116, 97, 109]),
  (439, [116, 97, 116]),
  (440, [116, 101, 108]),
  (441, [116, 101, 109]),
  (442, [116, 101, 114]),
  (443, [116, 101, 116]),
  (444, [116, 103, 107]),
  (445, [116, 103, 108]),
  (446, [116, 104, 97]),
  (447, [116, 105, 98]),
  (448, [116, 105, 103]),
  (449, [116, 105, 114]),
  (450, [116, 105, 118]),
  (451, [116, 107, 108]),
  (452, [116, 108, 104]),
  (453, [116, 108, 105]),
  (454, [116, 109, 104]),
  (455, [116, 111, 103]),
  (456, [116, 111, 110]),
  (457, [116, 112, 105]),
  (458, [116, 115, 105]),
  (459, [116, 115, 110]),
  (460, [116, 115, 111]),
  (461, [116, 117, 107]),
  (462, [116, 117, 109]),
  (463, [116, 117, 112]),
  (464, [116, 117, 114]),
  (465, [116, 117, 116]),
  (466, [116, 118, 108]),
  (467, [116, 119, 105]),
  (468, [116, 121, 118]),
  (469, [117, 100, 109]),
  (470, [117, 103, 97]),
  (471, [117, 105, 103]),
  (472, [117, 107, 114]),
  (473, [117, 109, 98]),
  (474, [117, 110, 100]),
  (475, [117, 114, 100]),
  (476, [117, 122, 98]),
  (477, [118, 97, 105]),
  (478, [118, 101, 110]),
  (479, [118, 105, 101]),
  (480, [118, 111, 108]),
  (481, [118, 111, 116]),
  (482, [119, 97, 107]),
  (483, [119, 97, 108]),
  (484, [119, 97, 114]),
  (485, [119, 97, 115]),
  (486, [119, 101, 108]),
  (487, [119, 101, 110]),
  (488, [119, 108, 110]),
  (489, [119, 111, 108]),
  (490, [120, 97, 108]),
  (491, [120, 104, 111]),
  (492, [121, 97, 111]),
  (493, [121, 97, 112]),
  (494, [121, 105, 100]),
  (495, [121, 111, 114]),
  (496, [121, 112, 107]),
  (497, [122, 97, 112]),
  (498, [122, 98, 108]),
  (499, [122, 101, 110]),
  (500, [122, 103, 104]),
  (501, [122, 104, 97]),
  (502, [122, 104, 111]),
  (503, [122, 110, 100]),
  (504, [122, 117, 108]),
  (505, [122, 117, 110]),
  (506, [122, 120, 120]),
  (507, [122, 122, 97])]

end Language
end Scribbu
