import Verif.Spec.Edits

/-! # The documented genres

From the documentation (scribbu/winamp-genres.hh L33-168), not from the tables in scribbu/winamp-genres.cc. -/

namespace Scribbu.Spec

/-- The original ID3v1 list. -/
def genresV1 : List (List UInt8) := [
  /- 0 Blues -/ [66, 108, 117, 101, 115],
  /- 1 Classic Rock -/ [67, 108, 97, 115, 115, 105, 99, 32, 82, 111, 99, 107],
  /- 2 Country -/ [67, 111, 117, 110, 116, 114, 121],
  /- 3 Dance -/ [68, 97, 110, 99, 101],
  /- 4 Disco -/ [68, 105, 115, 99, 111],
  /- 5 Funk -/ [70, 117, 110, 107],
  /- 6 Grunge -/ [71, 114, 117, 110, 103, 101],
  /- 7 Hip-Hop -/ [72, 105, 112, 45, 72, 111, 112],
  /- 8 Jazz -/ [74, 97, 122, 122],
  /- 9 Metal -/ [77, 101, 116, 97, 108],
  /- 10 New Age -/ [78, 101, 119, 32, 65, 103, 101],
  /- 11 Oldies -/ [79, 108, 100, 105, 101, 115],
  /- 12 Other -/ [79, 116, 104, 101, 114],
  /- 13 Pop -/ [80, 111, 112],
  /- 14 R&B -/ [82, 38, 66],
  /- 15 Rap -/ [82, 97, 112],
  /- 16 Reggae -/ [82, 101, 103, 103, 97, 101],
  /- 17 Rock -/ [82, 111, 99, 107],
  /- 18 Techno -/ [84, 101, 99, 104, 110, 111],
  /- 19 Industrial -/ [73, 110, 100, 117, 115, 116, 114, 105, 97, 108],
  /- 20 Alternative -/ [65, 108, 116, 101, 114, 110, 97, 116, 105, 118, 101],
  /- 21 Ska -/ [83, 107, 97],
  /- 22 Death Metal -/ [68, 101, 97, 116, 104, 32, 77, 101, 116, 97, 108],
  /- 23 Pranks -/ [80, 114, 97, 110, 107, 115],
  /- 24 Soundtrack -/ [83, 111, 117, 110, 100, 116, 114, 97, 99, 107],
  /- 25 Euro-Techno -/ [69, 117, 114, 111, 45, 84, 101, 99, 104, 110, 111],
  /- 26 Ambient -/ [65, 109, 98, 105, 101, 110, 116],
  /- 27 Trip-Hop -/ [84, 114, 105, 112, 45, 72, 111, 112],
  /- 28 Vocal -/ [86, 111, 99, 97, 108],
  /- 29 Jazz+Funk -/ [74, 97, 122, 122, 43, 70, 117, 110, 107],
  /- 30 Fusion -/ [70, 117, 115, 105, 111, 110],
  /- 31 Trance -/ [84, 114, 97, 110, 99, 101],
  /- 32 Classical -/ [67, 108, 97, 115, 115, 105, 99, 97, 108],
  /- 33 Instrumental -/ [73, 110, 115, 116, 114, 117, 109, 101, 110, 116, 97, 108],
  /- 34 Acid -/ [65, 99, 105, 100],
  /- 35 House -/ [72, 111, 117, 115, 101],
  /- 36 Game -/ [71, 97, 109, 101],
  /- 37 Sound Clip -/ [83, 111, 117, 110, 100, 32, 67, 108, 105, 112],
  /- 38 Gospel -/ [71, 111, 115, 112, 101, 108],
  /- 39 Noise -/ [78, 111, 105, 115, 101],
  /- 40 AlternRock -/ [65, 108, 116, 101, 114, 110, 82, 111, 99, 107],
  /- 41 Bass -/ [66, 97, 115, 115],
  /- 42 Soul -/ [83, 111, 117, 108],
  /- 43 Punk -/ [80, 117, 110, 107],
  /- 44 Space -/ [83, 112, 97, 99, 101],
  /- 45 Meditative -/ [77, 101, 100, 105, 116, 97, 116, 105, 118, 101],
  /- 46 Instrumental Pop -/ [73, 110, 115, 116, 114, 117, 109, 101, 110, 116, 97, 108, 32, 80, 111, 112],
  /- 47 Instrumental Rock -/ [73, 110, 115, 116, 114, 117, 109, 101, 110, 116, 97, 108, 32, 82, 111, 99, 107],
  /- 48 Ethnic -/ [69, 116, 104, 110, 105, 99],
  /- 49 Gothic -/ [71, 111, 116, 104, 105, 99],
  /- 50 Darkwave -/ [68, 97, 114, 107, 119, 97, 118, 101],
  /- 51 Techno-Industrial -/ [84, 101, 99, 104, 110, 111, 45, 73, 110, 100, 117, 115, 116, 114, 105, 97, 108],
  /- 52 Electronic -/ [69, 108, 101, 99, 116, 114, 111, 110, 105, 99],
  /- 53 Pop-Folk -/ [80, 111, 112, 45, 70, 111, 108, 107],
  /- 54 Eurodance -/ [69, 117, 114, 111, 100, 97, 110, 99, 101],
  /- 55 Dream -/ [68, 114, 101, 97, 109],
  /- 56 Southern Rock -/ [83, 111, 117, 116, 104, 101, 114, 110, 32, 82, 111, 99, 107],
  /- 57 Comedy -/ [67, 111, 109, 101, 100, 121],
  /- 58 Cult -/ [67, 117, 108, 116],
  /- 59 Gangsta -/ [71, 97, 110, 103, 115, 116, 97],
  /- 60 Top 40 -/ [84, 111, 112, 32, 52, 48],
  /- 61 Christian Rap -/ [67, 104, 114, 105, 115, 116, 105, 97, 110, 32, 82, 97, 112],
  /- 62 Pop/Funk -/ [80, 111, 112, 47, 70, 117, 110, 107],
  /- 63 Jungle -/ [74, 117, 110, 103, 108, 101],
  /- 64 Native American -/ [78, 97, 116, 105, 118, 101, 32, 65, 109, 101, 114, 105, 99, 97, 110],
  /- 65 Cabaret -/ [67, 97, 98, 97, 114, 101, 116],
  /- 66 New Wave -/ [78, 101, 119, 32, 87, 97, 118, 101],
  /- 67 Psychadelic -/ [80, 115, 121, 99, 104, 97, 100, 101, 108, 105, 99],
  /- 68 Rave -/ [82, 97, 118, 101],
  /- 69 Showtunes -/ [83, 104, 111, 119, 116, 117, 110, 101, 115],
  /- 70 Trailer -/ [84, 114, 97, 105, 108, 101, 114],
  /- 71 Lo-Fi -/ [76, 111, 45, 70, 105],
  /- 72 Tribal -/ [84, 114, 105, 98, 97, 108],
  /- 73 Acid Punk -/ [65, 99, 105, 100, 32, 80, 117, 110, 107],
  /- 74 Acid Jazz -/ [65, 99, 105, 100, 32, 74, 97, 122, 122],
  /- 75 Polka -/ [80, 111, 108, 107, 97],
  /- 76 Retro -/ [82, 101, 116, 114, 111],
  /- 77 Musical -/ [77, 117, 115, 105, 99, 97, 108],
  /- 78 Rock & Roll -/ [82, 111, 99, 107, 32, 38, 32, 82, 111, 108, 108],
  /- 79 Hard Rock -/ [72, 97, 114, 100, 32, 82, 111, 99, 107]]

/-- The first additions. -/
def genresWinamp : List (List UInt8) := [
  /- 80 Folk -/ [70, 111, 108, 107],
  /- 81 Folk-Rock -/ [70, 111, 108, 107, 45, 82, 111, 99, 107],
  /- 82 National Folk -/ [78, 97, 116, 105, 111, 110, 97, 108, 32, 70, 111, 108, 107],
  /- 83 Swing -/ [83, 119, 105, 110, 103],
  /- 84 Fast Fusion -/ [70, 97, 115, 116, 32, 70, 117, 115, 105, 111, 110],
  /- 85 Bebob -/ [66, 101, 98, 111, 98],
  /- 86 Latin -/ [76, 97, 116, 105, 110],
  /- 87 Revival -/ [82, 101, 118, 105, 118, 97, 108],
  /- 88 Celtic -/ [67, 101, 108, 116, 105, 99],
  /- 89 Bluegrass -/ [66, 108, 117, 101, 103, 114, 97, 115, 115],
  /- 90 Avantgarde -/ [65, 118, 97, 110, 116, 103, 97, 114, 100, 101],
  /- 91 Gothic Rock -/ [71, 111, 116, 104, 105, 99, 32, 82, 111, 99, 107],
  /- 92 Progressive Rock -/ [80, 114, 111, 103, 114, 101, 115, 115, 105, 118, 101, 32, 82, 111, 99, 107],
  /- 93 Psychedelic Rock -/ [80, 115, 121, 99, 104, 101, 100, 101, 108, 105, 99, 32, 82, 111, 99, 107],
  /- 94 Symphonic Rock -/ [83, 121, 109, 112, 104, 111, 110, 105, 99, 32, 82, 111, 99, 107],
  /- 95 Slow Rock -/ [83, 108, 111, 119, 32, 82, 111, 99, 107],
  /- 96 Big Band -/ [66, 105, 103, 32, 66, 97, 110, 100],
  /- 97 Chorus -/ [67, 104, 111, 114, 117, 115],
  /- 98 Easy Listening -/ [69, 97, 115, 121, 32, 76, 105, 115, 116, 101, 110, 105, 110, 103],
  /- 99 Acoustic -/ [65, 99, 111, 117, 115, 116, 105, 99],
  /- 100 Humour -/ [72, 117, 109, 111, 117, 114],
  /- 101 Speech -/ [83, 112, 101, 101, 99, 104],
  /- 102 Chanson -/ [67, 104, 97, 110, 115, 111, 110],
  /- 103 Opera -/ [79, 112, 101, 114, 97],
  /- 104 Chamber Musice -/ [67, 104, 97, 109, 98, 101, 114, 32, 77, 117, 115, 105, 99, 101],
  /- 105 Sonata -/ [83, 111, 110, 97, 116, 97],
  /- 106 Symphony -/ [83, 121, 109, 112, 104, 111, 110, 121],
  /- 107 Booty Brass -/ [66, 111, 111, 116, 121, 32, 66, 114, 97, 115, 115],
  /- 108 Primus -/ [80, 114, 105, 109, 117, 115],
  /- 109 Porn Groove -/ [80, 111, 114, 110, 32, 71, 114, 111, 111, 118, 101],
  /- 110 Satire -/ [83, 97, 116, 105, 114, 101],
  /- 111 Slow Jam -/ [83, 108, 111, 119, 32, 74, 97, 109],
  /- 112 Club -/ [67, 108, 117, 98],
  /- 113 Tango -/ [84, 97, 110, 103, 111],
  /- 114 Samba -/ [83, 97, 109, 98, 97],
  /- 115 Folklore -/ [70, 111, 108, 107, 108, 111, 114, 101],
  /- 116 Ballad -/ [66, 97, 108, 108, 97, 100],
  /- 117 Power Ballad -/ [80, 111, 119, 101, 114, 32, 66, 97, 108, 108, 97, 100],
  /- 118 Rhytmic Soul -/ [82, 104, 121, 116, 109, 105, 99, 32, 83, 111, 117, 108],
  /- 119 Freestyle -/ [70, 114, 101, 101, 115, 116, 121, 108, 101],
  /- 120 Duet -/ [68, 117, 101, 116],
  /- 121 Punk Rock -/ [80, 117, 110, 107, 32, 82, 111, 99, 107],
  /- 122 Drum Solo -/ [68, 114, 117, 109, 32, 83, 111, 108, 111],
  /- 123 A Capela -/ [65, 32, 67, 97, 112, 101, 108, 97],
  /- 124 Euro-House -/ [69, 117, 114, 111, 45, 72, 111, 117, 115, 101],
  /- 125 Dance Hall -/ [68, 97, 110, 99, 101, 32, 72, 97, 108, 108],
  /- 126 Goa -/ [71, 111, 97],
  /- 127 Drum & Bass -/ [68, 114, 117, 109, 32, 38, 32, 66, 97, 115, 115],
  /- 128 Club-House -/ [67, 108, 117, 98, 45, 72, 111, 117, 115, 101],
  /- 129 Hardcore Techno -/ [72, 97, 114, 100, 99, 111, 114, 101, 32, 84, 101, 99, 104, 110, 111],
  /- 130 Terror -/ [84, 101, 114, 114, 111, 114],
  /- 131 Indie -/ [73, 110, 100, 105, 101],
  /- 132 BritPop -/ [66, 114, 105, 116, 80, 111, 112],
  /- 133 Negerpunk -/ [78, 101, 103, 101, 114, 112, 117, 110, 107],
  /- 134 Polsk Punk -/ [80, 111, 108, 115, 107, 32, 80, 117, 110, 107],
  /- 135 Beat -/ [66, 101, 97, 116],
  /- 136 Christian Gangsta Rap -/ [67, 104, 114, 105, 115, 116, 105, 97, 110, 32, 71, 97, 110, 103, 115, 116, 97, 32, 82, 97, 112],
  /- 137 Heavy Metal -/ [72, 101, 97, 118, 121, 32, 77, 101, 116, 97, 108],
  /- 138 Black Metal -/ [66, 108, 97, 99, 107, 32, 77, 101, 116, 97, 108],
  /- 139 Crossover -/ [67, 114, 111, 115, 115, 111, 118, 101, 114],
  /- 140 Contemporary Christian -/ [67, 111, 110, 116, 101, 109, 112, 111, 114, 97, 114, 121, 32, 67, 104, 114, 105, 115, 116, 105, 97, 110],
  /- 141 Christian rock -/ [67, 104, 114, 105, 115, 116, 105, 97, 110, 32, 114, 111, 99, 107]]

/-- Winamp 1.91. -/
def genres191 : List (List UInt8) := [
  /- 142 Merengue -/ [77, 101, 114, 101, 110, 103, 117, 101],
  /- 143 Salsa -/ [83, 97, 108, 115, 97],
  /- 144 Thrash Metal -/ [84, 104, 114, 97, 115, 104, 32, 77, 101, 116, 97, 108],
  /- 145 Anime -/ [65, 110, 105, 109, 101],
  /- 146 Jpop -/ [74, 112, 111, 112],
  /- 147 Synthpop -/ [83, 121, 110, 116, 104, 112, 111, 112]]

/-- Winamp 5.6. -/
def genres56 : List (List UInt8) := [
  /- 148 Abstract -/ [65, 98, 115, 116, 114, 97, 99, 116],
  /- 149 Art Rock -/ [65, 114, 116, 32, 82, 111, 99, 107],
  /- 150 Baroque -/ [66, 97, 114, 111, 113, 117, 101],
  /- 151 Bhangra -/ [66, 104, 97, 110, 103, 114, 97],
  /- 152 Big beat -/ [66, 105, 103, 32, 98, 101, 97, 116],
  /- 153 Breakbeat -/ [66, 114, 101, 97, 107, 98, 101, 97, 116],
  /- 154 Chillout -/ [67, 104, 105, 108, 108, 111, 117, 116],
  /- 155 Downtempo -/ [68, 111, 119, 110, 116, 101, 109, 112, 111],
  /- 156 Dub -/ [68, 117, 98],
  /- 157 EBM -/ [69, 66, 77],
  /- 158 Eclectic -/ [69, 99, 108, 101, 99, 116, 105, 99],
  /- 159 Electro -/ [69, 108, 101, 99, 116, 114, 111],
  /- 160 Electroclash -/ [69, 108, 101, 99, 116, 114, 111, 99, 108, 97, 115, 104],
  /- 161 Emo -/ [69, 109, 111],
  /- 162 Experimental -/ [69, 120, 112, 101, 114, 105, 109, 101, 110, 116, 97, 108],
  /- 163 Garage -/ [71, 97, 114, 97, 103, 101],
  /- 164 Global -/ [71, 108, 111, 98, 97, 108],
  /- 165 IDM -/ [73, 68, 77],
  /- 166 Illbient -/ [73, 108, 108, 98, 105, 101, 110, 116],
  /- 167 Industro-Goth -/ [73, 110, 100, 117, 115, 116, 114, 111, 45, 71, 111, 116, 104],
  /- 168 Jam Band -/ [74, 97, 109, 32, 66, 97, 110, 100],
  /- 169 Krautrock -/ [75, 114, 97, 117, 116, 114, 111, 99, 107],
  /- 170 Leftfield -/ [76, 101, 102, 116, 102, 105, 101, 108, 100],
  /- 171 Lounge -/ [76, 111, 117, 110, 103, 101],
  /- 172 Math Rock -/ [77, 97, 116, 104, 32, 82, 111, 99, 107],
  /- 173 New Romantic -/ [78, 101, 119, 32, 82, 111, 109, 97, 110, 116, 105, 99],
  /- 174 Nu-Breakz -/ [78, 117, 45, 66, 114, 101, 97, 107, 122],
  /- 175 Post-Punk -/ [80, 111, 115, 116, 45, 80, 117, 110, 107],
  /- 176 Post-Rock -/ [80, 111, 115, 116, 45, 82, 111, 99, 107],
  /- 177 Psytrance -/ [80, 115, 121, 116, 114, 97, 110, 99, 101],
  /- 178 Shoegaze -/ [83, 104, 111, 101, 103, 97, 122, 101],
  /- 179 Space Rock -/ [83, 112, 97, 99, 101, 32, 82, 111, 99, 107],
  /- 180 Trop Rock -/ [84, 114, 111, 112, 32, 82, 111, 99, 107],
  /- 181 World Music -/ [87, 111, 114, 108, 100, 32, 77, 117, 115, 105, 99],
  /- 182 Neoclassical -/ [78, 101, 111, 99, 108, 97, 115, 115, 105, 99, 97, 108],
  /- 183 Audiobook -/ [65, 117, 100, 105, 111, 98, 111, 111, 107],
  /- 184 Audio theatre -/ [65, 117, 100, 105, 111, 32, 116, 104, 101, 97, 116, 114, 101],
  /- 185 Neue Deutsche Welle -/ [78, 101, 117, 101, 32, 68, 101, 117, 116, 115, 99, 104, 101, 32, 87, 101, 108, 108, 101],
  /- 186 Podcast -/ [80, 111, 100, 99, 97, 115, 116],
  /- 187 Indie-Rock -/ [73, 110, 100, 105, 101, 45, 82, 111, 99, 107],
  /- 188 G-Funk -/ [71, 45, 70, 117, 110, 107],
  /- 189 Dubstep -/ [68, 117, 98, 115, 116, 101, 112],
  /- 190 Garage Rock -/ [71, 97, 114, 97, 103, 101, 32, 82, 111, 99, 107],
  /- 191 Psybient -/ [80, 115, 121, 98, 105, 101, 110, 116]]

/-- All the genres; the number of a genre is its position. -/
def genres : List (List UInt8) := genresV1 ++ genresWinamp ++ genres191 ++ genres56

/-- The code points of a name, upper-case letters made lower-case. -/
def folded (name : List UInt8) : List Nat :=
  name.map fun b => if 65 ≤ b.toNat ∧ b.toNat ≤ 90 then b.toNat + 32 else b.toNat

end Scribbu.Spec
