import Verif.Model.Main

/-!
# Options of sub-commands, on the command line and in the environment

src/dump.cc L328-427, src/genre.cc L777-903, src/m3u.cc L294-383, src/popm.cc L706-819, src/rename.cc L175-275, src/report.cc L474-578, src/split.cc L138-214, src/text.cc
L331-455, src/xtag.cc L456-575. The tables are those of the code; what is done with them is done by Boost.Program_options (`command_line_parser::run`, `store`,
`parse_environment`, `notify`), the parts of which that are reached in this way are written down here as Boost has them: the default style, all options with as many
tokens at least as at most.
-/

namespace Scribbu.Options

/-- The types of values. Which texts are of a type is a parameter (`Boost`). -/
inductive Ty where
  | text | path | size | uint | uchar | encoding | format | response
  deriving DecidableEq, Repr

/-- `po::bool_switch()`, `po::value<T>()`, `po::value<vector<T>>()`. -/
inductive Kind where
  | switch
  | value (t : Ty)
  | values (t : Ty)
  deriving DecidableEq, Repr

/-- A value. Simplified: texts are not converted; `default_value`s are the texts that stand for them. -/
inductive Val where
  | flag (b : Bool)
  | one (s : Bytes)
  | many (l : List Bytes)
  deriving DecidableEq, Repr

/-- An argument of `add_options()(...)`. -/
structure Opt where
  long : Bytes
  short : Option Byte
  kind : Kind
  required : Bool := false
  preset : Option Val := none
  deriving DecidableEq, Repr

/-- `bool_switch()` presets `false`. -/
def switch (long : Bytes) (short : Option Byte) : Opt := ⟨long, short, .switch, false, some (.flag false)⟩

/-- A sub-command: the options for the command line alone (`clopts`, `xclopts`), `opts`, `xopts`, how many words without an option it takes, and `ENV_OPTS`. -/
structure Cmd where
  name : Bytes
  cli : List Opt := [switch /- help -/ [104, 101, 108, 112] (some 104), switch /- info -/ [105, 110, 102, 111] none, switch /- man -/ [109, 97, 110] none]
  opts : List Opt
  hidden : List Opt
  positional : Bytes := /- arguments -/ [97, 114, 103, 117, 109, 101, 110, 116, 115]
  most : Option Nat := none
  env : List (Bytes × Bytes) := []
  deriving DecidableEq, Repr

/-- `all`: e.g. src/dump.cc L391-392. -/
def Cmd.all (c : Cmd) : List Opt := c.cli ++ c.opts ++ c.hidden

/-- The hidden option for files: e.g. src/dump.cc L381-386. -/
def arguments (required : Bool) : Opt := ⟨/- arguments -/ [97, 114, 103, 117, 109, 101, 110, 116, 115], none, .values .text, required, none⟩

/-- `dump`: src/dump.cc L353-416. -/
def dump : Cmd where
  name := /- dump -/ [100, 117, 109, 112]
  opts := [switch /- id3v1-tags -/ [105, 100, 51, 118, 49, 45, 116, 97, 103, 115] (some 49), switch /- track-data -/ [116, 114, 97, 99, 107, 45, 100, 97, 116, 97] (some 68), switch /- id3v2-tags -/ [105, 100, 51, 118, 50, 45, 116, 97, 103, 115] (some 50),
    ⟨/- indent -/ [105, 110, 100, 101, 110, 116], some 105, .value .size, false, some (.one /- 0 -/ [48])⟩, switch /- no-expand-genre -/ [110, 111, 45, 101, 120, 112, 97, 110, 100, 45, 103, 101, 110, 114, 101] (some 103), ⟨/- expression -/ [101, 120, 112, 114, 101, 115, 115, 105, 111, 110], some 101, .value .text, false, none⟩,
    ⟨/- format -/ [102, 111, 114, 109, 97, 116], some 102, .value .format, false, some (.one /- standard -/ [115, 116, 97, 110, 100, 97, 114, 100])⟩, ⟨/- num-comments -/ [110, 117, 109, 45, 99, 111, 109, 109, 101, 110, 116, 115], some 109, .value .size, false, some (.one /- 6 -/ [54])⟩,
    ⟨/- v1-encoding -/ [118, 49, 45, 101, 110, 99, 111, 100, 105, 110, 103], some 99, .value .encoding, false, some (.one /- CP1252 -/ [67, 80, 49, 50, 53, 50])⟩]
  hidden := [arguments true]
  env := [(/- SCRIBBU_NUM_COMMENTS -/ [83, 67, 82, 73, 66, 66, 85, 95, 78, 85, 77, 95, 67, 79, 77, 77, 69, 78, 84, 83], /- num-comments -/ [110, 117, 109, 45, 99, 111, 109, 109, 101, 110, 116, 115]), (/- SCRIBBU_V1_ENCODING -/ [83, 67, 82, 73, 66, 66, 85, 95, 86, 49, 95, 69, 78, 67, 79, 68, 73, 78, 71], /- v1-encoding -/ [118, 49, 45, 101, 110, 99, 111, 100, 105, 110, 103])]

/-- `genre`: src/genre.cc L802-894. -/
def genre : Cmd where
  name := /- genre -/ [103, 101, 110, 114, 101]
  opts := [switch /- adjust-unsync -/ [97, 100, 106, 117, 115, 116, 45, 117, 110, 115, 121, 110, 99] (some 117), switch /- always-create-v2 -/ [97, 108, 119, 97, 121, 115, 45, 99, 114, 101, 97, 116, 101, 45, 118, 50] (some 97), switch /- always-create-v1 -/ [97, 108, 119, 97, 121, 115, 45, 99, 114, 101, 97, 116, 101, 45, 118, 49] (some 65), switch /- create-backups -/ [99, 114, 101, 97, 116, 101, 45, 98, 97, 99, 107, 117, 112, 115] (some 98),
    switch /- create-v2 -/ [99, 114, 101, 97, 116, 101, 45, 118, 50] (some 99), switch /- create-v1 -/ [99, 114, 101, 97, 116, 101, 45, 118, 49] (some 67), switch /- dry-run -/ [100, 114, 121, 45, 114, 117, 110] (some 110), ⟨/- genre -/ [103, 101, 110, 114, 101], some 103, .value .text, false, none⟩,
    ⟨/- Genre -/ [71, 101, 110, 114, 101], some 71, .value .text, false, none⟩, switch /- list-winamp-genres -/ [108, 105, 115, 116, 45, 119, 105, 110, 97, 109, 112, 45, 103, 101, 110, 114, 101, 115] (some 87), switch /- no-pager -/ [110, 111, 45, 112, 97, 103, 101, 114] (some 80), ⟨/- tag -/ [116, 97, 103], some 116, .values .size, false, none⟩,
    ⟨/- v1 -/ [118, 49], some 118, .value .uchar, false, none⟩, switch /- v1-only -/ [118, 49, 45, 111, 110, 108, 121] (some 49), switch /- v2-only -/ [118, 50, 45, 111, 110, 108, 121] (some 50), switch /- verbose -/ [118, 101, 114, 98, 111, 115, 101] (some 118),
    ⟨/- winamp -/ [119, 105, 110, 97, 109, 112], some 119, .value .uint, false, none⟩]
  hidden := [arguments false]
  env := [(/- SCRIBBU_ADJUST_UNSYNC -/ [83, 67, 82, 73, 66, 66, 85, 95, 65, 68, 74, 85, 83, 84, 95, 85, 78, 83, 89, 78, 67], /- adjust-unsync -/ [97, 100, 106, 117, 115, 116, 45, 117, 110, 115, 121, 110, 99]), (/- SCRIBBU_ALWAYS_CREATE_V2 -/ [83, 67, 82, 73, 66, 66, 85, 95, 65, 76, 87, 65, 89, 83, 95, 67, 82, 69, 65, 84, 69, 95, 86, 50], /- always-create-v2 -/ [97, 108, 119, 97, 121, 115, 45, 99, 114, 101, 97, 116, 101, 45, 118, 50]), (/- SCRIBBU_ALWAYS_CREATE_V1 -/ [83, 67, 82, 73, 66, 66, 85, 95, 65, 76, 87, 65, 89, 83, 95, 67, 82, 69, 65, 84, 69, 95, 86, 49], /- always-create-v1 -/ [97, 108, 119, 97, 121, 115, 45, 99, 114, 101, 97, 116, 101, 45, 118, 49]),
    (/- SCRIBBU_CREATE_BACKUPS -/ [83, 67, 82, 73, 66, 66, 85, 95, 67, 82, 69, 65, 84, 69, 95, 66, 65, 67, 75, 85, 80, 83], /- create-backups -/ [99, 114, 101, 97, 116, 101, 45, 98, 97, 99, 107, 117, 112, 115]), (/- SCRIBBU_CREATE_V1 -/ [83, 67, 82, 73, 66, 66, 85, 95, 67, 82, 69, 65, 84, 69, 95, 86, 49], /- create-v1 -/ [99, 114, 101, 97, 116, 101, 45, 118, 49]), (/- SCRIBBU_CREATE_V2 -/ [83, 67, 82, 73, 66, 66, 85, 95, 67, 82, 69, 65, 84, 69, 95, 86, 50], /- create-v2 -/ [99, 114, 101, 97, 116, 101, 45, 118, 50]), (/- SCRIBBU_DRY_RUN -/ [83, 67, 82, 73, 66, 66, 85, 95, 68, 82, 89, 95, 82, 85, 78], /- dry-run -/ [100, 114, 121, 45, 114, 117, 110]),
    (/- SCRIBBU_V1_ONLY -/ [83, 67, 82, 73, 66, 66, 85, 95, 86, 49, 95, 79, 78, 76, 89], /- v1-only -/ [118, 49, 45, 111, 110, 108, 121]), (/- SCRIBBU_V2_ONLY -/ [83, 67, 82, 73, 66, 66, 85, 95, 86, 50, 95, 79, 78, 76, 89], /- v2-only -/ [118, 50, 45, 111, 110, 108, 121]), (/- SCRIBBU_VERBOSE -/ [83, 67, 82, 73, 66, 66, 85, 95, 86, 69, 82, 66, 79, 83, 69], /- verbose -/ [118, 101, 114, 98, 111, 115, 101])]

/-- `m3u`: src/m3u.cc L319-362. -/
def m3u : Cmd where
  name := /- m3u -/ [109, 51, 117]
  opts := [switch /- append -/ [97, 112, 112, 101, 110, 100] (some 97), ⟨/- on-encoding-failure -/ [111, 110, 45, 101, 110, 99, 111, 100, 105, 110, 103, 45, 102, 97, 105, 108, 117, 114, 101], some 101, .value .response, false, some (.one /- fail -/ [102, 97, 105, 108])⟩, ⟨/- output -/ [111, 117, 116, 112, 117, 116], some 111, .value .path, false, none⟩,
    ⟨/- source-encoding -/ [115, 111, 117, 114, 99, 101, 45, 101, 110, 99, 111, 100, 105, 110, 103], some 115, .value .encoding, false, some (.one /- CP1252 -/ [67, 80, 49, 50, 53, 50])⟩, switch /- use-utf8 -/ [117, 115, 101, 45, 117, 116, 102, 56] (some 56), switch /- verbose -/ [118, 101, 114, 98, 111, 115, 101] (some 118)]
  hidden := [arguments false]

/-- `popm`: src/popm.cc L731-810. -/
def popm : Cmd where
  name := /- popm -/ [112, 111, 112, 109]
  opts := [switch /- adjust-unsync -/ [97, 100, 106, 117, 115, 116, 45, 117, 110, 115, 121, 110, 99] (some 117), switch /- always-create-v2 -/ [97, 108, 119, 97, 121, 115, 45, 99, 114, 101, 97, 116, 101, 45, 118, 50] (some 97), ⟨/- count -/ [99, 111, 117, 110, 116], some 67, .value .size, false, none⟩, switch /- create-v2 -/ [99, 114, 101, 97, 116, 101, 45, 118, 50] (some 99),
    switch /- create-frame -/ [99, 114, 101, 97, 116, 101, 45, 102, 114, 97, 109, 101] (some 102), switch /- create-backups -/ [99, 114, 101, 97, 116, 101, 45, 98, 97, 99, 107, 117, 112, 115] (some 98), switch /- dry-run -/ [100, 114, 121, 45, 114, 117, 110] (some 110), ⟨/- increment -/ [105, 110, 99, 114, 101, 109, 101, 110, 116], some 105, .value .size, false, none⟩,
    ⟨/- owner -/ [111, 119, 110, 101, 114], some 111, .value .text, false, none⟩, switch /- playcount-only -/ [112, 108, 97, 121, 99, 111, 117, 110, 116, 45, 111, 110, 108, 121] (some 112), switch /- popularimeter-only -/ [112, 111, 112, 117, 108, 97, 114, 105, 109, 101, 116, 101, 114, 45, 111, 110, 108, 121] (some 109),
    ⟨/- rating -/ [114, 97, 116, 105, 110, 103], some 114, .value .text, false, none⟩, ⟨/- tag -/ [116, 97, 103], some 116, .values .size, false, none⟩, switch /- verbose -/ [118, 101, 114, 98, 111, 115, 101] (some 118)]
  hidden := [arguments true]
  env := [(/- SCRIBBU_ADJUST_UNSYNC -/ [83, 67, 82, 73, 66, 66, 85, 95, 65, 68, 74, 85, 83, 84, 95, 85, 78, 83, 89, 78, 67], /- adjust-unsync -/ [97, 100, 106, 117, 115, 116, 45, 117, 110, 115, 121, 110, 99]), (/- SCRIBBU_CREATE -/ [83, 67, 82, 73, 66, 66, 85, 95, 67, 82, 69, 65, 84, 69], /- create -/ [99, 114, 101, 97, 116, 101]), (/- SCRIBBU_CREATE_BACKUPS -/ [83, 67, 82, 73, 66, 66, 85, 95, 67, 82, 69, 65, 84, 69, 95, 66, 65, 67, 75, 85, 80, 83], /- create-backups -/ [99, 114, 101, 97, 116, 101, 45, 98, 97, 99, 107, 117, 112, 115]), (/- SCRIBBU_DRY_RUN -/ [83, 67, 82, 73, 66, 66, 85, 95, 68, 82, 89, 95, 82, 85, 78], /- dry-run -/ [100, 114, 121, 45, 114, 117, 110]),
    (/- SCRIBBU_OWNER -/ [83, 67, 82, 73, 66, 66, 85, 95, 79, 87, 78, 69, 82], /- owner -/ [111, 119, 110, 101, 114]), (/- SCRIBBU_VERBOSE -/ [83, 67, 82, 73, 66, 66, 85, 95, 86, 69, 82, 66, 79, 83, 69], /- verbose -/ [118, 101, 114, 98, 111, 115, 101])]

/-- `rename`: src/rename.cc L196-257. -/
def rename : Cmd where
  name := /- rename -/ [114, 101, 110, 97, 109, 101]
  opts := [switch /- dry-run -/ [100, 114, 121, 45, 114, 117, 110] (some 110), ⟨/- output -/ [111, 117, 116, 112, 117, 116], some 111, .value .path, false, none⟩, switch /- rename -/ [114, 101, 110, 97, 109, 101] (some 114),
    ⟨/- template -/ [116, 101, 109, 112, 108, 97, 116, 101], some 116, .value .text, false, some (.one /- %A - %T.mp3 -/ [37, 65, 32, 45, 32, 37, 84, 46, 109, 112, 51])⟩, switch /- verbose -/ [118, 101, 114, 98, 111, 115, 101] (some 118)]
  hidden := [arguments true]
  env := [(/- SCRIBBU_DRY_RUN -/ [83, 67, 82, 73, 66, 66, 85, 95, 68, 82, 89, 95, 82, 85, 78], /- dry-run -/ [100, 114, 121, 45, 114, 117, 110]), (/- SCRIBBU_OUTPUT -/ [83, 67, 82, 73, 66, 66, 85, 95, 79, 85, 84, 80, 85, 84], /- output -/ [111, 117, 116, 112, 117, 116]), (/- SCRIBBU_VERBOSE -/ [83, 67, 82, 73, 66, 66, 85, 95, 86, 69, 82, 66, 79, 83, 69], /- verbose -/ [118, 101, 114, 98, 111, 115, 101])]

/-- `report`: src/report.cc L499-542. -/
def report : Cmd where
  name := /- report -/ [114, 101, 112, 111, 114, 116]
  opts := [⟨/- num-comments -/ [110, 117, 109, 45, 99, 111, 109, 109, 101, 110, 116, 115], some 99, .value .size, false, some (.one /- 6 -/ [54])⟩, ⟨/- output -/ [111, 117, 116, 112, 117, 116], some 111, .value .path, true, none⟩, switch /- tsv -/ [116, 115, 118] (some 116),
    ⟨/- v1-encoding -/ [118, 49, 45, 101, 110, 99, 111, 100, 105, 110, 103], some 49, .value .encoding, false, some (.one /- CP1252 -/ [67, 80, 49, 50, 53, 50])⟩, switch /- no-directory -/ [110, 111, 45, 100, 105, 114, 101, 99, 116, 111, 114, 121] (some 100), switch /- ascii-delimited -/ [97, 115, 99, 105, 105, 45, 100, 101, 108, 105, 109, 105, 116, 101, 100] (some 97),
    switch /- no-summary -/ [110, 111, 45, 115, 117, 109, 109, 97, 114, 121] (some 83)]
  hidden := [arguments true]

/-- `split`: src/split.cc L163-192. -/
def split : Cmd where
  name := /- split -/ [115, 112, 108, 105, 116]
  opts := [⟨/- suffix -/ [115, 117, 102, 102, 105, 120], none, .value .text, false, some (.one [])⟩]
  hidden := [⟨/- argument -/ [97, 114, 103, 117, 109, 101, 110, 116], none, .value .text, true, none⟩]
  positional := /- argument -/ [97, 114, 103, 117, 109, 101, 110, 116]
  most := some 1

/-- `text`: src/text.cc L356-436. -/
def text : Cmd where
  name := /- text -/ [116, 101, 120, 116]
  opts := [switch /- adjust-unsync -/ [97, 100, 106, 117, 115, 116, 45, 117, 110, 115, 121, 110, 99] (some 117), ⟨/- album -/ [97, 108, 98, 117, 109], some 97, .value .text, false, none⟩, switch /- always-create-v2 -/ [97, 108, 119, 97, 121, 115, 45, 99, 114, 101, 97, 116, 101, 45, 118, 50] (some 67),
    ⟨/- artist -/ [97, 114, 116, 105, 115, 116], some 65, .value .text, false, none⟩, switch /- create-backups -/ [99, 114, 101, 97, 116, 101, 45, 98, 97, 99, 107, 117, 112, 115] (some 98), switch /- create-v2 -/ [99, 114, 101, 97, 116, 101, 45, 118, 50] (some 99), ⟨/- delete -/ [100, 101, 108, 101, 116, 101], some 100, .values .text, false, none⟩,
    ⟨/- encoding -/ [101, 110, 99, 111, 100, 105, 110, 103], some 69, .value .encoding, false, none⟩, ⟨/- encoded-by -/ [101, 110, 99, 111, 100, 101, 100, 45, 98, 121], some 101, .value .text, false, none⟩, ⟨/- genre -/ [103, 101, 110, 114, 101], some 103, .value .text, false, none⟩,
    ⟨/- tag -/ [116, 97, 103], some 116, .values .size, false, none⟩, ⟨/- title -/ [116, 105, 116, 108, 101], some 84, .value .text, false, none⟩, ⟨/- track -/ [116, 114, 97, 99, 107], some 107, .value .text, false, none⟩,
    ⟨/- year -/ [121, 101, 97, 114], some 121, .value .text, false, none⟩, switch /- verbose -/ [118, 101, 114, 98, 111, 115, 101] (some 118)]
  hidden := [arguments true]
  env := [(/- SCRIBBU_ADJUST_UNSYNC -/ [83, 67, 82, 73, 66, 66, 85, 95, 65, 68, 74, 85, 83, 84, 95, 85, 78, 83, 89, 78, 67], /- adjust-unsync -/ [97, 100, 106, 117, 115, 116, 45, 117, 110, 115, 121, 110, 99]), (/- SCRIBBU_ALWAYS_CREATE_V2 -/ [83, 67, 82, 73, 66, 66, 85, 95, 65, 76, 87, 65, 89, 83, 95, 67, 82, 69, 65, 84, 69, 95, 86, 50], /- always-create-v2 -/ [97, 108, 119, 97, 121, 115, 45, 99, 114, 101, 97, 116, 101, 45, 118, 50]), (/- SCRIBBU_CREATE_BACKUPS -/ [83, 67, 82, 73, 66, 66, 85, 95, 67, 82, 69, 65, 84, 69, 95, 66, 65, 67, 75, 85, 80, 83], /- create-backups -/ [99, 114, 101, 97, 116, 101, 45, 98, 97, 99, 107, 117, 112, 115]),
    (/- SCRIBBU_CREATE_V2 -/ [83, 67, 82, 73, 66, 66, 85, 95, 67, 82, 69, 65, 84, 69, 95, 86, 50], /- create-v2 -/ [99, 114, 101, 97, 116, 101, 45, 118, 50]), (/- SCRIBBU_ENCODING -/ [83, 67, 82, 73, 66, 66, 85, 95, 69, 78, 67, 79, 68, 73, 78, 71], /- encoding -/ [101, 110, 99, 111, 100, 105, 110, 103])]

/-- `xtag`: src/xtag.cc L481-556. -/
def xtag : Cmd where
  name := /- xtag -/ [120, 116, 97, 103]
  opts := [switch /- adjust-unsync -/ [97, 100, 106, 117, 115, 116, 45, 117, 110, 115, 121, 110, 99] (some 117), switch /- always-create-v2 -/ [97, 108, 119, 97, 121, 115, 45, 99, 114, 101, 97, 116, 101, 45, 118, 50] (some 65), switch /- create-frame -/ [99, 114, 101, 97, 116, 101, 45, 102, 114, 97, 109, 101] (some 102), switch /- create-v2 -/ [99, 114, 101, 97, 116, 101, 45, 118, 50] (some 99),
    switch /- create-backups -/ [99, 114, 101, 97, 116, 101, 45, 98, 97, 99, 107, 117, 112, 115] (some 98), switch /- dry-run -/ [100, 114, 121, 45, 114, 117, 110] (some 110), switch /- get -/ [103, 101, 116] (some 103), switch /- merge -/ [109, 101, 114, 103, 101] (some 109), ⟨/- owner -/ [111, 119, 110, 101, 114], some 111, .value .text, false, none⟩,
    ⟨/- tag -/ [116, 97, 103], some 116, .values .size, false, none⟩, ⟨/- xtags -/ [120, 116, 97, 103, 115], some 84, .value .text, false, none⟩]
  hidden := [arguments true]
  env := [(/- SCRIBBU_ADJUST_UNSYNC -/ [83, 67, 82, 73, 66, 66, 85, 95, 65, 68, 74, 85, 83, 84, 95, 85, 78, 83, 89, 78, 67], /- adjust-unsync -/ [97, 100, 106, 117, 115, 116, 45, 117, 110, 115, 121, 110, 99]), (/- SCRIBBU_ALWAYS_CREATE_V2 -/ [83, 67, 82, 73, 66, 66, 85, 95, 65, 76, 87, 65, 89, 83, 95, 67, 82, 69, 65, 84, 69, 95, 86, 50], /- always-create-v2 -/ [97, 108, 119, 97, 121, 115, 45, 99, 114, 101, 97, 116, 101, 45, 118, 50]), (/- SCRIBBU_CREATE -/ [83, 67, 82, 73, 66, 66, 85, 95, 67, 82, 69, 65, 84, 69], /- create -/ [99, 114, 101, 97, 116, 101]),
    (/- SCRIBBU_CREATE_V2 -/ [83, 67, 82, 73, 66, 66, 85, 95, 67, 82, 69, 65, 84, 69, 95, 86, 50], /- create-v2 -/ [99, 114, 101, 97, 116, 101, 45, 118, 50]), (/- SCRIBBU_CREATE_BACKUPS -/ [83, 67, 82, 73, 66, 66, 85, 95, 67, 82, 69, 65, 84, 69, 95, 66, 65, 67, 75, 85, 80, 83], /- create-backups -/ [99, 114, 101, 97, 116, 101, 45, 98, 97, 99, 107, 117, 112, 115]), (/- SCRIBBU_DRY_RUN -/ [83, 67, 82, 73, 66, 66, 85, 95, 68, 82, 89, 95, 82, 85, 78], /- dry-run -/ [100, 114, 121, 45, 114, 117, 110]), (/- SCRIBBU_OWNER -/ [83, 67, 82, 73, 66, 66, 85, 95, 79, 87, 78, 69, 82], /- owner -/ [111, 119, 110, 101, 114])]

/-- The sub-commands with options. Not modelled here: `encodings`, which has options for help alone. -/
def commands : List Cmd := [dump, genre, m3u, popm, rename, report, split, text, xtag]

/-! ## The command line: `command_line_parser::run`, called e.g. in src/dump.cc L403-406 -/

/-- The outcomes of `option_description::match`. -/
inductive Match where
  | no | near | full
  deriving DecidableEq, Repr

/-- `option_description::match(name, approx, false, false)`. -/
def Opt.fits (o : Opt) (name : Bytes) (approx : Bool) : Match :=
  if o.long = name ∨ o.short.map (fun b => [45, b]) = some name then .full
  else if approx && name.isPrefixOf o.long then .near
  else .no

/-- `options_description::find_nothrow(name, approx, false, false)`. All exceptions derived from `po::error` are `invalidArgument`, here and below. -/
def find (os : List Opt) (name : Bytes) (approx : Bool) : Res (Option Opt) :=
  match os.filter (fun o => o.fits name approx = .full), os.filter (fun o => o.fits name approx = .near) with
  | [o], _ => .ok (some o)
  | [], [] => .ok none
  | [], [o] => .ok (some o)
  | _, _ => .throw .invalidArgument

/-- `po::option`: `string_key`, `value`, `original_tokens`. -/
structure Item where
  key : Bytes
  value : List Bytes
  tokens : List Bytes
  deriving DecidableEq, Repr

/-- `cmdline::parse_long_option`: nothing, if the word is not of that kind. -/
def parseLong (w : Bytes) : Res (List Item) :=
  match w with
  | 45 :: 45 :: c :: r =>
    let body := c :: r
    if 61 ∈ body then
      match (body.dropWhile (· ≠ 61)).tail with
      | [] => .throw .invalidArgument
      | v => .ok [⟨body.takeWhile (· ≠ 61), [v], [w]⟩]
    else .ok [⟨body, [], [w]⟩]
  | _ => .ok []

/-- The loop of `cmdline::parse_short_option` over the letters of the word `w`: `b`, and what follows it. -/
def letters (os : List Opt) (w : Bytes) (b : Byte) : Bytes → Res (List Item)
  | [] => (find os [45, b] false).bind fun _ => .ok [⟨[45, b], [], [w]⟩]
  | a :: r =>
    (find os [45, b] false).bind fun d =>
    if (d.map (·.kind)) = some .switch then (letters os w a r).bind fun l => .ok (⟨[45, b], [], []⟩ :: l)
    else .ok [⟨[45, b], [a :: r], [w]⟩]

/-- `cmdline::parse_short_option`: nothing, if the word is not of that kind. -/
def parseShort (os : List Opt) (w : Bytes) : Res (List Item) :=
  match w with
  | 45 :: b :: r => if b = 45 then .ok [] else letters os w b r
  | _ => .ok []

/-- The two of them, one after the other. -/
def parseWord (os : List Opt) (w : Bytes) : Res (List Item) :=
  (parseLong w).bind fun l => if l.isEmpty then parseShort os w else .ok l

/-- `cmdline::finish_option`: the option found and given its value, and the words that are left. -/
def finish (os : List Opt) (i : Item) (rest : List Bytes) : Res (Item × List Bytes) :=
  if i.key.isEmpty then .ok (i, rest)
  else
    (find os i.key true).bind fun
    | none => .throw .invalidArgument
    | some d =>
      if d.kind = .switch then if i.value.isEmpty then .ok ({ i with key := d.long }, rest) else .throw .invalidArgument
      else if !i.value.isEmpty then .ok ({ i with key := d.long }, rest)
      else
        match rest with
        | [] => .throw .invalidArgument
        | w :: rest =>
          (parseWord os w).bind fun l =>
          if l.isEmpty then .ok (⟨d.long, [w], i.tokens ++ [w]⟩, rest)
          else
            (find os w true).bind fun
            | some _ => .throw .invalidArgument
            | none => .ok (⟨d.long, [w], i.tokens ++ [w]⟩, rest)

/-- The options of one word finished; the last gets to see the words that follow. -/
def finishAll (os : List Opt) : List Item → List Bytes → Res (List Item × List Bytes)
  | [], rest => .ok ([], rest)
  | [i], rest => (finish os i rest).bind fun (i, rest) => .ok ([i], rest)
  | i :: l, rest => (finish os i []).bind fun (i, _) => (finishAll os l rest).bind fun (l, rest) => .ok (i :: l, rest)

/-- A word that is no option. -/
def word (w : Bytes) : Item := ⟨[], [w], [w]⟩

/-- The loop of `cmdline::run`. The first argument bounds the number of rounds: each takes away a word at least. -/
def items (os : List Opt) : Nat → List Bytes → Res (List Item)
  | _, [] => .ok []
  | 0, _ :: _ => .ub .noProgress
  | n + 1, w :: rest =>
    (parseWord os w).bind fun l =>
    if l.isEmpty then
      if w = [45, 45] then .ok (rest.map word)
      else (items os n rest).bind fun l => .ok (word w :: l)
    else (finishAll os l rest).bind fun (l, rest) => (items os n rest).bind fun l' => .ok (l ++ l')

/-- `cmdline::run` where it names the words that are no options. The second argument is how many there were before. -/
def place (c : Cmd) : Nat → List Item → Res (List Item)
  | _, [] => .ok []
  | n, i :: l =>
    if i.key.isEmpty then
      if c.most.all (n < ·) then (place c (n + 1) l).bind fun l => .ok ({ i with key := c.positional } :: l)
      else .throw .invalidArgument
    else (place c n l).bind fun l => .ok (i :: l)

/-- `po::command_line_parser(tokens).options(all).positional(popts).run()`: e.g. src/dump.cc L403-406. -/
def run (c : Cmd) (words : List Bytes) : Res (List Item) := (items c.all words.length words).bind (place c 0)

/-! ## Values -/

/-- What Boost is asked for: whether a text is of a type (`boost::lexical_cast`, `operator>>`). -/
structure Boost where
  ok : Ty → Bytes → Bool

/-- `std::tolower` in the "C" locale. -/
def lower (b : Byte) : Byte := if 65 ≤ b ∧ b ≤ 90 then b + 32 else b

/-- `validate(v, xs, (bool*)0, 0)`. -/
def truth (s : Bytes) : Res Bool :=
  let t := s.map lower
  if t ∈ [[], /- on -/ [111, 110], /- yes -/ [121, 101, 115], /- 1 -/ [49], /- true -/ [116, 114, 117, 101]] then .ok true
  else if t ∈ [/- off -/ [111, 102, 102], /- no -/ [110, 111], /- 0 -/ [48], /- false -/ [102, 97, 108, 115, 101]] then .ok false
  else .throw .invalidArgument

/-- `po::variables_map`: for each name, the value and whether it is preset (`defaulted`). -/
abbrev Vars := Bytes → Option (Val × Bool)

/-- An element of the map set. -/
def Vars.set (m : Vars) (k : Bytes) (v : Val × Bool) : Vars := fun k' => if k' = k then some v else m k'

/-- The value that is there and not preset: storing does away with one that is preset. -/
def Vars.given (m : Vars) (k : Bytes) : Option Val :=
  match m k with
  | some (v, false) => some v
  | _ => none

/-- `typed_value::parse` for a value already there (`none` if not) and the texts given. More than one text cannot be given here. -/
def Boost.parse (B : Boost) (o : Opt) (old : Option Val) (given : List Bytes) : Res Val :=
  match o.kind, old, given with
  | .switch, none, [] => (truth []).bind fun b => .ok (.flag b)
  | .switch, none, [s] => (truth s).bind fun b => .ok (.flag b)
  | .value t, none, [s] => if B.ok t s then .ok (.one s) else .throw .invalidArgument
  | .values t, none, [s] => if B.ok t s then .ok (.many [s]) else .throw .invalidArgument
  | .values t, some (.many l), [s] => if B.ok t s then .ok (.many (l ++ [s])) else .throw .invalidArgument
  | _, _, _ => .throw .invalidArgument

/-- The first loop of `po::store`: `final` are the names given in earlier calls. -/
def put (B : Boost) (os : List Opt) (final : Bytes → Bool) : List Item → Vars → Res Vars
  | [], m => .ok m
  | i :: l, m =>
    if i.key.isEmpty || final i.key then put B os final l m
    else
      (find os i.key false).bind fun
      | none => .throw .invalidArgument
      | some d =>
        (B.parse d (m.given i.key) i.value).bind fun v => put B os final l (m.set i.key (v, false))

/-- The body of the second loop of `po::store`. -/
def preset (o : Opt) (m : Vars) : Vars :=
  match m o.long, o.preset with
  | none, some v => m.set o.long (v, true)
  | _, _ => m

/-- The second loop of `po::store`. -/
def presets : List Opt → Vars → Vars
  | [], m => m
  | o :: l, m => presets l (preset o m)

/-- `po::store(parsed, vm)`: e.g. src/dump.cc L411. -/
def store (B : Boost) (os : List Opt) (final : Bytes → Bool) (l : List Item) (m : Vars) : Res Vars :=
  (put B os final l m).bind fun m => .ok (presets os m)

/-- `po::parse_environment(opts, ...)`: e.g. src/dump.cc L413-420. The environment as a list of names and values. -/
def fromEnv (c : Cmd) (env : List (Bytes × Bytes)) : List Item :=
  env.filterMap fun (x, v) => (c.env.lookup x).map fun k => ⟨k, [v], []⟩

/-- `po::notify(vm)`: e.g. src/dump.cc L425. -/
def notify (os : List Opt) (m : Vars) : Res Vars :=
  if os.all (fun o => !o.required || (m o.long).isSome) then .ok m else .throw .invalidArgument

/-- The options of a sub-command from the words of the command line and the environment: e.g. src/dump.cc L400-425. Not here: what `maybe_handle_help` does in
between (`Main.maybeHelp`), which does not return if it does anything. -/
def options (B : Boost) (c : Cmd) (env : List (Bytes × Bytes)) (words : List Bytes) : Res Vars :=
  (run c words).bind fun l =>
  (store B c.all (fun _ => false) l (fun _ => none)).bind fun m =>
  (if c.env.isEmpty then .ok m else store B c.opts (fun k => l.any (·.key = k)) (fromEnv c env) m).bind fun m =>
  notify c.all m

/-- The files: src/dump.cc L428-431, src/genre.cc L960-966, L977-979 (without `--list-winamp-genres`), src/m3u.cc L405-409, src/popm.cc L911-916, src/rename.cc
L272-275, src/report.cc L574-577, src/split.cc L213, src/text.cc L449-454, src/xtag.cc L569-574. `boost::bad_any_cast` is `other`. -/
def files (c : Cmd) (m : Vars) : Res (List Bytes) :=
  match m c.positional with
  | some (.many l, _) => .ok l
  | some (.one s, _) => .ok [s]
  | _ => if c = genre then .throw .invalidArgument else .throw .other

end Scribbu.Options
