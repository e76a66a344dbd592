import Verif.Model.Basic

/-! # The command line of `scribbu`: src/scribbu.cc, and sub-commands and help in src/command-utilities.cc.

Words of the command line are lists of bytes without NUL, so that `strcmp` is equality and `strncmp(p, s, strlen(p))` asks for a prefix. Not modelled: signal handling,
the library's initialisation, the Guile interpreter, the texts of messages. -/

namespace Scribbu
namespace Main

/-- `help_level`: src/command-utilities.hh L68-70. -/
inductive Help
  | none | regular | verbose
  deriving DecidableEq, Repr

/-- `verbose_flavor`: src/command-utilities.hh L73-75. -/
inductive Flavor
  | man | info
  deriving DecidableEq, Repr

/-- What `handle_options` works on: `*argv` with `*argc` words, `gargv` with the slots that have been written, `n`, `*gargc`, and what it returns. `slots` is the array that
`main` allocates, src/scribbu.cc L389, of `argc + 1` pointers which hold nothing at first; `handle_options` is given its address plus one, L399. -/
structure St where
  argv : List Bytes
  slots : List (Option Bytes)
  n : Nat
  gargc : Nat
  version : Bool
  help : Help
  flav : Option Flavor
  deriving DecidableEq, Repr

/-- Writing a slot of the array. -/
def St.set (s : St) (i : Nat) (w : Bytes) : Res St :=
  if i < s.slots.length then .ok { s with slots := s.slots.set i (some w) } else .ub .oobWrite

/-- `gargv[n++] = (*argv)[0]; (*gargc)++; (*argv)++; (*argc)--;`: src/scribbu.cc L171-172 and elsewhere. -/
def St.shift (s : St) : Res St :=
  match s.argv with
  | [] => .ub .oobRead
  | w :: ws => (s.set (s.n + 1) w).bind fun s => .ok { s with n := s.n + 1, gargc := s.gargc + 1, argv := ws }

/-- `(*argv)++; (*argc)--;`: src/scribbu.cc L145 and elsewhere. -/
def St.drop (s : St) : St := { s with argv := s.argv.tail }

/-- `-h` -/
def wH : Bytes := [45, 104]
/-- `--help` -/
def wHelp : Bytes := [45, 45, 104, 101, 108, 112]
/-- `--man` -/
def wMan : Bytes := [45, 45, 109, 97, 110]
/-- `--info` -/
def wInfo : Bytes := [45, 45, 105, 110, 102, 111]
/-- `-v`, `--version` -/
def wVersions : List Bytes := [[45, 118], [45, 45, 118, 101, 114, 115, 105, 111, 110]]
/-- `-L`, `-C`, `-x`, `-l`, `-e` -/
def wPairs : List Bytes := [[45, 76], [45, 67], [45, 120], [45, 108], [45, 101]]
/-- `--language`, `--listen`, `--use-srfi` -/
def wPrefixes : List Bytes := [[45, 45, 108, 97, 110, 103, 117, 97, 103, 101], [45, 45, 108, 105, 115, 116, 101, 110], [45, 45, 117, 115, 101, 45, 115, 114, 102, 105]]
/-- `-ds`, `--debug`, `--no-debug`, `--auto-compile`, `--fresh-auto-compile`, `--no-auto-compile`, `-q`, `\` -/
def wSingles : List Bytes := [[45, 100, 115], [45, 45, 100, 101, 98, 117, 103], [45, 45, 110, 111, 45, 100, 101, 98, 117, 103],
  [45, 45, 97, 117, 116, 111, 45, 99, 111, 109, 112, 105, 108, 101],
  [45, 45, 102, 114, 101, 115, 104, 45, 97, 117, 116, 111, 45, 99, 111, 109, 112, 105, 108, 101],
  [45, 45, 110, 111, 45, 97, 117, 116, 111, 45, 99, 111, 109, 112, 105, 108, 101], [45, 113], [92]]
/-- `-c`, `-s` -/
def wScripts : List Bytes := [[45, 99], [45, 115]]
/-- `--` -/
def wStop : Bytes := [45, 45]

/-- How the loop of `handle_options` is left: at something that is not understood, with everything else to be copied, or by `po::required_option`. -/
inductive Out
  | bail (s : St)
  | rest (s : St)
  | missing
  deriving DecidableEq, Repr

/-- The loop of `handle_options`: src/scribbu.cc L138-226. Every turn takes a word at least; `fuel` is to be the number of words. -/
def loop : Nat → St → Res Out
  | 0, s => .ok (.bail s)
  | fuel + 1, s =>
    match s.argv with
    | [] => .ok (.bail s)
    | cmd :: _ =>
      if cmd = wH then loop fuel { s.drop with help := .regular }
      else if cmd = wHelp ∨ cmd = wMan then loop fuel { s.drop with help := .verbose, flav := some .man }
      else if cmd = wInfo then loop fuel { s.drop with help := .verbose, flav := some .info }
      else if cmd ∈ wVersions then loop fuel { s.drop with version := true }
      else if cmd ∈ wPairs then
        s.shift.bind fun s =>
        match s.argv with
        | [] => .ok .missing
        | _ :: _ => s.shift.bind fun s => loop fuel s
      else if (wPrefixes.any fun p => p.isPrefixOf cmd) ∨ cmd ∈ wSingles then s.shift.bind fun s => loop fuel s
      else if cmd ∈ wScripts then
        s.shift.bind fun s =>
        match s.argv with
        | [] => .ok .missing
        | _ :: _ => .ok (.rest s)
      else if cmd = wStop then .ok (.rest s)
      else .ok (.bail s)

/-- `while (*argc) ...`: src/scribbu.cc L228-235. -/
def copyRest : Nat → St → Res St
  | 0, s => .ok s
  | fuel + 1, s =>
    match s.argv with
    | [] => .ok s
    | _ :: _ => s.shift.bind fun s => copyRest fuel s

/-- `handle_options`: src/scribbu.cc L126-238. `none`: it throws `po::required_option`. -/
def handleOptions (s : St) : Res (Option St) :=
  (loop s.argv.length s).bind fun
    | .bail s => .ok (some s)
    | .rest s => (copyRest s.argv.length s).bind fun s => .ok (some s)
    | .missing => .ok none

/-- `while (argc) { gargv[gargc++] = argv[0]; argv++; argc--; }` in `main`: src/scribbu.cc L446-449. -/
def takeAll : Nat → St → Res St
  | 0, s => .ok s
  | fuel + 1, s =>
    match s.argv with
    | [] => .ok s
    | w :: ws => (s.set s.gargc w).bind fun s => takeAll fuel { s with gargc := s.gargc + 1, argv := ws }

/-- What `main` does in the end: src/scribbu.cc L403-479. `usage` is to be printed on standard output, `wrong` on standard error, with status 2; see `said` for where the names of
sub-commands go. `shell` is the call of `scm_shell`; the words are those in the first `gargc` slots. -/
inductive Did
  | version
  | man
  | info
  | usage
  | sub (name : Bytes) (args : List Bytes)
  | shell (words : List (Option Bytes))
  | wrong
  deriving DecidableEq, Repr

/-- `main`, from the parsing of the command line on: src/scribbu.cc L382-483. `has` is `has_sub_command`. The program's name is given, as POSIX has it; without it `main` would
construct a `string` from a null pointer. -/
def main (has : Bytes → Bool) (program : Bytes) (words : List Bytes) : Res Did :=
  let s : St := ⟨words, some program :: List.replicate (words.length + 1) none, 0, 1, false, .none, none⟩
  (handleOptions s).bind fun
    | none => .ok .wrong
    | some s =>
      if s.version then .ok .version
      else if s.help = .verbose then (if s.flav = some .man then .ok .man else .ok .info)
      else if s.help = .regular then .ok .usage
      else
        match s.argv with
        | w :: ws =>
          if has w then .ok (.sub w ws)
          else if w.head? = some 45 then .ok .wrong
          else
            (takeAll s.argv.length s).bind fun s =>
            if s.gargc < s.slots.length then .ok (.shell (s.slots.take s.gargc)) else .ub .oobWrite
        | [] => if s.gargc < s.slots.length then .ok (.shell (s.slots.take s.gargc)) else .ub .oobWrite

/-! ## Sub-commands -/

/-- The map from names to handlers; `h` stands for handlers. -/
abbrev Map (h : Type) := List (Bytes × h)

/-- `register_command::register_command`: src/command-utilities.cc L407-414. It runs before `main`; an exception there ends the program. -/
def register {h : Type} (m : Map h) (name : Bytes) (f : h) : Res (Map h) :=
  match m.lookup name with
  | some _ => .throw .outOfRange
  | none => .ok ((name, f) :: m)

/-- Registering some, one after the other: the order of initialisation of modules is not specified. -/
def registerAll {h : Type} : List (Bytes × h) → Map h → Res (Map h)
  | [], m => .ok m
  | (n, f) :: l, m => (register m n f).bind fun m => registerAll l m

/-- `has_sub_command`: src/command-utilities.cc L416-420. -/
def hasSub {h : Type} (m : Map h) (n : Bytes) : Bool := (m.lookup n).isSome

/-- `get_sub_command`: src/command-utilities.cc L422-425. -/
def getSub {h : Type} (m : Map h) (n : Bytes) : Res h :=
  match m.lookup n with
  | some f => .ok f
  | none => .throw .outOfRange

/-- Handlers: src/dump.cc L323, src/encodings.cc L67, src/genre.cc L775, src/m3u.cc L300, src/popm.cc L704, src/rename.cc L166, src/report.cc L471, src/split.cc L135, src/text.cc L324,
src/xtag.cc L455. -/
inductive Sub
  | encodings | popm | split | m3u | xtag | genre | report | dump | rename | text
  deriving DecidableEq, Repr

/-- What the modules register: src/encodings.cc L120, src/popm.cc L955, src/split.cc L233, src/m3u.cc L431, src/xtag.cc L653, src/genre.cc L1002, src/report.cc L654,
src/dump.cc L496, src/rename.cc L308, src/text.cc L546. -/
def subs : List (Bytes × Sub) := [
  ([101, 110, 99, 111, 100, 105, 110, 103, 115], .encodings), ([112, 111, 112, 109], .popm), ([115, 112, 108, 105, 116], .split), ([109, 51, 117], .m3u),
  ([120, 116, 97, 103], .xtag), ([103, 101, 110, 114, 101], .genre), ([114, 101, 112, 111, 114, 116], .report), ([100, 117, 109, 112], .dump),
  ([114, 101, 110, 97, 109, 101], .rename), ([116, 101, 120, 116], .text)]

/-! ## Where messages go, and the exit status -/

/-- What is written where: bytes of usage messages are not modelled, only that they are there (`true`), and the names of sub-commands. -/
structure Said where
  usageOut : Bool
  usageErr : Bool
  namesOut : List Bytes
  namesErr : List Bytes
  deriving DecidableEq, Repr

/-- `print_usage(os, ...)`: src/scribbu.cc L240-257. The usage message goes to `os`; the names of sub-commands go through an iterator on `cout`, L254. -/
def printUsage (toErr : Bool) (names : List Bytes) : Said := ⟨!toErr, toErr, names, []⟩

/-- What `main` says about itself: src/scribbu.cc L405-418, L468-472. -/
def said (names : List Bytes) : Did → Said
  | .usage => printUsage false names
  | .wrong => printUsage true names
  | _ => ⟨false, false, [], []⟩

/-! ## Help for sub-commands -/

/-- An element of `po::parsed_options::options`: an option or a positional word, with its `original_tokens`. Boost makes the words behind `--` positional, with themselves as
their tokens. -/
structure Parsed where
  positional : Bool
  tokens : List Bytes
  deriving DecidableEq, Repr

/-- The inner loop of `help_level_for_parsed_opts`: src/command-utilities.cc L77-90. -/
def helpTokens : List Bytes → Help × Option Flavor → Help × Option Flavor
  | [], r => r
  | t :: ts, r =>
    if t = wH then (.regular, r.2)
    else if t = wHelp ∨ t = wMan then (.verbose, some .man)
    else if t = wInfo then (.verbose, some .info)
    else helpTokens ts r

/-- `help_level_for_parsed_opts`: src/command-utilities.cc L67-95. -/
def helpLevel (os : List Parsed) : Help × Option Flavor := os.foldl (fun r o => helpTokens o.tokens r) (.none, none)

/-- What `maybe_handle_help` does: src/command-utilities.cc L137-165. `none`: it returns, and the sub-command is carried out. -/
def maybeHelp (os : List Parsed) : Option Did :=
  match helpLevel os with
  | (.none, _) => none
  | (.regular, _) => some .usage
  | (.verbose, f) => if f = some .man then some .man else some .info

end Main
end Scribbu
