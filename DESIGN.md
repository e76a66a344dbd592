# Formal model of scribbu: design

The subject is the C++ library in `/repo/scribbu` and the command-line tool in
`/repo/src` (sp1ff/scribbu at the pinned commit). The model is in Lean 4 under
`lean/Verif/`; properties are listed in `properties.jsonl`, their status in
`MANIFEST.json`.

## Layout

* `lean/Verif/Model/*.lean` — definitions that model the C++ code, one file per
  area, every definition citing the file and lines it models and saying where
  it simplifies.
* `lean/Verif/Spec/*.lean` — small independent specifications (no use of the
  model's helpers) the properties are stated against.
* `lean/Verif/Proofs/*.lean` — helper lemmas.
* `lean/Verif/Props/*.lean` — the property theorems (named `Cnn_...`) and, next
  to each, `example`s showing a concrete non-trivial case meeting the
  hypotheses. When the code violates a property, the file contains a theorem
  refuting it on a concrete witness (`..._refuted`) and the strongest part that
  does hold (`..._partial`).

## Conventions

* Bytes are `UInt8`; byte strings are `List UInt8`; `std::size_t` is `Nat`
  unless wrap-around matters, in which case it is explicit.
* C++ outcomes are values of `Res α`: `ok a`, `throw e`, `ub u` (undefined
  behaviour: out-of-range read, uninitialised read, division by zero, null
  dereference, ...) and, for loops that may not terminate, a fuel-indexed
  function together with theorems quantified over every fuel.
* `std::istream` is a byte list, a position and an exception mask.
* File-system operations are a list of atomic steps on a finite map from paths
  to contents; a crash is a prefix of the steps.

## Plan per property

| id | modelled | proof |
|----|----------|-------|
| C01, C02 | the sync-safe codecs on `Nat`/`UInt8` | arithmetic (`omega`) |
| C03–C05 | `unsynchronise` as the one-pass loop; `resynchronise` as the block-moving in-place loop over an array with bounds-checked reads/writes | refinement of the loop to a recursive function; induction |
| C06 | `count_syncs` | induction; refutation with a witness between E0 and E9 |
| C07 | stream model of `looking_at_id3v2` | case analysis |
| C08 | `split_file` on streams | induction on the number of tags |
| C09 | `read_id3v2` vs `read_all_id3v2` | refutation with a witness; what holds about skipping by induction |
| C10–C14, C46 | `id3v1_tag` as a record with optional (uninitialised) fields; constructors, setters, `write` | list-slice lemmas, invariant over setter sequences; refutations |
| C15 | `find_id3v1_tag`, `track_data`, `compute_track_md5` with MD5 as an arbitrary function of the bytes | stream reasoning; refutation for the unhinted MD5 |
| C16, C17 | `urlencode`, `strtochar`, `urldecode` | induction, whole-table byte facts |
| C18, C19 | tag cloud map, `urlencoded`, `parse_to_map` state machine, `merge`, `update` | induction over the serialised text; map laws |
| C20, C21 | counter byte vectors, popularimeter codec | arithmetic, induction on increments |
| C22 | frame body codecs | list lemmas |
| C23 | ID3v2.2 frame header | arithmetic |
| C24 | flag byte writer/reader for v2.3/v2.4 | whole-table; refutation |
| C25, C26 | the frame cache as a state machine over histories | refutation; invariant for mutate-before-serialise histories |
| C27, C28 | tag `size`, `write`, `parse` for the three versions | induction over frames |
| C29, C30 | `parse` with bounds-checked reads; loops with fuel | refutations; partial theorems |
| C31 | tag as frame list plus lookup maps, container operations | refutation; invariant for append-only histories |
| C32, C33 | `adjust_padding_to`, `maybe_emplace_tagset`, `replace_tagset_*` over abstract tags with sizes | arithmetic, list lemmas |
| C34, C44 | file-system step sequences | invariant over every prefix |
| C35 | `get_backup_name` over a directory listing | refutation for relative paths; partial |
| C36, C37 | MP3 header parser and scanning loop | whole-table checks, well-founded progress |
| C38–C41 | template transformations, unescape, source selection | string induction, decision logic |
| C42, C45 | tables | `decide` over the whole table |
| C43 | `process_file` decision logic | induction over the tag list |
| C47 | `merge` and `update` with refused text | case analysis; refutation for `update` |
| C48–C51 | frame bodies (text, user text, comment, counter, popularimeter, identifiers, tag cloud) as parsers over bounds-checked reads, with their false-sync counters | list lemmas; refutations |
| C52 | the tables that map identifiers to classes of frames | `decide` over the whole table |
| C53–C57 | ID3v2.3 and ID3v2.4 tags: headers, extended headers, frames with flags, padding; reading and writing | induction over frames; refutations |
| C58–C60 | `replace_tagset_copy` as steps on files, with any step allowed to fail | invariant over every prefix and every fault |
| C61–C65, C71 | the scanner and parser of templates as the relations flex and bison guarantee; evaluation of terms | induction over terms and texts; refutations |
| C66–C70 | the renaming loop over files, between and within file systems | invariants over steps; refutations |
| C72–C77 | tables of encodings and languages, conversion with iconv as a parameter that obeys its contract | `decide` over whole tables, induction over iconv's calls |
| C78 | Damerau–Levenshtein by the code's loops over its table, and the search over all genres | refinement to a recursive specification, invariant over the rows |
| C79–C84 | `genre` and the tags made from tags of the other kind, directory walks | refinement of operations on tags to lists of items; induction over trees |
| C85–C87 | `text` | the same |
| C88–C91 | `popm` | the same, induction over runs |
| C92–C94 | `xtag` | the same, over what the bytes of tag clouds mean |
| C95 | Texts in comma-separated values | a reader for RFC 4180 as an automaton; induction over the text gives that each cell is read back, and which are not |
| C96, C97, C100, C103 | Reports as tables | printers as programs over a stream that carries its base; each is shown to put cells that read back as what the tag holds; induction over files gives the table |
| C98, C101, C102 | Runs of `report` | induction over arguments, directories and files, with failures at any point and any destination |
| C99 | Paths in reports | as C95, for `std::quoted` |
| C104–C107 | Playlists | a reader of extended M3U (lines, header, comments, items) as the specification; what `m3u` puts for one file is shown to read back as one item about it; induction over files |
| C108–C110, C112, C113 | Runs of `m3u` | induction over the arguments as a forest, in which every file, directory or question to the file system may fail |
| C111 | UTF-8 in playlists | UTF-8 as an inductive predicate, kept by each text that is put |
| C114–C117 | The command line of `scribbu` | a grammar of command lines as data; what becomes of each line, by induction over its global options |
| C118 | Every command line | invariant of the loop: what was copied and what is left are words of the command line, and there are slots for it |
| C119 | The table of sub-commands | all orders of registration, as permutations |
| C120 | Help for sub-commands | induction over parsed options; specification: the last option that asks for help |
| C121, C122 | `dump` in JSON: the printers and the loop over files | a reader of JSON as specification; what is printed is a rendering of values, which the reader takes apart again: mutual induction over values, then over frames, tags and files |
| C123 | `dump` in JSON: undefined behaviour | case analysis over frames; induction over the files that are come across |
| C124–C126 | `dump`: status, selection, several arguments | what is put does not depend on the state of the stream; induction over arguments |
| C127, C130, C131 | `dump` in lines: `standard_pprinter` | relations between tags, frames and the lines about them as specification; each printer is shown to put such lines from any state of the stream; induction over frames, tags and files |
| C128 | Indentation of dumps | case analysis over frames; induction over lines |
| C129 | `dump` in lines: undefined behaviour | what reading guarantees of tags (languages set, flags known) as an invariant of the readers; case analysis over frames |
| C132 | Parts of files | a grammar of files as tags from the beginning and an ID3v1 tag at the end; each reader is shown to consume the span of its tag; induction over tags |
| C133 | Seconds of playlist items | as C132, then induction over frames of audio; arithmetic of rationals; a footer behind the last tag by C207 |
| C134, C135 | ID3v1 tags in Scheme | values of Guile as data, objects as lists of slots; the documented slots as specification; reading by C10, writing by C12 and C75 |
| C136, C140 | ID3v2 tags in Scheme | the tables of symbols and functions as data, the documented list of symbols as an independent one; relations between frames and objects as specification; induction over frames and tags |
| C137, C138 | Writing ID3v2 tags from Scheme | relations between objects and the bytes of frames and tags as ID3v2.3 has them; induction over frames and tags; on top of C28 and C33; general theorems for the ways to undefined behaviour |
| C141, C142 | Walking directories in Scheme | trees as mutually inductive types; the functions of scheme/scribbu.scm on them; mutual induction, and for the generator an invariant: what it has given, together with what is pending, is a permutation of what is to be given |
| C145 | Files made by `split` | a model with the file system, the stream and a plan of failures; every state passed through is kept; refinement to the model of C08 |
| C146 | `encodings` | whole tables |
| C147, C148 | Manipulators | streams, heap and callbacks as a state machine; an invariant (who owns what) over all histories, simulating a specification that knows only what each stream was told |
| C149 | `customize_load_path`, `customize_welcome` over Guile's two variables | list induction |
| C150 | `CsvFrame.frame`: csv and tdf printers for single frames, over the stream's base | cell lemmas of C95, one lemma per class |
| C151 | `Registry`: threads, the mutex and the two tables as a transition system, one access to shared memory per step | invariant over all schedules, with a list of actions as witness of linearizability; a measure for termination under every schedule of rounds |
| C152 | `Parsers`: registering, `parse_frame`'s choice, and reading tags, over all histories; for several threads, C151's model | induction over histories |
| C153 | `CopyTag` over the look-up tables of C31 | induction over frames; general theorems for what goes wrong |
| C154 | `Direct`: the two halves of the header, over the stream of C07 | equational, on top of C07 and the readers of C22, C33 and C48 |
| C155 | `Mp3.findSync`, `Mp3.mp3Duration` over the stream of C07 | induction over the bytes left; against the first position of a pattern in a list |
| C156 | `VbrTags`: the tags with all their fields | round trip from the documented layout, for any selection of fields |
| C157 | `VbrTags.frame` over the headers of C36 | induction over the frames |
| C158 | `Tag23.write`, `Tag24.write`, `Ext23.write`, `Ext24.write`, `Frame4.crc` against a bit-by-bit CRC-32 | streaming law of the CRC by induction, then the layout of what is written |
| C159 | `AzTags.tag`: the example program az-tags, one tag | case analysis per frame, induction over the frames, against a relation between the frames before and after |
| C160 | `AzTags.file`, `AzTags.run` over the model of the file system | Hoare-style reasoning over all intermediate states, with the facts about emplacing tags and replacing ID3v1 tags |
| C161 | `AzTags.tag` applied to its own result | induction over the frames |
| C162 | `TextSet.new4`, `set4`, `asStr` over `Charset.toBytes`/`toText`; texts as lists of characters (`Spec/Unicode`), any library that converts faithfully | encoders and their sizes, refuted for ISO-8859-1 and UTF-16BE, partial for the rest; a faithful library is given |
| C163 | `TextSet.setTextFrame`, `textFrameAsStr` on tags after any history | refinement to `LTag.setText`; refuted for absent fields, exact conditions |
| C164 | `TextSet.put` against `Spec.TextSet.Standard` | case analysis; refuted for UCS-2 |
| C165 | `CommentSet.newComm` and `part` against `Spec.CommentSet.Comment`, over texts as characters (`Spec/Unicode.lean`) | the conversion of a faithful library; no null character means no terminator; the round trip of C22 |
| C166 | `CommentSet.newTxxx` against `Spec.CommentSet.UserText` | the same; refuted for Unicode in ID3v2.4 |
| C167 | `CommentSet.setText`, `setDescription` on comments read and made | the same; refuted for comments that were made, and for UTF-16BE |
| C168 | `CommentSet.addComment`, `addUserText` with the caller's `on_no_encoding` | computation; refuted, as it is not looked at |
| C169 | `Options.options`: the tables of all sub-commands, and what Boost.Program_options makes of the words (`run`), of the environment (`fromEnv`) and of values (`store`); `Spec.Options.Written` is the ways to write an option | tables by computation; the rest by induction on items and rounds; refuted for `-v` of `genre` |
| C170 | the same, `Spec.Options.Stands` is what a value of a variable means | the same; refuted for `SCRIBBU_CREATE` |
| C171 | the same, `Spec.Options.variableFor` is how variables are named | the same; refuted for `SCRIBBU_CREATE` |
| C172 | the same | names that were given are final; presets do not replace |
| C173 | the same | refuted: for all command lines, by an invariant of switches |
| C174 | the same, with `Options.files` | every outcome is a value or `po::error`; values are of the kinds of their options; refuted for `m3u` |
| C175 | `Pager.printGenres`, `winampValue` against `Spec.Pager.line`, `lines` | the whole table by computation, for every number |
| C176 | `Pager.winampGenres` against `Spec.Pager.Spaced` | induction on words; refuted for several blanks, blanks in front, and empty variables |
| C177 | the same, over all files and states passed through | refuted for the file with the list; all others stay |
| C178 | `Shared`: threads and the accesses to the flag and the caches of frames as a transition system, against `Spec.Shared.Race`, `alone` | refuted for every schedule with two calls of a frame that is not up to date; else by an invariant over all schedules, with the frames as each thread sees them |
| C179 | `Procs`: programs as steps on the file system, one per system call, of any number of processes in any order (`run`); alone they are `Replace.replaceTagsetCopy` (`C179_alone`); against `exec` | refuted with two processes that were given the same temporary name; else by confinement to disjoint sets of files, by induction over the schedule |
| C180 | `Procs.edit`, against `Spec.Procs.oneByOne`, `Version`, `Edited` | refuted with a lost update; completeness of the file by an invariant over all schedules; tags and audio by `C33_copy_partial` |
| C181 | `Procs.makeBackup` | refuted with two processes that choose the same name; backups from before by an invariant over all schedules |
| C182 | `Options.find`, `finish`, against `Spec.Options.Name` | refuted with the option for files, which is not listed; else by comparing the items of both command lines |
| C183, C184 | `Options.options`, `files`, against `Spec.Options.Reads` (a grammar of command lines), `Means` | induction over the command line as it is read, then over its items |
| C185 | `Process.edit` run twice, the second time over the tags as read back (`Spec.reread`), for `setTexts`, `setGenre`, `setXtag`, `setPopm` | refutation by runs; idempotence of each sub-command on a tag, lifted through the choice and making of tags |
| C186 | `textTag` run twice with different frames | refutation on an empty tag; the frames of each name are a function of the text asked for and the frames of the name before |
| C187 | `display` for all classes, with Guile's `format` directives | refutations on examples; escaped bytes are prefix-free, so written strings are injective; whatever `fromTag` gives has the slots that are displayed |
| C188 | `make` with the slots as they are defined | each slot by its keyword; refutation for the keyword that is not one; frames made without a symbol |
| C189 | `Procs.renameAll`: `process_file` as steps between which others may take steps; `C189_alone_partial` has it that without them it is the run of C44 | invariant over schedules: who writes which new file, that a complete copy is never written again, and what each process has left to do; refutation by a schedule that removes a file while it is written |
| C190 | the states of C34 and C44, with what a power failure may make of each (`Spec.AfterPowerLoss`) | invariant over the steps (the file is never absent and never partly written under its own name); refutation: nothing waits for the disk |
| C191 | `processFile` of C43, any number of times on one file, with any failure in each | invariant (`Keeps`) by induction over the runs, each run by the step logic; refutation by a history of two runs |
| C192 | the states `processFile` passes through | step logic with the invariant `Alive` at every step; refutations by moments of concrete runs; after any history by C191 |
| C193 | `Errors.what` for every class of exception; `strerror` is any text | classes by how messages begin, values by cancelling what is the same; numbers, quoted names and the names in tables are injective; refutations on examples |
| C194 | the states `processFile` passes through, run after run | an inductive relation of histories in which any run may end at any moment; the invariant `Bears` (complete tags, audio, debris) holds at every step; a torn tag is complete if both have one length; refutations by concrete histories |
| C195 | `maybeReadId3v2` and `Tag22.write`, `Tag23.write`, `Tag24.write`, one after the other | a relation of bytes to what they are rewritten to; bytes as a function of the layout of the frames, and induction over the number of rewritings; refutations by a marked title, a UCS-2 artist in ID3v2.2 and padding in ID3v2.4 |
| C196 | `Scheme.readTags` and `Tagset.maybeEmplace`, one after the other, over files with any number of tags | a relation of files to what they become; each tag follows its own sequence of bytes of one length (C195), these are put side by side by induction over the tags, and the simulation of C33 shows that they are emplaced; refutations by a marked title and by a UCS-2 artist in ID3v2.2, with which the file grows |
| C197 | `maybeReadId3v2` with the readers of the three versions, `Scheme.readTags` | each reader is shown to be a function of the header and of as many bytes as it announces, with one outcome if there are fewer; the loop by induction over the calls, for every prefix. What the registered parsers may do (C152) is not in these readers |
| C198 | `endsInId3v1`, `processId3v1`, `maybeRemoveId3v1`, `replaceId3v1` | what the stream operations come to is written as a function of the last 355 and the last 128 bytes, which a prefix does not change; the number is shown to be the least by 354 bytes whose tag depends on the byte before them |
| C199 | `splitFile`, `Scheme.readTags`, `processId3v1` | the pieces are complete tags, a track and perhaps an ID3v1 tag (C08); the track and the ID3v1 tag do not begin with an ID3v2 header, and C197 and the characterisation behind C198 do the rest |
| C200 | `TagCloud.addKey`, `addValue`, `merge`, `write`, `urlencoded` | each call adds a set of keys and values that does not depend on the cloud (C19); by induction over the calls the result represents the union, and sorted maps that represent the same are equal |
| C201 | `V1Tag.apply`, `V1Tag.applyAll`, `V1Tag.write` | as long as the tag stays of one kind each field is a function of the calls that set it, by induction over the calls; refutation by a title set before and after the speed |
| C202 | `unsynchronise`, `resynchronise` | both are determined on a concatenation by the last byte of the first piece, by induction over the first piece; any number of pieces by induction over the list of pieces |
| C203 | `LTag.setText`, `LTag.textOf`, `LTag.run` | invariant over all histories: an address belongs to one identifier and is never given out twice; from it what one setting changes, then by induction over the settings |
| C204 | `templateProcessor`, `Tpl.eval` | the source of two templates put together, texts that meet becoming one, is written as the manual explains (C61), by induction over the first; refutation by `%b` before `ase` |
| C205 | `urlencode`, `urldecode` | encoding is a homomorphism; decoding goes on with the second piece where a well-formed first one ends, by induction over the grammar; prefixes by decoding what follows; refutation by `%` before `41` |
| C206 | `TagCloud.merge`, `TagCloud.parseToMap` | what is accepted after more was read is accepted after less, by induction over the fields; the same cloud by C200; refutation by `x&x` |
| C207 | `mp3Duration` and all it calls, `M3u.readFile` | a simulation between a stream and the same with bytes before it, with a lower bound for the position carried through every read and jump; more steps change nothing, by induction over the loops; refutation by a footer; with a footer, if the audio begins with a frame, by C155 |
| C208 | `lookingAtId3v2`, `maybeReadId3v2`, `readId3v2`, `readAllId3v2`, `Tag22.read`, `Tag23.read`, `Tag24.read` | the simulation of C207, for what these functions do with a stream |
| C209 | `lookingAtId3v2`, `maybeReadId3v2`, `readId3v2`, `readAllId3v2`, `Tag22.read`, `Tag23.read`, `Tag24.read`, `mp3Duration` | outcomes and final streams as functions of data and place alone, closed under sequencing; for the duration, equal but for the last step; refutation by a Xing header that is cut short |
| C144 | Headings of tags in dumps | a grammar of headers, frames and padding as specification; what each reader makes of a header and the bytes after it, by induction over tags and frames |
| C143 | `with-track-in` | induction over entries; general theorems for what is lost |
| C139 | Finding frames in Scheme | induction over frames |

## Trusted base

* Lean 4.33.0's kernel. Every property theorem depends only on a subset of
  `propext`, `Classical.choice` and `Quot.sound`; no axiom is added, and no
  proof uses `sorry`, `native_decide` or `bv_decide`. `decide +kernel` is used
  for whole tables and for concrete witnesses; it relies on the kernel only.
* That the definitions in `Model/` say what the cited C++ lines do. This is a
  hand translation; nothing checks it mechanically.
* The C++ standard library, Boost, iconv, zlib, OpenSSL (MD5), flex and bison
  are not modelled beyond the contracts written in the model's comments.
* Theorems named `..._refuted...` show that the code does not do what a property says. They are proofs about the model, so
  they, too, depend on its being a faithful translation.

## Modelled

* `scribbu/`: id3v1, id3v2 (header, sync-safe integers, unsynchronisation),
  framesv2 (bodies), framesv22/23/24 (headers, flags, cache of serialised
  frames), id3v22/23/24 (reading, writing, size, padding, lookup tables and
  container operations), id3v2-utils, tagset, mp3, scribbu (track data,
  URL encoding, languages), charsets, winamp-genres, and templates (tbt-lexer,
  tbt-parser, tbt-support), csv-pprinter and tdf-pprinter (as far as reports
  use them), json-pprinter, pprinter (`standard_pprinter`),
  ostream and pprinter (manipulators: what a stream holds for them and how it is
  freed and copied; single frames as comma-separated values), the registries of frame parsers with their mutex,
  scheme and scheme-serde (reading and writing of tags from Guile).
* `scheme/scribbu.scm`: classes, symbols, `make`, `display`, finding frames, walking directories.
* `src/`: command-utilities (processing of files and directories), genre, text,
  popm, xtag, report, m3u, dump, rename, split (with the files it makes), encodings, their options on the command line and in the environment, the list of genres and its pager; scribbu (the command line)
  and the table of sub-commands.

## Not modelled, and simplifications

* Of Guile: garbage collection, `scm_dynwind`, continuations, and everything about values but what they are. The texts of usage messages, running `man` and `info`.
* Boost.Program_options: its default style (long, short and sticky options, positional words, guessing of
  prefixes, the environment, `store` and `notify`) is written down in `Model/Options.lean` and trusted to be as
  written. The conversion of a value's characters (`lexical_cast`) is a parameter; the texts of its messages and the options of `encodings` are not modelled.
* The tables inside iconv, zlib and MD5: parameters of the model, constrained
  by hypotheses where a theorem needs it.
* flex and bison: modelled by what they guarantee of the grammar in the
  source (longest match, first rule; LALR parsing of an unambiguous grammar).
* `std::size_t` does not wrap except where the model's comments say so; in
  particular sums of sizes of whole tags do not.
* The file system: plain files by name; no permissions or links; other processes only in `Procs` and `RenameProcs` (C179 to C181, C189); loss of writes
  by the operating system only in C190 (there is no `fsync` in the code); memory-mapped writes arrive in order; directory trees are finite and
  do not change while they are walked.
* The size of the stack (variable-length arrays in the genre matcher).
* The locale: a parameter; classification of characters is that of ASCII.

## Findings

What the code does otherwise than the properties say, by theorem. Each theorem
proves, of a witness or of a whole class of inputs, what is said next to it.

* `C06_refuted`: Is false of the code: `unsynchronise` protects FF E0 (as it must) but `count_syncs` only counts second bytes above E9.
* `C08_refuted`: (refuted half) A file that is a single ID3v2 tag whose last 128 bytes begin "TAG": the ID3v1 probe finds a tag starting *inside* the ID3v2 tag, the track length is negative and the command fails.
* `C09_refuted`: The header is taken for the first frame.
* `C100_refuted`: Nothing is done about tabs in texts: a title with a tab makes two columns of one.
* `C100_refuted_ascii`: With `--ascii-delimited`, rows still end with line feeds, and a title with a line feed makes two rows of one.
* `C101_refuted`: An argument that does not exist ends the run: files named after it are left out, although they could be read.
* `C102_refuted`: Nothing is noticed of an output file that cannot be opened: the files are gone through, the summary says that all is well, the exit status is zero, and there is no report.
* `C102_refuted_full`: Nor of a disk that is full.
* `C103_refuted`: For the year, ID3v2.2 tags are asked for a frame "TYR", which there is none of: the year is in "TYE". So the column is empty, whatever the year is.
* `C104_refuted`: (src/m3u.cc L213-216): titles are put into the playlist as they are. A line feed in one makes a line of its own of the rest, which a reader takes for a path; the item about the file has neither duration nor title.
* `C104_refuted_path`: (src/m3u.cc L213-216): a path with `#` in front, as `#1.mp3` given on the command line, is a comment to a reader: the file is not in the playlist.
* `C105_refuted`: (src/m3u.cc L281): the header is written also when the playlist is appended to, so that it is in there again, amid the items.
* `C106_refuted`: (src/m3u.cc L156-169): only the first ID3v2 tag that has both frames is asked. If a text in it is empty, another ID3v2 tag that names artist and title is not: the name of the file is shown.
* `C106_refuted_v1`: (src/m3u.cc L180-186): if a text of an ID3v2 tag cannot be converted, the ID3v1 tag is not asked.
* `C107_refuted`: So texts are not shown as they would be if they were taken to be in the encoding named.
* `C107_refuted_ignored`: (src/m3u.cc L385-388, L341): the option is called `source-encoding`, but what is asked for is `encoding`, which is never there. Whatever is given makes no difference.
* `C108_refuted`: (src/command-utilities.hh L554-562, src/m3u.cc L191-217, L422-425): an exception about one file ends the run; the files that would come next are not listed, however many they are.
* `C109_refuted`: (src/command-utilities.hh L559-561): an argument that is not there is skipped, without a word unless `--verbose` is given, and the exit status is 0.
* `C109_refuted_full`: (src/m3u.cc L274-282, L213-216): whether writing has succeeded is never asked. On a full disk the playlist is cut off (here: it is empty), and the exit status is 0.
* `C110_refuted`: (src/command-utilities.hh L555-558): every regular file in a directory is listed, whatever it is called: pictures and playlists as well.
* `C111_refuted`: (src/m3u.cc L208, L213-216): paths, and titles made from them, are put into the playlist as they are, also with `--use-utf8`. With a path in ISO-8859-1 the playlist is not UTF-8.
* `C112_refuted`: (src/command-utilities.hh L559-561): the notices go to standard output, and so into the playlist if that is written there; a reader takes them for paths.
* `C113_refuted`: (src/m3u.cc L274-282): if the last line of the playlist does not end with a line feed, the header that is written again (C105) is glued to it, and the path there names another file.
* `C116_refuted`: (src/scribbu.cc L420-427): options for the interpreter in front of a sub-command, which the usage message allows, are ignored without a word.
* `C117_refuted`: (src/scribbu.cc L182-184): whatever begins like `--listen` is taken for that option: `--listening` is not refused.
* `C117_refuted_stdout`: (src/scribbu.cc L254): the names of the sub-commands, which are part of the usage message, go to standard output also if the message is about wrong usage and goes to standard error.
* `C120_refuted`: (src/command-utilities.cc L76-90): the words on the command line are looked at, not the options they have been found to be: a file of the name `-h`, given behind `--` as is usual, makes sub-commands print their usage message and do nothing.
* `C121_refuted`: The album in an ID3v1 tag is printed as it is: here it has a quotation mark in it.
* `C121_refuted_cloud`: Tag clouds are printed with quotation marks too many and too few.
* `C121_refuted_control`: Control characters other than the five that have short names are printed as they are.
* `C121_refuted_counter`: The identifier of a play counter lacks a quotation mark.
* `C121_refuted_cut`: A frame that cannot be printed leaves the list of frames open.
* `C121_refuted_id`: A frame identifier with a quotation mark in it is printed as it is.
* `C121_refuted_null`: What is printed of a frame ends at a null character in its text.
* `C121_refuted_ufid`: The owner of a unique file identifier lacks a quotation mark.
* `C121_refuted_v22`: Of an ID3v2.2 tag the flags are printed as a character, and the brackets of the list of frames are between quotation marks, even if there are none.
* `C121_refuted_v24`: So it is with ID3v2.4.
* `C122_refuted`: A tag that is not unsynchronised is said to be: what is printed is whether an optional value is there, and it always is.
* `C123_refuted`: The text of a frame of ID3v2.4 is taken out of a stream that has not been ended with a null character.
* `C123_refuted_counter`: A popularimeter without counter is printed with a count that has never been set.
* `C123_refuted_owner`: The owner of a unique file identifier of ID3v2.2 is taken to be in an encoding that is not there.
* `C123_refuted_v22`: So it is with ID3v2.2.
* `C124_refuted`: The status is 0 though the file cannot be opened.
* `C124_refuted_cut`: The status is 0 though what is said about a file has been cut short, before the track.
* `C125_refuted`: An ID3v2 tag that cannot be printed also hides the track, which can be printed by itself.
* `C126_refuted`: An argument that is not there hides those behind it.
* `C127_refuted`: The table of printers has none for private frames of ID3v2.4: the dump of a file that has one breaks off before that frame, without a message; neither the track nor the ID3v1 tag is shown, and the status is 0.
* `C127_refuted_cloud`: Nor has it one for tag clouds of ID3v2.4, although the program itself writes them.
* `C128_refuted`: Comments are not indented.
* `C128_refuted_feed`: Nor what is behind a line feed in a text: a text can look like other lines of the dump.
* `C128_refuted_unknown`: Nor are unknown frames of ID3v2.3 and ID3v2.4 tags.
* `C129_refuted`: The first byte of what is in a private frame is printed without asking whether there is one.
* `C129_refuted_language`: The language of a comment is printed although it has not been set, if the frame ends before it.
* `C12_refuted`: (refuted part) The audio may end in 227 bytes that begin "TAG+": a standard tag appended to it is then taken for part of an enhanced tag that begins inside the audio (and a later removal would cut 227 bytes of audio).
* `C130_refuted`: The symbol of an encryption method is put as a character instead of a number, and so is each byte of its data, with a zero before it: the symbol 65 is shown as `A`, and data with a byte 10 begin a new line.
* `C130_refuted_language`: A byte above 127 in the code of a language is extended by its sign before it is printed in base sixteen: 0xe1 is shown as `0xffffffe1`.
* `C131_refuted`: In an ID3v2.4 tag the year is looked for in the frame TYER, which ID3v2.4 does not have any more, instead of TDRC: the heading of a tag with a time of recording says `<no year>`.
* `C132_refuted`: The footer of an ID3v2.4 tag is not read with the tag, but taken for the beginning of the track: the size shown is ten bytes too many, and the digest is not that of the track.
* `C132_refuted_overlap`: If the last frame of an ID3v2 tag at the end of a file looks like an ID3v1 tag, the track would have to end before it begins; the size shown is the difference modulo the word length, 18446744073709551488 bytes for a file of 148.
* `C133_refuted`: All frames are taken to last as long as the first: of a file of 528 ms the item says that it lasts 0 seconds, if the first frame has the higher sampling rate.
* `C134_refuted`: C134 is refuted: of an enhanced tag the slots from track-no on are wrong.
* `C134_refuted_every`: Every enhanced tag is misread: the genre is put where the track number belongs, the speed where the genre belongs, the start where the speed belongs, the end where the start belongs, and there is no end. The track number is lost.
* `C135_refuted`: C135 is refuted: what is written in UTF-8 is read as ISO-8859-1, so that "é" comes back as "Ã©".
* `C135_refuted_enhanced`: What is written of an enhanced tag is read as something else: the track number, say, as the genre.
* `C135_refuted_year`: A year that is not known, `'()`, comes back as a year that is the empty string.
* `C136_refuted`: C136 is refuted: of a text frame with several values, as ID3v2.4 has them, the first is all that Scheme gets to see.
* `C136_refuted_flags`: The data of frames of unknown kinds is documented as everything beyond the header (doc/scribbu.texi, `<unk-frame>`), but the header is there, and not even as in the file: the attributes in it are moved by one bit.
* `C136_refuted_language`: A byte of a comment's language that is not ASCII is replaced by a null character, and that ends the text: of a language `e`, E9, `g` Scheme sees `e`, which no comment in a file can have.
* `C136_refuted_owner`: One tag cloud whose owner is not UTF-8 is enough, and `read-tagset` fails for the whole file.
* `C136_refuted_v22`: In ID3v2.2 the data of such a frame is unsynchronised just if the tag is not.
* `C137_refuted`: C137 is refuted, by the tag above.
* `C137_refuted_cloud`: In ID3v2.4 a tag cloud with any tag at all cannot be written: 0 is used for a Scheme value.
* `C137_refuted_priv`: The same happens with `<priv-frame>`, in every case, if there are less than ten bytes of data.
* `C137_refuted_text`: In ID3v2.3, a text that iconv cannot convert to ISO-8859-1 is not reported: the object is taken for a frame of an unknown kind, and the slot after the last is read for a bytevector.
* `C137_refuted_v22`: An ID3v2.2 tag, even one without frames, cannot be written: whether it is compressed has never been set in a tag that is not read from a file.
* `C138_refuted`: C138 is refuted: the attributes of a frame change. A title to be discarded if the tag is altered is read as one to be discarded if the file is altered.
* `C138_refuted_udt`: User-defined text in ID3v2.4 is written with 4 for its encoding, which there is not.
* `C138_refuted_unsync`: In an unsynchronised tag the data of such frames are not read as they were given: they have the bytes that unsynchronisation has added.
* `C13_enhance_refuted`: (refuted, second way) *Every* standard tag that was read from a stream is turned into one whose `write` reads out of bounds by `set_speed`.
* `C13_refuted`: (refuted) A from-scratch ID3v1.1 tag written without calling `set_track_number` reads an uninitialised member.
* `C140_refuted`: C140 is refuted: there is no function for private frames, although `<priv-frame>` is documented. One with the owner "Me@x" and eleven bytes is written as a frame with the identifier "Me@x" that has the last of them.
* `C140_refuted_priv`: PRIV frames are read as frames of an unknown kind.
* `C141_refuted`: C141 is refuted: a directory that is empty is listed.
* `C141_refuted_link`: So is a symbolic link, or a device; and if the path itself is a symbolic link to a directory, it is the only thing listed.
* `C142_refuted`: C142 is refuted: at a symbolic link to nothing, an error is raised.
* `C142_refuted_open`: Directories are opened as soon as they are found, and stay open until it is their turn. However many can be open at a time, the generator fails if there are as many directories in one.
* `C143_refuted`: C143 is refuted: if the ID3v2 tags of a file cannot be read, its ID3v1 tag is not read either.
* `C143_refuted_name`: A file whose name is not UTF-8 ends it all: the procedure is not called for it nor for what comes after it.
* `C143_refuted_v1`: Whatever the file, if its ID3v2 tags cannot be read then no ID3v1 tag is handed over.
* `C144_refuted`: The size of an unsynchronised tag is shown without the bytes that unsynchronisation has put in: 13 bytes for a tag of 14.
* `C144_refuted_padding`: The padding of an ID3v2.4 tag is counted twice: 18 bytes for a tag of 15.
* `C144_refuted_v22`: The size of an ID3v2.2 tag that is not unsynchronised is shown as if it were: 10 bytes for a tag of 9.
* `C145_refuted`: (C145) `scribbu split track` empties its input before anything has been copied: "track" is also the name of the output. Whatever is still in the buffer, there is a moment at which the file is empty.
* `C145_refuted_left`: (C145) What an earlier run has left is not removed: splitting a file without ID3v1 tag where "id3v1" exists leaves it there, so that the files together are not the input.
* `C145_refuted_lost`: (C145) If the disk is full, the last bytes of a file are found to be lost only when the stream is destroyed, and nobody is told: the status is 0 and the track is short.
* `C147_refuted`: (C147) `copyfmt` copies the encoding of a stream by `strdup`, as if it were a string: it copies up to two of its eight bytes. To ask the stream for its encoding, as printing a tag to it does, then reads outside of the copy.
* `C147_refuted_copy`: (C147) What `strdup` makes of an encoding never has the eight bytes that are read of it.
* `C147_refuted_delete`: (C147) Whatever the encoding, a stream that has been told one deletes it, when it is destroyed, as if it were a `char`, which is undefined.
* `C148_refuted`: (C148) A manipulator can be used only once: inserted again, into the same stream or another, it makes the stream use the standard printer, without a word.
* `C148_refuted_twice`: (C148) If a manipulator is inserted twice into a stream and then another is, the callback is registered twice, and the printer is deleted twice when the stream is destroyed.
* `C149_refuted`: (scribbu/scheme.cc L856-859): the empty list is no pair, so nothing is added to a load path that is empty, as it is with `GUILE_SYSTEM_PATH=` in the environment: scribbu's modules are not found.
* `C149_refuted_alien`: (scribbu/scheme.cc L868): so it is with one directory that the locale has no name for, even if it is of no interest: scribbu's directory is not added.
* `C149_refuted_version`: (scribbu/scheme.cc L883-891): if Guile's version has characters that the locale lacks, so that it cannot be shown, the load path is not made ready either.
* `C150_refuted`: So the claim is false.
* `C150_refuted_hex`: (scribbu/csv-pprinter.cc L361-363, L511-513, L675-677): the base that numbers are printed in is not set before a play counter is printed. Behind a popularimeter, which leaves the stream in base sixteen, ten plays are printed as `a`.
* `C150_refuted_priv`: (scribbu/csv-pprinter.cc L564-572): the owner of a private frame is put as it is: with a comma in it, the line has two fields.
* `C150_refuted_ufid`: (scribbu/csv-pprinter.cc L322-327, L451-456, L610-615, L478-480): the bytes of a unique file identifier are not printed in base sixteen but as characters, each with a zero before it. So it is whatever the identifier is, unless it is empty.
* `C150_refuted_v24`: (scribbu/pprinter.cc L290-291): the printers for tag clouds and private frames of ID3v2.4 are entered into the table for ID3v2.3, so that such frames cannot be printed: an exception is thrown.
* `C152_refuted`: (scribbu/id3v22.cc L782, L791; scribbu/id3v22.hh L611, L627; documented in scribbu/id3v22.hh L588, L593): registering a parser for an identifier that has one comes to nothing: `insert` keeps the old entry. (`false => another was replaced`, it says.)
* `C152_refuted_counter`: (scribbu/id3v22.cc L799): the list of reserved identifiers has `PCT`, which is no frame of ID3v2.2, for `CNT`. A parser for counters is accepted and never used; one for `PCT` is refused.
* `C152_refuted_masked`: (scribbu/id3v22.cc L978-999): a generic parser for an identifier that has a text parser is accepted as a new one, and never used.
* `C152_refuted_moment`: (scribbu/id3v22.cc L172-175, L193-196; the same in the other versions): a constructor asks for the two tables one after the other. If another thread registers a generic parser and then a text parser in between, the tag has the second of them and not the first, as it never was.
* `C152_refuted_own`: (scribbu/id3v22.hh L604-628; the same in the other versions): whatever is done, the frames of a tag stay as they were made when it was read. So a parser registered with a tag is never used: tags are read by their constructors only.
* `C152_refuted_text`: (scribbu/id3v22.cc L786-792): for default text parsers no identifier is reserved. A text parser for comments is accepted, and never used.
* `C153_refuted`: (scribbu/id3v22.cc L210, scribbu/id3v23.cc L349, scribbu/id3v24.cc L499): no tag of any version can be relied on to be copied: a copied ID3v2.2 tag does not find its title.
* `C153_refuted_blind`: (scribbu/id3v22.cc L210, L231, scribbu/id3v23.cc L387, scribbu/id3v24.cc L537): tags which are copies or have been assigned know no texts, comments, play counts and popularimeters, whatever frames they have.
* `C153_refuted_copy`: (scribbu/id3v23.cc L349, scribbu/id3v24.cc L499): copying an ID3v2.3 or ID3v2.4 tag (and so `clone`) is undefined, whatever is in it: the base class is made a copy of the object under construction.
* `C153_refuted_ext`: (scribbu/id3v23.cc L374, scribbu/id3v24.cc L525): assigning an ID3v2.3 or ID3v2.4 tag that has no extended header is undefined.
* `C153_refuted_head`: (scribbu/id3v22.cc L217, scribbu/id3v23.cc L370, scribbu/id3v24.cc L520): after an assignment the tag has its own revision and unsynchronisation still.
* `C153_refuted_next`: (the same lines): asking a copy for its last frame, by an identifier that no other frame has, throws `out_of_range`; asking for any other frame, it gives the next one.
* `C154_refuted`: (scribbu/id3v2.cc L436-447): `id3v2_2_tag(is)` makes a tag of the beginning of an MP3 frame, unsynchronised and compressed, with no frames.
* `C154_refuted_each`: None of the three constructors can be relied on.
* `C154_refuted_empty`: (scribbu/id3v2.cc L503-505): an empty tag leaves the stream in the middle of its header, five bytes behind its beginning.
* `C154_refuted_nothing`: (scribbu/id3v2.cc L436-447, L498-505): where there is no `ID3`, no exception is thrown: the first five bytes are read again, as flags and size; if they are no size, the tag is taken to be empty, and the version it reports is not initialised. Whatever the bytes are:
* `C154_refuted_short`: (scribbu/id3v2.cc L427-433): if the stream ends too early and the caller's exception mask tells of that, restoring the mask throws before the stream is restored: it is left failed, at its end.
* `C154_refuted_sound`: (scribbu/id3v2.cc L436-447, scribbu/id3v23.cc L1217-1229): of the beginning of an MP3 frame `id3v2_3_tag(is)` makes a read out of bounds: its first byte, FF, is taken for flags that say there is an extended header, in no bytes at all.
* `C154_refuted_version`: (scribbu/id3v22.cc L169-186, scribbu/id3v23.cc L315-333, scribbu/id3v24.cc L451-469): nobody looks at the version: the constructor of ID3v2.3 tags takes an ID3v2.4 tag for its own, and so with any other.
* `C155_refuted`: The exception mask of the caller is saved but never put back: after a successful search it is badbit.
* `C155_refuted_junk`: The search for a sync starts only after the four bytes that turned out not to be a header: a frame that starts at the second, third or fourth byte is missed. With one byte in front of three frames the track is reported as lasting two frames.
* `C155_refuted_short`: With fewer than two bytes left the search looks at two bytes of memory that nothing was read into.
* `C156_refuted`: C156 is refuted, by every VBRI tag.
* `C156_refuted_protected`: In a frame with a checksum, a VBRI tag is looked for two bytes beyond the offset at which the library's own comments say it always is.
* `C156_refuted_short`: A Xing tag that the stream ends in the middle of is not reported but made of whatever was in memory.
* `C156_refuted_vbri`: No VBRI tag is ever read: the number of entries, two bytes in the tag, is read as four bytes into a variable of two. Whatever the tag says, the constructor writes beyond that variable.
* `C157_refuted`: C157 is refuted: if encoder tags are to be looked for and the last frame of a stream is shorter than the places they could be at, the stream is left failed, so that nothing more can be done with it until its state is cleared.
* `C157_refuted_short`: Three bytes, not even a whole header, make a frame: the missing byte is taken to be zero, and nothing is reported.
* `C157_refuted_throw`: It is not: the four bytes are gone (the other constructor, given a header already read, does put back what it read).
* `C158_refuted`: C158 is refuted: a tag with the title "eo" has the checksum 8CFFFB22; it is written as 8C FF 00 FB 22, for the extended header is unsynchronised if, and only if, the rest of the tag is not.
* `C158_refuted_read`: It is: checksums are never compared.
* `C158_refuted_stale`: Whatever is done to the frames and the padding of an ID3v2.4 tag, what is written as its extended header, checksum included, stays the same.
* `C158_refuted_v24`: C158 is refuted for ID3v2.4: whatever checksum a tag was read with is written again (and not in five bytes, nor with the byte that says how many there are).
* `C159_refuted`: C159 is refuted: the language of the comment becomes English.
* `C159_refuted_group`: A frame that belongs to a group no longer does.
* `C159_refuted_latin`: If there are characters in the text that Latin-1 lacks, such as a euro sign, the program ends with an uncaught exception.
* `C15_no_hint_refuted`: Without the hint, `compute_track_md5` starts reading wherever `find_id3v1_tag` left the get pointer. On ten bytes without a tag that is the end of the file, and the first read throws.
* `C15_truncated_refuted`: On a track truncated inside the table of contents of a Xing header, the scan leaves the stream failed, and the constructor's final `seekg` throws.
* `C160_refuted`: C160 is refuted: a comment in an ID3v1 tag that is not in ASCII, say "é", ends the program, although it has nothing to do with the seller. The file after it is not processed.
* `C160_refuted_kept`: If it is only the ID3v1 tag that has the identifier, then it is lost: the comment there is cleared whether or not there is another.
* `C162_refuted`: `encshim` has ISO-8859-8 for ISO-8859-1, so that the text of an ID3v2.4 frame in ISO-8859-1 cannot have any letter with an accent: Mötley is refused.
* `C162_refuted_hebrew`: Texts in Hebrew letters, that ISO-8859-1 does not have, are not refused but stored in ISO-8859-8 and marked as ISO-8859-1, whatever the library: they read back as other letters.
* `C162_refuted_order`: Texts in UTF-16 without a byte order mark are written with the high byte first, as ID3v2.4 has it, and read with the low byte first (by the C library, on most machines): A reads back as 䄀.
* `C163_refuted`: A tag of ID3v2.3 (or 2.2) without a title cannot be given the title 日, as only ISO-8859-1 is tried for new frames, unlike for those there are.
* `C163_refuted_history`: It can be given that title after any other.
* `C164_refuted`: Texts that are not in ISO-8859-1 are stored in UCS-2 without the byte order mark that texts in ID3v2.2 and ID3v2.3 must start with, unless callers ask for it: 日 is E5 65, which other programs take for another character.
* `C166_refuted`: In ID3v2.4, user-defined text in UTF-8 cannot be read, being marked with an encoding that there is not.
* `C167_refuted`: A comment made from texts does not know its encoding: giving it another text reads members that are not initialised.
* `C167_refuted_order`: A comment in UTF-16 with the high byte first that is given the text A, says 䄀.
* `C168_refuted`: The parameter is not looked at: to add a comment that has one character that ISO-8859-1 does not have comes to an exception, although the caller asked for such characters to be left out.
* `C169_refuted`: The claim fails for `-v` of `genre`.
* `C169_refuted_always`: `scribbu genre` can not be given `-v`: the letter stands for both `--v1` and `--verbose`, and Boost takes it to be ambiguous whatever else there is on the command line or in the environment.
* `C170_refuted`: The claim fails for `SCRIBBU_CREATE`.
* `C170_refuted_always`: `popm` and `xtag` take the variable `SCRIBBU_CREATE` to stand for an option `create`, which they do not have: there is no command line at all that they accept while it is set, to whatever value.
* `C171_refuted`: `scribbu xtag a` fails if `SCRIBBU_CREATE` is set, and does not otherwise; there is no option of that name.
* `C173_refuted`: The claim fails for `--dry-run` of `rename`.
* `C173_refuted_always`: With `SCRIBBU_DRY_RUN=yes` there is no command line with which `scribbu rename` renames anything: switches can be turned on but not off.
* `C174_refuted`: `scribbu m3u` without files fails with a message about a bad cast inside Boost, instead of how it is to be used: the files are not `required()`, and not looked for before they are taken.
* `C176_refuted`: With `PAGER="less -R"` (two blanks), `less` is given an empty argument besides: it takes that for the name of a file.
* `C176_refuted_blank`: With a blank in front, or set but empty, there is no program to be run: the call fails, whatever programs there are.
* `C177_refuted`: The claim fails for the file with the list.
* `C177_refuted_always`: Each time the list is shown with a pager, a file with the list is left behind; nothing removes it. It is not in the directory for temporary files, if that is not `/tmp`: what `tmpnam` returns is absolute, so that putting it behind the directory has no effect.
* `C178_refuted`: (C178). The claim fails even when memory is sequentially consistent.
* `C178_refuted_always`: (C178). Once two threads have each made a call of a frame that was not up to date at first (as is any that has been read or made, until its size is asked for), there has been a data race, whatever the order of their turns: though all the functions are `const`, both touch the caches and one of them has changed them.
* `C178_refuted_size`: (C178). One thread empties the caches after the other has filled them and before it looks: the size of a frame of twelve bytes is reported as nought.
* `C179_refuted`: (C179). `tmpnam` may give two processes the same name, as a comment in the code admits (scribbu/tagset.hh L358-368), "hoping to merely stomp on the other process' file". What comes of it is worse: one file is replaced by the contents of the other, audio and all, and the call returns as if all were well.
* `C179_refuted_tmp`: The same, in figures: `/d/f` held a 7 and now holds what was made of `/d/fx`; that is as it was, and the other call fails.
* `C17_refuted`: (refuted) A lone trailing `%` is accepted (and dropped).
* `C180_refuted`: (C180).
* `C180_refuted_lost`: (C180). Between reading the tags of a file and replacing them, nothing keeps others from doing the same: one adds an artist, the other an album, both succeed, and the album is gone from the file (it is still in the backup).
* `C181_refuted`: (C181).
* `C181_refuted_gone`: (C181). A comment in the code says that if another process gets in between, "the worst that will happen is the call to `copy' will fail" (scribbu/tagset.hh L414-416). But if both have named their backups before either makes one, the second removes the backup of the first and puts a copy of the changed file in its place: both succeed, and what was in the file at first is nowhere.
* `C182_refuted`: (C182).
* `C182_refuted_hidden`: (C182). The option `arguments`, which is how the files are stored, is not listed in the help but counts: `scribbu text --ar=x f` is refused as ambiguous, although `--artist` is the only option listed that begins like this; `--arguments=g` adds a file.
* `C185_refuted_genre`: `scribbu genre -w 17 --create-v2 --always-create-v1` on a file without tags makes an ID3v1 tag, and, when run again, an ID3v2 tag from that: only the second run does what was asked.
* `C185_refuted_genre_fails`: `scribbu genre -w 17 --always-create-v2 --create-v1` on a file without tags makes an ID3v2 tag, and fails if it is run again: now there is a tag to make the ID3v1 tag from, but it lacks the frames that are looked for in it.
* `C185_refuted_popm`: `scribbu popm --count=5 --owner=b --create-frame` on a tag with a popularimeter of someone else that states 100 plays makes a play counter that states 100, and the same again makes that 5.
* `C185_refuted_text`: `scribbu text --delete=TENC` on a tag with two such frames takes away one of them, and the same again takes away the other: it has to be run as many times as there are frames (and succeeds every time).
* `C185_refuted_xtag`: `scribbu xtag --merge --create-frame --xtags=a=b%00c` makes the cloud longer every time it is run: the value is read back as two.
* `C186_refuted`: Frames that were missing are added in the order of the runs: `scribbu text --title=A` and then `scribbu text --artist=B` leaves another file than the same the other way round. (Copies of a file to which the same was done differ byte by byte.)
* `C187_refuted`: C187 is refuted: of user-defined text the description is displayed, but not the text.
* `C187_refuted_artist`: A tag whose artist is an object of another class than `<text-frame>` cannot be displayed: there is no such slot.
* `C187_refuted_cloud`: In tag clouds the key "a b" cannot be told from the key "a" with the value "b".
* `C187_refuted_comment`: Comments are displayed as they are: where the description ends cannot be told.
* `C187_refuted_line`: Of a comment that is not so: one whose text has several lines is displayed on several.
* `C187_refuted_unknown`: Of a frame of an unknown kind that was read from an ID3v2.3 tag, eight bytes are displayed. These are the identifier and the size; what is in the frame is not displayed at all.
* `C188_refuted`: C188 is refuted: `(make <id3v2-tag> #:experimental #t)` makes a tag that is not experimental. The keyword is not written as one in the definition of the class, and is ignored.
* `C188_refuted_comment`: The same goes for comments: the language is taken for the identifier, and the description for the data.
* `C188_refuted_symbol`: Without a symbol, which is optional, writing such an object reads past its slots: it is taken for one that has the data of a frame of an unknown kind.
* `C188_refuted_write`: So the tag that is written is the same as without, whatever else is asked for.
* `C189_refuted`: (C189). With `--rename`, one process that comes upon a file that another is still writing, because it looks through the same directory, copies the part that is there and removes the file. The other goes on writing to a file that has no name any more, is told of no error, and removes the original. Both end well, and the rest of the file is gone.
* `C189_refuted_twice`: (C189). Two processes that move the same file may both end well: nobody looks at whether it was there to be removed. Then there are two of it.
* `C18_binary_refuted`: Strings are written NUL-terminated, but `%00` puts a NUL into a key.
* `C18_text_refuted`: The text of a cloud without keys is empty, and the empty text parses to the cloud whose only key is the empty string.
* `C190_refuted`: (C190). Nothing is ever done to have what has been written reach the disk before the file is replaced by it, nor before the backup is relied on. A power failure after the command has ended can leave a beginning of the new file, and of the backup that was asked for nothing at all.
* `C190_refuted_rename`: (C190). `rename --rename` removes the original as soon as the copy has been written, but not when it has reached the disk: after a power failure the name may stand for an empty file, and the original is gone.
* `C191_refuted`: (C191). The audio may say "TAG+" 227 bytes before its end. A first run then adds an ID3v1 tag to it, as it was told; to the next run the end of the audio looks like the first part of that tag, and setting the title again overwrites part of the audio.
* `C192_refuted`: (C192). An ID3v1 tag is written at the end of the file as such. If the sub-command is killed meanwhile, the beginning of the tag stays there and is taken for audio from then on.
* `C192_refuted_v1`: (C192). The ID3v1 tag that was there is cut off before the new one is written; there is a moment when the file has none, and nothing else has it either, unless backups were asked for. Killed then, a sub-command that was to set the title has lost artist and album as well.
* `C193_refuted`: If the base of the size is given twice in a template, the message is the same as if the base of the MD5 checksum is: it says that `base` is duplicate, and not in which of the fields. Likewise for the others of their options, and for those of the name of the file and of the artist (`the`, `cap`, `ws`).
* `C193_refuted_unicode`: A byte for the encoding of a text that stands for none is shown as a character, not as a number: the message for 10 ends in an empty line; none of those below 32 can be seen.
* `C193_refuted_zero`: An identifier is shown up to the first zero in it: that `A` with three zeros is not known and that `A`, a zero, and `BC` is not known is said in the same words. Of how often a frame is there nothing is said then.
* `C194_refuted`: (C194). If a sub-command is killed while it writes an ID3v1 tag, the part that has been written moves what precedes it away from the end of the file, and "TAG" somewhere in the audio may come to be just where an ID3v1 tag would begin. The next sub-command to set a title then takes the end of the audio for a tag and cuts it off.
* `C194_refuted_size`: (C194). Tags that are written over others, since they fit, get new sizes, byte by byte. Killed in between, a sub-command leaves a size that is made up of the old one and the new one, and may say more than either: here 255 instead of 127 or 128. To the next sub-command the first tag then reaches into the audio, and what it covers there is lost when that tag is written, 98 bytes of it; whatever the audio says.
* `C195_refuted`: A title marked as to be discarded when the tag is altered: the mark is written in the place of the next one, to be discarded when the file is altered, so that the tag, read and written again without a change, says that, and after another time that the frame is read only.
* `C195_refuted_v22`: An artist in UCS-2 in an ID3v2.2 tag: whatever is asked for, the frame is written unsynchronised and not marked as that, with the size it had before. Every rewriting puts another zero after the FF and pushes another byte of the text out of the frame. Once a byte other than zero is pushed out it is taken for the beginning of another frame, and the reader reads beyond the end of the tag: after having been read and written twice, without a change, the tag cannot be read.
* `C195_refuted_v24`: An ID3v2.4 tag with three bytes of padding: its header counts the padding twice, so that there are not as many bytes as it announces, and what was written cannot be read.
* `C196_refuted`: A file with a title marked as to be discarded when the tag is altered: after its tags have been read and written back without a change the file says that the title is to be discarded when the file is altered.
* `C196_refuted_longer`: A file with an ID3v2.2 tag whose artist is in UCS-2: after its tags have been read and written back without a change, one byte of the artist has moved out of its frame and the file is longer by one byte.
* `C19_refuted`: A history with an `update` that is refused loses everything there was: the cloud is cleared before the text is parsed.
* `C201_refuted`: (C201) A title that is set before the speed is cut after 30 characters; if it is set after the speed, up to 90 are kept, since only setting the speed makes the tag an enhanced one.
* `C201_refuted_written`: (C201) And in the first of these orders the tag cannot be written without reading beyond the end of its title (C13), while in the other order it can.
* `C204_refuted`: (C204) `%b` and `ase` are templates, but `%base` is none.
* `C205_refuted`: (C205) A percent sign at the end of a text is decoded to nothing (C17): so `%` and `41` can be decoded, to nothing and to `41`, but together they are the letter A.
* `C206_refuted`: (C206) A tag without values can be merged again and again, but not twice in one text: `x&x` is refused.
* `C207_refuted`: The footer of an ID3v2.4 tag is taken for audio. If the audio does not begin with a frame at once, the search for the first one then begins elsewhere, and finds another: of the same audio it is said to last one second with the tag, and none without it.
* `C209_refuted`: If the table in a "Xing" header is cut short, the duration is what the header says for a stream that throws no exceptions; a stream that does throws one when they are switched on again.
* `C20_empty_refuted`: An empty counter, as parsed from an empty frame, is read as an uninitialised variable.
* `C20_set_refuted`: A count of 2³² can be stored (in five bytes), but not read back.
* `C21_safe_refuted`: Without a NUL, or with nothing after it, the rating is read from beyond the frame.
* `C22_comm_parsed_refuted`: A comment parsed from fewer than four bytes has no language, and writing it writes uninitialised bytes.
* `C22_encr_refuted`: The terminator of the owner is not written.
* `C22_txxx_make_refuted`: ID3v2.4 frames in UTF-8 are marked with encoding 4, which does not exist, and read as two-byte text.
* `C24_v23_refuted`: A read-only frame is not read-only any more.
* `C24_v24_grouped_refuted`: In ID3v2.4 the same happens, and as the size of the frame does not count the group, what follows the frame is read one byte too early; here that byte is the last one in the tag, and reading goes on beyond it.
* `C25_refuted`: A frame whose text is changed after its size was asked for writes the old text.
* `C25_v23_refuted`: A frame whose text is changed after its size was asked for writes the old text.
* `C26_refuted`: A UCS-2 text with its byte order mark.
* `C26_v23_ext_refuted`: The two forms are swapped.
* `C27_v22_refuted`: A tag made from scratch has neither its padding nor its compression flag initialised.
* `C27_v23_refuted`: A tag with 65280 bytes of padding announced in its extended header.
* `C27_v24_refuted`: Any tag with padding.
* `C28_refuted`: A title in UCS-2 does not survive: it is written unsynchronised but not marked as such.
* `C29_v22_refuted`: A tag of a single byte other than zero: the identifier is read from beyond the end.
* `C29_v22_refuted_empty`: And a text frame of no bytes.
* `C29_v22_refuted_overrun`: So it does for a tag with room for all it reads itself: a frame announcing six bytes where there is one.
* `C29_v23_refuted`: A tag of a single byte other than zero: the identifier is read from beyond the end.
* `C29_v23_refuted_ext`: A tag too short for the extended header it says it has.
* `C29_v23_refuted_loop`: An ENCR frame that is encrypted itself: reading does not end (C30).
* `C29_v23_refuted_overrun`: A frame that announces six bytes where there is one.
* `C29_v23_refuted_wrap`: A compressed frame shorter than the field for its decompressed size: the size of its payload wraps around.
* `C29_v24_refuted`: A tag of a single byte other than zero.
* `C29_v24_refuted_size`: Seven bytes after the last frame: the first pass reads the size beyond the end.
* `C30_refuted`: A tag whose only frame is an ENCR frame that is marked as encrypted.
* `C31_refuted`: Two set-ups of one text frame each, then the first frame is deleted: the tag no longer answers for the second.
* `C31_refuted_absent`: Asking for a frame that is not there is undefined.
* `C31_refuted_add`: Adding a comment or user-defined text by the functions for that is undefined in ID3v2.2 and ID3v2.4 tags, whatever the tag holds.
* `C31_refuted_add23`: In an ID3v2.3 tag a comment so added is not among the comments; and erasing it is undefined.
* `C31_refuted_comments`: Of three comments, the first is erased and then the second of the remaining two: asking for the comments then follows a pointer to an erased frame.
* `C31_refuted_copy`: A copied ID3v2.2 tag knows its frames under the wrong places, and no texts.
* `C31_refuted_delete`: What goes wrong next: deleting the second frame too is undefined.
* `C31_refuted_move`: Move assignment within a tag, as `std::remove_if` uses it, leaves the tables in disorder.
* `C31_refuted_play24`: ID3v2.4 tags never know their play count: no frame read from a file or of class play counter is looked for under the identifier that is counted.
* `C31_refuted_userText`: User-defined text cannot be erased: ID3v2.2 tags throw, the others run into undefined behaviour.
* `C32_refuted`: With no tags at all the number of tags is divided by.
* `C32_refuted_unchanged`: Paddings of 10 and 0 bytes, to be made 4 bytes smaller: refused, although 10 bytes are there, and after the first tag has lost two of them.
* `C32_refuted_wrap`: Two tags with paddings of 0 and 5 bytes, to be made one byte smaller: the one byte is taken from the first tag, which is not checked, and whose padding becomes 2^64 - 1.
* `C33_refuted`: The footer of the old tag is taken for audio and stays.
* `C33_refuted_empty`: Replacing tags by no tags divides by zero.
* `C33_refuted_extended`: Likewise for ID3v2.3 tags with an extended header that needs unsynchronisation (the two forms of it are exchanged, C26): the header announces 13 bytes, of which 12 are there, so that the first byte of the audio belongs to the tag from now on.
* `C35_refuted`: In the directory `/d`, which holds `f` and `f.1`, the backup of `f` is to be `f.1`.
* `C35_refuted_destroyed`: With a path that is not absolute, the backup made before is destroyed: `f.1` held the contents before the last change.
* `C35_refuted_overflow`: Next to a file called `f.2147483647`, naming the backup of `/d/f` overflows.
* `C37_refuted`: Every frame is counted with the *first* frame's duration. A 24 kHz frame followed by a 16 kHz frame lasts 24 + 36 = 60 ms; 48 ms are reported.
* `C37_uninit_refuted`: The scan is not free of undefined behaviour. On a stream of five bytes without a frame, `find_sync` examines a buffer the failed read left uninitialised.
* `C37_vbri_refuted`: A "VBRI" header always makes the constructor write past a two-byte object.
* `C38_refuted`: `, The` becomes `The `, which is too short to be recognised as starting with the article.
* `C39_refuted_compress`: `a b` is not compressed.
* `C39_refuted_compress_always`: In fact compressing never does more than turn tabs into spaces: it leaves a run wherever there is one.
* `C39_refuted_empty`: The empty text cannot be capitalised.
* `C39_refuted_example`: `%(artist:prefer-v2&v1-encoding=cp1252&the=suffix&compress)`, which the manual says gives `Pogues, The` for the artist `The Pogues`, gives ` Pogues, The`.
* `C39_refuted_replace_run`: The manual says that with `ws=_` the text `a b` becomes `a_b`.
* `C40_refuted`: The backslash before `=` is required, but stays.
* `C40_refuted_all`: In fact there is no way to get a text with a `=` in it other than after a backslash, whatever one writes.
* `C41_refuted`: A tag whose field is blank (30 null characters, or spaces, as usual) is not passed over in favour of ID3v2.
* `C41_refuted_automatic`: With the default encoding, a text without a byte order mark makes a template that needs it fail with an exception unrelated to templates (so that not even an optional part can absorb it), however easily it could be converted.
* `C41_refuted_blank`: More generally, a blank field makes `prefer-v1` fail, whatever there is in ID3v2.
* `C41_refuted_consults`: A source that must not be used does make a difference: a frame whose text cannot be converted makes a field fail which is to come from ID3v1 only.
* `C43_refuted`: C43 is refuted: told to process the first tag of a file with two, the code looks at the front of an empty queue.
* `C43_refuted_order`: Indices that are not in order are passed over: told to process the second tag and the first, the code processes the second only.
* `C43_refuted_short`: So it is whenever the indices run out before the tags do, whatever the sub-command: undefined behaviour for every file with more tags than the last index says.
* `C45_refuted`: C45 is refuted: there is no identifier for ID3v2.2 for the original artist, although `TOA` is read as such.
* `C45_refuted_bpm`: The beats per minute have the wrong identifier in ID3v2.2: `TBM`, and `TBP` is not understood.
* `C46_v1_known_refuted`: (refuted) Three bytes where a tag is expected: the stream is left failed.
* `C46_v1_refuted`: (refuted) 128 bytes that do not start with "TAG": the get pointer is left after them and the exception mask is left at eofbit|failbit|badbit.
* `C46_v22_refuted`: A tag that announces more bytes than there are: `seekg` throws in the handler, since it is called on the failed stream, and the mask stays as the library set it.
* `C46_v23_refuted`: A tag that announces more bytes than there are.
* `C47_update_refuted`: `update` clears the cloud before it parses the text.
* `C48_comm_needs_unsync_refuted`: Asking a comment with a description but no text whether it needs unsynchronisation takes the front of an empty vector.
* `C48_priv_refuted`: A private frame without a NUL makes the library step over the end of its data and copy from there.
* `C48_text_refuted`: Without a terminator, the search for it looks one byte beyond the end.
* `C48_text_refuted'`: The same for comments; and an empty user-defined text is read from beyond its end.
* `C48_xtag_needs_unsync_refuted`: For a cloud with a key without values, deciding whether the frame needs unsynchronisation dereferences the end of the (empty) value set.
* `C48_xtag_refuted`: A body that ends in the middle of an entry is read past its end.
* `C49_comm_refuted`: The last byte of the description and the first of the text are counted as neighbours although the terminator lies between them.
* `C49_refuted`: (as in C06): FF E0 is not counted.
* `C49_xtag_refuted`: The length of the values is examined in host byte order but written in network byte order: a value of 65525 bytes makes the length 00 00 FF F6, a false sync that goes unnoticed.
* `C50_refuted`: A comment made from scratch does not know its encoding; setting its text reads uninitialised members.
* `C51_comm_refuted`: Of a comment, too, an FF at the end of the description is overlooked.
* `C51_comm_refuted_ub`: A comment with a description but no text can be written, yet predicting its unsynchronised size takes the front of an empty vector.
* `C51_encr_refuted`: Every prediction for an encryption method is off by the terminator that is never written.
* `C51_priv_refuted`: For private frames, too, an FF directly in front of the terminator is overlooked.
* `C51_refuted`: An FF directly in front of a terminator is overlooked.
* `C51_xtag_refuted`: An FF at the end of a key, in front of its terminator, is overlooked in tag clouds as well.
* `C51_xtag_refuted_over`: The prediction for a tag cloud can also exceed the truth: the length of the values is examined in host byte order, where one of 255 bytes is FF 00 00 00, and written in network byte order.
* `C52_v24_refuted`: ID3v2.4 has other text frames; its recording time (TDRC) is not one to the library.
* `C53_refuted`: A tag that is marked as unsynchronised, but written with `unsync` false: its frames are not unsynchronised, but it is still marked.
* `C54_refuted`: A tag with padding at the end of a file: its header announces more bytes than there are.
* `C54_refuted_crc`: A tag with a checksum.
* `C54_refuted_footer`: A tag with a footer, although without padding: the footer is taken to be a frame.
* `C54_refuted_swallows`: In front of audio data it takes some of that to be part of the tag.
* `C54_refuted_unsync`: A text in UTF-16 that is unsynchronised when written, and not resynchronised when read.
* `C55_v24_refuted`: With a checksum: neither the length of the field nor its fifth byte is written.
* `C55_v24_refuted_restrictions`: With restrictions: the length of the field is not written.
* `C56_v22_refuted`: FF E0 is not seen.
* `C56_v23_refuted_crc`: With a checksum a tag that ends in FF is overlooked.
* `C56_v24_refuted`: A tag without any frames is said to need it.
* `C57_v24_refuted`: The bit that means compression is not looked at: a compressed frame is not known to be.
* `C57_v24_refuted_indicator`: A data length indicator alone makes the library decompress the data, compressed or not. Here decompression fails, as it would for any data that are not in zlib's format.
* `C58_refuted`: The new contents have to be copied to another file system, and after three bytes the disk is full. The file now consists of these three bytes; the attempt to put the old contents back fails because there is a file.
* `C59_refuted`: Between file systems, a backup is left behind that was not asked for.
* `C59_refuted_tmp`: And if one was asked for, the temporary file stays.
* `C62_refuted`: After `%(` has been rejected, `abc` is, too.
* `C62_refuted_all`: In fact, unless the scanner was left where it starts, no template at all is accepted.
* `C62_refuted_forever`: And this can go on for as long as one likes: `%A` will not be accepted however often one tries.
* `C63_refuted`: `v1-only` cannot be chosen, in whatever template.
* `C63_refuted_example`: The example of the manual, `%(artist:v1-only&v1-encoding=iso-8859-1)`, is rejected.
* `C63_refuted_numbers`: Nothing can be said about the year, and hexadecimal digits cannot be in upper case.
* `C64_refuted`: `(%A)?` fails if the artist is only in ID3v1.
* `C64_refuted_empty`: `(%e)?` fails if there is a frame for the encoder, but an empty one.
* `C65_refuted`: The checksum comes out as raw bytes: `%5` of a file without audio data starts with D4.
* `C65_refuted_hex`: … and with `base=hex` an indeterminate value is read; of the file's size nothing would be printed whatever that value.
* `C65_refuted_md5`: Whatever the checksum, its bytes are printed as they are, in short form and with `base=decimal` …
* `C66_refuted`: C66 does not hold: for `/m/a`, the artist AC/DC, and the template `%A`.
* `C66_refuted_absolute`: C66 does not hold: a tag can name any file there is, as in `/etc/x` or `../../x`, with and without `--output`.
* `C67_refuted`: C67 does not hold: `/m/b` is to be called `a`, but there is an `/m/a`, so `/m/c` is not renamed either.
* `C68_refuted`: C68 does not hold: AC/DC again. `/m/a` becomes `/m/A/D`, and then `/m/A/A/D`.
* `C69_refuted`: C69 does not hold: what had been written under the new name so far is taken for another file, now and whenever the command is given again.
* `C70_refuted`: C70 does not hold: unless `--rename` is given, the file is copied.
* `C71_refuted`: C71 does not hold: nothing of the kind being asked for, `lame` is shown as `Lame` and `The Pogues` as `Pogues, The`.
* `C73_refuted`: C73 is refuted: in `en_US.UTF-8`, the system's encoding cannot be told.
* `C73_refuted_all`: In fact no locale whose name states a character set is recognised: if both names do, there is an error.
* `C74_refuted`: C74 is refuted: the code of Assamese is given as `ASM`,
* `C74_refuted_locale`: Also if it is that of the locale.
* `C74_refuted_print`: "As the locale has it", the default, has no name.
* `C75_refuted`: C75 is refuted: text in ASCII, converted to UTF-32, is gone.
* `C75_refuted_all`: Not only that one: every text is.
* `C75_refuted_mark`: The byte order mark asked for is gone with it.
* `C75_refuted_overrun`: A library may, after it has run out of room, write further than the buffer reaches: it is told that the buffer is larger than it is by the size of the byte order mark.
* `C76_refuted`: C76 is refuted: blanks at the end are lost.
* `C76_refuted_latin`: So is `ÿþ` in ISO-8859-1 at the beginning, taken for a byte order mark,
* `C76_refuted_latin_utf8`: And `ï»¿`.
* `C77_refuted`: C77 is refuted: that for UTF-32, most significant byte first, has its last two bytes the wrong way round.
* `C78_refuted`: C78 does not hold.
* `C78_refuted_empty`: C78: for the empty text, something outside of the array is read.
* `C78_refuted_far`: C78: for a text that is at least as long as every genre and has nothing in common with any, what is returned depends on a variable that was not initialised.
* `C78_refuted_overlooked`: C78: "nue dutschll" is seven changes away from "Neue Deutsche Welle", but what is returned is "Industrial", which is eight away: what earlier genres left behind is taken for a result.
* `C79_refuted`: So the file is not processed at all, though it has an ID3v1 tag too.
* `C79_refuted_absent`: Setting the genre of a tag that has none fails, whatever else is in the tag.
* `C80_refuted_absent`: If the first of the tags lacks one of album, artist, title, year and genre, no tag is made, whatever there is in the others.
* `C80_refuted_blues`: An ID3v1 tag made from tags none of which says anything about the genre does not have the genre 255, that stands for none, but 0: it says that the genre is Blues.
* `C80_refuted_readback`: Even then a title that is not in ASCII cannot be read from the new tag, as that is taken to be in ASCII: of the tag with the title `é` made here, in which the title is in UTF-8.
* `C81_refuted_comments`: The comment is in the new tag, but not among those that the tag lists as its comments.
* `C81_refuted_text`: Nor is there a tag if a field cannot be read, say because there is a character in it that is not in ASCII: the ID3v2 tag is not made at all.
* `C81_refuted_track`: The number of the track is lost, whatever it is.
* `C82_refuted_compatible`: Both of what is documented as incompatible is accepted.
* `C82_refuted_number`: The documented way of giving the genre of ID3v1 tags, `--v1 17`, is not understood, nor is any other number: one of several digits is an error, and one of a single digit taken to be another.
* `C83_refuted_create`: With `-a -C` a file without tags is given an ID3v2 tag by the first run, and an ID3v1 tag only by the second.
* `C83_refuted_v1`: An ID3v1 tag is always taken to have been changed, so that the file is written again.
* `C85_refuted_both`: Asked to delete the title and the artist of a tag that has just these, in this order: undefined.
* `C85_refuted_order`: In general: two frames, each the only one of its name, cannot be deleted one after the other in the order in which they are in the tag, whatever else is in the tag and is asked for.
* `C85_refuted_several`: Of several frames of one name, one goes and the others stay.
* `C85_refuted_v22`: A frame that ID3v2.2 tags cannot have (according to the tables; the standard has it) cannot be asked for, though it be only to delete it if present: the file as a whole fails.
* `C86_refuted_lost`: If a file has an ID3v1 tag only, that is changed if indices are given, but the file is not written.
* `C86_refuted_untouched`: C86 is refuted: unless indices of ID3v2 tags are given, the ID3v1 tag is left alone, whatever is asked for.
* `C87_refuted_locale`: C87 is refuted: unless the encoding is given, nothing can be done in locales whose names state a character set.
* `C88_refuted_omitted`: A popularimeter without a counter, as the standard allows: the count that is then used has not been set.
* `C88_refuted_others`: Only the play counter is to be changed, and made if missing: the popularimeter is changed all the same.
* `C88_refuted_short`: Play counters of the shortest kind are not as the standard has them: "the counter must be at least 32-bits long". Any counter of fewer than 2²⁴ plays that is written is too short.
* `C88_refuted_stuck`: The numbers of plays that the sub-command itself writes, if they are 2³² or more: no later run can add to them.
* `C88_refuted_wide`: A play counter of five bytes or more, as the standard allows: nothing is done, to no frame of the tag.
* `C89_refuted`: With `--count=5 --owner=b --create-frame` and a popularimeter of someone else that states 100 plays, the new counter states 100.
* `C90_refuted`: "abc" is accepted as three stars.
* `C90_refuted_negative`: "-65535" is accepted as a rating of 1.
* `C91_refuted_empty`: With `-a -m` and no owner or no rating, a tag without any frame is made (and written).
* `C91_refuted_tag`: The option `--tag` has no effect at all.
* `C92_refuted`: C92 is refuted: the file is written byte by byte, in a dry run as well.
* `C93_refuted`: C93 is refuted: the frame made for a key with a NUL in it cannot be read.
* `C94_refuted_created`: `-A` (or `-c`) without `-f` makes tags without a tag cloud.
* `C94_refuted_get`: `--dry-run` and `--create-backups` are without effect if `--get` is given (which writes, see `C92_refuted`).
* `C95_refuted`: A text that begins with a quote is put as it is, unless there is a separator or a line feed in it: the text `"a"` is read as `a`.
* `C95_refuted_sep`: The quote itself is accepted as a separator, and then texts with quotes fall apart: `a"b` is read as two texts or more.
* `C96_refuted`: With `--num-comments=0` the row of a file with an ID3v2 tag has one column more than there are names.
* `C96_refuted_quote`: A title that begins with a quote takes the columns after it along: in the report of one file with the title `"`, the row has 10 columns instead of 34.
* `C97_refuted`: Counts are in base sixteen, as the flags before them are: a play count of sixteen is shown as 10.
* `C98_refuted`: A file whose title cannot be converted is counted as an error; what there was of its row stays in the report, and the row of the next file is put right behind it, on the same line.
* `C98_refuted_glued`: The report of the two files has one row besides the names of the columns, with 43 columns instead of 34.
* `C98_refuted_v4`: No file with an ID3v2.4 tag that has exactly one play counter gets a row: asking the tag for its play count throws.
* `C99_refuted`: A quote or a backslash in a path gets a backslash before it, which means nothing to readers of comma-separated values: the name `a\b` is read as `a\\b`.
* `C99_refuted_quote`: A quote in the name of a file breaks the row apart: `a",b` is read as `a\` and more.
* `C99_refuted_tsv`: In tab-separated values every path is wrapped in quotes, which nothing else is: `d` is read as `"d"`.
