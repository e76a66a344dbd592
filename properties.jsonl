{"id": "C01", "title": "Sync-safe integers round-trip exactly", "statement": "sync_safe_from_unsigned(x, b) succeeds exactly when x <= 0x0fffffff (otherwise it throws std::invalid_argument and writes nothing); on success all four bytes are < 0x80 and unsigned_from_sync_safe(b[0..3]) gives back x. Conversely any four bytes < 0x80 are reproduced by decoding and re-encoding them.", "quantifier": "every 32-bit/size_t value x and every quadruple of bytes", "why_tests_cant": "2^28 encodable values and the refusal boundary; a test only samples a few", "anchors": ["scribbu/id3v2.cc:unsigned_from_sync_safe", "scribbu/id3v2.cc:sync_safe_from_unsigned"]}
{"id": "C02", "title": "Big-endian and sync-safe decoders stay in range and ignore only the bits they must", "statement": "The 3-, 4- and 5-byte sync-safe decoders return values below 2^21, 2^28 and 2^32, depend only on the low seven bits of each byte (low four of the first of five), and the plain 3/4 byte decoders are injective big-endian decoders.", "quantifier": "every tuple of byte values", "why_tests_cant": "up to 2^40 inputs per decoder", "anchors": ["scribbu/id3v2.cc:unsigned_from_sync_safe", "scribbu/id3v2.cc:unsigned_from_non_sync_safe"]}
{"id": "C03", "title": "Unsynchronisation is reversible", "statement": "For any byte string, applying resynchronise to the output of unsynchronise (with or without the 'last' end-of-tag rule) yields the original bytes and the original length.", "quantifier": "every byte string of every length, both values of the end-of-tag flag", "why_tests_cant": "unbounded strings; the interesting cases are runs of FF/00 that straddle each other", "anchors": ["scribbu/framesv2.hh:unsynchronise", "scribbu/id3v2.cc:resynchronise"]}
{"id": "C04", "title": "Unsynchronised output contains no false sync", "statement": "The output of unsynchronise never contains FF followed by a byte >= E0; and when the end-of-tag rule is in force it never ends in FF.", "quantifier": "every byte string of every length", "why_tests_cant": "adjacent-pair property of unbounded output", "anchors": ["scribbu/framesv2.hh:unsynchronise"]}
{"id": "C05", "title": "resynchronise collapses every FF 00 pair, in place, and nothing else", "statement": "resynchronise(p, cb) returns n <= cb, never touches memory outside [p, p+cb), and leaves in [p, p+n) exactly the input with each 00 that follows an FF removed.", "quantifier": "every buffer and every length including 0 and 1", "why_tests_cant": "the in-place block-moving loop has to be right for every arrangement of pairs", "anchors": ["scribbu/id3v2.cc:resynchronise"]}
{"id": "C06", "title": "Predicted unsynchronised sizes equal what is written", "statement": "The size a frame or tag reports for unsynchronised output (and the needs-unsynchronisation query) agrees with the number of bytes the unsynchronising writer inserts: needs_unsynchronisation is true iff unsynchronising changes the bytes, and the predicted count is the exact growth.", "quantifier": "every byte string", "why_tests_cant": "the two sides use different byte thresholds; only a universally quantified statement exposes or rules out the disagreement", "anchors": ["scribbu/framesv2.hh:count_syncs", "scribbu/framesv2.cc:detail::count_syncs", "scribbu/framesv2.hh:unsynchronise"]}
{"id": "C07", "title": "Probing for an ID3v2 header is non-destructive and exact", "statement": "looking_at_id3v2 reports a tag iff ten bytes remain that start 'ID3', have version and revision != FF and four size bytes < 80; it reports exactly the encoded version, flags and size; the get pointer is unmoved when nothing is found or restore was requested, advanced exactly ten otherwise; the caller's exception mask is unchanged.", "quantifier": "every stream content and position, every exception mask, both values of restore", "why_tests_cant": "all contents, including short reads at end of file", "anchors": ["scribbu/id3v2.cc:looking_at_id3v2"]}
{"id": "C08", "title": "Splitting a file loses nothing", "statement": "For any file, the pieces produced by `scribbu split' (each ID3v2 tag, the track, the ID3v1 tag), concatenated in order, are byte-for-byte the file whenever the command succeeds; and it succeeds for every file made of complete ID3v2 tags, a track and an optional ID3v1 tag.", "quantifier": "every file content", "why_tests_cant": "unbounded files and tag counts; overlapping or truncated tags", "anchors": ["src/split.cc:split_file", "src/split.cc:xfer_bytes"]}
{"id": "C09", "title": "read_id3v2(is, idx) reads the idx-th tag", "statement": "Reading the idx-th ID3v2 tag by index gives the same tag as reading tags 0..idx in sequence.", "quantifier": "every stream of consecutive tags and every index", "why_tests_cant": "depends on where the stream is left after an arbitrary number of skips", "anchors": ["scribbu/id3v2-utils.cc:read_id3v2", "scribbu/id3v2-utils.cc:maybe_read_id3v2", "scribbu/id3v2-utils.hh:read_all_id3v2"]}
{"id": "C10", "title": "ID3v1 tags survive a read/write cycle byte for byte", "statement": "Every well-formed 128-byte ID3v1/v1.1 tag and every well-formed 355-byte enhanced tag is reproduced exactly by reading it and writing it back; and a tag object read from a stream, written and read again is unchanged in every field.", "quantifier": "every tag content", "why_tests_cant": "128/355 free bytes with a data-dependent v1.0/v1.1 layout split", "anchors": ["scribbu/id3v1.cc:id3v1_tag", "scribbu/id3v1.cc:write", "scribbu/id3v1.cc:init_standard", "scribbu/id3v1.cc:init_extended"]}
{"id": "C11", "title": "ID3v1 detection is exact and leaves the stream alone", "statement": "ends_in_id3v1 reports an enhanced tag iff the stream has at least 355 bytes and 'TAG+' 355 from the end, otherwise a standard tag iff it has at least 128 bytes and 'TAG' 128 from the end, with the right start and end offsets; position and exception mask are restored.", "quantifier": "every stream content, position and mask", "why_tests_cant": "all file lengths around 0, 128, 355 and all contents", "anchors": ["scribbu/id3v1.cc:ends_in_id3v1"]}
{"id": "C12", "title": "Removing or replacing the ID3v1 tag touches only the tag", "statement": "maybe_remove_id3v1 leaves exactly the bytes that precede the tag and does nothing if there is no tag; replace_id3v1 leaves those bytes followed by the new tag, and a subsequent detection finds exactly the new tag.", "quantifier": "every file content and every new tag", "why_tests_cant": "whether the audio tail mimics a tag is a property of all file contents", "anchors": ["scribbu/id3v1.cc:maybe_remove_id3v1", "scribbu/id3v1.cc:replace_id3v1"]}
{"id": "C13", "title": "Any edited ID3v1 tag can be written safely", "statement": "After any sequence of setters on a tag that was constructed from scratch or read from a file, write() emits exactly size() bytes (128 or 355), reads no uninitialised or out-of-range memory, and reading the result back gives the values last set (truncated to field width).", "quantifier": "every constructor choice and every finite sequence of setter calls with any arguments", "why_tests_cant": "history-dependent: some setters switch the tag to the enhanced format", "anchors": ["scribbu/id3v1.hh:id3v1_tag", "scribbu/id3v1.cc:write", "scribbu/id3v1.cc:set_enh_genre"]}
{"id": "C14", "title": "ID3v1 setters are field-local, fixed-width and NUL-padded", "statement": "Setting one text field stores the first N characters padded with NULs to exactly N (30/60+30/4) and changes no other field.", "quantifier": "every string argument and every prior tag state", "why_tests_cant": "all string lengths around the limits", "anchors": ["scribbu/id3v1.cc:set_album", "scribbu/id3v1.cc:set_artist", "scribbu/id3v1.cc:set_title", "scribbu/id3v1.cc:set_comment", "scribbu/id3v1.cc:set_year"]}
{"id": "C15", "title": "Track data is exactly the bytes between the tags", "statement": "track_data built from a stream positioned after the ID3v2 tags covers precisely the bytes up to the ID3v1 tag (or end of file): its size is the distance and its MD5 is taken over precisely those bytes, whether or not a hint about the ID3v1 offset is supplied.", "quantifier": "every stream content and position, hinted or not", "why_tests_cant": "depends on where intermediate probes leave the get pointer for every content", "anchors": ["scribbu/scribbu.cc:track_data", "scribbu/scribbu.cc:compute_track_md5", "scribbu/scribbu.cc:find_id3v1_tag"]}
{"id": "C16", "title": "URL decoding inverts URL encoding", "statement": "urldecode(urlencode(s)) == s for every byte string, and urlencode emits only unreserved characters and %xx escapes.", "quantifier": "every byte string", "why_tests_cant": "unbounded strings over all 256 byte values", "anchors": ["scribbu/scribbu.cc:urlencode", "scribbu/scribbu.cc:urldecode"]}
{"id": "C17", "title": "URL decoding is total and rejects malformed escapes", "statement": "urldecode either returns a string no longer than its input or throws std::invalid_argument; it never reads past the end; every '%' that is not followed by another '%' or two hex digits is rejected.", "quantifier": "every byte string", "why_tests_cant": "malformed tails of arbitrary strings", "anchors": ["scribbu/scribbu.cc:urldecode", "scribbu/scribbu.cc:detail::strtochar"]}
{"id": "C18", "title": "Tag clouds survive serialisation", "statement": "For a tag cloud with any owner and any map from keys to value sets, the urlencoded text parses back to the same map, and writing the frame and parsing it gives the same owner and map.", "quantifier": "every owner, every map with any key and value strings", "why_tests_cant": "keys and values may contain the separators; unbounded maps", "anchors": ["scribbu/framesv2.cc:tag_cloud::urlencoded", "scribbu/framesv2.cc:tag_cloud::parse_to_map", "scribbu/framesv2.cc:tag_cloud::write"]}
{"id": "C19", "title": "Tag cloud merge and update have set semantics", "statement": "merge(text) makes each key's values the union of old and new and leaves other keys alone; update(text) makes each mentioned key's values exactly the new ones; merge is idempotent; adding a key or value never removes anything.", "quantifier": "every tag cloud state and every sequence of add_key/add_value/merge/update", "why_tests_cant": "algebraic laws over unbounded maps and histories", "anchors": ["scribbu/framesv2.cc:tag_cloud::merge", "scribbu/framesv2.cc:tag_cloud::update", "scribbu/framesv2.cc:tag_cloud::add_key", "scribbu/framesv2.cc:tag_cloud::add_value"]}
{"id": "C20", "title": "Play counters count", "statement": "After a play counter is set to n, reading gives n; each increment adds one; the stored bytes are big-endian without loss. This holds for every n a caller can store and for every number of increments.", "quantifier": "every counter value and every sequence of set/increment", "why_tests_cant": "carry propagation and byte-width changes at 2^8, 2^16, 2^24, 2^32", "anchors": ["scribbu/framesv2.hh:play_count", "scribbu/framesv2.cc:play_count::reset_counter", "scribbu/framesv2.cc:popularimeter"]}
{"id": "C21", "title": "POPM/PCNT frames round-trip", "statement": "Writing a popularimeter (owner, rating, counter) and parsing it gives back the same owner, rating and count; likewise the play-count frame; parsing arbitrary bytes never reads past the end.", "quantifier": "every owner without NUL, rating and counter; every byte string", "why_tests_cant": "all contents incl. missing NUL terminator", "anchors": ["scribbu/framesv2.hh:popularimeter", "scribbu/framesv2.cc:popularimeter::write"]}
{"id": "C22", "title": "Frame bodies round-trip", "statement": "For each body kind (unique file id, encryption method, user-defined text, comment, private data), size() equals the number of bytes written and parsing the bytes gives back the fields.", "quantifier": "every field value", "why_tests_cant": "NUL-separated encodings with 1- and 2-byte terminators over all strings", "anchors": ["scribbu/framesv2.cc:unique_file_id", "scribbu/framesv2.cc:encryption_method", "scribbu/framesv2.cc:user_defined_text", "scribbu/framesv2.cc:comments"]}
{"id": "C23", "title": "ID3v2.2 frame headers round-trip", "statement": "An ID3v2.2 frame header written for any three-character id and any size below 2^24 parses back to the same id and size; larger sizes are refused.", "quantifier": "every id and size", "why_tests_cant": "2^24 sizes and all ids", "anchors": ["scribbu/framesv22.cc:write_header", "scribbu/id3v22.cc:parse"]}
{"id": "C24", "title": "Frame flags survive a write/read cycle (v2.3 and v2.4)", "statement": "The tag-alter, file-alter, read-only, compression, encryption and grouping attributes of an ID3v2.3/2.4 frame are the same after writing the frame and reading it back.", "quantifier": "every combination of flags", "why_tests_cant": "writer and reader keep separate bit tables; every combination must agree", "anchors": ["scribbu/framesv23.cc:write_header", "scribbu/framesv24.cc:write_header", "scribbu/id3v23.cc:parse", "scribbu/id3v24.cc:parse"]}
{"id": "C25", "title": "What is written reflects the latest edits", "statement": "At any time, write(os, unsync) on a frame emits the frame's current content, and serialized_size(unsync) is the number of bytes it would emit, whatever sequence of edits, size queries and writes came before.", "quantifier": "every history of mutators, size queries, writes and copies", "why_tests_cant": "stale-cache bugs need particular interleavings", "anchors": ["scribbu/framesv22.cc:serialized_size", "scribbu/framesv23.cc:serialized_size", "scribbu/framesv2.hh:id3v2_frame::dirty"]}
{"id": "C26", "title": "write(unsync) honours its argument", "statement": "Writing a frame with unsync=false emits the raw bytes; with unsync=true it emits unsynchronised bytes (no false syncs).", "quantifier": "every frame content", "why_tests_cant": "needs content with sync-like pairs at arbitrary places", "anchors": ["scribbu/framesv22.cc:write", "scribbu/framesv23.cc:write"]}
{"id": "C27", "title": "A tag's reported size is the number of bytes it writes", "statement": "For ID3v2.2, 2.3 and 2.4 tags, write(os, unsync) emits exactly 10 + size(unsync) bytes (plus footer where present) and the size in the emitted header is that size.", "quantifier": "every tag: any frames, padding, flags, extended header, and both unsync values", "why_tests_cant": "sums over unbounded frame lists and option combinations", "anchors": ["scribbu/id3v22.cc:size", "scribbu/id3v22.cc:write", "scribbu/id3v23.cc:size", "scribbu/id3v23.cc:write", "scribbu/id3v24.cc:size", "scribbu/id3v24.cc:write"]}
{"id": "C28", "title": "ID3v2.2 tags round-trip", "statement": "Writing an ID3v2.2 tag and reading it back gives the same frames in the same order and the same padding, and the reader stops exactly at the end of the tag.", "quantifier": "every list of frames and every padding", "why_tests_cant": "unbounded frame lists, content that resembles headers or padding", "anchors": ["scribbu/id3v22.cc:parse", "scribbu/id3v22.cc:write"]}
{"id": "C29", "title": "Parsing untrusted tags is memory safe", "statement": "Reading an ID3v2 tag from arbitrary bytes either yields a tag or throws; it never reads outside the tag's buffer.", "quantifier": "every byte string", "why_tests_cant": "adversarial inputs", "anchors": ["scribbu/id3v22.cc:parse", "scribbu/id3v23.cc:parse", "scribbu/id3v24.cc:parse"]}
{"id": "C30", "title": "Parsing terminates", "statement": "Reading an ID3v2.3/2.4 tag from arbitrary bytes terminates.", "quantifier": "every byte string", "why_tests_cant": "non-termination cannot be observed by a finite test", "anchors": ["scribbu/id3v23.cc:parse", "scribbu/id3v24.cc:parse"]}
{"id": "C31", "title": "Frame lookups stay consistent with the frame list", "statement": "After any sequence of push_back, insert, erase and delete_frame, the text accessors answer from the first frame with that id that is actually in the tag and has_frame is true iff one is in the tag.", "quantifier": "every history of container operations", "why_tests_cant": "index bookkeeping errors only show up after particular histories", "anchors": ["scribbu/id3v22.cc:insert", "scribbu/id3v22.cc:erase", "scribbu/id3v22.cc:delete_frame", "scribbu/id3v22.cc:push_back", "scribbu/id3v23.cc:insert", "scribbu/id3v24.cc:insert"]}
{"id": "C32", "title": "Padding adjustment hits its target", "statement": "adjust_padding_to(tags, target) either makes the tags' total size exactly the target without changing any frame, or throws and leaves the tags usable; paddings never become negative or absurd.", "quantifier": "every list of tags with any paddings and any current/target sizes", "why_tests_cant": "integer division with remainder and signs over unbounded lists", "anchors": ["scribbu/tagset.hh:adjust_padding_to"]}
{"id": "C33", "title": "Replacing the tagset preserves the audio", "statement": "maybe_emplace_tagset and replace_tagset_copy leave the file as the serialised new tags followed by exactly the bytes that followed the old ID3v2 tags.", "quantifier": "every old file, every new tagset, every strategy", "why_tests_cant": "depends on size bookkeeping for all contents", "anchors": ["scribbu/tagset.hh:maybe_emplace_tagset", "scribbu/tagset.hh:replace_tagset_copy", "scribbu/tagset.hh:replace_tagset_emplace"]}
{"id": "C34", "title": "A crash while replacing tags by copy never loses the audio", "statement": "If the process dies between any two filesystem operations of replace_tagset_copy, the target path holds either the complete old file or the complete new file (or a complete backup is on disk).", "quantifier": "every crash point, rename success or cross-device failure, with or without backups", "why_tests_cant": "crash points cannot be enumerated by tests", "anchors": ["scribbu/tagset.hh:replace_tagset_copy"]}
{"id": "C35", "title": "Backups never overwrite earlier backups", "statement": "The backup name chosen for a file does not name an existing file, so making a backup never destroys an earlier one.", "quantifier": "every directory content and every (absolute or relative) path", "why_tests_cant": "directory contents are arbitrary", "anchors": ["scribbu/tagset.hh:get_backup_name"]}
{"id": "C36", "title": "MP3 frame headers: accepted headers are valid and big enough", "statement": "parse_header accepts a 4-byte header only if version, layer, bit-rate and sampling-rate fields are legal MPEG-1/2/2.5 layer III values; the computed frame size is given by the standard formula and is never smaller than header + CRC + side information.", "quantifier": "every 32-bit header", "why_tests_cant": "2^21 accepted combinations of fields", "anchors": ["scribbu/mp3.cc:parse_header"]}
{"id": "C37", "title": "MP3 duration scanning terminates and adds up", "statement": "get_mp3_duration terminates on every stream; for a stream consisting of n valid frames it reports the sum of the frames' durations.", "quantifier": "every byte stream", "why_tests_cant": "unbounded streams", "anchors": ["scribbu/mp3.cc:get_mp3_duration", "scribbu/mp3.cc:find_sync"]}
{"id": "C38", "title": "'The' transformations are mutually inverse", "statement": "Moving a leading 'The ' to a ', The' suffix and back yields the original text (up to letter case of 'The'), and text without the article is unchanged.", "quantifier": "every text", "why_tests_cant": "all strings, incl. shorter than the article", "anchors": ["scribbu/tbt-support.cc:do_the_xform"]}
{"id": "C39", "title": "Capitalisation and whitespace template options are total and behave as documented", "statement": "Capitalise/all-upper/all-lower are defined for every text (including the empty text) and idempotent; 'compress' whitespace leaves no runs of blanks; 'replace' leaves no blanks (unless in the replacement).", "quantifier": "every text", "why_tests_cant": "all strings incl. empty and all-blank", "anchors": ["scribbu/tbt-support.cc:do_cap_xform", "scribbu/tbt-support.cc:do_ws_xform"]}
{"id": "C40", "title": "Template text escaping round-trips", "statement": "Any literal text can be written in a template by escaping the special characters with a backslash, and the lexer's unescaping gives back the text.", "quantifier": "every text", "why_tests_cant": "unbounded strings", "anchors": ["scribbu/tbt-lexer.ll:unescape_and_copy", "scribbu/tbt-lexer.ll"]}
{"id": "C41", "title": "Template source preference falls back", "statement": "With prefer-v2 (prefer-v1) a template field uses the preferred tag's non-empty value, otherwise the other tag's non-empty value, otherwise reports it missing; v1-only/v2-only never consult the other tag.", "quantifier": "every combination of tags present/absent and values empty/non-empty", "why_tests_cant": "all combinations of presence, emptiness and policy", "anchors": ["scribbu/tbt-support.hh:source_text"]}
{"id": "C42", "title": "Genre tables are consistent", "statement": "text_for_genre(n) is defined exactly for n < 192; the per-generation genre lists are prefixes of the full list; every listed genre maps back to its number by exact (case-insensitive) match.", "quantifier": "every genre number and every listed text", "why_tests_cant": "whole-table property", "anchors": ["scribbu/winamp-genres.cc:text_for_genre", "scribbu/winamp-genres.cc:get_id3v1_genre_list", "scribbu/winamp-genres.cc:match_winamp_genre"]}
{"id": "C43", "title": "Sub-commands modify only what they were told to", "statement": "For every file, a sub-command built on tagset_processor writes the file only if some in-scope tag was changed or created and not in dry-run mode; tags outside the requested indices are written back unchanged; no tag is created unless the creation policy allows it.", "quantifier": "every combination of scope, creation policy, dry-run and tags present", "why_tests_cant": "combinatorial decision logic over unbounded tag lists", "anchors": ["src/command-utilities.cc:tagset_processor::process_file", "src/xtag.cc:xtag_processor::process_tag"]}
{"id": "C44", "title": "Renaming by template never loses a file", "statement": "`scribbu rename' at any interruption point leaves the complete original content under the old or the new name and never overwrites a different existing file.", "quantifier": "every filesystem state, option combination and crash point", "why_tests_cant": "crash points and arbitrary destination state", "anchors": ["src/rename.cc:renamer::process_file"]}
{"id": "C45", "title": "Text-frame identifier tables are faithful", "statement": "Every logical text frame maps to a distinct identifier for ID3v2.2 and for ID3v2.3/2.4 (so two different logical frames never collide), and the printed name parses back.", "quantifier": "every member of the enumeration", "why_tests_cant": "whole-table property over three tables that must agree", "anchors": ["scribbu/framesv2.cc:frame_id3", "scribbu/framesv2.cc:frame_id4"]}
{"id": "C46", "title": "Failed reads leave the caller's stream usable", "statement": "When constructing a tag from a stream fails, the stream's get pointer is back where it was and the caller's exception mask is as it was, for every failing input.", "quantifier": "every stream content and mask, for ID3v1 and ID3v2.2", "why_tests_cant": "every failure path for every content", "anchors": ["scribbu/id3v1.cc:id3v1_tag", "scribbu/id3v22.cc:parse"]}
{"id": "C47", "title": "A refused tag-cloud change changes nothing", "statement": "When merge(text) or update(text) on a tag cloud throws because the text is malformed, the owner, keys and values of the cloud are what they were before the call.", "quantifier": "every tag cloud and every text", "why_tests_cant": "the exception can come from any place in an unbounded text", "anchors": ["scribbu/framesv2.cc:tag_cloud::merge", "scribbu/framesv2.cc:tag_cloud::update"]}
{"id": "C48", "title": "Frame-body parsers read only the bytes they are given", "statement": "Constructing any of the frame bodies (tag cloud, popularimeter, play counter, comment, user-defined text, unique file id, encryption method, private data) from a byte range, and asking the result whether it needs unsynchronisation, comes to an end and never reads outside that range, whatever the bytes are.", "quantifier": "every byte range of every length", "why_tests_cant": "missing terminators and lying lengths can be anywhere in unbounded input", "anchors": ["scribbu/framesv2.hh:tag_cloud", "scribbu/framesv2.hh:popularimeter", "scribbu/framesv2.hh:user_defined_text", "scribbu/framesv2.cc:comments"]}
{"id": "C49", "title": "Frame bodies count their false syncs correctly", "statement": "The number of false syncs that a frame body (unique file id, popularimeter, user-defined text, encryption method, comment, tag cloud, private data) reports when asked whether it needs unsynchronisation is the number of false syncs in the bytes it writes, so that it is zero exactly if none are written.", "quantifier": "every frame body with any contents", "why_tests_cant": "pairs straddle field boundaries, for unbounded contents", "anchors": ["scribbu/framesv2.cc:needs_unsynchronisation", "scribbu/framesv2.cc:count_syncs"]}
{"id": "C50", "title": "Comments can be edited, however they were made", "statement": "Setting the text or the description of a comment, whether it was parsed or created, replaces exactly that part by the argument converted to the encoding the comment is in, and changes nothing else; a failing conversion changes nothing.", "quantifier": "every comment, every argument and every outcome of the conversion", "why_tests_cant": "every version, encoding byte and contents", "anchors": ["scribbu/framesv2.cc:comments::text", "scribbu/framesv2.cc:comments::description", "scribbu/framesv2.cc:add_bom"]}
{"id": "C51", "title": "Frame bodies predict their unsynchronised size", "statement": "serialized_size(true) of a frame body is the number of bytes that the unsynchronised form of what it writes has.", "quantifier": "every unique file id, popularimeter, play counter, user-defined text, encryption method, comment, tag cloud and private frame", "why_tests_cant": "pairs straddle field boundaries, for unbounded contents", "anchors": ["scribbu/framesv2.cc:serialized_size"]}
{"id": "C52", "title": "Frames become objects of the class their identifier stands for", "statement": "Reading a frame whose identifier the ID3 standard of that version lists as a text information frame gives a text frame, and no other identifier does; comments, play counters, popularimeters, unique file ids, user-defined text and the library's tag clouds are recognised by exactly their identifiers; every other identifier is kept as an unknown frame.", "quantifier": "every identifier, for ID3v2.2, 2.3 and 2.4", "why_tests_cant": "an identifier can be any three or four bytes, and a table can be wrong in any of its entries", "anchors": ["scribbu/id3v22.cc:parse_frame", "scribbu/id3v22.cc:static_initializer", "scribbu/id3v23.cc:static_initializer", "scribbu/id3v24.cc:static_initializer"]}
{"id": "C53", "title": "ID3v2.3 tags survive writing and reading back", "statement": "A tag of ID3v2.3 with any frames, flags, padding and extended header that is written, with or without unsynchronisation, and read from those bytes wherever they are in a file, has the same frames with the same content in the same order, the same experimental flag, padding and extended header, and the reader stops at the end of the tag.", "quantifier": "every tag, every number of frames of every size, both values of the unsync argument, all surrounding bytes", "why_tests_cant": "unbounded frame lists and payloads; unsynchronisation acts across frame boundaries", "anchors": ["scribbu/id3v23.cc:id3v2_3_tag::write", "scribbu/id3v23.cc:id3v2_3_tag::parse"]}
{"id": "C54", "title": "ID3v2.4 tags survive writing and reading back", "statement": "A tag of ID3v2.4 with any frames, flags, padding, footer and extended header that is written, with or without unsynchronisation, and read from those bytes wherever they are in a file, has the same frames with the same content in the same order and the same flags, and the reader stops at the end of the tag.", "quantifier": "every tag, every number of frames of every size, both values of the unsync argument, all surrounding bytes", "why_tests_cant": "unbounded frame lists and payloads; the sizes of all parts add up", "anchors": ["scribbu/id3v24.cc:id3v2_4_tag::write", "scribbu/id3v24.cc:id3v2_4_tag::parse"]}
{"id": "C55", "title": "Extended headers survive writing and reading back", "statement": "Writing an extended header of ID3v2.3 or ID3v2.4 and parsing the bytes, whatever follows them, gives back its size, flags, padding size, checksum and restrictions.", "quantifier": "every extended header, all following bytes", "why_tests_cant": "32-bit fields and all combinations of optional parts", "anchors": ["scribbu/id3v23.cc:ext_header", "scribbu/id3v24.cc:ext_header"]}
{"id": "C56", "title": "A tag knows whether it needs unsynchronisation", "statement": "needs_unsynchronisation() of a tag is true exactly if the bytes of one of its frames contain a false synchronisation signal (FF followed by E0 to FF) or, for ID3v2.3, if the tag has no padding and ends in FF.", "quantifier": "every tag of ID3v2.2, 2.3 and 2.4, with any number of frames of any size", "why_tests_cant": "unbounded frame lists and payloads; a single missed pattern corrupts playback", "anchors": ["scribbu/id3v22.cc:needs_unsynchronisation", "scribbu/id3v23.cc:needs_unsynchronisation", "scribbu/id3v24.cc:needs_unsynchronisation"]}
{"id": "C57", "title": "Frames and extended headers as the standards lay them out are read", "statement": "A frame of ID3v2.3 or ID3v2.4 laid out as the standard says, with any attributes, with or without a group, compressed or not, is read with that identifier, those flags and that content, and so is any sequence of them; an extended header of ID3v2.4 laid out as the standard says is read with its flags, checksum and restrictions.", "quantifier": "every sequence of frames, all flags, all payloads; every extended header", "why_tests_cant": "files are written by other programs: all combinations of flags and any payload can occur", "anchors": ["scribbu/id3v23.cc:id3v2_3_tag::parse", "scribbu/id3v24.cc:id3v2_4_tag::parse", "scribbu/id3v24.cc:ext_header"]}
{"id": "C58", "title": "A replacement that fails leaves the file as it was", "statement": "If replacing the tags of a file by way of a copy throws an exception, whichever step failed, the file has the contents it had before the call.", "quantifier": "every file, every sequence of tags, every failure of every file-system step, with the temporary file on the same or another file system", "why_tests_cant": "the steps that can fail, and how far they got, cannot be enumerated by running against a healthy disk", "anchors": ["scribbu/tagset.hh:replace_tagset_copy"]}
{"id": "C59", "title": "Replacing tags touches no other file", "statement": "A call of replace_tagset_copy that returns has changed no file but the one it was given and, if a backup was asked for, one new backup of it; in particular no temporary file and no backup that was not asked for is left behind. If the process dies on the way, at most the file, its backups and the temporary file are affected.", "quantifier": "every file system, file, sequence of tags, point of interruption; temporary file on the same or another file system", "why_tests_cant": "other files are unbounded in number and name; tests rarely have two file systems", "anchors": ["scribbu/tagset.hh:replace_tagset_copy", "scribbu/tagset.hh:get_backup_name"]}
{"id": "C60", "title": "A backup asked for is made", "statement": "A call of replace_tagset_copy with a backup requested that returns has left the old contents of the file, complete, under the name of a backup; if the path is absolute and the numbers of the backups there are small, that name was not in use before.", "quantifier": "every file system, file, sequence of tags; temporary file on the same or another file system", "why_tests_cant": "all sets of existing backups, sizes of files and orders of failures", "anchors": ["scribbu/tagset.hh:replace_tagset_copy", "scribbu/tagset.hh:get_backup_name"]}
{"id": "C61", "title": "A template written as the manual explains is understood", "statement": "A template made of texts (special characters escaped), replacements in short or long form, with options none of which is repeated, and optional parts, is accepted and stands for exactly these texts, replacements, options and optional parts, in this order; so what is written determines what it stands for.", "quantifier": "every template, of any length and nesting depth, any number of options, any texts", "why_tests_cant": "grammars generate unboundedly many templates; a scanner's longest-match rule interacts with whatever follows", "anchors": ["scribbu/tbt-lexer.ll", "scribbu/tbt-parser.yy", "scribbu/id3v2-utils.cc:template_processor"]}
{"id": "C62", "title": "A template does not depend on the templates before it", "statement": "Whether a template is accepted, and what it stands for, does not depend on which templates the process has dealt with before.", "quantifier": "every sequence of templates, accepted or rejected", "why_tests_cant": "histories are unbounded; tests construct one template per process or only accepted ones", "anchors": ["scribbu/id3v2-utils.cc:template_processor::template_processor", "scribbu/tbt-lexer.ll"]}
{"id": "C63", "title": "The options the manual lists can be chosen", "statement": "For every source preference, ID3v1 encoding, year format, number base and letter case the manual lists there is a template that selects it.", "quantifier": "every option value; for the negative part, every template", "why_tests_cant": "that no template at all selects an option is a statement about all templates", "anchors": ["scribbu/tbt-lexer.ll", "scribbu/tbt-parser.yy:aacet_opt", "scribbu/tbt-parser.yy:size_opt", "doc/scribbu.texi"]}
{"id": "C64", "title": "Optional parts of a template never make it fail", "statement": "A part in parentheses followed by a question mark evaluates to its value or, if a source in it is missing, to nothing; it does not make the evaluation of the template fail.", "quantifier": "every template, every tag, every conversion outcome", "why_tests_cant": "all combinations of present, absent, empty and unconvertible fields at any nesting depth", "anchors": ["scribbu/tbt-support.cc:subclause::evaluate", "scribbu/tbt-support.hh:source_text"]}
{"id": "C65", "title": "Sizes and checksums are printed as numbers", "statement": "The file's size comes out as its digits in the base asked for, decimal by default, and the checksum of the audio data in digits.", "quantifier": "every size, checksum and choice of base", "why_tests_cant": "all 2^64 sizes and 2^128 digests", "anchors": ["scribbu/tbt-support.cc:size::evaluate", "scribbu/tbt-support.cc:md5::evaluate", "scribbu/tbt-support.hh:size"]}
{"id": "C66", "title": "Renaming in place stays in the directory", "statement": "Unless an output directory is given, `scribbu rename' gives each file a new name in the directory it is in, whatever its tags say.", "quantifier": "every path and every text of the tags", "why_tests_cant": "tag text is arbitrary and may hold separators", "anchors": ["src/rename.cc:renamer::process_file"]}
{"id": "C67", "title": "One file does not hinder the renaming of another", "statement": "If no system call fails, `scribbu rename' puts a file whose new name is free, and wanted by no other file, under that name, whatever other files are processed before and after it.", "quantifier": "every list of files, every template and every file-system state", "why_tests_cant": "depends on all the other files and their order", "anchors": ["src/rename.cc:renamer::process_file", "src/rename.cc:handle_rename"]}
{"id": "C68", "title": "Renaming a second time does nothing", "statement": "By a template that depends on the contents only, a file that `scribbu rename' has renamed in place is left alone when processed again.", "quantifier": "every file, template text and file-system state", "why_tests_cant": "history of two runs over arbitrary tag text", "anchors": ["src/rename.cc:renamer::process_file"]}
{"id": "C69", "title": "An interrupted renaming can be completed", "statement": "If `scribbu rename' was interrupted at any point, giving it again leaves the file under its new name.", "quantifier": "every crash point, file content and template", "why_tests_cant": "crash points", "anchors": ["src/rename.cc:renamer::process_file"]}
{"id": "C70", "title": "Renaming renames", "statement": "A file that `scribbu rename' has processed in place without error, and whose new name differs, is no longer under the old name, and no other file has changed.", "quantifier": "every option combination and file-system state", "why_tests_cant": "every combination of options and files", "anchors": ["src/rename.cc:renamer::process_file", "src/rename.cc:handle_rename"]}
{"id": "C71", "title": "A template parameter shows the field it is named after", "statement": "Each parameter of a template for which the manual names a field (title, artist, album, year, track, genre, comment, encoded-by ...) evaluates to the text of that field of the tag, put through the transformations asked for.", "quantifier": "every parameter, every tag, every text", "why_tests_cant": "every text of every field in every combination with the others", "anchors": ["scribbu/tbt-support.hh", "scribbu/tbt-support.cc", "doc/scribbu.texi"]}
{"id": "C72", "title": "Names of encodings are faithful", "statement": "Every encoding is printed by a name of its own that is read back as the encoding, whatever white space surrounds it, and that is the name given to iconv; nothing else is read as an encoding.", "quantifier": "every encoding and every way of dealing with characters it lacks; every text read", "why_tests_cant": "three tables of a hundred entries that must agree; every input text", "anchors": ["scribbu/charsets.cc:operator>>", "scribbu/charsets.cc:operator<<", "scribbu/charsets.cc:string_for_encoding"]}
{"id": "C73", "title": "The system's encoding is that of the locale", "statement": "If the name of the locale states a character set, that is the encoding used for texts of the system.", "quantifier": "every locale name", "why_tests_cant": "locales are those of whoever runs the program", "anchors": ["scribbu/charsets.cc:encoding_from_locale_name", "scribbu/charsets.cc:encoding_from_system_locale"]}
{"id": "C74", "title": "Languages have their ISO 639-2 codes", "statement": "The code written for a language is its code of three small letters in ISO 639-2; if no language is given it is that of the locale's language; a language that is printed is read back.", "quantifier": "every language and every setting of LANGUAGE, LC_ALL and LANG", "why_tests_cant": "tables of five hundred entries that must agree; every environment", "anchors": ["scribbu/charsets.cc:language_from_iso_639_1", "scribbu/charsets.cc:language_from_locale", "scribbu/charsets.cc:language_to_iso_639_2"]}
{"id": "C75", "title": "Text is converted completely or not at all", "statement": "convert_encoding from text to bytes yields all of the text in the other encoding or throws; it never returns less.", "quantifier": "every text, every pair of encodings, every amount of room the conversion takes", "why_tests_cant": "depends on how much room iconv needs; only long outputs take the second attempt", "anchors": ["scribbu/charsets.cc:convert_encoding"]}
{"id": "C76", "title": "Bytes are converted to text as they are", "statement": "convert_encoding from bytes to text yields what the conversion makes of them; text converted there and back again is the same.", "quantifier": "every byte string, every pair of encodings", "why_tests_cant": "all byte strings", "anchors": ["scribbu/charsets.cc:convert_encoding"]}
{"id": "C77", "title": "Byte order marks are right", "statement": "If a byte order mark is asked for, the bytes start with U+FEFF in the encoding they are in.", "quantifier": "every destination encoding and every text", "why_tests_cant": "one constant per encoding, each reached only through its own encoding", "anchors": ["scribbu/charsets.cc:convert_encoding"]}
{"id": "C78", "title": "Matching a text finds the closest genre", "statement": "For every text, match_winamp_genre returns the listed genre with the least Damerau-Levenshtein distance from the text (case folded), together with its number and that distance, and never reads outside its working storage or an uninitialised variable.", "quantifier": "every text, of any length and content, in any locale", "why_tests_cant": "the working array is shared between the comparisons with all genres, so the result for one genre depends on the history of the earlier ones; a test sees only a few texts", "anchors": ["scribbu/winamp-genres.cc:match_winamp_genre", "scribbu/winamp-genres.cc:damerau_levenshtein", "scribbu/winamp-genres.cc:f"]}
{"id": "C79", "title": "Setting the genre sets it in every tag asked for, and changes nothing else", "statement": "Running `genre` on a file succeeds whatever frames its ID3v2 tags have; afterwards each ID3v2 tag that was asked for answers the requested genre as its content type, with no other frame changed, added, removed or reordered; the ID3v1 tag, if asked for, has the requested number and otherwise the fields it had; tags that were not asked for, and tags newly made, are as documented.", "quantifier": "every file (any sequence of ID3v2 tags of any versions with any frames, with or without an ID3v1 tag), every genre, every choice of tags", "why_tests_cant": "The number of combinations of tags, frames and options is unbounded; tests run the command on a handful of well-formed files that already have a genre.", "anchors": ["src/genre.cc: set_genre::process_v2, set_genre::process_v1, set_genre::create_v1, set_genre::create_v2", "src/command-utilities.cc: tagset_processor::process_file"]}
{"id": "C80", "title": "An ID3v1 tag made from ID3v2 tags says what they say", "statement": "When an ID3v1 tag is to be made for a file that has ID3v2 tags, it is made whatever frames those have, and its title, artist, album and year are those of the first ID3v2 tag that has one, cut to the width of the field; they read back with the library's defaults.", "quantifier": "every non-empty sequence of ID3v2 tags of any versions with any frames", "why_tests_cant": "Which frames are missing from which tags is unbounded; tests use a tag that has everything.", "anchors": ["src/command-utilities.hh: copy_id3_v2, detail::find_frame, detail::find_year, detail::find_content_type", "src/genre.cc: set_genre::create_v1"]}
{"id": "C81", "title": "An ID3v2 tag made from an ID3v1 tag says what it says", "statement": "When an ID3v2 tag is to be made for a file that has an ID3v1 tag, it is made whatever is in that, and the new tag's artist, title, album, comment, year, genre and track number are those of the ID3v1 tag; fields that are empty make no frames.", "quantifier": "every ID3v1 or ID3v1.1 tag, standard or enhanced, with any bytes in its fields", "why_tests_cant": "The bytes in the fields are arbitrary; tests use ASCII only and no track number.", "anchors": ["src/command-utilities.cc: copy_id3_v1", "scribbu/id3v23.cc: id3v2_3_tag::text, id3v2_3_tag::add_comment"]}
{"id": "C82", "title": "Options of genre are accepted exactly when documented, and obeyed", "statement": "`genre` accepts a combination of options if and only if the documentation allows it; an accepted combination limits processing to the tags it names and has missing tags made just as documented; the genre is the number, the closest name or the free text that was given, and the number given with --v1 is the one set in ID3v1 tags.", "quantifier": "every combination of the options and every value of each", "why_tests_cant": "The combinations of options times the texts are unbounded; tests try a few combinations.", "anchors": ["src/genre.cc: textual_genre_for_args, tag_scope_policies_for_args, tag_creation_policies_for_args, genre, handle_genre"]}
{"id": "C83", "title": "Setting the genre twice is the same as once", "statement": "Having run `genre` on a file, running it again with the same options changes no tag, makes no new ones, and does not write the file.", "quantifier": "every file and every choice of options", "why_tests_cant": "Whether a second run is idle has to be known for every result of a first run.", "anchors": ["src/genre.cc: set_genre", "src/command-utilities.cc: tagset_processor::process_file"]}
{"id": "C84", "title": "Every file named, or in a directory named, is processed", "statement": "Sub-commands given files and directories process each regular file that is named or that is anywhere beneath a directory that is named, once for each time it is so, and nothing else; a file that cannot be processed does not keep others from being processed.", "quantifier": "every sequence of arguments and every tree of directories, whichever files fail", "why_tests_cant": "The trees and the subsets of files that fail are unbounded.", "anchors": ["src/command-utilities.hh: process_dirent_args"]}
{"id": "C85", "title": "`text` removes the frames named, sets those given, and leaves all others alone", "statement": "After `text`, each ID3v2 tag processed has none of the frames named for deletion, answers each text given, has as many frames of a kind that is set as before (or one, if there was none), and has all other frames unchanged and in the same order; tags that are made have what the ID3v1 tag says and the texts given.", "quantifier": "every tag that can be read, whatever its frames, every list of frames to be deleted in any order, every set of texts", "why_tests_cant": "The tags, the lists and the orders are unbounded; that some orders of deletion go wrong depends on where the frames are.", "anchors": ["src/text.cc: set_text::process_tag", "scribbu/id3v23.cc: id3v2_3_tag::delete_frame", "scribbu/id3v2.cc: id3v2_tag::remove_frame"]}
{"id": "C86", "title": "`text` updates the ID3v1 tag too, if there is one", "statement": "When a file with an ID3v1 tag is processed by `text`, the title, the artist and the album in that tag are those given, or blank if to be deleted, or else unchanged; the rest of it is unchanged; and the change is written.", "quantifier": "every file, every ID3v1 tag, all options", "why_tests_cant": "Tags, texts and combinations of options are unbounded.", "anchors": ["src/text.cc: set_text::process_v1", "src/text.cc: USAGE", "src/command-utilities.cc: tagset_processor::process_file"]}
{"id": "C87", "title": "The options of `text` are followed, in any locale", "statement": "`text` with options that do not contradict each other processes the tags asked for, with the texts given and the frames named by option or by identifier, and makes ID3v2 tags when asked to; contradictory options are refused. This does not depend on the locale.", "quantifier": "every set of options, every name of the locale", "why_tests_cant": "Names of locales and texts are unbounded.", "anchors": ["src/text.cc: handle_text", "scribbu/charsets.cc: encoding_from_system_locale"]}
{"id": "C88", "title": "Playing a track changes its counters and ratings, and nothing else", "statement": "Running `scribbu popm` on a file adds one (or the number given, or sets the number given) to every play counter and popularimeter it is asked to change, in every tag; with an owner, to popularimeters of that owner only; with -p or -m, to counters or popularimeters only; a rating that is given replaces the old one. All other frames, and the order of frames, stay the same, a counter takes no more bytes than it needs, and any number of runs add up.", "quantifier": "every tag of each version, every list of frames in it, every counter, rating and owner, every combination of options, every number of runs", "why_tests_cant": "Counters have any length, owners any text, and tags any number of frames of either kind; a test fixes a few of each, and adding up needs any number of runs.", "anchors": ["src/popm.cc: set_pcnt_popm::process_tag, process_pcnt, process_popm", "scribbu/framesv2.cc: play_count::count, popularimeter::count, reset_counter"]}
{"id": "C89", "title": "A counter or rating that is made states the plays there are", "statement": "With --create-frame, a tag that has no play counter gets one, and, given an owner and a rating, one for the owner if they have none. A frame made states the highest number of plays that the other counters and popularimeters of the tag state after the run, or the number given if they state none; with --count all of them state the number given.", "quantifier": "every tag, every list of frames in it, every owner, rating and number", "why_tests_cant": "Which number is stated depends on all other frames of the tag, of which there can be any number with any contents.", "anchors": ["src/popm.cc: set_pcnt_popm::process_tag"]}
{"id": "C90", "title": "A rating is understood as it is written", "statement": "A rating is accepted if and only if it is a number from 0 to 255, or one of the characters a-z, A-Z, @, #, %, * and + repeated one to five times; these stand for 1, 64, 128, 196 and 255.", "quantifier": "every text given as a rating", "why_tests_cant": "There is no bound on the texts a user can give, and the ones wrongly accepted are among those that a test does not think of.", "anchors": ["src/popm.cc: rating_from_text"]}
{"id": "C91", "title": "The options of popm do what they say", "statement": "Options that contradict one another are refused before any file is touched; --tag restricts processing to the tags with these indices; --dry-run changes no tag; the default is to add one play; a tag made by --create-v2 or --always-create-v2 has the frames asked for.", "quantifier": "every combination of options and every file", "why_tests_cant": "The options combine freely, and what they do has to be the same for every tag.", "anchors": ["src/popm.cc: handle_popm, set_pcnt_popm::create_v2"]}
{"id": "C92", "title": "`xtag --get` shows tag clouds and changes nothing", "statement": "Running `scribbu xtag --get` prints, for each tag cloud (of the owner given, if any), one line of text that stands for exactly the keys and values in it, and changes no file, neither for a moment nor for good.", "quantifier": "every file, every number of tags and frames in it, every cloud, every owner, all other options", "why_tests_cant": "Clouds hold any number of keys and values of any bytes, and whether a file is written depends on what is in it.", "anchors": ["src/xtag.cc: xtag_processor::process_tag, handle_xtag", "src/command-utilities.cc: tagset_processor::process_file"]}
{"id": "C93", "title": "`xtag` changes the tag clouds asked for, and nothing else", "statement": "Running `scribbu xtag --xtags=TEXT` gives every tag cloud (of the owner given, if any) the keys and values in the text: instead of what it had, or with --merge on top of that. With --create-frame a tag without such a cloud gets one. What is written reads back as such; other frames and the order of frames stay the same; running it again changes nothing; a text that is not accepted is refused and nothing is written.", "quantifier": "every tag of each version, every list of frames in it, every cloud and owner, every text", "why_tests_cant": "The text, the clouds and the tags are unbounded, and what is read back depends on every byte of them.", "anchors": ["src/xtag.cc: xtag_processor::process_tag", "scribbu/framesv2.cc: tag_cloud::merge, tag_cloud::update, tag_cloud::write"]}
{"id": "C94", "title": "The options of xtag do what they say", "statement": "Options that contradict one another are refused, as is a missing --xtags; --tag restricts processing to the tags with these indices; --dry-run changes nothing; a tag that is made by --create-v2 or --always-create-v2 holds a tag cloud with what was given, and what the ID3v1 tag says if there is one.", "quantifier": "every combination of options, every text, every file", "why_tests_cant": "The options combine freely, and what they do has to be the same for every tag.", "anchors": ["src/xtag.cc: handle_xtag, USAGE, xtag_processor::create_v2"]}
{"id": "C95", "title": "Texts in comma-separated values are read back as they are", "statement": "Whatever separator the printer for comma-separated values accepts, a line of texts written by it is read back as these texts by a reader that follows RFC 4180.", "quantifier": "every separator the printer accepts, every list of texts", "why_tests_cant": "Texts hold separators, quotes and line feeds in any order, and each combination is quoted in its own way.", "anchors": ["scribbu/csv-pprinter.cc: escape, csv_pprinter::csv_pprinter"]}
{"id": "C96", "title": "The CSV report is a table that says what is in the files", "statement": "A report as comma-separated values is read as a row of column names and then one row for each file, in order, each with as many columns as there are names, which hold the directory and name, sizes, versions, flags, texts, comments and checksum that were read from the file.", "quantifier": "every set of arguments, every file and its tags, every number of comments asked for", "why_tests_cant": "Files, frames and texts are unbounded, and one unlucky text can shift the columns of a whole row.", "anchors": ["src/report.cc: csv_reporter::make_entry, handle_report", "scribbu/csv-pprinter.cc: csv_pprinter::pprint_v2_3_tag, pprint_v1_tag, pprint_track_data"]}
{"id": "C97", "title": "Counts in reports are in base ten", "statement": "The number of play count frames, the play count and the number of comments are shown in reports as numbers in base ten.", "quantifier": "every tag, every counter", "why_tests_cant": "A test with small counts does not tell one base from another.", "anchors": ["scribbu/csv-pprinter.cc: csv_pprinter::pprint_v2_2_tag, pprint_v2_3_tag, pprint_v2_4_tag", "scribbu/tdf-pprinter.cc"]}
{"id": "C98", "title": "A file that fails leaves nothing in the report", "statement": "A file that `report` counts as an error leaves no trace in the report, so that the rows of other files are as they would be without it.", "quantifier": "every file, every point at which reading or printing it may fail", "why_tests_cant": "Printing can fail at every text of every frame, after any part of the row.", "anchors": ["src/report.cc: reporter::process_file", "scribbu/csv-pprinter.cc: pprint_v2_4_tag", "scribbu/id3v24.cc: play_count"]}
{"id": "C99", "title": "Directory and name in a report are those of the file", "statement": "The cells for the directory and the name of a file are read back as the directory and name of the file.", "quantifier": "every path, every format", "why_tests_cant": "Names of files may hold any byte but the slash and NUL.", "anchors": ["src/report.cc: csv_reporter::make_entry, tdf_reporter::make_entry"]}
{"id": "C100", "title": "The TSV report is a table that says what is in the files", "statement": "A report with --tsv (with or without --ascii-delimited) is read as a row of column names and then one row for each file with as many columns, which hold what was read from the file.", "quantifier": "every set of arguments, every file and its tags", "why_tests_cant": "As for C96, and here texts are put as they are.", "anchors": ["src/report.cc: tdf_reporter::make_entry", "scribbu/tdf-pprinter.cc"]}
{"id": "C101", "title": "Every file asked for is in the report and in the summary", "statement": "Every file named, and every regular file with a name ending in \".mp3\" below a directory named, is in the report if it can be read; each is counted once, as done or as an error; the exit status is zero if and only if there was no error.", "quantifier": "every list of arguments, every directory tree, every pattern of failures", "why_tests_cant": "Failures can come at any file of any directory, and the others have to be seen all the same.", "anchors": ["src/report.cc: reporter::operator(), process_directory, process_file, handle_report"]}
{"id": "C102", "title": "If report succeeds, the report is there", "statement": "Exit status zero of `report` means that the whole report has been written to the output file.", "quantifier": "every output file, every point at which the disk fills up", "why_tests_cant": "The disk may fill up at any byte.", "anchors": ["src/report.cc: csv_reporter::csv_reporter, handle_report"]}
{"id": "C103", "title": "Texts are in the columns named for them", "statement": "The columns for artist, title, album, content type, encoder, year and languages hold the texts of the frames that the standard for the version of the tag has for these.", "quantifier": "every tag of each version, every set of frames in it", "why_tests_cant": "The columns have to hold for every combination of frames in each of the versions.", "anchors": ["scribbu/csv-pprinter.cc: pprint_v2_2_tag, pprint_v2_3_tag, pprint_v2_4_tag", "scribbu/tdf-pprinter.cc"]}
{"id": "C104", "title": "A playlist has one item about each file, in order", "statement": "A reader of the playlist that `m3u` writes finds one item for each file, in the order of the arguments, with its path, its duration in seconds, rounded, and its display title.", "quantifier": "every set of arguments, every path, every text in tags, every duration", "why_tests_cant": "Paths and texts hold any bytes, also those that mean something in a playlist.", "anchors": ["src/m3u.cc: m3u::process_file", "src/command-utilities.hh: process_dirent_args"]}
{"id": "C105", "title": "A playlist begins with its header, which is there once", "statement": "After `m3u --output` has succeeded the playlist begins with the line \"#EXTM3U\", and this line is nowhere else in it, also if the playlist had been there and was appended to.", "quantifier": "every set of arguments, every former playlist", "why_tests_cant": "Playlists are appended to any number of times.", "anchors": ["src/m3u.cc: m3u_to_file::m3u_to_file"]}
{"id": "C106", "title": "The display title is what a tag says", "statement": "If some tag of the file names both artist and title, these are shown in the playlist; else the name of the file without its extension is.", "quantifier": "every number of tags of each version in a file, every text in them, every behaviour of the conversion", "why_tests_cant": "Tags combine freely, and conversion may fail at any text.", "anchors": ["src/m3u.cc: m3u::guess_display_title, m3u::process_file"]}
{"id": "C107", "title": "--source-encoding is the encoding of texts", "statement": "Texts of tags are taken to be in the encoding given as --source-encoding.", "quantifier": "every encoding, every text, every behaviour of the conversion", "why_tests_cant": "Most texts look the same in many encodings.", "anchors": ["src/m3u.cc: handle_m3u"]}
{"id": "C108", "title": "A file that cannot be read keeps no other out of the playlist", "statement": "If `m3u` cannot read some of the files, it lists the others.", "quantifier": "every set of files that cannot be read, every position in the arguments", "why_tests_cant": "The file that fails may be anywhere, also deep inside a directory.", "anchors": ["src/command-utilities.hh: process_dirent_args", "src/m3u.cc: handle_m3u"]}
{"id": "C109", "title": "If m3u succeeds, the playlist is complete", "statement": "Exit status zero of `m3u --output` means that all arguments were files or directories and that the playlist has an item about each file.", "quantifier": "every set of arguments, every point at which the disk fills up", "why_tests_cant": "The disk may fill up at any byte.", "anchors": ["src/m3u.cc: m3u_to_file::m3u_to_file, handle_m3u", "src/command-utilities.hh: process_dirent_args"]}
{"id": "C110", "title": "Of the files in directories, the .mp3 files are listed", "statement": "The playlist lists the files named as arguments, and those in directories whose names end in \".mp3\".", "quantifier": "every directory tree", "why_tests_cant": "Directories hold any number of files of any name.", "anchors": ["src/m3u.cc: USAGE", "src/command-utilities.hh: process_dirent_args"]}
{"id": "C111", "title": "With --use-utf8 the playlist is UTF-8", "statement": "A playlist that is written with --use-utf8 is valid UTF-8.", "quantifier": "every set of arguments, every path, every text in every encoding", "why_tests_cant": "UTF-8 is a property of every byte of every path and text.", "anchors": ["src/m3u.cc: m3u::process_file, m3u_to_file::m3u_to_file"]}
{"id": "C112", "title": "--verbose makes no difference to the playlist", "statement": "The playlist, in a file or on standard output, and the exit status are the same with and without --verbose.", "quantifier": "every set of arguments, every pattern of failures", "why_tests_cant": "Notices can come between any two items.", "anchors": ["src/m3u.cc: handle_m3u", "src/command-utilities.hh: process_dirent_args"]}
{"id": "C113", "title": "Appending keeps the items of a playlist", "statement": "After `m3u --append` the items that were in the playlist are still there, as they were, and those about the files come after them.", "quantifier": "every former playlist, every set of arguments", "why_tests_cant": "The former playlist may end in any way.", "anchors": ["src/m3u.cc: m3u_to_file::m3u_to_file"]}
{"id": "C114", "title": "A sub-command gets the words behind its name", "statement": "If the first word of the command line that is no global option is the name of a sub-command, that sub-command and no other runs, with exactly the words behind its name, whatever they look like.", "quantifier": "every number of global options with every value, every list of words behind the name", "why_tests_cant": "Command lines are of any length, and words behind the name may look like global options.", "anchors": ["src/scribbu.cc: handle_options, main"]}
{"id": "C115", "title": "Help and version requests do nothing else", "statement": "If a global option asks for the version, it is shown; else if help is asked for, what is asked for last is shown; in both cases nothing else is done, and neither is shown if it is not asked for.", "quantifier": "every sequence of global options, every continuation of the command line", "why_tests_cant": "Options come in any order and number.", "anchors": ["src/scribbu.cc: handle_options, main"]}
{"id": "C116", "title": "Options for the interpreter get to it", "statement": "Global options for the Scheme interpreter are handed to it, in order and with what follows them, or the command line is refused.", "quantifier": "every sequence of global options, every continuation of the command line", "why_tests_cant": "Options come in any order and number, with any value.", "anchors": ["src/scribbu.cc: handle_options, main"]}
{"id": "C117", "title": "Unknown options are refused", "statement": "A word in the place of a global option that looks like an option but is none is refused with a usage message on standard error, and so is an option that lacks its value; standard output stays empty.", "quantifier": "every word, every sequence of global options before it", "why_tests_cant": "There is no end of words that are not options.", "anchors": ["src/scribbu.cc: handle_options, print_usage, main"]}
{"id": "C118", "title": "No command line makes scribbu misbehave before it does anything", "statement": "Whatever the words on the command line, nothing is written outside of the list of words for the interpreter, the interpreter gets the program name and words of the command line in order, and nothing uninitialised.", "quantifier": "every list of words", "why_tests_cant": "Command lines are of any length and may end anywhere.", "anchors": ["src/scribbu.cc: handle_options, main"]}
{"id": "C119", "title": "Each name of a sub-command calls its own handler", "statement": "Whatever the order in which modules are initialised, every documented name calls its handler, no other name is a sub-command, and a name that is registered twice is refused.", "quantifier": "every order of initialisation, every name", "why_tests_cant": "The order of initialisation is up to the linker.", "anchors": ["src/command-utilities.cc: register_command, has_sub_command, get_sub_command", "src/*.cc: r"]}
{"id": "C120", "title": "A sub-command shows help if asked to", "statement": "A sub-command shows help, and does nothing else, if and only if an option asks for help; the last one decides which.", "quantifier": "every list of options and positional words", "why_tests_cant": "Help options may be anywhere among any number of other words.", "anchors": ["src/command-utilities.cc: help_level_for_parsed_opts, maybe_handle_help"]}
{"id": "C121", "title": "A dump in JSON is JSON", "statement": "What `scribbu dump --format json` prints, when it exits with status 0, is a sequence of JSON values.", "quantifier": "every set of files, every content of every tag, every choice of options", "why_tests_cant": "Texts, identifiers and digests are arbitrary bytes, and any of them may break the syntax.", "anchors": ["scribbu/json-pprinter.cc: escape, pprint_v2_2_tag, pprint_v2_3_tag, pprint_v2_4_tag, pprint_v1_tag", "src/dump.cc: dumper::operator()"]}
{"id": "C122", "title": "A dump in JSON says what the tags say", "statement": "A JSON reader finds in the dump, for each file in order, the ID3v2 tags, the digest of the track and the ID3v1 tag, with their flags, sizes, padding, frames in order, and texts as they are in the tags.", "quantifier": "every set of files, every content of every tag", "why_tests_cant": "Quoting must be undone exactly by every reader, for every text.", "anchors": ["scribbu/json-pprinter.cc: escape, pprint_v2_3_tag, pprint_v1_tag, pprint_track_data"]}
{"id": "C123", "title": "Dumping a file that can be read is well-defined", "statement": "If the files can be read, printing them has no undefined behaviour, whatever is in them.", "quantifier": "every set of files, every content of every tag", "why_tests_cant": "Only some contents of some frames reach the undefined cases.", "anchors": ["scribbu/json-pprinter.cc: pprint_v2_2_tag, pprint_v2_4_tag, pprint_POPM", "scribbu/pprinter.cc: operator<<"]}
{"id": "C124", "title": "Exit status 0 of dump means that all has been dumped", "statement": "If `scribbu dump` exits with status 0, all arguments exist, and all files in question have been read and dumped.", "quantifier": "every set of arguments, every directory tree, every pattern of failures", "why_tests_cant": "Any subset of files may fail at any point.", "anchors": ["src/dump.cc: dumper::operator(), handle_dump"]}
{"id": "C125", "title": "Options of dump select parts of the dump", "statement": "What is dumped about a file has three parts: ID3v2 tags, track, ID3v1 tag. With none of -2, -D and -1 all are dumped, else just those that are selected, and each is the same whichever others are selected.", "quantifier": "every file, every selection", "why_tests_cant": "The parts are independent only if the state of the output stream is, for every content.", "anchors": ["src/dump.cc: dumper::operator()", "scribbu/json-pprinter.cc"]}
{"id": "C126", "title": "Several arguments of dump are dumped as one by one", "statement": "The dump of several arguments is the dumps of each of them, one after the other, and the status is the worst of theirs.", "quantifier": "every list of arguments", "why_tests_cant": "Lists of arguments are of any length and failures may be anywhere in them.", "anchors": ["src/dump.cc: handle_dump"]}
{"id": "C127", "title": "A standard dump shows all that is in the files", "statement": "If the files can be read and the texts in them can be written in UTF-8, `scribbu dump` prints, for each file in order, its name and time, its ID3v2 tags with all their frames, the size and digest of the track and the ID3v1 tag, and exits with status 0.", "quantifier": "every set of files, every content of every tag, every choice of options", "why_tests_cant": "Every kind of frame in every version of ID3v2 may occur, in any number and order.", "anchors": ["scribbu/pprinter.cc: standard_pprinter, operator<<", "src/dump.cc: dumper::operator(), handle_dump"]}
{"id": "C128", "title": "Indentation of a dump is that of every line", "statement": "With --indent, every line printed about a tag begins with that many spaces.", "quantifier": "every tag, every indentation", "why_tests_cant": "Texts and frames are arbitrary and any of them may break the rule.", "anchors": ["scribbu/pprinter.cc: standard_pprinter", "src/dump.cc: dumper::operator()"]}
{"id": "C129", "title": "A standard dump of files that can be read is well-defined", "statement": "If reading the files is well-defined, so is printing them.", "quantifier": "every set of files, every content of every tag, every conforming iconv", "why_tests_cant": "Only some contents of some frames reach the undefined cases.", "anchors": ["scribbu/pprinter.cc: standard_pprinter, pprint_PRIV, pprint_COMM"]}
{"id": "C130", "title": "A frame is shown as what it is", "statement": "Each frame is shown by its identifier and its fields, numbers in decimal, bytes in base sixteen and texts in UTF-8, whatever has been printed before it.", "quantifier": "every frame, every version, every earlier state of the output stream", "why_tests_cant": "The state of the stream (base, fill) carries over from any frame to any other.", "anchors": ["scribbu/pprinter.cc: standard_pprinter::pprint_ENCR, pprint_COMM, pprint_PRIV, pprint_POPM, pprint_UFID"]}
{"id": "C131", "title": "The heading of a tag shows its year", "statement": "If a tag read from a file has a year (TYE, TYER, or TDRC in ID3v2.4), it is at the end of the fifth line about the tag.", "quantifier": "every file, every tag in it", "why_tests_cant": "The frame may be anywhere among any other frames.", "anchors": ["scribbu/pprinter.cc: standard_pprinter::pprint_v2_2_tag, pprint_v2_3_tag, pprint_v2_4_tag", "scribbu/id3v24.hh: id3v2_4_tag::year, has_year"]}
{"id": "C132", "title": "The parts of a file are where they are", "statement": "What is read of a file for a dump are its tags in order, the size and digest of just the bytes between the ID3v2 tags and the ID3v1 tag, and the ID3v1 tag at its end.", "quantifier": "every file: every sequence of tags, every track, with or without ID3v1 tag", "why_tests_cant": "Bytes of the track and of tags are arbitrary and may look like tags.", "anchors": ["scribbu/id3v2-utils.hh: read_all_id3v2", "scribbu/scribbu.cc: track_data::track_data", "scribbu/id3v1.cc: process_id3v1"]}
{"id": "C133", "title": "The playlist says how long a file lasts", "statement": "If a file has ID3v2 tags, frames of audio and a rest in which no frame begins, the item about it in an extended playlist has the seconds that the frames last together, to the nearest.", "quantifier": "every sequence of frames of any number, each of any bit rate and sampling rate", "why_tests_cant": "Any number of frames, each with its own duration.", "anchors": ["src/m3u.cc", "scribbu/mp3.cc"]}
{"id": "C134", "title": "Scheme: an ID3v1 tag is read into the slots it belongs in", "statement": "`read-id3v1-tag` gives an `<id3v1-tag>` whose slots title, artist, album, year, comment, genre, track-no, enh-genre, speed, start-time and end-time have what these fields of the tag at the end of the file have, and no object if there is no tag.", "quantifier": "every file, every content of every field, standard or enhanced, every conforming iconv", "why_tests_cant": "Fields are arbitrary; which slot is wrong depends on the kind of tag.", "anchors": ["scribbu/scheme.cc: read-id3v1-tag", "scheme/scribbu.scm: <id3v1-tag>"]}
{"id": "C135", "title": "Scheme: an ID3v1 tag that is written is read back", "statement": "If there is room in a tag for what an `<id3v1-tag>` says, then `read-id3v1-tag` gives the same object after `write-id3v1-tag` has written it to a file.", "quantifier": "every object that fits, every file", "why_tests_cant": "Objects are arbitrary combinations of texts and numbers.", "anchors": ["scribbu/scheme.cc: read-id3v1-tag, write-id3v1-tag"]}
{"id": "C136", "title": "Scheme: `read-tagset` says what is in the file", "statement": "`read-tagset` gives one object for each ID3v2 tag of the file, in order, with one object for each frame, in order, that says what the frame says; in particular every text is there as a whole.", "quantifier": "every file: any tags of any version, any frames in them, any texts", "why_tests_cant": "Frames and their texts are arbitrary; one of them may spoil the result for the whole file.", "anchors": ["scribbu/scheme.cc: read-tagset", "scribbu/scheme-serde.cc: scheme_serde_dispatcher, de_*"]}
{"id": "C137", "title": "Scheme: `write-tagset` is well-defined", "statement": "Given objects whose slots have values of the documented types, `write-tagset` either succeeds, the file then consisting of the tags and what followed the old ones, or raises an error; it never reads outside of an object, uses something never set or dereferences null.", "quantifier": "every list of tags of any version with any frames of the documented kinds, any texts, every file, every value of `#:apply-unsync` and `#:copy`", "why_tests_cant": "Texts are arbitrary, among them those that the encoding of a frame cannot express; any frame may be the one that is wrong.", "anchors": ["scribbu/scheme.cc: write-tagset", "scribbu/scheme-serde.cc: ser_*, ser_unknown_frame_*", "scribbu/tagset.hh: maybe_emplace_tagset, replace_tagset_copy"]}
{"id": "C138", "title": "Scheme: the tags that are written are read back", "statement": "After `write-tagset` has succeeded, `read-tagset` gives the tags that were written, in order: of the same versions, experimental or not, with the same frames in order, each with the same attributes and contents.", "quantifier": "every list of tags with any frames of the documented kinds and any texts, every file, every value of `#:apply-unsync` and `#:copy`", "why_tests_cant": "Writing and reading are two long chains of functions; they must agree for every frame, attribute and text.", "anchors": ["scribbu/scheme.cc: write-tagset, read-tagset", "scribbu/scheme-serde.cc", "scribbu/framesv23.cc", "scribbu/framesv24.cc"]}
{"id": "C139", "title": "Scheme: finding frames", "statement": "`has-frame?` says whether a tag has a frame with a symbol; `get-frames` gives just those that have it, in order.", "quantifier": "every tag, every symbol", "why_tests_cant": "Tags have any number of frames.", "anchors": ["scheme/scribbu.scm: has-frame?, get-frames"]}
{"id": "C140", "title": "Scheme: symbols stand for the frames they are documented to stand for", "statement": "An object with a documented symbol is written as a frame with the identifier that symbol stands for, and a frame is read as an object with the symbol of its identifier.", "quantifier": "every documented symbol, every version, every content", "why_tests_cant": "There are three tables for reading and three for writing, for each of over forty symbols.", "anchors": ["scribbu/scheme-serde.cc: scheme_serde_dispatcher", "scheme/scribbu.scm: the list of symbols"]}
{"id": "C141", "title": "Scheme: `flat-file-system-tree` lists the regular files", "statement": "`flat-file-system-tree` gives the paths of the regular files under a path, each once, and nothing else.", "quantifier": "every tree of directories, files, symbolic links and other things, of any depth and width, every current directory", "why_tests_cant": "Trees are unbounded.", "anchors": ["scheme/scribbu.scm: flat-file-system-tree, strip-stat-from-file-system-tree, flatten"]}
{"id": "C142", "title": "Scheme: `fs-tree-generator` gives every regular file once", "statement": "The calls of the generator made by `fs-tree-generator` give the path of every regular file under a directory, each once, and then the end-of-file object, for ever.", "quantifier": "every tree of directories, files, symbolic links and other things, every sequence of calls, every limit on the number of open directories", "why_tests_cant": "Trees and sequences of calls are unbounded; the generator keeps a queue of directories between the calls.", "anchors": ["scheme/scribbu.scm: fs-tree-generator"]}
{"id": "C143", "title": "Scheme: `with-track-in` calls its procedure for every file", "statement": "`with-track-in` calls the procedure once for each thing in a directory tree that is not a directory, in the order in which they are come across, with its path, the tags it has (nil if they cannot be read) and its ID3v1 tag (nil if there is none).", "quantifier": "every list of entries of a directory tree with any names and any contents, every file that cannot be read", "why_tests_cant": "Trees and the contents of the files are unbounded; one file that is wrong must not affect what is said of others.", "anchors": ["scribbu/scheme.cc: with-track-in, with_track_in_thunk, with_track_in_catch_hand"]}
{"id": "C144", "title": "A dump says of tags what their headers say", "statement": "What a dump says of a tag as such is what its header says: version, revision, flags, whether it is unsynchronised, and the size announced; and the padding and the frames shown are those that come after the header.", "quantifier": "every file, every sequence of tags of any version at its beginning, all flags, sizes, frames and amounts of padding", "why_tests_cant": "Headers, frames and padding vary independently; the size shown is not the one that was read but computed anew from the frames.", "anchors": ["scribbu/pprinter.cc: print_id3v2_tag", "scribbu/id3v22.cc: size, flags, parse", "scribbu/id3v23.cc: size, flags, parse", "scribbu/id3v24.cc: size, flags, parse"]}
{"id": "C145", "title": "`split` touches only the files it makes", "statement": "Whatever goes wrong, and at every moment, `scribbu split` leaves every file as it is but those it is to make (\"id3v2NS\", \"trackS\", \"id3v1S\"), its input above all; if its status is 0, these files hold the parts of the input, and no file of such a name holds anything else.", "quantifier": "every input, file name, suffix, set of files already there, and failure to create or write any of the files", "why_tests_cant": "Failures of writing and files that are there already are a matter of circumstances, in any combination.", "anchors": ["src/split.cc: split_file, xfer_bytes, handle_split"]}
{"id": "C146", "title": "The list of encodings is right", "statement": "`scribbu encodings` lists every encoding there is, each once, by a name that is accepted wherever an encoding is asked for and stands for that encoding.", "quantifier": "every encoding, every line of the list", "why_tests_cant": "The names are in tables of their own, one for each direction.", "anchors": ["src/encodings.cc: handle_encodings", "scribbu/charsets.cc: operator<<, operator>>"]}
{"id": "C147", "title": "A stream uses the encoding it was last told", "statement": "After any history of `ienc` manipulators, `copyfmt` and destruction, on any number of streams, a stream has the encoding it was last told to use or that has been copied to it with `copyfmt` (UTF-8 if none); memory is used as it should be, and is given back exactly once.", "quantifier": "every sequence of operations on any number of streams, every encoding", "why_tests_cant": "Ownership of memory across streams is a matter of whole histories.", "anchors": ["scribbu/ostream.cc: ienc::insert, retrieve, callback, operator<<"]}
{"id": "C148", "title": "A stream uses the printer it was last told", "statement": "After any history of print manipulators, `copyfmt` and destruction, on any number of streams, a stream uses the printer last inserted or copied to it (the standard one if none); every printer is deleted exactly once.", "quantifier": "every sequence of operations on any number of streams, every printer", "why_tests_cant": "Ownership of memory across streams is a matter of whole histories.", "anchors": ["scribbu/pprinter.cc: pprint_manipulator, get_pretty_printer"]}
{"id": "C149", "title": "The interpreter finds its modules", "statement": "Starting the interpreter makes sure that DATADIR/guile/site is in the load path, whatever is in there; all other directories stay, in their order; modules that scribbu does not have are loaded from where they were; starting again changes nothing more.", "quantifier": "every load path, every data directory, every version text of Guile", "why_tests_cant": "The load path comes from the environment and can be anything.", "anchors": ["scribbu/scheme.cc: customize_load_path, customize_welcome, initialize_guile"]}
{"id": "C150", "title": "A frame as comma- or tab-separated values can be read back", "statement": "Inserting a frame into a stream with a printer for comma- or tab-separated values gives one record of what is in the frame (numbers in base ten, bytes in base sixteen), whatever has been printed before.", "quantifier": "every class of frame of every version, all its texts, numbers and bytes, every separator, every state of the stream", "why_tests_cant": "Texts may have separators and quotes in them anywhere, and what is printed depends on what has been printed before.", "anchors": ["scribbu/csv-pprinter.cc: pprint_UFID, pprint_ENCR, pprint_PCNT, pprint_PRIV, escape", "scribbu/tdf-pprinter.cc: pprint_UFID, pprint_ENCR, pprint_PCNT, pprint_PRIV", "scribbu/pprinter.cc: dispatch tables for frames"]}
{"id": "C151", "title": "Default parsers of frames can be shared by threads", "statement": "However the calls of any number of threads to register default frame parsers and to get them (as making a tag does) are interleaved: no two threads are at the tables at the same time; everything is as if the calls had been made one after another, each at a moment between its beginning and its end; each thread makes its calls in order; and all calls come to an end.", "quantifier": "every number of threads, every sequence of calls of each, every schedule", "why_tests_cant": "A test sees a few schedules only.", "anchors": ["scribbu/id3v22.cc: id3v2_2_tag::register_default_generic_frame_parser, register_default_text_frame_parser", "scribbu/id3v22.hh: id3v2_2_tag::get_default_generic_frame_parsers, get_default_text_frame_parsers"]}
{"id": "C152", "title": "Frames are made by the parser registered for them", "statement": "A default parser registered for an identifier is refused if the library makes such frames itself; otherwise it makes the frames with that identifier in all tags read from then on, and what is returned tells whether it is new or has replaced another. A parser registered with a tag is used for that tag. A tag has the default parsers of one moment.", "quantifier": "every set of parsers, every identifier, every history of registering and reading, every schedule", "why_tests_cant": "What a registration does shows in tags read at any time later, after anything else has been registered.", "anchors": ["scribbu/id3v22.cc: id3v2_2_tag::parse_frame, parsing_is_reserved, constructors", "scribbu/id3v22.hh: id3v2_2_tag::register_generic_frame_parser, register_text_frame_parser"]}
{"id": "C153", "title": "A copy of a tag is as good as the tag", "statement": "Copying an ID3v2 tag, or assigning it to another of its version, gives a tag with the same attributes and frames, which answers from them.", "quantifier": "every tag of every version, every tag assigned to", "why_tests_cant": "The tables that tags answer from depend on all the frames, and memory must be right for all tags.", "anchors": ["scribbu/id3v22.cc: id3v2_2_tag(const id3v2_2_tag&), operator=", "scribbu/id3v23.cc: id3v2_3_tag(const id3v2_3_tag&), operator=", "scribbu/id3v24.cc: id3v2_4_tag(const id3v2_4_tag&), operator="]}
{"id": "C154", "title": "A tag made straight from a stream is the one that is there", "statement": "Making an ID3v2 tag from a stream gives the same as looking for the header first and then reading the tag, and leaves the stream at the same place; if there is no tag of that version, an exception is thrown and the stream is as before.", "quantifier": "every stream, position and exception mask, every tag", "why_tests_cant": "What is in the stream can be anything.", "anchors": ["scribbu/id3v2.cc: id3v2_tag(std::istream&), parse_flags_and_size", "scribbu/id3v22.cc: id3v2_2_tag(std::istream&)", "scribbu/id3v23.cc: id3v2_3_tag(std::istream&)", "scribbu/id3v24.cc: id3v2_4_tag(std::istream&)"]}
{"id": "C155", "title": "The first MP3 frame is found wherever it is", "statement": "Searching a stream for an MP3 frame leaves it at the first place at or after the current one where a frame may start (FF, then a byte of at least E0), in good order and with its exception mask as before; if there is none, it is left at its end. Bytes in front of the first frame in which no frame can start make no difference to the duration of a track.", "quantifier": "every stream, position and exception mask, all bytes in front of the first frame", "why_tests_cant": "The bytes in front of a frame can be anything, as can their number.", "anchors": ["scribbu/mp3.cc: find_sync", "scribbu/mp3.cc: get_mp3_duration", "scribbu/mp3.hh: find_sync"]}
{"id": "C156", "title": "Encoder tags say what is in them", "statement": "A Xing, LAME or VBRI tag made from a stream just past its identifier has the values that are in it, field by field as documented, whatever they are and whichever of the optional ones are there, and leaves the stream behind the tag; one that the stream ends in the middle of is reported.", "quantifier": "every tag with any values and any selection of optional fields, everything in front of and behind it, every exception mask", "why_tests_cant": "The fields can have any values, and the optional ones can be there in any combination.", "anchors": ["scribbu/mp3.cc: xing_mp3_tag, lame_mp3_tag, vbri_mp3_tag, vbr_method_for_bits", "scribbu/mp3.hh: xing_mp3_tag, lame_mp3_tag, vbri_mp3_tag"]}
{"id": "C157", "title": "MP3 frames can be read one after another", "statement": "Making MP3 frames from a stream again and again gives the frames that are there, each with its own size and duration, and leaves the stream in good order behind the last one, whether or not encoder tags are to be looked for; where there is no frame, an exception is thrown and the stream is as before.", "quantifier": "every sequence of frames, however long, everything in front of and behind them, every exception mask; every four bytes that are no header", "why_tests_cant": "Streams have any number of frames of any sizes, and headers can be any four bytes.", "anchors": ["scribbu/mp3.cc: mp3_audio_frame(std::istream&, bool), parse_header, parse_vbr", "scribbu/mp3.hh: mp3_audio_frame"]}
{"id": "C158", "title": "The checksum in a tag is that of its frames", "statement": "A tag that has a checksum in its extended header is written with the checksum of the frames written with it, where and in the form the standard wants it, whatever had been done to the tag before; a tag whose checksum is wrong is not read as if it were right.", "quantifier": "every tag with a checksum, every list of frames and padding, unsynchronised or not", "why_tests_cant": "A checksum depends on each bit of each frame and on every change made since the tag was read.", "anchors": ["scribbu/id3v23.cc: id3v2_3_tag::ext_header::crc, id3v2_3_tag::ext_header::write, id3v2_3_tag::write", "scribbu/id3v24.cc: id3v2_4_tag::ext_header::crc, id3v2_4_tag::ext_header::write", "scribbu/framesv23.cc: id3v2_3_plus_frame::crc"]}
{"id": "C159", "title": "az-tags labels exactly the comments it is for", "statement": "In a tag whose comments can be read, the example program az-tags gives the description \"amazon.com song id\" to exactly those comments that have none and begin with \"Amazon.com Song ID\"; their text, language and attributes, and everything else in the tag, stay as they are.", "quantifier": "all tags of the three versions, all texts, encodings and attributes", "why_tests_cant": "tests run one file; the claim is about every comment, every encoding and every attribute", "anchors": ["examples/az-tags/src/main.cc: process_tag, tag_traits::replace", "scribbu/framesv2.cc: comments::comments"]}
{"id": "C160", "title": "az-tags processes every file it is given and loses nothing", "statement": "If all the files can be read and their ID3v2 tags suit the program, az-tags processes all of them; what the comment of an ID3v1 tag says is there afterwards; a file that cannot be processed is left as it was, and other files are not touched.", "quantifier": "all lists of files, all contents, all points at which the program may be interrupted", "why_tests_cant": "tests do not cover every file and every point of interruption", "anchors": ["examples/az-tags/src/main.cc: main", "scribbu/tagset.hh: maybe_emplace_tagset", "scribbu/id3v1.cc: replace_id3v1"]}
{"id": "C161", "title": "az-tags twice is az-tags once", "statement": "The program changes nothing in a tag that it has been over already.", "quantifier": "all tags of the three versions", "why_tests_cant": "it must hold for every tag", "anchors": ["examples/az-tags/src/main.cc: process_tag"]}
{"id": "C162", "title": "A text frame of ID3v2.4 holds the text put into it", "statement": "A text put into an ID3v2.4 text frame in any of its four encodings, by the constructor or by set, with or without a byte order mark, is the text read from it; if the encoding does not have its characters, an exception is thrown.", "quantifier": "every text, in every encoding it may be given in, every encoding of the frame", "why_tests_cant": "There are more than a million characters and every sequence of them is a text.", "anchors": ["scribbu/framesv24.cc: id3v2_4_text_frame::encshim, id3v2_4_text_frame::encshim2, id3v2_4_text_frame::set", "scribbu/framesv24.hh: id3v2_4_text_frame", "scribbu/charsets.cc: convert_encoding"]}
{"id": "C163", "title": "A field of a tag is the text it was set to, whatever was there before", "statement": "Whatever has been done to a tag before, setting a text field to a text that tags of its version can have makes it that text; a text they cannot have is refused.", "quantifier": "every history of a tag, every field, every text", "why_tests_cant": "Whether a text can be set may depend on everything done to the tag before.", "anchors": ["scribbu/id3v22.cc: id3v2_2_tag::set_text_frame, id3v2_2_tag::text_frame_as_str", "scribbu/id3v23.cc: id3v2_3_tag::set_text_frame", "scribbu/id3v24.cc: id3v2_4_tag::set_text_frame", "scribbu/framesv22.cc: id3v2_2_text_frame::set", "scribbu/framesv23.cc: id3v2_3_text_frame::set"]}
{"id": "C164", "title": "Texts are stored as the standard has it", "statement": "What setting a text field of a tag stores is in an encoding that the standard of that version has, marked as such, and starts with a byte order mark exactly where the standard wants one.", "quantifier": "every text, every version, whether or not the field was there before", "why_tests_cant": "It must hold for every text, as other programs read the files.", "anchors": ["scribbu/framesv22.cc: id3v2_2_text_frame::set", "scribbu/framesv23.cc: id3v2_3_text_frame::set", "scribbu/framesv24.cc: id3v2_4_text_frame::set", "scribbu/charsets.cc: convert_encoding"]}
{"id": "C165", "title": "A comment made from texts says them", "statement": "A comment made from a language, a text and a description, in ISO-8859-1 or Unicode as the version of the standard has it, with or without a byte order mark, has that language, text and description, at once and after it has been written and read; if the encoding does not have their characters, there is an exception.", "quantifier": "every text and description, language, version, choice of encoding and faithful conversion library", "why_tests_cant": "Whether texts come back depends on their characters, their neighbours (null bytes in Unicode) and the encoding, of which there are no end.", "anchors": ["scribbu/framesv2.cc: comments::comments, comments::write", "scribbu/framesv2.hh: comments, detail::find_trailing_null", "scribbu/framesv22.hh: COM", "scribbu/framesv23.hh: COMM", "scribbu/framesv24.hh: COMM_2_4"]}
{"id": "C166", "title": "User-defined text made from texts says them", "statement": "User-defined text made from a text and a description, in ISO-8859-1 or Unicode as the version of the standard has it, with or without a byte order mark, has that text and description, at once and after it has been written and read; if the encoding does not have their characters, there is an exception.", "quantifier": "every text and description, version, choice of encoding and faithful conversion library", "why_tests_cant": "As for comments.", "anchors": ["scribbu/framesv2.cc: user_defined_text::user_defined_text, user_defined_text::write", "scribbu/framesv2.hh: user_defined_text", "scribbu/framesv22.hh: TXX", "scribbu/framesv23.hh: TXXX", "scribbu/framesv24.hh: TXXX_2_4, id3v2_4_frame::as_str"]}
{"id": "C167", "title": "Comments can be given other texts", "statement": "A comment that has been read or made can be given any text or description that its encoding has; it says that afterwards, the rest of it stays, and it can be written and read. If the encoding does not have the characters, there is an exception.", "quantifier": "every comment, every text, every version", "why_tests_cant": "It must hold for every comment there is and every text.", "anchors": ["scribbu/framesv2.cc: comments::text, comments::description, comments::add_bom", "scribbu/framesv2.hh: comments"]}
{"id": "C168", "title": "Callers decide about characters that the encoding does not have", "statement": "Comments and user-defined text are added to a tag whenever their texts can be converted the way the caller asks for: with an exception for characters that the encoding does not have, with others in their stead, or without them.", "quantifier": "every text, every choice of the caller, every conversion library", "why_tests_cant": "The texts and libraries for which the choice matters are unbounded in number.", "anchors": ["scribbu/id3v22.cc: id3v2_2_tag::add_comment, id3v2_2_tag::add_user_defined_text", "scribbu/id3v23.cc: id3v2_3_tag::add_comment, id3v2_3_tag::add_user_defined_text", "scribbu/id3v24.cc: id3v2_4_tag::add_comment, id3v2_4_tag::add_user_defined_text"]}
{"id": "C169", "title": "Options can be written in every documented way", "statement": "An option of a sub-command put in front of a command line as --long, -l, --long=value, --long value, -lvalue or -l value makes that option what is meant, whatever the environment, and changes nothing else; provided that the command line did not have it before.", "quantifier": "every sub-command, every option of it, every value, every environment, every command line", "why_tests_cant": "Options interact with all others and with every value; the combinations are unbounded.", "anchors": ["src/dump.cc: handle_dump", "src/genre.cc: handle_genre", "src/m3u.cc: handle_m3u", "src/popm.cc: handle_popm", "src/rename.cc: handle_rename", "src/report.cc: handle_report", "src/split.cc: handle_split", "src/text.cc: handle_text", "src/xtag.cc: handle_xtag"]}
{"id": "C170", "title": "Variables in the environment stand for options", "statement": "Each variable of the environment that a sub-command looks for stands for one of its options: set, it makes that option what its value stands for, unless the command line has the option, and nothing else changes.", "quantifier": "every sub-command, every variable it looks for, every value, every rest of the environment, every command line", "why_tests_cant": "Tests run in one environment.", "anchors": ["src/dump.cc: handle_dump", "src/genre.cc: handle_genre", "src/popm.cc: handle_popm", "src/rename.cc: handle_rename", "src/text.cc: handle_text", "src/xtag.cc: handle_xtag"]}
{"id": "C171", "title": "Other variables make no difference", "statement": "A variable of the environment that is not named after an option of the sub-command makes no difference to it.", "quantifier": "every sub-command, every variable and value, every rest of the environment, every command line", "why_tests_cant": "There is no end to the variables there may be.", "anchors": ["NEWS", "src/popm.cc: handle_popm", "src/xtag.cc: handle_xtag", "src/rename.cc: handle_rename", "src/split.cc: handle_split"]}
{"id": "C172", "title": "The command line comes before the environment, and that before what is preset", "statement": "What the command line makes of an option the environment does not change; an option that neither has is as documented.", "quantifier": "every sub-command, every option, every environment, every command line", "why_tests_cant": "As for C169.", "anchors": ["src/dump.cc: handle_dump", "src/genre.cc: handle_genre", "src/popm.cc: handle_popm", "src/rename.cc: handle_rename", "src/text.cc: handle_text", "src/xtag.cc: handle_xtag"]}
{"id": "C173", "title": "The command line can say otherwise", "statement": "Whatever the environment makes of an option, there is a command line that makes it something else: any value, and on or off for switches.", "quantifier": "every sub-command, every option, every environment", "why_tests_cant": "That no command line does is a statement about all of them.", "anchors": ["src/genre.cc: handle_genre", "src/popm.cc: handle_popm", "src/rename.cc: handle_rename", "src/text.cc: handle_text", "src/xtag.cc: handle_xtag"]}
{"id": "C174", "title": "Without files there is a usage message", "statement": "A sub-command gets at least one file to work on, or it says that it has been used wrongly, with the usage message and the exit status for that.", "quantifier": "every sub-command, every environment, every command line", "why_tests_cant": "As for C169.", "anchors": ["src/m3u.cc: handle_m3u", "src/genre.cc: handle_genre", "src/split.cc: handle_split", "src/dump.cc: handle_dump"]}
{"id": "C175", "title": "The list of genres is that of --winamp", "statement": "The list printed by --list-winamp-genres has a line for each number that --winamp takes, in order, with the number and the genre it stands for; and no other lines. Printing it changes no files.", "quantifier": "every number, every system", "why_tests_cant": "The list and the option are two places that must agree for every number.", "anchors": ["src/genre.cc: print_winamp_genres, winamp_genres, handle_genre", "scribbu/winamp-genres.hh: get_id3v1_genre_list"]}
{"id": "C176", "title": "The list of genres is shown with the pager of the user", "statement": "The list is shown with the pager in SCRIBBU_PAGER, else PAGER, else less: the program and its arguments are the words of the variable, however they are spaced, followed by the name of a file with the list in it.", "quantifier": "every value of the variables, every system", "why_tests_cant": "The values are unbounded.", "anchors": ["src/genre.cc: winamp_genres"]}
{"id": "C177", "title": "Showing the list of genres leaves no files", "statement": "After the list has been shown, with or without a pager, the files are as they were before.", "quantifier": "every file, every system, every point at which the process may die", "why_tests_cant": "Tests do not look at all other files.", "anchors": ["src/genre.cc: winamp_genres"]}
{"id": "C178", "title": "Threads may share a tag that none of them changes", "statement": "Threads that only call const functions of the frames of a tag (sizes, false syncs, writing, checksums) may share it: there is no data race, and each gets what it would have got had it been alone.", "quantifier": "every list of frames, every number of threads and calls, every schedule", "why_tests_cant": "A test runs few schedules, and a data race need not show when it runs.", "anchors": ["scribbu/framesv23.cc: id3v2_3_plus_frame::ensure_cached_data_is_fresh, serialized_size, needs_unsynchronisation, write, crc", "scribbu/framesv2.hh: id3v2_frame::dirty"]}
{"id": "C179", "title": "Processes that work on different files do not disturb each other", "statement": "When several processes replace the tags of different files at the same time, each ends as it would have alone, with the same contents of its file (and of its backups), however their steps are interleaved.", "quantifier": "every number of processes, files, contents and faults, and every interleaving of the steps on the file system", "why_tests_cant": "The temporary name is chosen before the file is created; a test meets one interleaving and one choice of names.", "anchors": ["scribbu/tagset.hh: replace_tagset_copy (L335-490), detail::get_backup_name"]}
{"id": "C180", "title": "Processes that change the same file", "statement": "When several processes change the tags of the same file at the same time and all succeed, the file is as if they had been run one after the other; at every moment it is a complete file with complete tags and the same audio.", "quantifier": "every number of processes, what they decide about the tags, and every interleaving", "why_tests_cant": "A lost update depends on the interleaving of two processes; tests run one process at a time.", "anchors": ["scribbu/tagset.hh: replace_tagset_copy", "src/command-utilities.hh: tagset_processor (L361-391)"]}
{"id": "C181", "title": "Backups when several processes change the same file", "statement": "When several processes that keep backups change the same file at the same time and all succeed, the original is among the backups, and backups made before are as they were.", "quantifier": "every number of processes, files there before, and every interleaving", "why_tests_cant": "The name of a backup is chosen before it is made; tests run one process at a time.", "anchors": ["scribbu/tagset.hh: replace_tagset_copy (L408-424), detail::get_backup_name"]}
{"id": "C182", "title": "Options may be abbreviated", "statement": "A beginning of the name of an option stands for the option if no other option that is listed in the help begins likewise.", "quantifier": "every sub-command, option, beginning of its name, environment and rest of the command line", "why_tests_cant": "Which beginnings are unambiguous depends on all the options of a sub-command, also on those not listed.", "anchors": ["src/*.cc: handle_* (options_description, command_line_parser)"]}
{"id": "C183", "title": "Words that are no options are the files", "statement": "The words of a command line that are no options nor their values are the files, in the order given, wherever the options stand between them; what follows -- are files; a sub-command for one file refuses more.", "quantifier": "every sub-command, every command line, environment", "why_tests_cant": "Command lines of any length, with options in all the ways to write them.", "anchors": ["src/*.cc: handle_* (positional_options_description, vm[\"arguments\"])"]}
{"id": "C184", "title": "Options have the values given", "statement": "A switch that is given is on; an option has the value given, one that takes a list has all the values in order; an option that takes one value is refused if given twice; whatever the environment.", "quantifier": "every sub-command, every command line, environment", "why_tests_cant": "Command lines of any length, with options in all the ways to write them.", "anchors": ["src/*.cc: handle_* (store, notify)"]}
{"id": "C185", "title": "Once is enough", "statement": "Running text, genre, xtag or popm --count again, with the same options on files as the first run has left them, succeeds and changes nothing.", "quantifier": "every set of options, every file (tags of all versions, with any frames, or none), every choice of tags, every way to make missing tags", "why_tests_cant": "Whether a second run changes something depends on all the frames the tags have, on how they are read back, and on which tags the first run has made.", "anchors": ["src/command-utilities.cc: tagset_processor::process_file", "src/text.cc: set_text", "src/genre.cc: set_genre", "src/xtag.cc: xtag_processor", "src/popm.cc: set_pcnt_popm"]}
{"id": "C186", "title": "Runs with different texts may be exchanged", "statement": "Setting texts of different frames in two runs leaves the same tag whichever run is first, and the same as setting all of them in one run.", "quantifier": "every two sets of options for different frames, every tag", "why_tests_cant": "Tags may have any number of frames of any name; which of several frames of a name is changed depends on the library.", "anchors": ["src/text.cc: set_text::process_tag", "scribbu/id3v2.hh: id3v2_tag::text"]}
{"id": "C187", "title": "Scheme: what is displayed tells frames apart", "statement": "If `display` prints the same for two frames, they have the same symbol and the same contents; and what `read-tagset` gives can always be displayed.", "quantifier": "every two frames of documented classes with any contents; every file that can be read", "why_tests_cant": "Texts may have anything in them, quotation marks, brackets and the ends of lines included.", "anchors": ["scheme/scribbu.scm: display, pp-bytevector"]}
{"id": "C188", "title": "Scheme: objects are made as they are asked for", "statement": "`make` gives the slots of tags and frames the values of the keywords that are given for them, and their documented values otherwise; a frame made like this can be written.", "quantifier": "every class, every list of keywords and values", "why_tests_cant": "Keywords come in any number and order, with any values; a keyword that has no effect is not reported.", "anchors": ["scheme/scribbu.scm: <id3v1-tag>, <id3v2-frame>, <id3v2-tag>", "scribbu/scheme-serde.cc: ser_unknown_frame_2_3"]}
{"id": "C189", "title": "Several rename commands at the same time lose nothing", "statement": "However many processes run scribbu rename at the same time, on the same files or different ones, whatever their templates come to, whatever fails and whenever one is stopped, what was in a file before is, from the first byte to the last, in some file all the time; and when a process has ended well, each of its files is at the name the template gave it.", "quantifier": "any number of processes, every interleaving of their steps, every initial state of the files, every template and failure", "why_tests_cant": "The outcome depends on the interleaving: a test sees one of them, and two processes in one directory are harmless in almost all.", "anchors": ["src/rename.cc: renamer::process_file", "src/rename.cc: renamer::process_directory"]}
{"id": "C190", "title": "A power failure costs no more than the change in progress", "statement": "If the power fails while, or after, tags are replaced or files renamed, then once it is back every file is whole: the file that was worked on has its old contents or its new ones, or there is a backup with the old ones; and what a rename was to move is under the old name or the new.", "quantifier": "every moment at which the power may fail, every initial state of the files, all tags, templates and failures, and whatever part of what was written has not reached the disk", "why_tests_cant": "No unit test cuts the power, and what has not reached the disk differs from one time to the next.", "anchors": ["scribbu/tagset.hh: replace_tagset_copy", "src/rename.cc: renamer::process_file"]}
{"id": "C191", "title": "The audio survives any history of sub-commands", "statement": "However many sub-commands are run on a file, one after the other, and however each of them ends, the file goes on to consist of complete ID3v2 tags, the audio it had at first, byte for byte, and at most one ID3v1 tag.", "quantifier": "all files, all sequences of runs of any length, all edits each run makes, all failures of the file system in each run", "why_tests_cant": "Tests run one command on one file; damage that only the next run does (because what the first left is read differently) needs sequences of every length.", "anchors": ["src/command-utilities.cc: tagset_processor::process_file", "src/command-utilities.hh: write_tagset", "scribbu/tagset.hh: maybe_emplace_tagset", "scribbu/id3v1.cc: replace_id3v1"]}
{"id": "C192", "title": "A sub-command that is killed leaves the file whole", "statement": "Whenever a sub-command that changes tags is killed, the file it was at consists of complete ID3v2 tags, the audio, byte for byte, and perhaps an ID3v1 tag; or there is a backup with the file as it was.", "quantifier": "every sub-command, tags and audio; every moment of the run, after any history of runs; every way the system may refuse operations", "why_tests_cant": "the process may die after any step, and after any byte of it", "anchors": ["src/command-utilities.hh: write_tagset", "src/command-utilities.cc: process_file", "scribbu/tagset.hh: maybe_emplace_tagset, replace_tagset_emplace, replace_tagset_copy", "scribbu/id3v1.cc: replace_id3v1, maybe_remove_id3v1"]}
{"id": "C193", "title": "Messages of exceptions say what happened to what", "statement": "Whatever exception the library or a sub-command throws, it can be asked for its message without the program being ended; the message is one line of characters that can be seen; and exceptions that differ in class, or in the frame, version, option, encoding, file or cause they are about, have different messages.", "quantifier": "every class of exception, and every value it may be about", "why_tests_cant": "messages depend on identifiers, names of files and bytes from files, of which there are unboundedly many; tests look at the types of exceptions at most", "anchors": ["scribbu/id3v2.cc: duplicate_frame_error::what, unknown_frame_error::what, reserved_frame_error::what, unknown_version::what", "scribbu/framesv2.cc: unknown_text_frame::what, bad_unicode_value::what", "scribbu/charsets.cc: bad_code_unit::what, iconv_error::what", "scribbu/tbt-support.cc: duplicate_option, missing_source_text::what", "scribbu/scribbu.cc: file_open_error::what", "src/command-utilities.cc: bad_operation::what, file_not_found::what"]}
{"id": "C194", "title": "The audio survives any history of sub-commands, killed or not", "statement": "However many sub-commands that change tags are run on a file, one after the other, and whichever of them are killed, each at any moment, the file goes on to have all of the audio, byte for byte, without anything being restored in between.", "quantifier": "every sequence of runs and of moments at which they are killed; every sub-command, tags and audio; every way the system may refuse or fail", "why_tests_cant": "What a killed run leaves behind is what the next run reads; the number of such histories is infinite and the moments at which a process is killed cannot be chosen by a test.", "anchors": ["src/command-utilities.hh: write_tagset", "src/command-utilities.cc: process_file", "scribbu/tagset.hh: maybe_emplace_tagset, replace_tagset_emplace, replace_tagset_copy", "scribbu/id3v1.cc: replace_id3v1, maybe_remove_id3v1"]}
{"id": "C195", "title": "A tag that is read and written again unchanged stays the same", "statement": "Reading a tag the library wrote and writing it again, without having changed anything, gives the same bytes; so it can be done any number of times.", "quantifier": "all tags, any number of rewritings", "why_tests_cant": "What one rewriting does to a tag may be too little to notice, or be in a flag no test looks at; that it goes on, and where it ends, needs sequences of every length.", "anchors": ["scribbu/id3v23.cc: id3v2_3_tag::write, id3v2_3_tag::flags", "scribbu/framesv23.cc: id3v2_3_frame::write_header", "scribbu/id3v22.cc: id3v2_2_tag::write", "scribbu/framesv22.cc: id3v2_2_frame::write"]}
{"id": "C196", "title": "The tags of a file can be read and written back", "statement": "Reading all the tags of a file and writing them back over it, without having changed them, leaves the file as it is, byte for byte, any number of times and with either strategy for fitting the tags in.", "quantifier": "all lists of tags, all audio after them, any number of times", "why_tests_cant": "A test writes a file once or twice and compares what it wrote; what repeated runs of a program that saves every file it looks at do to a collection needs every list of tags and sequences of every length.", "anchors": ["scribbu/id3v2-utils.cc: read_all_id3v2", "scribbu/tagset.hh: maybe_emplace_tagset, replace_tagset_emplace", "scribbu/id3v22.cc: id3v2_2_tag::write", "scribbu/id3v23.cc: id3v2_3_tag::write"]}
{"id": "C197", "title": "What is read from a tag depends on its bytes only", "statement": "A tag is read the same wherever it is in a file, whatever comes before and after it and whatever the exception mask of the stream: the same tag, the same exception. The tags of a file are those read from each of its tags alone, in order.", "quantifier": "all complete tags of every version, all bytes before and after them, all exception masks, any number of tags", "why_tests_cant": "A test reads a few tags from a few files; that nothing is carried over from one tag to the next, and that no byte beyond the end of a tag is looked at, needs all surroundings.", "anchors": ["scribbu/id3v2-utils.cc: maybe_read_id3v2", "scribbu/id3v2-utils.hh: read_all_id3v2", "scribbu/id3v22.cc: id3v2_2_tag::parse", "scribbu/id3v23.cc: id3v2_3_tag::parse", "scribbu/id3v24.cc: id3v2_4_tag::parse"]}
{"id": "C198", "title": "The ID3v1 tag of a file depends on its last 355 bytes only", "statement": "Two files that end in the same 355 bytes have the same ID3v1 tag, or none, or fail in the same way; the tag is found, removed and replaced at the same distance from the end, and what comes before those bytes is left alone. No smaller number will do.", "quantifier": "all files of at least 355 bytes, all positions and exception masks of the stream, all tags put in the place of the old one", "why_tests_cant": "Tests have a handful of files; that no audio can make a difference needs all that can come before.", "anchors": ["scribbu/id3v1.cc: ends_in_id3v1, process_id3v1, maybe_remove_id3v1, replace_id3v1"]}
{"id": "C199", "title": "Splitting a file and reading the pieces gives what reading the file gives", "statement": "If the split sub-command succeeds, the ID3v2 tags of a file are those read from the files it wrote, one after the other, and its ID3v1 tag is that of the last of them; where reading the file fails, reading the pieces fails in the same way.", "quantifier": "all files that can be split", "why_tests_cant": "Whether the two ways agree depends on where a tag is thought to end and on what is looked at beyond; a test has a few files, and those have well-formed tags.", "anchors": ["src/split.cc: split_file", "scribbu/id3v2-utils.hh: read_all_id3v2", "scribbu/id3v1.cc: process_id3v1"]}
{"id": "C200", "title": "The order in which tags are added to a tag cloud makes no difference", "statement": "What a tag cloud becomes by adding keys, adding values and merging texts, any of which may be refused, depends on which of these calls there are, not on their order nor on how often each is made. Clouds with the same owner, keys and values are written as the same bytes and shown as the same text.", "quantifier": "all tag clouds, all lists of calls that add to them", "why_tests_cant": "There are as many orders as there are permutations; a test tries one or two of them on a few tags.", "anchors": ["scribbu/framesv2.cc: tag_cloud::add_key, tag_cloud::add_value, tag_cloud::merge, tag_cloud::write, tag_cloud::urlencoded"]}
{"id": "C201", "title": "The order in which different fields of an ID3v1 tag are set makes no difference", "statement": "If two programs set each field of an ID3v1 tag to the same values in the same order, the tag becomes the same, however the calls for different fields are interleaved.", "quantifier": "all ID3v1 tags, all interleavings of all lists of setter calls", "why_tests_cant": "The number of interleavings grows exponentially, and which of two setters is called first is nothing a test would vary.", "anchors": ["scribbu/id3v1.hh: set_album, set_artist, set_comment, set_genre, set_enh_genre, set_speed, set_start_time, set_end_time, set_title, set_track_number, set_year"]}
{"id": "C202", "title": "Data can be unsynchronised and resynchronised in pieces", "statement": "Unsynchronising two pieces of data one after the other gives the same as unsynchronising them together, except where the first ends in FF and the second begins with 00 or E0 or more (or is empty, where the end-of-tag rule is in force); and resynchronising likewise, except where the first ends in FF and the second begins with 00. Any number of pieces that were each unsynchronised with the end-of-tag rule have no false sync when put together, and resynchronising them at once gives the pieces back.", "quantifier": "all byte strings, all ways of cutting them into pieces", "why_tests_cant": "The exceptions depend on the two bytes at each of arbitrarily many cuts; a test tries some cuts.", "anchors": ["scribbu/framesv2.hh: unsynchronise", "scribbu/id3v2.cc: resynchronise"]}
{"id": "C203", "title": "The texts of an ID3v2 tag may be set in any order", "statement": "Whatever was done to a tag before: if two programs give the same texts for each text frame in the same order, then however the calls for different frames are interleaved, they end in the same way, every text is afterwards the one given last (or what it was, if none was given), and the tag has the same frames, for each identifier in the same order.", "quantifier": "all histories of operations on an ID3v2 tag of any version, all interleavings of all lists of texts to set", "why_tests_cant": "The number of histories and interleavings is unbounded; and the tables kept beside the frames may be out of order after a history (C31), where a test that begins with a new tag does not come.", "anchors": ["scribbu/id3v22.cc: set_text_frame, text_frame_as_str", "scribbu/id3v23.cc: set_text_frame, text_frame_as_str", "scribbu/id3v24.cc: set_text_frame, text_frame_as_str"]}
{"id": "C204", "title": "Templates can be put together", "statement": "If two texts are templates for the names of files, then the one with the other behind it is a template too, and for every file it gives the name that the first gives with that of the second behind it (and fails if one of them does).", "quantifier": "all pairs of templates, all files", "why_tests_cant": "Two templates that work may make one that does not; which pairs do depends on all the words the scanner knows.", "anchors": ["scribbu/tbt-lexer.ll", "scribbu/tbt-parser.yy", "scribbu/tbt-support.cc: evaluate", "scribbu/id3v2-utils.cc: template_processor"]}
{"id": "C205", "title": "Texts can be URL-encoded and decoded in pieces", "statement": "Encoding texts one after the other gives what encoding them together gives. Where two texts can be decoded, the one with the other behind it can be, and gives the two decoded texts one after the other; if the first is well-formed and the second cannot be decoded, neither can the two together. An encoded text begins with another encoded text exactly if the texts do.", "quantifier": "all texts, all ways of cutting them into pieces", "why_tests_cant": "The encoding of a tag cloud is put together from pieces (C18), and its decoder takes pieces; what happens at each of arbitrarily many cuts cannot be tested.", "anchors": ["scribbu/scribbu.cc: urlencode, urldecode"]}
{"id": "C206", "title": "Tags can be merged into a tag cloud together or one after the other", "statement": "Merging two texts into a tag cloud with & between them has the same effect as merging the one and then the other: it is accepted if both are, and the cloud becomes the same.", "quantifier": "all tag clouds, all pairs of texts", "why_tests_cant": "Texts and clouds are unbounded, and whether the second text is accepted may depend on anything in the first.", "anchors": ["scribbu/framesv2.cc: tag_cloud::merge, tag_cloud::parse_to_map"]}
{"id": "C207", "title": "How long a file lasts does not depend on the tags before the audio", "statement": "What get_mp3_duration finds out about the audio, or how it fails, is the same whatever bytes, and however many, are before it in the file; and so is where in the audio it leaves the stream. So two files with the same audio behind different ID3v2 tags get the same number of seconds in a playlist.", "quantifier": "all audio, all that may be before it, all exception masks; all pairs of files with the same audio behind any ID3v2 tags", "why_tests_cant": "The function jumps forward and back in the file by sizes that it has read there: whether a jump ever leaves the audio cannot be seen from examples.", "anchors": ["scribbu/mp3.cc: get_mp3_duration, find_sync, mp3_audio_frame, parse_header, parse_vbr", "src/m3u.cc: m3u::process_file"]}
{"id": "C208", "title": "ID3v2 tags are read the same wherever in a stream they begin", "statement": "Looking for an ID3v2 tag, reading one, reading the one with a given number and reading all of them from a place in a stream come to the same, or fail in the same way, as on a stream that has only the bytes from that place on; and they leave the stream in the same state and as many bytes further on. So the tags of a file are its first one and the tags of what is behind it.", "quantifier": "all bytes before the place, all bytes behind it whether or not they make up tags, all exception masks, all tag numbers", "why_tests_cant": "The functions note their place in the stream and go back to it when something fails at any point of a tag of any size; that they never go to a wrong place must hold for every stream.", "anchors": ["scribbu/id3v2.cc: looking_at_id3v2", "scribbu/id3v2-utils.cc: maybe_read_id3v2, read_id3v2", "scribbu/id3v2-utils.hh: read_all_id3v2", "scribbu/id3v22.cc, scribbu/id3v23.cc, scribbu/id3v24.cc: parse"]}
{"id": "C209", "title": "What is read does not depend on which exceptions the caller's stream throws", "statement": "Looking for an ID3v2 tag, reading one or all of them and finding out the duration from a good stream come to the same, or fail in the same way, whichever exceptions are switched on in it; and if tags are read, the stream is good afterwards, at the same place, with the same exceptions switched on as before.", "quantifier": "all streams, all places in them, all sets of exceptions, all tag numbers", "why_tests_cant": "The functions switch all exceptions on or off on the way and have to switch them back on every path, whatever the stream contains and wherever it ends.", "anchors": ["scribbu/id3v2.cc: looking_at_id3v2", "scribbu/id3v2-utils.cc: maybe_read_id3v2, read_id3v2", "scribbu/id3v2-utils.hh: read_all_id3v2", "scribbu/id3v22.cc, scribbu/id3v23.cc, scribbu/id3v24.cc: parse", "scribbu/mp3.cc: get_mp3_duration"]}
