{"id": "C01", "title": "Parsing never panics", "statement": "ParserBuilder::parse returns Ok or Err on every byte slice under every CRC and network policy: no out-of-bounds index, no arithmetic overflow, no failed debug assertion, no unreachable!, no capacity overflow and no misuse of the bit reader's lookahead.", "quantifier": "every byte slice (up to the size at which the i32 offset counter or Vec capacity would overflow, stated explicitly), every CrcCheck x NetworkParse, 32- and 64-bit usize, debug and release builds", "why_tests_cant": "fuzzing samples a vanishing part of the input space; a single crafted size field is enough to panic", "anchors": ["src/parser.rs:Parser::parse", "src/core_parser.rs:CoreParser", "src/header.rs:parse_rdict", "src/network/frame_decoder.rs:FrameDecoder::decode_frames", "src/network/attributes.rs:AttributeDecoder::decode", "src/network/mod.rs:parse"]}
{"id": "C02", "title": "Parsing always terminates", "statement": "ParserBuilder::parse performs a number of loop iterations and recursive calls bounded linearly by the input length; in particular the property-list loop, the class-ancestor walk, the frame loop, the actor loop and the attribute loop all stop on every input.", "quantifier": "every byte slice and every policy", "why_tests_cant": "a non-terminating input cannot be found by running finitely many inputs for finitely long", "anchors": ["src/header.rs:parse_rdict", "src/network/object_index.rs:AncestorIterator", "src/network/frame_decoder.rs:decode_frame", "src/network/frame_decoder.rs:decode_frames", "src/data.rs:PARENT_CLASSES"]}
{"id": "C03", "title": "Result does not depend on buffering, hash order or build mode", "statement": "The value returned by parse is a function of the bytes and the two policies only: it does not depend on how much the bit reader has buffered when a field is decoded (fast paths and end-of-data paths agree), nor on hash map iteration order, nor on whether overflow checks are compiled in.", "quantifier": "every byte slice, every lookahead behaviour allowed by the bit reader's contract, every iteration order of every hash map, debug and release", "why_tests_cant": "one run exercises one buffering state per field and one iteration order", "anchors": ["src/network/models.rs:Vector3i::decode", "src/network/models.rs:Vector3i::eof_decode", "src/network/models.rs:Rotation::decode", "src/network/mod.rs:net_traversal", "src/bits.rs:RlBits"]}
{"id": "C04", "title": "CRC equals the documented algorithm", "statement": "crc::calc_crc(data) equals the bit-at-a-time CRC-32 with the documented parameters (poly 0x04c11db7, initial register 0x10340dfe, no reflection, final xor 0xffffffff): the 16-table slice-by-16 loop plus the byte-at-a-time tail is exactly the definition.", "quantifier": "every byte string of every length", "why_tests_cant": "the table implementation has 4096 entries and 16 alignments; two test vectors exercise a handful of them", "anchors": ["src/crc.rs:calc_crc", "src/crc.rs:gen_crc_table"]}
{"id": "C05", "title": "CRC detects every burst of up to 32 bits", "statement": "If two equal-length byte strings differ only inside a window of four consecutive bytes, and they differ, then calc_crc differs.", "quantifier": "every byte string, every position, every pair of distinct 4-byte windows", "why_tests_cant": "2^32 windows times unbounded lengths and positions", "anchors": ["src/crc.rs:calc_crc"]}
{"id": "C06", "title": "Always-check: success implies both checksums match", "statement": "With always_check_crc, parse returns Ok only if the CRC of the declared header bytes equals header_crc and the CRC of the declared body bytes equals content_crc; a mismatch in a section whose declared bytes are present is reported as CrcMismatch(expected, actual) whether or not the section parsed.", "quantifier": "every byte slice and every network policy", "why_tests_cant": "needs all combinations of parse outcome and checksum outcome over all inputs", "anchors": ["src/parser.rs:Parser::crc_section", "src/parser.rs:Parser::parse"]}
{"id": "C07", "title": "On-error check only reclassifies failures", "statement": "With on_error_check_crc, parse succeeds exactly when it succeeds with never_check_crc and with the same Replay; when a section fails, the error is CorruptReplay(section, e) if the checksum mismatches and e otherwise, where e is the error never_check_crc returns.", "quantifier": "every byte slice and every network policy", "why_tests_cant": "relates two runs over all inputs", "anchors": ["src/parser.rs:Parser::crc_section"]}
{"id": "C08", "title": "Always-check never changes the decoded replay", "statement": "If always_check_crc returns Ok(r) then never_check_crc and on_error_check_crc return the same Ok(r); never_check_crc never returns CrcMismatch or CorruptReplay.", "quantifier": "every byte slice and every network policy", "why_tests_cant": "relates three runs over all inputs", "anchors": ["src/parser.rs:Parser::crc_section", "src/parser.rs:ParserBuilder"]}
{"id": "C09", "title": "Network policy affects only network_frames", "statement": "For fixed bytes and CRC policy: never_parse_network_data returns Ok iff header and body parse; ignore_network_data_on_error returns Ok in exactly the same cases with the same non-network fields; must_parse_network_data returns Ok(r) only if ignore returns that same r with network_frames = Some, and otherwise fails with NetworkError exactly where ignore returns network_frames = None.", "quantifier": "every byte slice and every CRC policy", "why_tests_cant": "relates three runs over all inputs", "anchors": ["src/parser.rs:Parser::parse", "src/parser.rs:NetworkParse"]}
{"id": "C10", "title": "Builder configuration is last-write-wins with documented defaults", "statement": "After any sequence of builder calls, parse behaves as with the last CRC setting and the last network setting made, independently of each other, defaulting to OnError and IgnoreOnError; each convenience method equals the corresponding with_* call.", "quantifier": "every finite sequence of builder calls", "why_tests_cant": "unbounded call sequences", "anchors": ["src/parser.rs:ParserBuilder"]}
{"id": "C11", "title": "Trailing bytes are ignored", "statement": "If parse succeeds on data, it succeeds with the same Replay on data followed by any bytes.", "quantifier": "every byte slice, every suffix, every policy", "why_tests_cant": "unbounded suffixes", "anchors": ["src/parser.rs:Parser::parse", "src/core_parser.rs:CoreParser::view_data"]}
{"id": "C12", "title": "Truncation never yields a different replay", "statement": "If parse succeeds on a prefix of data and on data, the two replays are equal; so a truncated file is either rejected or gives the identical replay.", "quantifier": "every byte slice, every prefix, every policy", "why_tests_cant": "all prefixes of all files", "anchors": ["src/parser.rs:Parser::parse", "src/core_parser.rs:CoreParser"]}
{"id": "C13", "title": "Whole-file round trip of header and body", "statement": "For every replay value whose strings and lists are representable on the wire, encoding it in the documented file format (header size, CRC, versions, game type, properties, body size, CRC, levels, keyframes, network blob, debug info, tick marks, packages, objects, names, class indices, net cache) and parsing it, under any CRC policy, returns exactly that replay.", "quantifier": "every well-formed replay value: any number of properties at any nesting depth, any list sizes up to 25000, any strings up to 10000 characters", "why_tests_cant": "unbounded nested structures; tests use a fixed corpus", "anchors": ["src/parser.rs:Parser::parse_body", "src/header.rs:parse_header", "src/core_parser.rs:CoreParser::parse_text"]}
{"id": "C14", "title": "Property list preserves order, duplicates and nesting", "statement": "Header properties are returned in file order with duplicates kept, nested arrays and structs decoded to the same shape; 'None'-kind byte properties are skipped; the 8 size bytes in front of each value are ignored whatever they contain.", "quantifier": "every property tree of any size and depth, every content of the ignored bytes", "why_tests_cant": "unbounded trees", "anchors": ["src/header.rs:parse_rdict", "src/header.rs:array_property", "src/models.rs:HeaderProp"]}
{"id": "C15", "title": "Unknown property kinds are rejected by name", "statement": "A property whose kind is not one of the nine recognised kinds makes header parsing fail with UnexpectedProperty carrying exactly that kind.", "quantifier": "every kind string", "why_tests_cant": "infinitely many strings", "anchors": ["src/header.rs:parse_rdict", "src/errors.rs:ParseError::UnexpectedProperty"]}
{"id": "C16", "title": "Quirks mode applies exactly to version 0.0 headers", "statement": "Boolean properties occupy 4 bytes and byte properties a single text exactly when major = minor = 0; otherwise booleans occupy 1 byte and byte properties two strings; net_version is present exactly when major > 865 and minor > 17.", "quantifier": "every pair of 32-bit signed versions and every property list", "why_tests_cant": "2^64 version pairs", "anchors": ["src/header.rs:parse_header", "src/header.rs:ParserMode"]}
{"id": "C17", "title": "Text decoding is exact", "statement": "parse of a text field with positive length n consumes exactly 4+n bytes and yields the Windows-1252 decoding of the first n-1; negative length -n consumes 4+2n bytes and yields the UTF-16LE decoding (unpaired surrogates replaced by U+FFFD) of the first n-1 units; zero gives the empty string; lengths outside -10000..10000 fail with TextTooLarge(length); short data fails with InsufficientData.", "quantifier": "every 32-bit length, every content", "why_tests_cant": "2^32 lengths and unbounded content", "anchors": ["src/core_parser.rs:CoreParser::parse_text", "src/parsing_utils.rs:decode_utf16", "src/parsing_utils.rs:decode_windows1252"]}
{"id": "C18", "title": "Text round trip", "statement": "Every string of at most 9999 Windows-1252 characters, and every string of at most 9999 UTF-16 code units, survives encoding as a replay text field followed by parsing, including characters outside the BMP.", "quantifier": "every string within the limits", "why_tests_cant": "unbounded alphabet and lengths", "anchors": ["src/core_parser.rs:CoreParser::parse_text", "src/parsing_utils.rs"]}
{"id": "C19", "title": "String fields accept exactly well-formed UTF-8", "statement": "A key / class string field of n bytes is accepted iff its first n-1 bytes are well-formed UTF-8 (no overlong forms, surrogates or values above U+10FFFF), and the result is the unique string whose UTF-8 encoding those bytes are; otherwise it fails with Utf8Error; a negative length fails with InsufficientData.", "quantifier": "every byte string and every 32-bit length", "why_tests_cant": "unbounded byte strings", "anchors": ["src/core_parser.rs:CoreParser::parse_str", "src/parsing_utils.rs:decode_str"]}
{"id": "C20", "title": "List length limit", "statement": "A list prefix above 25000 or negative is rejected with ListTooLarge before any element is read, and every list in an Ok Replay (properties of arrays, levels, keyframes, debug info, tick marks, packages, objects, names, class indices, net cache and its properties) has at most 25000 elements, exactly as many as its prefix.", "quantifier": "every 32-bit prefix and every byte slice", "why_tests_cant": "2^32 prefixes", "anchors": ["src/core_parser.rs:CoreParser::repeat", "src/core_parser.rs:CoreParser::list_of"]}
{"id": "C21", "title": "Reported error offsets are real offsets", "statement": "The offset in every ParseError::ParseError returned equals the number of bytes consumed so far and lies between 0 and the input length.", "quantifier": "every byte slice shorter than 2^31, every policy", "why_tests_cant": "all failing inputs", "anchors": ["src/core_parser.rs:CoreParser::bytes_read", "src/errors.rs:ParseError"]}
{"id": "C22", "title": "Declared section sizes bound the section (violated)", "statement": "The header is decoded only from the header_size bytes after the first prefix and the body starts right after them; with always_check_crc every decoded byte is therefore covered by a checksum.", "quantifier": "every byte slice accepted under always_check_crc", "why_tests_cant": "all accepted inputs; needs a relation between two runs", "anchors": ["src/parser.rs:Parser::parse", "src/core_parser.rs:CoreParser::view_data"]}
{"id": "C23", "title": "Single corruption is detected under always_check_crc", "statement": "If parse with always_check_crc accepts data whose sections consume no more than their declared size, then flipping any non-empty set of bits inside four consecutive bytes of the header section or of the body section makes parse fail with CrcMismatch or leaves a file that is rejected.", "quantifier": "every accepted file, every position, every 32-bit error pattern", "why_tests_cant": "positions times 2^32 patterns times all files", "anchors": ["src/parser.rs:Parser::crc_section", "src/crc.rs:calc_crc"]}
{"id": "C24", "title": "Property nesting depth is bounded by a constant (violated)", "statement": "The recursion depth of header parsing is bounded independently of the input, so a hostile file cannot overflow the stack.", "quantifier": "every byte slice", "why_tests_cant": "deep inputs are not in the corpus", "anchors": ["src/header.rs:parse_rdict", "src/header.rs:array_property"]}
{"id": "C25", "title": "Compressed bounded integers", "statement": "Decoding an integer bounded by max (actor ids, stream ids, vector sizes, old paint ids) returns a value below max (0 when max is 0), consumes width-1 or width bits, and decodes every value below max from its unique encoding.", "quantifier": "every max below 2^32, every bit stream, every value", "why_tests_cant": "2^32 bounds times all values", "anchors": ["src/bits.rs:RlBits::peek_bits_max_computed", "src/bits.rs:RlBits::read_bits_max_computed", "src/bits.rs:bit_width"]}
{"id": "C26", "title": "Vectors: range and round trip", "statement": "A decoded Vector3i has every coordinate in [-2^(s+1), 2^(s+1)) for the size s it was encoded with (s below 22, or 20 before net version 7), every such vector decodes back from its encoding at every bit alignment and at any distance from the end of data, and decoding fails only when bits run out.", "quantifier": "every vector, size, net version, bit offset and remaining length", "why_tests_cant": "fast path and end-of-data path differ only in rare positions", "anchors": ["src/network/models.rs:Vector3i::decode", "src/network/models.rs:Vector3i::eof_decode"]}
{"id": "C27", "title": "Rotations: both decoding paths agree and round trip", "statement": "A Rotation consumes 3 bits plus 8 for each present component, returns exactly the signed bytes encoded, with fewer than 27 bits left as well as with more.", "quantifier": "every rotation, bit offset and remaining length", "why_tests_cant": "path selection depends on remaining bits", "anchors": ["src/network/models.rs:Rotation::decode"]}
{"id": "C28", "title": "Attribute decoding is exactly the wire grammar", "statement": "For every attribute type, decoding the encoding of a value followed by any bits returns that value and leaves exactly those bits; and every successful decode consumed exactly such an encoding. This covers all version gates (cam settings, loadouts by version byte, reservations, game mode, unique ids by platform, online loadouts by product type).", "quantifier": "all 44 implemented attribute types, every field value, every version triplet, every following bit string", "why_tests_cant": "cross product of types, versions and values is unbounded", "anchors": ["src/network/attributes.rs:AttributeDecoder::decode", "src/network/attributes.rs:decode_unique_id_with_system_id", "src/network/attributes.rs:decode_loadout", "src/network/attributes.rs:ProductValueDecoder::decode"]}
{"id": "C29", "title": "Attribute variant matches the attribute's declared type", "statement": "Every UpdatedAttribute returned has an object_id that indexes objects, whose name is a known attribute, and the payload variant is the one that name is declared to have.", "quantifier": "every replay whose network data parses", "why_tests_cant": "all replays", "anchors": ["src/network/mod.rs:parse", "src/network/frame_decoder.rs:decode_frame", "src/data.rs:ATTRIBUTES"]}
{"id": "C30", "title": "Updates refer to actors that were created", "statement": "In an Ok result, every UpdatedAttribute's actor id was announced by a NewActor earlier in the same frame or in an earlier frame, and its stream id is one the class of the most recent such announcement declares or inherits.", "quantifier": "every replay whose network data parses; every prefix of its frames", "why_tests_cant": "all histories of create, delete, update", "anchors": ["src/network/frame_decoder.rs:decode_frame", "src/network/frame_decoder.rs:SegmentedArray"]}
{"id": "C31", "title": "Updates to deleted actors are rejected (violated below id 200)", "statement": "After an actor is deleted, an update for that actor id without a new announcement makes network parsing fail with MissingActor.", "quantifier": "every replay and every actor id", "why_tests_cant": "all histories", "anchors": ["src/network/frame_decoder.rs:RawSegmentedArray::delete", "src/network/frame_decoder.rs:decode_frame"]}
{"id": "C32", "title": "New actors are well formed", "statement": "Every NewActor returned has an object_id indexing objects; name_id is present exactly when version >= 868.20 or (>= 868.14 and not a LAN match); its trajectory has the location and rotation that the nearest listed ancestor class prescribes.", "quantifier": "every replay whose network data parses", "why_tests_cant": "all replays and versions", "anchors": ["src/network/frame_decoder.rs:parse_new_actor", "src/network/mod.rs:parse", "src/data.rs:SPAWN_STATS"]}
{"id": "C33", "title": "Actor ids stay below MaxChannels", "statement": "Every actor id appearing in new, deleted or updated lists, read as unsigned, is below MaxChannels (default 1023, and 0 if MaxChannels is 0).", "quantifier": "every replay whose network data parses, every MaxChannels value", "why_tests_cant": "all replays", "anchors": ["src/network/mod.rs:parse", "src/bits.rs:RlBits::peek_bits_max_computed"]}
{"id": "C34", "title": "Frame count limits", "statement": "The number of frames returned is at most NumFrames; a replay without an integer NumFrames yields zero frames; NumFrames negative or above the number of network bytes fails with TooManyFrames(NumFrames) before any bit is read; each frame consumed at least 65 bits.", "quantifier": "every header and network blob", "why_tests_cant": "all values", "anchors": ["src/network/mod.rs:parse", "src/network/frame_decoder.rs:decode_frames"]}
{"id": "C35", "title": "Frame times are sane", "statement": "Every returned frame has time and delta that are not negative and not in (0, 1e-10), not both zero; such values make parsing fail with TimeOutOfRange / DeltaOutOfRange. (NaN is accepted by the code: the claim that times are ordinary numbers is false and refuted.)", "quantifier": "all 2^64 pairs of bit patterns at every frame", "why_tests_cant": "2^64 pairs", "anchors": ["src/network/frame_decoder.rs:decode_frame"]}
{"id": "C36", "title": "Network stream round trip", "statement": "Encoding any sequence of frames - new actors, deletions and attribute updates consistent with the class table - as a bit stream and decoding it returns exactly those frames, whatever bits follow the terminator or the frame limit.", "quantifier": "every finite well-formed frame sequence, every class table, every version", "why_tests_cant": "unbounded histories", "anchors": ["src/network/frame_decoder.rs:decode_frames", "src/network/frame_decoder.rs:decode_frame"]}
{"id": "C37", "title": "Attribute inheritance", "statement": "The attributes available on an object are those declared in the net cache for the object and for every listed ancestor class, where the declaration nearest to the object wins for a given stream id and the last one in file order wins within a class; the memoised traversal gives the same table as this definition, in any object order.", "quantifier": "every objects list and net cache", "why_tests_cant": "memoisation and duplicates interact over unbounded lists", "anchors": ["src/network/mod.rs:net_traversal", "src/network/object_index.rs:ObjectIndex::hierarchy"]}
{"id": "C38", "title": "Spawn trajectory inheritance", "statement": "An object's spawn behaviour is that of its nearest ancestor (itself included) that appears in objects and has a declared behaviour, and none if there is no such ancestor; memoisation does not change it.", "quantifier": "every objects list", "why_tests_cant": "memoisation over unbounded lists", "anchors": ["src/network/mod.rs:parse", "src/data.rs:SPAWN_STATS", "src/data.rs:PARENT_CLASSES"]}
{"id": "C39", "title": "Class hierarchy is acyclic and object names resolve consistently", "statement": "Following parent classes from any name reaches a root in a bounded number of steps; two object names that differ only in stadium prefix and instance suffix resolve to the same parent; a name occurring several times resolves to its first index.", "quantifier": "every string as object name", "why_tests_cant": "infinitely many names", "anchors": ["src/network/object_index.rs:AncestorIterator::next", "src/network/models.rs:normalize_object", "src/data.rs:PARENT_CLASSES"]}
{"id": "C40", "title": "Stream id width", "statement": "For every class the number of bits used for a stream id suffices to encode every declared non-negative stream id, and decoded stream ids never exceed the largest declared one (2 if none).", "quantifier": "every net cache, including negative and extreme 32-bit stream ids", "why_tests_cant": "2^32 ids", "anchors": ["src/network/mod.rs:parse", "src/network/mod.rs:CacheInfo"]}
{"id": "C41", "title": "Actor table behaves like a map", "statement": "The actor / attribute table (array below a threshold, hash map above) behaves like a finite map from ids to values for any sequence of insertions and lookups; deletion removes ids at or above the threshold and is a no-op below it.", "quantifier": "every sequence of operations and every threshold", "why_tests_cant": "unbounded sequences", "anchors": ["src/network/frame_decoder.rs:RawSegmentedArray", "src/network/frame_decoder.rs:SegmentedArray"]}
{"id": "C42", "title": "Version gates are ordered lexicographically", "statement": "Every version-dependent decoding decision compares (major, minor, net) lexicographically with a fixed threshold, so it is monotone: a newer version never reverts to an older layout.", "quantifier": "every triple of signed 32-bit integers", "why_tests_cant": "2^96 triples", "anchors": ["src/network/mod.rs:VersionTriplet"]}
{"id": "C43", "title": "Header lookups use the first occurrence", "statement": "NumFrames, MaxChannels, MatchType and BuildVersion used for network parsing are those of the first property with that name, ignored if it has another type even when a later duplicate has the right type.", "quantifier": "every property list", "why_tests_cant": "unbounded lists with duplicates", "anchors": ["src/header.rs:Header::num_frames", "src/header.rs:Header::max_channels", "src/header.rs:Header::match_type", "src/header.rs:Header::build_version"]}
{"id": "C44", "title": "64-bit integers survive serialization", "statement": "i64 and u64 values serialized as decimal strings parse back to the same value, for every value.", "quantifier": "all 2^64 values of each type", "why_tests_cant": "2^64 values", "anchors": ["src/serde_utils.rs:display_it", "src/serde_utils.rs:parse_it"]}
{"id": "C45", "title": "Frames survive a serde round trip", "statement": "Serializing decoded network frames and deserializing them returns equal frames (for JSON: provided all floats are finite; a parsed replay can contain NaN, for which it fails).", "quantifier": "every frame value", "why_tests_cant": "unbounded values; NaN-producing bit patterns are not in the corpus", "anchors": ["src/network/models.rs:Frame", "src/network/attributes.rs:Attribute", "src/serde_utils.rs"]}
{"id": "C46", "title": "Typed accessors", "statement": "HeaderProp::as_array, as_bool, as_float, as_u64, as_i32, as_string and is_byte return the payload exactly for the matching variant(s) and None/false otherwise; at most one accessor succeeds on any value.", "quantifier": "every HeaderProp value", "why_tests_cant": "unbounded values", "anchors": ["src/models.rs:HeaderProp"]}
{"id": "C47", "title": "Fixed-point coordinates are not conflated", "statement": "Vector3f coordinates are the correctly rounded f32 of the integer coordinate divided by 100, distinct integer coordinates give distinct floats, and multiplying by 100 and rounding recovers the integer.", "quantifier": "all integer coordinates the wire can carry (|x| < 2^23)", "why_tests_cant": "16 million values times rounding behaviour", "anchors": ["src/network/models.rs:Vector3f::decode"]}
{"id": "C48", "title": "Network failure context", "statement": "When network parsing fails inside a frame, the error carries the frames completed so far, the new actors and updates decoded so far in the failing frame, and the current actor table; the frames carried are a prefix of what any longer successful decode of a corrected stream would return.", "quantifier": "every failing network blob", "why_tests_cant": "all failure points", "anchors": ["src/network/frame_decoder.rs:decode_frames", "src/errors.rs:FrameContext"]}
{"id": "C49", "title": "The checksum misses exactly the multiples of the generator", "statement": "Two byte strings of equal length have the same calc_crc exactly when the polynomial x^32+x^26+x^23+x^22+x^16+x^12+x^11+x^10+x^8+x^7+x^5+x^4+x^2+x+1 over the two-element field divides their difference. With always_check_crc, any change of a section of an accepted file that is not such a multiple is reported as CrcMismatch.", "quantifier": "every pair of byte strings of equal length; every accepted file and every change of a section", "why_tests_cant": "pairs of unbounded strings; the set of missed errors is infinite", "anchors": ["src/crc.rs:calc_crc", "src/parser.rs:Parser::crc_section"]}
{"id": "C50", "title": "Any two flipped bits are detected below 512 MiB", "statement": "Flipping two bits of a message changes calc_crc unless their distance is a multiple of 2^32-1 bits; so with always_check_crc any two flipped bits inside the header or inside the body of an accepted file are reported. At 512 MiB the limit is reached.", "quantifier": "every message, every pair of positions", "why_tests_cant": "about 2^64 pairs of positions per message", "anchors": ["src/crc.rs:calc_crc"]}
{"id": "C51", "title": "The message of a frame error names the right objects and attributes", "statement": "When decoding a frame fails, the Display text of the error names, after the kind of failure: for an object without attributes its name; for an undeclared stream id the name of the actor's object; for an attribute of unknown type the name of the attribute; for a value that cannot be decoded the type of the attribute and the name of the object. The candidates listed are exactly the names of all attributes declared with that stream id, those not in ATTRIBUTES listed separately, each once and in alphabetical order. Placeholders such as <none> or <unknown> never appear there, and the text does not depend on hash iteration order.", "quantifier": "every input on which decoding a frame fails", "why_tests_cant": "the tables, the stream position and the failing record are arbitrary; tests check one replay per message", "anchors": ["src/errors.rs:FrameError::contextualize", "src/errors.rs:NetworkError"]}
{"id": "C52", "title": "The last activity shown in a frame error is that of the stream", "statement": "The Display text of a frame error ends with the number of completed frames and the last update of the failing frame, or else its last announcement, or else that of the last completed frame with any. An update is shown with the object its actor was announced with when it was updated, and all objects are named as in the file.", "quantifier": "every input on which decoding a frame fails", "why_tests_cant": "depends on the whole history of announcements and deletions", "anchors": ["src/errors.rs:FrameContext", "src/network/frame_decoder.rs:FrameDecoder::decode_frames"]}
{"id": "C53", "title": "Each attribute value that cannot be decoded has one, determined error", "statement": "For every attribute type and version, decoding fails exactly on the inputs that start with no value of the type, and the error is determined by where the input leaves the format: the label of the part that is missing, UnrecognizedRemoteId with the platform number, TooBigString with the announced count, Unimplemented for unknown types. The error reported by a replay is that of the value at some position of its network section, for the type its class declares.", "quantifier": "every attribute type, version, product table and bit string", "why_tests_cant": "all bit strings of all lengths for 45 types and all versions; tests check a few labels", "anchors": ["src/network/attributes.rs:AttributeDecoder::decode", "src/network/attributes.rs:decode_text", "src/network/attributes.rs:decode_unique_id_with_system_id"]}
{"id": "C54", "title": "NotEnoughDataFor is reported exactly when a value is cut off", "statement": "An attribute value is answered with NotEnoughDataFor exactly if the input ends within it, that is, some non-empty continuation makes it a value.", "quantifier": "every attribute type, version, product table and bit string", "why_tests_cant": "needs all continuations of all inputs", "anchors": ["src/network/attributes.rs:AttributeDecoder::decode", "src/network/attributes.rs:decode_text", "src/network/attributes.rs:ProductValueDecoder::decode"]}
{"id": "C55", "title": "Rotation components are correctly rounded and determine the transmitted numbers", "statement": "Each transmitted component of a decoded rotation is (n/262143 - 1/2)*2/sqrt 2 of its 18 bits n with every operation correctly rounded, within 2^-22 of the exact value, and n is recovered from it; the omitted component is the correctly rounded root of what the squares of the others leave of one. Before net version 7 the components are (n - 32768)/32767 of 16 bits, likewise recoverable.", "quantifier": "every 18-bit (16-bit) triple, every valid bit reader, every net version", "why_tests_cant": "2^56 rotations; rounding errors show up for rare bit patterns", "anchors": ["src/network/models.rs:Quaternion::unpack", "src/network/models.rs:Quaternion::decode", "src/network/models.rs:Quaternion::compressed_f32"]}
{"id": "C56", "title": "A decoded rotation is a unit quaternion", "statement": "The four components of every decoded rotation (net version 7 on) are finite and the sum of their squares is within 2^-21 of one.", "quantifier": "every valid bit reader", "why_tests_cant": "2^56 rotations, replays in tests come from honest writers", "anchors": ["src/network/models.rs:Quaternion::decode", "src/network/models.rs:Quaternion::unpack"]}
{"id": "C57", "title": "A serialized replay keeps everything but the kind of header texts", "statement": "Two replays serialize alike exactly if they are equal apart from whether a text among the header values is a Name, a Str or the decimal form of a QWord. Order and repetition of header keys, frames, actors, tables and every float are kept; through JSON the same holds if all floats are finite.", "quantifier": "every pair of replays, header values nested to any depth", "why_tests_cant": "pairs of unbounded trees", "anchors": ["src/models.rs:Serialize for HeaderProp", "src/models.rs:pair_vec", "src/models.rs:Replay"]}
{"id": "C58", "title": "Each file that cannot be parsed has one, determined error", "statement": "Every byte string is accepted or fails in exactly one of the ways of a grammar of failures, which names the part that fails, its offset and the reason, through header, property lists of any depth, body, checksums and network data; parse answers with that error and no other. In particular UnexpectedProperty is answered exactly if the header properties are well formed up to a property of that unknown kind, and the numbers of InsufficientData are what is left after the reported offset and a number that is negative or larger.", "quantifier": "every byte string below 2^31 bytes, every checksum and network policy, every platform", "why_tests_cant": "unbounded inputs; error values are rarely asserted beyond a few samples", "anchors": ["src/parser.rs:ParserBuilder::parse", "src/parser.rs:Parser::parse", "src/parser.rs:Parser::crc_section", "src/header.rs:parse_header", "src/core_parser.rs:CoreParser", "src/errors.rs:ParseError"]}
{"id": "C59", "title": "A cut-off replay is reported as lacking data, any other error is final", "statement": "For every input and every continuation of it the two outcomes are the same, or the input is rejected with an error whose innermost cause is InsufficientData. So a truncation of an accepted file that is rejected is rejected with InsufficientData, and an error with any other cause is the error of every continuation.", "quantifier": "every byte string and continuation below 2^31 bytes, every checksum and network policy", "why_tests_cant": "pairs of unbounded inputs", "anchors": ["src/parser.rs:ParserBuilder::parse", "src/parser.rs:Parser::crc_section", "src/core_parser.rs:CoreParser::take", "src/core_parser.rs:CoreParser::take_data", "src/errors.rs:ParseError"]}
{"id": "C60", "title": "names.rs lists exactly the player names of a replay", "statement": "For an accepted replay whose object table has the name of the player-name attribute at most once, the example prints the texts of every Name key of the first PlayerStats array in order, or that there are none, or ends with an error if PlayerStats is no array; and then exactly the player names announced by updates, each once and in alphabetical order, or that there is no network data, or ends with an error if the attribute is not in the table. A file that is rejected ends it with the error of the parser, and it never panics.", "quantifier": "every byte string below 2^31 bytes", "why_tests_cant": "unbounded replays; deduplication and order over arbitrary names", "anchors": ["examples/names.rs:main", "examples/names.rs:names_in_header", "examples/names.rs:names_in_network", "examples/names.rs:player_name_object_id"]}
{"id": "C61", "title": "property_counter.rs treats every file on its own", "statement": "For every list of files, one line per file tells whether that file is a replay, and the summary has the number of replays and every property label of those replays once, in alphabetical order, with the number of times it occurs at any depth. What is printed about a file does not depend on the files before it.", "quantifier": "every list of files, readable or not", "why_tests_cant": "unbounded lists of files and property trees", "anchors": ["examples/property_counter.rs:main", "examples/property_counter.rs:count_properties"]}
{"id": "C62", "title": "ping.rs lists the pings of every player", "statement": "Every player whose name is announced for one actor only, that being the only name of the actor, is listed with exactly the pings of that actor in order.", "quantifier": "every byte string below 2^31 bytes that is accepted with network data", "why_tests_cant": "histories of any length", "anchors": ["examples/ping.rs:main", "examples/ping.rs:find_object_id"]}
{"id": "C63", "title": "demo.rs lists exactly the demolitions", "statement": "For an accepted replay whose object table has none of the six names looked up twice, one line is printed for each update about a demolition, in order, with the time of its frame and what attacker and victim are called by the last announcements of the replay; no actor is called two things. A rejected file ends it with the error of the parser, and it never panics.", "quantifier": "every byte string below 2^31 bytes that is accepted with network data", "why_tests_cant": "histories of any length, reused actor ids", "anchors": ["examples/demo.rs:main", "examples/demo.rs:find_object_id"]}
{"id": "C64", "title": "A replay is no larger than its file", "statement": "All lists of a parsed replay (texts counted in bytes, property lists, levels, key frames, debug information, tick marks, packages, objects, names, class indices, net caches, frames, actors, updates and the lists inside attributes) have together at most eight entries for each byte of the file, at most three without the network data; in particular the number of frames and updates is at most eight times the length of the file.", "quantifier": "every byte string below 2^31 bytes that is accepted, every policy", "why_tests_cant": "files crafted to make a small input expand", "anchors": ["src/core_parser.rs:CoreParser::repeat", "src/network/frame_decoder.rs:FrameDecoder::decode_frames", "src/parser.rs:ParserBuilder::parse"]}
{"id": "C65", "title": "The tables of attributes are of the size of the file", "statement": "The table of attributes that an actor of each object may update, built before the network data is decoded, has at most linearly many entries in the length of the file (250 per byte).", "quantifier": "every accepted byte string", "why_tests_cant": "real replays declare few attributes for few objects; the blow-up needs many instance names of one class", "anchors": ["src/network/mod.rs:parse", "src/network/mod.rs:net_traversal", "src/network/models.rs:normalize_object"]}
{"id": "C66", "title": "Error messages are unambiguous", "statement": "The messages of the error a file is answered with and of its causes (`Error::source`) determine the error, apart from the decoder state attached to a frame error and from floats that are printed alike. The chain of causes has at most four errors. Outside the network data the first message alone determines the error, except for the cause of a section found to be corrupt.", "quantifier": "every two byte strings below 2^31 bytes that are rejected, every policy", "why_tests_cant": "all pairs of failures", "anchors": ["src/errors.rs:ParseError::fmt", "src/errors.rs:ParseError::source", "src/errors.rs:NetworkError::source", "src/errors.rs:FrameError::source", "src/errors.rs:AttributeError::fmt"]}
{"id": "C67", "title": "Every class descends from Core.Object", "statement": "Following parents from a class of the class table leads to Core.Object; it is a class of actors (descends from Engine.Actor) or one of four kinds of data. If the ancestors are listed, moving actors (rigid bodies, keep-up indicators) are spawned with location and rotation, fixtures of the map with neither, all other actors with a location.", "quantifier": "every class of the table, every list of objects", "why_tests_cant": "classes that occur in no sample replay", "anchors": ["src/data.rs:PARENT_CLASSES", "src/data.rs:SPAWN_STATS", "src/network/object_index.rs:ObjectIndex::hierarchy"]}
{"id": "C68", "title": "Serialized replays follow the schema of the types", "statement": "What is serialized for a replay, for a list of frames and for a header value are exactly the values of the schema given by the struct and enum definitions: each struct an object with the names of its fields in order, each integer within the range of its type, each 64-bit number a decimal text, each variant tagged with its name. Under each name stands the field of that name. Every value that follows the schema of frames is read, as the frames it is written for.", "quantifier": "every replay, every frame, every attribute value, every header value of any depth, every value of the serde data model", "why_tests_cant": "the snapshots cover the variants that occur in them, and none of the values that are never written", "anchors": ["src/models.rs:Replay", "src/models.rs:HeaderProp", "src/network/models.rs:Frame", "src/network/attributes.rs:Attribute", "src/serde_utils.rs"]}
{"id": "C69", "title": "Memory reserved ahead of the data is bounded", "statement": "The number of list slots that the parser has reserved, at any one time, for lists whose elements it is still reading is bounded by a constant that does not depend on the input.", "quantifier": "every input below 2 GiB, every policy, every prefix of the run", "why_tests_cant": "a reservation leaves no trace in the result, and the files of the test suite nest at most one array", "anchors": ["src/core_parser.rs:CoreParser::repeat", "src/header.rs:array_property", "src/network/frame_decoder.rs:decode_frames"]}
{"id": "C70", "title": "What the frames depend on", "statement": "The network frames of a replay are determined by the version, the number of frames and of channels, whether the match type is Lan and whether the build is at least 221120.42953.406184, together with the object names, the attribute declarations and the network data. Nothing else in the file influences them: not the parent and cache ids of the net cache, not the class index, names, packages, levels, tick marks, key frames or other header properties, nor the order in which the classes are listed. Each of the inputs named does influence them.", "quantifier": "every pair of headers and bodies, every pair of files below 2 GiB, every policy", "why_tests_cant": "non-interference relates two runs and ranges over everything in the file that was not varied", "anchors": ["src/network/mod.rs:parse", "src/network/frame_decoder.rs", "src/parser.rs:ParserBuilder::parse"]}
{"id": "C71", "title": "Comparing replays", "statement": "The derived equality of `Replay` and of `ParseError` is an equivalence relation, and two parses of the same bytes give outcomes that compare equal.", "quantifier": "every replay and error, every input below 2 GiB, every policy", "why_tests_cant": "equality of floats is not reflexive; only a file with a NaN shows it", "anchors": ["src/models.rs:Replay", "src/models.rs:HeaderProp", "src/network/attributes.rs:Attribute", "src/network/models.rs:Frame", "src/errors.rs:ParseError"]}
{"id": "C72", "title": "JSON", "statement": "What serde_json writes for a replay is a JSON text in the sense of RFC 8259, with line breaks or without, and stands for the serialized replay. `examples/json.rs` prints it for every file that is accepted with both checksums verified, and nothing for any other. The text determines the replay up to the kinds of the texts in header values.", "quantifier": "every replay, every input below 2 GiB, every way of writing floats as numbers that are not integers, different for different floats", "why_tests_cant": "the snapshots compare hashes of texts of files from the game; no text is parsed again, and none of the files has a float that is not finite", "anchors": ["examples/json.rs:main", "src/models.rs:Replay", "src/models.rs:HeaderProp", "src/serde_utils.rs"]}
{"id": "C73", "title": "The announced number of frames", "statement": "The `NumFrames` property of the header only limits how many frames are decoded: with everything else the same, the network data hold a sequence of frames followed by an end or an error, and a file that announces n frames has the first n of them if there are as many, otherwise all of them if the data end, otherwise that error. In particular a file that announces fewer frames has a prefix of the frames, and announcing more than there are before the end changes nothing.", "quantifier": "every header with a number of frames between 0 and the number of bytes of network data, every body, every frame and error", "why_tests_cant": "the number of frames of the sample files is never altered", "anchors": ["src/network/frame_decoder.rs:decode_frames", "src/network/frame_decoder.rs:decode_frame", "src/network/mod.rs:parse"]}
{"id": "C74", "title": "Four bytes give any checksum", "statement": "The checksum of a message depends on its beginning only through the checksum of the beginning. For every message, every position in it and every 32-bit value there are exactly four bytes that, inserted there, give it this checksum. So the checksums authenticate nothing: for a given header, sizes and content checksum, every body that is at least four bytes shorter than its declared size has a file that always_check_crc accepts.", "quantifier": "every message, position and value; every header and body", "why_tests_cant": "the existence of four bytes for every one of 2^32 values after every message is not observable by runs", "anchors": ["src/crc.rs:calc_crc", "src/parser.rs:crc_section"]}
{"id": "C75", "title": "The table of attributes is consistent", "statement": "Every attribute of the table is written Class:Name where the class is a class of actors of the class table; attributes of the same name have the same type in all classes, and none is declared both in a class and in one it descends from; there is an attribute of every type but NotImplemented. So in parsed replays, updates of attributes that differ only in the class have values of the same variant.", "quantifier": "every entry of the table, every pair of parsed replays", "why_tests_cant": "a wrong entry shows only in a replay that has the attribute", "anchors": ["src/data.rs:ATTRIBUTES", "src/data.rs:PARENT_CLASSES", "src/network/attributes.rs:AttributeTag"]}
{"id": "C76", "title": "The content of the network data influences nothing but the frames", "statement": "If the network data of a file that is well formed up to there is replaced by as many other bytes, the outcome with never_parse_network_data and never_check_crc is the same, error or replay; with ignore_network_data_on_error it is the same apart from network_frames; under any checksum policy each of the two outcomes is that common one or a checksum error. Every accepted file has its network data at such a place and stays accepted, with the same other fields, for every other content, unless checksums are always verified.", "quantifier": "every file that is well formed up to the network data, accepted or not, every replacement of the same length, every checksum policy", "why_tests_cant": "the claim is about all contents, among them hostile ones, and about rejected files", "anchors": ["src/parser.rs:parse_body", "src/parser.rs:Parser::parse", "src/parser.rs:crc_section"]}
{"id": "C77", "title": "Key frames match the frames", "statement": "The key frames and tick marks of an accepted replay refer to its frames: the frame of each exists, and the time of a key frame is the time of that frame (src/models.rs: 'The key frames decoded will match up with the frames decoded from the network data').", "quantifier": "every accepted replay", "why_tests_cant": "replays written by the game satisfy it; the parser does not check it", "anchors": ["src/models.rs:KeyFrame", "src/models.rs:TickMark", "src/parser.rs:parse_keyframe"]}
{"id": "C78", "title": "Classes inherit by parent ids", "statement": "The parent of an entry of the net cache is the entry whose cache id is its parent id; the attributes of the class of an entry are its own properties and those it inherits from its parent, the nearest first (src/models.rs: 'The cache id of the parent. The child class inherits all the parent's properties', src/parser.rs: 'points to the cache_id of its parent').", "quantifier": "every list of objects and every net cache", "why_tests_cant": "replays may have any ids; a wrong ancestor shows only in an update of the attribute", "anchors": ["src/models.rs:ClassNetCache", "src/parser.rs (documentation)", "src/network/mod.rs:parse", "src/network/object_index.rs"]}
{"id": "C79", "title": "Indices refer to the lists of the replay", "statement": "In an accepted replay with frames, the object ids of properties, net cache entries, new actors and updates are indices of objects, the name ids of new actors are indices of names, and a class index gives the name of the object with that index (src/models.rs: 'Should be equivalent to Replay::objects(self.index)').", "quantifier": "every accepted replay", "why_tests_cant": "all replays, hostile ones included", "anchors": ["src/models.rs:ClassIndex", "src/models.rs:ClassNetCache", "src/network/models.rs:NewActor", "src/network/mod.rs:parse"]}
{"id": "C80", "title": "Which decoded values determine their bits", "statement": "For 23 of the 44 attribute types that have values a decoded value and the version of the replay determine the bits it was read from, so nothing is lost in decoding; for every other type there are values with several representations. One bit of every new actor is not kept.", "quantifier": "every attribute type, version, value and pair of representations", "why_tests_cant": "tests compare values, never the bits that give the same value", "anchors": ["src/network/attributes.rs:AttributeDecoder", "src/network/models.rs:Vector3i::decode", "src/parsing_utils.rs", "src/network/frame_decoder.rs:parse_new_actor"]}
{"id": "C81", "title": "An accepted replay can be written back", "statement": "What an accepted file says can be represented in the file format, however the file is written: every text fits its encoding, every list its limit. Writing header and body gives a file at most a quarter longer that is accepted under every checksum policy and has the same content, frames included; only the four sizes and checksums differ. Writing what was written changes nothing, and two files are written alike exactly if they say the same.", "quantifier": "every accepted file of up to 2 GiB, every checksum and network policy", "why_tests_cant": "needs a writer and all sloppy spellings of the same content", "anchors": ["src/core_parser.rs:parse_text", "src/core_parser.rs:parse_str", "src/header.rs:parse_header", "src/parser.rs:parse_body"]}
{"id": "C82", "title": "The frames tell which actors exist and whose the updates are", "statement": "After each frame the actors that exist, and what they are, follow from the lists of new and deleted actors of the frames so far, and each update belongs to the object announced last for its actor (src/network/models.rs: 'List of new actors seen during the frame', 'List of actor id's that are deleted / destroyed').", "quantifier": "every accepted replay and every frame of it", "why_tests_cant": "two different streams with the same frames are not in any corpus", "anchors": ["src/network/models.rs:Frame", "src/network/frame_decoder.rs:decode_frame"]}
{"id": "C83", "title": "Frame times follow each other", "statement": "The times of the frames do not decrease and the delta of a frame is the difference of its time and the time of the frame before (src/network/models.rs: 'Time difference between previous frame').", "quantifier": "every accepted replay", "why_tests_cant": "all replays, hostile ones included", "anchors": ["src/network/models.rs:Frame", "src/network/frame_decoder.rs:decode_frame"]}
{"id": "C84", "title": "The JSON text of a replay is linear in its file", "statement": "What a parsed replay takes written as JSON, as examples/json.rs does, is bounded by a constant times the length of its file, so that a small file cannot fill a disk.", "quantifier": "every accepted replay", "why_tests_cant": "the ratio is a worst case over all files, hostile ones included", "anchors": ["examples/json.rs:main", "src/models.rs:Replay", "src/models.rs:HeaderProp"]}
{"id": "C85", "title": "Error messages are linear in the file", "statement": "The text of an error has at most a constant times as many bytes as the file that caused it, although it lists names of the file: a log of failures is not much larger than the files.", "quantifier": "every file that is answered with an error, all settings", "why_tests_cant": "the ratio is a worst case over all files, hostile ones included", "anchors": ["src/errors.rs:fmt", "src/errors.rs:contextualize"]}
{"id": "C86", "title": "Frames round trip through a format that does not describe itself", "statement": "Decoded frames written to a binary serde format without names and kinds, such as bincode, are read back exactly, including floats that are not numbers and 64-bit numbers written as texts; bytes that are cut off or too long are not read as frames.", "quantifier": "the frames of every accepted replay, and all frames of any realistic size", "why_tests_cant": "needs every attribute variant, every float and every length; one wrong kind shifts all bytes after it", "anchors": ["src/serde_utils.rs:parse_it", "src/serde_utils.rs:display_it", "src/models.rs:(module doc)"]}
{"id": "C87", "title": "Keys of the hash tables are told apart by their hashes", "statement": "Different keys of the hash tables built from a file (object names, object ids, stream ids, actor ids) have different hashes, so that no file makes its lookups slow.", "quantifier": "all keys that occur in any file", "why_tests_cant": "needs keys chosen against the hash; those of real replays do not collide", "anchors": ["src/network/object_index.rs:ObjectIndex", "src/network/mod.rs:parse", "src/network/frame_decoder.rs:RawSegmentedArray"]}
{"id": "C88", "title": "Damage to the network data leaves the frames before it as they are", "statement": "If network data is altered after its first m bits without changing its length, then the frames whose bits end within the first m bits are the same ones: they are the first frames of what is decoded, or, if decoding now fails, the first of the frames reported with the error, and the failure is an error within a later frame. What the first m bits hold is a function of these bits, the length and the tables of the file. If the data is also cut or continued behind these bits, the same holds for frames in which no awake rigid body lacks a velocity, which are all frames that end at least 67 bits before the end of the data.", "quantifier": "every header and body, every position, every alteration behind it, every number of frames that end before it", "why_tests_cant": "the tests damage no network data; the decoder reads ahead in blocks and treats the end of data specially", "anchors": ["src/network/frame_decoder.rs:decode_frames", "src/network/frame_decoder.rs:decode_frame", "src/network/attributes.rs:_decode_rigid_body"]}
{"id": "C89", "title": "Network data that is not decoded costs nothing", "statement": "If the network data is not to be decoded and checksums are not always verified, reading an accepted file takes a number of steps bounded by the bytes outside the network data, however long the network data is. If checksums are always verified, every byte of both sections is looked at.", "quantifier": "all accepted files, all settings of the parser", "why_tests_cant": "a bound on the work for all files; the benchmarks measure a few", "anchors": ["README.md:57", "src/parser.rs:parse", "src/parser.rs:crc_section"]}
{"id": "C90", "title": "Every error of the interface can happen", "statement": "Every variant of the error types, and every name of what could not be read that the code gives, is reported for some file, and no other name for any file. (Violated by five variants.)", "quantifier": "all variants and names; for the converse all files", "why_tests_cant": "the tests meet a few errors; that no file has another one needs all files", "anchors": ["src/errors.rs:ParseError", "src/errors.rs:NetworkError", "src/errors.rs:FrameError", "src/errors.rs:AttributeError", "src/network/frame_decoder.rs:282"]}
{"id": "C91", "title": "Every value of a listed attribute can be recorded", "statement": "For every attribute name that the library knows, in every version, each sequence of encodable values of its type is what some accepted file is read to: the values arrive in order, unchanged, below that name. Every attribute type of the interface but the placeholder has such values.", "quantifier": "all versions, all listed attributes, all sequences of values", "why_tests_cant": "the replays of the tests contain a small part of the values; an unreachable value or a type no file can carry is not seen by them", "anchors": ["src/data.rs:ATTRIBUTES", "src/network/attributes.rs:AttributeDecoder::decode", "src/network/frame_decoder.rs:decode_frame"]}
{"id": "C92", "title": "Floats are written in full", "statement": "If the printer of floats writes a shortest decimal number that is read as the float, in the layout of ryu, then every finite float of a replay is written as a JSON number that is not an integer, takes at most 16 bytes, and is read back as the same float with the same sign. Replays with finite floats can hence be told apart by their JSON texts, and the length of the text is bounded by the file, without assuming anything else of the texts of floats.", "quantifier": "all finite binary32 values", "why_tests_cant": "tests compare the JSON of a few replays; a float whose text is rounded, or is too long, among four billion is not met by them", "anchors": ["examples/json.rs", "tests/frame_roundtrip.rs", "src/network/models.rs:Vector3f", "src/network/attributes.rs:Attribute"]}
{"id": "C93", "title": "Exactly which attribute values occur", "statement": "For each attribute type and version there is a description of its values that does not mention how they are written: ranges of numbers, which optional fields are present, which texts, how many elements. Every attribute of an accepted replay fits the description of its type, save a rigid body whose velocities are cut by the end of the data, which at most one frame follows, an empty one; and every value that fits is read from some file, and so is every such body, with the one limit that an angular velocity is below 5242.88 (before net version 7 1310.72) if the linear velocity is missing. In particular a sleeping body has no velocities, the fields of a loadout are those of its version, and a reservation lacks a name only for the empty split screen id.", "quantifier": "all accepted replays, all attributes, all versions", "why_tests_cant": "users match on the values and rely on invariants between fields; the test replays show some values but neither that others are impossible nor that they are possible", "anchors": ["src/network/attributes.rs:AttributeDecoder::decode", "src/network/attributes.rs:_decode_rigid_body", "src/network/attributes.rs:decode_reservation", "src/network/attributes.rs:decode_loadout", "src/network/models.rs:Vector3i::decode"]}
{"id": "C94", "title": "Exactly which frames occur", "statement": "Which sequences of frames there are for given header and tables is described without saying how they are written: times and differences are NaN, zero or at least 1e-10 and not both zero, the lists of a frame are those of records in some order, new actors have a class and the location and rotation of its spawn behaviour and a name id exactly in versions with one, ids are below the number of channels, only announced actors are updated, and an update is of a stream id of the actor's class with a value that fits its type. The frames of an accepted replay are such a sequence, unless a body is cut by the end of the data; and every such sequence is read from some file with that header and these tables, for every announced number of frames that is large enough.", "quantifier": "all accepted replays; all headers, tables and sequences of frames", "why_tests_cant": "users who follow actors through the frames rely on all of this, and a decoder that wrongly rejects some of these sequences passes on the replays at hand", "anchors": ["src/network/frame_decoder.rs:FrameDecoder::decode_frames", "src/network/frame_decoder.rs:FrameDecoder::decode_frame", "src/network/mod.rs:parse"]}
{"id": "C95", "title": "Values in messages can be read off", "statement": "Two attribute values have the same text in error messages if and only if they are equal, where all NaN count as equal; tags, locations and rotations with the same text are equal. Each of these texts is on one line and consists of visible ASCII characters and characters that the standard library does not escape, whatever names it contains, and its length is proportional to the value, so that messages are proportional to the file. Two failures in frames with the same message had the same last record before them: the same value of the last update, or the same place of the last new actor.", "quantifier": "all attribute values, tags, locations and rotations; all failures in frames", "why_tests_cant": "tests look for a few words in the messages of a few broken replays; two different values with one text, or a name that breaks the line, do not occur there", "anchors": ["src/errors.rs:FrameContext::display_update", "src/errors.rs:FrameContext::display_new_actor", "src/network/attributes.rs:Attribute", "src/network/models.rs:Vector3i"]}
{"id": "C96", "title": "A file cannot forge lines of its error message", "statement": "Whatever the file, its error message has a bounded number of lines, and no characters other than visible ASCII characters and those the standard library does not escape. What is needed for this is only that the names the message repeats as they are in the file, an unknown kind of property or the names of the objects, are of such characters: then the message has at most 21 lines.", "quantifier": "all files with an error", "why_tests_cant": "messages go to logs and terminals; tests look for a few words in the messages of a few broken replays, none of which has a name with a line break or an escape sequence", "anchors": ["src/errors.rs:ParseError", "src/errors.rs:FrameError::contextualize", "src/errors.rs:FrameContext"]}
{"id": "C97", "title": "Network data that ends too early is recognised", "statement": "If network data is read without error and its end is then cut off, the outcome is the first frames of what was read, or an error that tells that data is missing and reports the first frames. More generally, every error that does not tell that data is missing stays the same, with the same context, whatever data is put behind, and what was decoded or reported is always the start of what is decoded or reported with more data.", "quantifier": "all headers, tables and network data, all places to cut and all data put behind", "why_tests_cant": "tests have no replays with cut network data; whether a cut is told from damage depends on the place of every cut in every kind of record and attribute", "anchors": ["src/network/frame_decoder.rs:FrameDecoder::decode_frame", "src/network/frame_decoder.rs:FrameDecoder::decode_frames", "src/network/mod.rs:parse", "src/network/attributes.rs:AttributeDecoder::decode_rigid_body"]}
{"id": "C98", "title": "The documentation describes new actors as they are read", "statement": "The module documentation of the parser describes the format of the network stream: an actor id as wide as the header property NumChannels asks for; a new actor as a 32 bit name, an unused bit, a 32 bit object, then a vector if the object has a place (a size below 22 and three coordinates of size + 2 bits biased by 2^(size + 1)), then a rotation if it has one (yaw, pitch and roll of 8 bits each). A new actor is read from some bits exactly if they are the documented bits.", "quantifier": "all decoders, all new actors, all bits before and after", "why_tests_cant": "the documentation is prose that no test reads; where it and the code differ depends on the kind of the object and on the version", "anchors": ["src/parser.rs:ParserBuilder", "src/network/frame_decoder.rs:FrameDecoder::parse_new_actor", "src/network/models.rs:Vector3i::decode", "src/network/models.rs:Rotation::decode", "src/header.rs:Header::max_channels"]}
{"id": "C99", "title": "One change in 2^32 goes unnoticed", "statement": "Of the 256^n messages of n bytes, exactly 256^(n-4) have a given checksum if n is at least 4, and no two have the same if n is at most 4. With always_check_crc, if the declared body of an accepted file is replaced by other bytes, exactly 256^(n-4) of the 256^n possible replacements, the body itself included, are not reported as CrcMismatch; for the declared header it is at most 256^(n-4). A mismatch is reported only if there is one.", "quantifier": "every length and checksum; every accepted file and every replacement of a declared section", "why_tests_cant": "the number of messages of a section is astronomical; tests can only show single changes that are noticed", "anchors": ["src/crc.rs:calc_crc", "src/parser.rs:Parser::crc_section", "src/parser.rs:ParserBuilder::parse"]}
{"id": "C100", "title": "The checksums admit one file in 2^64", "statement": "Without always_check_crc the two stored checksums make no difference to whether a file is accepted; with it, for every header, sizes and rest of a file there is exactly one pair of checksums with which it is accepted if it is accepted with any other policy. So of the files of any given size that are accepted without looking at checksums exactly one in 2^64 is accepted by always_check_crc, and of all byte strings of that size at most one in 2^64.", "quantifier": "every size, every network policy, every platform", "why_tests_cant": "a statement on the number of accepted byte strings", "anchors": ["src/parser.rs:Parser::crc_section", "src/parser.rs:ParserBuilder::parse", "src/crc.rs:calc_crc"]}
{"id": "C101", "title": "Strings are read in the documented way", "statement": "The module documentation of the parser gives one formula for decoding a string: a positive size is a number of Windows-1252 bytes, a negative one of UTF-16 units, the last character is dropped. Every string of a replay, keys, kinds of properties and class names included, is read by this formula, so the same bytes are the same string everywhere.", "quantifier": "all strings of a file, all bytes", "why_tests_cant": "the keys and class names of the sample replays are ASCII, where all the encodings agree", "anchors": ["src/core_parser.rs:CoreParser::parse_str", "src/core_parser.rs:CoreParser::parse_text", "src/parsing_utils.rs:decode_windows1252", "src/header.rs:parse_rdict"]}
{"id": "C102", "title": "Header properties are read as documented", "statement": "The module documentation of the parser gives a format of the header properties: keys, value types, eight skipped bytes, and eight value types, with byte properties of two strings (one for steam / ps4), 64-bit signed numbers and nested maps. Every property list that follows this documentation is read with the documented keys and values.", "quantifier": "all documented property lists, all platforms", "why_tests_cant": "the sample replays follow the code, not the documentation; the documented lists are infinitely many", "anchors": ["src/parser.rs", "src/header.rs:parse_rdict", "src/header.rs:array_property"]}
{"id": "C103", "title": "Further objects and attributes do not disturb", "statement": "If objects are added behind those of a replay, and attributes declared for the added objects, the frames stay as they are: whatever could be decoded is decoded as before, and frames that announce none of the added objects can be decoded without them.", "quantifier": "every header and body, every list of added names and declarations", "why_tests_cant": "every sample has one list of objects; what an added name changes depends on all others", "anchors": ["src/network/mod.rs:parse", "src/network/object_index.rs:ObjectIndex", "src/network/attributes.rs:ProductValueDecoder"]}
{"id": "C104", "title": "Names that nothing refers to do not matter", "statement": "The name of an object makes no difference to the frames of a replay unless the frames announce the object, the name is that of a declared attribute, of a kind of product, of another object, or of a class another object descends from: with any other names for such objects the same frames are decoded.", "quantifier": "every header and body, every set of renamed objects, any new names", "why_tests_cant": "names influence the decoding through the class tree, through duplicates and through the list of products at once", "anchors": ["src/network/mod.rs:parse", "src/network/object_index.rs:ObjectIndex", "src/network/attributes.rs:ProductValueDecoder"]}
{"id": "C105", "title": "Builds are compared by date and number", "statement": "The layout of build 221120.42953.406184 is used exactly for this build and later ones, where builds are ordered by date, then by the second and the third number.", "quantifier": "every header with a build version made of a date and two numbers", "why_tests_cant": "the code compares texts; samples fix only some builds, and none of the day of the threshold has numbers of another length (one of another day, 160921.8478.141010, has)", "anchors": ["src/network/mod.rs:parse"]}
{"id": "C106", "title": "Declarations that no update uses do not matter", "statement": "Which attributes are declared for stream ids that no update of the frames uses makes no difference to the frames, as long as the largest declared id of every class stays the same: such declarations can be left out, added or refer to other attributes.", "quantifier": "every header and body, every change of declarations of unused ids", "why_tests_cant": "the declarations of one class are inherited by others and decide the width of all ids; samples have one set of declarations each", "anchors": ["src/network/mod.rs:parse", "src/network/object_index.rs:ObjectIndex"]}
{"id": "C107", "title": "Actor ids are interchangeable", "statement": "If all actor ids in the frames of a replay are replaced, in announcements, deletions, updates and the values that refer to actors, by ids that differ for different actors, are below the number of channels, and are below 200 for those below 200, the frames remain possible: they are read from some network data with the same header and tables.", "quantifier": "all headers, tables, possible sequences of frames and replacements of ids", "why_tests_cant": "samples use the ids the game assigned; no sample is available twice with different ids", "anchors": ["src/network/frame_decoder.rs:FrameDecoder", "src/network/models.rs:ActorId"]}
{"id": "C108", "title": "Updates and deletions can be left out", "statement": "If any updates and any deletions are left out of the frames of a replay, the frames remain possible with its header and tables (in the sense of C94): no update relies on another update or on a deletion. Announcements cannot be left out in general.", "quantifier": "all headers, tables and possible sequences of frames, all selections of updates and deletions", "why_tests_cant": "there are as many selections as subsets of the updates of a replay", "anchors": ["src/network/frame_decoder.rs:FrameDecoder"]}
