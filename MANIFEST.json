{
 "claims": [
  {
   "property": "C01",
   "status": "proved",
   "theorems": [
    "Boxcars.Props.no_panic",
    "Boxcars.Props.builder_no_panic",
    "Boxcars.Props.panic_capacity",
    "Boxcars.Props.panic_32bit",
    "Boxcars.Props.Overflow.panic_overflow"
   ],
   "note": "For every slice that can exist in 64-bit builds without overflow checks, below 2^31 bytes with overflow checks (the i32 offset counter; panic_overflow: a file of 2^31 bytes panics, so this is sharp), and below 2^24 bytes with a 32-bit usize, below which a Vec of frames cannot overflow its capacity (panic_capacity, panic_32bit: such a bound is needed)."
  },
  {
   "property": "C02",
   "status": "proved",
   "theorems": [
    "Boxcars.Props.work_faithful",
    "Boxcars.Props.work_linear",
    "Boxcars.Props.terminates",
    "Boxcars.Props.ancestor_walk",
    "Boxcars.Props.header_work",
    "Boxcars.Props.stream_work",
    "Boxcars.Props.tables_work",
    "Boxcars.Props.tables_blowup"
   ],
   "note": "Every loop and recursive call of the model is counted (Spec/Work.lean); at most 728400 steps per byte plus 300 with the input bounds of C01. Header: 3 steps per byte; network stream: 12 steps per bit; class ancestors: 11 calls. The class tables cost objects*declarations (tables_blowup shows this is reached), linear only because lists have at most 25000 elements."
  },
  {
   "property": "C03",
   "status": "proved",
   "theorems": [
    "Boxcars.Props.one_outcome",
    "Boxcars.Props.one_success",
    "Boxcars.Props.one_failure",
    "Boxcars.Props.failure_differs",
    "Boxcars.Props.one_replay",
    "Boxcars.Props.Overflow.builds_differ"
   ],
   "note": "one_outcome: same input bounds as C01 (needed: builds_differ). one_replay: for every slice that can exist, all successful runs give one replay. Across pointer widths success values agree; the size inside ListTooLarge is a usize and differs (failure_differs)."
  },
  {
   "property": "C04",
   "status": "proved",
   "theorems": [
    "Boxcars.Props.calcCrc_eq_spec",
    "Boxcars.Props.crc_indices_in_range"
   ],
   "note": "every byte string"
  },
  {
   "property": "C05",
   "status": "proved",
   "theorems": [
    "Boxcars.Props.calcCrc_detects_burst"
   ],
   "note": "any window of at most 32 bits at any bit offset (stronger than four bytes)"
  },
  {
   "property": "C06",
   "status": "proved",
   "theorems": [
    "Boxcars.Props.always_ok_crc",
    "Boxcars.Props.always_header_mismatch",
    "Boxcars.Props.always_body_mismatch"
   ],
   "note": ""
  },
  {
   "property": "C07",
   "status": "proved",
   "theorems": [
    "Boxcars.Props.onError_ok_iff_never",
    "Boxcars.Props.sectionAt_iff",
    "Boxcars.Props.onError_error"
   ],
   "note": "every slice that can exist (length up to isize::MAX)"
  },
  {
   "property": "C08",
   "status": "proved",
   "theorems": [
    "Boxcars.Props.always_ok_others",
    "Boxcars.Props.never_no_crc_error"
   ],
   "note": "every slice that can exist (length up to isize::MAX)"
  },
  {
   "property": "C09",
   "status": "proved",
   "theorems": [
    "Boxcars.Props.never_iff_ignore",
    "Boxcars.Props.ignore_cases",
    "Boxcars.Props.must_ok",
    "Boxcars.Props.must_err",
    "Boxcars.Props.never_ok_iff",
    "Boxcars.Props.must_ok_iff"
   ],
   "note": "Same input bounds as C01."
  },
  {
   "property": "C10",
   "status": "proved",
   "theorems": [
    "Boxcars.Props.builder_last_wins",
    "Boxcars.Props.builder_convenience"
   ],
   "note": ""
  },
  {
   "property": "C100",
   "status": "proved",
   "theorems": [
    "Boxcars.Props.accepts_sealed",
    "Boxcars.Props.accepted_ratio",
    "Boxcars.Props.accepted_few"
   ],
   "note": "Every size up to isize::MAX, every network policy and every platform; in builds with overflow checks files whose sections end beyond 2^31 bytes are not accepted by either policy. Counted with Nat.card."
  },
  {
   "property": "C101",
   "status": "partial",
   "theorems": [
    "Boxcars.Props.strings_agree_partial",
    "Boxcars.Props.doc_key_rejected",
    "Boxcars.Props.doc_key_differs",
    "Boxcars.Props.doc_key_utf16",
    "Boxcars.Props.doc_file_rejected"
   ],
   "note": "False of the code: keys, kinds and class names are UTF-8, all other strings Windows-1252 or UTF-16. strings_agree_partial: of the same bytes both are the same string exactly if the bytes are ASCII (lengths from 1 to 10000). Missing from the full statement: all other strings; doc_key_rejected and doc_key_utf16 show documented keys that are rejected, doc_key_differs one that is read as another string, doc_file_rejected a whole file."
  },
  {
   "property": "C102",
   "status": "partial",
   "theorems": [
    "Boxcars.Props.doc_props_partial",
    "Boxcars.Props.doc_store_never",
    "Boxcars.Props.doc_none_never",
    "Boxcars.Props.doc_array_never",
    "Boxcars.Props.doc_qword",
    "Boxcars.Props.doc_files"
   ],
   "note": "False of the code: a byte property of Steam or PS4 with one string, one of the kind None, and a nested map without a count are never read as documented, and 64-bit numbers are unsigned (witness files in doc_files). doc_props_partial: documented lists without arrays are read as documented exactly if every byte property has two strings, the first not None."
  },
  {
   "property": "C103",
   "status": "partial",
   "theorems": [
    "Boxcars.Props.added_partial",
    "Boxcars.Props.added_ancestor",
    "Boxcars.Props.added_product"
   ],
   "note": "False of the code if a listed object descends from an added class (added_ancestor) or if the added name is that of a kind of product (added_product, object 0 is taken for missing kinds). added_partial: for all other added names, in both directions."
  },
  {
   "property": "C104",
   "status": "proved",
   "theorems": [
    "Boxcars.Props.renamed_frames"
   ],
   "note": "Equivalence of successful outcomes with the same frames; instance: ballWith_renamed and the example behind it. That names do matter otherwise is objects_matter (C70), added_ancestor and added_product (C103)."
  },
  {
   "property": "C105",
   "status": "partial",
   "theorems": [
    "Boxcars.Props.build_order_partial",
    "Boxcars.Props.build_date",
    "Boxcars.Props.build_four",
    "Boxcars.Props.early_build",
    "Boxcars.Props.late_build"
   ],
   "note": "Proved for a date of six digits, a second number of five and a third of six, and for every build of another day. False for numbers of other lengths, since texts are compared: early_build, late_build; build_four says exactly which builds with a second number of four digits are misjudged."
  },
  {
   "property": "C106",
   "status": "proved",
   "theorems": [
    "Boxcars.Props.unused_frames",
    "Boxcars.Props.spare_same",
    "Boxcars.Props.larger_matters"
   ],
   "note": "Equivalence of successful outcomes with the same frames. Instance: spare_same and the example behind it; larger_matters shows that the condition on the largest id is needed."
  },
  {
   "property": "C107",
   "status": "proved",
   "theorems": [
    "Boxcars.Props.reassigned_possible",
    "Boxcars.Props.reassigned_read",
    "Boxcars.Props.reassigned_iff",
    "Boxcars.Props.exchanged_iff",
    "Boxcars.Props.exchange_reassigns",
    "Boxcars.Props.sticky_needed"
   ],
   "note": "Built on C94: possible frames stay possible and are read from some network data, with the same bound on its size. sticky_needed shows that the condition on ids below 200 is needed (C31)."
  },
  {
   "property": "C108",
   "status": "proved",
   "theorems": [
    "Boxcars.Props.fewer_possible",
    "Boxcars.Props.fewer_of_replay",
    "Boxcars.Props.announcement_needed"
   ],
   "note": "Possible frames in the sense of C94, which are read from some network data by possible_read. For replays the condition of C94 on bodies cut by the end of the data applies (AllMove)."
  },
  {
   "property": "C11",
   "status": "proved",
   "theorems": [
    "Boxcars.Props.trailing_ignored"
   ],
   "note": "every slice that can exist (length up to isize::MAX)"
  },
  {
   "property": "C12",
   "status": "proved",
   "theorems": [
    "Boxcars.Props.truncation_safe"
   ],
   "note": "every slice that can exist (length up to isize::MAX)"
  },
  {
   "property": "C13",
   "status": "proved",
   "theorems": [
    "Boxcars.Props.grammar_accepted",
    "Boxcars.Props.file_round_trip",
    "Boxcars.Props.file_round_trip_network"
   ],
   "note": "grammar_accepted: every slice that can exist, the part before the trailing bytes below 2^31 bytes if overflow checks are on; round trips: the encoded file below 2^31 bytes, any trailing bytes"
  },
  {
   "property": "C14",
   "status": "proved",
   "theorems": [
    "Boxcars.Props.header_ok_iff",
    "Boxcars.Props.properties_round_trip",
    "Boxcars.Props.property_size_ignored",
    "Boxcars.Props.byte_none_skipped"
   ],
   "note": "any slice that can exist in builds without overflow checks, below 2^31 bytes with them (the i32 offset counter)"
  },
  {
   "property": "C15",
   "status": "proved",
   "theorems": [
    "Boxcars.Props.unknown_kind_rejected"
   ],
   "note": "at any nesting depth, after any well-formed properties"
  },
  {
   "property": "C16",
   "status": "proved",
   "theorems": [
    "Boxcars.Props.bool_quirks",
    "Boxcars.Props.bool_standard",
    "Boxcars.Props.byte_quirks",
    "Boxcars.Props.byte_standard",
    "Boxcars.Props.net_version_present",
    "Boxcars.Props.header_ok_iff"
   ],
   "note": ""
  },
  {
   "property": "C17",
   "status": "proved",
   "theorems": [
    "Boxcars.Props.text_windows1252",
    "Boxcars.Props.text_utf16",
    "Boxcars.Props.text_empty",
    "Boxcars.Props.text_too_large",
    "Boxcars.Props.text_short",
    "Boxcars.Props.text_no_length"
   ],
   "note": "any slice that can exist in builds without overflow checks, below 2^31 bytes with them (the i32 offset counter)"
  },
  {
   "property": "C18",
   "status": "proved",
   "theorems": [
    "Boxcars.Props.text_round_trip_windows1252",
    "Boxcars.Props.text_round_trip_utf16"
   ],
   "note": "any slice that can exist in builds without overflow checks, below 2^31 bytes with them (the i32 offset counter)"
  },
  {
   "property": "C19",
   "status": "proved",
   "theorems": [
    "Boxcars.Props.str_ok_iff",
    "Boxcars.Props.str_utf8_error",
    "Boxcars.Props.str_utf8_error_iff",
    "Boxcars.Props.str_insufficient"
   ],
   "note": "any slice that can exist in builds without overflow checks, below 2^31 bytes with them (the i32 offset counter); the report of where the bytes stop being UTF-8 is specified exactly"
  },
  {
   "property": "C20",
   "status": "proved",
   "theorems": [
    "Boxcars.Props.list_too_large",
    "Boxcars.Props.array_too_large",
    "Boxcars.Props.list_length",
    "Boxcars.Props.replay_list_lengths"
   ],
   "note": "every slice that can exist (length up to isize::MAX)"
  },
  {
   "property": "C21",
   "status": "proved",
   "theorems": [
    "Boxcars.Props.offsets_are_consumed",
    "Boxcars.Props.offsets_in_range",
    "Boxcars.Props.offsets_are_consumed_mod"
   ],
   "note": "offsets_are_consumed_mod: for every slice that can exist the offset is the number of consumed bytes modulo 2^32, and with overflow checks fewer than 2^31 bytes have been consumed; so for inputs below 2^31 bytes, and for all inputs with overflow checks, it is that number."
  },
  {
   "property": "C22",
   "status": "partial",
   "theorems": [
    "Boxcars.Props.size_zero_bypasses_checksum",
    "Boxcars.Props.sizes_do_not_delimit",
    "Boxcars.Props.decoded_bytes_protected_partial"
   ],
   "note": "false of the code: refuted by sizes_do_not_delimit and, for every content, size_zero_bypasses_checksum; the partial theorem covers files whose sizes delimit the sections"
  },
  {
   "property": "C23",
   "status": "proved",
   "theorems": [
    "Boxcars.Props.header_change_detected",
    "Boxcars.Props.body_change_detected",
    "Boxcars.Props.header_burst_detected",
    "Boxcars.Props.body_burst_detected"
   ],
   "note": "any slice that can exist in builds without overflow checks, below 2^31 bytes with them (the i32 offset counter); no hypothesis on the declared sizes needed"
  },
  {
   "property": "C24",
   "status": "partial",
   "theorems": [
    "Boxcars.Props.depth_unbounded",
    "Boxcars.Props.depth_unbounded_any",
    "Boxcars.Props.no_depth_bound",
    "Boxcars.Props.depth_linear_partial"
   ],
   "note": "false of the code: refuted for every bound for which a file of that depth can exist (46 bytes per level); what holds is a bound linear in the file size"
  },
  {
   "property": "C25",
   "status": "proved",
   "theorems": [
    "Boxcars.Props.bit_width_exact",
    "Boxcars.Props.bounded_read_exact",
    "Boxcars.Props.bounded_read_range",
    "Boxcars.Props.bounded_bits",
    "Boxcars.Props.bounded_read_succeeds",
    "Boxcars.Props.bounded_unique",
    "Boxcars.Props.bounded_peek_agrees"
   ],
   "note": "For every bound, reader and environment; the peeking reader agrees with the checked one."
  },
  {
   "property": "C26",
   "status": "proved",
   "theorems": [
    "Boxcars.Props.vector_exact",
    "Boxcars.Props.vector_range",
    "Boxcars.Props.vector_round_trip",
    "Boxcars.Props.vector_fails_iff",
    "Boxcars.Props.vector_succeeds"
   ],
   "note": "For every valid reader, so at every alignment and distance to the end of data."
  },
  {
   "property": "C27",
   "status": "proved",
   "theorems": [
    "Boxcars.Props.rotation_exact",
    "Boxcars.Props.rotation_bits",
    "Boxcars.Props.rotation_paths_agree"
   ],
   "note": "Both paths are covered because environment and buffered amount are arbitrary."
  },
  {
   "property": "C28",
   "status": "partial",
   "theorems": [
    "Boxcars.Props.attr_round_trip",
    "Boxcars.Props.attr_exact",
    "Boxcars.Props.attr_exact_partial",
    "Boxcars.Props.attr_exact_far",
    "Boxcars.Props.attr_exact_fails",
    "Boxcars.Props.attr_deterministic",
    "Boxcars.Props.attr_unambiguous",
    "Boxcars.Props.attr_not_implemented",
    "Boxcars.Props.network_decoder"
   ],
   "note": "Round trip holds for all 44 types. The converse holds for all but RigidBody; it is refuted for a rigid body whose velocities are cut off by the end of data (attr_exact_fails), and attr_exact_partial / attr_exact_far say exactly what holds there."
  },
  {
   "property": "C29",
   "status": "proved",
   "theorems": [
    "Boxcars.Props.update_type"
   ],
   "note": "Same input bounds as C01."
  },
  {
   "property": "C30",
   "status": "proved",
   "theorems": [
    "Boxcars.Props.updates_announced",
    "Boxcars.Props.update_after_new"
   ],
   "note": "Same input bounds as C01."
  },
  {
   "property": "C31",
   "status": "partial",
   "theorems": [
    "Boxcars.Props.no_stale_update_partial",
    "Boxcars.Props.stale_update_error_partial",
    "Boxcars.Props.unannounced_update_error",
    "Boxcars.Props.stale_update"
   ],
   "note": "False of the code for ids below 200, which delete leaves in place: stale_update is a witness file. Proved for ids from 200 on, and for ids never announced."
  },
  {
   "property": "C32",
   "status": "proved",
   "theorems": [
    "Boxcars.Props.new_actor"
   ],
   "note": "Same input bounds as C01."
  },
  {
   "property": "C33",
   "status": "proved",
   "theorems": [
    "Boxcars.Props.actor_ids"
   ],
   "note": "Same input bounds as C01."
  },
  {
   "property": "C34",
   "status": "proved",
   "theorems": [
    "Boxcars.Props.frame_count",
    "Boxcars.Props.frame_bits",
    "Boxcars.Props.too_many_frames"
   ],
   "note": "Same input bounds as C01. TooManyFrames presupposes that the tables in the body are in range (an earlier check)."
  },
  {
   "property": "C35",
   "status": "partial",
   "theorems": [
    "Boxcars.Props.frame_times_partial",
    "Boxcars.Props.timeOk_finite",
    "Boxcars.Props.timeOk_nonfinite",
    "Boxcars.Props.threshold",
    "Boxcars.Props.bad_time",
    "Boxcars.Props.bad_delta",
    "Boxcars.Props.nan_frame"
   ],
   "note": "That times are numbers is false: nan_frame is a file with a NaN time difference that parses. Everything else is proved."
  },
  {
   "property": "C36",
   "status": "proved",
   "theorems": [
    "Boxcars.Props.stream_round_trip",
    "Boxcars.Props.replay_round_trip",
    "Boxcars.Props.stream_written"
   ],
   "note": "For every class table and version: any consistent sequence of frames, written record by record (each attribute value with any of its representations), is read back exactly, whatever follows the end marker or the announced number of frames. replay_round_trip is the same for whole files. An actor deleted and not announced again must not be updated (the code would accept that for ids below 200, see C31)."
  },
  {
   "property": "C37",
   "status": "partial",
   "theorems": [
    "Boxcars.Props.inheritance_partial",
    "Boxcars.Props.no_attributes",
    "Boxcars.Props.table_exists",
    "Boxcars.Props.table_error",
    "Boxcars.Props.table_deterministic",
    "Boxcars.Props.root_has_no_attributes",
    "Boxcars.Props.duplicate_has_no_attributes"
   ],
   "note": "The computed table is the declarative one (nearest declaration wins, last in file order wins within a class) for every first occurrence of an object name with a parent class, independent of memoisation and environment. The unrestricted statement is false of the code: a repeated name has no attributes at its later indices and classes without a parent contribute none; both refuted with concrete witnesses."
  },
  {
   "property": "C38",
   "status": "partial",
   "theorems": [
    "Boxcars.Props.spawn_inheritance_partial",
    "Boxcars.Props.spawn_repeated",
    "Boxcars.Props.spawn_declared_parent",
    "Boxcars.Props.duplicate_spawn"
   ],
   "note": "The spawn table equals nearest-listed-ancestor spawn behaviour at the first index of every name. Later indices of a repeated name get None (proved, with witness), so the unrestricted statement is false."
  },
  {
   "property": "C39",
   "status": "partial",
   "theorems": [
    "Boxcars.Props.lineage_bounded",
    "Boxcars.Props.walk_eq",
    "Boxcars.Props.by_name_first",
    "Boxcars.Props.normalize_instance_partial",
    "Boxcars.Props.normalize_other",
    "Boxcars.Props.instances_same_parent",
    "Boxcars.Props.other_instances_differ",
    "Boxcars.Props.strange_prefix"
   ],
   "note": "Every name reaches a root in at most 10 steps; names resolve to first index; names that differ in stadium prefix and instance suffix have the same parent for the listed instance kinds and prefixes the code recognises. For other kinds/prefixes the statement is false of the code (witnesses)."
  },
  {
   "property": "C40",
   "status": "partial",
   "theorems": [
    "Boxcars.Props.entry_limit",
    "Boxcars.Props.width_suffices_partial",
    "Boxcars.Props.read_id_range",
    "Boxcars.Props.largest_id_unreachable"
   ],
   "note": "Every declared non-negative id below 2^31-1 is encodable in the width used and decoded ids never exceed the largest declared one (2 if none). i32::MAX as declared id is never decodable (refuted)."
  },
  {
   "property": "C41",
   "status": "proved",
   "theorems": [
    "Boxcars.Props.table_lookup",
    "Boxcars.Props.usize_key_faithful"
   ],
   "note": "A lookup in the actor table finds exactly the last value inserted for that id and not removed since, where removal has no effect for ids below 200 (the small-id array keeps its entry). The usize-keyed transcription agrees with the model on both pointer widths."
  },
  {
   "property": "C42",
   "status": "partial",
   "theorems": [
    "Boxcars.Props.gate",
    "Boxcars.Props.gate_monotone",
    "Boxcars.Props.decode_same",
    "Boxcars.Props.parse_same",
    "Boxcars.Props.net_gate_monotone_partial",
    "Boxcars.Props.newer_reverts"
   ],
   "note": "Network parsing depends on the version triple only through the listed gates (parse_same). The five triple gates are lexicographic and monotone. The claim that every gate is lexicographic is false of the code: vectors, quaternions, PS4 ids and PsyNet ids compare the net version alone, and newer_reverts gives a newer triple that reverts to an older layout."
  },
  {
   "property": "C43",
   "status": "proved",
   "theorems": [
    "Boxcars.Props.lookup_first",
    "Boxcars.Props.lookup_absent"
   ],
   "note": ""
  },
  {
   "property": "C44",
   "status": "proved",
   "theorems": [
    "Boxcars.Props.u64_round_trip",
    "Boxcars.Props.i64_round_trip",
    "Boxcars.Props.display_decimal",
    "Boxcars.Props.parseU64_iff",
    "Boxcars.Props.parseI64_iff"
   ],
   "note": "64-bit integers are written as decimal strings and read back to the same value, for every value."
  },
  {
   "property": "C45",
   "status": "proved",
   "theorems": [
    "Boxcars.Props.frames_round_trip",
    "Boxcars.Props.json_safe_iff",
    "Boxcars.Props.frames_json",
    "Boxcars.Props.json_fails",
    "Boxcars.Props.json_loses"
   ],
   "note": "Frames survive serialization to the generic serde data model exactly. Through JSON they survive exactly when every float is finite; json_fails and json_loses show what happens otherwise."
  },
  {
   "property": "C46",
   "status": "proved",
   "theorems": [
    "Boxcars.Props.accessors",
    "Boxcars.Props.accessors_exclusive"
   ],
   "note": ""
  },
  {
   "property": "C47",
   "status": "proved",
   "theorems": [
    "Boxcars.Props.fixed_nearest",
    "Boxcars.Props.fixed_recover",
    "Boxcars.Props.fixed_injective",
    "Boxcars.Props.vector3f_decoded"
   ],
   "note": "Nearest among all finite binary32 numbers with ties to even, for every integer below 2^24; recovery and injectivity up to 2^23."
  },
  {
   "property": "C48",
   "status": "partial",
   "theorems": [
    "Boxcars.Props.failure_context",
    "Boxcars.Props.replay_failure_context",
    "Boxcars.Props.network_error_source",
    "Boxcars.Props.completed_prefix_partial",
    "Boxcars.Props.completed_move",
    "Boxcars.Props.prefix_fails"
   ],
   "note": "The context reported is exactly the completed frames, the new actors and updates of the failing frame and the announced actors. The prefix claim is proved if no awake body of the completed frames lacks a velocity, which is the case if at least 67 bits follow them (completed_move); it is false of the code otherwise (prefix_fails): a rigid body cut off by the end of data is decoded without velocities."
  },
  {
   "property": "C49",
   "status": "proved",
   "theorems": [
    "Boxcars.Props.undetected_iff",
    "Boxcars.Props.noticed_iff",
    "Boxcars.Props.header_error_detected",
    "Boxcars.Props.body_error_detected"
   ],
   "note": "parser part: any slice that can exist in builds without overflow checks, below 2^31 bytes with them (the i32 offset counter)"
  },
  {
   "property": "C50",
   "status": "proved",
   "theorems": [
    "Boxcars.Props.two_bits_iff",
    "Boxcars.Props.two_bits_noticed",
    "Boxcars.Props.header_two_bits_detected",
    "Boxcars.Props.body_two_bits_detected",
    "Boxcars.Props.two_bits_limit"
   ],
   "note": "parser part: any slice that can exist in builds without overflow checks, below 2^31 bytes with them (the i32 offset counter)"
  },
  {
   "property": "C51",
   "status": "proved",
   "theorems": [
    "Boxcars.Props.failure_reason",
    "Boxcars.Props.message_reason",
    "Boxcars.Props.reason_unique"
   ],
   "note": "Text of f32, Debug output of attributes, tags, locations and rotations come from the standard library and are arbitrary functions (Display.Fmt)."
  },
  {
   "property": "C52",
   "status": "partial",
   "theorems": [
    "Boxcars.Props.activity_shown",
    "Boxcars.Props.shown_object_partial",
    "Boxcars.Props.shown_object_wrong"
   ],
   "note": "False: an update is shown with the object its actor has when the failure occurs; if the actor was deleted or announced again after the update this is no object or another one. Everything else holds; shown_object_partial excludes later announcements and deletions of that actor."
  },
  {
   "property": "C53",
   "status": "proved",
   "theorems": [
    "Boxcars.Props.attr_error_iff",
    "Boxcars.Props.attr_error_total",
    "Boxcars.Props.attr_error_unique",
    "Boxcars.Props.replay_attr_error"
   ],
   "note": "Spec/AttrFail.lean names the error of every input for every attribute type."
  },
  {
   "property": "C54",
   "status": "partial",
   "theorems": [
    "Boxcars.Props.cut_off_iff_partial",
    "Boxcars.Props.cut_off_error_partial",
    "Boxcars.Props.rigid_body_cut_off_partial",
    "Boxcars.Props.cut_off_text",
    "Boxcars.Props.long_title",
    "Boxcars.Props.cut_error",
    "Boxcars.Props.cut_error_iff",
    "Boxcars.Props.final_error",
    "Boxcars.Props.vague_names",
    "Boxcars.Props.vague_names_cut"
   ],
   "note": "False in both directions: a text cut off within its characters is TooBigString; a product title with a count out of range is NotEnoughDataFor although no continuation is a value. Holds for all types without texts, ids and optional velocities; every cut off value gives NotEnoughDataFor or TooBigString. cut_error_iff says exactly which errors tell that the value is cut off: NotEnoughDataFor except with five names, and TooBigString with a count in range. TooBigString with another count, unknown platforms and attributes that are not implemented are final (final_error). With the five names both occur (vague_names, vague_names_cut)."
  },
  {
   "property": "C55",
   "status": "proved",
   "theorems": [
    "Boxcars.Props.component_correct",
    "Boxcars.Props.component_error",
    "Boxcars.Props.component_recover",
    "Boxcars.Props.fourth_correct",
    "Boxcars.Props.quaternion_decoded",
    "Boxcars.Props.quaternion_determines",
    "Boxcars.Props.rigid_body_rotation",
    "Boxcars.Props.old_component_recover"
   ],
   "note": "Nearest and NearestSqrt are stated over all finite binary32 numbers and the rationals, independent of the arithmetic of the model."
  },
  {
   "property": "C56",
   "status": "partial",
   "theorems": [
    "Boxcars.Props.rotation_unit_partial",
    "Boxcars.Props.rotation_unit_of_room_partial",
    "Boxcars.Props.rotation_unit_fails"
   ],
   "note": "False as stated: fifty-six one bits decode to a rotation with a NaN (rotation_unit_fails). Proved: the sum of squares is within 2^-21 of one unless the omitted component is NaN, which needs the squares of the others to exceed 1 - 2^-22."
  },
  {
   "property": "C57",
   "status": "proved",
   "theorems": [
    "Boxcars.Props.prop_serialized",
    "Boxcars.Props.replay_serialized",
    "Boxcars.Props.replay_floats",
    "Boxcars.Props.replay_json"
   ],
   "note": "Equality of serde values; JSON writes a float that is not finite as null, which is why replay_json needs finite floats."
  },
  {
   "property": "C58",
   "status": "proved",
   "theorems": [
    "Boxcars.Props.file_error_iff",
    "Boxcars.Props.file_error_unique",
    "Boxcars.Props.accepted_xor_error",
    "Boxcars.Props.unknown_kind_iff",
    "Boxcars.Props.insufficient_numbers"
   ],
   "note": "Spec/FileFail.lean names the error of every input."
  },
  {
   "property": "C59",
   "status": "proved",
   "theorems": [
    "Boxcars.Props.prefix_outcome",
    "Boxcars.Props.error_final",
    "Boxcars.Props.cut_off_missing"
   ],
   "note": "The converse fails: missing_forever gives an input every continuation of which is answered with InsufficientData."
  },
  {
   "property": "C60",
   "status": "proved",
   "theorems": [
    "Boxcars.Props.names_run",
    "Boxcars.Props.names_rejected",
    "Boxcars.Props.name_updates",
    "Boxcars.Props.names_players",
    "Boxcars.Props.names_twice"
   ],
   "note": "names_twice shows why the table must not have the name twice."
  },
  {
   "property": "C61",
   "status": "partial",
   "theorems": [
    "Boxcars.Props.counter_run_partial",
    "Boxcars.Props.counter_stuck",
    "Boxcars.Props.counter_independent_false",
    "Boxcars.Props.counter_phantom",
    "Boxcars.Props.label_injective",
    "Boxcars.Props.label_collision",
    "Boxcars.Props.counter_sample"
   ],
   "note": "False of the code: the buffer is not cleared after a rejected file (counter_independent_false, counter_phantom). counter_run_partial proves it if only unreadable files follow a rejected one."
  },
  {
   "property": "C62",
   "status": "partial",
   "theorems": [
    "Boxcars.Props.ping_sound_partial",
    "Boxcars.Props.ping_safe",
    "Boxcars.Props.ping_groups",
    "Boxcars.Props.ping_place",
    "Boxcars.Props.ping_nothing",
    "Boxcars.Props.pings_listed_false",
    "Boxcars.Props.ping_renamed",
    "Boxcars.Props.ping_players",
    "Boxcars.Props.players_orderly"
   ],
   "note": "False of the code (pings_listed_false, ping_nothing): in an orderly replay no ping is printed at all. ping_sound_partial: names and pings printed occur in the replay."
  },
  {
   "property": "C63",
   "status": "proved",
   "theorems": [
    "Boxcars.Props.demo_run",
    "Boxcars.Props.demo_rejected",
    "Boxcars.Props.called_unique",
    "Boxcars.Props.demo_complete",
    "Boxcars.Props.demo_players"
   ],
   "note": ""
  },
  {
   "property": "C64",
   "status": "proved",
   "theorems": [
    "Boxcars.Props.size_linear",
    "Boxcars.Props.size_linear_file",
    "Boxcars.Props.updates_linear",
    "Boxcars.Props.size_parts",
    "Boxcars.Props.players_size"
   ],
   "note": ""
  },
  {
   "property": "C65",
   "status": "partial",
   "theorems": [
    "Boxcars.Props.table_size_partial",
    "Boxcars.Props.table_quadratic",
    "Boxcars.Props.table_linear_false",
    "Boxcars.Props.entry_declared",
    "Boxcars.Props.crowd_table"
   ],
   "note": "False of the code (table_linear_false, table_quadratic): every object of a class gets its own copy of the inherited attributes, n*n entries for a file of 92*n+200 bytes. table_size_partial: at most the number of objects times the number of declarations."
  },
  {
   "property": "C66",
   "status": "proved",
   "theorems": [
    "Boxcars.Props.messages_tell",
    "Boxcars.Props.message_tells",
    "Boxcars.Props.message_tells_files",
    "Boxcars.Props.chain_short",
    "Boxcars.Props.chain_unique",
    "Boxcars.Props.answer_shape",
    "Boxcars.Props.corrupt_hides",
    "Boxcars.Props.told_cut"
   ],
   "note": ""
  },
  {
   "property": "C67",
   "status": "partial",
   "theorems": [
    "Boxcars.Props.class_root_partial",
    "Boxcars.Props.class_kind",
    "Boxcars.Props.spawn_kinds",
    "Boxcars.Props.class_root_false",
    "Boxcars.Props.vote_attributes",
    "Boxcars.Props.vote_spawn",
    "Boxcars.Props.vote_sample"
   ],
   "note": "False of the table for TAGame.Default__VoteActor_TA (class_root_false): TAGame.VoteActor_TA has no entry, so its actors lack all inherited attributes (vote_attributes, vote_sample). Proved for all other classes."
  },
  {
   "property": "C68",
   "status": "proved",
   "theorems": [
    "Boxcars.Props.replay_schema",
    "Boxcars.Props.prop_schema",
    "Boxcars.Props.frames_schema",
    "Boxcars.Props.schema_read",
    "Boxcars.Props.replay_fields",
    "Boxcars.Props.frame_fields",
    "Boxcars.Props.updatedAttribute_fields",
    "Boxcars.Props.newActor_fields",
    "Boxcars.Props.attribute_variants1",
    "Boxcars.Props.attribute_variants2",
    "Boxcars.Props.attribute_variants3",
    "Boxcars.Props.attribute_variants4",
    "Boxcars.Props.remoteId_variants",
    "Boxcars.Props.productValue_variants",
    "Boxcars.Props.classIndex_fields",
    "Boxcars.Props.classNetCache_fields",
    "Boxcars.Props.cacheProp_fields",
    "Boxcars.Props.keyFrame_fields",
    "Boxcars.Props.debugInfo_fields",
    "Boxcars.Props.tickMark_fields"
   ],
   "note": "The schemas are read off the type definitions by tools/gen_schema.py. The other structs have a theorem of the same form in Props/Schema.lean."
  },
  {
   "property": "C69",
   "status": "partial",
   "theorems": [
    "Boxcars.Props.reserve_partial",
    "Boxcars.Props.reserve_faithful",
    "Boxcars.Props.reserve_body",
    "Boxcars.Props.reserve_frames",
    "Boxcars.Props.reserve_unbounded",
    "Boxcars.Props.no_reserve_bound",
    "Boxcars.Props.no_reserve_bound_any"
   ],
   "note": "False of the code: nested array properties each reserve up to 25000 slots before reading an element (reserve_unbounded: 34 n + 20 bytes reserve 25000 n slots; no_reserve_bound). Proved instead: at most 50000 slots, or 25000 for every 34 bytes of input; the body needs at most 50000 and the frames at most one per byte of network data. Counted by an instrumented copy shown to compute what the model computes (reserve_faithful)."
  },
  {
   "property": "C70",
   "status": "proved",
   "theorems": [
    "Boxcars.Props.network_depends",
    "Boxcars.Props.network_depends_version",
    "Boxcars.Props.frames_depend",
    "Boxcars.Props.declaration_order",
    "Boxcars.Props.class_order",
    "Boxcars.Props.frames_matter",
    "Boxcars.Props.channels_matter",
    "Boxcars.Props.version_matters",
    "Boxcars.Props.match_matters",
    "Boxcars.Props.build_matters",
    "Boxcars.Props.objects_matter",
    "Boxcars.Props.declarations_matter",
    "Boxcars.Props.data_matters"
   ],
   "note": "network_depends gives equal outcomes, errors included; declaration_order is about frames only since the error names the first declaration that cannot be read"
  },
  {
   "property": "C71",
   "status": "partial",
   "theorems": [
    "Boxcars.Props.equal_iff",
    "Boxcars.Props.error_equal_iff",
    "Boxcars.Props.replay_parts",
    "Boxcars.Props.sameFloat_value",
    "Boxcars.Props.self_equal_iff",
    "Boxcars.Props.error_self_equal_iff",
    "Boxcars.Props.equal_symm",
    "Boxcars.Props.equal_trans",
    "Boxcars.Props.equal_same",
    "Boxcars.Props.reparse_partial",
    "Boxcars.Props.reparse_never",
    "Boxcars.Props.equal_not_same",
    "Boxcars.Props.reparse_not_equal",
    "Boxcars.Props.reparse_error_not_equal"
   ],
   "note": "false of the code: NaN. Reflexivity holds if and only if there is no NaN (self_equal_iff, reparse_partial); reparse_not_equal and reparse_error_not_equal are witnesses"
  },
  {
   "property": "C72",
   "status": "partial",
   "theorems": [
    "Boxcars.Props.json_text",
    "Boxcars.Props.json_unambiguous",
    "Boxcars.Props.json_same_iff",
    "Boxcars.Props.json_same_partial",
    "Boxcars.Props.json_members",
    "Boxcars.Props.json_program",
    "Boxcars.Props.json_program_text",
    "Boxcars.Props.json_not_injective",
    "Boxcars.Props.json_repeated",
    "Boxcars.Props.json_frames"
   ],
   "note": "The texts are derivable from the grammar of RFC 8259 and the grammar is unambiguous, so that two replays are written alike exactly if they are serialized alike apart from floats that are not finite (json_same_iff). False as stated: NaN and the infinities are written as null, and there are two files with the same checksums of which the program prints the same although their floats differ (json_not_injective). Names within an object may repeat (json_repeated). The text of floats is an assumption, FloatText, which follows if the digits are the shortest ones (float_text, C92). Frames without such floats are determined by their text (json_frames)."
  },
  {
   "property": "C73",
   "status": "proved",
   "theorems": [
    "Boxcars.Props.fewer_frames",
    "Boxcars.Props.more_frames",
    "Boxcars.Props.frames_announced",
    "Boxcars.Props.file_fewer"
   ],
   "note": "The number of frames in the header only says how many of the frames of the network data are wanted: the data hold a list of frames followed by an end or an error, and each announced number gives a prefix of it or that error."
  },
  {
   "property": "C74",
   "status": "proved",
   "theorems": [
    "Boxcars.Props.crc_append",
    "Boxcars.Props.crc_patch",
    "Boxcars.Props.body_forged",
    "Boxcars.Props.forged_accepted"
   ],
   "note": "Four consecutive bytes of a message can be chosen in exactly one way to give it a prescribed checksum, so a file with a given header, sizes and checksums exists for every body that is four bytes shorter than its size."
  },
  {
   "property": "C75",
   "status": "proved",
   "theorems": [
    "Boxcars.Props.attribute_owner",
    "Boxcars.Props.attribute_type",
    "Boxcars.Props.attribute_once",
    "Boxcars.Props.attribute_types",
    "Boxcars.Props.update_same_type"
   ],
   "note": "Evaluation of the table in the kernel, carried to updates of parsed replays by C29."
  },
  {
   "property": "C76",
   "status": "proved",
   "theorems": [
    "Boxcars.Props.network_unread",
    "Boxcars.Props.network_ignored",
    "Boxcars.Props.verified",
    "Boxcars.Props.network_unread_checked",
    "Boxcars.Props.network_replaced"
   ],
   "note": "Both runs are followed step by step up to the network data; what is left to read afterwards is the same. Files below 2 GiB if overflow checks are on (for network_ignored and network_replaced the bounds of C01)."
  },
  {
   "property": "C77",
   "status": "partial",
   "theorems": [
    "Boxcars.Props.keyframes_free_partial",
    "Boxcars.Props.keyframes_match_false",
    "Boxcars.Props.keyframe_times_false"
   ],
   "note": "False of the code: key frames and tick marks are copied from the file and never compared with the frames (witness: a file with both checksums right). Proved: any lists of them go with any frames and are returned unchanged."
  },
  {
   "property": "C78",
   "status": "partial",
   "theorems": [
    "Boxcars.Props.parent_id_partial",
    "Boxcars.Props.ancestry_inherited",
    "Boxcars.Props.parent_ids_unused",
    "Boxcars.Props.parent_id_false",
    "Boxcars.Props.documented_example"
   ],
   "note": "False of the code: parent ids and cache ids are not used, inheritance goes by class names (witness: two entries with exchanged parents). Proved where the net cache agrees with the class table. Few replays do: in 134 of the 137 sample replays some parent id refers to no entry, or to several. The example of the documentation holds, with the numbers of bits."
  },
  {
   "property": "C79",
   "status": "partial",
   "theorems": [
    "Boxcars.Props.references_partial",
    "Boxcars.Props.references_free",
    "Boxcars.Props.references_false",
    "Boxcars.Props.references_fail"
   ],
   "note": "False of the code for class indices, entries of the net cache and name ids, which are not checked (witness: a file with both checksums right). Proved for the object ids of properties, new actors and updates."
  },
  {
   "property": "C80",
   "status": "proved",
   "theorems": [
    "Boxcars.Props.one_way",
    "Boxcars.Props.one_way_accepts",
    "Boxcars.Props.one_way_updates",
    "Boxcars.Props.two_ways",
    "Boxcars.Props.one_way_iff",
    "Boxcars.Props.spare_bit"
   ],
   "note": "Stated on the wire format, which is exactly what the decoder accepts (C28). For each of the 21 other types there is a value with two representations."
  },
  {
   "property": "C81",
   "status": "proved",
   "theorems": [
    "Boxcars.Props.write_back",
    "Boxcars.Props.write_back_small",
    "Boxcars.Props.write_fixed",
    "Boxcars.Props.written_alike",
    "Boxcars.Props.sloppy_rewritten"
   ],
   "note": "every slice that can exist; the written file below 2^31 bytes, which it always is for files below 1.6 GiB; the writer is Spec/Encode.lean, the network data are copied"
  },
  {
   "property": "C82",
   "status": "partial",
   "theorems": [
    "Boxcars.Props.alive_partial",
    "Boxcars.Props.update_object_partial",
    "Boxcars.Props.alive_false",
    "Boxcars.Props.alive_files"
   ],
   "note": "false of the code: the three lists of a frame do not keep the order of its records. Proved for frames that do not announce and delete the same actor, and for updates whose actor has one object in the frame and before it; the negation is two files with the same frames of which one has the actor at the end and the other has not"
  },
  {
   "property": "C83",
   "status": "partial",
   "theorems": [
    "Boxcars.Props.times_partial",
    "Boxcars.Props.times_free",
    "Boxcars.Props.times_false"
   ],
   "note": "false of the code: times and deltas are each checked on their own. Every sequence of accepted times is that of an accepted replay"
  },
  {
   "property": "C84",
   "status": "partial",
   "theorems": [
    "Boxcars.Props.json_linear",
    "Boxcars.Props.json_linear_file",
    "Boxcars.Props.json_printed_partial",
    "Boxcars.Props.json_printed_square",
    "Boxcars.Props.json_printed_not_linear"
   ],
   "note": "Without line breaks the text takes at most 7680 bytes for each byte of the file and 700; texts of floats of at most 16 bytes are assumed. As examples/json.rs prints it, with line breaks, the property is false: header structs inside each other make the text grow with the square of the file. What holds is the same bound for each level of nesting."
  },
  {
   "property": "C85",
   "status": "proved",
   "theorems": [
    "Boxcars.Props.message_linear",
    "Boxcars.Props.frame_message",
    "Boxcars.Props.message_long",
    "Boxcars.Props.sampleFmt_brief",
    "Boxcars.Props.demoStray_message"
   ],
   "note": "bound (27 + 8K)(length + 41), where K bounds the text the standard library makes of floats, tags, locations and rotations, and of attribute values per entry (BriefText); message_long: for files of every size from 38 bytes to 2 GiB there is one with a message longer than the file"
  },
  {
   "property": "C86",
   "status": "proved",
   "theorems": [
    "Boxcars.Props.binary_frames",
    "Boxcars.Props.binary_replay",
    "Boxcars.Props.binary_cut",
    "Boxcars.Props.binary_long",
    "Boxcars.Props.binary_injective",
    "Boxcars.Props.frames_binOk",
    "Boxcars.Props.demo_binary"
   ],
   "note": "The format is Spec/Binary.lean, written and read by the shapes of C68. Bound: fewer than 2^50 entries, which every replay has. demo_binary has a time that is not a number, which JSON loses (C45)."
  },
  {
   "property": "C87",
   "status": "partial",
   "theorems": [
    "Boxcars.Props.hashes_partial",
    "Boxcars.Props.id_hashes",
    "Boxcars.Props.key_hashes",
    "Boxcars.Props.ids_forced",
    "Boxcars.Props.keys_forced",
    "Boxcars.Props.names_collide",
    "Boxcars.Props.names_quadratic",
    "Boxcars.Props.names_linear_false"
   ],
   "note": "True of numeric keys: id_hashes, key_hashes. False of names: names_collide has two names with one hash, names_quadratic a file for every number of objects up to 25000 whose names all have one hash. The comparisons are bounded by 312487500 for every file."
  },
  {
   "property": "C88",
   "status": "proved",
   "theorems": [
    "Boxcars.Props.damage_spares",
    "Boxcars.Props.file_damage",
    "Boxcars.Props.whole_damaged",
    "Boxcars.Props.whole_damaged_iff",
    "Boxcars.Props.whole_move",
    "Boxcars.Props.whole_resized",
    "Boxcars.Props.resized_spares",
    "Boxcars.Props.whole_outcome",
    "Boxcars.Props.decoded_whole",
    "Boxcars.Props.whole_prefix",
    "Boxcars.Props.damage_whole",
    "Boxcars.Props.damage_any",
    "Boxcars.Props.resized_any",
    "Boxcars.Props.damage_demo"
   ],
   "note": "Positions are bits (Whole, Damaged in Spec/Damage.lean). If the length changes, the same is proved of frames without a body that is cut (resized_spares), in particular of all that end 67 bits before the end of the data (whole_move): rigid bodies at the end of data are decoded differently if more data follows (prefix_fails, C48). file_damage is for whole files with checksums not verified."
  },
  {
   "property": "C89",
   "status": "proved",
   "theorems": [
    "Boxcars.Props.skip_work",
    "Boxcars.Props.verify_work"
   ],
   "note": "Steps as counted in Spec/Work.lean (trusted: taking a slice is one step). skip_work: with neverParseNetworkData and without alwaysCheckCrc an accepted file costs at most 3 steps per byte outside the network data, plus 4. verify_work: with alwaysCheckCrc at least one step per byte of both sections."
  },
  {
   "property": "C90",
   "status": "partial",
   "theorems": [
    "Boxcars.Props.told_iff_partial",
    "Boxcars.Props.told_known",
    "Boxcars.Props.told_reported",
    "Boxcars.Props.unimplemented_unreported"
   ],
   "note": "False of the code: AttributeError::Unimplemented is replaced by FrameError::MissingAttribute before it is reported (unimplemented_unreported), and NetworkError::NotEnoughDataFor, ObjectIdOutOfRange, MissingParentClass and ParentHasNoAttributes are constructed nowhere (they are not in the model, by inspection). told_iff_partial: every other variant, and each of the 24 names of parts, 8 of frames and 56 of attribute values, is reported for some file, and no other name for any."
  },
  {
   "property": "C91",
   "status": "proved",
   "theorems": [
    "Boxcars.Props.values_recorded",
    "Boxcars.Props.type_inhabited",
    "Boxcars.Props.types_recorded"
   ],
   "note": "For every version, every listed attribute and every sequence of values of its type that has an encoding, some file is read to exactly these values, in order, below the listed name. Every type but NotImplemented has such values. The hypotheses bound the size of the file and demand the 64-bit target."
  },
  {
   "property": "C92",
   "status": "proved",
   "theorems": [
    "Boxcars.Props.float_read_back",
    "Boxcars.Props.float_text",
    "Boxcars.Props.float_length",
    "Boxcars.Props.shortest_digits",
    "Boxcars.Props.ryu_exists",
    "Boxcars.Props.json_frames_ryu",
    "Boxcars.Props.json_linear_ryu",
    "Boxcars.Props.tenth_shortest"
   ],
   "note": "Assumes of the float printer (a dependency, not in the repository) that it writes a shortest decimal number that is read as the float, in the layout of ryu. That each text is a JSON number and no integer, is read back as the same float, and takes at most 16 bytes is proved for all finite floats; such a printer exists."
  },
  {
   "property": "C93",
   "status": "proved",
   "theorems": [
    "Boxcars.Props.value_ranges",
    "Boxcars.Props.value_occurs",
    "Boxcars.Props.value_iff_enc",
    "Boxcars.Props.sleeping_still",
    "Boxcars.Props.loadout_version_fields",
    "Boxcars.Props.reservation_name",
    "Boxcars.Props.cut_last",
    "Boxcars.Props.cut_slow",
    "Boxcars.Props.awake_moves",
    "Boxcars.Props.cut_body_occurs",
    "Boxcars.Props.cut_body_iff",
    "Boxcars.Props.cut_occurs",
    "Boxcars.Props.cut_then_frame"
   ],
   "note": "Every update of an accepted replay carries a value of the described form for its type and version, or an awake rigid body cut by the end of the data, after which at most one frame follows, without records; and every value of the described form is read from some file (64-bit target, tables below 2^30 bytes). cut_body_iff: exactly the described cut bodies occur. cut_occurs, cut_then_frame: instances."
  },
  {
   "property": "C94",
   "status": "proved",
   "theorems": [
    "Boxcars.Props.frames_possible",
    "Boxcars.Props.possible_iff",
    "Boxcars.Props.possible_read",
    "Boxcars.Props.possible_file",
    "Boxcars.Props.once_possible",
    "Boxcars.Props.nothing_announced"
   ],
   "note": "Frames of accepted replays without a body cut by the end of the data are possible, a description by times, order of records, announced actors, class tables and value ranges that does not mention bits; possible frames are read from some network data and from some file with the given header and tables, for every announced number that is large enough, if an explicit bound on the bits of the records leaves them below 2 GiB. The excepted bodies are those of C93 (cut_last)."
  },
  {
   "property": "C95",
   "status": "proved",
   "theorems": [
    "Boxcars.Props.attr_text",
    "Boxcars.Props.tag_text",
    "Boxcars.Props.location_text",
    "Boxcars.Props.rotation_text",
    "Boxcars.Props.texts_plain",
    "Boxcars.Props.text_one_line",
    "Boxcars.Props.message_linear_std",
    "Boxcars.Props.message_record",
    "Boxcars.Props.std_exists",
    "Boxcars.Props.string_text",
    "Boxcars.Props.pickup_text",
    "Boxcars.Props.location_example",
    "Boxcars.Props.nan_text"
   ],
   "note": "The layout of derived Debug output and the escapes are those documented by the standard library; floats are assumed to be written as shortest decimal numbers that are read as the float (StdText); such a printer exists (std_exists). Which characters are printable is a parameter."
  },
  {
   "property": "C96",
   "status": "partial",
   "theorems": [
    "Boxcars.Props.message_lines_partial",
    "Boxcars.Props.raw_names",
    "Boxcars.Props.message_forged",
    "Boxcars.Props.message_forged_example",
    "Boxcars.Props.message_lines_unbounded",
    "Boxcars.Props.one_line_example"
   ],
   "note": "False of the code: the unknown kind of a property is part of the message as it is in the file, so any text that is not a kind is the end of some message (message_forged, with an instance that adds a line; message_lines_unbounded: any number of lines). message_lines_partial: if the repeated names have no line breaks, there are at most 20 line breaks, and all other characters are visible ASCII, characters of the names, or characters the standard library does not escape; raw_names says where the names are in the file."
  },
  {
   "property": "C97",
   "status": "partial",
   "theorems": [
    "Boxcars.Props.cut_network_partial",
    "Boxcars.Props.network_final",
    "Boxcars.Props.network_continued",
    "Boxcars.Props.reported_whole",
    "Boxcars.Props.cut_misread"
   ],
   "note": "False of the code without a condition: data cut within the linear velocity of a rigid body can be misread as a record of an unknown actor (cut_misread). Proved under the condition that no awake body in the outcome lacks a velocity: the outcome of cut data is the start of that of the whole data, and errors that do not ask for more data stay whatever follows."
  },
  {
   "property": "C98",
   "status": "partial",
   "theorems": [
    "Boxcars.Props.newActor_exact",
    "Boxcars.Props.doc_new_partial",
    "Boxcars.Props.doc_rotation_never",
    "Boxcars.Props.doc_new_never",
    "Boxcars.Props.doc_names_old",
    "Boxcars.Props.doc_vector_old",
    "Boxcars.Props.doc_channels_ignored"
   ],
   "note": "False of the code, in the rotation, in older versions and in the name of the property that gives the width of actor ids. doc_new_partial: where announcements have names (868.20 on, or 868.14 on outside LAN matches) and net version 7 on, the announcements of actors without a rotation are exactly the documented ones. Missing from the full statement: actors with a rotation, where doc_new_never shows that the documented bits are never read to their end; announcements without names (doc_names_old); older net versions (doc_vector_old). doc_channels_ignored: the header property NumChannels named in the documentation has no influence (the code uses MaxChannels). The documented net cache example is covered by C78."
  },
  {
   "property": "C99",
   "status": "proved",
   "theorems": [
    "Boxcars.Props.bytes_card",
    "Boxcars.Props.crc_count",
    "Boxcars.Props.crc_short",
    "Boxcars.Props.crc_collisions",
    "Boxcars.Props.mismatch_cause",
    "Boxcars.Props.header_unnoticed",
    "Boxcars.Props.body_unnoticed"
   ],
   "note": "Counted with Nat.card. For the header it is at most that many, since another header can end elsewhere and then the body is looked for, and its checksum compared, elsewhere. File parts: every slice that can exist in builds without overflow checks, below 2^31 bytes with them. body_unnoticed: the declared header does not reach into the body."
  }
 ]
}