# Formal model of the boxcars replay parser

Source: `/repo` (nickbabcock/boxcars, pinned commit). The model is hand written
Lean 4 under `lean/Verif/`, function by function, each definition citing the
Rust file and lines it models. No Rust code is executed or extracted.

## Trusted base

* Lean 4.33.0's kernel. Theorems depend only on `propext`, `Classical.choice`
  and `Quot.sound` (see "Axioms" at the end). No axioms are added; no `sorry`,
  no `native_decide`, no `bv_decide`, no `implemented_by`, no `unsafe`.
* That the model says what the Rust says. Every definition carries a citation
  and lists its simplifications.
* The contracts of code that is not in `/repo`:
  * `bitter::LittleEndianReader` (0.9): a bit list, least significant bit of
    each byte first, plus a lookahead count. How much a refill buffers and how
    much stays buffered after a read are *not* fixed: they are fields of the
    environment `Env`, constrained only by the documented contract, and every
    theorem quantifies over them. Peeking or consuming beyond the lookahead is
    a `Fault`.
  * `encoding_rs` (Windows-1252, UTF-16LE with replacement) and
    `str::from_utf8`, `String::push`, `i64/u64` `Display`/`FromStr`.
  * `HashMap`/`fnv`/`phf`: finite maps. Iteration order is a field of `Env`.
  * IEEE-754 binary32 arithmetic, round to nearest even.
  * Formatting of floats and `Debug` output: arbitrary functions (`Display.Fmt`),
    so nothing depends on them, except in C95 and C96: there the layout of derived `Debug` output and the
    escapes of `str` (`Model/Debug.lean`), and floats as shortest decimal numbers (`StdText`, like
    `RyuText` below). Which characters Unicode considers printable is left open (`Std.plain`).
    The `Display` text of `Utf8Error`.
  * `serde` derive output as documented by serde for the JSON data model, and that the derived
    `Deserialize` asks for the kinds that `Serialize` writes (C86); the layout
    and the escapes of `serde_json`. Finite floats are written as a shortest decimal number that
    is read as the float, in the layout of `ryu` (`RyuText`); what C72 and C84 assume of the texts
    (`FloatText`, at most 16 bytes) follows by C92.
    For C85 the text of floats, tags, locations and rotations, and of attribute values per entry,
    is assumed to have a bounded length (`BriefText`); this follows from the layout by C95.

## What a result is

`Res` has three outcomes: `ok`, `err` (a Rust `Err`), and `fault`. A `fault` is
any event that would be a panic, abort, undefined or non-terminating behaviour:
arithmetic overflow with overflow checks on, slice index out of range,
`unreachable!`, failed `debug_assert!`, lookahead misuse, capacity overflow, or
running out of fuel in a fuel-indexed loop. "Never panics and always
terminates" is the theorem that no `fault` is reachable.

`Env` collects everything the result must not depend on: pointer width (32 or
64), overflow checks on or off, the bit reader's buffering policy, and hash map
iteration order.

Integers are `BitVec`s of the Rust width; `f32` is its 32-bit pattern (so
equality is bit equality, NaN included); strings are lists of Unicode scalar
values; a Rust `String::len()` is the UTF-8 length of that list.

## Modules

| Model file | Rust |
|---|---|
| `Model/Prim.lean` | outcome types, `Env`, integer helpers |
| `Model/Types.lean` | the data types of `src/models.rs`, `src/network/models.rs`, `src/network/attributes.rs`, `src/errors.rs` |
| `Model/Crc.lean` | `src/crc.rs` |
| `Model/Text.lean` | `src/parsing_utils.rs` (and the encodings it calls) |
| `Model/Core.lean` | `src/core_parser.rs` |
| `Model/Header.lean` | `src/header.rs`, `src/models.rs` (HeaderProp) |
| `Model/Body.lean`, `Model/Parser.lean` | `src/parser.rs` |
| `Model/Bits.lean` | `bitter` contract, `src/bits.rs` |
| `Model/Float.lean` | the binary32 operations used |
| `Model/NetModels.lean` | `src/network/models.rs` |
| `Model/Attributes.lean` | `src/network/attributes.rs` |
| `Model/Data.lean` | `src/data.rs` (generated by `tools/gen_data.py`) |
| `Model/ObjectIndex.lean` | `src/network/object_index.rs` |
| `Model/FrameDecoder.lean` | `src/network/frame_decoder.rs` |
| `Model/Network.lean` | `src/network/mod.rs` |
| `Model/Serde.lean` | `src/serde_utils.rs` and the derived `Serialize`/`Deserialize` |
| `Model/Display.lean` | the `Display` implementations of `src/errors.rs` |
| `Model/Debug.lean` | `#[derive(Debug)]` of `src/network/attributes.rs` and `src/network/models.rs`; generated by `tools/gen_debug.py` |
| `Model/DebugFloat.lean` | the layout of floats in that text (standard library) |
| `Model/ErrorSource.lean` | `Error::source` of the error types |
| `Model/Equal.lean` | the derived `PartialEq` of the data and error types |
| `Model/Fnv.lean` | the hash of `FnvHashMap` (crate `fnv`) for the keys of `src/network/object_index.rs`, `src/network/mod.rs` and `src/network/frame_decoder.rs` |
| `Model/Json.lean` | `examples/json.rs`, the text `serde_json` writes |
| `Model/FloatText.lean` | the layout of floats in that text, `ryu`'s `pretty::format32` |
| `Model/Examples.lean` | `examples/names.rs`, `property_counter.rs`, `ping.rs`, `demo.rs` |

`Spec/` holds the independent specifications:

| Spec file | What it says, without the model's functions |
|---|---|
| `Spec/Crc.lean` | the checksum as a bit-at-a-time shift register |
| `Spec/CrcPoly.lean` | the checksum as polynomial division over the two-element field |
| `Spec/Text.lean` | UTF-8 (and its faults), Windows-1252, UTF-16 with replacement |
| `Spec/File.lean`, `Spec/Encode.lean` | the file format, as an encoder |
| `Spec/Unknown.lean` | property kinds the parser does not know |
| `Spec/Bits.lean`, `Spec/Attr.lean`, `Spec/Frames.lean` | wire grammars |
| `Spec/Float.lean` | correctly rounded values over the rationals |
| `Spec/Quat.lean` | what the components of a rotation are, with correct rounding |
| `Spec/Tables.lean` | inheritance and attribute lookup over the class table |
| `Spec/Network.lean`, `Spec/Stream.lean` | when a stream is decoded, and to what |
| `Spec/History.lean` | which actors are alive after a history of events |
| `Spec/AttrFail.lean` | which error each attribute value is answered with |
| `Spec/CutShort.lean` | which of these errors tell that more data is needed |
| `Spec/CutNet.lean` | which errors of the network data ask for more of it (C97) |
| `Spec/Docs.lean` | new actors as the module documentation describes them (C98) |
| `Spec/Extend.lean` | objects and declarations added behind those of a body (C103) |
| `Spec/Rename.lean` | bodies that differ in the names of some objects (C104) |
| `Spec/Build.lean` | build versions as a date and two numbers (C105) |
| `Spec/Unused.lean` | bodies that declare the same for the stream ids in use (C106) |
| `Spec/Reassign.lean` | frames with other actor ids (C107) |
| `Spec/LeaveOut.lean` | frames without some updates and deletions (C108) |
| `Spec/DocProps.lean` | header properties as the module documentation describes them (C102) |
| `Spec/Failure.lean` | what a failing stream reports |
| `Spec/FileFail.lean` | which error a file that is not accepted is answered with |
| `Spec/Message.lean` | what the message of a frame error says |
| `Spec/Depends.lean` | headers and bodies that say the same about the network data; the outcome for a number of announced frames; the bytes up to the network data; the frame of a key frame; the indices of a replay |
| `Spec/Equal.lean` | a replay as its floats and the rest; floats that compare equal |
| `Spec/Json.lean` | the grammar of RFC 8259 and what its texts stand for |
| `Spec/Values.lean` | the values of each attribute type in a version, without their representation |
| `Spec/Possible.lean` | the sequences of frames that are possible for given tables, without their representation; how many bits suffice for them |
| `Spec/Decimal.lean` | the rational number a decimal text stands for, the float it is read as |
| `Spec/Reserve.lean` | how many slots the lists being read have reserved |
| `Spec/Schema.lean` | the shapes of serialized values (generated by `tools/gen_schema.py`) |
| `Spec/HeaderSer.lean` | what a serialized header value keeps |
| `Spec/Examples.lean` | what the example programs are to print |
| `Spec/Size.lean` | how many entries the lists of a replay have |
| `Spec/Binary.lean` | a format without names and kinds, written and read by the shapes |
| `Spec/Collide.lean` | comparisons that a hash table cannot avoid |
| `Spec/Told.lean` | variants of errors and names given by them (C90) |
| `Spec/Damage.lean` | frames that end before a position; bodies that differ in the network data behind it |
| `Spec/Debug.lean` | values with one NaN; what is used of the text of floats; the last record before a failure |
| `Spec/Lines.lean` | names repeated in messages; texts with a bounded number of lines (C96) |
| `Spec/MessageSize.lean` | what is assumed of the length of text made by the standard library |
| `Spec/ErrorChain.lean` | chains of causes, and which errors count as the same |
| `Spec/ParentIds.lean` | inheritance by parent ids, as documented; a net cache that agrees with the class table |
| `Spec/Unique.lean` | the attribute types whose values determine their bits |
| `Spec/Alive.lean` | the actors that exist, by the records of a stream and by the lists of its frames |
| `Spec/Pack.lean` | bits as bytes |
| `Spec/Classes.lean` | kinds of classes; the attributes of a class |
| `Spec/Work.lean` | the step-counting reading of the whole parser (C02) |

`Proofs/` holds lemmas. `Props/` holds the property theorems, each next to a
concrete instance of its hypotheses.

C02 counts steps. `Spec/Work.lean` restates every loop of the parser with a
counter; `work_faithful` shows that forgetting the counter gives the model back,
so the bound is about the modelled run and not about a second program.

## Plan per property

* C01/C02 no panic, termination: closure of "no fault" under the monads, unchecked
  peeks discharged by lookahead arithmetic, fuel shown sufficient because each
  iteration consumes input. Hypotheses (`Small`): with overflow checks, input shorter
  than 2^31 bytes (`panic_overflow`: a file of exactly that size panics); on 32-bit
  targets, shorter than 2^24 (`panic_32bit`). Nothing else is assumed, and theorems about
  successful runs assume only that the slice can exist (`length ≤ isize::MAX`).
* C03 environment independence: two-run relation closed under bind; specific
  proofs for fast/slow paths; permutation invariance for hash iteration.
* C04 CRC: spec is a bit-at-a-time shift register. Linearity over xor; the
  slice-by-16 step equals 16 byte steps by induction. C05: injectivity of the
  register step; 32-bit burst leaves a non-zero residue and zero-extension is
  injective.
* C06-C10 policies: case analysis on the modelled `crc_section` / `parse` and an
  induction over builder calls.
* C11/C12 trailing bytes, truncation: locality (a successful run depends only on
  consumed bytes) closed under bind.
* C13-C16 header/body: encoder spec, parse (encode v ++ rest) = v by structural
  induction on property trees.
* C17-C19 text: spec encoders (CP1252 table, UTF-16, UTF-8) and exact decode.
* C20 list cap, C21 offsets: invariants closed under bind.
* C22, C24, C31, C61, C62, C65, C67 are claims that the code violates: the negation is proved with a
  witness (or witness family), and the strongest true part as `_partial`.
* C23 corruption detection: C05 + C06 + locality.
* C25-C28 bit-level decoding: `Exact decoder grammar` = accepts exactly the
  encodings, returns the value and leaves the rest; closed under sequencing.
* C29-C36, C48 frames: invariants of the frame loop over the event trace.
* C37-C40 tables: memoised traversal equals direct definition; generated tables
  checked in the kernel by `decide` where the statement is about that finite
  table, lifted to all strings by lemmas.
* C41 segmented array: refinement to a function. C42 order: total lexicographic
  order. C43, C46: direct, all inputs. C44/C45: decimal and JSON value codecs.
* C51, C52 messages: the `Display` code is modelled; texts of floats and `Debug`
  output are arbitrary functions. C53, C54: the errors of a decoder are computed
  compositionally (`ESpec`), with "some extension is accepted" for the end of data.
* C58 errors of files: the same for the byte parser (`PFail`), next to `PSpec`.
  C59 is an induction over that grammar of failures.
* C60-C63 example programs: what is printed, from the updates of the replay. C29 gives
  the type of each update, so the `else` branches are shown dead.
* C64 size of the result: each entry of a list is encoded by some bits, counted from the
  encoding relations of C03 and the acceptance relation of the stream.
* C66 messages: literals of different variants differ at some position, numbers end
  where the next literal starts; the failure grammar of C58 gives the shapes of answers.
* C68 format: `Has shape value` is an inductive relation; each serializer is shown to write
  exactly the values of its shape, compositionally.
* C69 reservations: a copy of the parser that carries the largest sum of the sizes of the
  lists under construction; every nested array costs 34 bytes.
* C70 dependence: two headers and bodies that agree in the listed parts give the same outcome
  of `Network.parse`, errors included; `FileSecs` carries this to files. Listing the classes in
  another order keeps the frames (through `network_iff`), though it may change which error is
  reported. One pair of runs for each input shows that none could be left out.
* C71 comparing: `==` compares the rest by equality and the floats pairwise as IEEE-754 says
  (`FEq`, closed under lists, options, pairs and structures). So it is symmetric and transitive,
  and a value equals itself if and only if it has no NaN.
* C72 JSON: the texts written are derivable from the grammar of RFC 8259, and the grammar
  is unambiguous, so that a text gives back the value. Variants and maps look alike in JSON;
  the schema of C68 tells them apart.
* C73 announced frames: the loop for `n` frames is compared with the loop for as many frames as
  there are bytes, step by step: the bound is used only to stop, and in no frame or error.
* C74 forging: by C05 the map from four bytes to the checksum is injective between sets of
  2^32 elements, hence onto.
* C75 attributes: the table is written a second time with the names taken apart and numbered;
  the kernel checks that both agree, and all pairs of entries.
* C76 network data: the model is run on both files up to the network data, where it succeeds
  by the specifications of its parts; from there on the unread bytes and the offset are the
  same. Checksum policies: one induction over the steps of the parser.
* C77 key frames: round trip of a file with other key frames and tick marks, frames by C70.
* C78 parent ids: names without an entry add nothing to what is inherited by names, so the
  nearest entry above decides; induction over the chain of parent ids. C79 references: from
  C32 and the type of updates; the rest has no influence by C70.
* C80 representations: cases over the wire format; for the other types two written values.
* C81 writing back: whatever has a representation satisfies the conditions of the encoder;
  induction over the grammar, with the lengths. Only a zero count gets longer, by one byte.
* C82 actors: a fold over the records against a fold over the lists of the frames; two
  written streams with the same frames. C83 times: streams without records, packed into
  bytes (also used to make C36 say that every sequence of frames can be written).
* C84 length of JSON: shapes give the length of everything but texts, lists and header values;
  those and the frames are counted by C64. Line breaks cost two bytes for each level.
* C85 length of messages: the parts of each message are added up (`Proofs/Literals.lean` has the
  lengths of the fixed parts); names come from the list of objects, lists of names have each name
  once, and the value shown was read from the network data.
* C86 binary format: by induction over the shapes; the lengths that must fit in 64 bits are bounded
  by the length of the JSON text (C84). That a prefix is not read follows because further bytes
  change nothing about what is read.
* C87 hashes: two keys of four bytes with one hash give a small solution of a cubic equation modulo
  2^64 at 2^40 + 435, and there is none but zero; for keys of different sign it is one of 256 such
  equations with a constant, without a solution. That many names have one hash is by counting.
* C88 damage: what each relation of the stream reads depends on the number, not the value of the bits
  that follow (`framesAt_same`); announcing fewer frames (C73) turns this into a statement on outcomes.
  Frames without a body that is cut do not depend on the number of these bits either
  (`framesAt_moved`).
* C89 skipping: the step count of `Spec/Work.lean`; taking the slice of network data is one step.
  `Proofs/WorkSkip.lean` weakens the per-byte bound by the length of that slice (`Skim`) and proves
  a lower bound for verified checksums (`Least`).
* C90 errors that happen: `Spec/Told.lean` lists variants and names. Nothing else is told by C58 and
  C53; each is told about a file of its own: `Props/Probe.lean`
  has files with one class and one attribute of any name, whose network data fails as the value of the
  attribute does (`attr_reported`), and `fileProbes` are edits of one file. `Proofs/AttrNames.lean`
  reads the attribute table entry by entry.
* C91 values that are recorded: a file with one class, one attribute and one frame is written for any
  values (`Props/Values.lean`), and read by C36's round trip; that no type is empty is decided by
  reading zeros, once for each type.
* C92 texts of floats: nine digits tell any float and eight do between 1e-6 and 1e-5
  (`Proofs/FloatDecimal.lean`), by the distance between neighbours; a nearest float is unique but for
  the sign of zero. `Proofs/FloatText.lean` reads the layouts back.
* C93 values that occur: the values with a representation are described type by type
  (`Proofs/ValueOf.lean`) and their representations take less than 135 million bytes
  (`Proofs/AttrLength.lean`), so that C91 gives a file for each. At most one frame follows a rigid
  body cut by the end of the data (`Proofs/CutLast.lean`). Cut bodies are written with two bits left (`Proofs/CutBody.lean`); a sleeping body before them
  makes the bits fill whole bytes.
* C94 frames that occur: possible frames are written record by record, with a bound on the bits
  (`Proofs/AttrCost.lean`, `Proofs/Possible.lean`), and what is read is possible by C93.
* C95 `Debug` text: a tree of names, fields and atoms is printed (`DVal`); the text can be read in
  one way only, because atoms and names have no punctuation and texts are escaped
  (`Proofs/DebugRead.lean`). Per type the tree tells the value (`Proofs/DebugTypes.lean`), and the
  number of its nodes is bounded (`Proofs/DebugSize.lean`).
* C96 forged lines: every `Display` function is taken apart into pieces without line breaks; that the
  names of parts are ASCII is C90 (`told_known`). Unknown kinds and object names are printed raw, so
  any text that is no kind can be put at the end of a message.
* C97 cut network data: an error that does not ask for more data is derived from bits that are read
  (`framesFail_final`, on top of C54 for the attributes), so that the same derivation applies with
  anything behind; the frames before it move along (`framesAt_moved`). Needed: no awake body in the
  outcome lacks a velocity.
* C98 documentation: `Spec/Docs.lean` transcribes lines 104-138 of `src/parser.rs`; compared with the
  exact relation `NewRel` of announcements. A rotation takes 3, 11, 19 or 27 bits, never the 24
  documented, and the vector in front of it is unique (`vecDen_iff`).
* C99 counting: the first n bytes of a message and its checksum determine the last four (C74), so
  taking the first n is a bijection. Sections: replacements without a report are those with the same
  checksum (C23 for one direction, `mismatch_cause` for the other).
* C100 accepted files: a file is determined by its parts and its two checksums, since a header is no
  proper start of another; acceptance depends on the checksums only with `always_check_crc`, where
  they are determined. The checksum of the body comes first, as the declared header may contain it.
* C101 strings: a Windows-1252 text has as many characters as bytes, and only ASCII has in UTF-8; so
  equality of the two readings forces ASCII.
* C102 documented properties: `Spec/DocProps.lean` transcribes lines 34-57 of `src/parser.rs`; lists
  without arrays are compared with `PropList`, the exact format (C14). A documented nested map starts
  with the size of a key where the code expects a count.
* C103 added objects: positions and declarations of listed names stay the same (`position_append`,
  `declarations_added`), so layouts agree on listed objects (`AgreeOn`), and a stream only asks for
  objects it has announced (`framesRel_agree`).
* C104 renamed objects: as C103; a name that is not touched has the same positions in both lists
  (`renamed_position`).
* C105 builds: texts that start with numbers of equally many digits are ordered by these first
  (`decDigits_le`, by induction on the digits); applied three times to the threshold.
* C106 unused declarations: as C103, with layouts that agree on the limit of every class and on the
  ids in use (`UseAgree`); equal largest ids give equal limits (`isLimit_mono`).
* C107 actor ids: the records of the frames (C94) with other ids are possible; what was known of an
  actor is known of the one with the new id (`Carries`).
* C108 left out: by induction on the records; leaving out a deletion only makes more actors known
  (`MoreKnown`).
* C47 fixed point: exact binary32 division; rounding error bounds. C55, C56
  rotations: every operation of the model is correctly rounded, the root included
  (midpoints of neighbours are multiples of the unit of the integer root).

## Where a property is false of the code

A property that the code violates is kept as stated. Its claim is `partial`: one
theorem refutes the statement with a concrete witness, and `…_partial` proves the
strongest true part found.

| Property | What the code does |
|---|---|
| C22 | The header and body parsers are not confined to their declared sizes; they read on into the next section and the cursor is reset afterwards. |
| C24 | `parse_rdict` recurses once per nested array property; nothing bounds the depth but the input length. |
| C28 | A rigid body that is awake still decodes, with `None` velocities, when the data ends inside its velocities. |
| C31 | Deleting an actor id below 200 does not remove it from the segmented array, so an update for a deleted actor is accepted. |
| C35 | The range check compares with `<` and `>`, so a NaN passes. |
| C37, C38 | Duplicate object names: the later index gets no attribute cache and no spawn trajectory. The topmost class contributes no attributes of its own. |
| C39 | `HauntedBallTrapTrigger` instances are listed one by one instead of being normalised, and a stadium prefix that itself contains a dot is not recognised. |
| C40 | Stream id `i32::MAX` can never be decoded; tables whose ids are all negative give a 63 bit property id, which always fails. |
| C42 | Gates that look at the net version alone are not monotone in the lexicographic order of (major, minor, net). |
| C48 | Frames decoded before a failure need not be those of the stream with more bits behind it: a rigid body at the end of the data loses its velocities. |
| C52 | The message shows the last update with the object its actor has at the time of the failure. If the actor was announced again after the update, that is the wrong object. |
| C54 | A text whose characters are cut off is reported as `TooBigString`, not as missing data. A product title with an impossible length is reported as missing data although no further data could help. So are platform numbers and text lengths that can no longer become valid ones. Exactly which errors tell what is proved. |
| C56 | Nothing checks that the three components read leave room for the fourth, which is then NaN. |
| C61 | `property_counter.rs` clears its buffer after an accepted file only. After a rejected one the next file is appended to it, so it is rejected as well, or accepted although it is no replay. |
| C62 | `ping.rs` uses an index into the reversed list on the list itself, so pings go to the wrong player, and `and_modify(..).or_default()` drops the pings of the first entry of each name. In an orderly replay all players are listed without a ping. |
| C65 | Every object of a class gets its own copy of the inherited attributes before any network data is decoded: `n * n` entries for a file of `92 * n + 200` bytes, `n` below 25000. |
| C67 | `PARENT_CLASSES` has no entry for `TAGame.VoteActor_TA`. An actor of `TAGame.Default__VoteActor_TA` has none of the attributes of its class or of `Engine.Actor`, and is spawned without a location. |
| C71 | A NaN is not equal to itself, and the parser accepts NaN in header properties, key frames, frame times and attributes: such a replay is not equal to itself, nor is an error whose context has such a frame. Equality also identifies 0 and -0. |
| C69 | `repeat` reserves room for all announced elements before it reads the first. Array properties nest, so `34 * n + 20` bytes reserve `25000 * n` slots at once: a file of 1 MB asks for more than 17 GB. |
| C72 | JSON has no NaN and no infinity: they are all written as `null`. Two files with the same checksums and different floats are printed alike. A property that occurs twice makes an object with two members of the same name. |
| C77 | Key frames and tick marks are not compared with the frames: a file with both checksums right has a key frame with another time than its frame, one for a frame that does not exist, and a tick mark at frame -1. |
| C78 | Parent ids and cache ids are not used; a class inherits from the class that the built-in table names. Of the 137 sample replays only 3 have parent ids that agree with the table. In the others several entries have the same cache id, or, for `ProjectX.PRI_X` and `TAGame.PRI_TA`, the parent id is no cache id. |
| C79 | Class indices, the objects of net cache entries and name ids are not checked. Among the sample replays, `128ed.replay` has a class index with another name than its object. |
| C82 | A frame keeps the order of its announcements, of its deletions and of its updates, not their order among each other. With the same frames an actor may exist afterwards or not, and an update may be of one object or another. No frame of the sample replays announces and deletes the same actor. |
| C83 | Times and deltas are not compared with those of other frames: any sequence of accepted times is accepted. In the sample replays some deltas are not the difference of the times. |
| C84 | Each line of the text with line breaks begins with two spaces for each level. Structs in the header may be inside each other without limit (C24), so the text grows with the square of the file: 46 kB print 10 MB, unless the stack ends before. Without line breaks the bound holds. |
| C87 | `FnvHashMap` has a fixed hash. For any number n of objects up to 25000 there is a file of 34 n + 100 bytes whose object names all have one hash, so that the index of names takes n (n - 1) / 2 comparisons. Names of 25000 objects in 850 kB take 312 million. |
| C90 | `AttributeError::Unimplemented` is replaced by `FrameError::MissingAttribute` before it leaves the frame decoder (`unimplemented_unreported`); four variants of `NetworkError` are constructed nowhere. |
| C96 | The unknown kind of a property is part of the message as it is: `message_forged` ends the message with any text, e.g. with a line of its own (`message_forged_example`). |
| C97 | `cut_misread`: data cut within a linear velocity; the velocities are taken for absent, the bits left of them are read as the next record, and the error is a missing actor instead of missing data. |
| C98 | `doc_new_never`: the documented bits of an actor with a rotation are never read to their end (each angle has a bit in front of it); `doc_names_old`, `doc_vector_old`: older versions have no names and fewer sizes; `doc_channels_ignored`: the width of actor ids does not come from "NumChannels". |
| C101 | Keys, kinds and class names are read as UTF-8, not by the documented formula: `doc_key_rejected`, `doc_key_differs`, `doc_key_utf16`. |
| C102 | Byte properties always have two strings, `None` as the first skips the property, arrays have a count, 64-bit numbers are unsigned: `doc_store_never`, `doc_none_never`, `doc_array_never`, `doc_qword`, `doc_files`. |
| C103 | An added name from which listed objects descend brings them attributes and an initial location and rotation; the first object is taken for a kind of product that is not listed: `added_ancestor`, `added_product`. |
| C105 | Texts are compared: `221120.9999.406183` counts as recent, `221120.42953.1000000` as old: `early_build`, `late_build`. |

Other findings, recorded as theorems but not contradicting a property:

* `ListTooLarge(usize)` carries a `usize`, so the error value of one input differs
  between 32 and 64 bit targets (`failure_differs`).
* A negative count is cast with `as usize` and reported as too large a list or too
  little data.
* `InsufficientData` need not mean that a file is cut off: after a negative size every
  continuation is answered with it (`missing_forever`).
* The offset counter `col` is an `i32`: inputs of 2 GiB and more overflow it. With overflow
  checks that is a panic (`Overflow.panic_overflow`), without them the offset in an error
  is taken modulo 2^32 (`offsets_are_consumed_mod`), so that one file can have two
  outcomes (`Overflow.builds_differ`).
* On a 32 bit target the capacity request for a list can overflow (`panic_32bit`).
* The fourth quaternion component is NaN when the three read ones have a sum of
  squares above one; JSON then writes `null`, which reads back as nothing (C45).
* A table whose largest id is -1 reads no bits for a property id, and then reports
  a missing attribute.
* An absent `NumFrames` gives an empty frame list; header lookups take the first of
  several equal keys.
* The checks that enough bits are left for an actor id or a property id can reject
  a stream one bit early.
* The context of a frame error leaves out deleted actors.
* Building the class tables copies inherited attributes per object, objects times
  declarations steps. A file of 0.7 MB makes it take more than 600 million steps
  (`tables_blowup`); it stays linear only because lists are capped at 25000.

## Tests (not proofs)

The model was compiled and run, outside this directory, on the 137 replays of
`assets/replays/good`, once with a 64 bit and once with a 32 bit environment. The JSON
text of each replay had the hash recorded in `tests/snapshots`, in all 274 runs. For this
the model's serde tree was printed by a separate printer with shortest decimals; where the
text was below 20 MB (252 runs), `Json.compact` of the model printed the same text. This
checks the transcription and proves nothing.

The assumptions on texts of floats were tried, outside this directory, on all positive
finite binary32 values with a shortest decimal printer: laid out as `ryu` does, none takes
more than 16 bytes with a sign, and read as `serde_json` does by default (a product or a
quotient in binary64, rounded again) each gives the value it came from.

`Props/UnitTests.lean` repeats the crate's unit tests that work on a few bytes as
`example`s. The tests that read a whole file were run with the compiled model: the seven
files of `assets/replays/bad` give the errors, offsets, messages and sources that the tests
of `src/parser.rs` and `tests/samples.rs` expect, and so does the altered `rumble.replay`.

`seeded/LOG.jsonl` records wrong programs: for each, one definition of the model was
edited in a scratch copy and the whole development rebuilt. A line names the
definition, the edit, the claim it should break, the theorems that no longer
checked, and what was tightened when nothing failed.

## Axioms

`#print axioms` on every theorem listed in `MANIFEST.json` reports a subset of
`propext`, `Classical.choice` and `Quot.sound`. There is no `sorry`, no added axiom
and no compiler-evaluated proof. Finite tables are checked with `decide +kernel`,
which is evaluation inside the kernel.

## Not modelled

Stack depth (Lean has no stack limit; C24 states recursion depth instead),
allocation failure, time, `Debug` text of errors and of replays (that of values in messages is
modelled, C95), what Unicode considers printable,
benches. The four targets of `fuzz/` call the parser with a fixed configuration and
discard the result, so C01 covers them. Of the other
examples: the order of a `HashMap`, the two decimals of a time, standard error.
