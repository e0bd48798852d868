# DESIGN

Formal model of `sebosp/s2protocol-rs` in Lean 4 (`/verif/lean`), theorems about it, and what is trusted.

## Trusted base
* **Lean's kernel** (4.33.0). No `native_decide`, no `bv_decide`, no added axioms. Only core Lean is imported (no Mathlib module). Concrete witnesses use `decide +kernel`, i.e. reduction by the kernel.
* **Axioms.** Every theorem depends on a subset of `propext`, `Quot.sound`, `Classical.choice`; `AXIOMS.md` lists the exact set per theorem (`tools/axioms.py` regenerates it from `#print axioms`).
* **The transcription.** The hand-written model follows the Rust function by function, each definition citing file and lines. The generated protocol modules (20 000 lines) are read by `tools/extract.py` into schema tables (`Gen/*.lean`): the script matches every generated function against a fixed set of templates, statement by statement, and aborts on any function it does not recognise; a wrong template is a wrong model. `tools/extract_stats.py` does the same for the 39 fields of the statistics struct/row. The scripts are trusted; the tables they write are committed.
* **The published layouts.** C177–C189 state what a file *says* by writing it down with the hand-written descriptions in `Spec/{Tracker,Game,Init,Header,Details}Layout.lean` (numbers, member order, tags, widths; independent of the extracted schema) and `Spec/{GameHeard,WholeReplay}.lean` (which values are handed out otherwise, and what makes a replay). They are specifications: a reader has to believe that they describe Blizzard's format, nothing more depends on them.
* **Library semantics assumed** (not modelled below this level): nom 8 `take`/`tag`/`bits::take`/`peek`/`verify`/`map_res`, `std` integer conversions (`try_from`, `as`), `HashMap` as a finite map with unspecified iteration order (every theorem that iterates one quantifies over the order), rayon's parallel iterators as arbitrary schedules (`Misc/Export.lean` interleaves tasks arbitrarily; `Misc/Scan.lean` permutes), IEEE-754 binary32 with round-to-nearest-even for `+ - * /` and conversions (`State/F32.lean`: exact rationals rounded by `roundNat`), `String::from_utf8` (full UTF-8 validity in `Text.lean`), `{:?}` of byte vectors.

## What is modelled, what is not
Modelled (file: module)
* `bit_packed_decoder.rs`: `Bits` — `versioned_decoder.rs`: `Vlq`, `Schema/ByteAligned` — `protocol_version_decoder.rs`: `Misc/Replay`.
* `versions/protocol87702/mod.rs`, `versions/protocol75689/mod.rs` (all generated parsers): `Gen/*` + `Schema/*`; `versions/protocol87702/events/**`, `versions/mod.rs`: `Events/Convert`, `Events/Read`, `Misc/Details`, `Misc/InitData`, `Misc/Replay`.
* `tracker_events/*`, `game_events/*`, `message_events.rs`, `filters.rs`, `state/*`: `Events/*`, `State/*` (`Merged` = the combined iterator).
* `game_events/ability/balance_data/*`: `State/Balance`, `Misc/BalanceFiles` (file names and directory listing are concrete), `Misc/Json` + `Gen/JsonSchema` (serde's reading and writing as JSON trees of the unit structs and of every other serializable type: 124 structs and enums transcribed by `tools/gen_json.py`; `Gen/BalanceSample` is a shipped file). The text of JSON files, XML, the rounding of floats and the text form of dates are parameters; a hash map is the list of its entries sorted by key, and its order in a file is arbitrary; an integer key written "-0" is taken to be unreadable.
* `details.rs`, `init_data/*`, `lib.rs`, `dir_stats.rs`, `error.rs`: `Misc/*`.
* `cache_handles/*`: `Misc/Cache`, `Misc/Handles`.
* `arrow_store/*` and the flat rows: `Misc/Rows`, `Misc/Export` (a row is the record handed to arrow; the arrow columnar encoding is not modelled, a written batch is the list of its rows).
* `generator/*`: bit-width rules and tag table (`Misc/Generator`, `Misc/GenTags`), which declarations are selected (`Misc/GenSelect`), the text of the byte-aligned module (`Misc/GenText`) and what its readers amount to (`Misc/GenBytes`), the code of the bit-packed module as a syntax tree with text and meaning (`Misc/GenBitCode`, `Misc/GenDecls`), the run over the file system (`Misc/GenRun`); the bundled modules were completed by hand after generation and are modelled from their text. `lib.rs: peek_bits`: `Misc/Peek`; kinds of arrow tables and export calls: `Misc/ArrowKinds`.
Not modelled
* MPQ container parsing and decompression (`nom-mpq`): an archive is a finite map from sector name to bytes or failure. The file system is a tree/map that answers or fails. sha256, arrow/IPC encoding, serde (JSON/XML text), chrono formatting, logging; of the terminal interface the drawing and layout (what is shown is modelled, `Misc/Tui`); of the generator the conversion of names (`convert_case`; a parameter) and exact white space; of the command-line example only `get` and `write-arrow-ipc` (`Misc/Cli`: printed brackets, commas and values; no colours, timing or logs; `--event-type` is stored in the filters and read nowhere).
* `generator/versionless.rs` and `stableid_ability_parser.rs` are not part of the compiled crate.
* Memory exhaustion, stack depth, wall-clock time.

## Layout
* `Basic, Text, ResLemmas` results (`ok | err | panic`), build profile (`debug | release`), integers, UTF-8
* `Bits, Vlq` primitive decoders — `Schema/` deep embedding of the two shapes of generated parser and interpreters following the generated statements — `Gen/` extracted tables
* `Events/` typed events, conversions, readers, iterators — `State/` user/unit state machine, merged iterator — `Misc/` everything else
* `Spec/` small independent specifications (wire grammars, bit layout, ideal life cycle, field tables, …) — `Props/` property theorems with non-vacuity examples beside them
* `tools/` extraction, manifest, mutation runner (`mutate.py`), log builder — `seeded/LOG.jsonl` mutation results

## Conformance of the model
`tools/conformance/run.sh` (not part of the proofs) unpacks the four replays shipped in /repo (builds 87702, 89720, 92440, 94137) with a small MPQ reader and runs the model on their bytes, in the `debug` profile. Every stream is decoded to its exact last byte with no error or panic: 24 207 game events (bit-packed), 52 836 tracker events, 88 message events; details and initData give the expected map titles, players, races and results; `openIterator` + `mnext` over two whole replays yield exactly tracker + convertible game events (1760 and 12 890 items), in time order. A wrong width, tag or field order in the extracted schemas would derail such a run. (It also shows refuted properties in the wild, e.g. C109: only 1 of 10 and 17 of 107 unit-command rows name their target.)

## Modelling conventions
* Bytes are `UInt8`, slices are `List UInt8`; a bit cursor is (slice, offset) as in nom.
* `i64` is `Int` kept in range by explicit wrap functions; overflow and shift-range checks are explicit and depend on the `Build` parameter: `debug` panics, `release` wraps/masks.
* `Result` is `Res`: `ok`, `err e`, `panic`. A panic is an explicit value.
* Logging (`tracing`) is not modelled.
* A property that is false of the code is answered by `Cnn_…_refuted` (a concrete witness, run through the model by the kernel) and by `Cnn_…_partial`, the strongest true restriction found; the manifest then says `partial`.

## Plan per property
* **C01 Bit-packed integers follow the Blizzard read_bits layout** — Bits.lean models nom `take`, rtake_n_bits, take_n_bits_into_i64 loop by loop; BitsSpec.lean has the Blizzard rule on bit lists; prove equality by induction on remaining bits.
* **C02 Bit-packed reads succeed exactly when enough bits remain and move the cursor exactly n bits** — Corollary of the same characterisation (`Cur.advance`).
* **C03 Aligned byte strings are returned verbatim** — take_bit_array loop vs spec of consecutive 8-bit reads; aligned case gives bytes verbatim.
* **C04 Zero-length blobs decode to the empty byte string** — Negation with witness + `_partial` (non-empty).
* **C05 Packed ints are exact excess-K numbers in range** — From C01, arithmetic.
* **C06 Packed-int arithmetic never overflows on any replay bytes** — Negation (debug) with witness from the 64-bit type; release wrap theorem; partial for n<=63.
* **C07 VLQ integers round-trip** — Encoder spec by recursion on magnitude; induction.
* **C08 VLQ decoding is characterised for every byte string** — Characterisation by splitting at first terminator byte.
* **C09 VLQ decoding never panics** — Negations for debug; proof for release.
* **C10 Truncated VLQ is an error** — Induction on input.
* **C11 Tag validation** — Case analysis on the models of the tagged readers.
* **C12 Tagged blob/bool/fourcc/bitarray round-trip** — From C07.
* **C13 Negative or oversized blob lengths are rejected** — Model uses usize cast of i64; take fails.
* **C14 Versioned (byte-aligned) types decode exactly their wire grammar** — Schema/ByteAligned.lean: deep embedding VTy, interpreter = generated code pattern; wire grammar relation; mutual induction over schemas; instantiated for each extracted type (Gen/).
* **C15 Versioned struct fields may come in any order** — From grammar: permutation of entries.
* **C16 Duplicate struct fields are rejected** — Struct-loop invariant; negation witness for optional.
* **C17 Missing mandatory fields and unknown tags are rejected** — Struct-loop invariant.
* **C18 Omitted optional fields decode to None** — Struct-loop invariant.
* **C19 Integer fields never silently truncate** — Per int kind.
* **C20 Versioned parsing is local: appending bytes changes nothing** — Mutual induction.
* **C21 Versioned parsing never panics in release builds and consumes what it reports** — Mutual induction with `Build.release`.
* **C22 Bit-packed types decode exactly their wire grammar** — Schema/BitPacked.lean: deep embedding BTy, interpreter, bit-level grammar; mutual induction; instantiated for each extracted type.
* **C23 Bit-packed encode/decode round-trip** — Encoder for schemas; mutual induction; negations.
* **C24 Optional bit-packed fields consume presence bit plus value** — optRewind constructor models the two defective fields; negation witness; partial for all other types.
* **C25 Bit-packed parsing moves forward only and never panics (release)** — Mutual induction.
* **C26 Bit-packed parsing is local** — Mutual induction.
* **C27 Unknown choice/enum tags are rejected** — Choice lookup lemma + instances.
* **C28 Array lengths are bounded by the input** — Length bound from per-element consumption.
* **C29 Tracker event reader returns all supported events in stream order** — Events.lean: event loops over the schema interpreter.
* **C30 Game and message event readers return all supported events in stream order** — same
* **C31 Summing deltas of the event list gives each event's game loop** — Negation witness; partial when nothing is skipped. Exactly when the list is right (no skipped event with a positive delta before a kept one), and that it is never late: `Props/Exact.lean`.
* **C32 Iterator game loop is the exact prefix sum of all deltas** — Iter.lean: iterator state machine; invariant over calls.
* **C33 Event iterators terminate and yield each stream event at most once** — same, termination measure bytes left
* **C34 Event iterators are fused after an error** — Negation witness; `C34_tracker_exactly` says when the tracker iterator is fused (iff).
* **C35 Merged iteration loses and duplicates nothing** — Merge of two lists as the two-slot machine.
* **C36 Merged iteration is ordered by game loop** — Sortedness of the merge with rounding function; negation for f32 & tie order. For all loops: order by rounded loops and the distance bound, `Props/RoundedOrder.lean`.
* **C37 max_events yields exactly that many events** — Negation + partial.
* **C38 Loop filters bound every yielded event** — Negation + partial.
* **C39 Filters never change the replay state** — State component of the fold is independent of the filter.
* **C40 Player filter yields only that player's events** — Case analysis on event kinds.
* **C41 Unit tags are lossless** — Nat div/mod arithmetic over all values.
* **C42 Units map follows the life-cycle events** — State/Tracker.lean: map model; invariant over sequences.
* **C43 Dead units leave every control group** — Negation witness + partial.
* **C44 Control groups behave like the in-game operations** — State/Game.lean refinement.
* **C45 Steal variants remove the units from all other groups** — Negation + partial; `C45_exactly` says which groups keep which units (iff).
* **C46 Out-of-range control group ids are rejected, not fatal** — Negation.
* **C47 Selection marking is balanced** — Unit mark/unmark algebra (radius as dyadic rational abstraction of f32).
* **C48 Unit positions decode to absolute indexes** — Induction on chunks.
* **C49 Player filter by name selects the last matching player** — List induction.
* **C50 Replay discovery respects limits** — Directory tree model; induction on depth.
* **C51 Timestamps convert exactly** — Int arithmetic.
* **C52 Protocol version dispatch** — Trivial function + universal statement over readers.
* **C53 Directory statistics are consistent** — List/sort model; permutation invariance for parallel.
* **C54 Lobby join pairs each player with their own slot** — List induction.
* **C55 Cache-handle text form is faithful** — Hex model; the text of the bytes is given by the specification `asCharacters` (UTF-8 of the characters 0–255).
* **C56 Parsed map bounds are consistent** — Parser model.
* **C57 Parsed height maps are consistent with map info** — Parser model.
* **C58 Document header parser consumes the header** — Parser model; negation.
* **C59 Parallel arrow export counts each replay's rows once** — Schedules = permutations of worker batches.
* **C60 Export source selection** — List filter/take.
* **C61 Ability command names are resolved deterministically with fixed precedence** — Lookup model.
* **C62 Balance data paths round-trip** — String model as char lists.
* **C63 Player stats name/value listing is complete** — Finite table by decide.
* **C64 Init data layout** — the reader dispatch of `read_init_data` vs the replay's own schema; witness bytes on which the two layouts differ.
* **C65 Over-long VLQ** — witness; partial for numbers below the limit.
* **C66–C72, C76–C81 state invariants** — preservation of an invariant by every transition, lifted to every history by induction (`State/*Lemmas`); witnesses for the false ones. `C81_exactly` (Props/Exact4.lean) says what a birth does on any index.
* **C73, C82, C83 filters** — case analysis of `should_skip` over all events; histories through `calls_pulls`.
* **C74 name lookup** — permutation invariance of the lookup.
* **C75 positions** — integer arithmetic modulo 2^32 by induction on the chunks, both build profiles. Exact panic condition of debug builds in `Props/Exact2.lean`.
* **C84, C85 combined iterator totality** — measure (bytes left + pending slots); release panic characterisation by the only remaining panicking index.
* **C86–C88 cache files** — iff between parser success and layout relations.
* **C89 time** — rational arithmetic of the f32 conversion.
* **C90–C93 details / init data** — iff with a field-by-field specification; round trip through the bit-packed encoder.
* **C94–C97, C99 opening a replay** — `World`/`Archive` model; every panic source located.
* **C98 scan statistics** — permutation + sort uniqueness up to equal keys. Exactly when the lists are independent of the hash order (no other name as frequent as a listed one; the converse exchanges two tied names): `Props/Exact2.lean`.
* **C100, C112, C113 export** — small-step interleaving semantics of the worker tasks with the two mutexes; invariant over all schedules. `C112_lost_with_failed_writes`, `C112_exactly`: every failed write costs exactly one batch.
* **C101–C103 fields** — `Spec/FieldSpec`, `Spec/GameFieldSpec`: tables field name → wire tag; proved for all wire values.
* **C104–C111, C114 rows** — specification of the table as a function of the event streams; equality for all archives.
* **C115–C117 balance data** — abstract codec with a round-trip law; directory order quantified over permutations. `C115_exactly`, `C116_exactly`: equivalences (for C116 over all reorderings of directories and of their entries).
* **C118 colours** — invariant over histories; witness where the colour goes stale.
* **C119 commands recorded** — closed form of the three selection loops; invariant over every continuation (`Undisturbed`).
* **C120 target points** — range of decoded coordinates (`Schema/Ranged`) + exactness of f32 below 2^24.
* **C121 positions** — fold over the history (`Spec/CommandSpec.placeStep`), proved step by step.
* **C122–C125 generator widths** — `Misc/Generator` models the width rules; sufficiency through the bit-packed round trip, minimality as `FewestBits`; witnesses for the false cases. `C125_exactly`: the number of bytes for every size.
* **C126–C128 map coordinates** — finite f32 as integer multiples of 2^-149 with exact rounding (`Misc/Coords`); monotonicity and exactness of rounding; witnesses for the single wrong float and the negative cells.
* **C129–C133 snapshots** — `Misc/Snapshot`: small-step semantics of `handle_write_snapshot` on a disk of seven files (a file is cut off until its footer is written), with the task semantics of `Misc/Export` inside; invariant over all reachable states, hence all crash points; consistency across runs and preservation of the earlier snapshot are refuted with witnesses.
* **C134 file names** — two worlds with the same contents under different names; the scan and the selected sources are related position by position; witness with a Latin-1 name.
* **C135–C140 command line `get`** — `Misc/Cli`: `handle_get_cmd` as a function from options and file tree to a list of printed tokens (brackets, commas, JSON values) and a result; equality with the specification streams of C29–C39; witnesses for the false ones. `C140_exactly`: for every command.
* **C141 `write-arrow-ipc`** — composition of discovery (C50), selection (C60), the worker semantics (C112) and the rows (C104–C109).
* **C142 generated bit-packed parsers** — the generator as a function from declaration trees to parser schemas (`Misc/GenDecls`), the description's own wire format (`Spec/GenDeclSpec`), mutual structural induction over all declarations; witnesses for the wrong constructs.
* **C143 quick header** — `ProtocolHeader::parse` (`Misc/QuickHeader`) against the full header schema through the wire relation; witness: the same header with two members swapped.
* **C144–C146 terminal interface** — `Misc/Tui`: what is shown, as data, on top of the merged iterator (C35, C84); the order in which the `HashMap` of users is iterated over is an arbitrary permutation; colours through the lobby join (C54).
* **C147 coordinates, C148 unit equality** — compositions of C66, C67, C119 over histories; witnesses by evaluation.
* **C149 payloads of enumeration values** — the tag pass of the generator (`Misc/GenTags`; JSON as the members it looks at, case conversion a parameter) as a chain of stages, each extending the table by what is declared (`Spec/GenTagSpec`) unless present; witnesses by evaluation.
* **C150 units as JSON** — `Misc/Json`: values, types and JSON trees, `encode`/`decode` as serde derives them; induction over the type: reading any reordering of what was written gives the value back exactly if numbers are finite and skipped fields have their default; `version` is the only skipped field; composition with C115 and C62 for whole tables. Floats are abstract with one law, f32 → f64 → f32 is the identity (`Exact`).
* **C151 accepted files** — the same model; congruence of `decode` in the members of each name, for every struct.
* **C152 events as JSON** — the same model at the types of events, details and init data (no skipped fields): read back exactly if the numbers are finite; the five types without floats unconditionally. Refuted with a unit of infinite radius.
* **C153 saved iterator** — `SC2EventIterator` as a type of the same model; a saved value is read back with the skipped fields reset (`reset`), exactly equal iff it has none (`Plain`). Refuted with a balance unit of version 95841. That the resumed iterator then yields the same items is not stated: the iterator model of C15-C30 does not carry all fields of the struct.
* **C154 joining tables** — uses the selection (C60), the snapshot runs (C129–C133) and the row constructors: every row of every table carries the number of its replay, numbers are positions in the file list, so equal numbers mean equal replays. Refuted part: a replay with events and an empty player list has an upgrades row and no details row.
* **C155 cut-off event sectors** — `Props/CutOff.lean`; streams are prefix free (`stream_prefix`), so a reader of `p` and a reader of `p ++ q` decode the same events up to the cut.
* **C156 tracker tables versus the game sector** — `Props/NonInterference.lean`: a relation between states (`TrackAlike`: units up to command, time stamp, radius and mark; users up to groups and camera) kept by every game event on one side and by every tracker event on both; the rows of an event are the same in alike states. Partial: false when a tracker name is not UTF-8 or a control-group number exceeds ten (both refuted with bytes).
* **C157 loop order** — `Props/LoopOrder.lean`: a specification `loopOrder` of the merge and its uniqueness (any interleaving that is in order is this one); the invariant behind C35 (`merged_exact`) names the merge, which below 2^24 is `loopOrder`; tables via `collect_exact`. Refuted above 2^24 with bytes; `C36_bad_name_refuted` shows that an unreadable name breaks the order too. All loops: the unique interleaving in order of the rounded loops (`C157_any_loops`, `Props/RoundedOrder.lean`).
* **C158 Debug and release builds agree** — every function with a build parameter is related to itself in the two builds (`Agrees`: the debug outcome is a panic or the release outcome); the relation is closed under bind, loops and recursion over the schemas.
* **C159 Balance data only name abilities and size units** — `Props/BalanceOnly.lean`: a two-run relation (states equal after `blank`, which empties ability names and radii) kept by every handler, by the fetch/pick/filter steps and by the collectors; without an entry of the version every name is the empty string by an invariant of the iterator (the pre-fetched command has an empty name, as decoded) and, for units, by C119.
* **C160 crash points of a conversion** — `Misc/JsonDir`: the writer as a list of system calls (`create_dir_all`, `File::create`, one `write` per piece) on a tree; a crash is a prefix of the list; induction over the table with the split done/current/todo carried along.
* **C161 a converted directory** — characterise the final tree (`Converted`), then compare what `read_balance_data_from_json_dir` finds before and after; refuted for stale units, proved as an overlay.
* **C162 repeating a conversion** — `process_cli_request` loads the balance data from the destination before it writes there; refuted by a crash just after `File::create` (an empty file is no JSON) and by a missing destination; proved from any readable intermediate tree, the result being that of the uninterrupted run.
* **C163 Unreadable balance directory** — Misc/Main.lean models `process_cli_request` (load, then dispatch to the commands modelled elsewhere); the loading errors of C162 lifted to every command; the environment is a structure whose other fields are arbitrary.
* **C164 Commands without balance data** — equality of the outcome for two environments that differ in tree, listings and assets, given that both load; bit arithmetic of the tag over all of `Int`; refuted without the loading condition.
* **C165 Listing order** — the loaded tables agree as maps (C116); every consumer (iterator, scan, export, get) only uses the map, proved through each of them.
* **C166 Missing options** — case analysis of the dispatch, tied to `convert` (C160–C162); refuted by `generate` without `--output`.
* **C167 Generated byte-aligned parsers** — `Misc/GenBytes.lean` turns a description into a reader as the generator does; `Spec/GenBytesSpec.lean` says which bytes a described value has; mutual induction over descriptions; refuted for seven kinds of description the generator drops or refuses; `C167_text_agrees` ties the reader chosen for each name to the text written for it.
* **C168 Balanced text** — `Misc/GenText.lean` is the text, piece by piece; every piece moves a stack of awaited delimiters (checked by the kernel literal by literal), induction over declarations.
* **C169 Bound names** — order of occurrence of the declared pieces for every member (induction over members); refuted on a struct with one tagged member, where two words are bound nowhere; `Props/GenTagLoop.lean` says exactly for which structs the generated code reads tags.
* **C170 Picture of a cursor** — `Misc/Peek.lean` models `peek_bits` (the colours are lost through `Deref`, `peek_hex` is a parameter); one mark at position `off` from the left by induction over the digits; exact condition for it to be the next bit read; refuted on the byte 1.
* **C171 What the modules hold** — `Misc/GenSelect.lean` models the nested loops over a three-level description; for well-named descriptions the selection is a filter of the preorder walk (both modules), hence nothing twice, and the text is that of `declsText` (C168); byte-aligned references through the table of names are all written; refuted for the bit-packed module on a description with one lone type.
* **C172 Files of a generation** — `Misc/GenRun.lean`: the run over a file system as a function; frame theorem, exact condition for the old output to survive a failure, refuted on a missing source.
* **C173 Protocol number** — same file; decimal digits by induction on the number; exact statement for every name; refuted on `s2protocol87702.json`.
* **C174 Tables and columns** — `Misc/ArrowKinds.lean`: kinds, columns and the matches of the export calls, folded over a list of sources; rows typed as the file, by induction over the sources; exact condition for a panic; refuted for message events and user init data.
* **C175 Bit-packed text is closed** — `Misc/GenBitCode.lean` has the code that is written as a syntax tree (statements, functions, items) with its text; each piece is read with a stack of awaited delimiters (`Props/GenBitLits.lean`, one checked lemma per literal), the rest by induction over the description.
* **C176 What that code does** — the same tree has a second reading: statements over named variables (unbound or ill-typed names do not compile). The run of each function is shown equal to the parser of the described type, by induction on the size of the declaration (references go to smaller ones), and combined with C142; compiled functions exist for every closed module with different names; refuted on optional integers, strings and signed integers in structs and on a member `tail`.
* **C177 Tracker layout** — `Spec/TrackerLayout.lean` writes down the published layout of tracker events by hand (numbers, member order, tags), without the extracted schema; `Props/TrackerLayout.lean` shows each event's bytes are the encoding of a value of the schema type, that the value converts back to the event, and combines this with C29 for sequences.
* **C178 Game layout** — `Spec/GameLayout.lean`: likewise for the 21 supported game events, as functions from the bit offset; a kit of lemmas (one per constructor of the schema language) shows that schema encoding and layout agree at every offset; with C30 for sequences; refuted on empty texts, 16-bit masks and sequence numbers, with how each is read. `Spec/GameHeard.lean`, `Props/GameExact.lean`: `C178_exactly` says for every event in range how it is handed out (masks regrouped from the bit they start at, sequence numbers with their presence bit, `C178_number` in closed form), `C178_derails` why a sequence number 2²² loops after the event before is out of it.
* **C179 Chat layout** — same files; refuted on the empty message.
* **C180 Bit arrays as numbers** — `Props/MaskNumber.lean`: by induction over groups of eight bits against Blizzard's `read_bits`; refuted on nine bits two bits into a byte.
* **C181 Details, C183 header** — `Spec/DetailsLayout.lean`, `Spec/HeaderLayout.lean` are written by hand from Blizzard's description, not from the extracted types; `Props/DetailsLayout.lean`, `Props/HeaderLayout.lean`: each layout is shown to be a wire form of the extracted type, members in any order by permuting the entries.
* **C182 Init data** — `Spec/InitLayout.lean` (by hand) and `Props/InitLayout.lean`: the layout is a wire form at every bit offset; `C182_exactly` says what comes out (a zero byte for each empty text), `C182_iff` when it is the same, `C182_refuted` gives a hero without name.  `Props/ChatExact.lean` gives the same exact form for chat (`C179_exactly`).
* **C184, C185 Whole replay** — `Spec/WholeReplay.lean`: a replay as a record of its parts and what it means that an archive holds it; `Props/WholeReplay.lean` composes C177–C183 with C52 (the readers), C35, C36, C84 (the combined iterator). Game events are handed out as `C178_exactly` says.
* **C186, C187 Tables and opening of a whole replay** — `Props/WholeTables.lean` composes C184/C185 with C104–C110 and C157 (the collectors); `Props/WholeOpen.lean` with C51, C54, C96 (dates, lobby join, initial state): opening a written replay never fails, and who its users are.
* **C188 Exporting written replays** — `Props/WholeExport.lean` composes C186/C187 with C59, C112, C113 (the export under every schedule): from files on disk to the rows of the exported table. Assumed: the Arrow encoder accepts the rows (external).
* **C189 get on a written replay** — `Props/WholeGet.lean` composes C184, C187, C188 with C135: from a file on disk to what `get` prints.
* **C190 Members of a generated struct** — `Props/GenMembers.lean`: by induction over the members, the five accumulators of `structText` are the concatenations of the five texts of each member (`Part`, a specification); a member is optional in all of them or in none.
* **Exact forms** — where a property is false, a `Cnn_exactly` theorem (Props/Exact*.lean and beside the property) says for every input whether it holds: among others C31, C34, C36, C37, C45, C75, C81, C95, C98, C112, C115, C116, C122–C125, C128, C137, C138, C140, C143, C157, C173, C174, C179, C182.
