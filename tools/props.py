#!/usr/bin/env python3
"""Regenerates /verif/properties.jsonl (kept as a script so the list stays reviewable)."""
import json, os
P = []
def p(title, statement, quantifier, why, anchors):
    P.append(dict(id="C%02d" % (len(P)+1), title=title, statement=statement, quantifier=quantifier,
                  why_tests_cant=why, anchors=anchors))

B="src/bit_packed_decoder.rs"; V="src/versioned_decoder.rs"; L="src/lib.rs"
P8="src/versions/protocol87702/mod.rs"; P7="src/versions/protocol75689/mod.rs"

p("Bit-packed integers follow the Blizzard read_bits layout",
  "take_n_bits_into_i64(cursor, n) with n <= 64 returns exactly the number obtained by Blizzard's big-endian read_bits rule (consume the unread low-order part of each byte; the earlier chunk is the more significant one), reinterpreted as i64; with n > 64 it always returns BitPackedMoreThan64Bits.",
  "every byte string, every bit offset 0..7, every n",
  "the value depends on byte contents, offset and width jointly; 2^k inputs for each of 8*65 (offset,width) pairs",
  [B+":take_n_bits_into_i64", B+":rtake_n_bits"])
p("Bit-packed reads succeed exactly when enough bits remain and move the cursor exactly n bits",
  "A bit-packed read of n bits returns Ok iff at least n unread bits remain, leaves the cursor exactly n bits further (correct remaining slice and offset < 8), never reads past the buffer and never panics.",
  "every byte string, offset, and width", "boundary behaviour must hold at every buffer length and alignment",
  [B+":take_n_bits_into_i64", B+":take_bit_array", B+":parse_bool", B+":byte_align"])
p("Aligned byte strings are returned verbatim",
  "Reading 8*k bits (k>=1) with take_bit_array from a byte-aligned cursor returns exactly the next k bytes and leaves the cursor aligned right after them; unaligned it returns the k bytes of Blizzard's read_unaligned_bytes.",
  "every buffer, every k >= 1, every offset", "must hold for all lengths/contents", [B+":take_bit_array", B+":take_unaligned_byte", B+":take_fourcc"])
p("Zero-length blobs decode to the empty byte string",
  "A blob or bit array whose encoded length is 0 decodes to an empty byte string. (False in the code: take_bit_array(_, 0) yields one 0 byte.)",
  "every zero-length blob anywhere in a bit-packed stream", "all 20+ blob types and all surrounding contexts", [B+":take_bit_array", P8+":bit_packed blob newtypes"])
p("Packed ints are exact excess-K numbers in range",
  "parse_packed_int(cursor, K, n) for n<=63 and K+2^n within i64 returns K+u where u is the n-bit unsigned number, hence a value in [K, K+2^n), in both debug and release builds.",
  "every buffer, offset, K and n in range", "all values", [B+":parse_packed_int"])
p("Packed-int arithmetic never overflows on any replay bytes",
  "No byte stream makes parse_packed_int panic or wrap. (False for 64-bit excess-2^63 fields: in debug builds non-negative values panic; release wraps to the right value.)",
  "every buffer and every (K,n) used by the protocol types", "a specific sign/width combination", [B+":parse_packed_int", P8+":bit_packed"])
p("VLQ integers round-trip",
  "For every i64 x other than i64::MIN, parse_vlq_int applied to the standard VLQ encoding of x followed by any bytes returns x and exactly those following bytes.",
  "every i64 except MIN and every suffix", "2^64 values times arbitrary suffixes", [L+":parse_vlq_int"])
p("VLQ decoding is characterised for every byte string",
  "parse_vlq_int succeeds only on input that starts with a complete VLQ (continuation bytes, then a byte with the high bit clear) and consumes exactly that; for at most 10 bytes the value is the sign-magnitude number formed from the 6-bit then 7-bit groups, reduced to 64 bits (exact up to 9 bytes); a debug build panics exactly on longer or out-of-range ones.",
  "every byte string", "unbounded input", [L+":parse_vlq_int"])
p("VLQ decoding never panics",
  "No byte string makes parse_vlq_int panic. (False in debug builds: 10 continuation bytes overflow the shift, and magnitude 2^63 with the sign bit overflows negation; true in release builds.)",
  "every byte string, debug and release builds", "needs long adversarial inputs", [L+":parse_vlq_int"])
p("Truncated VLQ is an error",
  "If every byte of the input has its continuation bit set (or the input is empty) parse_vlq_int returns an error (release build), never a value.",
  "every byte string with no terminator", "unbounded lengths", [L+":parse_vlq_int"])
p("Tag validation",
  "Each versioned primitive reader (blob, bool, fourcc, int, bitarray) returns Ok only if the first byte is its own tag byte, and an input beginning with one primitive's tag is accepted by no other primitive.",
  "every byte string, every pair of primitives", "all byte strings", [V+":tagged_blob", V+":tagged_bool", V+":tagged_fourcc", V+":tagged_vlq_int", V+":tagged_bitarray"])
p("Tagged blob/bool/fourcc/bitarray round-trip",
  "Encoding any byte string / bool / u32 / bit array in the versioned format and decoding it, with any following bytes, returns the same value and leaves exactly the following bytes.",
  "every value and suffix", "all sizes", [V+":tagged_blob", V+":tagged_bool", V+":tagged_fourcc", V+":tagged_bitarray"])
p("Negative or oversized blob lengths are rejected",
  "A blob whose decoded length is negative or exceeds the remaining bytes is rejected with an error, never a panic or a partial blob.",
  "every byte string", "length field is attacker controlled over all of i64", [V+":tagged_blob", V+":tagged_bitarray"])
p("Versioned (byte-aligned) types decode exactly their wire grammar",
  "For every byte-aligned protocol type (tracker events, details, replay header): parse(input) = Ok(tail, v) iff input = used ++ tail where used is a wire encoding of v under that type's grammar (struct/optional/array/choice/int/blob/bool/fourcc tags, field tags in any order).",
  "every byte-aligned protocol type of both protocol modules, every input", "unbounded nesting/sizes", [P8+":byte_aligned", P7])
p("Versioned struct fields may come in any order",
  "Permuting the (tag,value) entries of a versioned struct with pairwise distinct tags does not change the decoded struct nor the remaining input.",
  "every struct type, every permutation, every content", "n! orders", [P8+":byte_aligned"])
p("Duplicate struct fields are rejected",
  "A versioned struct that carries the same field tag twice is rejected with DuplicateTag. (True for mandatory fields; false for optional fields whose earlier occurrence decoded to None.)",
  "every struct type, every pair of positions", "all positions and contents", [P8+":byte_aligned"])
p("Missing mandatory fields and unknown tags are rejected",
  "A versioned struct that omits a mandatory field never decodes to Ok, and one that carries a field tag outside the schema never decodes to Ok.",
  "every struct type, every content", "all subsets of fields", [P8+":byte_aligned"])
p("Omitted optional fields decode to None",
  "If an optional field's tag does not occur in a versioned struct, the decoded struct has None there and the other fields are unaffected.",
  "every struct type", "all contents", [P8+":byte_aligned"])
p("Integer fields never silently truncate",
  "A versioned integer declared u8/u32/u64/i32 decodes to Ok only if the wire integer lies in that type's range, and then to the same number; otherwise an error is returned.",
  "every wire integer", "boundaries for each width", [P8+":byte_aligned", "src/error.rs"])
p("Versioned parsing is local: appending bytes changes nothing",
  "If a byte-aligned type decodes from input with some tail then it decodes from input ++ extra to the same value with tail ++ extra (so a truncated stream never yields a different successful value for a complete prefix).",
  "every type, input, and extra bytes", "all splits", [P8+":byte_aligned"])
p("Versioned parsing never panics in release builds and consumes what it reports",
  "For every byte-aligned type and every input parsing terminates with Ok or Err, and on Ok the tail is a proper suffix of the input.",
  "every type and byte string", "unbounded adversarial inputs", [P8+":byte_aligned"])
p("Bit-packed types decode exactly their wire grammar",
  "For every bit-packed protocol type: parse(cursor) = Ok(cursor', v) iff the unread bits split into used ++ rest where used is a bit-level encoding of v (fields in order, presence bits, n-bit lengths and choice tags, alignment padding) at that offset and cursor' is advanced by exactly |used| bits.",
  "every bit-packed protocol type of both modules, every cursor", "unbounded sizes, all alignments", [P8+":bit_packed", P7])
p("Bit-packed encode/decode round-trip",
  "Encoding any well-formed value of a bit-packed type at any bit offset and decoding it followed by any bits returns the same value and leaves the cursor at the following bits. (False for types containing a field that re-reads its presence bit, and for empty blobs.)",
  "every type without the defective field, every well-formed value, every offset, every suffix", "all values", [P8+":bit_packed"])
p("Optional bit-packed fields consume presence bit plus value",
  "An optional bit-packed field present with value v decodes to Some(v) and the cursor is one presence bit plus the value further. (False for GameSCommandManagerStateEvent.m_sequence and Smd5.m_data_deprecated, which re-read from before the presence bit.)",
  "every optional field of every type", "bug only visible when the field is present and following data is inspected", [P8+":GameSCommandManagerStateEvent::parse_m_sequence", P8+":Smd5::parse_m_data_deprecated"])
p("Bit-packed parsing moves forward only and never panics (release)",
  "For every bit-packed type and every cursor parsing terminates with Ok or Err; on Ok the new cursor is the old one advanced by k bits with k at most the number of unread bits, and offset < 8.",
  "every type, cursor", "unbounded adversarial inputs", [P8+":bit_packed"])
p("Bit-packed parsing is local",
  "If a bit-packed type decodes from a cursor, it decodes identically after appending any bytes to the buffer, with the appended bytes left unread.",
  "every type, cursor, suffix", "all splits", [P8+":bit_packed"])
p("Unknown choice/enum tags are rejected",
  "A bit-packed or versioned choice/enum whose tag has no variant never decodes to Ok (UnknownTag), so event ids outside the protocol are errors rather than misparsed.",
  "every choice type and tag", "all tags", [P8, P7])
p("Array lengths are bounded by the input",
  "An array in a versioned struct that decodes Ok has no more elements than the bytes consumed; a huge claimed length cannot produce Ok from a short input.",
  "every array type and input", "adversarial length fields", [P8+":byte_aligned arrays"])
p("Tracker event reader returns all supported events in stream order",
  "read_tracker_events on a stream that is a concatenation of encoded tracker events returns exactly the supported ones, in stream order, and terminates; a stream with a malformed event is an error.",
  "every finite sequence of events and any bytes", "unbounded sequences", [P8+":read_tracker_events", "src/tracker_events/mod.rs"])
p("Game and message event readers return all supported events in stream order",
  "read_game_events/read_message_events behave likewise on bit-packed streams: each event is delta, user id, event, byte alignment; the result lists supported events in order; parsing resumes byte aligned.",
  "every finite sequence of events and any bytes", "unbounded sequences", [P8+":read_game_events", P8+":read_message_events"])
p("Summing deltas of the event list gives each event's game loop",
  "The game loop of an event equals the sum of the deltas up to and including it in the list returned by read_tracker_events. (False when unsupported events are skipped: their deltas are lost from that list.)",
  "every stream", "needs skipped events with nonzero delta", [P8+":read_tracker_events", "src/tracker_events/mod.rs"])
p("Iterator game loop is the exact prefix sum of all deltas",
  "Each event yielded by the tracker (and game) event iterator carries a game loop equal to the sum of the deltas of all stream events up to and including it, skipped ones included; yielded loops are non-decreasing.",
  "every stream and every position", "unbounded histories", ["src/tracker_events/iterator.rs", "src/tracker_events/state.rs", "src/game_events/state.rs", "src/game_events/iterator.rs"])
p("Event iterators terminate and yield each stream event at most once",
  "Repeated next() on a tracker/game iterator yields the supported events in order, each once, then None after at most one call per stream event.",
  "every stream", "unbounded histories", ["src/tracker_events/iterator.rs", "src/game_events/iterator.rs"])
p("Event iterators are fused after an error",
  "Once the tracker iterator has returned None it keeps returning None. (False: a conversion (UTF-8) error returns None after advancing, and the next call resumes.)",
  "every stream and call sequence", "needs histories with conversion errors", ["src/tracker_events/state.rs:get_next_event"])
p("Merged iteration loses and duplicates nothing",
  "Without filters, the combined SC2 event iterator yields an interleaving of exactly the tracker events and the game events, each stream in its own order.",
  "every pair of streams", "all interleavings", ["src/state/mod.rs:SC2EventIterator::next"])
p("Merged iteration is ordered by game loop",
  "If both streams are non-decreasing in game loop, the combined sequence is too, for loops exactly representable in the f32 comparison; on equal loops the game event comes first. (The doc says tracker first; and above 2^24 f32 rounding can misorder.)",
  "every pair of streams", "all interleavings, large loops", ["src/state/mod.rs:SC2EventIterator::next", L+":TRACKER_SPEED_RATIO"])
p("max_events yields exactly that many events",
  "With max_events = N the combined iterator yields the first min(N, available) accepted events. (False: it yields N-1.)",
  "every N and stream", "all N", ["src/filters.rs", "src/state/mod.rs:SC2EventIterator::next"])
p("Loop filters bound every yielded event",
  "With min_loop/max_loop set every yielded event lies in the window. (True for tracker events; false for game events, which are not filtered by loop.)",
  "every filter and stream", "all filters", ["src/state/mod.rs:shoud_skip_event", "src/filters.rs"])
p("Filters never change the replay state",
  "The user/unit state after processing a stream does not depend on the filter settings: the same transitions are applied to filtered and unfiltered events; the yielded sequence with a filter is a subsequence of the one without.",
  "every stream and filter", "all combinations", ["src/state/mod.rs:SC2EventIterator::next"])
p("Player filter yields only that player's events",
  "With player_id set, each yielded event of a kind that names a player names that player.",
  "every filter and event", "all event kinds", ["src/state/mod.rs", "src/tracker_events"])
p("Unit tags are lossless",
  "unit_tag_index(unit_tag(i,r)) = i and unit_tag_recycle(unit_tag(i,r)) = r for all i < 2^14 and r < 2^18; and every 32-bit tag is the unit_tag of its two parts.",
  "all indexes and recycles, all tags", "2^32 values", ["src/tracker_events/mod.rs:unit_tag"])
p("Units map follows the life-cycle events",
  "After any tracker event sequence a unit index is present in the state iff its last life-cycle event (born/init/type-change vs died) is not a death; all other units are untouched by an event on one unit, except that a birth stamps the last-change loop of the creator it names.",
  "every finite event sequence", "unbounded histories", ["src/tracker_events/state.rs"])
p("Dead units leave every control group",
  "After a unit-died event no control group of any user (including the active selection) contains the dead unit. (False for tags as stored: groups hold full tags while removal compares the index.)",
  "every state and event", "unbounded histories", ["src/tracker_events/state.rs:handle_unit_died"])
p("Control groups behave like the in-game operations",
  "Set replaces the group by the active selection, Append unions (sorted, without duplicates), Recall makes the group the active selection, Clear empties; other groups and other users are untouched.",
  "every state and finite sequence of control-group and selection events", "unbounded histories", ["src/game_events/state.rs:update_control_group", "src/game_events/state.rs:handle_selection_delta"])
p("Steal variants remove the units from all other groups",
  "After SetAndSteal/AppendAndSteal no other control group contains a stolen unit. (False for group 9.)",
  "every state", "only visible for the last group", ["src/game_events/state.rs:update_control_group"])
p("Out-of-range control group ids are rejected, not fatal",
  "No decodable selection or control-group event panics. (False: ids 11..15 index out of bounds when the user is known.)",
  "every decodable event", "adversarial ids", ["src/game_events/state.rs"])
p("Selection marking is balanced",
  "Marking then unmarking a unit as selected restores its selected flag and radius; marking is idempotent, so repeated selection never compounds the radius.",
  "every unit and state", "histories", ["src/game_events/state.rs:mark_selected_units", "src/game_events/state.rs:unmark_previously_selected_units"])
p("Unit positions decode to absolute indexes",
  "to_unit_positions_vec of an item list of 3k+r integers returns k entries; entry i has unit index first_unit_index + sum of the deltas up to i and coordinates x*4, y*4; leftover r<3 items are ignored (as long as the running index and the scaled coordinates stay within i32).",
  "every list", "all lengths", ["src/tracker_events/unit_positions.rs"])
p("Player filter by name selects the last matching player",
  "set_player_id_from_user_name sets player_id to the tracker player id of the last matching user and leaves the filter unchanged when nobody matches. (False: it takes the working set slot id, which is another numbering and may be absent, clearing the filter.)",
  "every name and player list", "all lists", ["src/filters.rs"])
p("Replay discovery respects limits",
  "get_matching_files returns at most max_files paths, only .SC2Replay files within max_depth, no file twice, and all of them when max_files is at least their number.",
  "every directory tree, max_files, max_depth", "all trees", [L+":get_matching_files"])
p("Timestamps convert exactly",
  "transform_to_naivetime(utc, off) denotes floor-consistent Unix time utc/10 - epoch - off/10 microseconds: sub-second part in [0,1e9) ns and secs*1e6 + micros equal to it, for pre-1970 values too.",
  "every pair of i64 without overflow", "negative values", [L+":transform_to_naivetime"])
p("Protocol version dispatch",
  "Base builds <= 75689 are decoded with protocol 75689 and all later with 87702, by every reader alike.",
  "every u32 build", "2^32 builds", ["src/versions/mod.rs"])
p("Directory statistics are consistent",
  "scan totals: supported <= total, ability_supported <= supported, top lists have at most 10 entries sorted by count descending and contain a most frequent entry; serial and parallel scan agree.",
  "every set of files and every parallel split", "all schedules", ["src/dir_stats.rs"])
p("Lobby join pairs each player with their own slot",
  "Each PlayerLobbyDetails pairs a player with a lobby slot of the same working set slot id; players without one are dropped and order is kept.",
  "every details/init_data", "all lists", ["src/details.rs"])
p("Cache-handle text form is faithful",
  "The textual cache handle is the lowercase two-digit hex of its bytes (80 chars for 40 bytes), so distinct handles have distinct text; extension, region and hash are recovered from it.",
  "every 40-byte handle", "2^320", ["src/details.rs", "src/init_data/mod.rs"])
p("Parsed map bounds are consistent",
  "A MapInfo that parses has left<right<=width<=256 and bottom<top<=height<=256 (playable area inside the map).",
  "every byte string", "all inputs", ["src/cache_handles/map_info.rs"])
p("Parsed height maps are consistent with map info",
  "A T3HeightMap that parses has exactly (width+1)*(height+1) cells, each cliff level <= 4, with dimensions equal to the map info's terrain dims.",
  "every byte string", "all inputs", ["src/cache_handles/t3_height_map.rs"])
p("Document header parser consumes the header",
  "DocumentHeader::parse returns the input after the parsed header. (False: it returns a tail from before the attribute list.)",
  "every document", "all inputs", ["src/cache_handles/document_header.rs"])
p("Parallel arrow export counts each replay's rows once",
  "The total returned by the mutex-protected IPC writer equals the sum of the rows of every written batch, for every order in which workers acquire the lock; empty batches write nothing.",
  "every schedule", "all interleavings", ["src/arrow_store/ipc_writer.rs"])
p("Export source selection",
  "Only replays whose version is within [min,max] are exported and at most max_files of them, the limit applying after filtering.",
  "every list", "all lists", ["src/arrow_store/mod.rs"])
p("Ability command names are resolved deterministically with fixed precedence",
  "get_indexed_ability_command_name returns the ability command of the acting unit when one matches id and index, else train, build, research in that order; units without a match give the documented fallback.",
  "every balance table", "all tables", ["src/game_events/ability/balance_data/mod.rs"])
p("Balance data paths round-trip",
  "The version and unit name recovered from an asset path equal those used to build it exactly if the name contains no '/' and does not end in .json; a table of such names packed as assets is read back unchanged, in whatever order the assets are enumerated.",
  "every name", "all strings", ["src/game_events/ability/balance_data/json_handler.rs"])
p("Player stats name/value listing is complete",
  "as_prop_name_value_vec lists each of the 39 statistics once, under distinct names, with the value of that very field.",
  "every stats record", "all values, permuted fields", ["src/tracker_events/player_stats.rs"])

p("Init data is decoded with the layout of the replay's own protocol",
  "For base builds up to 75689, read_init_data decodes lobby slots with protocol 75689's own GameSLobbySlot layout. (False: ReplaySInitData and GameCLobbySlotArray of protocol75689 are re-exports of 87702's, so everything from m_handicap on is misread.)",
  "every lobby slot of every replay of those builds", "all replays of all older builds; the parser succeeds with wrong values", [P7+":bit_packed", "src/versions/mod.rs:read_init_data"])
p("Over-long VLQ integers are rejected",
  "A VLQ of more than ten bytes, which no i64 needs, is rejected. (False in release builds: shift amounts are masked and a wrong value is returned; debug builds panic.)",
  "every complete VLQ of more than 10 bytes", "unbounded family of inputs", [L+":parse_vlq_int"])

G="src/game_events/state.rs"; T="src/tracker_events/state.rs"; S="src/state/mod.rs"
p("Game events never create, remove, rename, move or transfer units",
  "Processing a game event leaves the set of known units, and each unit's type, owner, position and birth loop as they were, and changes nothing at all in units outside the acting user's selection before and after the event.",
  "every state and every game event", "all states reachable or not, all selections", [G+":handle_game_event"])
p("The unit stored under an index carries that index",
  "After any history the unit found in the state under an index has that tag index.",
  "every history from a new replay", "an invariant over unbounded histories", [T+":handle_tracker_event", G+":handle_game_event"])
p("Ownership changes are applied",
  "After a unit-owner-change event for a known unit the unit's owner is the new player. (False: the event is ignored. What is proved: the unit keeps its owner, so the claim holds exactly when the new owner is the old one, and a history with ownership changes ends as it would without them.)",
  "every state and event", "all states", [T+":handle_tracker_event"])
p("Selection deltas remove what the remove mask says and keep the rest",
  "After a selection delta the active selection is the old one without the units the remove mask names, plus the added units. (False: the mask is ignored and the added list replaces the selection.)",
  "every state and delta", "all masks and selections", [G+":handle_selection_delta"])
p("A unit is marked selected iff it is in somebody's active selection",
  "After any history a known unit is marked as selected exactly when its index occurs in the active selection of some user. (False: saving a control group unmarks without deselecting.) After a selection delta the units added are marked and the acting user's former selection is not; and marks and selections agree after every history in which groups are only recalled, no two users select one unit, and no index is reused while selected.",
  "every history", "history dependent", [G+":mark_selected_units", G+":unmark_previously_selected_units", G+":update_control_group"])
p("An unselected unit has the radius of its type",
  "After any history, a unit not marked as selected has the radius balance data gives its type. (False: a type change while selected resets the radius and the later unmark halves it.) It holds as long as only game events follow the birth.",
  "every history", "history dependent", [S+":set_unit_props", G+":unmark_previously_selected_units"])
p("Change hints report units as they are in the state",
  "Every changed unit reported in the hint that accompanies an event equals the unit in the replay state after that event. (False for re-selecting a selected unit, for recalls, and for an init at an occupied index.)",
  "every reachable state and event", "all states", [S+":UnitChangeHint", G+":handle_selection_delta", T+":handle_unit_init"])
p("The unit-tag and event-type filters are honoured",
  "With unit_tag or event_type set, only matching events are yielded. (False: both fields are never read, so they never change what is yielded.)",
  "every filter, stream and state", "all runs", ["src/filters.rs:SC2ReplayFilters", S+":shoud_skip_event"])
p("Player-name lookup does not depend on hash-map order",
  "The player name attached to a unit or upgrade is the same for every iteration order of the user map, provided no two users were set up with the same tracker player id.",
  "every user map and every permutation of it", "hash iteration order is random per run", [T+":get_player_name_by_tracker_control_player_id"])
p("Unit position decoding never overflows",
  "to_unit_positions_vec neither panics nor returns wrapped values for any decodable event. (False: i32 arithmetic overflows on large deltas and coordinates.)",
  "every decodable position event", "needs extreme values", ["src/tracker_events/unit_positions.rs:to_unit_positions_vec"])
p("Time stamps of units are consistent",
  "After any history with non-decreasing loops, a unit's birth loop is at most its last-change loop, and both are loops of processed events.",
  "every history", "an invariant over unbounded histories", [T, G])
p("Control groups hold only tags their user selected",
  "After any history every tag in a user's control groups occurred in the add list of a selection delta of that same user.",
  "every history from a new replay", "an invariant over unbounded histories", [G+":update_control_group", G+":handle_selection_delta"])
p("Users are isolated",
  "A game event of one user leaves every other user's control groups, camera and identity unchanged.",
  "every state and game event", "all states", [G+":handle_game_event"])
p("A user's camera is the last one reported",
  "After any history a user's camera is the target of that user's last camera save or camera update that carries a target, or the initial one.",
  "every history", "unbounded histories", [G+":handle_camera_save", G+":handle_camera_update"])
p("Type, owner and construction flag are determined by the unit's own life-cycle events",
  "After any history a unit's type, owner and under-construction flag are those obtained by folding just the birth, init, type-change, done and death events of its own index.",
  "every history", "unbounded histories", [T+":handle_tracker_event"])
p("A birth gives the unit the type, owner and position of the event",
  "After a unit-born event the unit at that index has the event's type, owner and position. (False at an occupied index: only the creator ability and loop are updated.)",
  "every state and birth event", "all states", [T+":handle_unit_born"])

p("The player filter selects one person's events",
  "With player_id set, all yielded events that concern a person (the issuer of a game event, the owner named by a tracker event) concern the same person. (False: tracker events are matched by tracker player id, game events by user id, and these numberings differ.)",
  "every replay and player_id", "all runs", [S+":should_skip", "src/filters.rs:SC2ReplayFilters"])
p("Statistics and unit-name filters",
  "PlayerStats events are yielded only with include_stats; with unit_name set every yielded event that carries a unit type name (born, init, type change) carries that one.",
  "every byte content of both sectors and every filter", "all runs", [S+":should_skip", "src/tracker_events/player_stats.rs:should_skip", "src/tracker_events/unit_born.rs:should_skip"])
p("Every call of the combined iterator returns",
  "For arbitrary bytes in both sectors and any filters, each next() call returns after finitely many rounds, and the total number of yielded events is at most the number of bytes.",
  "every byte content, filter and number of earlier calls", "termination on arbitrary input", [S+":next"])
p("The combined iterator panics on no bytes except for control groups above 10 (release)",
  "In a release build, for arbitrary bytes in both sectors and any filters, each next() call returns Some or None; the only exception is a selection or control group event of a known user with group id 11..15.",
  "every byte content, filter and number of earlier calls", "all inputs", [S+":next", S+":handle_transition_to_next_event"])

MI="src/cache_handles/map_info.rs"; T3="src/cache_handles/t3_height_map.rs"; DH="src/cache_handles/document_header.rs"
p("MapInfo files are read exactly by their layout",
  "MapInfo::parse accepts exactly the byte strings that start with a MapInfo layout (magic, version, 8 extra bytes for versions above 24, sizes, padding, four zero-terminated strings, four bounds) with acceptable bounds, returns what that layout says and the bytes after it, and never panics.",
  "every byte string", "unbounded input", [MI+":MapInfo::parse"])
p("Height map files are read exactly by their layout",
  "For every map of 0..256 cells each way, T3HeightMap::parse accepts exactly the files with the map's terrain dimensions and (width+1)*(height+1) six-byte records whose fifth byte is at most 4, and returns these bytes in file order, identically in debug and release builds.",
  "every map size up to 256x256 and every byte string", "all sizes and contents", [T3+":T3HeightMap::parse"])
p("Document headers are read exactly by their layout",
  "DocumentHeader::parse accepts exactly the inputs starting with a Void-mod document header; name and descriptions are the last attribute of that name (empty if absent), unknown attributes are ignored, and it never panics.",
  "every byte string, any number of attributes", "unbounded input", [DH+":DocumentHeader::parse", DH+":set_field_by_name"])
p("Loops convert to seconds monotonically and accurately",
  "convert_game_loop_to_seconds never maps a later loop to an earlier second, maps negative loops to 0, is within rounding of loop*68.58391 ms for loops below 2^24, and convert_tracker_loop_to_seconds agrees with it on every i64.",
  "every i64 loop", "three chained f32 roundings over 2^64 inputs", [L+":convert_game_loop_to_seconds", L+":convert_tracker_loop_to_seconds"])

D="src/details.rs"; ID="src/init_data/mod.rs"; E8="src/versions/protocol87702/events/"
p("Details are converted completely and without truncation",
  "Reading replay.details succeeds exactly when the bytes start with an encoding of the details value whose texts are UTF-8 and whose numbers are in the range of the public types; the result has every player in order with exactly the fields of the file, and no bytes make a release build panic.",
  "every byte string", "unbounded input; conversions of every field", [D, E8+"details.rs"])
p("Flattening a player's lobby details never panics",
  "The flat row of a player's lobby details joins all cache handles with commas and takes extension and region from the first one, for every list of handles. (False: it panics, exactly when one of the handles has fewer than eight bytes.)",
  "every list of cache handles", "all lists", [D+":PlayerLobbyDetailsFlatRow"])
p("Init data are converted completely and without truncation",
  "Reading replay.initData succeeds with a result exactly when the bits start with an encoding of the protocol value that the result writes back to (every member of every user, slot and the description, in order) and all texts are UTF-8; no bytes make a release build panic.",
  "every byte string", "unbounded input; 100 fields with casts", [ID, E8+"init_data.rs"])
p("Init data written by the format are read back unchanged",
  "Encoding init data in the bit-packed format and reading them gives the same init data. (False for empty texts: they come back as a one-character text.)",
  "every init data value", "all values and alignments", [ID, E8+"init_data.rs", "src/versions/mod.rs"])
p("Archives that are not replays are reported as errors, not panics",
  "Opening a file whose content is not a replay (no user-data header, header without the replay signature) gives an error. (False: the signature assertion and the missing user-data header panic.)",
  "every archive", "all archives", ["src/common.rs", "src/versions/mod.rs:read_details", "src/lib.rs"])
p("A joined lobby row carries the lobby name of the user in its slot",
  "A PlayerLobbyDetails row carries the name, clan tag and rating of the lobby user whose id is the user id of the matched slot. (False: the user list is indexed by the slot's position in the slot list.)",
  "every details and init data", "all pairs of lists", ["src/details.rs:PlayerLobbyDetails", "src/init_data/mod.rs"])
p("A freshly opened combined iterator starts from the initial state",
  "Opening the combined iterator on a readable replay gives a state with no units, and for each user id exactly one user, named after the last joined row with that user id, with empty control groups and no tracker ids.",
  "every replay", "all replays", ["src/state/mod.rs:SC2EventIterator::new", "src/state/mod.rs:SC2ReplayState"])
p("The combined iterator uses only balance data of the replay's own version",
  "The balance data attached to a new combined iterator is exactly the table's entries for the replay's version, for every order in which the hash map is traversed.",
  "every balance table and iteration order", "all hash orders", ["src/state/mod.rs:SC2EventIterator::new", "src/game_events/ability.rs"])
p("Directory statistics are deterministic",
  "Scanning the same directory twice gives the same statistics, whatever the iteration order of the hash maps used for counting. (False: titles and players with equal counts are ordered, and cut off at ten, in hash order; the totals and the lists of counts are determined.)",
  "every directory and hash order", "all hash orders", ["src/dir_stats.rs:scan_path"])
p("Files that cannot be read are skipped by a scan",
  "A directory scan returns statistics of the readable replays whatever else the directory holds. (False: an archive that is not a replay panics the scan; files that give an error are skipped.)",
  "every directory", "all directory contents", ["src/dir_stats.rs:scan_path", "src/common.rs"])
p("An export with nothing to export returns an error",
  "Exporting from a source without matching replays returns an error to the caller. (False: it panics; it never returns an error for that reason.)",
  "every directory and filter", "all directory contents", ["src/arrow_store/mod.rs"])
p("Tracker events carry the values of their own wire fields",
  "Every event in the list of tracker events is an event of the file, of the same kind, and every public member has exactly the value of the wire field of the same name (supply in units of 1/4096); an event of the file is missing from the list iff one of its texts is not UTF-8.",
  "every byte content of the tracker sector", "unbounded input; 80 fields", [E8+"tracker/mod.rs", "src/tracker_events"])
p("Game events carry the values of their own wire fields",
  "Every event the game-event reader lists is an event of the file: it has the kind of its wire event and every public member has exactly the value of the wire field of the same name (no truncation, no swap), with the wire event's own user id and delta; the list is in file order and lacks exactly the events of kinds without a public event.",
  "every byte content of the game sector", "unbounded input; all event kinds and their nested fields with casts", [E8+"game", "src/game_events"])
p("Chat messages carry recipient and text of their own wire fields",
  "Every message the message reader lists is one of the file with the same recipient and text (the bytes, valid UTF-8), with its own sender and delta, and every chat message of the file whose text is UTF-8 is listed, in file order.",
  "every byte content of the message sector", "unbounded input", [E8+"message", "src/message_events"])
p("The statistics and upgrade tables hold every such event of the file",
  "The statistics (upgrade) table of a replay has exactly one row per statistics (upgrade) event of the tracker sector, in file order, and every column has the value of the event's field of the same name. (False when some unit type name of the sector is not UTF-8: events after it may be missing.)",
  "every byte content of both sectors", "unbounded input; 39 columns", ["src/state/mod.rs:SC2EventIterator", "src/tracker_events/arrow_store"])
p("The unit table has one row per birth, completion and type change",
  "In merged event order the unit table has one row per unit birth, and one per completion or type change of a unit known at that time, with that unit's id, position, owner, the type name after the event and (type change) the type name before it.",
  "every history of events", "unbounded histories", ["src/state/mod.rs:SC2EventIterator", "src/tracker_events/arrow_store"])
p("The death table has one row per death of a known unit",
  "In merged event order the death table has one row per death of a unit known at that time, naming victim and killer as they were known at that time (empty if the killer is unknown or the victim itself).",
  "every history of events", "unbounded histories", ["src/state/mod.rs:SC2EventIterator", "src/tracker_events/arrow_store"])
p("The command tables have one row per selected unit",
  "For every command with an ability that is aimed at a point (at a unit) the table has one row per known unit of the user's active selection at that time, in selection order, with the command's fields and the unit's name; other commands have no rows.",
  "every history of events", "unbounded histories and selections", ["src/state/mod.rs:SC2EventIterator", "src/game_events/arrow_store/cmd_event_flat_row.rs"])
p("A command row names the ability of its own unit",
  "The ability column of a command row is the ability the row's unit has for the command's ability link. (False: all rows of a command show the ability of the last selected unit.)",
  "every history of events", "unbounded histories and selections", ["src/state/mod.rs:SC2EventIterator", "src/game_events/arrow_store/cmd_event_flat_row.rs", "src/game_events/state.rs"])
p("A unit-command row names the targeted unit",
  "target_unit_name is the name of the unit the command's tag refers to if that unit is known. (False: the unit is looked up under the whole tag instead of the tag's index.)",
  "every history of events", "unbounded histories", ["src/state/mod.rs:SC2EventIterator", "src/game_events/arrow_store/cmd_event_flat_row.rs", "src/game_events/state.rs"])
p("Producing a table terminates and does not crash",
  "Whatever bytes the tracker and game sectors hold, producing any table returns after at most one round per byte; in release builds it does not panic unless a user of the lobby uses a control group from 11 to 15.",
  "every byte content of both sectors, every filter", "unbounded input", ["src/state/mod.rs:SC2EventIterator", "src/game_events/state.rs"])
p("The lobby user table has one row per lobby user",
  "The user table of a replay has exactly one row per user of the lobby, in order, with the user's position, name, clan tag (empty if none) and rating, and the replay's file id, hash and name.",
  "every init data", "all user lists", ["src/init_data/arrow_store.rs"])
p("A successful table export holds the rows of every source",
  "When an export of a table over many replays returns success, the file holds exactly the rows of the tables of all sources that can be opened, each source's rows together and in order, whatever the schedule of the workers. (False: a failing write is only logged.)",
  "every set of sources, every schedule", "all interleavings and failure points", ["src/arrow_store/mod.rs", "src/arrow_store/ipc_writer.rs"])
p("A source that cannot be processed is left out of an export and does no harm",
  "An export skips the sources that cannot be processed and writes the others. (False: sources that give an error are skipped, but one that panics aborts the whole export.)",
  "every set of sources, every schedule", "all interleavings", ["src/arrow_store/mod.rs", "src/arrow_store/ipc_writer.rs"])
p("The details table has one row per joined player",
  "The details table has one row per player joined to a lobby slot, sources and players in order, and every column has the value of the member it is named after; a source whose details cannot be read adds no row.",
  "every list of sources", "all sources", ["src/arrow_store/mod.rs:handle_details_ipc_cmd", "src/details.rs:PlayerLobbyDetailsFlatRow"])
p("Balance data written to disk are read back unchanged",
  "Writing balance data to an empty directory and reading the directory gives the same table, whatever the order of writing and listing. (False for unit names that contain '/' or end in .json.)",
  "every table, every hash order and directory order", "all tables and orders", ["src/game_events/ability/balance_data/json_handler.rs"])
p("Reading a balance data directory does not depend on the order of its entries",
  "The table read from a directory is the same for every order in which the file system lists it. (False: directories such as '1' and '01' stand for the same version and the last one wins.)",
  "every directory and order", "all orders", ["src/game_events/ability/balance_data/json_handler.rs"])
p("Reading the game's balance data export keeps every unit",
  "Reading an XML export fails only if some *.xml file of a numbered version is not text; otherwise the table holds exactly the units of the *.xml files that hold one, under the directory's version and the unit's own id, and files that are no units are left out.",
  "every directory", "all directory contents", ["src/game_events/ability/balance_data/mod.rs:traverse_versioned_balance_abilities"])
p("A unit's colour is that of its type and owner",
  "At every point of every history each unit has the colour of its current type, or of its owner if its type has none of its own. (False when a construction starts on the index of a living unit: the unit is renamed and keeps its colour.)",
  "every history of events, every balance data", "all histories", ["src/state/unit_props.rs:get_unit_sized_color", "src/tracker_events/state.rs"])
p("A command is recorded on every living unit of the issuer's selection",
"When a user issues a command, or updates its target point or target unit, every living unit in that user's active selection gets the command the event describes (flags, ability with the name it has for the unit's own type, target, sequence, other unit, unit group) and no other unit's command changes; the command stays until the unit is commanded again or dies, and a unit never commanded has an empty command.",
"all reachable states, users, events, and all histories before and after the command",
"The stored command depends on the selection at the time and on everything that follows; tests look at a few replays.",
["src/game_events/state.rs: handle_cmd, handle_update_target_point, handle_update_target_unit","src/state/unit_cmd.rs: SC2UnitCmd"])
p("Command target points are exact map cells",
"A target point (or target snapshot point) of a command read from any game event file is stored on the unit as x/4096, -y/4096, z/4096 with x and y exact and the height off by at most one part in 2^24.",
"all byte strings accepted as a game event file, all commands in them",
"Rounding of integers to f32 happens only for some values out of billions.",
["src/common.rs: From<GameSMapCoord3D> for Vec3D","src/game_events/state.rs: GAME_EVENT_POS_RATIO"])
p("A unit's position is the last one reported for it",
"After any history a living unit is where its birth, construction or last position entry put it, in exact map cells; positions of other units, commands and selections never move it.",
"all histories of tracker and game events whose position entries have indexes below 2^31 and coordinates within 2^22",
"Position events address units by accumulated deltas, in any order, repeated, interleaved with births and deaths.",
["src/tracker_events/state.rs: handle_unit_position, handle_unit_born, handle_unit_init","src/tracker_events/unit_positions.rs"])
p("Every variant of a generated choice can be read",
"The tag of a choice or enum in a generated bit-packed parser has room for every variant and no spare bit, so every variant is read back with its payload. (Partly false: the width comes from the number of variants, so a variant whose tag is not below it can never be read; in the shipped parsers all tags fit.)",
"all protocol descriptions, all variants and payloads, all bit offsets; all choices of the shipped protocols",
"The generator accepts any protocol description; the shipped parsers have dozens of choices with up to 120 variants.",
["src/generator/decoder_type.rs: open_bit_packed_choice_main_parse_fn, open_bit_packed_enum_main_parse_fn"])
p("A generated integer parser reads every value of its range",
"A generated bit-packed integer parser reads back every value its constraint admits, and reads no more bits than the range needs. (Partly false: ranges with a negative lower bound larger than the upper bound are cut off, ranges that start above 0 get too many bits.)",
"all integer constraints, all admitted values, all bit offsets",
"All bounds, inclusive or exclusive, written as number or power.",
["src/generator/decoder_type.rs: bounds_max_value_to_bit_size, open_bit_packed_int_main_parse_fn"])
p("Generated array and string parsers read every admitted length",
"A generated array (string) parser reads back every array (non-empty string) of a length the constraint admits, with no more length bits than needed. (The second part is false when the number of possible lengths is a power of two.)",
"all length constraints up to 2^16, all arrays and strings, all element types",
"Every bound, length and content.",
["src/generator/decoder_type.rs: open_bit_packed_array_main_parse_fn, open_bit_packed_string_main_parse_fn"])
p("A generated parser of a fixed-size blob returns the whole blob",
"A generated parser for a blob of exactly n bytes returns n bytes. (False for every n from 2: it reads as many bits as the number n has; the shipped 40-byte parsers were corrected by hand and are right.)",
"all sizes, all inputs",
"Every size and input.",
["src/generator/decoder_type.rs: open_bit_packed_blob_main_parse_fn","src/versions/protocol87702: CCacheHandle"])
p("A map coordinate and its cell agree",
"Converting a map coordinate to a cell gives the cell it lies in, a cell is mapped to its centre, and a cell survives the way to map coordinates and back. (The last is false for every negative cell: it comes back as its right neighbour.)",
"all f32 coordinates from 0 to 2^31, all cells within 2^23",
"Truncation and f32 rounding go wrong only at particular values.",
["src/cache_handles/map/coords.rs: From<MapCoord> for MapCellCoord, From<MapCellCoord> for MapCoord"])
p("A map coordinate is put on the nearest terrain point",
"Converting a map coordinate to a terrain point gives a nearest point, and a terrain point survives the way to map coordinates and back. (False for exactly one f32 from 0 to 2^22, the largest below one half, and for negative points.)",
"all f32 coordinates from 0 to 2^22, all terrain points within 2^23",
"The only wrong coordinate among more than a billion is the float below one half.",
["src/cache_handles/map/coords.rs: From<MapCoord> for MapTerrainCoord, From<MapTerrainCoord> for MapCoord"])
p("The corners of the playable area agree with its size",
"For every accepted map file whose corners are not negative the right top cell corner is the left bottom one plus the playable size, playable terrain coordinates count from the left bottom corner, and the terrain corners span the playable terrain size. (The last is false: terrain_right_top is the size of the whole map plus one.)",
"all byte strings accepted as MapInfo, all terrain points",
"All combinations of crop and size.",
["src/cache_handles/map_info.rs: cell_left_bottom, cell_right_top, terrain_left_bottom, terrain_right_top, cell_dim_playable","src/cache_handles/map/coords.rs: PlayableTerrainCoord::from_map_terrain"])
A="src/arrow_store/mod.rs: handle_write_snapshot"
W="src/arrow_store/ipc_writer.rs: write_batches, open_arrow_mutex_writer, close_arrow_mutex_writer"
p("Crash points of a snapshot","Whenever the writing of a snapshot is killed, panics or returns, the seven files (details, stats, upgrades, unit_born, unit_died, cmd_target_point, cmd_target_unit, in this order) split into: files that are complete and hold whole batches of this run, at most one file that is as before or cut off, and files that are exactly as before the run; so at most one file that was readable before is unreadable.","every content of the sources and of the output directory, every schedule of the workers, every I/O failure, every moment","a test sees one crash at one moment",[A,W])
p("A completed snapshot","When writing a snapshot returns success, all seven files are complete and of this run whatever the directory held before (all rows, if no write failed); a run ends after a bounded number of steps, can always continue, from every directory (e.g. the one a crash left) a run without I/O failures to success exists if no source panics, and without I/O failures the result is decided by the sources alone.","every content of the sources and of the output directory, every schedule of the workers and failure pattern","previous directory contents and schedules are unbounded",[A,W,"src/arrow_store/mod.rs: handle_tracker_events, handle_game_events, handle_details_ipc_cmd"])
p("Readable snapshot files belong together","At every moment the readable files of a snapshot directory come from one and the same run.","every earlier content of the directory, every schedule, failure and moment","needs every interleaving of two runs with a crash",[A,W])
p("A failed snapshot keeps the earlier one","If writing a snapshot fails because of its sources, the files of the earlier snapshot are untouched.","every source content, schedule and directory","needs every failing source and every schedule",[A,W])
p("Contents of a snapshot","After a successful snapshot without failing writes, the details file has the rows of the details table in order, and every other file has exactly the rows its collector makes of the sources that can be opened, each source's rows together, nothing else.","every list of replays, balance table, schedule and directory","the number of sources, rows and schedules is unbounded",[A,W,"src/arrow_store/mod.rs: handle_tracker_events, handle_game_events, handle_details_ipc_cmd"])
G="examples/cli/cmd_get.rs: handle_get_cmd"
p("File names do not matter","The statistics of a directory scan and the event tables of an export depend on the contents of the files in their order, not on what the files are called. (False for a name that is not UTF-8: the scan panics and the export silently takes nothing from the file.)","all lists of files, all contents, all names","needs every pair of names and contents",["src/dir_stats.rs: try_read_init_data","src/init_data/mod.rs: TryFrom<(PathBuf, u64)> for InitData"])
p("get prints every event once, in order","get tracker-events and get game-events of a readable replay print, between the brackets, every tracker (game) event of the replay exactly once and in the order of the stream, as seen by the merged iterator; message-events prints every message, details and init-data exactly their document.","all replays with well-formed event streams, all options","streams have any length and interleaving",[G])
p("get prints a JSON array","The output of a successful get of events is a JSON array of the events. (False as soon as two events are printed, and for transist-events as soon as one is: the elements are not separated, or the last is followed by a comma.)","all replays, all options","needs every number of events",[G])
p("One bad file does not stop get","When the source is a directory, get prints the output of every readable replay in it, also when other files of the directory are not replays. (True for files that cannot be read or are not archives; false for an archive without the replay sectors: the command ends with its error and later files are not printed.)","all directories and contents","needs every content of the other files",[G])
p("get of a directory takes its replays","With a directory as source, get reads the replay files below it. (False: exactly the files directly in the directory are read, whatever their names, and subdirectories are not entered.)","all directory trees","needs all trees and names",[G])
p("The filter options restrict get","The options --min-loop, --max-loop, --player-id, --unit-name, --include-stats and --max-events restrict the events printed by get to those wanted. (True for transist-events, up to one event fewer than --max-events; false for tracker-events and game-events, which ignore all of them.)","all replays, all combinations of options","combinations of six options and any event stream",[G,"examples/cli/mod.rs: Cli, From<Cli> for SC2ReplayFilters"])
p("--quiet only silences","With --quiet get prints nothing and otherwise ends as without it. (True for transist-events only.)","all replays and options","needs all replays, also failing ones",[G])
p("write-arrow-ipc from directory to table","If write-arrow-ipc succeeds without a failing write and no limit cuts off, a row is in an event table iff it is a row of some replay file within the depth limit that can be read, has a version in the asked range and can be encoded.","all directory trees, contents, options and schedules","needs all trees, contents and schedules",["src/arrow_store/mod.rs: handle_arrow_ipc_cmd","src/lib.rs: get_matching_files"])
p("Generated bit-packed parsers read what the description says",
"For every protocol description of the bit-packed module, the parser that the generator writes for a declared type reads every described value back from its described wire form and stops exactly at its end. (True for the descriptions without the constructs below and values without empty strings; false for optional integers, strings inside structs, declared arrays whose number of lengths is a power of two, signed integers inside structs, and bit arrays inside structs, which have no parser.)",
"all type descriptions of any size and depth, all described values, all positions in the input",
"The descriptions and their values are unbounded trees; tests see the bundled protocols only.",
["src/generator/decoder_type.rs: gen_bit_packed_proto_struct_code, gen_bit_packed_proto_choice_code, bit_packed_from_nnet_name, open_bit_packed_int_main_parse_fn, open_bit_packed_array_main_parse_fn","src/generator/proto_morphist.rs: ProtoMorphist::gen_proto_code"])
T="examples/tui/mod.rs: "
p("The quick header reader agrees with the full one",
"ProtocolHeader::parse on the bytes of a replay header gives the signature and version that the full header parser gives, and accepts every header the full parser accepts. (The first is true; the second holds for headers whose members come in the usual order and numbering, and is false for others: it insists on signature and version as the first two of nine members.)",
"all byte strings",
"needs every encoding of a header",
["src/protocol_version_decoder.rs: ProtocolHeader::parse, parse_m_signature, read_protocol_header"])
p("The terminal interface steps through the events",
"The interface passes over the events of loop 0, then shows the first later event; every press of the next key moves on by exactly one event of the merged order and shows the map after exactly the events up to it, other keys change nothing, and after the quit key nothing happens; it always starts and answers every key.",
"all replays, filters and key sequences",
"any number of events and keys",
[T+"S2ProtoRatatuiApp::new, run, handle_key_press"])
p("The selection panels show the players' selections",
"Panel 0 shows the units selected by user 0 and panel 1 those of user 1, and every user's selection is shown. (True: each panel shows the whole selection of one user, different ones, and all of them if there are at most two. False: which user a panel shows depends on hash order, and a third user is not shown.)",
"all states reached and all iteration orders of the user map",
"iteration orders vary from run to run",
[T+"selected_player_units, draw"])
p("Players and cameras have the player's colour",
"In the terminal interface a player's lines and camera rectangle are drawn in the colour the replay gives the player. (True for the lines if slots are distinct, and for cameras of users whose id is the slot number; false otherwise, e.g. with observers among the users.)",
"all lobbies and details files",
"needs every numbering of users and slots",
[T+"get_player_color, details_canvas, map_canvas"])
p("Positions and command targets use one coordinate system",
"A unit ordered to the map point where it stands has a stored target point equal to its stored position. (False: the y of targets is negated and that of positions is not; they agree exactly on y = 0.)",
"all histories, units and map points",
"needs every point and history",
["src/common.rs: From<GameSMapCoord3D> for Vec3D","src/tracker_events/state.rs: handle_unit_born, handle_unit_position","src/game_events/state.rs: handle_update_target_point"])
p("Equal units are the same unit",
"Two units compare equal exactly if they are the same unit, and their order is a total order that agrees with it. (True for the units of one state; false for units taken at different moments, as indexes are reused.)",
"all histories and pairs of units",
"histories of any length",
["src/state/mod.rs: impl PartialEq, Eq, PartialOrd, Ord for SC2Unit"])
p("Generated modules parse each event behind its own id",
"In a generated module the struct parsed behind a value of an enumeration is the struct of the description that declares this value as its constant; values that no struct declares have no payload. (True if no two structs have a constant of the same converted name and all are in the game and replay modules; false otherwise: the first one wins silently, names that differ only by dots are the same, structs of other modules are ignored.)",
"all protocol descriptions, all enumerations and values, all case conversions",
"descriptions are unbounded; tests see the bundled protocols only",
["src/generator/proto_morphist.rs: collect_enum_tags, fill_module_decl_structs, str_nnet_name_to_rust_name","src/generator/decoder_type.rs: gen_agnostic_proto_enum_code"])
p("Balance units survive being written as JSON",
"Every balance unit written with write_balance_data_to_json is read back equal, from a directory or from the packed assets, whatever order the members of its objects are stored in. (False: the version is not written and comes back as 0, and a number that is not finite is written as null, which is read as absent or makes the file unreadable. True of everything else, and exactly of the units with version 0 and finite numbers; in particular of all units that were read from JSON and have finite numbers.)",
"all units, all member orders, all tables",
"34 nested structs with optional parts and lists of any length",
["src/game_events/ability/balance_data/json_handler.rs: write_balance_data_to_json, read_balance_data_from_json_dir, read_balance_data_from_included_assets","src/game_events/ability/balance_data/mod.rs: VersionedBalanceUnit and the structs in it (serde attributes)"])
p("Which JSON files are balance units",
"The order of members does not matter; members with unknown names are ignored; an optional element that is absent is read as null and one with a default as its default; an element given twice, or a required one that is absent, makes the file unreadable.",
"all JSON trees and all structs, at any depth",
"the files are unbounded trees",
["src/game_events/ability/balance_data/json_handler.rs: read_balance_data_from_json_dir, read_balance_data_from_included_assets","src/game_events/ability/balance_data/mod.rs: serde attributes of VersionedBalanceUnit and the structs in it"])
p("Events printed as JSON are read back",
"Every item of the merged event stream, tracker event, game event, chat or ping message, details and init data that is printed as JSON is read back as the same value by the same types, whatever order the members of the objects are stored in, and different values are printed differently. (True of everything except items with a unit whose radius or position is not a finite number: the number is printed as null and the item cannot be read back.)",
"all values of the six types, all member orders",
"124 nested types with enums, optional parts, arrays and lists of any length",
["examples/cli/cmd_get.rs: get","src/state/mod.rs: SC2EventIteratorItem","src/tracker_events/mod.rs: TrackerEvent","src/game_events/mod.rs: GameEvent","src/message_events.rs: MessageEvent","src/details.rs: Details","src/init_data/mod.rs: InitData"])
p("A saved iterator is read back",
"An SC2EventIterator serialized at any moment (it implements Serialize and Deserialize) is read back equal, so that iteration can be resumed. (Everything is: unread bytes and positions, pending events, units, control groups, filters; except that the version of the balance units comes back as 0, and that an iterator with a number that is not finite cannot always be read. An iterator read from a file is always saved and read without a change if its numbers are finite.)",
"all iterator values, all member and hash map orders",
"the state is unbounded: maps of units, of users and of balance units, remaining bytes",
["src/state/mod.rs: SC2EventIterator, SC2ReplayState, SC2UserState, SC2Unit","src/tracker_events/iterator.rs: TrackertEventIteratorState","src/game_events/iterator.rs: GameEventIteratorState","src/filters.rs: SC2ReplayFilters"])
p("Rows of a snapshot can be joined by ext_fs_id",
"After a snapshot succeeded the number in column ext_fs_id of any row of any of its seven tables is the position of a path in the list of scanned files; that file was read, its replay selected, and the row is one of that replay. Rows of any two tables have the same number exactly when they come from the same replay, and the details rows with that number carry the name and hash of that file. Every replay with rows in some table has rows in the details table. (The last sentence is true of replays with at least one player whose lobby slot is found; false of a replay that has events but no such player.)",
"all worlds of files, version limits, schedules, directory contents before the run, and all runs that end in success",
"the number of files, rows and schedules is unbounded",
["src/arrow_store/mod.rs: handle_arrow_ipc_cmd, handle_write_snapshot, handle_tracker_events, handle_game_events, handle_details_ipc_cmd","src/details.rs: TryFrom<&InitData> for Vec<PlayerLobbyDetails>","src/tracker_events/arrow_store, src/game_events/arrow_store: new"])
p("Cut-off event sectors",
"What is left of an event sector that was cut short never yields an event that is not in the whole sector, or at another place or game loop. The event lists of a well-formed sector that was cut: an error if the cut lies inside an event (or nothing is left), exactly the events before the cut otherwise. The lazy iterators over any bytes: an initial part of what they yield over the whole sector, and every event that lies completely before the cut.",
"all sectors (for the iterators: all byte strings), all cut points, any number of calls, both builds for game and message events",
"a cut at every byte of every sector would have to be tried",
["src/versions/protocol87702/events/tracker/mod.rs: read_tracker_events","src/versions/protocol87702/events/game/mod.rs: read_game_events","src/versions/protocol87702/events/message/mod.rs: read_message_events","src/tracker_events/iterator.rs","src/game_events/iterator.rs"])
p("The tracker tables do not depend on the game sector",
"The unit, death, statistics and upgrade tables of a replay are determined by its tracker events and its players: with any other bytes in the game sector (other commands, selections, cameras, another protocol version, none at all) each of the four tables that is produced is the same.",
"all tracker sectors, all pairs of game sectors and versions, all player sets",
"the tables are computed by merging the two sectors and carrying one state through both kinds of events; non-interference is a property of pairs of runs",
["src/tracker_events/arrow_store","src/tracker_events/state.rs: handle_tracker_event","src/game_events/state.rs: handle_game_event","src/state/mod.rs: SC2EventIterator::next"])
p("Tables are computed in the order of the game loops",
"The combined iterator delivers the events of a replay, and each table is computed from them, in the one order that keeps each stream in file order, sorts by game loop and puts game events before tracker events of the same loop; and two replays with the same known events at the same loops, whatever their bytes and unknown events, give the same tables. (False for game loops above 2^24, which are compared after rounding to f32: a command may be processed before the earlier birth of its unit and is then missing.)",
"all well-formed sectors with readable names, any number of calls, all pairs of replays",
"order and state are intertwined over unbounded histories; the second part is about pairs of replays",
["src/state/mod.rs: SC2EventIterator::next","src/tracker_events/arrow_store","src/game_events/arrow_store"])
p("Debug and release builds agree",
  "If a debug build of any reader, iterator, table, export task, directory scan, the get command or the terminal interface does not panic on an input, the release build gives the same outcome on it: same values, same errors, same iterator state after any number of calls; a debug get command that panics has printed a prefix of what the release build prints.",
  "all archives and sector bytes, all protocol versions, all states and event histories, all numbers of calls, all key sequences, all directory trees and ways of splitting the parallel work",
  "agreement has to hold on every input; the builds differ exactly on inputs that overflow somewhere, and a wrapped number could be used in a way a test does not look at",
  ["src/lib.rs: parse_vlq_int, get_matching_files, transform_to_naivetime", "src/bit_packed_decoder.rs: parse_packed_int", "src/tracker_events/unit_positions.rs: to_unit_positions_vec", "src/versions/mod.rs", "src/state/mod.rs: SC2EventIterator::next", "examples/cli/cmd_get.rs: handle_get_cmd", "Cargo.toml"])
p("Balance data only name abilities and size units",
  "Reading the same replay with any two sets of balance data gives the same tables of statistics, upgrades, births and deaths (or the same error), and the same command tables but for the column with the name of the ability; the events and hints yielded by the combined iterator, with any filters, and the state after any history, differ only in ability names and unit radii. If the balance data have no entry for the version of the replay, every ability name is the empty string: in the commands the iterator yields, in the command tables and in the commands units remember.",
  "all file contents, balance tables, filters, versions, histories of events",
  "The balance data is a runtime input of thousands of entries; that nothing else flows from it (units, selections, order, filters, panics) is a two-run property of every handler over every history.",
  ["README.md:101", "src/state/unit_props.rs:get_unit_sized_color", "src/game_events/state.rs:handle_cmd", "src/game_events/ability/balance_data/mod.rs:get_indexed_ability_command_name", "src/state/mod.rs:SC2EventIterator", "src/state/mod.rs:collect_into_game_cmd_target_points_flat_rows"])
JD="src/game_events/ability/balance_data/json_handler.rs: write_balance_data_to_json"
JR="src/game_events/ability/balance_data/json_handler.rs: read_balance_data_from_json_dir"
p("Crash points of a balance data conversion","Whenever a conversion of balance data to JSON stops (killed, or a file system call fails), the units split into those whose files are complete, at most one whose file is as before or cut off, and those whose files are exactly as before; nothing else in the directory has changed except that version directories may have been made.  It completes exactly if no file is where a directory is needed and no directory where a file goes, and then every file of the table is there and everything else is as before.","all tables with plain unit names, all earlier contents of the directory, all orders of the units, every moment","the table, the earlier content and the moment are unbounded",[JD])
p("A converted directory holds what was converted","After a completed conversion, reading the directory gives exactly the units that were converted. (False: units of an earlier conversion that are not in the source any more stay there; true is that the new units are laid over the old ones.)","all tables with plain unit names, all earlier contents of the directory, all listing orders","needs every earlier content",[JD,JR])
p("A conversion can be repeated","If balance-data-to-json was interrupted, running it again gives what the uninterrupted run would have given. (False: the command first reads the destination, so a file that was cut off, or a destination that is not there yet, makes it fail, whatever the source; true if what was left can be read.)","all tables with plain unit names, all earlier contents of the directory, every moment of interruption, all iteration orders of both runs","needs every crash point and every earlier content",["examples/cli/mod.rs: process_cli_request",JD,JR])
p("A balance directory that cannot be read stops every command before it does anything",
  "If --json-balance-data-dir names something that is not a directory, or the directory holds a unit file that does not decode, every command of the tool ends with an error and has neither printed nor written anything. Without the option no directory is looked at, and with it nothing is taken from the data in the binary.",
  "every command with every option, every content of the directory, of the replays and of the built-in data",
  "The rule couples one loading step to all commands and to every directory content; a test runs one command with one directory.",
  ["examples/cli/mod.rs: process_cli_request", "src/game_events/ability/balance_data/json_handler.rs: read_balance_data_from_json_dir, read_balance_data_from_included_assets"])
p("Commands that do not use balance data do not depend on them",
  "generate, balance-data-to-json and util have the same outcome whatever balance data can be loaded, and util prints bits 18 to 31 and bits 0 to 17 of every i64. (The balance data must load: with a directory that does not, util fails too.)",
  "every pair of balance directories and built-in data, every command of these, every tag",
  "Independence of an input is a statement about all pairs of its values; the tag translation ranges over all of i64.",
  ["examples/cli/mod.rs: process_cli_request", "src/tracker_events/mod.rs: unit_tag_index, unit_tag_recycle"])
p("The order in which the balance directory is listed never changes what a command does",
  "If no two files hold the same unit of the same version, every command has the same effect and the same result in whatever order the file system lists the directory, each of the times it is read.",
  "every directory content, every listing order at each reading, every command, every replay",
  "Directory order is the file system's choice and does not vary on the machine that runs the tests.",
  ["examples/cli/mod.rs: process_cli_request", "examples/cli/cmd_get.rs: handle_get_cmd", "src/state/mod.rs: SC2EventIterator::new", "src/dir_stats.rs: scan_path"])
p("A missing option is reported as an error",
  "A command that lacks an option it needs ends with an error and has no effect. (So does balance-data-to-json; generate and write-arrow-ipc without --output crash instead.)",
  "every command, every state of the file system",
  "It is about all commands and everything they could have done before they look at the option.",
  ["examples/cli/mod.rs: process_cli_request"])
p("The byte-aligned parser that is generated reads what is described",
  "For every type description the generator can handle (structs with tagged members, optional members, arrays of named types, choices, enums, integers and nested named types), the parser it generates for the byte-aligned module accepts every described value in every described wire form and returns that value, in debug and release builds alike; on the descriptions of the bundled protocol it yields the bundled parsers. It is false of some descriptions the generator accepts or refuses: a null variant is dropped, an inline integer member, an array of integers, a dynamic array, an optional of an optional and a name that is not in its table are not handled, and an unsigned 64-bit value from 2^63 on is refused.",
  "every description built from the supported constructors, every value and every wire form of it, every following input, both build modes",
  "Descriptions nest without bound and members come in any order and may be omitted; a test fixes one description and one replay.",
  ["src/generator/decoder_type.rs: byte_aligned_from_nnet_name, gen_byte_aligned_proto_struct_code, gen_byte_aligned_proto_choice_code","src/generator/proto_morphist.rs: gen_proto_code","src/versions/protocol87702/byte_aligned.rs"])
p("The generated module closes what it opens",
  "Whatever is described, the text of the byte-aligned module that is generated has every brace, bracket and parenthesis closed by its own kind and in order, and so has the text of each declaration by itself, provided the names and numbers of the description contain no delimiters.",
  "every list of declarations, every member, variant and value list, every naming",
  "It is about all descriptions; each test generates one file.",
  ["src/generator/proto_morphist.rs: gen_proto_code, open_type_def_skel, close_type_def","src/generator/decoder_type.rs: gen_byte_aligned_proto_struct_code, gen_byte_aligned_proto_choice_code, gen_byte_aligned_proto_enum_code"])
p("The generated code only uses names it binds",
  "The text generated for a byte-aligned struct declares every field, defines its reader, declares its variable and only then uses them; and it uses no other variable. The last part is false: for a struct with tags it uses proto_field_tag and variant_tag, which nothing binds, so the generated code does not compile before it is edited.",
  "every struct, every member, every naming",
  "It is about all descriptions, and the generator's output is not compiled by its tests.",
  ["src/generator/decoder_type.rs: gen_byte_aligned_proto_struct_code"])
p("The picture of a bit cursor marks the bit that is read next",
  "The picture peek_bits makes of a cursor, which log lines and errors show, is [] at the end of the input and otherwise the eight digits of the current byte with one of them marked, namely the one that the next one-bit read returns; making it changes nothing about the parser's result. The digit marked is the wrong one: digits are counted from the most significant end, bits are taken from the other, so the two agree only if the bits of weight 2^off and 2^(7-off) do.",
  "every input, every bit offset, every parser that is wrapped",
  "A test compares a few cursors; the marks depend on the byte and the offset.",
  ["src/lib.rs: peek_bits, dbg_peek_bits","src/bit_packed_decoder.rs: parse_bool, rtake_n_bits"])
p("The generated modules hold what they refer to, once",
  "For every description whose full names say where an entry stands, the byte-aligned module and the bit-packed module hold, in the order of the description and once, the declarations whose names are selected, and every declared type whose parser they call. The last part is false of the bit-packed module: a type outside NNet.Game that is not in a fixed list is called and not written.",
  "every description (any entries, any nesting, any names)",
  "It is about all descriptions; tests generate one.",
  ["src/generator/proto_morphist.rs: gen_byte_aligned_mod, gen_bit_packed_mod","src/generator/decoder_type.rs: byte_aligned_from_nnet_name, bit_packed_from_nnet_name"])
p("A failed generation leaves the previous module",
  "ProtoMorphist::gen changes no file but its output, whatever happens, and a successful run leaves the whole text there. If it fails the previous output is still there: false, because the output is emptied before the description is opened, read and parsed; a description given as its own output is destroyed.",
  "every file system, every source and output path, every point at which the run ends",
  "It quantifies over all states of the files and all points of failure.",
  ["src/generator/proto_morphist.rs: ProtoMorphist::new, ProtoMorphist::gen"])
p("The protocol number is the one in the file name",
  "The number that the generated text carries is the protocol number of the description's file name, for any text around it. False if that text has digits too (s2protocol87702.json gives 287702); a name without digits, or with too many, panics.",
  "every file name, every number below 2^64",
  "It is about all names; a test checks one.",
  ["src/generator/proto_morphist.rs: ProtoMorphist::new"])
p("Every documented table kind is written with its own columns",
  "Each kind of arrow table that ArrowIpcTypes documents can be written by one of the export calls, and every row put into the file has the type of the file's columns, which is the documented one; one batch per source that opens. The type part holds of every call; the first part is false: message events and user init data are written by no call (the calls panic, or write lobby rows), and a call for a kind of another family creates its file and then panics at the first source that opens.",
  "every kind, every export call, every list of sources",
  "It ranges over all kinds, calls and lists of sources.",
  ["src/arrow_store/mod.rs: ArrowIpcTypes::schema, handle_tracker_events, handle_game_events, handle_details_ipc_cmd"])
p("The bit-packed module that is written is closed",
  "For every description the generator does not refuse, the text of the bit-packed module, and of each item in it, closes every brace, bracket and parenthesis in order, provided the names, the numbers and the kinds in the description contain none.",
  "every list of declarations (any members, variants, values, nesting), every naming without delimiters",
  "It is about the text for all descriptions; a test generates one.",
  ["src/generator/decoder_type.rs: gen_bit_packed_proto_struct_code and the other gen_ functions","src/generator/proto_morphist.rs: gen_proto_code, gen_bit_packed_mod"])
p("The bit-packed code that is written reads what is described",
  "In every module of written bit-packed code, compiled, X::parse reads each value described by X back from its wire form, wherever it starts and whatever follows it, and stops at its end; on any other input it gives the same error or panic as the described type's parser. It holds of the supported descriptions and values without empty strings. In general it is false: optional integers, strings and signed integers inside a struct are misread, and a member called tail gives code that does not compile.",
  "every closed module of declarations, every declaration in it, every value, every bit offset, every rest",
  "It quantifies over all descriptions and all values; tests read one replay with one generated module.",
  ["src/generator/decoder_type.rs: gen_bit_packed_proto_struct_code, bit_packed_from_nnet_name","src/generator/proto_morphist.rs: gen_proto_code"])
p("Tracker events are read by the published layout",
  "For every sequence of tracker events (each with a time since the one before): the bytes that the published layout (Blizzard's s2protocol) gives them are read back as exactly these events and times, with every member under its own name; and two sequences with the same bytes are the same.",
  "every non-empty sequence of tracker events of the ten kinds whose members are in the layout's ranges, both builds",
  "It quantifies over all events and all lengths; tests read a handful of files.",
  ["src/versions/protocol87702/mod.rs: byte_aligned::ReplayTrackerEEventId::parse","src/versions/protocol87702/events/tracker/mod.rs","src/tracker_events/mod.rs"])
p("Game events are read by the published layout",
  "For every protocol version and every sequence of game events of the supported kinds: the bits that the published layout gives them (numbers of the events, order and widths of the members, 26 or 27 bits of command flags) are read back as exactly these events, users and times. It holds of events without empty texts, without masks of other than eight bits and without command manager sequence numbers, and is false of those.",
  "every protocol version, every non-empty sequence of game events in range, both builds",
  "It quantifies over all events, bit offsets and lengths.",
  ["src/versions/protocol87702/mod.rs: GameEEventId::parse","src/versions/protocol75689/mod.rs: GameEEventId::parse, GameSCmdEvent","src/versions/protocol87702/events/game/","src/game_events/mod.rs"])
p("Chat messages are read by the published layout",
  "For every sequence of chat messages: the bits of the published layout are read back as exactly these messages, with recipient, user and time. False of empty messages only among those in range.",
  "every non-empty sequence of chat messages in range, both builds",
  "It quantifies over all messages and lengths.",
  ["src/versions/protocol87702/mod.rs: GameEMessageId::parse","src/versions/protocol87702/events/message/mod.rs"])
p("A bit array is the published number",
  "A bit array, read as one number (first byte highest, the last byte for what is left), is the number that the published decoder reads in its place. It holds at byte boundaries and of at most eight bits; a longer array that starts within a byte comes out as another number.",
  "every cursor, every positive number of bits",
  "It ranges over all offsets, lengths and bytes; tests use one array.",
  ["src/bit_packed_decoder.rs: take_bit_array"])
p("The details are read by the published layout",
  "For every details of a replay: with the members in any order, the bytes that the published layout (Blizzard's s2protocol) gives them are read back as exactly these details; whatever follows them is ignored.",
  "every details in the ranges of the layout, every order of the members, every rest, both builds",
  "It quantifies over all players, texts, numbers and orders; tests read the details of a few files.",
  ["src/versions/protocol87702/events/details.rs","src/details.rs","src/versions/protocol87702/mod.rs: byte_aligned::GameSDetails::parse"])
p("The init data is read by the published layout",
  "For every init data: the bits of the published layout are read back as exactly these users, game description and lobby. It holds exactly of init data without an empty text: a zero byte is handed out in place of each empty text.",
  "every init data in the ranges of the layout, every size of the bit arrays, every rest, both builds",
  "It quantifies over all members and all numbers of users, slots and handles; tests read the init data of a few files.",
  ["src/versions/protocol87702/events/init_data.rs","src/init_data/mod.rs","src/versions/protocol87702/mod.rs: bit_packed::ReplaySInitData::parse"])
p("The header is read by the published layout",
  "For every header: with the members in any order, the bytes of the published layout are read back as exactly this header and the rest is left; an archive that starts with it is read as a replay of its base build when the signature is right and makes the readers panic otherwise; in the order of the layout the quick parser agrees.",
  "every header in the ranges of the layout, every order of the members, every rest, both builds",
  "It quantifies over all headers and orders; tests read the headers of a few files.",
  ["src/protocol_version_decoder.rs: read_protocol_header, parse_header","src/versions/mod.rs","src/versions/protocol87702/mod.rs: byte_aligned::ReplaySHeader::parse"])
p("A replay written by the published description is read back",
  "For every replay (header, tracker events, game events, chat, details, init data) put into an archive by the published layouts: each of the five readers hands out exactly its part, the game events by the layout of the base build in the header; a zero byte comes in place of an empty text of chat or init data, and the game events are handed out as C178 says. Two replays in the same archive are the same to the readers.",
  "every replay in the ranges of the layouts (but for sequence numbers of the command manager 2^22 loops after the event before), every order of members of header and details, every rest, every base build, both builds",
  "It composes all readers over all replays; tests read a few files.",
  ["src/versions/mod.rs: read_tracker_events, read_game_events, read_message_events, read_details, read_init_data"])
p("The combined iterator delivers the written events of a replay",
  "For every replay written by the published layouts: the calls of the combined iterator deliver, as long as none fails, a prefix of one interleaving of exactly its tracker and game events, each stamped with the sum of the deltas up to it, then none for ever; every call returns; up to 2^24 game loops the times do not decrease, whatever the filters.",
  "every replay as in C184, every state and table of the iterator, every number of calls, both builds",
  "It quantifies over all replays and all sequences of calls.",
  ["src/state/mod.rs: SC2EventIterator::new, next","src/init_data/mod.rs: TryFrom<(PathBuf, u64)> for InitData","src/tracker_events/iterator.rs","src/game_events/iterator.rs"])
p("The tables of a replay written by the published description",
  "For every replay whose files are written by the published description: the statistics table, if it is made, has exactly one row per statistics event, in file order, with the true loop and every number of the event; the upgrade table is the list of the upgrade events; the unit, death, point-command and unit-command tables are the rows of one and the same interleaving of the tracker events and the game events as handed out (in order of their loops when the game takes at most 2^24 loops), and nothing else. In a release build every table is made unless one of the players has an event for a control group from 11 to 15.",
  "every replay value in the published ranges with any numbers of events, any initial state, any file system id; every set of players and balance data",
  "the events are an unbounded product of values and orders; a test can compare the tables of a few replays only",
  ["src/state/mod.rs: SC2EventIterator::collect_into_player_stats_flat_rows, collect_into_upgrades_flat_rows, collect_into_unit_born_flat_rows, collect_into_unit_died_flat_rows, collect_into_game_cmd_target_points_flat_rows, collect_into_game_cmd_target_units_flat_rows"])
p("A written replay file can be opened",
  "Whenever a file's archive holds a replay written by the published description, reading its init data and opening the event iterator on them succeed, in both builds, with any filters and balance data: the iterator starts at the beginning of both event files, with no units, with the balance data of the replay's build, and with exactly the users in whose slot a player of the details sits, under the name of the last such player; and in a release build every table of it is made if no event is for a control group above 10.",
  "every replay value in the published ranges, every file and archive that hold it, every path, filters and balance table",
  "files, archives and lobbies are unbounded; a test can open a few replays only",
  ["src/init_data/mod.rs: TryFrom<(PathBuf, u64)> for InitData","src/details.rs: TryFrom<&InitData> for Details, TryFrom<&InitData> for Vec<PlayerLobbyDetails>","src/state/mod.rs: SC2EventIterator::new, TryFrom<&InitData> for SC2ReplayState"])
p("Exporting written replays loses and adds nothing",
  "Take any number of files each holding a replay written by the published description (no event for a control group above 10). In a release build all of them are read, and however the tasks of the export of a table are scheduled, if no write fails (and the columns can be encoded) the export ends well and its file holds exactly the rows of the tables of these replays: for the upgrade table, one row per upgrade event of each file; for the statistics table, one row per statistics event of each file with its true loop and every number.",
  "every list of files and written replays, every balance table, every schedule of the export tasks",
  "files, replays and schedules are unbounded; a test can export a few replays under the schedules that happen",
  ["src/arrow_store/mod.rs: handle_tracker_events, handle_game_events","src/state/mod.rs: SC2EventIterator","src/init_data/mod.rs","src/tracker_events/mod.rs","src/game_events/mod.rs"])
p("get on a written replay",
  "On a file whose archive holds a replay written by the published description, `get message-events`, `get details` and `get init-data` succeed in both builds, whatever the other options, and print exactly the chat (between brackets), the details and the init data that were written; in a release build, if no event is for a control group above 10, `get tracker-events` and `get game-events` succeed and print one item for every tracker (game) event of the replay, in file order and with the sums of the deltas as game loops, the items of an interleaving of exactly its events.",
  "every replay value in the published ranges, every file, archive and path that hold it, every balance table and options",
  "replays are unbounded; a test can print a few only",
  ["examples/cli/cmd_get.rs: handle_get_cmd","src/state/mod.rs: SC2EventIterator","src/versions/mod.rs: read_message_events, read_details, read_init_data"])
p("Every member has its line, variable, reader, arm and returned value",
  "Whenever the generator writes the byte-aligned text of a struct, it writes for each member that is not a constant, once and in the order of the description: one line of the type, one reader, one variable, one test-and-read (which calls the reader of that very member, keeps its value in its variable, and stands under that member's tag if the struct has tags) and one returned value, all under the member's name and with the same type; and the member is treated as optional throughout (Option<..> in the type, Some(None) as the value when missing, the tag of an optional value read first) if and only if it is described as optional. Nothing else stands in the text but the fixed opening, loop and closing.",
  "every struct description (any number of members, tags, types), every naming convention",
  "the descriptions are unbounded; a test can generate a few structs only",
  ["src/generator/decoder_type.rs: gen_byte_aligned_proto_struct_code","src/generator/decoder_type.rs: byte_aligned_from_nnet_name"])
out=os.path.join(os.path.dirname(os.path.dirname(os.path.abspath(__file__))),"properties.jsonl")
with open(out,"w") as f:
    for x in P: f.write(json.dumps(x)+"\n")
print(len(P))
