{
 "claims": [
  {
   "property": "C01",
   "status": "partial",
   "theorems": [
    "Tmi.Props.C01_negation_4GiB",
    "Tmi.Props.C01_parse_panics_iff",
    "Tmi.Props.C01_never_panics_partial",
    "Tmi.Props.C01_negation_129_tags",
    "Tmi.Props.C01_negation_scalar",
    "Tmi.Props.C01_accessors_exact"
   ],
   "note": "False as stated: parse panics on more than 128 tags, and the scalar tag parser panics on '@...' with no space. Both negations are proved with witnesses; C01_parse_panics_iff gives the exact panic set of parse and C01_accessors_exact the exact panic set of the accessors of a parsed message (lines below 4 GiB); C01_never_panics_partial covers the rest. C01_negation_4GiB: at 4 GiB the 32-bit offsets wrap and an accessor panics."
  },
  {
   "property": "C02",
   "status": "proved",
   "theorems": [
    "Tmi.Props.C02_any_length",
    "Tmi.Props.C02_negation_4GiB",
    "Tmi.Props.C02_grammar",
    "Tmi.Props.C02_returned"
   ],
   "note": "Under the size limits of the 16-bit spans (Within) and, for the scalar parser, a terminated tag section. Beyond the quantifier: C02_any_length says what params() is for a line of any length, and C02_negation_4GiB that the grammar fails at 4 GiB."
  },
  {
   "property": "C03",
   "status": "proved",
   "theorems": [
    "Tmi.Props.C03_backends_agree"
   ],
   "note": "For every byte string, any two of SSE2, AVX2 and NEON and any two addresses, also when parsing panics. avx512.rs is not compiled and not modelled."
  },
  {
   "property": "C04",
   "status": "partial",
   "theorems": [
    "Tmi.Props.C04_scalar_simd_agree_iff",
    "Tmi.Props.C04_scalar_simd_agree_partial",
    "Tmi.Props.C04_negation"
   ],
   "note": "Exact agreement condition proved (iff); negation for an unterminated tag section proved."
  },
  {
   "property": "C05",
   "status": "proved",
   "theorems": [
    "Tmi.Props.C05_find_first"
   ],
   "note": "C05_find_first: for every vector type, address, string and needle the search ends without a fault and returns the least index at which the needle occurs, `None` iff it does not occur."
  },
  {
   "property": "C06",
   "status": "proved",
   "theorems": [
    "Tmi.Props.C06_loads_safe",
    "Tmi.Props.C06_no_fault",
    "Tmi.Props.C06_load_whole"
   ],
   "note": "C06_loads_safe: whatever the string, its address and the vector type, tag parsing performs no load outside the slice, no misaligned aligned load, no oversized remainder copy, and terminates: the only faults left are a full tag array and 32-bit overflow of a tag's start offset. C06_no_fault: for lines below 4 GiB with at most 128 tags: no fault at all. C06_load_whole: a load that is not a fault yields as many bytes as the vector has, and they are bytes of the slice: all of them for a full load (which, if aligned, is at an address that is a multiple of the size), followed by zeros up to the size for the rest of the slice."
  },
  {
   "property": "C07",
   "status": "proved",
   "theorems": [
    "Tmi.Props.C07_has_match",
    "Tmi.Props.C07_first_match",
    "Tmi.Props.C07_clear_to"
   ],
   "note": "C07_has_match: `has_match`: true iff some lane equals the needle. C07_first_match: `first_match().as_index()`: the least lane equal to the needle. C07_clear_to: `clear_to`: clearing a mask up to the first match of any other mask removes exactly the lanes up to and including it. `v'` is any vector with `x` in exactly the surviving lanes."
  },
  {
   "property": "C08",
   "status": "proved",
   "theorems": [
    "Tmi.Props.C08_tags_roundtrip"
   ],
   "note": "C08_tags_roundtrip: rendering pairs and parsing the line gives the pairs back, whatever follows."
  },
  {
   "property": "C09",
   "status": "proved",
   "theorems": [
    "Tmi.Props.C09_tag_first"
   ],
   "note": "C09_tag_first: on any message whose tags can be listed, `tag` finds the first pair with that key."
  },
  {
   "property": "C10",
   "status": "partial",
   "theorems": [
    "Tmi.Props.C10_parse_as_str_iff",
    "Tmi.Props.C10_display",
    "Tmi.Props.C10_names",
    "Tmi.Props.C10_as_str_parse_iff",
    "Tmi.Props.C10_negation"
   ],
   "note": "The exact iff conditions are proved; one row of the name table is asymmetric (C10_negation)."
  },
  {
   "property": "C11",
   "status": "proved",
   "theorems": [
    "Tmi.Props.C11_prefix",
    "Tmi.Props.C11_bang_in_host",
    "Tmi.Props.C11_shapes"
   ],
   "note": "C11_prefix: parts: for every prefix text `p` without spaces the parts are determined by the last `!` and the last `@`; formatting them gives `p` back iff no `!` follows the last `@`. C11_bang_in_host: the excluded case: a `!` after the last `@` is not written back in its place. C11_shapes: the documented shapes: `nick!user@host`, `nick@host` and `host`, for any parts without the separators that would make the shape ambiguous."
  },
  {
   "property": "C12",
   "status": "proved",
   "theorems": [
    "Tmi.Props.C12_command",
    "Tmi.Props.C12_parsed"
   ],
   "note": "C12_command: the command is the known one spelled exactly like the token, and otherwise `Other(token)`; its string is the token, and so is what `Display` prints."
  },
  {
   "property": "C13",
   "status": "proved",
   "theorems": [
    "Tmi.Props.C13_channel",
    "Tmi.Props.C13_parsed"
   ],
   "note": "C13_channel: the channel is the `#` token after the command; for 353 the third word of the params, for 366 the second."
  },
  {
   "property": "C14",
   "status": "proved",
   "theorems": [
    "Tmi.Props.C14_text",
    "Tmi.Props.C14_doc_negation",
    "Tmi.Props.C14_parsed"
   ],
   "note": "C14_doc_negation: the doc comment's claim differs from the behaviour."
  },
  {
   "property": "C15",
   "status": "partial",
   "theorems": [
    "Tmi.Props.C15_owned_parse",
    "Tmi.Props.C15_owned_scalar",
    "Tmi.Props.C15_accessors_partial",
    "Tmi.Props.C15_negation"
   ],
   "note": "False as stated: the owned text() differs from the borrowed one exactly when there are params without a ':' (C15_accessors_partial has the condition, C15_negation a line). Everything else agrees, for every line and wherever the two copies of the string lie (C15_owned_parse, C15_owned_scalar)."
  },
  {
   "property": "C16",
   "status": "partial",
   "theorems": [
    "Tmi.Props.C16_rebuild_partial",
    "Tmi.Props.C16_exact",
    "Tmi.Props.C16_negation"
   ],
   "note": "False as stated: a tag section that is not a list of key=value, a '!' after the last '@' of the prefix, and a trailing space are lost (C16_negation). C16_exact: the line written from the exposed pieces is the original iff none of the three occurs."
  },
  {
   "property": "C17",
   "status": "partial",
   "theorems": [
    "Tmi.Props.C17_truncation",
    "Tmi.Props.C17_whole_partial",
    "Tmi.Props.C17_negation_truncated",
    "Tmi.Props.C17_negation_panics",
    "Tmi.Props.C17_negation_panics_reachable",
    "Tmi.Props.C17_negation_reachable",
    "Tmi.Props.C17_exact",
    "Tmi.Props.C17_lookup_exact"
   ],
   "note": "False as stated, because lengths are kept in 16 bits. C17_exact and C17_lookup_exact say what tags() and tag() return for every parsed line below 4 GiB; negations for a wrong value and for a panic."
  },
  {
   "property": "C18",
   "status": "proved",
   "theorems": [
    "Tmi.Props.C18_unescape_escape",
    "Tmi.Props.C18_escape_safe"
   ],
   "note": "C18_unescape_escape: `unescape` inverts escaping for every string without `⸝`, and only for those. C18_escape_safe: An escaped string contains none of the characters that would break a tag section."
  },
  {
   "property": "C19",
   "status": "partial",
   "theorems": [
    "Tmi.Props.C19_agree_iff",
    "Tmi.Props.C19_agree_partial",
    "Tmi.Props.C19_total",
    "Tmi.Props.C19_negation"
   ],
   "note": "Exact iff proved; false when U+2E1D precedes the first backslash (C19_negation)."
  },
  {
   "property": "C20",
   "status": "partial",
   "theorems": [
    "Tmi.Props.C20_next_only_partial",
    "Tmi.Props.C20_sticky",
    "Tmi.Props.C20_negation"
   ],
   "note": "False for unknown escapes (C20_negation); holds for well-escaped strings; C20_sticky says exactly what happens after an unknown escape."
  },
  {
   "property": "C21",
   "status": "proved",
   "theorems": [
    "Tmi.Props.C21_parsed",
    "Tmi.Props.C21_dispatch",
    "Tmi.Props.C21_as_typed",
    "Tmi.Props.C21_agrees",
    "Tmi.Props.C21_reject",
    "Tmi.Props.C21_message"
   ],
   "note": "C21_dispatch: the variant is that of the command; RECONNECT always gives `Reconnect`; every command without a typed form gives `Other` with the parsed line. C21_as_typed: `as_typed` on the borrowed and on the owned form of a message is `Message::from_irc`. C21_agrees: on a line with a typed command, `Message` gives what the parser of that type gives, also when that rejects the line or panics. C21_reject: each typed parser rejects the lines of every other command. C21_message: `Message::parse` as a whole returns exactly the typed message that the specification gives to the line. (The excluded ROOMSTATE lines are those of `C22_exact`.)"
  },
  {
   "property": "C22",
   "status": "partial",
   "theorems": [
    "Tmi.Props.C22_exact",
    "Tmi.Props.C22_negation",
    "Tmi.Props.C22_no_panic_partial"
   ],
   "note": "False as stated: a ROOMSTATE whose followers-only minutes overflow i64 when multiplied by 60 panics in builds with overflow checks (C22_negation); C22_exact characterises exactly when typed parsing panics within the limits of Within; lines outside them are C01's."
  },
  {
   "property": "C23",
   "status": "proved",
   "theorems": [
    "Tmi.Props.C23_privmsg",
    "Tmi.Props.C23_privmsg_required"
   ],
   "note": "C23_privmsg: a line parses as a `Privmsg` exactly when it is one, with every field from its place. C23_privmsg_required: a PRIVMSG line parses iff text, channel, `room-id`, `id`, `user-id`, `display-name`, a nick and a valid `tmi-sent-ts` are present: nothing else can make it fail."
  },
  {
   "property": "C24",
   "status": "proved",
   "theorems": [
    "Tmi.Props.C24_optional"
   ],
   "note": "C24_optional: `reply_to` is there iff all seven reply tags are; `pinned_chat` iff all five pinned-chat tags are, with numeric amount and exponent and a known level. (That they never make the message fail is `C23_privmsg_required`, which does not mention them.)"
  },
  {
   "property": "C25",
   "status": "proved",
   "theorems": [
    "Tmi.Props.C25_action",
    "Tmi.Props.C25_action_lines"
   ],
   "note": "C25_action: `is_action` and `text` for every text of a PRIVMSG or CLEARMSG. C25_action_lines: C25 on whole lines: what `text` and `is_action` of a parsed PRIVMSG and CLEARMSG are."
  },
  {
   "property": "C26",
   "status": "proved",
   "theorems": [
    "Tmi.Props.C26_badges",
    "Tmi.Props.C26_fields",
    "Tmi.Props.C26_badges_roundtrip"
   ],
   "note": "C26_badges: for every pair of tag values. C26_fields: the comma-separated fields of the specification are the unique way to write a string as a comma-joined list of strings without commas. C26_badges_roundtrip: C26 in the other direction: any list of names and versions, written as a `badges` tag, comes back as the badges of those names and versions."
  },
  {
   "property": "C27",
   "status": "proved",
   "theorems": [
    "Tmi.Props.C27_badge_roundtrip",
    "Tmi.Props.C27_parsed",
    "Tmi.Props.C27_months",
    "Tmi.Props.C27_data",
    "Tmi.Props.C27_version_lost"
   ],
   "note": "C27_badge_roundtrip: a badge built from data, converted to data and back, is the same badge. C27_parsed: C27 for the badges of any parsed tag. C27_months: for a subscriber, `months()` is the numeric badge-info or 1, and the version is kept. C27_data: what `as_badge_data` reports of a badge built from data. The four badges without a payload always report version 1 and no extra; a subscriber keeps its version and reports its months, 1 if there are none; every other badge reports exactly what it was built from. C27_version_lost: what is not preserved: the version of a moderator badge is reported as \"1\"."
  },
  {
   "property": "C28",
   "status": "proved",
   "theorems": [
    "Tmi.Props.C28_clear_chat",
    "Tmi.Props.C28_classify",
    "Tmi.Props.C28_required"
   ],
   "note": "C28_clear_chat: a line parses as a `ClearChat` exactly when the specification says so. C28_classify: the three kinds of action, the target, and what is required. C28_required: a CLEARCHAT line parses iff channel, `room-id`, a valid timestamp and, with a text, `target-user-id` are present."
  },
  {
   "property": "C29",
   "status": "proved",
   "theorems": [
    "Tmi.Props.C29_user_notice",
    "Tmi.Props.C29_sender",
    "Tmi.Props.C29_unknown"
   ],
   "note": "C29_user_notice: a line parses as a `UserNotice` exactly when the specification says so. C29_sender: when the sender is absent. C29_unknown: with an unknown `msg-id`, a line parses iff channel, `room-id`, `id` and a valid timestamp are present; none of the event's tags is needed."
  },
  {
   "property": "C30",
   "status": "partial",
   "theorems": [
    "Tmi.Props.C30_room_state_partial",
    "Tmi.Props.C30_overflow",
    "Tmi.Props.C30_negation"
   ],
   "note": "False for followers-only above 2^63/60 minutes: C30_negation and C30_overflow show what happens there; exact below."
  },
  {
   "property": "C31",
   "status": "proved",
   "theorems": [
    "Tmi.Props.C31_global_user_state",
    "Tmi.Props.C31_user_state",
    "Tmi.Props.C31_emote_sets"
   ],
   "note": "C31_global_user_state: C31 for GLOBALUSERSTATE. C31_user_state: C31 for USERSTATE. C31_emote_sets: joining the emote sets gives the tag back, and no set contains a comma."
  },
  {
   "property": "C32",
   "status": "proved",
   "theorems": [
    "Tmi.Props.C32_join",
    "Tmi.Props.C32_part",
    "Tmi.Props.C32_ping",
    "Tmi.Props.C32_pong",
    "Tmi.Props.C32_notice",
    "Tmi.Props.C32_whisper",
    "Tmi.Props.C32_clear_msg"
   ],
   "note": "One theorem per type (JOIN, PART, PING, PONG, NOTICE, WHISPER, CLEARMSG): a line parses as that type exactly when the specification says so, with every field from its place."
  },
  {
   "property": "C33",
   "status": "proved",
   "theorems": [
    "Tmi.Props.C33_u8",
    "Tmi.Props.C33_u64",
    "Tmi.Props.C33_i64",
    "Tmi.Props.C33_show",
    "Tmi.Props.C33_timestamp",
    "Tmi.Props.C33_bool",
    "Tmi.Props.C33_unique"
   ],
   "note": "C33_u8: C33 for `u8`: accepted iff digits (with an optional `+`) whose value is below 256. C33_u64: C33 for `u64` (bits, months, viewer counts, durations, ...). C33_i64: C33 for `i64` (timestamps, followers-only, amounts). C33_show: the decimal form of every value reads back as that value. C33_timestamp: C33 for timestamps: a number of milliseconds within the years that chrono represents. C33_bool: C33 for booleans: true iff the tag is a number from 1 to 255. C33_unique: The value a string denotes is unique."
  },
  {
   "property": "C34",
   "status": "partial",
   "theorems": [
    "Tmi.Props.C34_one_call",
    "Tmi.Props.C34_own_line_partial",
    "Tmi.Props.C34_leftovers",
    "Tmi.Props.C34_negation"
   ],
   "note": "C34_one_call: exact effect of one call. The claim as stated is false: C34_negation gives a history (a reconnect whose write failed) after which a command is sent behind a stale greeting. C34_own_line_partial proves it for every history in which no reconnect has failed since (settled), C34_leftovers says exactly what is sent otherwise (whole copies of the greeting)."
  },
  {
   "property": "C35",
   "status": "proved",
   "theorems": [
    "Tmi.Props.C35_privmsg",
    "Tmi.Props.C35_ping_pong",
    "Tmi.Props.C35_join"
   ],
   "note": "For a client with nothing left over in its buffer (C34 says when that is so)."
  },
  {
   "property": "C36",
   "status": "partial",
   "theorems": [
    "Tmi.Props.C36_bytes",
    "Tmi.Props.C36_one_line_iff",
    "Tmi.Props.C36_one_line_partial",
    "Tmi.Props.C36_negation"
   ],
   "note": "False as stated: text with line breaks injects further lines (C36_negation). C36_one_line_iff characterises exactly when a command is one line; C36_one_line_partial is the claim for arguments without CR/LF. For a client with nothing left over in its buffer (C34 says when that is so)."
  },
  {
   "property": "C37",
   "status": "proved",
   "theorems": [
    "Tmi.Props.C37_send_raw"
   ],
   "note": "C37_send_raw: without a final CRLF nothing happens and the error is `InvalidMessage`; with it the string is handed over unchanged, completely if the network accepts it, and the buffer plays no role."
  },
  {
   "property": "C38",
   "status": "proved",
   "theorems": [
    "Tmi.Props.C38_names",
    "Tmi.Props.C38_idempotent"
   ],
   "note": "For a client with nothing left over in its buffer (C34 says when that is so)."
  },
  {
   "property": "C39",
   "status": "proved",
   "theorems": [
    "Tmi.Props.C39_connect",
    "Tmi.Props.C39_message",
    "Tmi.Props.C39_success_iff",
    "Tmi.Props.C39_errors",
    "Tmi.Props.C39_greeting",
    "Tmi.Props.C39_token"
   ],
   "note": "Exact correspondence between connect and the specification Attempt, success iff, and every error. Replies that make the parser panic (C01) are excluded by AllParse (UTF-8, below 4 GiB, parse returns); C39_greeting has no such hypothesis."
  },
  {
   "property": "C40",
   "status": "partial",
   "theorems": [
    "Tmi.Props.C40_copies",
    "Tmi.Props.C40_clean_partial",
    "Tmi.Props.C40_negation"
   ],
   "note": "False as stated: C40_negation (a second attempt sends the greeting twice). C40_copies says exactly what is sent and left behind for every run; C40_clean_partial is the claim when only one connection was used and nothing was pending."
  },
  {
   "property": "C41",
   "status": "proved",
   "theorems": [
    "Tmi.Props.C41_bound",
    "Tmi.Props.C41_reconnect",
    "Tmi.Props.C41_attempts",
    "Tmi.Props.C41_panic",
    "Tmi.Props.C41_none",
    "Tmi.Props.C41_should_retry"
   ],
   "note": "C41_bound holds for any events; the exact correspondence with Reconnects is for scripts without lines on which the parser panics (C01)."
  },
  {
   "property": "C42",
   "status": "proved",
   "theorems": [
    "Tmi.Props.C42_delays",
    "Tmi.Props.C42_bounded",
    "Tmi.Props.C42_monotone",
    "Tmi.Props.C42_overflow",
    "Tmi.Props.C42_panics",
    "Tmi.Props.C42_never_panics"
   ],
   "note": "C42_panics says exactly when the delay overflows and what happens then; C42_never_panics gives the bounds under which it never does, met by the default configuration; C42_overflow is the case of the first wait."
  },
  {
   "property": "C43",
   "status": "proved",
   "theorems": [
    "Tmi.Props.C43_in_order",
    "Tmi.Props.C43_line",
    "Tmi.Props.C43_parses",
    "Tmi.Props.C43_cancelled",
    "Tmi.Props.C43_quiet"
   ],
   "note": "Holds for all lines: recv returns (or panics with) the parse of each line. C43_parses says it in terms of the grammar for every line on which parse returns. That a dropped call loses no line is shown at the level of bytes by C60, C64 and C65."
  },
  {
   "property": "C44",
   "status": "proved",
   "theorems": [
    "Tmi.Props.C44_is_disconnect",
    "Tmi.Props.C44_parse"
   ],
   "note": "C44_is_disconnect lists exactly the errors for which is_disconnect is true; C44_parse: a parse error is never one. C81 compares the list with the ways in which a connection can be lost."
  },
  {
   "property": "C45",
   "status": "proved",
   "theorems": [
    "Tmi.Props.C45_pong"
   ],
   "note": "For a client with nothing left over in its buffer (C34 says when that is so)."
  },
  {
   "property": "C46",
   "status": "proved",
   "theorems": [
    "Tmi.Props.C46_alternates"
   ],
   "note": "C46_alternates: the results alternate between nothing and U+0020 U+2800 (which is not empty), so equal texts sent one after the other differ as messages."
  },
  {
   "property": "C47",
   "status": "proved",
   "theorems": [
    "Tmi.Props.C47_config",
    "Tmi.Props.C47_debug",
    "Tmi.Props.C47_credentials"
   ],
   "note": "C47_config: two configurations print the same, on one line or on many, exactly when they have the same login, timeout and backoff: whatever the tokens are, and whether there are any. C47_debug: the `Debug` text of credentials, with any `Debug` for strings, is a function of the login."
  },
  {
   "property": "C48",
   "status": "proved",
   "theorems": [
    "Tmi.Props.C48_parse",
    "Tmi.Props.C48_agree",
    "Tmi.Props.C48_deserialize",
    "Tmi.Props.C48_roundtrip",
    "Tmi.Props.C48_text"
   ],
   "note": "Channel and ChannelRef are modelled by their text."
  },
  {
   "property": "C49",
   "status": "proved",
   "theorems": [
    "Tmi.Props.C49_join"
   ],
   "note": "C49_join: the items in order with the separator between them, once; afterwards formatting fails."
  },
  {
   "property": "C50",
   "status": "partial",
   "theorems": [
    "Tmi.Props.C50_times",
    "Tmi.Props.C50_rfc3339_partial",
    "Tmi.Props.C50_rfc3339_failure",
    "Tmi.Props.C50_roundtrip_partial",
    "Tmi.Props.C50_failure",
    "Tmi.Props.C50_negation"
   ],
   "note": "False as stated: a subscriber badge whose months in badge-info are not a number is accepted by the parser, but its serialised form does not deserialise (C50_negation). C50_failure gives the exact set of failing messages and shows that a different message is never read back. For any text format of times that reads back what it writes (TimeCodec.Faithful); C50_rfc3339_partial and C50_rfc3339_failure for the format of chrono, as modelled in Model/Chrono.lean, without that assumption."
  },
  {
   "property": "C51",
   "status": "proved",
   "theorems": [
    "Tmi.Props.C51_text",
    "Tmi.Props.C51_subscriber",
    "Tmi.Props.C51_badge_data",
    "Tmi.Props.C51_badge",
    "Tmi.Props.C51_user",
    "Tmi.Props.C51_action",
    "Tmi.Props.C51_clear_chat",
    "Tmi.Props.C51_clear_msg",
    "Tmi.Props.C51_global_user_state",
    "Tmi.Props.C51_join",
    "Tmi.Props.C51_part",
    "Tmi.Props.C51_notice",
    "Tmi.Props.C51_ping",
    "Tmi.Props.C51_pong",
    "Tmi.Props.C51_reply",
    "Tmi.Props.C51_pinned_chat",
    "Tmi.Props.C51_privmsg",
    "Tmi.Props.C51_room_state",
    "Tmi.Props.C51_user_state",
    "Tmi.Props.C51_whisper",
    "Tmi.Props.C51_sub_gift_promo",
    "Tmi.Props.C51_event",
    "Tmi.Props.C51_user_notice"
   ],
   "note": "One theorem per type; the copy shows the same fields whatever the source buffer holds later."
  },
  {
   "property": "C52",
   "status": "proved",
   "theorems": [
    "Tmi.Props.C52_try_from",
    "Tmi.Props.C52_from_u8",
    "Tmi.Props.C52_from_str"
   ],
   "note": "C52_try_from: `try_from` accepts exactly 0 to 9, never transmutes an invalid byte, and inverts `u8::from`. C52_from_u8: the number of a level converts back to the level, and the levels are numbered in order. C52_from_str: `from_str` accepts exactly the ten names, and inverts `as_str`."
  },
  {
   "property": "C53",
   "status": "proved",
   "theorems": [
    "Tmi.Props.C53_connect",
    "Tmi.Props.C53_reconnect",
    "Tmi.Props.C53_connect_run",
    "Tmi.Props.C53_reconnect_run",
    "Tmi.Props.C53_connect_returns",
    "Tmi.Props.C53_reconnect_returns",
    "Tmi.Props.C53_connect_patience",
    "Tmi.Props.C53_reconnect_patience",
    "Tmi.Props.C53_replies"
   ],
   "note": "Proved on a model with a clock (Model/Timed.lean), whose every run is shown to be a run of the model without one (C53_connect_run, C53_reconnect_run). Computing takes no time and timers are exact."
  },
  {
   "property": "C54",
   "status": "partial",
   "theorems": [
    "Tmi.Props.C54_pieces",
    "Tmi.Props.C54_unaffected_partial",
    "Tmi.Props.C54_glued",
    "Tmi.Props.C54_negation"
   ],
   "note": "False as stated (C54_negation): a call dropped after some bytes were written glues its beginning to the next command. C54_glued says exactly what the server then sees, C54_pieces describes the wire for every history, and C54_unaffected_partial proves the claim when the calls that did not return Ok wrote nothing."
  },
  {
   "property": "C55",
   "status": "partial",
   "theorems": [
    "Tmi.Props.C55_logged",
    "Tmi.Props.C55_records",
    "Tmi.Props.C55_hidden_partial",
    "Tmi.Props.C55_exact",
    "Tmi.Props.C55_negation"
   ],
   "note": "False as stated (C55_negation): the first command after a reconnect that failed while sending the greeting is logged with the token. C55_hidden_partial proves it for settled histories, C55_exact gives the record for all histories, C55_records ties the record to what is written."
  },
  {
   "property": "C56",
   "status": "proved",
   "theorems": [
    "Tmi.Props.C56_builder",
    "Tmi.Props.C56_connect",
    "Tmi.Props.C56_anonymous",
    "Tmi.Props.C56_connect_anonymous",
    "Tmi.Props.C56_anonymous_distinct",
    "Tmi.Props.C56_default_delays",
    "Tmi.Props.C56_default_reconnect",
    "Tmi.Props.C56_privmsg"
   ],
   "note": "C56_builder: for every sequence of calls of the setters, the configuration that `connect` uses has the last credentials, the last timeout and the last backoff that were set, and the defaults for what was not set. C56_connect: what the builder connects with. Whatever happens, nothing is sent but (a beginning of) the greeting for the last credentials that were set; after success the client's configuration is the one that was built. C56_anonymous: an anonymous login is `justinfan` with five digits behind it, and the greeting it is sent in has the password that Twitch accepts for such names. C56_anonymous_distinct: two anonymous logins are equal only if the same number was drawn. C56_default_delays: by default there are eight attempts to reconnect, after 1, 3, 9, 12, 12, 12, 12 and 12 seconds. C56_default_reconnect: a `reconnect` with the default backoff and timeout returns within 553 seconds, whatever the network does. C56_privmsg: for every sequence of calls of `reply_to` and `client_nonce`, what `send` sends has the last value of each."
  },
  {
   "property": "C57",
   "status": "partial",
   "theorems": [
    "Tmi.Props.C57_exact",
    "Tmi.Props.C57_recoverable",
    "Tmi.Props.C57_privmsg_partial",
    "Tmi.Props.C57_whisper_partial",
    "Tmi.Props.C57_global_user_state_partial",
    "Tmi.Props.C57_user_notice_partial",
    "Tmi.Props.C57_no_system_message",
    "Tmi.Props.C57_no_sub_plan_name",
    "Tmi.Props.C57_total",
    "Tmi.Props.C57_negation",
    "Tmi.Props.C57_negation_user_state",
    "Tmi.Props.C57_listed_partial",
    "Tmi.Props.C57_listed_total"
   ],
   "note": "False as stated: a comma before the first backslash escape comes back as U+2E1D (C57_negation), and UserState::user_name does not unescape (C57_negation_user_state). C57_exact characterises the recoverable texts; the _partial theorems prove the claim for all of them and every getter; C57_total proves that the getters never panic; C57_listed_partial and C57_listed_total say the same for tags of any size, as they are listed."
  },
  {
   "property": "C58",
   "status": "proved",
   "theorems": [
    "Tmi.Props.C58_connect",
    "Tmi.Props.C58_calls",
    "Tmi.Props.C58_session"
   ],
   "note": "Two-run (non-interference) theorem over the script model of the network. The log records are a separate matter: see C55."
  },
  {
   "property": "C59",
   "status": "partial",
   "theorems": [
    "Tmi.Props.C59_greeting_partial",
    "Tmi.Props.C59_exact",
    "Tmi.Props.C59_history",
    "Tmi.Props.C59_negation"
   ],
   "note": "False of the code: no sending method flushes (C59_negation, C59_exact, C59_history give exactly what may be held back). It holds for the greeting sent by connect and reconnect (C59_greeting_partial)."
  },
  {
   "property": "C60",
   "status": "proved",
   "theorems": [
    "Tmi.Props.C60_open",
    "Tmi.Props.C60_closed",
    "Tmi.Props.C60_failed",
    "Tmi.Props.C60_chunks",
    "Tmi.Props.C60_utf8",
    "Tmi.Props.C60_script"
   ],
   "note": "The reader is a type of tokio, tokio-stream and futures-util, modelled poll by poll after their documented behaviour. Nothing is said about reads after a failed read. C60_script links the byte level to the list of lines used by the session properties."
  },
  {
   "property": "C61",
   "status": "proved",
   "theorems": [
    "Tmi.Props.C61_commands",
    "Tmi.Props.C61_chat"
   ],
   "note": "Line feeds are excluded by hypothesis: see C36. Assumes that the bytes that arrive are those accepted by the socket."
  },
  {
   "property": "C62",
   "status": "proved",
   "theorems": [
    "Tmi.Props.C62_quick_start",
    "Tmi.Props.C62_basic",
    "Tmi.Props.C62_before_next",
    "Tmi.Props.C62_served",
    "Tmi.Props.C62_panic",
    "Tmi.Props.C62_session",
    "Tmi.Props.C62_anonymous"
   ],
   "note": "Lines are Readable and not one of the ROOMSTATE lines of C22. What reconnect does is the subject of C40 and C41. Stopping the program is a script that ends."
  },
  {
   "property": "C63",
   "status": "partial",
   "theorems": [
    "Tmi.Props.C63_gives_up",
    "Tmi.Props.C63_negation",
    "Tmi.Props.C63_closed",
    "Tmi.Props.C63_partial"
   ],
   "note": "False as stated: a line that is not a message of its kind (e.g. PRIVMSG without tags) ends the loop through as_typed()? (C63_negation); C63_gives_up says that this is what happens for every such line. It holds if every line taken is a message of its kind (C63_partial). The end of the stream ends the loop without reconnecting (C63_closed)."
  },
  {
   "property": "C64",
   "status": "proved",
   "theorems": [
    "Tmi.Props.C64_session"
   ],
   "note": "whole sessions (connect, then any calls), including reconnects"
  },
  {
   "property": "C65",
   "status": "proved",
   "theorems": [
    "Tmi.Props.C65_own_lines",
    "Tmi.Props.C65_next_line"
   ],
   "note": "for connections on which nothing arrives after a read failed"
  },
  {
   "property": "C66",
   "status": "proved",
   "theorems": [
    "Tmi.Props.C66_chunks"
   ],
   "note": "for connections that stay open or are closed in an orderly way"
  },
  {
   "property": "C67",
   "status": "proved",
   "theorems": [
    "Tmi.Props.C67_times",
    "Tmi.Props.C67_offsets",
    "Tmi.Props.C67_rfc3339",
    "Tmi.Props.C67_rfc3339_again",
    "Tmi.Props.C67_exact",
    "Tmi.Props.C67_back",
    "Tmi.Props.C67_again",
    "Tmi.Props.C67_order",
    "Tmi.Props.C67_unknown",
    "Tmi.Props.C67_missing",
    "Tmi.Props.C67_refused"
   ],
   "note": "Over trees of values, not over the text of a format. For any text format of times that is stable (TimeCodec.Stable); C67_rfc3339 for the format of chrono, as modelled in Model/Chrono.lean, without that assumption; C67_times gives exactly the texts read as times, and C67_offsets says what a time with an offset stands for (both without the white space, the word UTC, the sign U+2212 and the missing colon that chrono also allows). ReadsBack spells out which messages can be read at all: numbers in range, numeric months, times that chrono reads back."
  },
  {
   "property": "C68",
   "status": "proved",
   "theorems": [
    "Tmi.Props.C68_message",
    "Tmi.Props.C68_panics",
    "Tmi.Props.C68_typed"
   ],
   "note": "Lines whose tags cannot be listed (reading them panics, C17) are outside this property; C17_lookup_exact says which lookups panic."
  },
  {
   "property": "C69",
   "status": "partial",
   "theorems": [
    "Tmi.Props.C69_panics",
    "Tmi.Props.C69_total_partial",
    "Tmi.Props.C69_same",
    "Tmi.Props.C69_owned",
    "Tmi.Props.C69_negation_prints"
   ],
   "note": "False as stated: Debug lists the tags, so it panics exactly where tags() does (C69_panics; witness C69_negation_prints). Everything else is proved for all lines."
  },
  {
   "property": "C70",
   "status": "proved",
   "theorems": [
    "Tmi.Props.C70_same",
    "Tmi.Props.C70_total",
    "Tmi.Props.C70_types"
   ],
   "note": "C70_same: two typed messages parsed from text are printed as the same text exactly when they are equal, or both are raw messages of another command with the same tags, prefix, command, channel and parameters. C70_total: printing a typed message never panics, unless it is the raw message of another command. C70_types: the same for the types of messages and of their parts, for all values (parsed or built by other means) whose strings are strings: equal texts are texts of equal values."
  },
  {
   "property": "C71",
   "status": "proved",
   "theorems": [
    "Tmi.Props.C71_shows",
    "Tmi.Props.C71_unique",
    "Tmi.Props.C71_injective"
   ],
   "note": "The text is chrono's; the model of it follows chrono's documented format and is checked against the recorded snapshots."
  },
  {
   "property": "C72",
   "status": "proved",
   "theorems": [
    "Tmi.Props.C72_raw",
    "Tmi.Props.C72_typed"
   ],
   "note": "C72_raw: whatever bytes a message was made of, `{:?}` prints it on one line without control characters, and the only control characters `{:#?}` prints are ends of lines. C72_typed: the same for typed messages."
  },
  {
   "property": "C73",
   "status": "partial",
   "theorems": [
    "Tmi.Props.C73_connect",
    "Tmi.Props.C73_reconnect",
    "Tmi.Props.C73_panics",
    "Tmi.Props.C73_total_partial",
    "Tmi.Props.C73_negation",
    "Tmi.Props.C73_tells",
    "Tmi.Props.C73_one_line",
    "Tmi.Props.C73_recv",
    "Tmi.Props.C73_send",
    "Tmi.Props.C73_cause",
    "Tmi.Props.C73_last"
   ],
   "note": "False as stated: the quoted message is formatted with {:?}, which lists its tags, so displaying the error panics exactly when they cannot be listed (C73_panics; witness C73_negation). Everything else is proved."
  },
  {
   "property": "C74",
   "status": "partial",
   "theorems": [
    "Tmi.Props.C74_connect_exact",
    "Tmi.Props.C74_reconnect_exact",
    "Tmi.Props.C74_connect_partial",
    "Tmi.Props.C74_calls_partial",
    "Tmi.Props.C74_panics",
    "Tmi.Props.C74_negation"
   ],
   "note": "False as stated: formatting a received message whose tags cannot be listed panics, so connect panics where it succeeds without a subscriber (C74_negation). C74_connect_exact and C74_reconnect_exact say that this is the only difference; C74_connect_partial and C74_calls_partial are the statement for lines whose tags can be listed."
  },
  {
   "property": "C75",
   "status": "proved",
   "theorems": [
    "Tmi.Props.C75_connect",
    "Tmi.Props.C75_reconnect",
    "Tmi.Props.C75_token",
    "Tmi.Props.C75_token_reconnect"
   ],
   "note": "The records of the sending methods are C55. C75_token: the records are the same for two configurations that differ in the token only."
  },
  {
   "property": "C76",
   "status": "proved",
   "theorems": [
    "Tmi.Props.C76_defined",
    "Tmi.Props.C76_agrees",
    "Tmi.Props.C76_array",
    "Tmi.Props.C76_reported"
   ],
   "note": "C76_defined: whatever the bytes, the build, the vector type and the address of the string, parsing a line has no undefined behaviour; at worst it panics. C76_agrees: and it does what the model of the other properties, which has no memory, says. C76_array: the array of tags, on its own: what was pushed is read back, and only that; the 129th push panics. C76_reported: no read of a cell that was not written goes unreported: reading the array succeeds exactly if each of the cells it reads was written, and then gives what was written there."
  },
  {
   "property": "C77",
   "status": "proved",
   "theorems": [
    "Tmi.Props.C77_message",
    "Tmi.Props.C77_reconnect",
    "Tmi.Props.C77_raw",
    "Tmi.Props.C77_raw_owned",
    "Tmi.Props.C77_channel",
    "Tmi.Props.C77_strings",
    "Tmi.Props.C77_durations",
    "Tmi.Props.C77_config"
   ],
   "note": "`Tells` (Spec/Tells.lean) relates a text to a serialised value, by type; `Literal` is the grammar of Rust string literals. chrono's serialised text of a time is a parameter, the printed text is the date (C71)."
  },
  {
   "property": "C78",
   "status": "proved",
   "theorems": [
    "Tmi.Props.C78_parse",
    "Tmi.Props.C78_count",
    "Tmi.Props.C78_tag",
    "Tmi.Props.C78_text",
    "Tmi.Props.C78_unescape"
   ],
   "note": "Steps are counted in a second copy of the parser, Model/Steps.lean, which is proved to compute the same results."
  },
  {
   "property": "C79",
   "status": "partial",
   "theorems": [
    "Tmi.Props.C79_badges_partial",
    "Tmi.Props.C79_quadratic_negation",
    "Tmi.Props.C79_negation"
   ],
   "note": "False as stated: every badge is looked for in the whole list of badge infos, so the work grows with the product of the two lengths. C79_quadratic_negation gives lines of 6n + 25 bytes (n < 20000) that take at least n * n steps, C79_negation one of less than 8000 bytes with more than 200 steps per byte. C79_badges_partial proves the product of the lengths as a bound for all messages."
  },
  {
   "property": "C80",
   "status": "proved",
   "theorems": [
    "Tmi.Props.C80_borrow",
    "Tmi.Props.C80_channel",
    "Tmi.Props.C80_order",
    "Tmi.Props.C80_tag_order",
    "Tmi.Props.C80_tag",
    "Tmi.Props.C80_command",
    "Tmi.Props.C80_hash"
   ],
   "note": "C80_command is for any lines on which parse returns, whatever the size of their tags. Hashing is modelled as the calls that the derived implementations make on the hasher."
  },
  {
   "property": "C81",
   "status": "partial",
   "theorems": [
    "Tmi.Props.C81_disconnect_partial",
    "Tmi.Props.C81_negation"
   ],
   "note": "False as documented: ConnectionReset, BrokenPipe and NotConnected are not recognised (C81_negation); everything else is (C81_disconnect_partial)."
  },
  {
   "property": "C82",
   "status": "partial",
   "theorems": [
    "Tmi.Props.C82_sender_partial",
    "Tmi.Props.C82_dropped",
    "Tmi.Props.C82_negation",
    "Tmi.Props.C82_listed_partial"
   ],
   "note": "Proved for all known events but anongiftpaidupgrade; C82_dropped shows that the sender is always missing for the others, C82_negation has concrete lines. C82_listed_partial says the same for lines with tags of any size, in terms of the tags that tags() lists."
  },
  {
   "property": "C83",
   "status": "partial",
   "theorems": [
    "Tmi.Props.C83_names_partial",
    "Tmi.Props.C83_no_space",
    "Tmi.Props.C83_negation",
    "Tmi.Props.C83_listed_partial"
   ],
   "note": "Exact characterisation: the getters give the text back iff it has no character that is escaped. C83_listed_partial says the same for lines with tags of any size, in terms of the tags that tags() lists."
  },
  {
   "property": "C84",
   "status": "partial",
   "theorems": [
    "Tmi.Props.C84_timeout_partial",
    "Tmi.Props.C84_ban",
    "Tmi.Props.C84_negation",
    "Tmi.Props.C84_listed_partial"
   ],
   "note": "Proved for numeric durations; C84_ban says exactly which lines are bans. C84_listed_partial says the same for lines with tags of any size, in terms of the tags that tags() lists."
  },
  {
   "property": "C85",
   "status": "partial",
   "theorems": [
    "Tmi.Props.C85_sets_partial",
    "Tmi.Props.C85_empty",
    "Tmi.Props.C85_negation",
    "Tmi.Props.C85_listed_partial"
   ],
   "note": "Proved for all lists but the empty one. C85_listed_partial says the same for lines with tags of any size, in terms of the tags that tags() lists."
  },
  {
   "property": "C86",
   "status": "partial",
   "theorems": [
    "Tmi.Props.C86_names_partial",
    "Tmi.Props.C86_lost",
    "Tmi.Props.C86_negation",
    "Tmi.Props.C86_listed_partial"
   ],
   "note": "Proved for messages with a badge-info tag, for the five types of message with badges. C86_listed_partial says the same for lines with tags of any size, in terms of the tags that tags() lists."
  },
  {
   "property": "C87",
   "status": "partial",
   "theorems": [
    "Tmi.Props.C87_named_partial",
    "Tmi.Props.C87_variant",
    "Tmi.Props.C87_unknown",
    "Tmi.Props.C87_other_name",
    "Tmi.Props.C87_negation"
   ],
   "note": "Proved for every name but one (C87_named_partial) and for every variant (C87_variant). False as stated: pinned-chat-paid-canonical-amount finds another tag (C87_other_name), and Tag::Unknown matches any key, against the documentation (C87_unknown, C87_negation)."
  },
  {
   "property": "C88",
   "status": "partial",
   "theorems": [
    "Tmi.Props.C88_exact_partial",
    "Tmi.Props.C88_negation"
   ],
   "note": "C88_exact_partial is an exact characterisation of all outcomes. The last clause is false: no method ever returns StreamClosed, also after recv has (C88_negation)."
  },
  {
   "property": "C89",
   "status": "partial",
   "theorems": [
    "Tmi.Props.C89_gives_up",
    "Tmi.Props.C89_transient_partial",
    "Tmi.Props.C89_negation"
   ],
   "note": "Proved if the last error is that the connection could not be opened or the greeting could not be written (C89_transient_partial); C89_gives_up says exactly when it stops early. False as stated: an attempt that times out, or in which the server closes the connection, ends it at once, even without a limit on the attempts (C89_negation)."
  },
  {
   "property": "C90",
   "status": "proved",
   "theorems": [
    "Tmi.Props.C90_clear_chat",
    "Tmi.Props.C90_clear_msg",
    "Tmi.Props.C90_global_user_state",
    "Tmi.Props.C90_user_state",
    "Tmi.Props.C90_small",
    "Tmi.Props.C90_privmsg",
    "Tmi.Props.C90_room_state",
    "Tmi.Props.C90_whisper",
    "Tmi.Props.C90_user_notice",
    "Tmi.Props.C90_listed"
   ],
   "note": "C90_listed has all of them for lines with tags of any size, read with the tags that tags() lists. One theorem per typed message (JOIN, PART, NOTICE, PING and PONG together); the getters are modelled one by one in Model/Getters.lean. The unescaping getters give back recoverable text, as in C57."
  },
  {
   "property": "C91",
   "status": "proved",
   "theorems": [
    "Tmi.Props.C91_listed",
    "Tmi.Props.C91_same",
    "Tmi.Props.C91_order",
    "Tmi.Props.C91_other_tags",
    "Tmi.Props.C91_repeated",
    "Tmi.Props.C91_tight"
   ],
   "note": "C91_listed is for tags of any size, as tags() lists them. The tags per command are listed in Spec/TagsRead.lean."
  },
  {
   "property": "C92",
   "status": "proved",
   "theorems": [
    "Tmi.Props.C92_reply"
   ],
   "note": "C92_reply: for every received chat message and every text, `privmsg(msg.channel(), text).reply_to(msg.id())` sends, if it succeeds, a line that every build reads as a chat message with that text, in the channel of the received message and with its id as the message that is replied to."
  },
  {
   "property": "C93",
   "status": "partial",
   "theorems": [
    "Tmi.Props.C93_reply_partial",
    "Tmi.Props.C93_nonce_partial",
    "Tmi.Props.C93_negation"
   ],
   "note": "False as stated; C93_negation has a nonce that makes the message a reply, one that makes it a PART and one that arrives as another. The exact condition is proved for the id (with any nonce that can be sent) and for the nonce (with or without an id that can be sent)."
  },
  {
   "property": "C94",
   "status": "proved",
   "theorems": [
    "Tmi.Props.C94_typed",
    "Tmi.Props.C94_plain",
    "Tmi.Props.C94_parse",
    "Tmi.Props.C94_count"
   ],
   "note": "Steps are counted as in C78; numbers, times and durations are charged a step per byte, `split_once(\" :\")` two. How bad badges can be is C79."
  },
  {
   "property": "C95",
   "status": "proved",
   "theorems": [
    "Tmi.Props.C95_frame",
    "Tmi.Props.C95_privmsg_text",
    "Tmi.Props.C95_user_notice_text",
    "Tmi.Props.C95_clear_msg_text",
    "Tmi.Props.C95_whisper_text",
    "Tmi.Props.C95_gap",
    "Tmi.Props.C95_privmsg_name",
    "Tmi.Props.C95_privmsg_reply_text",
    "Tmi.Props.C95_privmsg_reply_name",
    "Tmi.Props.C95_user_notice_name",
    "Tmi.Props.C95_user_notice_system_message",
    "Tmi.Props.C95_whisper_name"
   ],
   "note": "The text may be anything that is valid UTF-8 (a carriage return and line feed would end the line before it reaches the parser). Chosen names and quoted texts are escaped as the server does (Spec/Escape.lean)."
  },
  {
   "property": "C96",
   "status": "proved",
   "theorems": [
    "Tmi.Props.C96_chat",
    "Tmi.Props.C96_told",
    "Tmi.Props.C96_received"
   ],
   "note": "C96_chat (all getters of a chat message), C96_told (every kind of record), C96_received (a whole session through recv and as_typed)"
  },
  {
   "property": "C97",
   "status": "partial",
   "theorems": [
    "Tmi.Props.C97_texts",
    "Tmi.Props.C97_distinct_partial",
    "Tmi.Props.C97_any",
    "Tmi.Props.C97_quadratic_negation",
    "Tmi.Props.C97_negation"
   ],
   "note": "False: the text of badge-info is copied once for every badge of its name, so a line of 4n bytes makes a message of n*n bytes (C97_negation). Proved: all texts other than the badges fit in the line (C97_texts); everything fits if no badge is there twice (C97_distinct_partial); in general the excess is at most the product of the lengths of the two tags (C97_any)."
  },
  {
   "property": "C98",
   "status": "proved",
   "theorems": [
    "Tmi.Props.C98_told",
    "Tmi.Props.C98_happened",
    "Tmi.Props.C98_received"
   ],
   "note": "For every record with its line: C98_told (parsing gives a typed message that says the same), C98_happened (the same for UserNotice::parse alone) and C98_received (through recv, for any mixture with the records of C96 and any cutting of the stream). A user state's display name is given back as it is on the line, since that getter does not unescape (see C83)."
  },
  {
   "property": "C99",
   "status": "proved",
   "theorems": [
    "Tmi.Props.C99_ends",
    "Tmi.Props.C99_session",
    "Tmi.Props.C99_lifetime",
    "Tmi.Props.C99_answers"
   ],
   "note": "C99_ends: whatever happens, if every line that arrives is one that a server sends, then the loop ends only if the program is stopped, the connection fails or ends, or `reconnect` gives up (or panics because its delay overflows): no message of the server makes it give up. C99_session: the programs from the start: once connected, they end only with the connection. C99_lifetime: as long as the server sends, the network accepts the answers, and `reconnect` succeeds when the server asks for it, the programs take everything that is sent, in order, answer each before they take the next, follow every RECONNECT by connecting and joining again, and go on with what happens then. C99_answers: on one connection, what was taken is what the server sent, and what was written is the answers to it."
  },
  {
   "property": "C100",
   "status": "proved",
   "theorems": [
    "Tmi.Props.C100_understood",
    "Tmi.Props.C100_relayed",
    "Tmi.Props.C100_greeting"
   ],
   "note": "The server between the two clients is a specification (Spec/Relay.lean): it reads by the line grammar and relays records of C96. Times, ids, badges and so on of the relayed records are the server's choice; they are covered by C96."
  },
  {
   "property": "C101",
   "status": "proved",
   "theorems": [
    "Tmi.Props.C101_tracks"
   ],
   "note": "The server and the note-keeping program are specifications (Spec/Track.lean), the second written with the modelled getters only. Settings are claimed for channels of which the server has told all settings, as it does when a client joins."
  },
  {
   "property": "C102",
   "status": "proved",
   "theorems": [
    "Tmi.Props.C102_reconnected",
    "Tmi.Props.C102_received"
   ],
   "note": "C102_reconnected and C102_received. SameFromNow (Spec/LikeNew.lean) is indistinguishability for every adaptive program. The proofs show that no call reads what was seen before (a frame lemma for every operation) and that success leaves the state connect makes. A non-vacuity example also shows that without the successful reconnect the two clients can be told apart."
  },
  {
   "property": "C103",
   "status": "proved",
   "theorems": [
    "Tmi.Props.C103_exact",
    "Tmi.Props.C103_ordinary"
   ],
   "note": "C103_exact is the equivalence, over a list of everything that can be asked (Spec/Crash.lean); C103_ordinary is the consequence for ordinary lines. Getters that return a stored field are not listed: they compute nothing."
  },
  {
   "property": "C104",
   "status": "proved",
   "theorems": [
    "Tmi.Props.C104_program",
    "Tmi.Props.C104_session",
    "Tmi.Props.C104_crash",
    "Tmi.Props.C104_readable"
   ],
   "note": "C104_program is about all programs from any state of the client, C104_session starts with connect, C104_crash is the converse for lines (C42_overflow is the one for waits), C104_readable says which servers are harmless."
  },
  {
   "property": "C105",
   "status": "proved",
   "theorems": [
    "Tmi.Props.C105_received",
    "Tmi.Props.C105_endless",
    "Tmi.Props.C105_buffer",
    "Tmi.Props.C105_greetings"
   ],
   "note": "C105_received: the reader holds at most one line and one read, in every session. C105_endless: without a bound on lines there is no bound, exactly all bytes are held. C105_buffer: the buffer holds at most one greeting for each connection, and is empty as long as reconnect was not called. C105_greetings: n attempts whose first write fails leave n greetings. Counted are the bytes held, not the capacity that a Vec or String keeps; what tokio's Lines keeps in its second buffer after a failed read (the piece of the line that the model forgets, at most one more line) is not counted."
  },
  {
   "property": "C106",
   "status": "partial",
   "theorems": [
    "Tmi.Props.C106_open_partial",
    "Tmi.Props.C106_failed_partial",
    "Tmi.Props.C106_closed_partial",
    "Tmi.Props.C106_left_partial",
    "Tmi.Props.C106_told_partial",
    "Tmi.Props.C106_occurs",
    "Tmi.Props.C106_negation",
    "Tmi.Props.C106_negation_scalar"
   ],
   "note": "C106_open_partial: part: a connection that stays open: only whole lines are taken for messages, however much of the next one has arrived, whatever the lines are. (Missing: connections that are closed, for which C106 is false, `C106_negation`.) C106_failed_partial: part: a connection that fails (it is reset, times out, ...): whole lines, then the error. (Missing: connections that are closed, for which C106 is false, `C106_negation`.) C106_closed_partial: exactly: a connection that is closed: the results for the whole lines; if something of the next line has arrived, the result for that, as if it were a line; then `StreamClosed`. (So C106 holds of a closed connection just if nothing of the next line has arrived or it does not parse.) C106_left_partial: exactly: what a program is told by the beginning of a line: nothing, or what is left of what the server said. (Partial, because a beginning that is left should tell nothing at all; `C106_occurs` shows that each of these does tell.) C106_told_partial: part: through the client. Every message that a program receives is for what the server said in that place; only the last one before `StreamClosed`, of a connection that was closed, may tell only what was left of it. (Missing: that this last one is not returned, which is false; connections that fail are `C106_failed_partial`.) C106_occurs: exactly: every way to shorten what the server says comes about. C106_negation: C106 is false: whoever is timed out, if the connection is closed just before their name, then the program is told that the chat was cleared. C106_negation_scalar: C106 is false: without SIMD, if the connection is closed in the tags of a message, then `recv` panics."
  },
  {
   "property": "C107",
   "status": "proved",
   "theorems": [
    "Tmi.Props.C107_secure",
    "Tmi.Props.C107_only",
    "Tmi.Props.C107_session"
   ],
   "note": "At every moment, for every session; that nothing else is contacted; refinement to the client model of the other properties."
  },
  {
   "property": "C108",
   "status": "partial",
   "theorems": [
    "Tmi.Props.C108_load",
    "Tmi.Props.C108_exact",
    "Tmi.Props.C108_partial",
    "Tmi.Props.C108_negation"
   ],
   "note": "False as stated (C108_negation). Proved: what loading gives in every case, and exactly when connect tries to open a connection."
  },
  {
   "property": "C109",
   "status": "partial",
   "theorems": [
    "Tmi.Props.C109_ends",
    "Tmi.Props.C109_reconnect",
    "Tmi.Props.C109_partial",
    "Tmi.Props.C109_negation",
    "Tmi.Props.C109_text",
    "Tmi.Props.C109_twice_negation",
    "Tmi.Props.C109_opening",
    "Tmi.Props.C109_which"
   ],
   "note": "False as stated (C109_negation, C109_twice_negation). Proved: exactly of which errors everything is found, that following source ends, and that texts contain the texts of everything behind."
  },
  {
   "property": "C110",
   "status": "proved",
   "theorems": [
    "Tmi.Props.C110_message",
    "Tmi.Props.C110_raw",
    "Tmi.Props.C110_borrowed",
    "Tmi.Props.C110_copied",
    "Tmi.Props.C110_same",
    "Tmi.Props.C110_exactly",
    "Tmi.Props.C110_exceptions"
   ],
   "note": "The model's texts are byte sequences, not pointers, so `piece` means equal to a contiguous part of the line. The Cow of maybe_unescape is modelled as it is (Model/Cow.lean)."
  },
  {
   "property": "C111",
   "status": "partial",
   "theorems": [
    "Tmi.Props.C111_understood",
    "Tmi.Props.C111_exactly",
    "Tmi.Props.C111_one_channel_partial",
    "Tmi.Props.C111_each",
    "Tmi.Props.C111_repeats",
    "Tmi.Props.C111_negation"
   ],
   "note": "C111_each proves it for a bypass per channel and C111_one_channel_partial for one bypass when an even number of messages goes elsewhere between two in a channel; C111_exactly says which messages are equal, C111_repeats and C111_negation that it fails for two channels by turns. Stated on what the server understands from the bytes on the wire (C100)."
  },
  {
   "property": "C112",
   "status": "partial",
   "theorems": [
    "Tmi.Props.C112_exactly",
    "Tmi.Props.C112_reached_partial",
    "Tmi.Props.C112_full_name",
    "Tmi.Props.C112_lost",
    "Tmi.Props.C112_negation"
   ],
   "note": "C112_exactly says what the server understands from any program with any names, C112_reached_partial proves the property for names with '#', C112_full_name that the name as join sends it always works, C112_lost and C112_negation that a name without '#' loses the message. Stated on what the server understands from the bytes on the wire (C100)."
  },
  {
   "property": "C113",
   "status": "proved",
   "theorems": [
    "Tmi.Props.C113_members"
   ],
   "note": "Names are words without white space, channel and own name without ':', the own name without '#' in front (as on Twitch)."
  },
  {
   "property": "C114",
   "status": "proved",
   "theorems": [
    "Tmi.Props.C114_same",
    "Tmi.Props.C114_again",
    "Tmi.Props.C114_bare",
    "Tmi.Props.C114_accepted"
   ],
   "note": "The receiving connection is open or has not ended yet; sender and receiver are the same build."
  },
  {
   "property": "C115",
   "status": "proved",
   "theorems": [
    "Tmi.Props.C115_unescaped",
    "Tmi.Props.C115_told",
    "Tmi.Props.C115_lines",
    "Tmi.Props.C115_understood",
    "Tmi.Props.C115_limit"
   ],
   "note": "C115_limit shows that the condition on unescaped texts cannot be dropped."
  },
  {
   "property": "C116",
   "status": "proved",
   "theorems": [
    "Tmi.Props.C116_rest",
    "Tmi.Props.C116_count"
   ],
   "note": "Each program stays on one connection (C99 and C101 speak of reconnecting). What a program does is the relation Did, which C99 proves of the program."
  },
  {
   "property": "C117",
   "status": "proved",
   "theorems": [
    "Tmi.Props.C117_processors",
    "Tmi.Props.C117_portable",
    "Tmi.Props.C117_differ",
    "Tmi.Props.C117_release",
    "Tmi.Props.C117_typed",
    "Tmi.Props.C117_overflow",
    "Tmi.Props.C117_program"
   ],
   "note": "C117_processors and C117_portable: equality of results and worlds for connect and for every program; C117_differ: recv agrees exactly on the lines that are not just tags; C117_release: parse and all accessors in debug and release builds; C117_typed: the typed message; C117_overflow: the exception."
  },
  {
   "property": "C118",
   "status": "proved",
   "theorems": [
    "Tmi.Props.C118_issued",
    "Tmi.Props.C118_once",
    "Tmi.Props.C118_complete",
    "Tmi.Props.C118_lines",
    "Tmi.Props.C118_every",
    "Tmi.Props.C118_every_listed",
    "Tmi.Props.C118_every_once"
   ],
   "note": "C118_issued is the general statement over every history; C118_once and C118_complete are for histories in which each reconnect that got a connection succeeded on it; C118_lines states the latter as lines. That more than one greeting can occur otherwise is C40_negation."
  },
  {
   "property": "C119",
   "status": "proved",
   "theorems": [
    "Tmi.Props.C119_waits",
    "Tmi.Props.C119_buffered",
    "Tmi.Props.C119_arrives"
   ],
   "note": "The reader is that of tokio and tokio-stream, modelled poll by poll after its documented behaviour (Verif/Model/Lines.lean)."
  },
  {
   "property": "C120",
   "status": "proved",
   "theorems": [
    "Tmi.Props.C120_past",
    "Tmi.Props.C120_call",
    "Tmi.Props.C120_connect",
    "Tmi.Props.C120_killed"
   ],
   "note": "C120_past: a call uses the first answers only, and if it came back it does the same whatever follows; C120_call and C120_connect: cut short at any point; C120_killed: whole programs in a process that is killed."
  },
  {
   "property": "C121",
   "status": "proved",
   "theorems": [
    "Tmi.Props.C121_apart",
    "Tmi.Props.C121_order"
   ],
   "note": "C121_apart: the accounts of the recv calls and of the sending calls are those of each kind alone; C121_order: hence any two interleavings agree. Between reconnects: a reconnect replaces both halves (C102, C118)."
  },
  {
   "property": "C122",
   "status": "proved",
   "theorems": [
    "Tmi.Props.C122_sent",
    "Tmi.Props.C122_arrived",
    "Tmi.Props.C122_retrying",
    "Tmi.Props.C122_finished",
    "Tmi.Props.C122_recovers"
   ],
   "note": "Restricted to commands whose texts contain no line feed (see C36) and to logins and tokens without one; send_raw takes any bytes and is left out. On the same connection the claim fails (C54)."
  },
  {
   "property": "C123",
   "status": "proved",
   "theorems": [
    "Tmi.Props.C123_find_first",
    "Tmi.Props.C123_same_tags",
    "Tmi.Props.C123_mask"
   ],
   "note": "The property is conditional on how eq and movemask are completed (see Model/Avx512.lean): the file is not compiled, and these two would not type-check."
  },
  {
   "property": "C124",
   "status": "partial",
   "theorems": [
    "Tmi.Props.C124_added_partial",
    "Tmi.Props.C124_kept",
    "Tmi.Props.C124_failed",
    "Tmi.Props.C124_moments",
    "Tmi.Props.C124_killed_negation",
    "Tmi.Props.C124_only_reads",
    "Tmi.Props.C124_nothing_new",
    "Tmi.Props.C124_since_negation",
    "Tmi.Props.C124_until_negation"
   ],
   "note": "False as stated in three ways, each proved: the commit it starts from is not included (C124_since_negation); with `until` the link still leads to the newest commit (C124_until_negation); the file is emptied before it is written, so that a task that is killed then loses it (C124_killed_negation, with C124_moments for what it can be at any moment). Proved without these: C124_added_partial (what is written, exactly), C124_kept (nothing that was there is lost by a run that succeeds), C124_failed (what a run that fails leaves), C124_only_reads, C124_nothing_new (an empty range is an error and changes nothing)."
  },
  {
   "property": "C125",
   "status": "proved",
   "theorems": [
    "Tmi.Props.C125_found",
    "Tmi.Props.C125_found_total",
    "Tmi.Props.C125_blank",
    "Tmi.Props.C125_setup",
    "Tmi.Props.C125_setup_binary",
    "Tmi.Props.C125_test",
    "Tmi.Props.C125_exit"
   ],
   "note": "C125_blank: a line of nothing but blanks, which cargo does not print, would make the task panic."
  },
  {
   "property": "C126",
   "status": "proved",
   "theorems": [
    "Tmi.Props.C126_value",
    "Tmi.Props.C126_message",
    "Tmi.Props.C126_parsed",
    "Tmi.Props.C126_one_line",
    "Tmi.Props.C126_different",
    "Tmi.Props.C126_log",
    "Tmi.Props.C126_incomplete",
    "Tmi.Props.C126_cut",
    "Tmi.Props.C126_again",
    "Tmi.Props.C126_depth",
    "Tmi.Props.C126_limit",
    "Tmi.Props.C126_utf8"
   ],
   "note": "serde_json is an external crate: its writer is modelled byte by byte, its reader is taken to read JSON as RFC 8259 says (Spec/Json.lean), for the integers that messages contain."
  },
  {
   "property": "C127",
   "status": "partial",
   "theorems": [
    "Tmi.Props.C127_value",
    "Tmi.Props.C127_channel",
    "Tmi.Props.C127_borrowed",
    "Tmi.Props.C127_back_partial",
    "Tmi.Props.C127_same",
    "Tmi.Props.C127_negation",
    "Tmi.Props.C127_reader"
   ],
   "note": "True of the owned form, for all names and texts. False as stated of the borrowed form (C127_negation): a name with a quotation mark, a backslash or a control character is written with escapes, and serde only borrows strings without escapes; from a reader no borrowed name can be read at all. C127_borrowed says exactly which texts give a borrowed name."
  },
  {
   "property": "C128",
   "status": "proved",
   "theorems": [
    "Tmi.Props.C128_answered",
    "Tmi.Props.C128_back",
    "Tmi.Props.C128_which"
   ],
   "note": "C128_answered: the server answers exactly the pings. C128_back: the nonces received. C128_which: the ping of a PONG."
  },
  {
   "property": "C129",
   "status": "proved",
   "theorems": [
    "Tmi.Props.C129_times",
    "Tmi.Props.C129_texts"
   ],
   "note": "The order and the text of a DateTime<Utc> are chrono's (external) and modelled. The exception is exact: C129_texts is an equivalence."
  }
 ]
}