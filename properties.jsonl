{"id": "C01", "title": "Parsing a line never panics", "statement": "IrcMessageRef::parse / IrcMessage::parse return Some or None for every input string: no panic, no out-of-range slice, no slice in the middle of a UTF-8 character, no non-terminating loop; and on the returned message none of the accessors raw, tags, tag, prefix, command, channel, params, text panics.", "quantifier": "every valid UTF-8 string (any length, any bytes), every build configuration of the tag parser (sse2, avx2, neon, scalar), every memory address of the string, every tag name looked up", "why_tests_cant": "The failing inputs are positions of delimiters, multi-byte characters, lengths and alignments; tests sample a handful of well-formed Twitch lines.", "anchors": ["src/irc.rs:IrcMessageRef::parse_inner", "src/irc/tags/simd.rs:parse", "src/irc/tags/scalar.rs:parse", "src/irc/tags.rs:Array::push", "src/irc/prefix.rs:parse", "src/irc/command.rs:parse", "src/irc/channel.rs:parse", "src/irc/params.rs:parse", "src/common.rs:Span"]}
{"id": "C02", "title": "The parser implements the documented line grammar", "statement": "For a line `[@tags ][:prefix ]command[ rest]` with rest = `[#channel[ ]]params`, a successful parse exposes exactly those pieces of the input: tags() are the key=value pairs in order, prefix() the text between ':' and the first space, command() the next space-delimited token, channel() the following token if it starts with '#' (for the replies 353 and 366 see C13), params() the remaining bytes unless empty; and parse returns None exactly when the command token is empty.", "quantifier": "every valid UTF-8 line shorter than 4 GiB whose tag section has at most 128 pairs with keys and values of at most 65535 bytes, every tag parser", "why_tests_cant": "The parser threads a mutable byte offset through five sub-parsers; a wrong offset shows only for particular combinations of present/absent parts.", "anchors": ["src/irc.rs:IrcMessageRef::parse_inner", "src/irc/prefix.rs:parse", "src/irc/command.rs:parse", "src/irc/channel.rs:parse", "src/irc/params.rs:parse"]}
{"id": "C03", "title": "All SIMD backends give the same tags", "statement": "Tag parsing with the sse2, avx2 and neon vector types returns the same tag list and the same continuation offset for every input, and the result does not depend on where the string lies in memory.", "quantifier": "every byte string, every pair of SIMD backends, every pair of base addresses", "why_tests_cant": "CI runs one architecture; chunk boundaries and alignment offsets are unbounded combinations.", "anchors": ["src/irc/tags/simd.rs:parse", "src/irc/wide/x86_64/sse2.rs", "src/irc/wide/x86_64/avx2.rs", "src/irc/wide/aarch64/neon.rs"]}
{"id": "C04", "title": "The scalar and SIMD tag parsers agree", "statement": "Building with or without the `simd` feature does not change the result of parsing any line.", "quantifier": "every valid UTF-8 line, every SIMD backend, every address", "why_tests_cant": "The two implementations share no code and are never both compiled, so no test compares them.", "anchors": ["src/irc/tags/scalar.rs:parse", "src/irc/tags/simd.rs:parse", "Cargo.toml:features.simd"]}
{"id": "C05", "title": "Vectorised byte search returns the first occurrence", "statement": "The vectorised search used to find the end of the tag section returns Some(i) with i the least index holding the byte, and None exactly when the byte does not occur.", "quantifier": "every byte string, every needle byte, every base address, every SIMD backend", "why_tests_cant": "Five phases (scalar, unaligned head, unrolled aligned, aligned, overlapping tail) whose boundaries depend on length and address modulo the vector size.", "anchors": ["src/irc/tags/simd.rs:find_first"]}
{"id": "C06", "title": "Vector loads stay inside the string and aligned loads are aligned", "statement": "While parsing tags every vector load reads only bytes of the input slice, every aligned load is at an address divisible by the vector size, and the remainder copy fits its stack buffer.", "quantifier": "every byte string, every base address, every SIMD backend", "why_tests_cant": "An over-read of a few bytes is undefined behaviour that almost never crashes a test.", "anchors": ["src/irc/tags/simd.rs:find_first", "src/irc/tags/simd.rs:parse", "src/irc/wide/x86_64/sse2.rs:Vector::load_aligned", "src/irc/wide/x86_64/sse2.rs:Vector::load_unaligned_remainder"]}
{"id": "C07", "title": "Movemask, first_match and clear_to mean what they say on every backend", "statement": "For every vector of bytes and every needle, has_match is true iff some lane equals the needle, first_match().as_index() is the least such lane, and clear_to(m) removes exactly the lanes up to and including m from any mask, without arithmetic overflow.", "quantifier": "every vector content, every needle byte, every lane index, every SIMD backend", "why_tests_cant": "2^(8*SIZE) vectors; neon uses 4 bits per lane while x86 uses one, and only one of them is tested.", "anchors": ["src/irc/wide/x86_64/sse2.rs:Mask", "src/irc/wide/x86_64/avx2.rs:Mask", "src/irc/wide/aarch64/neon.rs:Mask"]}
{"id": "C08", "title": "Tags round-trip", "statement": "Rendering any list of key/value pairs as `@k1=v1;k2=v2;... ` and parsing the line gives back exactly that list through tags(), whatever follows the space; '=' inside a value is part of the value.", "quantifier": "every list of at most 128 pairs of UTF-8 strings of at most 65535 bytes whose keys contain no '=' or space and whose values contain no ';' or space, every rest of line, every tag parser", "why_tests_cant": "Two regressions (0.7.2, regression_equals_in_tag_value_2) depended on how '=' was aligned to vector chunks.", "anchors": ["src/irc/tags/simd.rs:parse_chunk", "src/irc/tags/scalar.rs:parse", "src/irc.rs:IrcMessageRef::tags"]}
{"id": "C09", "title": "tag() returns the first pair with that key", "statement": "tag(k) is Some(v) iff (k', v) is the first pair of tags() whose key is the string of k, and None iff no pair has that key.", "quantifier": "every parsed line within the tag limits, every requested tag", "why_tests_cant": "Duplicate keys, empty values and prefixes of other keys are unbounded combinations.", "anchors": ["src/irc.rs:IrcMessageRef::tag", "src/irc/tags.rs:TagPair"]}
{"id": "C10", "title": "Tag names round-trip", "statement": "Tag::parse(s).as_str() == s for every string s, and Tag::parse(t.as_str()) == t for every known variant t; so looking a tag up by variant or by its kebab-case string is the same.", "quantifier": "every string and every variant of the Tag enum", "why_tests_cant": "The table has about eighty rows written twice by hand; no test walks it, and the unknown case ranges over all strings.", "anchors": ["src/irc/tags.rs:tags_def!", "src/irc/tags.rs:Tag::parse", "src/irc/tags.rs:Tag::as_str"]}
{"id": "C11", "title": "Prefix parts and Display round-trip", "statement": "For `:nick!user@host `, `:nick@host ` and `:host ` prefix() gives exactly those parts, and formatting the parsed prefix gives back the text between ':' and the space exactly when no '!' follows the last '@' (so always for those three shapes).", "quantifier": "every prefix text without spaces, any number of '!' and '@' in any order", "why_tests_cant": "The parts come from a hand-written single pass with four mutable variables; the order of separators is unbounded.", "anchors": ["src/irc/prefix.rs:parse", "src/irc/prefix.rs:Prefix::fmt"]}
{"id": "C12", "title": "Command classification is exact", "statement": "command().as_str() is the command token of the line, Display agrees, and a token is reported as a known variant iff it is spelled exactly like it; every other non-empty token is Other(token).", "quantifier": "every parsed line shorter than 4 GiB, whatever the sizes of its tags, every tag parser", "why_tests_cant": "All strings that are not one of 24 literals, including prefixes, extensions and case variants.", "anchors": ["src/irc/command.rs:parse", "src/irc/command.rs:Command::as_str", "src/irc/command.rs:RawCommand::get"]}
{"id": "C13", "title": "channel() is the channel of the line", "statement": "channel() returns the token after the command iff it starts with '#'; the name starts with '#' and contains no space; for 353 it is the third whitespace-separated param and for 366 the second.", "quantifier": "every parsed line shorter than 4 GiB, whatever the sizes of its tags, every tag parser", "why_tests_cant": "Depends on every combination of trailing spaces, missing params and Unicode whitespace.", "anchors": ["src/irc/channel.rs:parse", "src/irc.rs:IrcMessageRef::channel"]}
{"id": "C14", "title": "text() is the trailing parameter", "statement": "text() returns what follows the first ':' of the params, all params if there is no ':', and None iff there are no params; the documentation's `after the last ':'` holds only when there is one ':'.", "quantifier": "every parsed line shorter than 4 GiB, whatever the sizes of its tags, every tag parser", "why_tests_cant": "Messages may contain any number of ':' characters anywhere.", "anchors": ["src/irc.rs:IrcMessageRef::text"]}
{"id": "C15", "title": "Owned and borrowed messages agree", "statement": "IrcMessage::parse and IrcMessageRef::parse accept the same lines, and every accessor of the owned message equals the same accessor of as_ref() and of the borrowed parse; into_owned and as_ref lose nothing.", "quantifier": "every valid UTF-8 line, every accessor", "why_tests_cant": "The accessors are duplicated by hand in two impls.", "anchors": ["src/irc.rs:IrcMessage", "src/irc.rs:IrcMessageRef::into_owned", "src/irc.rs:IrcMessage::as_ref", "src/irc.rs:IrcMessage::text"]}
{"id": "C16", "title": "Parsing loses no bytes", "statement": "The original line can be rebuilt from the pieces a parsed message exposes: '@' tag section ' ' ':' prefix text ' ' command ' ' channel ' ' params concatenate to raw(), each separator present exactly when something follows it on the line.", "quantifier": "every parsed line within the tag limits", "why_tests_cant": "Needs every combination of optional parts and of trailing spaces.", "anchors": ["src/irc.rs:IrcMessageRef::parse_inner", "src/irc.rs:IrcMessageRef::raw"]}
{"id": "C17", "title": "Tag keys and values of any length are returned whole", "statement": "tag(k) returns the complete value between '=' and the next ';' or space, and tags() the complete key, whatever their length.", "quantifier": "every key and value length", "why_tests_cant": "Lengths are stored in 16 bits; only inputs above 64 KiB show it.", "anchors": ["src/irc/tags.rs:TagPair", "src/irc/tags/simd.rs:parse_chunk", "src/irc/tags/scalar.rs:parse"]}
{"id": "C18", "title": "unescape inverts tag escaping", "statement": "Escaping a string the Twitch way (';' to '\\\\:', space to '\\\\s', '\\\\' to '\\\\\\\\', CR to '\\\\r', LF to '\\\\n', ',' to U+2E1D) and applying unescape gives the string back.", "quantifier": "every string without U+2E1D", "why_tests_cant": "A state machine over all strings.", "anchors": ["src/irc.rs:unescape"]}
{"id": "C19", "title": "maybe_unescape and unescape agree", "statement": "maybe_unescape returns the same string as unescape, borrowing when nothing has to change.", "quantifier": "every string", "why_tests_cant": "They are two separate implementations with different match orders.", "anchors": ["src/lib.rs:maybe_unescape", "src/lib.rs:actually_unescape", "src/irc.rs:unescape"]}
{"id": "C20", "title": "An escape affects only the next character", "statement": "In unescape and maybe_unescape a backslash changes the meaning of the character right after it and of no later character; an unknown escape yields the character itself.", "quantifier": "every string", "why_tests_cant": "The escape flag is state carried across unboundedly many characters.", "anchors": ["src/irc.rs:unescape", "src/lib.rs:actually_unescape"]}
{"id": "C21", "title": "Typed dispatch follows the command", "statement": "Message::from_irc yields the variant of the line's command (or an error), Reconnect for RECONNECT, and Other for every command without a typed form, never failing for those; each typed parser rejects every other command.", "quantifier": "every parsed line shorter than 4 GiB, whatever the sizes of its tags, every tag parser", "why_tests_cant": "All commands times all tag contents.", "anchors": ["src/msg.rs:Message::from_irc", "src/msg.rs:FromIrc"]}
{"id": "C22", "title": "Typed parsing never panics", "statement": "Message::parse, as_typed and every from_irc return Ok or Err, never panic, for every line.", "quantifier": "every valid UTF-8 line, debug and release builds", "why_tests_cant": "Numeric tags range over all digit strings; overflow needs specific extreme values.", "anchors": ["src/msg.rs:Message::parse", "src/msg/room_state.rs:RoomState::parse"]}
{"id": "C23", "title": "PRIVMSG parsing is exact", "statement": "Privmsg parses iff text, channel, room-id, id, user-id, display-name, a nick in the prefix and a valid tmi-sent-ts are present, and then every getter returns the value of its tag or part.", "quantifier": "every PRIVMSG line within the tag limits", "why_tests_cant": "Presence/absence combinations of about twenty tags in any order.", "anchors": ["src/msg/privmsg.rs:Privmsg::parse"]}
{"id": "C24", "title": "Optional Privmsg parts are all-or-nothing", "statement": "reply_to() is Some iff all seven reply tags are present; pinned_chat() is Some iff all pinned-chat tags are present with numeric amount and exponent and a known level; a malformed optional part never makes the message fail.", "quantifier": "every PRIVMSG line within the tag limits", "why_tests_cant": "2^12 presence combinations times all values.", "anchors": ["src/msg/privmsg.rs:Privmsg::parse", "src/msg/privmsg.rs:PinnedChatLevel"]}
{"id": "C25", "title": "/me detection strips exactly the action wrapper", "statement": "is_action is true iff the text is U+0001 'ACTION ' body U+0001 and then text() is body; otherwise text() is the whole text.", "quantifier": "every text", "why_tests_cant": "All strings near the wrapper: missing suffix, nested markers, empty body.", "anchors": ["src/msg.rs:parse_message_text"]}
{"id": "C26", "title": "Badges are parsed in order with their badge-info", "statement": "badges() lists one badge per 'name/version' entry of the badges tag in order, skips entries without '/', and takes extra from the first badge-info entry with the same name; staff, turbo, broadcaster, moderator and subscriber become their own variants.", "quantifier": "every pair of badges and badge-info strings", "why_tests_cant": "Lists of any length, with duplicates, empty entries and nested separators.", "anchors": ["src/msg.rs:parse_badges", "src/msg.rs:Badge::from"]}
{"id": "C27", "title": "Badge and BadgeData conversions are inverse on parsed badges", "statement": "Converting a parsed badge to BadgeData and back gives the same badge; the name is preserved by every conversion; months() is the numeric badge-info or 1.", "quantifier": "every badge produced by the parser", "why_tests_cant": "Names, versions and extra are arbitrary strings.", "anchors": ["src/msg.rs:From<Badge> for BadgeData", "src/msg.rs:From<BadgeData> for Badge", "src/msg.rs:Subscriber"]}
{"id": "C28", "title": "CLEARCHAT is classified exactly", "statement": "The action is Clear iff the line has no text, TimeOut iff it has a text and a valid ban-duration, Ban iff it has a text and none; target() is the text; a user action without target-user-id is an error.", "quantifier": "every CLEARCHAT line within the tag limits", "why_tests_cant": "All combinations of text, duration strings and tags.", "anchors": ["src/msg/clear_chat.rs:ClearChat::parse", "src/msg/clear_chat.rs:ClearChat::target"]}
{"id": "C29", "title": "USERNOTICE events and anonymity", "statement": "event() is determined by msg-id alone (plus the anonymous gifter id for mystery gifts); sender() is None exactly for anonymous events and unknown events and otherwise carries user-id, login and display-name; an unknown msg-id never fails for missing event tags.", "quantifier": "every USERNOTICE line within the tag limits", "why_tests_cant": "Thirteen msg-ids times the anonymous id times all tag contents.", "anchors": ["src/msg/user_notice.rs:UserNotice::parse", "src/msg/user_notice.rs:AN_ANONYMOUS_GIFTER"]}
{"id": "C30", "title": "ROOMSTATE is a faithful partial update", "statement": "A setting getter is None iff its tag is absent (or, for followers-only and slow, not a number); followers-only n maps to Disabled for n<0, Enabled(None) for 0 and Enabled(n minutes) for n>0; booleans are true iff the tag is a number from 1 to 255.", "quantifier": "every ROOMSTATE line within the tag limits, every numeric value", "why_tests_cant": "All 64-bit values.", "anchors": ["src/msg/room_state.rs:RoomState::parse", "src/msg.rs:parse_bool"]}
{"id": "C31", "title": "Emote sets and colour of user states", "statement": "emote_sets() is the comma-separated list of the emote-sets tag (joining it with ',' gives the tag back, num_emote_sets is its length); color() is None iff the tag is absent or empty.", "quantifier": "every USERSTATE and GLOBALUSERSTATE line within the tag limits", "why_tests_cant": "Lists of any length including empty entries.", "anchors": ["src/msg/user_state.rs:UserState::parse", "src/msg/global_user_state.rs:GlobalUserState::parse", "src/msg.rs:split_comma"]}
{"id": "C32", "title": "Small messages are exact", "statement": "JOIN, PART, PING, PONG, NOTICE, WHISPER and CLEARMSG parse iff their required parts are present and every getter returns exactly its part of the line.", "quantifier": "every such line within the tag limits", "why_tests_cant": "Presence combinations times arbitrary content.", "anchors": ["src/msg/join.rs", "src/msg/part.rs", "src/msg/ping.rs", "src/msg/pong.rs", "src/msg/notice.rs", "src/msg/whisper.rs", "src/msg/clear_msg.rs"]}
{"id": "C33", "title": "Numeric tags are read exactly or rejected", "statement": "A numeric tag is accepted iff it is an optional sign and decimal digits whose value fits the type, and then the value is the decimal value; in particular the decimal form of every value reads back as that value and no value wraps.", "quantifier": "every string; every u8, u64 and i64 value", "why_tests_cant": "2^64 values and all strings.", "anchors": ["src/msg.rs:parse_bool", "src/msg.rs:parse_timestamp", "src/msg.rs:parse_duration", "src/msg/user_notice.rs:UserNotice::parse"]}
{"id": "C34", "title": "Each send writes exactly its own line", "statement": "On a client, privmsg().send(), ping, pong, join, join_all and send_raw hand the socket exactly the bytes of that one command, whatever operations (successful, failed or cancelled) came before.", "quantifier": "every history of client operations with any outcomes, every argument", "why_tests_cant": "The reused scratch buffer makes every operation depend on all earlier outcomes.", "anchors": ["src/client/macros.rs:with_scratch!", "src/client/write.rs:Client", "src/client.rs:Client::handshake"]}
{"id": "C35", "title": "Sent commands parse back", "statement": "The line written by privmsg (with optional reply_to and client_nonce), ping, pong and join, when parsed, has the right command, channel, text and tags equal to the arguments.", "quantifier": "every channel starting with '#' without space, every text and nonce without CR/LF, every tag value without ';' or space (within tag limits)", "why_tests_cant": "Arguments are arbitrary strings.", "anchors": ["src/client/write.rs:Privmsg::send", "src/client/write.rs:Client::ping", "src/client/write.rs:Client::pong", "src/client/write.rs:Client::join"]}
{"id": "C36", "title": "One call, one line", "statement": "Any sequence of successful sends puts exactly one CRLF-terminated line per call on the wire, in order, so a receiver splitting lines recovers the calls.", "quantifier": "every sequence of send calls with arbitrary arguments", "why_tests_cant": "Sequences and arguments are unbounded; arguments may contain CR/LF.", "anchors": ["src/client/write.rs:Client::send_raw", "src/client/write.rs:Privmsg::send"]}
{"id": "C37", "title": "send_raw accepts exactly terminated messages", "statement": "send_raw writes the given string unchanged iff it ends with CRLF; otherwise it returns InvalidMessage and writes nothing.", "quantifier": "every string, every client state", "why_tests_cant": "All strings.", "anchors": ["src/client/write.rs:Client::send_raw", "src/client/write.rs:RawMessage::try_from"]}
{"id": "C38", "title": "Channel names are normalised once", "statement": "join(c) sends the name with exactly one '#' added iff it lacked one; join_all sends the normalised names separated by commas in order, and the list can be recovered.", "quantifier": "every list of channel names", "why_tests_cant": "Lists of any length.", "anchors": ["src/client/write.rs:Channel::fmt", "src/client/write.rs:Client::join_all"]}
{"id": "C39", "title": "Handshake succeeds exactly on CAP ACK then 001", "statement": "handshake writes CAP REQ, PASS and NICK lines in one write, with exactly one 'oauth:' prefix on the token, and succeeds iff the first received line is `CAP * ACK...` and the second is 001; every other reply maps to the documented error.", "quantifier": "every credentials, every pair of received lines or I/O outcomes", "why_tests_cant": "Server replies are arbitrary.", "anchors": ["src/client.rs:Client::handshake"]}
{"id": "C40", "title": "A failed handshake leaves nothing behind", "statement": "After a reconnect attempt fails, the next handshake and the next command write only their own bytes: no earlier CAP/PASS/NICK text is sent again or prepended to another command.", "quantifier": "every history of failed reconnect attempts", "why_tests_cant": "Needs particular failures at particular await points.", "anchors": ["src/client.rs:Client::handshake", "src/client.rs:Client::reconnect", "src/client/macros.rs:with_scratch!"]}
{"id": "C41", "title": "Reconnect makes at most max_tries attempts and stops at the first success", "statement": "reconnect opens at most max_tries connections, stops at the first successful handshake, retries only I/O errors while opening or writing, and otherwise returns the last error as the cause.", "quantifier": "every backoff configuration, every sequence of attempt outcomes", "why_tests_cant": "Outcome sequences of any length.", "anchors": ["src/client.rs:Client::reconnect", "src/client.rs:ConnectError::should_retry"]}
{"id": "C42", "title": "Reconnect delays follow the backoff", "statement": "Before attempt k the client sleeps min(max_delay, initial*multiplier^k) (the first delay is initial_delay itself); delays never exceed max(initial_delay, max_delay) and, when initial <= max and multiplier >= 1, never decrease.", "quantifier": "every backoff configuration, every number of attempts", "why_tests_cant": "Attempt counts are unbounded.", "anchors": ["src/client.rs:Client::reconnect", "src/client.rs:Backoff"]}
{"id": "C43", "title": "recv yields each line once, in order, and close is final", "statement": "recv returns the parse of each received line in order; an unparsable line gives RecvError::Parse with the line and does not affect later lines; after end of stream every recv returns StreamClosed.", "quantifier": "every sequence of received lines and I/O errors", "why_tests_cant": "Streams of any length.", "anchors": ["src/client/read.rs:Client::recv", "src/client.rs:split"]}
{"id": "C44", "title": "is_disconnect classifies errors", "statement": "is_disconnect is true exactly for StreamClosed and for I/O errors of kind UnexpectedEof, ConnectionAborted and TimedOut; in particular a parse error is never a disconnect.", "quantifier": "every RecvError", "why_tests_cant": "All io::ErrorKind values.", "anchors": ["src/client/read.rs:RecvError::is_disconnect"]}
{"id": "C45", "title": "A PING is always answered with its nonce", "statement": "For every received PING line, pong(&ping) writes a PONG line that parses to a PONG with the same nonce (none if the ping had none).", "quantifier": "every PING line shorter than 4 GiB, whatever its tags, every tag parser of either side", "why_tests_cant": "Nonces are arbitrary strings, with or without ':'.", "anchors": ["src/msg/ping.rs:Ping::parse", "src/client/write.rs:Client::pong"]}
{"id": "C46", "title": "Same-message bypass alternates", "statement": "Successive get() calls alternate between the empty string and the invisible suffix, so two consecutive identical texts never produce identical messages.", "quantifier": "every number of calls, every text", "why_tests_cant": "Unbounded histories.", "anchors": ["src/client/write.rs:SameMessageBypass::get"]}
{"id": "C47", "title": "Debug output never reveals the token", "statement": "The Debug text of Credentials shows the login alone: two Credentials have the same {:?} (or {:#?}) text exactly when they have the same login, whatever their tokens. Two Configs have the same {:?} (or {:#?}) text exactly when they have the same login, timeout and backoff, whatever their tokens and whether they have any.", "quantifier": "every pair of credentials with the same login; every pair of configurations with logins in UTF-8, both formats", "why_tests_cant": "All tokens, and all pairs of configurations.", "anchors": ["src/client.rs:Debug for Credentials", "src/client.rs:Config, Backoff (derive(Debug))"]}
{"id": "C48", "title": "Channel values always start with '#'", "statement": "Channel::parse and ChannelRef::parse succeed iff the string starts with '#', keep it unchanged (as_str and Display of either form give it back), agree with each other, and deserialisation rejects everything else.", "quantifier": "every string", "why_tests_cant": "All strings.", "anchors": ["src/common/channel.rs:Channel::parse", "src/common/channel.rs:ChannelRef::parse"]}
{"id": "C49", "title": "Joined iterators print separators only between items", "statement": "Formatting items.join(sep) prints the items in order separated by sep, and a second formatting of the same value fails instead of printing something else.", "quantifier": "every list of items, every separator", "why_tests_cant": "Lists of any length.", "anchors": ["src/common.rs:Join::fmt"]}
{"id": "C50", "title": "Serde round-trip of typed messages", "statement": "Serialising any typed message obtained by parsing and deserialising it gives an equal message.", "quantifier": "every typed message produced from any line", "why_tests_cant": "The existing tests round-trip about forty literals; badge-info is arbitrary text.", "anchors": ["src/msg.rs:_serde", "src/msg.rs:Subscriber", "src/msg/*.rs derive(Serialize, Deserialize)"]}
{"id": "C51", "title": "into_owned preserves every getter", "statement": "For every typed message, into_owned returns a message equal to the original, field by field.", "quantifier": "every typed message value", "why_tests_cant": "Field-by-field copies written by hand in fourteen types.", "anchors": ["src/msg/*.rs:into_owned", "src/msg.rs:maybe_clone"]}
{"id": "C52", "title": "PinnedChatLevel conversions are safe and inverse", "statement": "try_from(u8) succeeds exactly for 0..=9 (so the transmute is always to a valid variant), inverts u8::from, and from_str inverts as_str and rejects every other string.", "quantifier": "every u8, every string", "why_tests_cant": "All strings; the transmute is undefined behaviour for any out-of-range value.", "anchors": ["src/msg/privmsg.rs:PinnedChatLevel"]}
{"id": "C53", "title": "connect and reconnect come to an end in time", "statement": "Once the TLS configuration is loaded, connect returns within twice the configured timeout, and within ten seconds of having sent the greeting (five seconds for each of the two replies), whatever the network does or fails to do. reconnect with a limit of n tries returns within the sum of the n delays plus twice the timeout per try. Neither ever waits for ever, and neither reports Timeout before min(timeout, 5 s) has passed (for reconnect: after the initial delay).", "quantifier": "every configuration, every network behaviour (what each wait would give and how long it would take, including never), every time at which the caller drops the future", "why_tests_cant": "Quantifies over all timings and interleavings of nested timers with network events; a test can only wait for a few of them.", "anchors": ["src/client.rs:Client::connect", "src/client.rs:Client::reconnect", "src/client.rs:handshake", "src/client/util.rs:Timeout"]}
{"id": "C54", "title": "A command that failed or was cancelled does not affect later commands", "statement": "If a sending call fails, or its future is dropped before it completes, commands sent afterwards on the same connection still reach the server as lines of their own, exactly as if the earlier call had not been made.", "quantifier": "every sequence of sending calls, every point at which a call fails or is dropped, every way in which the socket splits writes", "why_tests_cant": "The cut-off point depends on how many bytes the kernel accepted before the failure or drop; a test sees only a handful of them.", "anchors": ["src/client/write.rs:Client::send_raw", "src/client/write.rs:Privmsg::send", "src/client/macros.rs:with_scratch", "src/client/write.rs:Client::join_all"]}
{"id": "C55", "title": "The token does not appear in log records", "statement": "No record that the client hands to the tracing subscriber contains or depends on the token: the handshake's record shows PASS ***, and the record of a sent command shows exactly the command (and what is on the wire for it), never the PASS line.", "quantifier": "every history of calls (sends, receives, reconnects, failing or cancelled at any point) and every command sent next", "why_tests_cant": "Whether secrets reach the log depends on where earlier calls were cut off; a test exercises only a few histories.", "anchors": ["src/client/write.rs:Client::send_raw", "src/client.rs:Client::handshake", "src/client/macros.rs:with_scratch"]}
{"id": "C56", "title": "Builders and defaults", "statement": "For every sequence of builder calls, the last credentials, timeout and backoff set are used and everything not set has its documented default (anonymous login justinfan + five digits, 30 s, eight tries after 1, 3, 9, 12, 12, ... s, so a default reconnect ends within 553 s). Likewise the last reply_to and client_nonce of a privmsg are the ones sent. Client::anonymous sends the greeting with the drawn name and makes a client with these defaults. Distinct draws give distinct anonymous logins.", "quantifier": "every sequence of setter calls, every random draw, every network behaviour", "why_tests_cant": "Ranges over all sequences of calls, all random draws and all timings.", "anchors": ["src/client.rs:ClientBuilder", "src/client.rs:Credentials::anon", "src/client.rs:Backoff", "src/client.rs:Config", "src/client/write.rs:Privmsg"]}
{"id": "C57", "title": "Unescaping getters give back the text the server escaped", "statement": "User::name, GlobalUserState::name, Reply::text, UserNotice::system_message and sub_plan_name return, for every parsed message, the very text whose tag-escaped form is in the corresponding tag; they never panic.", "quantifier": "every text and every line whose tag carries its escaped form", "why_tests_cant": "Quantifies over all texts, including every mixture of escapes, commas and multi-byte characters.", "anchors": ["src/lib.rs:maybe_unescape", "src/msg.rs:User::name", "src/msg/privmsg.rs:Reply::text", "src/msg/user_notice.rs:UserNotice::system_message", "src/msg/global_user_state.rs:GlobalUserState::name", "src/msg/user_state.rs:UserState::user_name"]}
{"id": "C58", "title": "Nothing but the bytes of the greeting depends on the token", "statement": "Take two configurations that differ only in the OAuth token, the tokens being sent as equally many bytes. If the same happens on the network, connect returns the same value or the same error with both, and every later sequence of calls (sending, receiving, reconnecting) gives the same results and errors, the same waits, the same attempts to open a connection and the same numbers of bytes written. So no result or error reveals anything about the token.", "quantifier": "all pairs of such configurations, all network behaviours, cancellations and time-outs, all sequences of calls on the client", "why_tests_cant": "It compares two executions for every pair of tokens, every network behaviour and every sequence of calls; a test can only compare a few pairs of runs.", "anchors": ["src/client.rs: Client::connect, Client::reconnect, Client::handshake, Credentials", "src/client/write.rs: send_raw, with_scratch", "src/client/read.rs: recv"]}
{"id": "C59", "title": "What is reported as sent has been flushed", "statement": "When connect, reconnect or a sending method returns Ok, everything handed to the connection has been flushed, so that a stream that buffers (as a TLS stream does) holds nothing back.", "quantifier": "all commands, all network behaviours, all histories of calls on a client", "why_tests_cant": "Whether bytes are held back depends on how the stream behaves at every write; a test against a stream that sends at once never sees the difference.", "anchors": ["src/client/write.rs: send_raw", "src/client.rs: Client::handshake"]}
{"id": "C60", "title": "What recv returns depends only on the bytes that arrive", "statement": "However the network cuts the received bytes into pieces, and wherever the caller drops a pending recv and calls it again (as in select!), the results of recv are those of the complete lines (ended by LF or CRLF) of the byte stream, each once and in order; text after the last line end is a line only once the peer has closed the connection; a line that is not UTF-8 costs one InvalidData error and does not affect the lines after it; a failed read is reported after all lines that arrived before it.", "quantifier": "all byte streams, all ways to cut them into reads, all positions of waits, all numbers of polls, all builds, all endings (open, closed, failed)", "why_tests_cant": "The cut points are chosen by the network and the drop points by the scheduler; a test sees one of exponentially many combinations (for example a read that ends between CR and LF or inside a character).", "anchors": ["src/client/read.rs: Client::recv, ReadStream", "src/client.rs: split"]}
{"id": "C61", "title": "What one client sends, the other end receives", "statement": "If a sequence of commands without line feeds was sent with Ok, then the other end of the connection, reading with recv, gets exactly one result per command, in order, the parse of that command's line; for chat messages it is a PRIVMSG with the channel, text, reply id and nonce that were given.", "quantifier": "all sequences of commands, all partial writes on the sending side, all cuts into reads and all polls on the receiving side, all builds", "why_tests_cant": "It composes sending and receiving over all ways in which the connection can cut the bytes on both sides.", "anchors": ["src/client/write.rs: Client::send_raw, Privmsg::send", "src/client/read.rs: Client::recv", "src/irc.rs: IrcMessage::parse"]}
{"id": "C62", "title": "The documented bot answers every line before it takes the next", "statement": "The programs shown in README.md and examples/basic.rs greet the server once, join their channels once, and then take one line after the other. Every PING is answered with the PONG for it, every RECONNECT is followed by a reconnect and a JOIN of the same channels, and in examples/basic.rs (unless anonymous) every chat message that starts with !yo is answered with a reply to it, each before the next line is taken. Nothing else is sent. As long as the network delivers such lines and accepts the answers, they keep running.", "quantifier": "all lines, all schedules and outcomes of I/O, all points at which the program is stopped, all channel lists, credentials and backoff configurations, all builds", "why_tests_cant": "It is a statement about an infinite loop under every interleaving of incoming lines with partial writes, failures and cancellation.", "anchors": ["README.md: quick start", "examples/basic.rs: main, run, on_msg", "src/client/read.rs: Client::recv", "src/client/write.rs: Client::pong, Client::join_all, Privmsg::send", "src/client.rs: Client::reconnect", "src/irc.rs: IrcMessage::as_typed"]}
{"id": "C63", "title": "The documented bot ends only with its connection", "statement": "The loop shown in README.md and examples/basic.rs ends only if the program is stopped, the connection fails or is closed, or reconnect gives up.", "quantifier": "all lines, all schedules and outcomes of I/O", "why_tests_cant": "It excludes every other way to end, for every line a server may send.", "anchors": ["README.md: quick start", "examples/basic.rs: run", "src/irc.rs: IrcMessage::as_typed", "src/msg.rs: Message::from_irc"]}
{"id": "C64", "title": "A session over bytes is a session over lines", "statement": "However the network cuts a session's bytes into reads, and wherever calls are dropped or time out in the middle of a line: connect and every later call return, send and wait exactly as in a session in which every read yields a whole line, an error or the end. So everything stated about recv, connect, reconnect and the sends in terms of lines holds for connections that deliver bytes.", "quantifier": "all configurations, all sequences of calls, all byte streams on all successive connections, all cuts into reads, all points at which a call is dropped or a timer runs out, all builds", "why_tests_cant": "It relates two whole executions for every cut of the byte stream and every cancellation point.", "anchors": ["src/client.rs: Client::connect, Client::reconnect, Client::handshake, split", "src/client/read.rs: Client::recv"]}
{"id": "C65", "title": "Lines stay with their connection and none is lost", "statement": "The lines a client takes from one of its connections are exactly the first lines that arrived on that connection, in order and without gaps. What was left over from an earlier connection, even half a line, never shows up after a reconnect, and a line that was only partly read when a call was dropped or timed out is returned whole by the next recv.", "quantifier": "all configurations, all sequences of calls, all byte streams on all successive connections (nothing arrives after a failed read), all cuts into reads, all cancellation points and timeouts, all builds", "why_tests_cant": "It is a statement about the history of several connections under every cut and every cancellation.", "anchors": ["src/client.rs: Client::reconnect, split", "src/client/read.rs: Client::recv"]}
{"id": "C66", "title": "A session does not depend on how the network cuts its bytes", "statement": "If the same bytes arrive on the connections of two sessions, cut into different pieces and with different pauses, and no read is interrupted, then connect and all calls return the same, and the client sends, waits and opens connections in the same way.", "quantifier": "all configurations, all sequences of calls including reconnects, all byte streams and all pairs of cuts of them, all builds", "why_tests_cant": "It compares every pair of ways to cut every byte stream.", "anchors": ["src/client.rs: Client::connect, Client::reconnect, Client::handshake", "src/client/read.rs: Client::recv"]}
{"id": "C67", "title": "What deserialisation of typed messages accepts", "statement": "With the serde feature, a serialised value is accepted as a typed message exactly if it is a way to write what serialisation writes for that message: the fields under their names in any order, or as the sequence of all fields in their declared order; optional fields possibly left out or null; entries under other names ignored; enums as the name of a variant, or as one entry from the name to the content; numbers within 64 bits; durations with exactly seconds and nanoseconds; times as any text that chrono reads. A required field that is missing, or a field that occurs twice, is refused. Whatever is accepted is serialised to something that is accepted as the same message.", "quantifier": "all 13 serialisable message types, all serialised values, all messages, all chrono text formats that read back what they write for times they have read", "why_tests_cant": "Values are unbounded trees; tests deserialise a handful of values that the crate itself has written.", "anchors": ["src/msg.rs: Badge, Subscriber, BadgeData, User", "src/msg/clear_chat.rs: ClearChat, Action", "src/msg/clear_msg.rs: ClearMsg", "src/msg/global_user_state.rs: GlobalUserState", "src/msg/join.rs: Join", "src/msg/notice.rs: Notice", "src/msg/part.rs: Part", "src/msg/ping.rs: Ping", "src/msg/pong.rs: Pong", "src/msg/privmsg.rs: Privmsg, Reply, PinnedChat, PinnedChatLevel", "src/msg/room_state.rs: RoomState, FollowersOnly", "src/msg/user_notice.rs: UserNotice, Event", "src/msg/user_state.rs: UserState", "src/msg/whisper.rs: Whisper"]}
{"id": "C68", "title": "Typed messages hold what the raw message exposes, whatever its size", "statement": "If a line parses and the tags of the message can be listed, then Message::from and every T::from_irc return exactly the typed message of that line, read with the tags as listed: each field is the documented tag or part, the message is refused exactly when a required part is missing or malformed, and nothing panics except the overflow of followers-only in a build with overflow checks. This holds also when keys or values are too long for the parser and are listed cut.", "quantifier": "all valid UTF-8 lines below 4 GiB, keys and values of any size, all typed messages, all builds", "why_tests_cant": "Oversized keys and values change which tags exist; no sample covers all ways in which they combine with each typed parser.", "anchors": ["src/irc.rs: IrcMessageRef::tags, IrcMessageRef::tag", "src/msg.rs: FromIrc, Message", "src/msg/*.rs: FromIrc impls"]}
{"id": "C69", "title": "Debug of a raw message leaves nothing out and never panics", "statement": "Formatting a parsed message with {:?} or {:#?} never panics, and two messages format to the same text exactly when they have the same tags, prefix, command, channel and parameters. IrcMessage formats as IrcMessageRef but for the type name.", "quantifier": "every line that parses, every build, every pair of messages, both formats, whatever characters outside ASCII Debug of str escapes", "why_tests_cant": "the snapshot tests compare some texts; that no two different messages share a text, and that the accessors run by Debug cannot panic, is about all pairs of lines", "anchors": ["src/irc.rs: impl Debug for IrcMessageRef, IrcMessage", "src/irc/prefix.rs: Prefix", "src/irc/command.rs: Command"]}
{"id": "C70", "title": "Debug of typed messages is total and faithful", "statement": "Formatting a typed message with {:?} or {:#?} never panics (a raw message of another command aside, see C69), and two typed messages parsed from text format alike only if they are equal (raw ones: if they have the same parts). The same holds for every message type and every type of a field: badges, events, replies, users, followers-only settings.", "quantifier": "every pair of lines that parse as typed messages, every value of the 25 types, both formats", "why_tests_cant": "the project's snapshot tests rely on Debug output standing for the value; no finite set of snapshots shows that two different values cannot print the same", "anchors": ["src/msg.rs: Message", "src/msg/*.rs: derive(Debug)", "src/msg/snapshots"]}
{"id": "C71", "title": "Timestamps are printed as the right date and time", "statement": "A timestamp is printed as its date and time of day in UTC in the proleptic Gregorian calendar, with the fraction of the second only when it is not zero, in 3, 6 or 9 digits as needed; a leap second as second 60. Different timestamps have different texts.", "quantifier": "every point in time to the nanosecond, before or after the epoch, leap seconds included", "why_tests_cant": "leap years, centuries and years outside 0-9999 each need a case; the calendar statement is about all days", "anchors": ["src/msg/privmsg.rs: timestamp (derive(Debug))", "chrono DateTime<Utc> Debug"]}
{"id": "C72", "title": "A printed message contains no control characters", "statement": "{:?} prints a message on a single line with no ASCII control character in it, and the only control characters {:#?} prints are ends of lines, whatever the message contains.", "quantifier": "every message, raw or typed, of any bytes", "why_tests_cant": "log injection (a line break or terminal escape sent by a chat user) is about the inputs nobody thought of", "anchors": ["src/irc.rs: impl Debug", "src/msg/*.rs: derive(Debug)", "src/client.rs: trace!(?message)"]}
{"id": "C73", "title": "Errors of connect and reconnect can be displayed, and say what happened", "statement": "Displaying an error returned by connect or reconnect never panics. What it quotes is from the lines the server sent. Two errors of the library itself have the same text exactly when they are of the same kind and about the same line or about messages with the same tags, prefix, command, channel and parameters. An error that quotes a message is displayed on one line without control characters. The text of every error says which operation failed (connecting, all reconnect attempts, reading, writing) and ends with its cause: the text of the I/O or TLS error, the line, or the message.", "quantifier": "every configuration, every network behaviour, every content of the lines, every pair of errors, whatever the texts of operating system and TLS errors", "why_tests_cant": "error texts are formatted from whatever the server sent; no test makes a server send every line, and that two errors cannot share a text is about all pairs", "anchors": ["src/client.rs: impl Display for ConnectError, ReconnectError", "src/client/read.rs: impl Display for RecvError", "src/irc.rs: impl Debug for IrcMessage"]}
{"id": "C74", "title": "A logging subscriber does not change what the client does", "statement": "With a subscriber that takes every tracing record, connect, reconnect and the sending methods return the same results and do the same on the network as without.", "quantifier": "every configuration, every network behaviour, every history of calls, every content of the lines", "why_tests_cant": "log statements format their arguments only when a subscriber asks for them, so tests without a subscriber never run this code; and the arguments are whatever the server sent", "anchors": ["src/client.rs: connect, reconnect, handshake (tracing::trace!)", "src/client/write.rs: send_raw, JoinAll (tracing::trace!)"]}
{"id": "C75", "title": "What is logged while connecting is fixed text, the login and received messages", "statement": "Every record that connect and reconnect hand to a subscriber is one of a fixed list of texts, the greeting with the login and PASS ***, or a message that the server sent. In particular no record has the token.", "quantifier": "every configuration, every network behaviour, every content of the lines, also when the call fails, is cancelled or panics", "why_tests_cant": "a leak of the token would be in an error path or a retry; tests do not look at records", "anchors": ["src/client.rs: connect, reconnect, handshake (tracing::trace!)"]}
{"id": "C76", "title": "Parsing has no undefined behaviour", "statement": "Parsing a line never reads memory that was not written (the array the tags are collected in is uninitialised), never reads outside of the string (unchecked indexing in the prefix parser, vector loads) and never makes an aligned load at an address that is not aligned. At worst it panics, and its result is the one the other properties are about.", "quantifier": "every byte string, every build (scalar or any of the vector types, overflow checks on or off), every address of the string; every sequence of pushes to the array", "why_tests_cant": "Undefined behaviour need not show in a test, and depends on every length and address.", "anchors": ["src/irc/tags.rs:Array", "src/irc/tags.rs:parse", "src/irc/tags/simd.rs:parse", "src/irc/prefix.rs:parse", "src/irc/wide.rs:Vector8"]}
{"id": "C77", "title": "Printed messages say what serialised messages say, under the same names", "statement": "For every typed message, `{:?}` and `{:#?}` print the name of its variant and in parentheses the struct of the same name, whose fields are those of the serialised form: the same names in the same order, optional fields as `None` or `Some(..)`, strings, numbers, flags, lists, variants (named in lower case in the serialised form) and nested structs with the same contents, times as UTC dates and durations as exact decimal fractions of the largest unit that fits; the one field that is printed and not serialised is the number of months of a subscriber badge. A raw message is printed as `Message` with its tags, prefix, command, channel and parameters in that order. Every string is printed as a Rust string literal which stands for that string, and every duration has one text, which no other duration has. The configuration is printed with its fields, and of the credentials only the login.", "quantifier": "all typed messages of the thirteen serialisable types with any contents (strings, numbers, lists, badges, times, durations), all raw messages whose parts can be had, all choices of which non-ASCII characters are escaped, both `{:?}` and `{:#?}`", "why_tests_cant": "snapshot tests fix the text of single messages; that a log line shows every field of every message under its own name and with the same content as the JSON form is a statement about all contents, including strings with quotes, backslashes, line breaks and brackets that imitate the layout", "anchors": ["src/msg.rs: Message, Badge, Subscriber, BadgeData, User (derive Debug, Serialize)", "src/msg/*.rs (derive Debug, Serialize)", "src/irc.rs: impl Debug for IrcMessageRef", "src/irc/prefix.rs: Prefix", "src/irc/command.rs: Command", "src/common/channel.rs: impl Debug for ChannelRef", "src/client.rs: Config, Backoff (derive Debug), impl Debug for Credentials"]}
{"id": "C78", "title": "Parsing a line, looking up a tag and unescaping are linear-time", "statement": "Whatever is on the line and whichever tag parser was compiled in, parsing it takes at most eight steps per byte and four hundred more, where a step is a byte looked at, a vector loaded or compared, a turn of a loop over vectors, or a tag stored or copied; nothing is left out of that count: without vectors every byte in front of the parameters is counted, and every tag twice. Looking up a tag of a parsed message takes at most 128 steps per byte of the tag's name (and 128 more), regardless of the message. The text of a message is found by looking at each byte at most once. Unescaping a value takes at most one step per byte, `maybe_unescape` at most two.", "quantifier": "all byte strings of any length, all three vector types, all addresses, the scalar parser, both overflow-check settings; all tags, known or not; all values", "why_tests_cant": "benchmarks time a few ordinary lines; that no line, however hostile, makes the parser go over its input again and again is a statement about all inputs", "anchors": ["src/irc.rs: IrcMessageRef::parse, IrcMessageRef::tag, IrcMessageRef::text, unescape", "src/irc/tags/scalar.rs: parse", "src/irc/tags/simd.rs: parse, find_first, parse_chunk", "src/irc/prefix.rs: parse", "src/irc/command.rs: parse", "src/irc/channel.rs: parse", "src/lib.rs: maybe_unescape"]}
{"id": "C79", "title": "Reading the badges of a message is linear-time", "statement": "Reading the badges of a message takes a number of steps proportional to the length of the line, as parsing it does.", "quantifier": "all messages parsed from any line, with any contents of the badges and badge-info tags", "why_tests_cant": "tests use messages with a handful of badges; the claim is about all lists of badges", "anchors": ["src/msg.rs: parse_badges", "src/msg/privmsg.rs: Privmsg::parse"]}
{"id": "C80", "title": "Channel names, tags and commands are well-behaved keys", "statement": "Channel, &ChannelRef and &str compare, order and hash a channel name in the same way, so maps keyed by one can be looked up with another; channel names, tags and commands are totally ordered, equal values are those parsed from equal text (Tag::parse(a) == Tag::parse(b) iff a == b; the commands of two lines are equal iff the tokens are), and what they feed to a hasher determines them whatever follows. Channel names are ordered as in a dictionary; known tags come in the documented order, before unknown ones.", "quantifier": "every pair of strings, tags, commands, lines and every hasher that reads the calls made on it", "why_tests_cant": "Coherence of Eq, Ord and Hash is about all pairs and triples of values of infinite types.", "anchors": ["src/common/channel.rs:Channel", "src/common/channel.rs:ChannelRef", "src/irc/tags.rs:Tag", "src/irc/command.rs:Command"]}
{"id": "C81", "title": "is_disconnect recognises every lost connection", "statement": "is_disconnect is true for a failure of recv exactly if it is due to a disconnect of some kind: the stream ended, or a read failed because the connection was closed, aborted, reset, broken, not connected or timed out.", "quantifier": "every RecvError", "why_tests_cant": "Ranges over all kinds of I/O errors that the operating system can report, few of which a test can provoke.", "anchors": ["src/client/read.rs:RecvError::is_disconnect"]}
{"id": "C82", "title": "A USERNOTICE names its sender unless they are anonymous", "statement": "For every USERNOTICE line that is accepted, UserNotice::sender() is None only if whoever caused the event did so anonymously (an anonymous gift, or the user id Twitch uses for anonymous gifts), as its documentation says ('Not available if the sender is anonymous'); and it is None for anonymous gifts. False for anongiftpaidupgrade, where the gifter is anonymous but the sender is not, and for every event the library does not know: the sender is dropped although its tags are there.", "quantifier": "all strings, builds, and USERNOTICE events", "why_tests_cant": "it ranges over all tag sections and all event ids, including unknown ones", "anchors": ["src/msg/user_notice.rs: UserNotice::sender, UserNotice::parse"]}
{"id": "C83", "title": "Names of gifters, promotions and users come back as text", "statement": "SubGiftPromo::promo_name, GiftPaidUpgrade::gifter_name and UserState::user_name return the text that Twitch put, escaped, in the tag (the documented example of a promotion is 'Subtember 2018'). False: these getters do not unescape; they return the text exactly when nothing in it needs escaping, and never return a space.", "quantifier": "all strings, builds, and all texts in the three tags", "why_tests_cant": "it ranges over all texts; the repository's samples have no spaces in these tags", "anchors": ["src/msg/user_notice.rs: SubGiftPromo, GiftPaidUpgrade, AnonGiftPaidUpgrade", "src/msg/user_state.rs: UserState::user_name"]}
{"id": "C84", "title": "A timeout is not reported as a ban", "statement": "A CLEARCHAT line that names a user and carries a ban-duration tag is reported as a timeout of that duration, and one without the tag as a ban. False for a ban-duration that is not a decimal number below 2^64: it is reported as a permanent ban.", "quantifier": "all strings, builds and tag values", "why_tests_cant": "it ranges over all values of the tag", "anchors": ["src/msg/clear_chat.rs: ClearChat::parse, Action"]}
{"id": "C85", "title": "A list of emote sets comes back", "statement": "If the emote-sets tag of a GLOBALUSERSTATE or USERSTATE is a list of names joined with commas, emote_sets() is that list. False for the empty list: an empty tag gives one set with an empty name.", "quantifier": "all strings, builds, and lists of names without commas", "why_tests_cant": "it ranges over lists of any length", "anchors": ["src/msg/global_user_state.rs: GlobalUserState::emote_sets", "src/msg/user_state.rs: UserState::emote_sets"]}
{"id": "C86", "title": "The badges of a message are those in its badges tag", "statement": "For every message with badges, badges() lists the badges named in its badges tag, in order, whatever the badge-info tag says. False if there is no badge-info tag: then the message has no badges.", "quantifier": "all strings, builds and messages with badges", "why_tests_cant": "it ranges over all values of both tags", "anchors": ["src/msg/privmsg.rs: Privmsg::parse", "src/msg.rs: parse_badges", "src/msg/user_notice.rs", "src/msg/user_state.rs", "src/msg/global_user_state.rs", "src/msg/whisper.rs"]}
{"id": "C87", "title": "A tag is found by its name", "statement": "tag(\"name\") on a parsed message returns the value of the first tag with that key, for every name; tag(Tag::X) returns what tag(\"x\") returns; and, as documented, Tag::Unknown(\"msg-id\") does not match what Tag::MsgId matches.", "quantifier": "every message whose tags can be listed, every name, every variant", "why_tests_cant": "Names are arbitrary strings and the table of known names has more than eighty entries, any of which may be misspelt.", "anchors": ["src/irc.rs:IrcMessageRef::tag", "src/irc.rs:IrcMessage::tag", "src/irc/tags.rs:Tag::parse", "src/irc/tags.rs:Tag::as_str", "src/irc/tags.rs:impl From<&str> for Tag"]}
{"id": "C88", "title": "A command that fails says why", "statement": "A sending method returns Ok exactly if the network takes all bytes of the command, Io(e) exactly if the network fails with e before that (or takes no byte), InvalidMessage exactly if a raw message is not terminated by CRLF, and StreamClosed if the stream was closed.", "quantifier": "every command, every behaviour of the network, every client with nothing left over from a failed reconnect", "why_tests_cant": "The network may take a command in pieces of any sizes and fail after any of them.", "anchors": ["src/client/write.rs:Client::send_raw", "src/client/write.rs:SendError", "src/client/write.rs:RawMessage", "src/client/macros.rs:with_scratch"]}
{"id": "C89", "title": "reconnect fails only when all attempts have failed", "statement": "If reconnect returns an error (displayed as \"all reconnect attempts failed\"), then it has made all the attempts that the backoff allows.", "quantifier": "every client and backoff, every behaviour of the network and the server, every number of attempts", "why_tests_cant": "Each attempt may fail at any step and there may be any number of them, or no limit.", "anchors": ["src/client.rs:Client::reconnect", "src/client.rs:ReconnectError", "src/client.rs:ConnectError::should_retry"]}
{"id": "C90", "title": "Every getter of a typed message reports its documented part of the line", "statement": "For every line that parses as one of the typed messages, each public getter of the message, and of the users, replies, hype chats, badges, actions, events and promotions it contains, returns the part of the line its documentation names: the value of that tag, the number, flag, duration or time written there, the channel, the nick, or the text. Optional getters return nothing exactly when that part is missing (or empty, for colour, custom reward and system message). num_badges and num_emote_sets are the numbers of items of the iterators. Of the payload of an event, exactly the getters of the kind named by msg-id exist. For ROOMSTATE the minutes of followers-only must fit (see C30).", "quantifier": "all lines, of any content, tag order and length (if a tag exceeds the limits of the parser, read with the tags that tags() lists), all SIMD backends and the scalar parser; all getters of all typed messages", "why_tests_cant": "Tests print whole messages through Debug and hardly call the getters; a getter that returns a neighbouring field of the same type differs only on lines where the two tags differ.", "anchors": ["src/msg/macros.rs: generate_getters!", "src/msg.rs: Subscriber, BadgeData, User getters", "src/msg/privmsg.rs: Privmsg, Reply, PinnedChat getters", "src/msg/user_notice.rs: UserNotice and event getters", "src/msg/clear_chat.rs: ClearChat, Ban, TimeOut getters", "src/msg/room_state.rs: RoomState getters", "src/msg/whisper.rs: Whisper getters"]}
{"id": "C91", "title": "A typed message depends on nothing but the tags it is made of", "statement": "Two lines with the same command, channel, params and nick, and the same values of the tags that the message of that command is made of, give the same typed message (or fail or panic together). In particular the order of the tags, tags of any other name with any value, repetitions of a tag after its first occurrence, and the user and host in the prefix do not matter. Each of the listed tags can make a difference on its own.", "quantifier": "all pairs of lines, all builds, all fourteen typed commands", "why_tests_cant": "It compares all pairs of lines; new tags that Twitch adds later have names and values nobody has tested.", "anchors": ["src/msg.rs: Message::parse", "src/irc.rs: IrcMessageRef::tag", "src/msg/*.rs: parse of every type"]}
{"id": "C92", "title": "A reply refers to the message it replies to", "statement": "For every received chat message and every text, client.privmsg(msg.channel(), text).reply_to(msg.id()).send() (the documented way to reply), if it returns Ok, has sent a line that reads as a chat message with that text, in the channel of the received message, with the received message's id as reply-parent-msg-id.", "quantifier": "all received lines, all texts, all builds of the sender and the receiver, all ways the socket takes the bytes", "why_tests_cant": "It depends on every channel name and id a received line can carry: they go back on the wire without escaping.", "anchors": ["src/client/write.rs: Client::privmsg, Privmsg::reply_to, Privmsg::send", "src/msg/privmsg.rs: Privmsg::channel, Privmsg::id"]}
{"id": "C93", "title": "The message id and the nonce given to a message arrive", "statement": "The string given to reply_to is what the receiver of the message, who unescapes tag values as the protocol says, reads in reply-parent-msg-id; likewise client_nonce and client-nonce. False: tag values are put on the line unescaped, so a `;` starts another tag, a space ends the tags and starts another command, and a backslash takes the next character with it; the strings arrive exactly if they contain none of `;`, space, backslash and U+2E1D.", "quantifier": "all strings, alone or together", "why_tests_cant": "The strings are the caller's; which of them survive is a statement about all of them.", "anchors": ["src/client/write.rs: Tag (Display), Privmsg::send"]}
{"id": "C94", "title": "Making a typed message of a line takes time linear in the line, apart from its badges", "statement": "Whatever is on the line, converting a parsed message into a typed one (`Message::from_irc`, `as_typed`) takes at most six steps per byte of the line, a fixed number of steps (about a hundred thousand, most of them for comparing the names of up to 128 tags), and what it takes to read the badges, once. In particular a line without badges is converted in linear time, and parsing and converting any line (`Message::parse`) takes at most quadratic time. Nothing is left out of the count: for a chat message it has at least the search for the text and the lookups of all tags that every chat message is asked for.", "quantifier": "all byte strings of any length, all commands and contents of tags, all tag parsers, both overflow-check settings", "why_tests_cant": "benchmarks time a few ordinary lines; that no line, however hostile, makes a conversion expensive in another way than through badges is a statement about all inputs", "anchors": ["src/msg.rs: Message::from_irc, Message::parse, parse_bool, parse_duration, parse_timestamp, split_comma, parse_message_text", "src/msg/privmsg.rs: Privmsg::parse", "src/msg/user_notice.rs: UserNotice::parse, parse_promotion", "src/msg/room_state.rs: RoomState::parse", "src/msg/whisper.rs: Whisper::parse"]}
{"id": "C95", "title": "Chatters control nothing but their own words", "statement": "In the lines in which the server passes on what somebody wrote (chat messages, user notices, whispers, deletions), replacing the text by any other text changes nothing in the parsed message but its text (and whether it is a /me action): not the tags, the sender, the channel, the recipient, the ids, the badges, nor whether the line parses. Likewise replacing a display name, the quoted text or author of the message that is replied to, or the system message by any other text, escaped by the server, changes nothing but that name or text.", "quantifier": "all frames (tags, prefix, command, channel or recipient without the characters that end them), all texts and all chosen names, including ones that look like tags, prefixes or whole lines; all builds", "why_tests_cant": "The claim is about every text an attacker could write, relative to every frame; a test can only try some injections.", "anchors": ["src/irc.rs: parse", "src/irc/tags.rs", "src/msg/privmsg.rs: parse", "src/msg/user_notice.rs: parse", "src/msg/whisper.rs: parse", "src/msg/clear_msg.rs: parse"]}
{"id": "C96", "title": "What the server says is what a program is told", "statement": "Take what there is to say about a channel as records: chat messages (channel, ids, author, display name, text or /me action, badges, colour, bits, emotes, time, the message replied to), bans, timeouts, cleared chats, deleted messages, joins and parts. The line in which the server says it always parses, and the getters of the typed message give back every part of the record (display names and quoted texts whenever escaping can be undone, see C57). If the lines of any sequence of records arrive, however cut into pieces, recv returns exactly one message for each, in order, and the typed messages tell the program the same.", "quantifier": "all records whose unescaped parts need no escaping, with any texts and names; all sequences of them; all ways of cutting the stream into pieces, with pauses; all builds", "why_tests_cant": "The records have free texts, lists and optional parts, and the stream can be cut anywhere; tests try a few captured lines.", "anchors": ["src/msg/privmsg.rs: parse and getters", "src/msg/clear_chat.rs: parse", "src/msg/clear_msg.rs: parse", "src/msg/join.rs", "src/msg/part.rs", "src/client/read.rs: recv", "src/msg.rs: as_typed, from_irc"]}
{"id": "C97", "title": "A typed message takes no more room than the line it was made of", "statement": "All the texts that a typed message holds together are no longer than the line it was made of, plus seven bytes for the default colour of announcements. So a program that keeps owned messages (into_owned) keeps at most as many bytes of text as were received.", "quantifier": "all readable lines of any command, all typed messages made of them, all builds", "why_tests_cant": "The bound is over every line, also ones in which tags, badges and emote sets repeat; captured lines have few badges.", "anchors": ["src/msg.rs: Message, parse_badges", "src/common.rs: Badge", "src/msg/*.rs: parse", "src/msg.rs: into_owned"]}
{"id": "C98", "title": "Events, whispers, settings and states that the server reports are what a program is told", "statement": "Take everything else the server reports as records: subscriptions and resubscriptions, raids, single and mass gifts (also anonymous ones), gift upgrades with their promotion, rituals, bits badges and announcements, each with who did it, where and when, the badges, the text and the server's own text; whispers; the settings of a channel; the user's state in a channel and after the login; notices. The line in which the server reports it always parses, and the getters of the typed message give back every part of the record: the kind of event and all its numbers and names, no sender exactly for anonymous events, on/off settings, how long one must have followed, every badge and every emote set (display names, plan names and system texts whenever escaping can be undone, see C57). If the lines of any sequence of these and of the records of C96 arrive, however cut into pieces, recv returns exactly one message for each, in order, and the typed messages tell the program the same.", "quantifier": "all records whose unescaped parts need no escaping, with any texts and names and any numbers that fit; all sequences of them, mixed with those of C96; all ways of cutting the stream into pieces, with pauses; all builds", "why_tests_cant": "There are ten kinds of events with optional parts, free texts, lists of badges and emote sets and unbounded numbers, and the stream can be cut anywhere; tests try one captured line for each.", "anchors": ["src/msg/user_notice.rs: parse, parse_event and getters", "src/msg/whisper.rs: parse", "src/msg/room_state.rs: parse", "src/msg/user_state.rs: parse", "src/msg/global_user_state.rs: parse", "src/msg/notice.rs: parse", "src/client/read.rs: recv", "src/msg.rs: as_typed, from_irc"]}
{"id": "C99", "title": "With a server that keeps to the protocol, only the connection ends the documented programs", "statement": "Suppose that every line that arrives is one in which a server that keeps to the protocol says something: the records of C96 and C98, PING, RECONNECT, and replies without a type of their own. Then the programs of README.md and examples/basic.rs take everything that is sent, in order; each PING is answered by a PONG with the same token, in examples/basic.rs (unless anonymous) each chat message that starts with !yo by a reply to its id in its channel, before the next line is taken; nothing else is sent; after each RECONNECT they connect and join their channels again and go on, however often. They end only if they are stopped, the connection fails or ends, or reconnect gives up (or its delay overflows): nothing that the server or a chatter says makes them end.", "quantifier": "all sequences of such records (all texts, names, badges, numbers), all ways the network delivers lines and accepts answers, all histories of reconnects, all configurations and channels, all points at which the program is stopped", "why_tests_cant": "A test serves a few messages; the claim is that no message a chatter or the server can produce stops the program, over sessions of any length.", "anchors": ["README.md", "examples/basic.rs: run, on_msg", "src/client/read.rs: Client::recv", "src/client.rs: Client::reconnect", "src/msg.rs: Message::from_irc"]}
{"id": "C100", "title": "What one client sends is what another client is told", "statement": "Take a program that joins channels and writes chat messages (perhaps as replies) with `join`, `join_all` and `privmsg`, with arguments that contain none of the bytes that end them, and a server that reads the bytes by the line grammar and tells the members of the channel what it was asked for. However the calls of the first client are cut into writes, the server understands exactly what the program asked for, in order; and however the server's lines are cut into pieces on their way, another client's `recv` returns one message for each, in order, whose typed getters report the sender, the channel, the text (as an action or not) and the id of the message replied to. In particular, members of the channel are told that the greeting program of the documentation replied `yo` to exactly the chat messages that start with `!yo`.", "quantifier": "every sequence of successful calls, every way in which the socket accepts the bytes, every relayed record, every cutting of the bytes on the way to the second client, every build; for the greeting program every sequence of what the server sends on a connection", "why_tests_cant": "Tests look at one line in one direction; that the two directions fit together for all texts, ids, write sizes and read sizes is a statement about compositions of unbounded sequences.", "anchors": ["src/client/write.rs: Client::privmsg, Client::join, Client::join_all", "src/client/read.rs: Client::recv", "src/irc.rs: IrcMessageRef::parse", "src/msg/privmsg.rs", "src/msg/join.rs", "README.md: main loop"]}
{"id": "C101", "title": "A program that keeps track of channels knows what is the case in them", "statement": "Take a program that notes, from the getters of the typed messages it receives, which chat messages can be seen in each channel (PRIVMSG adds one; CLEARCHAT removes all, or those of the banned or timed-out user; CLEARMSG removes one), who joined (JOIN, PART) and the settings (ROOMSTATE: those that are given replace the old ones). After each message, what it has noted is what is the case on the server at the moment when the server sent that message, in every channel, although the server reports only the settings that change, and however the bytes are cut into pieces.", "quantifier": "every history of what is done in any number of channels, every moment of it, every cutting of the bytes into pieces, every build", "why_tests_cant": "It is an invariant over unbounded histories that mix many channels and kinds of messages; one misread id, flag or channel makes the program's notes wrong from then on.", "anchors": ["src/msg/privmsg.rs", "src/msg/clear_chat.rs", "src/msg/clear_msg.rs", "src/msg/join.rs", "src/msg/part.rs", "src/msg/room_state.rs", "src/client/read.rs: Client::recv"]}
{"id": "C102", "title": "A client that has reconnected is as good as a new one", "statement": "After any history of calls on a client (sends that failed halfway, receives that ended or were dropped, reconnects that failed), if reconnect returns Ok, then from that moment on the client cannot be told from one that connect has just made with the same configuration: any program that uses it, deciding each call from the results of the calls before, gets the same results as with the new client, as long as the same things happen on the network, and the server sees the same bytes, flushes and connections. The same holds as soon as recv returns a message, if no reconnect has failed without a later repair.", "quantifier": "every history of calls with every outcome at each await point, every successful reconnect (or received message) after it, every program (a function from the results so far to the next call), every number of its calls and every later behaviour of the network", "why_tests_cant": "A test compares two clients on the calls it happens to make; that nothing of the past is left in a client is a statement about all histories and all continuations.", "anchors": ["src/client.rs: Client, Client::connect, Client::reconnect, Client::handshake", "src/client/read.rs: Client::recv", "src/client/write.rs: Client::send_raw and the sending methods", "src/client/macros.rs: with_scratch"]}
{"id": "C103", "title": "The lines that can crash a program, exactly", "statement": "Take everything that a program can do with one received line: parse it (borrowed, owned or typed), ask the parsed message for its tags, a tag, its prefix, command, channel, params and text, print it with {:?} or {:#?}, turn it into a typed message (in general or of each of the thirteen types), print the typed message and call the getters that compute their answer (the names of users, the text of a reply, the system message, the name of a subscription plan). One of these panics if, and only if, the line is one of four: it has more than 128 tags; it is nothing but tags and the build has no SIMD; it is a message with a tag whose key or value, cut off at its length modulo 65536, ends inside a character; or it is a ROOMSTATE with a channel and a room-id that restricts the channel to followers of more than 2^63 - 1 seconds and the build checks for overflow. So no line within the limits of the tags, with something after its tags and other than a ROOMSTATE, can crash a program, whatever the program asks.", "quantifier": "every UTF-8 line below 4 GiB, every build (tag parser, overflow checks), every tag and tag name that is asked for, every table of characters that the printer escapes, and every one of these operations", "why_tests_cant": "The lines and the operations are too many to try, and an equivalence says that no other line panics in any of the operations: a test that finds no panic leaves all the other lines open.", "anchors": ["src/irc.rs: IrcMessageRef::parse, IrcMessage::parse, tags, tag, prefix, command, channel, params, text, Debug", "src/msg.rs: Message::parse, FromIrc, as_typed, User::name", "src/msg/room_state.rs: RoomState::parse", "src/msg/user_notice.rs: system_message, sub_plan_name", "src/msg/privmsg.rs: Reply::text"]}
{"id": "C104", "title": "Only a crashing line, or a wait that cannot be computed, panics in a program that uses a client", "statement": "Take any program that connects a client and then sends, receives and reconnects in any order, deciding each call from what the calls before gave, and that asks anything of what it is given: of received messages their parts, their typed form and its getters, their printed form; of errors their text. If no line that the server sends is one of those of C103, and initial_delay and max_delay times the multiplier are durations (as with the default backoff), then no call panics and nothing that is asked panics, whatever fails, is cut short, times out or is cancelled. Conversely, a line of C103 makes recv panic, or gives a message of which something can be asked that panics.", "quantifier": "every program (a function from what calls gave so far to the next call), of any number of calls, every configuration whose delays can be multiplied, every world (outcomes of I/O, deadlines, cancellations, lines), every build", "why_tests_cant": "A panic may need a particular line at a particular point of a particular history of failures and retries; tests run a few histories.", "anchors": ["src/client.rs: Client::connect, reconnect, handshake", "src/client/read.rs: Client::recv", "src/client/write.rs: the sending methods", "src/irc.rs", "src/msg.rs"]}
{"id": "C105", "title": "What a client keeps in memory", "statement": "However long a session lasts and however much it receives and sends, a client holds, between calls, at most one line and one read's worth of received bytes, and its outgoing buffer holds nothing but copies of the greeting, at most one for each connection that was opened; nothing at all as long as reconnect was not called. Both bounds are met: bytes without a line feed are all held, and n attempts of reconnect whose first write fails leave n greetings in the buffer.", "quantifier": "every session on connections that deliver bytes in any pieces: every configuration, every sequence of send, recv and reconnect calls, every answer of the socket and every interruption, every bound on the length of lines and of reads that the connections respect; every number of failed attempts", "why_tests_cant": "the bound must hold after sessions of any length, with any cutting of the bytes into reads and any failures; a test sees one session, and growth shows only after a long time", "anchors": ["src/client.rs: Client, Client::reconnect, Client::handshake, ReadStream", "src/client/read.rs: ReadStream", "src/client/macros.rs: with_scratch", "src/client/write.rs"]}
{"id": "C106", "title": "The end of a connection in the middle of a line", "statement": "If a connection ends in the middle of a line, then what has arrived of that line is not taken for something that the server said: recv returns a message for each whole line and then the error or StreamClosed. (False for a connection that is closed: the bytes that have arrived of the last line are parsed as if they were a line. A chat message may arrive with only the beginning of its text, a join or a part with the beginning of the name of the channel, a ban or a timeout with the beginning of the name of the user, or, without any name, as an order to clear the whole chat; without SIMD, recv panics if it ends in the tags. Nothing else can be told by it.)", "quantifier": "every sequence of lines, every point at which the bytes stop, every cutting of the bytes into reads, every way the connection ends, every number of calls; for what is told: everything that C96 lets a server say", "why_tests_cant": "the point at which a connection ends and the pieces in which its bytes arrive are chosen by the network; there are as many as bytes, and a test cuts at a few", "anchors": ["src/client/read.rs: ReadStream, Client::recv", "src/irc.rs: IrcMessageRef::parse", "src/msg.rs: Message", "src/msg/clear_chat.rs: ClearChat", "src/msg/privmsg.rs: Privmsg"]}
{"id": "C107", "title": "Nothing is said except over TLS to Twitch's server", "statement": "In every session, whenever the client sends bytes or receives a line, the connection in use is a TCP connection to irc.chat.twitch.tv:6697 on which TLS had been completely set up before, verified for the name irc.chat.twitch.tv with exactly the root certificates of the system; this holds for the first connection, for every connection of reconnect, after failed and timed-out attempts and after calls that were dropped half way. No connection is ever opened to another host or port, and TLS is never asked to accept another name or other roots. Apart from these steps a session behaves as a session of the client that the other properties are about.", "quantifier": "every list of certificates, every configuration, every sequence of send, recv and reconnect calls, every outcome of every step of opening a connection and of every read, write and wait, every point at which a call is dropped", "why_tests_cant": "it is about every byte that is ever sent: the token is in the first of them; a test sees the connections it makes, not those after failures at any step, time-outs or cancellations", "anchors": ["src/client/conn.rs: HOST, PORT, open, TlsConfig::load", "src/client.rs: Client::connect, Client::connect_with, Client::reconnect"]}
{"id": "C108", "title": "Certificates that cannot be used", "statement": "A client can connect on every system that has root certificates that can be used; certificates that rustls refuses are skipped. (False: connect fails with the TLS error at the first certificate that is refused, before it tries to open a connection, however many others could be used. It tries to open one exactly if the certificates can be listed and none of them is refused, also if there are none.)", "quantifier": "every list of certificates and every subset of them that is refused, every error of listing them, every configuration and everything the network may do", "why_tests_cant": "the certificates are those of the machine; tests run on machines whose certificates are fine", "anchors": ["src/client/conn.rs: TlsConfig::load, TlsConfigError", "src/client.rs: Client::connect_with"]}
{"id": "C109", "title": "The causes of an error can be found", "statement": "From every error that the library returns, a program finds all errors behind it by following std::error::Error::source, so that a report of the chain says everything once. (False: only an error of reconnect has a source, the error of the last attempt; the error of the operating system or of TLS behind an error of connect, recv or send is not found, and the report of an error of reconnect says the error of the last attempt twice. What holds: following source ends after at most two errors, and the text of an error ends with the text of every error behind it, and begins so that its type can be told.)", "quantifier": "every error of every type of the library, everything an error can contain, every text of the errors of others", "why_tests_cant": "there are as many errors as errors of the operating system and messages of the server, nested in each other", "anchors": ["src/client.rs: ReconnectError, ConnectError", "src/client/read.rs: RecvError", "src/client/write.rs: SendError, InvalidMessage", "src/client/conn.rs: OpenStreamError, TlsConfigError", "src/msg.rs: MessageParseError", "src/common/channel.rs: InvalidChannelName"]}
{"id": "C110", "title": "A message is made of pieces of its line, and only what is escaped is copied", "statement": "Every text of a typed message (names, ids, texts, colours, plans, urls, the texts of badges) is a contiguous piece of the line it was parsed from, byte for byte, with two exceptions: an announcement without a colour has the colour PRIMARY, and a subscriber badge without months has the months 1. Every text a raw message gives (tags, parts of the prefix, an unknown command, channel, params, text) is a piece of the line without exception. So no getter needs a copy unless it unescapes, and maybe_unescape copies only if it must: it gives back the very value it was given if there is no backslash in it, and otherwise an owned string that is strictly shorter than the value, so that the space reserved for it suffices; it is borrowed afterwards exactly if unescaping changes nothing.", "quantifier": "every byte sequence that is parsed, of any length and with any number and size of tags, every build, every message type, every text handed to maybe_unescape, borrowed or owned", "why_tests_cant": "a text that is put together from two parts of the line, or made up, shows only on lines with the right shape; tests look at a few lines and at the values, not at where they come from", "anchors": ["src/lib.rs: maybe_unescape, actually_unescape", "src/msg.rs: Message::parse, parse_badges, parse_message_text", "src/irc.rs: IrcMessageRef::tags, tag, prefix, command, channel, params, text", "src/msg/user_notice.rs: UserNotice::from_irc"]}
{"id": "C111", "title": "Who uses a SameMessageBypass does not repeat themselves", "statement": "A program that appends the result of get() of a SameMessageBypass to the text of every chat message it sends never makes the server see a message that is the same as the one before it in that channel. With one bypass per channel this holds whatever is said where, unless a text itself ends in what the bypass appends. With one bypass for all channels it is false: two equal texts in a channel are the same message exactly if an odd number of messages was sent between them, so with two channels by turns every message is repeated.", "quantifier": "all sequences of chat messages in any channels with any texts (without bytes that end them early), all ways in which the socket takes the bytes", "why_tests_cant": "whether a message is repeated depends on the whole history of what was sent where; a test looks at two or three calls of get()", "anchors": ["src/client/write.rs: SameMessageBypass::get, SameMessageBypass::default, Client::privmsg, Privmsg::send"]}
{"id": "C112", "title": "A channel that was joined can be written to under the same name", "statement": "A program that calls privmsg only with channel names it has passed to join or join_all before has every message understood by the server as one in the channel of that name, and every message is in a channel that was entered before. This holds if the names start with '#'. Without '#' it is false: join and join_all add the missing '#', privmsg does not, so the channel is entered, both calls return Ok and the message is understood by nobody. Of the messages of any program exactly those to names with '#' are understood.", "quantifier": "all programs of joins, pings and chat messages with any names, texts and replies (without bytes that end them early), all ways in which the socket takes the bytes", "why_tests_cant": "it relates two calls that are written apart, over every name and every program; a test of either call alone passes", "anchors": ["src/client/write.rs: Client::join, Client::join_all, Client::privmsg, Privmsg::send"]}
{"id": "C113", "title": "The members of a channel are those that the server lists", "statement": "A program that collects the words of text() of every 353 message under its channel(), until a 366 message for that channel arrives, knows at every moment exactly the members that the server has listed of each channel since its last complete list, in order, and whether those are all: however long the list is and however it is spread over lines, whatever other lines and lists of other channels come between, and however the bytes are cut into pieces.", "quantifier": "all lists of members of all channels in any number of lines, all other readable lines between them, all cuts of the byte stream, all builds", "why_tests_cant": "the list is put together from any number of lines of several channels that arrive interleaved with anything else", "anchors": ["src/irc.rs: IrcMessage::channel, IrcMessage::text, IrcMessage::command", "src/client/read.rs: Client::recv"]}
{"id": "C114", "title": "A line that is passed on arrives as it came", "statement": "A program that passes on messages it has received (any of them, from any number of connections, in any order, any number of times) by calling send_raw with raw() followed by \"\\r\\n\" makes the receiver's recv return the same messages, as many and in that order, with the same raw text, tags, prefix, command, channel and params; the received messages can be passed on in turn. Without the \"\\r\\n\", send_raw refuses every received message and writes nothing.", "quantifier": "all connections a message may have been received on (any bytes, pieces, ending and number of calls), all selections and orders of the messages passed on, all cuts of the bytes on the sending and the receiving side, all builds", "why_tests_cant": "raw() must never contain a line end or lose one for any bytes that arrive, including lines that end in a carriage return and last lines without a line end", "anchors": ["src/irc.rs: IrcMessage::raw", "src/client/read.rs: Client::recv", "src/client/write.rs: Client::send_raw, RawMessage"]}
{"id": "C115", "title": "A program that repeats what it was told asks the server for nothing else", "statement": "A program writes into channels in which it received chat messages (or that it names itself), replies to messages it received, pings and joins, with texts put together from its own words and from anything the API told it about received messages: raw lines, tags, nicks, params, texts of typed messages as they came, texts that were unescaped from tags by which the server means a text without a line feed, and pieces of all these. Whatever the received messages say, the server receives one line per call and understands exactly what the program asked for: no other command, channel or reply. The condition on unescaped texts is needed: a display name with an escaped line feed comes out of User::name with the line feed, and greeting by that name sends a second command.", "quantifier": "all connections and bytes from which messages were received, all texts composed of what was told, all lists of calls, all cuts into writes, all builds", "why_tests_cant": "an attacker chooses the received bytes; no sample of them shows that none becomes a command", "anchors": ["src/client/write.rs: Client::privmsg, Client::ping, Client::pong, Client::join", "src/client/read.rs: Client::recv", "src/irc.rs: IrcMessageRef", "src/msg.rs: User::name", "src/irc.rs: maybe_unescape"]}
{"id": "C116", "title": "Documented bots in the same channel do not set each other off", "statement": "Any number of instances of the documented greeting program (examples/basic.rs) are in the same channels, and the server tells them, in any order, at any time, any number of times and also to the program itself, what each of them says. Then each program says exactly what the words of others make it say: one reply `yo` for each chat message of others that starts with `!yo`, in order; the programs' own words never make any of them say anything, so that a conversation among them comes to rest.", "quantifier": "all numbers of programs, all histories of what others write and of what the server relays, all cuts into writes, all builds and configurations", "why_tests_cant": "a feedback loop needs a history of unbounded length among any number of programs; every line a program can produce must be one that none of them answers", "anchors": ["examples/basic.rs", "src/client/write.rs: Client::privmsg, reply_to", "src/msg/privmsg.rs: Privmsg::text", "src/client/read.rs: Client::recv"]}
{"id": "C117", "title": "The same program behaves alike on every processor, and in debug and release builds", "statement": "Connecting, and any program that then uses the client, gives the same results, the same bytes to the server and the same final state on every processor with vector instructions (SSE2, AVX2, NEON), wherever the lines are in memory; and also with the portable tag parser, as long as no received line starts with @ and has no space, and not otherwise. Of such a line below 4 GiB a release build makes the message that a debug build makes of it, every accessor gives the same, and so does the conversion to a typed message, apart from ROOMSTATE lines with more than 153722867280912930 minutes of followers-only, where only the debug build panics. A program that does not look at whether its build checks for overflow makes the same calls and gets the same results in both builds, and the server sees the same, as long as every line received is below 4 GiB and is not just tags (starting with @ and without a space).", "quantifier": "all programs (functions of what their calls gave so far), all configurations, all servers, schedules, timeouts and failures, all lines, all addresses, all pairs of builds", "why_tests_cant": "a test runs in one build on one machine; the claim compares all builds on all histories", "anchors": ["src/irc/tags.rs: parse, TagPair", "src/irc/tags/simd.rs", "src/irc/tags/scalar.rs", "src/client/read.rs: Client::recv", "src/client.rs: Client::connect, reconnect, handshake", "src/msg/room_state.rs: RoomState::parse"]}
{"id": "C118", "title": "On each connection the server gets the greeting and then the commands issued on it", "statement": "At every moment in the life of a client (made by connect, then any send, recv and reconnect calls, each of which may succeed, fail, or be dropped at any await point), the bytes the server has received on the newest connection are a beginning of some copies of the greeting followed by, for each command issued since that connection began and in the order issued, a beginning of that command's own bytes, the whole of them exactly if the call returned Ok. Nothing issued on an earlier connection appears, nothing is repeated or reordered. There are at most as many copies of the greeting as connections made so far; left-over copies go out only in front of the first command that is not send_raw, and none do if the reconnect that made the connection returned Ok. The same holds of every earlier connection at the moment it was replaced, including those a reconnect made and gave up, with the commands issued while it was the newest. If every reconnect that got a connection succeeded on it, the greeting comes exactly once and first; if moreover the commands since returned Ok, the server has received exactly the three greeting lines and one line per command.", "quantifier": "all configurations, all sequences of send, recv and reconnect calls of any length, all behaviours of the network during each call, every point at which a call is dropped or the program stops", "why_tests_cant": "the claim ranges over all histories of calls with failures and cancellations at any await point; tests cover a few scripted ones", "anchors": ["src/client.rs: Client::connect, Client::reconnect, Client::handshake, Client::send, Client::send_raw", "src/client/conn.rs", "src/client/write.rs", "src/client/read.rs"]}
{"id": "C119", "title": "recv waits only when no complete line has arrived", "statement": "On a connection whose bytes arrive in any pieces, however often the futures of recv are polled, dropped and made again: a poll of recv returns Pending only if the connection reported at that moment that it has nothing more, and then every complete line that had arrived before has already been returned (unless a read had failed before). A line that was read into the buffer together with an earlier one is returned by the next poll, without touching the connection. Once the last byte of a line is available, the next poll returns instead of waiting for more bytes.", "quantifier": "all sequences of reads of any sizes with waits, failures and ends anywhere, all numbers of polls, all points at which a call is dropped", "why_tests_cant": "whether a line can get stuck behind a wait depends on how the network cuts the bytes and on when futures are polled or dropped; tests try a few chunkings", "anchors": ["src/client/read.rs: Client::recv, ReadStream", "src/client.rs: split"]}
{"id": "C120", "title": "Cut short, a call or a program has done a beginning of what it would have done", "statement": "connect, reconnect, recv and every sending call act in the order of the events they wait for and never look ahead: if a call is dropped at one of its await points, or the process is killed there, what the server and the network have seen of it is a beginning of what they would have seen had it gone on, whatever would have happened then. A call that came back depends on nothing that happened later: what it returned, what was seen of it and the client it left behind are fixed by the events before. So a program killed at any point during any of its calls has shown the server a beginning of what it would have shown it, and every call that came back before gave what it would have given.", "quantifier": "all calls, all programs (functions of what their calls gave so far), all client states, all sequences of events at the await points, every point at which a call is dropped or the process killed, all continuations", "why_tests_cant": "the claim compares every crash point of every execution with every continuation of it", "anchors": ["src/client.rs: Client::connect, Client::reconnect, Client::handshake", "src/client/read.rs: Client::recv", "src/client/write.rs", "src/client/util.rs: Timeout::timeout"]}
{"id": "C121", "title": "Receiving and sending do not interfere", "statement": "Take any calls of recv and of sending methods (privmsg, ping, pong, join, join_all, send_raw) made one after the other on one connection, each of which may wait, fail or be dropped at any point. Each recv returns what it would return, and takes the line from the connection that it would take, had none of the sending calls been made; each sending call returns what it would return, and puts the bytes on the connection that it would put there, had none of the recv calls been made. So a program may order its receiving and its sending as it likes: a failed send loses no received line, and neither a line that does not parse nor the end of the incoming stream changes a byte of what is sent.", "quantifier": "all sequences of recv and sending calls of any length, all client states, all events during each call, every point at which a call is dropped", "why_tests_cant": "the claim compares every interleaving, with every failure and cancellation, to the two halves on their own", "anchors": ["src/client/read.rs: Client::recv, ReadStream", "src/client/write.rs", "src/client/macros.rs", "src/client.rs: Client"]}
{"id": "C122", "title": "A command sent again on a new connection is carried out once", "statement": "If nothing is sent on a connection after a command failed on it, then over all connections in the life of a client the complete lines sent, apart from those with which the client introduces itself, are exactly the commands whose calls returned Ok, in order, each once: a command whose call failed or was dropped is never sent complete, however many of its bytes went out. So a program that, whenever a sending call fails for whatever reason, reconnects until that succeeds and sends the command again has at every moment asked the server for exactly the commands it is done with, in order, each once, and for all of them when it ends. If of what was sent on some connections only a beginning arrives, the server is asked for some of these commands, in order, none twice. And it recovers: after a failed call, if one of the attempts of the next reconnect gets a connection that welcomes the client and the network then takes the commands that remain, the program ends after one call for each of them.", "quantifier": "all configurations, all lists of commands without line breaks in their texts (send_raw aside), all lives of a client in which nothing is sent after a failure on the same connection, all behaviours of the network during every call, any number of failed reconnects and of connections given up during the greeting, all parts of what was sent that arrive", "why_tests_cant": "whether a command is sent twice depends on where the bytes were cut off at each failure and on what each reconnect left pending; tests cover a few cuts", "anchors": ["src/client.rs: Client::connect, Client::reconnect, Client::handshake", "src/client/write.rs", "src/client/macros.rs: with_scratch"]}
{"id": "C123", "title": "Switching on the 64-byte vectors would change nothing", "statement": "The AVX-512 vectors are prepared in the source but switched off, with two functions (eq, movemask) left in a state that does not compile. If these two are completed so that they do what their namesakes in the other vector types do, then switching them on changes nothing: the search for a byte ends without a fault at every address and returns the first occurrence, and the tags of every line, wherever it is in memory, are those found with SSE2, AVX2 and NEON, also for lines that are too long or have too many tags.", "quantifier": "all byte strings, all addresses, all needles, builds with and without overflow checks", "why_tests_cant": "the code is not even compiled; and alignment and chunk boundaries range over all lengths and addresses", "anchors": ["src/irc/wide/x86_64/avx512.rs: Vector, Mask, Match", "src/irc/wide/x86_64.rs", "src/irc/tags/simd.rs: parse, find_first"]}
{"id": "C124", "title": "The changelog task adds a section and takes nothing away", "statement": "`cargo x changelog` puts a section in front of CHANGELOG.md with a link to the range and an entry (subject, link, rest of the message) for each commit from `since` to `until`, both included as its help text says, in git's order, and keeps what was there. It only reads from the repository. If git fails, or the changelog cannot be read, the changelog is untouched; a task that is killed at any moment does not lose it.", "quantifier": "all repositories (whatever git prints or however it fails), all arguments, all earlier changelogs, all ways in which the disk takes the text in pieces or refuses it, all moments of a run", "why_tests_cant": "what is written depends on the whole output of several processes, and whether something is lost depends on the moment at which the task is stopped", "anchors": ["xtask/src/task/changelog.rs: Changelog::run", "xtask/src/util.rs: run_with_output, check"]}
{"id": "C125", "title": "The other tasks run what they should and stop at the first failure", "statement": "`cargo x setup` and `cargo x test` run their commands in order, stop at the first that fails, and exit with 0 exactly if all have succeeded. With `--binary`, `cargo binstall` is installed first exactly if it is not among the commands that cargo lists; a command is taken to be there exactly if it is the first word of an indented line of the list.", "quantifier": "all lists of commands as cargo prints them (headings, indented names with any text after a blank), all outcomes of all commands, which may depend on what was run before", "why_tests_cant": "they would have to run against every list of installed commands and every pattern of failing commands", "anchors": ["xtask/src/util.rs: has_cargo_subcmd, run, check", "xtask/src/task/setup.rs: Setup::run", "xtask/src/task/test.rs: Test::run", "xtask/src/main.rs: main"]}
{"id": "C126", "title": "Messages saved as JSON text come back", "statement": "What serde_json writes for a typed message is a JSON text (RFC 8259) that stands for exactly what was serialised, whatever quotes, backslashes, control characters or other characters its strings contain. A message comes back from its text exactly if its values can be read back at all; every message parsed from a line does, apart from subscriber badges whose months are not numbers (C50). The text is a single line without control characters, so a file with one message on each line gives back all messages in order; if the file is cut off at any byte, as by a crash, it gives back the messages whose lines are complete and nothing made up from the rest. Different values have different texts.", "quantifier": "all values that can be serialised, all typed messages (all that were parsed from any line), all sequences of messages, every byte at which a file of them is cut off", "why_tests_cant": "the project's tests save and read one captured line of each kind; strings, lists and numbers are unbounded, and every byte could need an escape", "anchors": ["src/msg/macros.rs: assert_irc_roundtrip", "src/msg/privmsg.rs and the other messages: derives of Serialize and Deserialize", "Cargo.toml: serde, serde_json"]}
{"id": "C127", "title": "Channel names saved as JSON text come back", "statement": "A channel name that is saved as JSON text with serde_json comes back when the text is read, in its owned form (Channel) as well as in its borrowed form (&ChannelRef). A text gives a channel exactly if it stands for a string that starts with #, and a name never comes back as another name.", "quantifier": "all channel names, all JSON texts, read from a string or from a reader", "why_tests_cant": "names are unbounded strings with any characters after the #, and there are infinitely many texts for each name; the project has no test that serialises a channel", "anchors": ["src/common/channel.rs: Serialize and Deserialize for Channel and &ChannelRef", "Cargo.toml: serde_json"]}
{"id": "C128", "title": "A pong tells which ping it answers", "statement": "If a program pings with nonces that contain no line feed, among other commands, and the server answers each PING that it reads with a PONG that has the same text, then the PONGs that the program receives carry the nonces of its pings (Pong::nonce), all of them and in order, whatever else the server says in between and however the bytes are cut on the way in both directions. So with different nonces each PONG identifies its ping, which is what measuring the latency needs.", "quantifier": "every sequence of commands with plain arguments, every nonce without line feed (also with spaces, colons, or empty), every name of the server, all other lines in between, every division into writes and reads", "why_tests_cant": "the nonce is any text, and the order in which lines, pieces and other messages interleave is not bounded", "anchors": ["src/msg/pong.rs: Pong::nonce", "src/client/write.rs: Client::ping", "src/client/read.rs: Client::recv", "src/irc.rs: IrcMessageRef::text"]}
{"id": "C129", "title": "Messages can be put in order by their time", "statement": "The timestamps of two typed messages, of whatever kinds, compare as the numbers of milliseconds in their tmi-sent-ts tags do. The texts of these timestamps, in printed and in saved messages, compare as strings in the same way as long as the years are 0 to 9999, with one exception: the text of a whole second comes after the texts of all other times of that second.", "quantifier": "all pairs of lines from which a message with a timestamp is made, on every build; all pairs of milliseconds in the years 0 to 9999", "why_tests_cant": "it is a claim about all pairs of times, and comparing texts depends on the calendar and on how many digits are written for every one of them", "anchors": ["src/msg.rs: parse_timestamp", "src/msg/privmsg.rs: Privmsg::timestamp", "src/msg/clear_chat.rs: ClearChat::timestamp", "src/msg/clear_msg.rs: ClearMsg::timestamp", "src/msg/user_notice.rs: UserNotice::timestamp"]}
