# A Lean 4 model of jprochazk/tmi-rs

The project is in `lean/`; `lake build` there checks everything.  The theorems are in
`lean/Verif/Props/*.lean`, named after the properties of `properties.jsonl` (`C08_tags_roundtrip` belongs to
C08).  `MANIFEST.json` lists the theorems of each property; `seeded/LOG.jsonl` the wrong programs against
which they were tested.

## How to read the log of wrong programs

Each line of `seeded/LOG.jsonl` is one edit of the model and one rebuild.

* `first_failures` is what was observed: the first declarations (at most six) that no longer compile.
* `failed` is computed from it: the property theorems whose proofs use one of those declarations in the unedited
  tree.  So it lists the theorems that were no longer established, not theorems shown to be false of the edited
  program; a theorem may be listed because its proof goes through a lemma about the edited definition.
* `claim` was written by hand for the edits made by hand.  For the edits made by a script (constants, comparisons,
  literals, swapped and dropped lines) it is the list of the properties of the `failed` theorems.
* An empty `failed` means that no property theorem failed.  Then either `tightened` names what was added, or
  `note` says why no claim is false of the edited program.
* Edits that do not compile in the edited definition itself test nothing and have no line (some 550).
* Many runs were made in a copy without the `example`s and without `Verif/Conform`, to save time.

## How it is organised

| directory | contents |
|-----------|----------|
| `Verif/Base.lean` | byte strings, UTF-8, slices, faults |
| `Verif/Model/` | the code, function by function; every definition cites the file and lines it models |
| `Verif/Spec/` | what the properties are about, without the algorithms of the model |
| `Verif/Props/` | the property theorems, with an `example` beside each showing that its hypotheses can be met |
| `Verif/Proofs/` | lemmas; nothing in a property statement is defined here |

The specifications in `Spec/Line`, `Spec/Escape`, `Spec/Num`, `Spec/Words` and `Spec/Sizes` use no definition
of the model.  The others use the record types of the model (a specification of `Privmsg` has to say what its
fields are), the alphabets of network answers and effects, and, for properties of histories, the calls of the
API.

## How the code is modelled

* **Strings** are `Bytes = List UInt8`.  A Rust `&str` is a byte list that is the UTF-8 encoding of some list
  of Unicode scalar values (`Utf8 s`).  Slicing (`src[a..b]`) is a partial operation that *faults* when a bound
  is out of range, inverted or not a character boundary, as in Rust.
* **Panics and undefined behaviour** are values: computations live in `R = Except Fault`.  A fault is a panic
  (slice, array index, full tag array, arithmetic overflow), an out-of-bounds or misaligned vector load, or an
  exhausted loop counter.  "Never panics" is "never returns a fault".  Loops are structural recursions, or have
  a counter whose exhaustion is the fault `diverge`, which is proved not to occur.
* **Integers.** `as u32` and `as u16` are `% 2^32` and `% 2^16`; arithmetic that can overflow is checked,
  and `Build.checks` says whether overflow panics (dev profile) or wraps (release profile).  Theorems are for
  both.  `usize` is 64 bits wide and string lengths are at most `isize::MAX`, so additions of offsets are plain
  `Nat` additions; `usize` subtractions fault on underflow.
* **SIMD.** `Backend` gives the operations of one vector type.  Three instances: SSE2, AVX2, NEON, each on its
  real mask representation (32, 32 and 64 bits, NEON with four bits per lane).  (A fourth, the AVX-512 that
  is switched off, is in `Model/Avx512.lean` and C123.)  Loads take the base address of
  the slice and fault when they leave it or are misaligned.  Theorems are for all three and the scalar parser,
  selected by `Build.tagParser`.
* **Message accessors** work on spans of the source, as in the code.
* **Typed messages** are the `parse` functions of `src/msg/*.rs`, in the same order of effects, over the
  accessors.  The types are polymorphic in the type of texts: at `Bytes` for parsing and serde, at `Text`
  (a `Cow<str>`: a span of a buffer, a static string or an owned string) for `into_owned`.  Their getters are functions of
  their own (`Model/Getters.lean`), one for each entry of `generate_getters!`.
* **Serde** is modelled on trees of the kind self-describing formats carry (`Value`); derived and hand-written
  implementations field by field, structs from maps and from sequences.
* **Client.** An `async fn` is a function of a `World`: the client's state, a log of effects and a *script* that
  says what happens at each await point (bytes accepted, error, line, end, deadline passed).  Running out of
  script means that the future is dropped there.  A theorem for all scripts is a theorem for all outcomes of all
  I/O operations, all deadlines and all points of cancellation.  `History` is any sequence of calls.
* **The reader** (`Model/Lines.lean`) is modelled poll by poll, with its buffers, on a list of reads of any sizes with
  waits anywhere; C60 proves that `recv` then behaves as on the list of lines that the script of the client has.
* **The client over bytes** (`Model/Net.lean`) is the client again with that reader on each of its connections: a read
  is a loop of polls, and while it waits the call may be dropped or time out.  C64 proves that its sessions are sessions
  of the client over lines.
* **Opening a connection** (`Model/Tls.lean`) is TCP and then TLS, each of which may fail or time out, and before it the
  loading of the certificates of the system.  C107 proves that sessions with these steps are sessions of the client above.
* **Time.** `Model/Timed.lean` has the functions with deadlines again, on a world with a clock; C53_*_run proves
  that each of its runs is a run of the model without a clock.
* **The documented programs** (`Model/Bot.lean`), the quick start of README.md and examples/basic.rs, are loops over
  these calls; what they print is left out.
* **Log records** (`Model/Trace.lean`) are what the calls hand to `tracing`.  `Model/Logged.lean` has the client with a
  subscriber: `connect`, `reconnect` and the sending methods with every `trace!`, whose fields are formatted there.
* **Work** (`Model/Steps.lean`, `Model/StepsMsg.lean`) is the parser, `tag`, `text`, unescaping, `parse_badges` and the typed
  parsers with a count of steps: bytes looked at, vectors loaded and compared, tags stored and copied.  What is not counted:
  arithmetic, slicing, allocation.  C78 and C94 prove that it computes what the parsers compute.
* **Memory** (`Model/Mem.lean`) is the parser again where reading a cell that was not written, or outside of the string, is an
  explicit outcome.
* **The tasks of the repository** (`Model/Xtask.lean`): `cargo x setup`, `test` and `changelog`.  Processes are any function of
  the commands run so far; CHANGELOG.md is kept with everything it has been.
* **`Debug` output** (`Model/Debug.lean`) is a tree printed in the two ways of `core::fmt`.
* **`Verif/Conform/`** checks the model against the project's own recorded test outputs (`src/msg/snapshots`): each
  input line, parsed and printed by the model, gives the recorded text.  These are tests of the model, not proofs.

## Hypotheses that appear in the theorems

| name | meaning | what happens otherwise |
|------|---------|------------------------|
| `Utf8 s` | `s` is a Rust string | cannot happen |
| `Within s` | line below 4 GiB, at most 128 tags, keys and values of at most 65535 bytes | C01_parse_panics_iff, C01_accessors_exact, C17_exact, C17_lookup_exact; from 4 GiB on: C02_any_length, C01_negation_4GiB |
| `TagsTerminated b s` | only for the scalar parser: a line starting with `@` has a space | C01_negation_scalar, C04_scalar_simd_agree_iff |
| `Readable`, `AllReadable` | the conjunction of the above, for a line or for all lines received | the examples and the server sessions (C62, C63, C99) need it; connecting does not |
| `Parses`, `AllParse` | UTF-8, below 4 GiB, and `parse` returns (C01 says when) | connecting and reconnecting (C39, C41, C42, C53, C89), comparing commands (C80); C39_greeting, C41_bound, C43_in_order need none |
| `TimeCodec.Faithful`, `TimeCodec.Stable` | chrono reads back the timestamps it writes | proved for the format of chrono in `Proofs/Chrono.lean` (`C50_rfc3339_*`, `C67_rfc3339*` have no such hypothesis) |
| `settled h` | no reconnect has failed in `h` since which nothing was sent | C34_leftovers, C55_exact |

Bare hypotheses such as "no CR or LF in the arguments" are written out in the statements.

## Trusted base

* Lean 4.33.0's kernel, and the axioms in the table at the end: at most `propext`, `Classical.choice` and
  `Quot.sound` for every theorem.  No axiom is added, nothing is left unproved, no compiled code is trusted.  No
  Mathlib module is imported.
* The reading of the Rust code into the model.  No extraction is used.
* The Rust standard library and the external crates, as far as their behaviour is written into the model:
  - `str` slicing, `find`, `split`, `split_once`, `split_whitespace` (Unicode white space), integer `FromStr`;
  - the intel and arm intrinsics;
  - chrono: the range of `timestamp_millis_opt`, the seconds and nanoseconds of a `DateTime<Utc>`, its `Debug`; the text form that serde uses is a parameter (`TimeCodec`), and `Model/Chrono.lean` has the form of chrono (RFC 3339; without the white space that the reader also allows);
  - serde's derives and its implementations for the standard types; of the formats, the text that serde_json writes (`Model/Json.lean`), with a reader after RFC 8259 in place of its own;
  - tokio: `write_all` (loops until all bytes are accepted, fails on zero), `flush`, `timeout` (polls the future
    first), `sleep`;
  - `BufReader`, `Lines`, `LinesStream` and `Fuse` behave as in Model/Lines (their loops and buffers are modelled, up
    to the first failed read); the other client theorems see the connection as a list of lines, which C60 justifies;
  - `rand` draws from the given range; `Duration` arithmetic panics on overflow.

## What is not modelled

* What rustls does to set up TLS and what it then does to the bytes; DNS, allocation failure, threads (the client is not shared: its methods take `&mut self`).
* `eq` and `movemask` of `src/irc/wide/x86_64/avx512.rs`: the file is not compiled (its `mod` is commented out), and
  these two would not type-check (`movemask` uses a variable `mask` that does not exist).  C123 reads them as the other
  vector types have them; the rest of the file is modelled (`Model/Avx512.lean`).
* `ConnectError::Dns`: nothing makes one.  `Debug` of messages, of their parts, of `Config` and `Credentials`, and
  `Display` of the errors of the client are modelled (`Model/Debug.lean`, `Model/ErrorText.lean`); which characters
  outside ASCII `Debug` of `str` escapes is a parameter, and so are the texts of `io::Error` and of rustls' errors.
* `Deref`, `AsRef` and `From` implementations that return the same value at another type.
* Benches; of `xtask`, the parsing of its command line (argp).
* Whether bytes accepted by the stream reach the network: a TLS stream may hold them back until it is flushed
  (C59 says what may be held back).
* `write!` into the scratch buffer cannot fail (`String` never does).

## Where the code does not do what a user would expect

Found while proving; each has a machine-checked witness.

| theorem | finding |
|---------|---------|
| C01_negation_129_tags | a line with more than 128 tags panics in `parse` |
| C01_negation_scalar, C04_negation | without `simd`, `@` with no space after it panics; with `simd` it is parsed |
| C108_negation | one certificate of the system that rustls refuses keeps the client from connecting at all |
| C109_negation, C109_twice_negation | only `ReconnectError` has a `source`, and it prints its source as well |
| C10_negation | `pinned-chat-paid-canonical-amount` parses to a variant whose `as_str` differs |
| C124_killed_negation, C124_since_negation, C124_until_negation | `cargo x changelog` empties the file before it writes it, leaves out the commit it starts from, and links to the newest commit whatever `until` is |
| C127_negation, C127_reader | `&ChannelRef` cannot be read from the JSON text it was written to if the name needs an escape, and never from a reader |
| C14_doc_negation | `text()` follows the first `:` of the params, the documentation says the last |
| C15_negation | `IrcMessage::text` differs from `IrcMessageRef::text` |
| C16_negation | a space after the command (or channel) with nothing behind it is not exposed |
| C17_negation_* | values of 65536 bytes are truncated, or slicing them panics |
| C19_negation, C57_negation | `maybe_unescape` leaves U+2E1D before the first backslash |
| C20_negation | after an unknown escape the next character is also treated as escaped |
| C22_negation, C30_negation | a huge `followers-only` overflows: panic or a wrong duration |
| C34_negation, C40_negation | a failed reconnect leaves its greeting in the buffer; it is sent again |
| C36_negation | a line break in an argument makes two lines |
| C50_negation | a subscriber badge with non-numeric months does not deserialise |
| C54_negation | a cancelled send leaves half a line, to which the next command is glued |
| C55_negation | the first command after a failed reconnect is logged with the token |
| C57_negation_user_state | `UserState::user_name` does not unescape |
| C59_negation | no sending method flushes |
| C69_negation_prints | `{:?}` of a message whose tags cannot be listed panics |
| C73_negation | an error of `connect` that quotes such a message panics when it is displayed |
| C74_negation | with TRACE logging on, `connect` panics on such a reply, which it otherwise accepts |
| C63_negation | a line that is not a message of its kind (a PRIVMSG without tags) ends the documented loop |
| C79_quadratic_negation, C79_negation | reading badges takes time quadratic in the length of the line |
| C81_negation | a connection reset by the peer is no disconnect for `is_disconnect` |
| C82_negation | the sender of an `anongiftpaidupgrade` or of an unknown event is dropped, although they are not anonymous |
| C83_negation | the names of promotions and gifters are returned escaped |
| C84_negation | a timeout whose duration is not a number is reported as a permanent ban |
| C85_negation | an empty `emote-sets` tag gives one emote set with an empty name |
| C87_negation | `Tag::Unknown("msg-id")` matches what `Tag::MsgId` matches, against the documentation |
| C88_negation | no command ever reports `SendError::StreamClosed` |
| C89_negation | one attempt that times out, or is closed by the server, ends `reconnect`, whatever attempts are left |
| C86_negation | a message with `badges` but without `badge-info` has no badges |
| C115_limit | a display name with an escaped line feed comes out of `User::name` with the line feed; a program that greets by that name sends a second command |
| C117_differ, C117_overflow | the line `@a` makes a program panic on a processor without vector instructions only; a ROOMSTATE with too many minutes makes a debug build panic and not a release build |

## Per property: what is modelled and how it is proved

| id | status | property | model and proof |
|----|--------|----------|-----------------|
| C01 | partial | Parsing a line never panics | `parse` and accessors in `R`; refinement to the line grammar for lines within the limits; exact panic set of `parse` and of the accessors by the size analysis of C17; negations by witnesses. |
| C02 | proved | The parser implements the documented line grammar | `Spec.line : Bytes → Option Line`, without offsets; `parse_refines`: all four tag parsers, by the automaton of C03 and span arithmetic. |
| C03 | proved | All SIMD backends give the same tags | every backend computes the same byte automaton over chunks (induction over the chunks, any address). |
| C04 | partial | The scalar and SIMD tag parsers agree | scalar parser = automaton; exact condition, negation otherwise. |
| C05 | proved | Vectorised byte search returns the first occurrence | loop invariant `nothing before the offset` through the five phases of the search. |
| C06 | proved | Vector loads stay inside the string and aligned loads are aligned | loads fault when out of bounds or misaligned; no fault for any address. |
| C07 | proved | Movemask, first_match and clear_to mean what they say on every backend | masks as sets of lanes, proved for the three mask types by bit reasoning. |
| C08 | proved | Tags round-trip | the grammar inverts rendering (induction over the pairs), then C02. |
| C09 | proved | tag() returns the first pair with that key | lookup in the list of pairs, then C02. |
| C10 | partial | Tag names round-trip | case analysis over the name table, both directions, exact conditions. |
| C11 | proved | Prefix parts and Display round-trip | closed form of the one-pass prefix parser: last `!`, last `@`. |
| C12 | proved | Command classification is exact | case analysis over the command table, then C02. |
| C13 | proved | channel() is the channel of the line | C02 and the white-space splitting of `Spec/Words`. |
| C14 | proved | text() is the trailing parameter | C02; first `:` of the params. |
| C15 | partial | Owned and borrowed messages agree | the two sets of accessors are modelled separately and compared. |
| C16 | partial | Parsing loses no bytes | concatenation theorem over the grammar; exact lost bytes. |
| C17 | partial | Tag keys and values of any length are returned whole | 16-bit truncation is followed through parsing: `Spec/Sizes` gives the exact result for all lines below 4 GiB. |
| C18 | proved | unescape inverts tag escaping | induction over the characters. |
| C19 | partial | maybe_unescape and unescape agree | both functions as folds; exact condition for equality. |
| C20 | partial | An escape affects only the next character | fold with a `sticky` state; exact description. |
| C21 | proved | Typed dispatch follows the command | case analysis on the command. |
| C22 | partial | Typed parsing never panics | no fault unless followers-only overflows; exact. |
| C23 | proved | PRIVMSG parsing is exact | the parser returns `p` iff `p` satisfies a field-wise specification of the line. |
| C24 | proved | Optional Privmsg parts are all-or-nothing | as C23, for the optional parts. |
| C25 | proved | /me detection strips exactly the action wrapper | string equations. |
| C26 | proved | Badges are parsed in order with their badge-info | list induction. |
| C27 | proved | Badge and BadgeData conversions are inverse on parsed badges | case analysis. |
| C28 | proved | CLEARCHAT is classified exactly | as C23. |
| C29 | proved | USERNOTICE events and anonymity | as C23, by event. |
| C30 | partial | ROOMSTATE is a faithful partial update | as C23; what happens on overflow. |
| C31 | proved | Emote sets and colour of user states | as C23; join inverts split. |
| C32 | proved | Small messages are exact | as C23. |
| C33 | proved | Numeric tags are read exactly or rejected | digit fold with overflow checks = decimal value and bound. |
| C34 | partial | Each send writes exactly its own line | invariant on the scratch buffer over all histories. |
| C35 | proved | Sent commands parse back | the bytes of a command, parsed by the grammar. |
| C36 | partial | One call, one line | splitting the wire into lines inverts sending; exact condition for one line. |
| C37 | proved | send_raw accepts exactly terminated messages | direct, for all strings and network behaviours. |
| C38 | proved | Channel names are normalised once | direct; recovered from the line. |
| C39 | proved | Handshake succeeds exactly on CAP ACK then 001 | refinement of `connect` to the relation `Attempt` between what the network does and the result. |
| C40 | partial | A failed handshake leaves nothing behind | invariant: the buffer holds whole copies of the greeting; counted. |
| C41 | proved | Reconnect makes at most max_tries attempts and stops at the first success | refinement of `reconnect` to the relation `Reconnects`; bound on the attempts without hypotheses. |
| C42 | proved | Reconnect delays follow the backoff | closed form of the delays, from the log of waits. |
| C43 | proved | recv yields each line once, in order, and close is final | induction over the calls of `recv`. |
| C44 | proved | is_disconnect classifies errors | case analysis. |
| C45 | proved | A PING is always answered with its nonce | C35 and C32. |
| C46 | proved | Same-message bypass alternates | induction over the calls. |
| C47 | proved | Debug output never reveals the token | equality of the texts for all pairs of tokens; for `Config` both printers of `Model/Debug.lean`, and uniqueness of reading back (`text_inj`). |
| C48 | proved | Channel values always start with '#' | direct. |
| C49 | proved | Joined iterators print separators only between items | induction over the items. |
| C50 | partial | Serde round-trip of typed messages | `de (ser m)` computed for every type; the only failing field is identified. |
| C51 | proved | into_owned preserves every getter | messages over `Cow` texts; what a getter shows of the owned copy, whatever the buffer later holds. |
| C52 | proved | PinnedChatLevel conversions are safe and inverse | over all 256 bytes and all strings. |
| C53 | proved | connect and reconnect come to an end in time | model with a clock; potential argument on the deadlines; every timed run is an untimed run. |
| C54 | partial | A command that failed or was cancelled does not affect later commands | the wire of any history as a list of whole commands and beginnings of commands. |
| C55 | partial | The token does not appear in log records | log records as values; invariant of C34; the client with a subscriber (`Model/Logged.lean`) gives exactly these records. |
| C56 | proved | Builders and defaults | induction over the sequence of builder calls. |
| C57 | partial | Unescaping getters give back the text the server escaped | C18-C20 composed with the parsers of C23 and its kin. |
| C58 | proved | Nothing but the bytes of the greeting depends on the token | two-run simulation (`Twin`) through every function of the client. |
| C59 | partial | What is reported as sent has been flushed | what a holding stream keeps back, by induction over the history. |
| C60 | proved | What recv returns depends only on the bytes that arrive | the reader as a state machine over reads (Model/Lines); invariant: line so far ++ buffer ++ bytes still to arrive; induction over events and bytes. |
| C61 | proved | What one client sends, the other end receives | composition of C36 (bytes on the wire), C60 (lines received) and the parser refinement. |
| C62 | proved | The documented bot answers every line before it takes the next | model the two documented programs (`Model/Bot.lean`) over the client; relation `BotLog` between what they did and how they ended, by induction over the rounds; fuel shown irrelevant. |
| C63 | partial | The documented bot ends only with its connection | negation with a PRIVMSG line without tags; exact behaviour on every such line and at the end of the stream; the part that holds by induction on `BotLog`. |
| C64 | proved | A session over bytes is a session over lines | model of the client over the poll-by-poll reader (`Model/Net.lean`); refinement relation `Follows` to the line-level client, by induction over the program and the calls. |
| C65 | proved | Lines stay with their connection and none is lost | invariant `Inv` over all calls: what was taken plus what the reader still has is what arrives on the connection in use; earlier connections are prefixes. |
| C66 | proved | A session does not depend on how the network cuts its bytes | two-run relation `NetTwinRun`: equal worlds, readers that have the same items left; enough patience is kept because the number of remaining events never grows. |
| C67 | proved | What deserialisation of typed messages accepts | forms (`Spec/Shape.lean`): which values are ways to write which canonical value; for each type, reading succeeds iff the value is of the form, by composition over fields, lists, options and variants. |
| C68 | proved | Typed messages hold what the raw message exposes, whatever its size | a parsed message whose tags can be listed exposes the line with these tags (`represents_listed`), and the proofs of C21-C32 hold for every message that exposes a line. |
| C69 | partial | Debug of a raw message leaves nothing out and never panics | `Model/Debug.lean` models Debug values as trees (structs, tuples, lists, strings) and both printers; reading back a printed tree is unique (`text_inj`), and the tree of a message determines its parts. |
| C70 | proved | Debug of typed messages is total and faithful | the trees of the 25 types are injective type by type (`Proofs/DebugTyped.lean`), the printers are injective on trees whose names are words and whose strings are UTF-8. |
| C71 | proved | Timestamps are printed as the right date and time | specification of dates by counting days of months and years (`Spec/Debug.lean`); the civil-from-days arithmetic is proved to produce the date with that count, and the date is unique. |
| C72 | proved | A printed message contains no control characters | induction over the printed tree: names are words, strings are escaped. |
| C73 | partial | Errors of connect and reconnect can be displayed, and say what happened | `Model/ErrorText.lean` has `Display` of the errors; a Hoare-style pass over `connect` and `reconnect` shows that what an error quotes comes from the server (`Proofs/ErrorFrom.lean`); then C69 and C72. Negation: a first reply whose tag cannot be read. |
| C74 | partial | A logging subscriber does not change what the client does | `Model/Logged.lean` models the client with a TRACE subscriber; a simulation (`Tracks`) relates it to the client without, up to a panic in printing a received message. Negation: an acknowledgement whose tag cannot be read. |
| C75 | proved | What is logged while connecting is fixed text, the login and received messages | the same simulation, with the list of new records. |
| C76 | proved | Parsing has no undefined behaviour | `Model/Mem.lean` is the parser again with the array of `MaybeUninit` cells and with indexing that gets stuck outside; a simulation relates it to the model without memory, and a rule for each operation shows that the faults left are panics. |
| C77 | proved | Printed messages say what serialised messages say, under the same names | `Spec/Tells.lean` has the layout of both forms, the grammar of string literals, and a relation between texts and serialised values indexed by the type; type by type the tree of `Model/Debug.lean` is shown to print a text related to what `Model/Serde.lean` writes. |
| C78 | proved | Parsing a line, looking up a tag and unescaping are linear-time | `Model/Steps.lean` is the parser once more in a monad that counts; erasing the count gives the parser, and each loop is bounded by induction (a logic of bounds, `Within`, and of exact counts, `Spends`). |
| C79 | partial | Reading the badges of a message is linear-time | The same for `parse_badges`; the negation is a family of lines, put through the round trip of C08. |
| C80 | proved | Channel names, tags and commands are well-behaved keys | `Model/Keys.lean` has what the derived `PartialEq`, `Ord` and `Hash` do; total order and prefix-freeness are proved for any enum with at most one string field; parsing is injective by the tables of C10 and C12. |
| C81 | partial | is_disconnect recognises every lost connection | `Spec/Client.lean` says which errors mean a lost connection; case analysis. The negation is a read that fails with a reset. |
| C82 | partial | A USERNOTICE names its sender unless they are anonymous | `Spec/Documented.lean` says when the sender is anonymous; from C29. The negations are an `anongiftpaidupgrade` and an unknown event with a full sender. |
| C83 | partial | Names of gifters, promotions and users come back as text | From C29 and C31: the getters return the tag as it is; escaping is the identity exactly on plain texts (induction). |
| C84 | partial | A timeout is not reported as a ban | From C28; the negations are durations that are not numbers. |
| C85 | partial | A list of emote sets comes back | From C31 and the uniqueness of comma-separated fields (C26). |
| C86 | partial | The badges of a message are those in its badges tag | From C26 and C27, for every message with badges. |
| C87 | partial | A tag is found by its name | `tag` called with a string goes through `From<&str> for Tag`; from C09 and C10. |
| C88 | partial | A command that fails says why | Every sending method is `write_all` of its bytes, whose outcomes are exactly `Accepts` and `Rejects`. |
| C89 | partial | reconnect fails only when all attempts have failed | From the refinement of C41: by induction over the run of attempts. |
| C90 | proved | Every getter of a typed message reports its documented part of the line | Each getter is a function of the model (Model/Getters.lean), which follows the lists given to `generate_getters!`; Spec/Getters.lean says, per message type, which part of the line each reports. From the exactness theorems of the parsers (C23, C28–C32) and C57. |
| C91 | proved | A typed message depends on nothing but the tags it is made of | `Spec/TagsRead.lean` lists the tags per command. Each parser asks the raw message only for these (congruence of every parser in the answers it gets); by the refinement of C03 the answers are a function of the line. Order, other tags and repetitions follow from facts about looking up in a list. |
| C92 | proved | A reply refers to the message it replies to | The channel and the tag values of a line contain no space (and no `;`), so the hypotheses of C35 hold for everything that was received. |
| C93 | partial | The message id and the nonce given to a message arrive | `Spec/Arrives.lean` says what the receiver reads (`ReadsTag`). The value of a tag on the sent line ends at the first `;` or space, and unescaping never makes a text longer, so only texts without special characters come back (induction). |
| C94 | proved | Making a typed message of a line takes time linear in the line, apart from its badges | `Model/StepsMsg.lean` has every typed parser once more in the counting monad; erasing the count is a morphism of monad transformers, and the bounds follow the parsers line by line (`Under`, `Over`). |
| C95 | proved | Chatters control nothing but their own words | `Spec/Chatter.lean` has the frame that the server puts around a text, and a frame with a gap for one escaped tag value; the grammar reads every such line back (`frame_channel`, `gap_ok`), and the exact theorems C23, C29, C32 carry the difference to the typed messages. |
| C96 | proved | What the server says is what a program is told | `Spec/Serve.lean` has the records and the lines in which the server sends them, and says what a program must be told; the grammar reads every such line back (`chat_line`, `said_line`), the exact theorems C23, C28, C32, C33 give the typed message, C90 the getters and C60 the way through `recv`. |
| C97 | partial | A typed message takes no more room than the line it was made of | `Spec/Room.lean` lists the texts of every typed message. By the exact theorem C21 each is a part of the line or the value of one tag, and different fields are different tags, so their lengths add up to at most the length of the line (`lookups_le`, `parts_le`). The text of `badge-info` is copied for each badge of its name: with distinct names it is copied once, in general at most once for each badge. A line with n equal badges shows that this is quadratic. |
| C98 | proved | Events, whispers, settings and states that the server reports are what a program is told | `Spec/Happen.lean` has the records (`Happening`, `Deed`, `Settings`, `Notified`), the lines in which the server sends them, and what a program must be told; the grammar reads every such line back (`happening_line`, `notified_line`), and the exact characterisation of typed messages and of `recv` (C60) does the rest. |
| C99 | proved | With a server that keeps to the protocol, only the connection ends the documented programs | `Spec/Server.lean` has everything that a server sends (`Utterance`) and the answer to each (`answerTo`), given by the record only; the line of each is a message of its kind (from C96, C98), so the reaction of the loop (C62) is the answer; lines that are taken have arrived (`TakesLines`, an invariant of every client operation), so C63's condition holds; induction over what is sent, with `reconnect` by C41. |
| C100 | proved | What one client sends is what another client is told | Spec/Relay.lean says what a server understands from a line by the line grammar (`requests`), what a call of the API asks for (`asked`), what it is to relay that (`Relays`, in terms of the records of C96) and what a listening program is to learn (`Learnt`, in terms of getters). Props/Relay.lean: the line of each command is read back as what was asked for (including the comma-separated list of `join_all`); with C36 this holds for the bytes of any sequence of calls, with C96 for what the second client receives, and with C99 for the greeting program. |
| C101 | proved | A program that keeps track of channels knows what is the case in them | Spec/Track.lean has the state of the channels of a server, what can be done there (`Move`), what is the case afterwards, and what the server says about it (records of C96 and C98; of the settings only those that changed), and a program that keeps notes with the getters of typed messages. Props/Track.lean: one move preserves the relation between notes and state; induction over the history, with C98 for what `recv` returns. |
| C102 | proved | A client that has reconnected is as good as a new one | `Spec/LikeNew.lean` defines calls, what they give, programs (functions from the results so far to the next call), and `SameFromNow`: two worlds in which every program gets the same results, the server sees the same additions to the log and as many answers are used up. `Proofs/LikeNew.lean` proves for every operation that it only adds to the log and does not read it, and that a successful `connect`, `reconnect` or `recv` leaves an open client; with the buffer lemmas of C34 and C40 the states are equal. Theorems in `Props/LikeNew.lean`. |
| C103 | proved | The lines that can crash a program, exactly | `Spec/Crash.lean` lists everything that can be asked of a borrowed, an owned and a typed message as results whose answers are forgotten, and gives the four kinds of lines. One direction puts together the totality results: `C01_accessors_exact`, `C68_typed`, `C68_panics`, `C70_total`, and `C19_total` for the values of the listed tags, which are strings. The other direction gives, for each kind of line, the operation that panics. |
| C104 | proved | Only a crashing line, or a wait that cannot be computed, panics in a program that uses a client | A program is a function from what its calls gave so far to its next call (`Spec/LikeNew.lean`); `Spec/Calm.lean` lists what can be asked of what a call gave. A Hoare-style predicate over calls (does not panic, uses up answers, keeps the configuration, returns only messages parsed from harmless lines) is closed under sequencing, time-outs and the loop of `reconnect`, whose fuel is more than the script has answers; induction over the number of calls. What is asked of the messages is C103. |
| C105 | proved | What a client keeps in memory | Modelled: the sessions on connections that deliver bytes (Model/Net.lean, Model/Lines.lean). Specification (Spec/Held.lean): the number of bytes the reader holds; that no stretch of the bytes of a connection without a line feed is longer than a limit; that no read is larger than a capacity. Proof: an invariant of the reader together with what is still to arrive (the bytes held contain no line feed, and they and all that follows have no long line), kept by every poll and every call (Proofs/Held.lean); for the buffer, the equivalence with sessions of lines (C64) and what one reconnect leaves (C40), by induction over the calls. Growth by induction over the attempts. |
| C106 | partial | The end of a connection in the middle of a line | Modelled: the line reader on a connection that delivers bytes in any pieces (Model/Lines.lean), `recv` and the typed messages. Specification (Spec/CutOff.lean): how much of a list of lines has arrived (`ArrivedOf`); what may be left of something that was said when the end of its line is missing (`Shortened`). False: `tokio`'s `lines` hands out the bytes after the last line feed when the stream ends, and the client parses them; the negation builds, for every timeout, a closed connection whose program is told that the chat was cleared. Proved instead: it holds of connections that stay open or fail; for closed ones, the exact results; and exactly what such a last message can tell (each possibility occurs). Proof: a prefix of a rendered line ends in the tags, in the prefix, in the command, in the channel or in the text; each case is computed with the specification of lines; only the last two can be typed. |
| C107 | proved | Nothing is said except over TLS to Twitch's server | Modelled: src/client/conn.rs and the calls that use it (Model/Tls.lean): certificates, TCP, TLS, each step with an answer. Specification (Spec/Tls.lean): what a connection that was made properly looks like in the log (`made`), and that at every moment something is said or heard the connection in use is such a one (`Secure`). Proof: an invariant of the world (the connection in use was made properly, the stored roots and name are the right ones), kept by every call whatever is answered (Proofs/Tls.lean). The refinement to sessions of the client of the other properties is a simulation: the answers of the steps are turned into one answer (Proofs/TlsSteps.lean). |
| C108 | partial | Certificates that cannot be used | Same model. `TlsConfig::load` in closed form by induction over the certificates. False: the loop returns at the first certificate that rustls refuses; proved instead: exactly when a connection is tried. |
| C109 | partial | The causes of an error can be found | Modelled: `Error::source`, `Error::cause` and `Display` of all error types (Model/Source.lean). Specification (Spec/Source.lean): from which errors an error was made (`MadeFrom`, `Behind`), what following `source` finds (`Chain`). False: only `ReconnectError` has a source. Proved instead: exactly of which errors everything is found, and that the text of an error ends with the text of every error behind it. |
| C110 | proved | A message is made of pieces of its line, and only what is escaped is copied | Modelled: everything the parser reads, and the `Cow` of `maybe_unescape` (Model/Cow.lean). Specification (Spec/Pieces.lean): the texts of a message (`messageTexts`, as for C97) and those a raw message gives are contiguous parts of the line, apart from two fixed texts; that neither exception can be dropped is shown on a line. Proved by following every text through its parser, with no condition on the line; `maybe_unescape` by induction on the loop, its length by induction on the characters. |
| C111 | partial | Who uses a SameMessageBypass does not repeat themselves | Modelled: `get`, `privmsg` and the wire (C46, C36, C100). Specification (Spec/Bypass.lean): the calls of a program with one bypass (`bypassed`) or one per channel (`bypassedEach`), and when a message is the last one before it in its channel (`Repeated`), on what the server understands from the bytes. The text of the i-th message by induction on the messages; that a bypass per channel never repeats by induction on the messages with the state of every channel. False with one bypass for several channels: which messages are equal is given exactly, with a concrete session. |
| C112 | partial | A channel that was joined can be written to under the same name | Modelled: `join`, `join_all`, `privmsg` and the wire (C36, C100). Specification (Spec/Reached.lean): what a program means (`meant`), what the server understands (`reached`), and that everything is said in a channel entered before (`SaidInside`). By the shape of each command line, then induction on the program for the order. False for names without `#`, with a concrete session. |
| C113 | proved | The members of a channel are those that the server lists | Modelled: `parse`, `command`, `channel`, `text` of `IrcMessage`, `split_whitespace`, `recv` (C13, C14, C60). Specification (Spec/Roll.lean): the lines of a server that lists members (`Roll.line`), a program that collects them with the accessors (`noteRoll`). By the line grammar for each kind of line, induction on the words of a list and on the lines. |
| C114 | proved | A line that is passed on arrives as it came | Modelled: `recv` poll by poll with its buffers, `raw`, `send_raw` with its check, the socket (C37, C60, C61). Specification (Spec/PassOn.lean): a message that was received (`Received`), the call that passes it on (`passOn`). By induction over the polls: a line that comes out of the reader has no line feed and is UTF-8, whatever the connection does; then C61 for the commands. |
| C115 | proved | A program that repeats what it was told asks the server for nothing else | Modelled: `recv` poll by poll, all accessors and typed messages, `maybe_unescape`, the writers of commands. Specification (Spec/Repeat.lean): what the API tells (`FromTold`, inductively, with unescaping and cutting), texts composed of it (`Words`), the calls (`Repeats`); what the server understands is Spec/Relay.lean. By induction over `FromTold`, with C114 (no line feed in a received line) and C110 (texts are pieces of the line); for unescaped texts by induction over the escaped text; then C36 and C100. |
| C116 | proved | Documented bots in the same channel do not set each other off | Modelled: the documented program, the client and the parser (C62, C99), what the server understands and relays (C100). Specification (Spec/Company.lean): programs with what they were told and why (`Cause`), and that what is told as a program's words was said by that program (`Company`). By C99 and C100 what a program says is the answers to what it was told; every answer has the text `yo`, which is not answered; induction over what it was told. |
| C117 | proved | The same program behaves alike on every processor, and in debug and release builds | Modelled: builds (tag parser, address, overflow checks), the client and the parser. Specification (Spec/Builds.lean): ordinary lines, and the same message in an unchecked build. The client depends on the build only through what `parse` makes of a line: a congruence over all calls (`Alike`), by induction over the loops; `parse` agrees by C03 and C04. For debug and release builds: positions below 2^32 do not overflow, so that the located tags and what they denote are the same; the typed message by C68, whose specification does not mention the build. Programs in debug and release builds: a second congruence (`Freed`) with a translation of results. |
| C118 | proved | On each connection the server gets the greeting and then the commands issued on it | Modelled: connect, send, recv and reconnect of the client model over any script of network answers, with the log of effects. Specification: `Since` (the life of a client, with the commands issued since the newest connection) and `Portions` (a beginning of each command's bytes, in order), `Verif/Spec/Issued.lean`. Proof: an invariant on the newest connection's transcript and the pending buffer, by induction over the life. For the earlier connections, including those a reconnect gave up: `Lives` lists for every connection the commands issued on it; just before a new connection is made the client is where it would be had its call been dropped there (`Proofs/Moments.lean`), so that the invariant applies to each. |
| C119 | proved | recv waits only when no complete line has arrived | Modelled: the reader poll by poll with its two buffers (`Model/Lines.lean`). Specification: `Receiving` (any sequence of polls on a connection, with the results so far and what the connection will do next), `Verif/Spec/Prompt.lean`. Proof: an invariant that splits what has arrived into returned lines, the part put aside and the buffer; a poll that is pending has emptied the buffer and found no line feed. |
| C120 | proved | Cut short, a call or a program has done a beginning of what it would have done | Modelled: every call over a script of answers at its await points; running out of answers is being dropped. Specification: `mortal` (a program in a process that ends when a call does not come back), `Verif/Spec/Cut.lean`. Proof: a congruence (`Cut`) over all constructs of the client: what is used is a beginning of the script, and another continuation changes nothing; for the loop of reconnect by induction, with the bound on rounds shown to be irrelevant. |
| C121 | proved | Receiving and sending do not interfere | Modelled: recv and the sending calls of the client model. Specification: `accounts` (what each call gave and what was seen of it), `Verif/Spec/Apart.lean`. Proof: sending neither reads nor changes whether the incoming stream has ended (a congruence, `Blind`), recv reads nothing else of the client and keeps the buffer; induction over the calls. |
| C122 | proved | A command sent again on a new connection is carried out once | Modelled: nothing new; the lives of a client of C118 (`Lives`) and programs of C117. Specification: `orders` (complete lines per connection except those of the introduction), `accepted`, `Careful`, `Arrive`, and the program `retrying`, `Verif/Spec/Retry.lean`. Proof: from C118 each connection carries copies of the greeting and portions of its commands; a proper beginning of a one-line command contains no line end, so only a last, failed command leaves an incomplete line. For the program: an invariant (what was accepted and what remains make up the list; after a failure nothing is sent until a reconnect succeeded) by induction over its calls. |
| C123 | proved | Switching on the 64-byte vectors would change nothing | Modelled: the vector type of avx512.rs as a further `Backend`, with `eq` and `movemask`, which would not type-check, read as in the other files (`Model/Avx512.lean`). Proof: it satisfies the laws (`Lawful`) on which the search and the tag parser rest, so the general theorems of C03 and C05 apply. |
| C124 | partial | The changelog task adds a section and takes nothing away | Modelled: `Changelog::run` with the processes it starts and the file it writes (`Model/Xtask.lean`): how a process ends is any function of the commands run so far, the disk takes the text in any pieces or refuses it, and every content the file has had is kept. Spec: commits, the entry for a commit, a section (`Spec/Xtask.lean`). Proof: the part before the write leaves the file alone (`LeavesFile`); induction over the commits and over the pieces. |
| C125 | proved | The other tasks run what they should and stop at the first failure | Modelled: `has_cargo_subcmd`, `Setup::run`, `Test::run` and `main` in the same model. Spec: a list of commands as lines, and commands run in order until one fails (`untilFailed`). Proof: induction over the lines (trimming a line gives its name and what follows) and over the commands. |
| C126 | proved | Messages saved as JSON text come back | Modelled: `serde_json::to_string`, with which the project tests its derives (`Model/Json.lean`). Spec: a reader of JSON after RFC 8259 (`Spec/Json.lean`). Proof: mutual induction over values, lists and entries that reading what is written, followed by anything that can follow a value, gives the value; then C50 and C67. serde_json refuses texts that are nested too deep: `nesting` (`Spec/JsonDepth.lean`) of what is serialised is at most four. A file that is cut off: reading is stable when more follows (`Proofs/JsonCut.lean`), so no proper beginning of an object is a JSON text. |
| C127 | partial | Channel names saved as JSON text come back | Modelled: the two `Deserialize` implementations of src/common/channel.rs over what serde_json hands to them, lent or copied (`Model/JsonStr.lean`). Spec: the JSON reader of C126. Proof: reading up to the first byte that needs an escape agrees with reading byte by byte (induction). The borrowed form: exact set of texts, and a witness that cannot be read back. |
| C128 | proved | A pong tells which ping it answers | Modelled: `ping`, the bytes on the wire, the reader and the typed parser (as in C36, C60, C21). Spec: a server that answers PING with PONG by the line grammar (`Spec/Pong.lean`), among any other lines. Proof: one line per command (C36), what one line gives (C21), induction over the pings. |
| C129 | proved | Messages can be put in order by their time | Model/Order.lean: the order of chrono's points in time. Spec/Sorted.lean: when a message was sent according to its line. C129_times from the exactness of the typed parsers (any two kinds); C129_texts by comparing the written dates part by part: an earlier day has an earlier date, digits of equal number compare as numbers, and the fraction of a whole second is not written. |

What is missing from a partial property is said in the note of `MANIFEST.json` and beside the theorem: in
every case the property as stated is false of the code, and the negation is proved.

## Axioms of each theorem

From `#print axioms` (all names in `Tmi.Props`).

**Quot.sound, propext** (112): `C01_negation_scalar`, `C04_negation`, `C06_load_whole`, `C105_endless`, `C105_greetings`, `C107_only`, `C107_secure`, `C108_exact`, `C108_negation`, `C108_partial`, `C109_which`, `C10_display`, `C10_parse_as_str_iff`, `C110_exceptions`, `C110_message`, `C110_raw`, `C116_count`, `C116_rest`, `C117_overflow`, `C120_call`, `C120_connect`, `C120_killed`, `C120_past`, `C121_apart`, `C121_order`, `C123_mask`, `C124_failed`, `C124_kept`, `C124_killed_negation`, `C124_moments`, `C124_nothing_new`, `C124_only_reads`, `C125_exit`, `C125_setup`, `C126_depth`, `C127_negation`, `C14_doc_negation`, `C15_negation`, `C15_owned_scalar`, `C16_negation`, `C18_unescape_escape`, `C20_sticky`, `C21_as_typed`, `C22_negation`, `C25_action`, `C26_fields`, `C30_negation`, `C31_emote_sets`, `C34_negation`, `C39_greeting`, `C39_token`, `C40_negation`, `C41_bound`, `C41_none`, `C41_should_retry`, `C42_bounded`, `C42_delays`, `C42_monotone`, `C42_overflow`, `C43_cancelled`, `C43_in_order`, `C43_quiet`, `C44_is_disconnect`, `C46_alternates`, `C50_negation`, `C51_global_user_state`, `C51_privmsg`, `C51_user_notice`, `C51_user_state`, `C51_whisper`, `C53_connect`, `C53_connect_run`, `C53_reconnect`, `C53_replies`, `C55_negation`, `C57_negation_user_state`, `C57_recoverable`, `C58_connect`, `C59_greeting_partial`, `C59_negation`, `C62_anonymous`, `C73_connect`, `C73_reconnect`, `C75_connect`, `C75_reconnect`, `C75_token`, `C75_token_reconnect`, `C76_agrees`, `C76_array`, `C77_reconnect`, `C78_count`, `C78_parse`, `C78_tag`, `C78_text`, `C78_unescape`, `C79_badges_partial`, `C80_tag`, `C81_disconnect_partial`, `C81_negation`, `C82_negation`, `C84_negation`, `C85_negation`, `C86_negation`, `C87_negation`, `C88_negation`, `C89_negation`, `C91_tight`, `C94_count`, `C94_parse`, `C94_plain`, `C94_typed`, `C99_answers`

**Classical.choice, Quot.sound, propext** (389): `C01_accessors_exact`, `C01_negation_129_tags`, `C01_negation_4GiB`, `C01_never_panics_partial`, `C01_parse_panics_iff`, `C02_any_length`, `C02_grammar`, `C02_negation_4GiB`, `C02_returned`, `C03_backends_agree`, `C04_scalar_simd_agree_iff`, `C04_scalar_simd_agree_partial`, `C05_find_first`, `C06_loads_safe`, `C06_no_fault`, `C07_clear_to`, `C07_first_match`, `C07_has_match`, `C08_tags_roundtrip`, `C09_tag_first`, `C100_greeting`, `C100_relayed`, `C100_understood`, `C101_tracks`, `C102_received`, `C102_reconnected`, `C103_exact`, `C103_ordinary`, `C104_crash`, `C104_program`, `C104_readable`, `C104_session`, `C105_buffer`, `C105_received`, `C106_closed_partial`, `C106_failed_partial`, `C106_left_partial`, `C106_negation`, `C106_negation_scalar`, `C106_occurs`, `C106_open_partial`, `C106_told_partial`, `C107_session`, `C10_as_str_parse_iff`, `C110_copied`, `C110_exactly`, `C111_each`, `C111_exactly`, `C111_negation`, `C111_one_channel_partial`, `C111_repeats`, `C111_understood`, `C112_exactly`, `C112_full_name`, `C112_lost`, `C112_negation`, `C112_reached_partial`, `C113_members`, `C114_accepted`, `C114_again`, `C114_bare`, `C114_same`, `C115_limit`, `C115_lines`, `C115_told`, `C115_understood`, `C115_unescaped`, `C117_differ`, `C117_portable`, `C117_processors`, `C117_program`, `C117_release`, `C117_typed`, `C118_complete`, `C118_every`, `C118_every_listed`, `C118_every_once`, `C118_issued`, `C118_lines`, `C118_once`, `C119_arrives`, `C119_buffered`, `C119_waits`, `C11_bang_in_host`, `C11_prefix`, `C122_arrived`, `C122_finished`, `C122_recovers`, `C122_retrying`, `C122_sent`, `C123_find_first`, `C123_same_tags`, `C124_added_partial`, `C125_found`, `C125_found_total`, `C125_setup_binary`, `C126_again`, `C126_cut`, `C126_different`, `C126_incomplete`, `C126_limit`, `C126_log`, `C126_message`, `C126_one_line`, `C126_parsed`, `C126_utf8`, `C126_value`, `C127_back_partial`, `C127_borrowed`, `C127_channel`, `C127_same`, `C127_value`, `C128_answered`, `C128_back`, `C128_which`, `C129_texts`, `C129_times`, `C12_command`, `C12_parsed`, `C13_channel`, `C13_parsed`, `C14_parsed`, `C14_text`, `C15_owned_parse`, `C16_exact`, `C16_rebuild_partial`, `C17_exact`, `C17_lookup_exact`, `C17_negation_panics`, `C17_negation_panics_reachable`, `C17_negation_reachable`, `C17_negation_truncated`, `C17_truncation`, `C17_whole_partial`, `C18_escape_safe`, `C19_agree_iff`, `C19_agree_partial`, `C19_total`, `C20_next_only_partial`, `C21_agrees`, `C21_dispatch`, `C21_message`, `C21_parsed`, `C21_reject`, `C22_exact`, `C22_no_panic_partial`, `C23_privmsg`, `C23_privmsg_required`, `C24_optional`, `C25_action_lines`, `C26_badges`, `C26_badges_roundtrip`, `C27_months`, `C27_parsed`, `C28_classify`, `C28_clear_chat`, `C28_required`, `C29_sender`, `C29_unknown`, `C29_user_notice`, `C30_overflow`, `C30_room_state_partial`, `C31_global_user_state`, `C31_user_state`, `C32_clear_msg`, `C32_join`, `C32_notice`, `C32_part`, `C32_ping`, `C32_pong`, `C32_whisper`, `C33_bool`, `C33_i64`, `C33_show`, `C33_timestamp`, `C33_u64`, `C33_u8`, `C34_leftovers`, `C34_one_call`, `C34_own_line_partial`, `C35_join`, `C35_ping_pong`, `C35_privmsg`, `C36_bytes`, `C36_negation`, `C36_one_line_iff`, `C36_one_line_partial`, `C37_send_raw`, `C38_idempotent`, `C38_names`, `C39_connect`, `C39_errors`, `C39_message`, `C39_success_iff`, `C40_clean_partial`, `C40_copies`, `C41_attempts`, `C41_panic`, `C41_reconnect`, `C42_never_panics`, `C42_panics`, `C43_line`, `C43_parses`, `C45_pong`, `C47_config`, `C47_credentials`, `C48_deserialize`, `C48_parse`, `C48_roundtrip`, `C48_text`, `C50_failure`, `C50_rfc3339_failure`, `C50_rfc3339_partial`, `C50_roundtrip_partial`, `C50_times`, `C53_connect_patience`, `C53_connect_returns`, `C53_reconnect_patience`, `C53_reconnect_returns`, `C53_reconnect_run`, `C54_glued`, `C54_negation`, `C54_pieces`, `C54_unaffected_partial`, `C55_exact`, `C55_hidden_partial`, `C55_records`, `C56_anonymous`, `C56_anonymous_distinct`, `C56_builder`, `C56_connect`, `C56_connect_anonymous`, `C56_default_delays`, `C56_default_reconnect`, `C56_privmsg`, `C57_exact`, `C57_global_user_state_partial`, `C57_listed_partial`, `C57_listed_total`, `C57_negation`, `C57_no_sub_plan_name`, `C57_no_system_message`, `C57_privmsg_partial`, `C57_total`, `C57_user_notice_partial`, `C57_whisper_partial`, `C58_calls`, `C58_session`, `C59_exact`, `C59_history`, `C60_chunks`, `C60_closed`, `C60_failed`, `C60_open`, `C60_script`, `C60_utf8`, `C61_chat`, `C61_commands`, `C62_basic`, `C62_before_next`, `C62_panic`, `C62_quick_start`, `C62_served`, `C62_session`, `C63_closed`, `C63_gives_up`, `C63_negation`, `C63_partial`, `C64_session`, `C65_next_line`, `C65_own_lines`, `C66_chunks`, `C67_again`, `C67_back`, `C67_exact`, `C67_missing`, `C67_offsets`, `C67_order`, `C67_refused`, `C67_rfc3339`, `C67_rfc3339_again`, `C67_times`, `C67_unknown`, `C68_message`, `C68_panics`, `C68_typed`, `C69_negation_prints`, `C69_panics`, `C69_same`, `C69_total_partial`, `C70_same`, `C70_types`, `C71_injective`, `C71_shows`, `C71_unique`, `C72_raw`, `C72_typed`, `C73_negation`, `C73_one_line`, `C73_panics`, `C73_tells`, `C73_total_partial`, `C74_calls_partial`, `C74_connect_exact`, `C74_connect_partial`, `C74_negation`, `C74_panics`, `C74_reconnect_exact`, `C76_defined`, `C77_channel`, `C77_config`, `C77_durations`, `C77_message`, `C77_raw`, `C77_raw_owned`, `C77_strings`, `C79_negation`, `C79_quadratic_negation`, `C80_command`, `C80_hash`, `C80_order`, `C80_tag_order`, `C82_dropped`, `C82_listed_partial`, `C82_sender_partial`, `C83_listed_partial`, `C83_names_partial`, `C83_negation`, `C83_no_space`, `C84_ban`, `C84_listed_partial`, `C84_timeout_partial`, `C85_empty`, `C85_listed_partial`, `C85_sets_partial`, `C86_listed_partial`, `C86_lost`, `C86_names_partial`, `C87_named_partial`, `C87_other_name`, `C87_unknown`, `C88_exact_partial`, `C89_gives_up`, `C89_transient_partial`, `C90_clear_chat`, `C90_clear_msg`, `C90_global_user_state`, `C90_listed`, `C90_privmsg`, `C90_room_state`, `C90_small`, `C90_user_notice`, `C90_user_state`, `C90_whisper`, `C91_listed`, `C91_order`, `C91_other_tags`, `C91_repeated`, `C91_same`, `C92_reply`, `C93_negation`, `C93_nonce_partial`, `C93_reply_partial`, `C95_clear_msg_text`, `C95_frame`, `C95_gap`, `C95_privmsg_name`, `C95_privmsg_reply_name`, `C95_privmsg_reply_text`, `C95_privmsg_text`, `C95_user_notice_name`, `C95_user_notice_system_message`, `C95_user_notice_text`, `C95_whisper_name`, `C95_whisper_text`, `C96_chat`, `C96_received`, `C96_told`, `C97_any`, `C97_distinct_partial`, `C97_negation`, `C97_quadratic_negation`, `C97_texts`, `C98_happened`, `C98_received`, `C98_told`, `C99_ends`, `C99_lifetime`, `C99_session`

**propext** (51): `C108_load`, `C109_negation`, `C109_opening`, `C109_partial`, `C109_text`, `C109_twice_negation`, `C10_names`, `C110_borrowed`, `C110_same`, `C11_shapes`, `C124_since_negation`, `C124_until_negation`, `C125_blank`, `C125_test`, `C127_reader`, `C15_accessors_partial`, `C19_negation`, `C20_negation`, `C27_data`, `C33_unique`, `C44_parse`, `C49_join`, `C51_action`, `C51_badge`, `C51_badge_data`, `C51_clear_chat`, `C51_clear_msg`, `C51_event`, `C51_join`, `C51_notice`, `C51_part`, `C51_ping`, `C51_pinned_chat`, `C51_pong`, `C51_reply`, `C51_room_state`, `C51_sub_gift_promo`, `C51_subscriber`, `C51_user`, `C52_from_str`, `C52_from_u8`, `C52_try_from`, `C55_logged`, `C69_owned`, `C70_total`, `C73_cause`, `C73_last`, `C73_recv`, `C76_reported`, `C80_channel`, `C87_variant`

**no axioms** (10): `C109_ends`, `C109_reconnect`, `C10_negation`, `C27_badge_roundtrip`, `C27_version_lost`, `C47_debug`, `C48_agree`, `C51_text`, `C73_send`, `C80_borrow`
