# mysql_cdc in Lean 4: design

The code under study is rusuly/mysql_cdc 0.2.1 in /repo. The Lean project is in `lean/`.
`properties.jsonl` lists the properties (C01 ...), `MANIFEST.json` maps each to theorem names,
`seeded/LOG.jsonl` logs the wrong programs tried against the theorems.

## Layout

* `Verif/Model/*`: the model, one definition per Rust function, each with the file and lines it models.
* `Verif/Spec/*`: small specifications written from the published formats and from set/list semantics. They do not
  import the model's functions, except for the plain data types events are made of.
* `Verif/Lemmas/*`: helper lemmas.
* `Verif/Props/*`: the property theorems and, beside each, an `example` that a concrete non-trivial case meets its hypotheses.

## Modelling conventions

* **Outcomes.** `Res α` is `ok a | err e | panic | hang`. `err` is a Rust `Result::Err` with its kind (constant error texts are
  kept; of texts that include values only the constant part is, except for errors reported by the server, of which code,
  message and SQL state are kept). `panic` is any Rust panic: index out of bounds, `unwrap`, arithmetic overflow with checks on,
  `capacity overflow` for `vec![0; n]` with `n > isize::MAX`, `unimplemented!`, byteorder's `assert!`s. `hang` is a loop
  that makes no progress and therefore never ends.
* **Integers** are `Nat` (or `Int` where signed) with the wrap-around or the panic written out at each place where the Rust
  code can overflow. `Mode.checks` says whether overflow checks are on (debug profile: panic; release: wrap). Theorems hold
  for both unless they say otherwise. `usize` is 64 bits.
* **Bytes** are `UInt8`, byte strings `List UInt8`.
* **Strings** are `List Char`; conversion from bytes is a model of `String::from_utf8` (`Model/Utf8.lean`), proved
  equivalent to Lean core's `String.utf8EncodeChar`.
* **Cursors.** A parser is a function of the (immutable) buffer and a position, returning a value and a new position. The
  position may lie beyond the end, as `Seek` allows. `while position < len` loops recurse on the remaining bytes; an
  iteration that does not advance is `hang` (`whileData_fuel` in Props/Safety proves this reading right against a step-by-step
  loop).
* **HashMap** is an association list with distinct keys; its order stands for the unspecified iteration order, and theorems
  whose result could depend on it are stated for every permutation.
* **Files and sockets.** A file is the list of its remaining bytes and what reading beyond them gives (the end, or another I/O error); both may
  change between calls (C102, C106). A connection is a script: the bytes the peer will send,
  the I/O error that comes after them (closed, timed out), what it sends after that and the error that comes then (and so on;
  with nothing further, the same error again), the bytes written so far, and how many bytes each `write` call accepts. That scripts are enough, also for a
  partner who decides what to send by what they are sent, is a theorem (`C133_any_peer`). Out of the model: real time, memory exhaustion (the sizes that decoding an event asks for are in `Model/Memory.lean`, those that reading asks for in `Model/ReadMemory.lean`; every request is granted), TLS (the code has none). What connecting
  to an address gives (an error or a connection) is a parameter (`Model/Network.lean`).
* **SHA-1, SHA-256, RSA** are parameters (arbitrary functions); theorems quantify over them.

## What of the code is modelled

Every function of every file under src/ has its definition in `Verif/Model`, apart from those named below the table.

| Rust (under src/) | Lean (under Verif/Model/) |
|-------------------|---------------------------|
| extensions.rs | Extensions, Utf8, Responses (`check_error_packet`), Commands (`encrypt_password`, `xor`) |
| constants/*, events/event_type.rs, metadata/metadata_type.rs, ssl_mode.rs, starting_strategy.rs, responses/response_type.rs | Constants |
| errors.rs | Basic (`Err`) |
| providers/mysql/gtid/* | MysqlGtid, GtidDisplay, Strings |
| providers/mariadb/gtid/* | MariaGtid, Strings |
| events/*.rs, providers/*/events/* | Events, EventParser |
| events/table_map_event.rs, metadata/* | TableMap |
| events/row_events/* | Cells, Rows |
| the buffers made while decoding an event (`vec![0; n]`, `Vec::with_capacity`) | Memory (the decoder once more with the sizes; `Erases` in Lemmas/Memory proves that it returns the same) |
| binlog_reader.rs, binlog_events.rs | Iterators |
| packet_channel.rs | Channel, Network |
| responses/*, commands/* | Responses, Commands |
| connect.rs, configure.rs, providers/mysql/mysql_provider.rs, providers/mariadb/mariadb_provider.rs, binlog_client.rs (`replicate`) | Session |
| binlog_client.rs (`new`, `commit`) | Client, Network |
| binlog_options.rs, replica_options.rs | Options |

Not modelled as definitions of their own: the `From` conversions of errors.rs (at each `?` the model names the resulting error), getters and
constructors that only copy fields, derived `Debug`/`Clone`, module files, the usage text of lib.rs.

## Trusted base

Lean 4.33.0's kernel and the axioms reported by `#print axioms` (at most `propext`, `Classical.choice`, `Quot.sound`).
No axiom is added; no `sorry`, `native_decide` or `bv_decide`. The tie from the model to the Rust text is by reading: each
definition cites its lines. The unit tests of the code,
transcribed, all hold of the model (Props/RepoTests). The behaviour of std, byteorder 1.4, hex 0.4 and of the servers is as described in the comments.

## Plan, property by property

| id | model | proof |
|----|-------|-------|
| C01–C04 | `UuidSet.addGtid`, `findIntervalIndex`, `collapseIntervals`, `GtidSet.addGtid`, Display | interval-list invariants; membership as a set of ids; uniqueness of canonical lists; binary-search invariant; induction over histories; sort of permutations |
| C05, C06 | `GtidSet.parse`, Display | split/join and number round-trips; C06 is false for a repeated UUID: counterexample and partial theorem |
| C07 | both `parse` | false: counterexamples; partial theorem saying exactly which texts cannot crash |
| C08, C09 | `Uuid.new/parse` | hex round-trip; C09 false: counterexample and partial theorem for lower-case text |
| C10, C11 | dump-gtid serializer, previous-gtids parser | wire spec decoder; round-trip by induction over servers and intervals |
| C12 | `Client.commit` | invariant key = uuid text, text determines data; false at id 2^64-1 with checks on: partial |
| C13–C16 | GtidList, MariaDB events | refinement to a map domain → GTID; round-trips |
| C17, C18 | `Client.commit` | stream grammar; induction over transactions and prefixes; C18 false for statements inside a transaction: counterexample and partial theorem |
| C19–C23 | `Client.commit` + abstract server log | history spec; induction; C23 false when row events share a table map: counterexample and partial theorem |
| C24, C25 | packet channel | framing round-trip; C25 false with short writes: counterexample and partial theorem |
| C26–C31 | iterators over a socket / a file | induction over packets/events; C29 false: counterexample and partial theorem |
| C32–C35 | `EventParser.parseEvent` | refinement to history functions |
| C36–C45 | event parsers | compositional round-trip relation `Parses p bytes value`; C37, C38 false: counterexamples and partial theorems |
| C46–C52 | cell, row, rows-event parsers | round-trips against wire encoders; decimal by digit-group induction |
| C53–C55 | responses, commands | round-trips |
| C56–C58 | auth | xor algebra for arbitrary hash functions; C57 false: counterexample; C58 noninterference |
| C59–C64 | session as a script-driven state machine | case analysis over the script; C61's failure clause is false: counterexample and partial theorem |
| C65–C73 | the same | Hoare-style and forward-execution rules for the session monad; C68, C73 false: counterexamples and partial theorems |
| C74–C76 | everything above | the relation `LogOf` (Spec/Written) says how a server writes a log; a decoder that `Knows` what was written so far decodes the rest; composition with C73, C26, C27, C17–C19, C60 |
| C77–C78 | GTID text parsers | the accepted language as a grammar (Spec/GtidGrammar); each part is an entry, an error or a crash, and the first part that is no entry decides |
| C79 | `Client.commit` over arbitrary event sequences | spec from the history alone (Spec/Recorded: which event finishes which GTID); induction from the end of the sequence |
| C80 | `check_error_packet`, `read_error` | the error carries the decoded packet; the Hoare rules of C59/C69 and C26 pass it on |
| C81 | all event decoders but row events | `Exact p R` (Lemmas/Exact): `p` succeeds exactly on the bytes `R` allows; one rule per combinator, one lemma per decoder; `Spec/Accepted` states the forms |
| C82 | row events, streams | `Exact` again, with the cached table as parameter; the cache is proper (one 16-bit metadata per column) because only accepted table maps enter it; streams by induction |
| C83 | packets of the server | `Exact` with a rule for strings up to a zero byte: with no zero left, all is taken and the last byte dropped |
| C84 | set-up conversation | spec: inductive stages of a conversation. Soundness: Hoare rules carrying the stage. Completeness: for each stage the program that is left; every step of the conversation is a step of it |
| C85 | failure of the set-up | spec: `Fails` (why a stage cannot go on), `Stops` (how the run ends there). Each `Fails` case is run with the program that is left at the stage; totality: at every stage the client fails, is complete, or goes on with less input |
| C86 | crashes and endless decoding | `Faults f p K`: parser `p` ends with fault `f` exactly for remaining bytes with `K`; one rule per way of putting parsers together, using `Exact` for what comes before the fault; streams by induction |
| C87 | with which error an event is refused | same rules as C86 with `Fault.error e`; `EndsOnly p` for parsers whose only error is the unexpected end |
| C88 | iterating over a file | one-step lemma by the fate of the event at the front (C81, C82, C86, C87), then induction over the calls, over the run, and over the length of the file |
| C89 | iterating over a connection | the same with packets |
| C90 | `replicate` and iterating | C84/C95 and C89 put together |
| C91 | two sessions with commits in between | C90, C19/C79 for what is recorded, and what a conversation says about the recorded place and GTIDs (induction over `At`) |
| C92 | texts of any length | induction over the parts and the intervals, on the grammar of C77/C78 (`Spec/GtidRefusal.lean`) |
| C93 | list of all requests | C84 (conversation), induction over the stages: the requests so far form a path of `Order`; the only path to the dump is `plan` |
| C94 | `GtidSet.addGtid`, `Client.commit`, all 64-bit ids | binary search finds the first interval not below the id; only the last interval of an ordered list reaches 2^64-1 |
| C95 | `setUp` over any sequence of write results | `Spec/Writes` says what a connection carries of packets; the stage reached by a conversation does not depend on it; a conversation up to some point is a conversation |
| C96 | `replicateVia` | C95 and `Channel.open` |
| C97 | `commit` over `Spec.Serve` | the server may have sent any part of the log behind a place; cut the log before the table maps in front of a row event |
| C98 | `add_gtid` over lists | keys of the map before and after |
| C99 | `BinlogEvents::next` on split payloads | `Spec.physical` cut into its first packet and the others |
| C100 | any sequence of `commit` and `replicate` | `replicate` leaves the client or restarts it (frame relations of set-up); C79/C19 for the commits of one session; induction over the calls |
| C101 | `BinlogEvents::next` after a failed read | a whole packet is handled without regard to what follows; a failed read only changes the connection; induction over packets and failures |
| C102 | calls of `BinlogReader::next` on a growing file | a complete record is handled without regard to what follows; an incomplete one is consumed; induction over calls and writes |
| C103 | `replicate`, iterator, `commit`, over many sessions with a server that reads the request and sends what it does not list | the request determines its sets (DumpRead); induction over sessions from C17, C100, C58 |
| C104 | the same with a MariaDB, which is told the recorded list in `@slave_connect_state` and sends what comes after it, domain by domain | the statement can be read in one way only; what is left to send after a session (Lemmas/Resume); induction over sessions from C18, C93, C100 |
| C105 | the same by file and position, with a server that reads the dump request and serves its log from the named place | the request determines file and position; reduction of the sessions to those of C21 with C97, C100 |
| C106 | calls of `BinlogReader::next`, file growing and failing between them | one call determined by what the bytes start with (C86, C87); induction over the history |
| C107 | GTID lists of MariaDB whose count word carries flags in its upper four bits | without flags from C16; with flags the claimed number of GTIDs needs more bytes than there are, and everything but the early end is ruled out (exactness, C01, C30, `EndsOnly`) |
| C108 | `Display` of one GTID, read back by `GtidSet::parse` and `GtidList::parse` | the printed GTID is the printed set of one transaction (C05, C15) |
| C109 | streams in which ordinary transactions are mixed with compressed ones (TRANSACTION_PAYLOAD_EVENT), tagged ones (GTID_TAGGED_LOG_EVENT) and ones that are both | induction over the parts as in C17; each part records at most one GTID and leaves at most one pending (`takenAfter_cons`), in any prefix |
| C110 | streams in which MariaDB transactions are mixed with compressed statements (QUERY_COMPRESSED_EVENT) | induction over the parts as in C18 |
| C111 | many sessions by MySQL GTIDs with a server that starts at the file and position of the request | the place of C21 (which does not depend on the mode) and what is recorded by C79; induction over sessions |
| C112 | row events with text in any character set, binary strings and negative times | the format of C41/C74 with any bytes as text; what each cell gives, and the first cell without a form decides over the event |
| C113 | statements in any character set, user variables of any type | the formats of C05 with any bytes as text; what an application that goes on after errors is handed, and with C109's streams what it records |
| C114 | rows after a table map of a newer server | the format of C44 with the columns VECTOR, VARCHAR COMPRESSED and BLOB COMPRESSED, with later metadata fields and with ENUM and SET values in any character set; C32 for the rows that follow |
| C115 | decoding an event asks for memory in proportion to its bytes | an allowance for each type of event in terms of its bytes and of the columns of the table it names; all requests, but for a last one that the bytes do not suffice for, add up to no more |
| C116 | nothing of a row is lost | rows as the bytes the server holds; two events decode to the same event if and only if they hold the same bytes, up to what is below a millisecond |
| C117 | a copy of the data is a state of the server's data | C103 with the events of the transactions; an application that applies whole transactions (Spec/Copy), over any data type |
| C118 | reading asks for memory in proportion to what there is to read | the reading functions with the sizes of their buffers (Model/ReadMemory), for any number of calls |
| C119 | a copy of the data of a MariaDB is a state of the server's data | C117 with C104; the application knows single statements by the flags of the GTID event |
| C120 | a copy of the tables kept from the row events shows the server's tables | `Spec/Tables.lean`: a server with tables (bags of stored rows) that logs its changes, and a reader that applies the decoded events; every record is decoded or refused exactly as C112 says, and bags of rows are mirrored through `RowShown` |
| C121 | over broken sessions, a copy of the tables shows the server's tables at some transaction | C117 with the copy of C120; `Spec.History`: the records of a transaction are the written form of its events and what the server writes when it changes its tables |
| C122 | the same with a MariaDB | C119 with the copy of C120 |
| C123 | over broken sessions by file and position, a copy of the tables shows the server's tables at the recorded place | C105 with the copy of C120: a table map that comes again gives the same names |
| C124 | a copy of the tables is kept also from row images that do not show all columns | `Spec.PartChange`: as `Change`, with MINIMAL or NOBLOB images; the decoded bitmaps say which cells an image has, C112 that they are the stored ones, C116 that key cells are equal only for equal keys |
| C125 | after any broken sessions and failed attempts, one whole session brings a copy of the data or of the tables up to date (MySQL GTIDs; file and position) | C117/C121/C123 for the history before, C74-style completeness of the last session (`LetsIn`, `LogOf`, `Knows.stream`), C17 for what is recorded |
| C126 | the same with MariaDB GTIDs | C119 and C104 for the history, C18 for what is recorded |
| C127 | an application that stops at errors never gets past the first transaction with a refused record; it gets all before it | C112, C113 for one record; the records as the events of an ideal log up to the error, then C17 and the history of C103 (`taken_each_once`); by file and position the refused records count as table maps, whose commit does nothing, then C105; with a MariaDB C18 and the history of C104 (`takenMarias_each_once`) |
| C128 | an application that passes over errors gets every transaction once, without the refused records, which never come again | the same with the records that show events |
| C129 | with and without overflow checks the same happens, unless there is a panic with them | a relation between outcomes that all the code constructs keep (`SameP`, `SameS`), then the three places where the profile matters (`addU`, `subU`, the exponent of a fraction) |
| C130 | the order of hash maps makes no difference | a relation "the same but for the order" on every data type (`Spec/MapOrder`), kept by every function; runs in which the maps may be rearranged at every call (`Shuffled`) against the run of the model |
| C131 | transactions may be committed in any order, and again | `commitAll` of whole transactions is `addAll` of their GTIDs, then C04 and C03 |
| C132 | tables are decoded apart from each other | `AgreeOff`: decoders that may differ in the maps of some tables |
| C133 | what the client does depends on what it has been sent so far; every partner that answers amounts to a script | `Causal`: running set-up code with more input; a fixed point after at most 16 rounds |
| C134 | committing only the end of a transaction: false by GTID (`C134_last_alone_false`), true by position; first and last event are enough for all | commits of the events in between change only position, flag and (MariaDB) the list in a way the end repeats |
| C135 | an application that commits first and last events gets every MariaDB transaction once, also those with statements inside (where C104 is false) | what is committed are the first events of a stream of quiet transactions with the same GTIDs; then C104's proof |
| C136 | so does one that gathers whole transactions, applies them and then commits first and last events; its copy is exact (where C119, C122, C126 are false) | the same, without the events between transactions |
| C137 | commits that lag behind what was applied: transactions come again from the first one not recorded, none is left out; harmless if transactions overwrite | single steps of C103/C104; each place holds a value since the recorded position (`Redelivered.places`) |
| C138 | tables kept by keys stay exact for an application that may stop between applying and committing | keyed writes overwrite; with unique keys they are an index of the bags of C120; then C137 |
| C139 | by file and position, with commits that lag behind: every event comes, some again; a copy by keys stays exact | `served_step` (C105) for the committed part of a session; what an event says of rows depends only on the table maps of its session, since the decoder knows tables only from there; then the overwriting argument of C137 event by event |
| C140 | killed and started again from the printed GTIDs: no transaction is lost, copies by keys stay exact | the recorded set stays printable (`lagging_keeps`), so its text gives the same transactions back (`printable_parse`, C15); `Redelivered.trans` joins the runs of C137 over restarts |
| C141 | texts saved now and then, also in the middle of sessions; going back to an older one is safe if the newer ones are thrown away | the saved texts stand at fewer and fewer transactions (`Stack`); a place that is given again holds a value since the recorded one (`SinceDone.run`); by file and position the same of what the events say of rows (`SinceChanges.run`), since table maps that were committed last may come again (`recorded_mono`) |
| C142 | a decoded row event is in proportion to its bytes | from the accepted forms (C82), value by value: content at most eight times the bytes of a value, cells at most eight times the bytes of the NULL bitmap; a row event whose images show one column of `8 * j` shows that nothing holds for absent columns |
| C143 | decoded events other than row events are in proportion to their bytes | from the accepted forms (C81), part by part; signedness and visibility have at most one bit for each column, repeated fields replace each other; the cache of table maps by induction over the events |
| C144 | a copy of chosen tables by keys stays exact whatever happens to the others | changes of other tables leave the bags of the chosen ones alone; the rest as C138, with C137 for the reader that leaves the others out; by file and position as C139; with older saved places as C141 |
| C145 | setting up replication sends at most 13 packets, and how many by the options | by the steps (`SendsAtMost` of C133), with what the options say of later steps; asking for encryption does not return; a server that draws out the log-in reaches each number |

Nothing in the list is outside what a model can express; where the runtime matters (timeouts, memory, partial writes) the
logic is modelled and the rest is named in the theorem's comment.

## Where the code and the properties disagree

Each of these is a theorem about the model with a concrete witness, next to a `_partial` theorem for what does hold.

| id | what goes wrong | theorem |
|----|-----------------|---------|
| C06 | a GTID text naming a server twice keeps only the last entry; an interval up to 2^64-1 followed by another one crashes or is mangled | `C06_repeated_server_false`, `C06_after_the_top_false` |
| C07 | short uuids, a lone newline, MariaDB GTIDs with fewer than two dashes panic; with checks on also an interval ending at 2^64-1 | `C07_malformed_text_panics_false` |
| C09 | an upper-case uuid in the configured set gets a second entry when an event of that server is committed | `C09_upper_case_false` |
| C12 | with overflow checks on, `commit` panics when the recorded set holds id 2^64-1 of the transaction's server | `C12_max_id_false`; exactly when: `C94_commit_panics_iff` |
| C18 | a statement inside a MariaDB transaction records its GTID before the transaction ends | `C18_statement_in_transaction_false` |
| C19 | rotate positions from 2^32 on are cut to 32 bits | `C19_large_position_false` |
| C23 | with several row events behind one table map, a crash after the first resumes at the second, whose table map is not sent again | `C23_second_rows_event_false` |
| C25 | `write_packet` ignores how much of the payload the last `write` took; a length is cut to 32 bits before it is checked | `C25_false_short_write`, `C25_false_long_packet` |
| C29 | the end-of-file error of a payload that is too short for its event type ends the iteration in the middle of the file | `C29_false` |
| C36 | with overflow checks on, a format description event whose length is 0..18 modulo 256 (a server with 180 or more event types) panics: `event_length as u8 - 19` underflows | `C36_long_event_false` |
| C37 | panics: fewer than four bytes in a CRC32 stream, a format description length below 19 modulo 256 (checks on), a previous-GTIDs interval ending at 0 (checks on), an announced length of 2^63 or more, column metadata no server sends, a row event announcing fewer columns than its table map | `C37_false` |
| C38 | a row event that includes no column but has bytes left is decoded for ever | `C38_false` |
| C48 | YEAR 0000 (stored as byte 0) is reported as 1900 | `C48_year_zero_false` |
| C54 | a text row with a NULL cell (byte 0xFB) is rejected as a malformed length | `C54_null_cell_false` |
| C57 | the fast-path response hashes `scramble ‖ stage2`, the server expects `stage2 ‖ scramble` (so every log-in takes the full path); refuted with SHA-256 itself, defined in Spec/Auth from FIPS 180-4 | `C57_fast_path_false` |
| C61 | the file name is recorded before the position is parsed: a master position of 4 GiB or more (or not a number) makes `replicate` fail with the file name changed and the old position kept, and later calls start there | `C61_failure_false` |
| C62 | an interval below a millisecond is asked for as the period 0, which switches heartbeats off; an interval within ten seconds of the largest `Duration` panics | `C62_false`, `C62_longest_interval_panics` |
| C65 | with an interval reaching 2^64-1, `add_gtid` panics (checks on) or destroys the interval (checks off) | `C01_bound_needed`; exactly when: C94 |
| C66 | an account without a password is sent a 20-byte response, which the server refuses | `C66_empty_password_false` |
| C67 | the GTID of an XA transaction is recorded at `XA START`, before its changes | `C67_xa_recorded_early_false` |
| C68 | packets of one payload are not put together: of an event of 16 MiB the first packet is decoded as if it were the event | `C68_false` |
| C69 | packets in the place of column definitions are skipped without looking for an error packet | `C69_false` |
| C70 | an empty packet, a result set without rows and a one-byte answer to the log-in all panic (index out of bounds); `C70_crash_reasons` lists every reason there is | `C70_empty_packet_panics`, `C70_false`, `C70_other_reasons_false`, `C70_checked_reasons_false` |
| C72 | when the server accepts the `caching_sha2_password` hash (01 03), its OK packet is left unread and taken for the answer to the next command | `C72_false`, `C72_hash_leaves_ok` |
| C73 | when an OK packet answers the response to a switch request to `caching_sha2_password`, the client takes it for a request for the password and the next answer for a key. (The OK packet of C72 does no harm: the next result set makes up for it.) | `C73_false` |
| C101 | a read that fails in the middle of a packet throws away what was read of it; what comes then is taken for the start of a packet, so text inside an event can be delivered as an event of its own | `C101_false`; exactly: `C101_exact` |
| C102 | a call of `next` while an event is being written throws away what was there of it; the next call takes the rest for an event | `C102_false`; exactly: `C102_cut_out` |
| C104 | a MariaDB transaction with a statement before its end is recorded at that statement; if the application stops there, the transaction is lost over the reconnection | `C104_false` |
| C107 | the flags of a MariaDB GTID list are taken for a part of its length; the list is refused as if the bytes had ended, and the file reader stops there | `C107_false` |
| C109 | compressed transactions of MySQL 8 (and those with tagged GTIDs of 8.3) are not recorded with their own events, so they come again in every session; a compressed one is recorded only if an uncompressed tagged one follows | `C109_false`, `C109_never_recorded`, `C109_mixed_partial` |
| C110 | compressed statements of MariaDB are not recorded; the list names an earlier GTID of the domain until the next ordinary transaction | `C110_false`, `C110_never_recorded` |
| C111 | a request by MySQL GTIDs also names the recorded file and position; a server that starts there resumes behind the GTID event of a transaction that was cut, which is then never recorded | `C111_false`, `C111_cut_never_recorded` |
| C112 | one text value that is not UTF-8, or one negative TIME, makes the library refuse the whole event, with all its rows | `C112_false` |
| C113 | a statement that is not UTF-8 is refused; if it is a transaction of its own, the transaction is never recorded. Integer values of user variables are read as text | `C113_false` |
| C114 | a refused table map leaves an older one with the same number in use, and the rows of the new table are decoded with the columns of the old one | `C114_false` |
| C115 | a buffer of the announced size is made before its bytes are known to be there: 17 bytes ask for any size below 2^63 | `C115_false` |
| C142 | absent columns get a cell each in every row: `8 * j * j` cells from `2 * j + 17` bytes | `C142_false`, `C142_no_factor` |
| C116 | times with four to six fractional digits lose what is below a millisecond: two different values are decoded to the same one | `C116_false` |
| C118 | a buffer of the announced size, up to 4 GiB, is made before the file is known to be that long | `C118_false` |
| C119 | as C18 and C104: the copy loses a transaction that has a statement before its last event | `C119_false` |
| C122 | as C119: the copy stays without the rows of a transaction that sets a savepoint, when the application stops behind that statement | `C122_false` |
| C124 | keys of type DATETIME(6), TIMESTAMP(6) or TIME(6) that differ below a millisecond: the event does not say which row is meant | `C124_false` |
| C126 | transactions with a statement before their last event: recorded too early, so no session brings the rest | `C126_false` |
| C127 | the first unrecorded transaction with a record the library refuses, and all behind it | `C127_false`, `C127_never_past`, `C127_file_false`, `C127_file_never_past`, `C127_mariadb_false`, `C127_mariadb_never_past` |
| C128 | records the library refuses: their transaction is recorded without them | `C128_false`, `C128_lost_for_good`, `C128_file_false`, `C128_file_lost_for_good`, `C128_mariadb_false`, `C128_mariadb_lost_for_good` |
| C131 | MariaDB lists and file positions: the last commit (of a domain) counts, so a transaction committed before an earlier one hides it or is sent again | `C131_mariadb_any_order_false`, `C131_position_any_order_false` |
| C134 | committing only the last event of each transaction by GTID: the GTID event has to be committed as well, otherwise nothing is recorded | `C134_last_alone_false`, `C134_nothing_recorded` |

Change of wording: C01–C04 first quantified over every GTID. The proof attempt showed them false at id 2^64-1, which no server
issues (ids end at 2^63-2). Their quantifiers were narrowed to ids below 2^64-1, and the unrestricted claim was added as C65,
which is false of the code.
