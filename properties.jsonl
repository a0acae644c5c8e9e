{"id": "C01", "title": "Adding a MySQL GTID adds exactly that transaction", "statement": "After GtidSet::add_gtid(g) on a set whose intervals are ordered and disjoint, the set of (server uuid, transaction id) pairs the GtidSet stands for is the old set plus g: nothing else appears and nothing disappears.", "quantifier": "every ordered set, every GTID with an id below 2^64-1 (MySQL ids end at 2^63-2), every finite history of add_gtid calls, both overflow-check build profiles", "why_tests_cant": "Interval splitting/merging depends on the relative order of the new id and arbitrarily many intervals; tests sample a few layouts.", "anchors": ["src/providers/mysql/gtid/gtid_set.rs: GtidSet::add_gtid", "src/providers/mysql/gtid/uuid_set.rs: UuidSet::add_gtid, find_interval_index, collapse_intervals"]}
{"id": "C02", "title": "MySQL GTID sets stay in canonical form", "statement": "Starting from an empty or canonical GtidSet, after any history of add_gtid calls every interval list is sorted, its intervals are non-empty, disjoint and separated by at least one missing id (nothing left to merge), and each server uuid has one entry.", "quantifier": "every history of add_gtid calls with ids below 2^64-1", "why_tests_cant": "The invariant must survive every history, including joins of two intervals in the middle of a long list.", "anchors": ["src/providers/mysql/gtid/uuid_set.rs: UuidSet::add_gtid, collapse_intervals", "src/providers/mysql/gtid/gtid_set.rs: GtidSet::add_gtid"]}
{"id": "C03", "title": "add_gtid reports whether the GTID was new", "statement": "GtidSet::add_gtid returns Ok(true) exactly when the transaction was not yet in the set, and Ok(false) leaves the set unchanged.", "quantifier": "every canonical set and every GTID with an id below 2^64-1", "why_tests_cant": "Depends on a binary search over lists of any length.", "anchors": ["src/providers/mysql/gtid/uuid_set.rs: UuidSet::add_gtid, find_interval_index"]}
{"id": "C04", "title": "The recorded MySQL GTID position does not depend on arrival order", "statement": "Two histories of add_gtid calls containing the same transactions (any order, any duplication) give GtidSets with the same to_string(), whatever order the hash map iterates in.", "quantifier": "every pair of histories with the same set of GTIDs (ids below 2^64-1); every hash-map iteration order", "why_tests_cant": "Factorially many orders and randomised hash seeds.", "anchors": ["src/providers/mysql/gtid/gtid_set.rs: GtidSet::add_gtid, Display"]}
{"id": "C05", "title": "A MySQL GTID set survives printing and parsing", "statement": "GtidSet::parse(s.to_string()) succeeds and stands for the same transactions, with the same text, for every canonical set s.", "quantifier": "every canonical GtidSet with at least one interval per server", "why_tests_cant": "Unbounded sets and 64-bit numbers.", "anchors": ["src/providers/mysql/gtid/gtid_set.rs: GtidSet::parse, Display", "src/providers/mysql/gtid/uuid_set.rs: Display", "src/providers/mysql/gtid/interval.rs: Display"]}
{"id": "C06", "title": "Parsing GTID text keeps everything that was written", "statement": "For text listing uuid:interval:interval,... (with any spaces around the parts and any newlines) GtidSet::parse yields a set standing for the union of all listed intervals.", "quantifier": "every well-formed GTID text", "why_tests_cant": "Unbounded text; layouts with repeated servers are rarely tested.", "anchors": ["src/providers/mysql/gtid/gtid_set.rs: GtidSet::parse"]}
{"id": "C07", "title": "Malformed GTID text is reported, not a crash", "statement": "GtidSet::parse and GtidList::parse return Ok or Err for every string; they never panic.", "quantifier": "every string", "why_tests_cant": "Only finitely many malformed strings can be tried.", "anchors": ["src/providers/mysql/gtid/gtid_set.rs: GtidSet::parse", "src/providers/mysql/gtid/uuid.rs: Uuid::parse", "src/providers/mariadb/gtid/gtid_list.rs: GtidList::parse"]}
{"id": "C08", "title": "Server UUIDs survive the binary/text conversion", "statement": "The text of a 16-byte server id parses back to the same 16 bytes, is 36 characters of lower-case hex in 8-4-4-4-12 groups, and different ids have different texts.", "quantifier": "all 2^128 server ids", "why_tests_cant": "2^128 values.", "anchors": ["src/providers/mysql/gtid/uuid.rs: Uuid::new, Uuid::parse, Display"]}
{"id": "C09", "title": "A server UUID means the same server whatever its letter case", "statement": "If the configured GtidSet names a server with upper-case hex digits, committing an event of that server extends that server's entry: the set still has one entry per server.", "quantifier": "every GtidSet text and every GTID event", "why_tests_cant": "Tests use lower-case UUIDs only.", "anchors": ["src/providers/mysql/gtid/uuid.rs: Uuid::parse, Uuid::new", "src/providers/mysql/gtid/gtid_set.rs: GtidSet::add_gtid"]}
{"id": "C10", "title": "The GTID dump request tells the server exactly the recorded set", "statement": "A COM_BINLOG_DUMP_GTID packet, decoded by the published format, has the given server id, file name and position, a data length equal to the number of bytes that follow, and lists exactly the recorded transactions as half-open intervals.", "quantifier": "every GtidSet within u64/u32 wire limits, every hash-map order", "why_tests_cant": "Unbounded sets.", "anchors": ["src/commands/dump_binlog_gtid_command.rs: DumpBinlogGtidCommand::serialize", "src/providers/mysql/mysql_provider.rs: replicate_mysql"]}
{"id": "C11", "title": "PreviousGtidsEvent reports exactly the encoded set", "statement": "Decoding a previous-gtids payload that encodes a GTID set yields that set (closed intervals), for any number of servers and intervals; and it inverts what the dump request writes.", "quantifier": "every encodable set", "why_tests_cant": "Unbounded nesting of counts.", "anchors": ["src/providers/mysql/events/prev_gtids_event.rs: PreviousGtidsEvent::parse"]}
{"id": "C12", "title": "commit() never crashes on a stream", "statement": "BinlogClient::commit never panics: recording the GTID of a finished transaction always succeeds.", "quantifier": "every client state reached by replicate()/commit() from options built by the public constructors, every event stream", "why_tests_cant": "Needs an invariant tying map keys to uuids over the whole history.", "anchors": ["src/binlog_client.rs: BinlogClient::commit, commit_gtid", "src/providers/mysql/gtid/uuid_set.rs: UuidSet::add_gtid"]}
{"id": "C13", "title": "MariaDB position is the last GTID of each domain", "statement": "After any history of GtidList::add_gtid calls the list maps each domain to the last GTID added for it and leaves other domains as they were; add_gtid returns true exactly for a new domain.", "quantifier": "every list with distinct domains, every history", "why_tests_cant": "Histories are unbounded.", "anchors": ["src/providers/mariadb/gtid/gtid_list.rs: GtidList::add_gtid"]}
{"id": "C14", "title": "MariaDB position has one GTID per domain", "statement": "GtidList::parse accepts no text with a repeated domain id, and add_gtid keeps domain ids distinct for ever.", "quantifier": "every text, every history", "why_tests_cant": "Unbounded.", "anchors": ["src/providers/mariadb/gtid/gtid_list.rs: GtidList::parse, GtidList::add_gtid"]}
{"id": "C15", "title": "A MariaDB GTID list survives printing and parsing", "statement": "GtidList::parse(l.to_string()) = l for every list with distinct domains; spaces around and newlines inside the text do not matter.", "quantifier": "every GtidList with u32/u32/u64 fields", "why_tests_cant": "Unbounded.", "anchors": ["src/providers/mariadb/gtid/gtid_list.rs: GtidList::parse, Display", "src/providers/mariadb/gtid/gtid.rs: Display"]}
{"id": "C16", "title": "MariaDB GTID events are decoded faithfully", "statement": "The GTID of a MariaDB GTID event is (domain from payload, server id from the event header, sequence from payload); a GTID list event yields exactly the listed GTIDs in order.", "quantifier": "every payload", "why_tests_cant": "Full 32/64-bit ranges and any list length.", "anchors": ["src/providers/mariadb/events/gtid_event.rs: GtidEvent::parse", "src/providers/mariadb/events/gtid_list_event.rs: GtidListEvent::parse"]}
{"id": "C17", "title": "MySQL: recorded GTIDs are exactly the finished transactions", "statement": "While streaming from a GTID set, after committing any prefix of a stream of transactions (GTID, BEGIN, events, XID/COMMIT/ROLLBACK, or GTID and one auto-commit statement) the recorded set is the initial set plus the GTIDs of the transactions whose last event was committed: never a transaction still in progress.", "quantifier": "every stream, every prefix (crash point)", "why_tests_cant": "Every crash point of every stream.", "anchors": ["src/binlog_client.rs: BinlogClient::commit, update_gtid_position, commit_gtid"]}
{"id": "C18", "title": "MariaDB: recorded GTIDs are exactly the finished transactions", "statement": "Same as C17 for MariaDB streams, in which a transaction opens with its GTID event and has no BEGIN statement.", "quantifier": "every stream, every prefix", "why_tests_cant": "Every crash point of every stream.", "anchors": ["src/binlog_client.rs: update_gtid_position, commit_gtid"]}
{"id": "C19", "title": "Recorded file name and position follow the stream", "statement": "After committing any stream prefix, the recorded file name is that of the last rotate event and the recorded position is that of the last later event that carries one (zero and TableMap events do not move it).", "quantifier": "every event sequence, every prefix", "why_tests_cant": "Unbounded histories.", "anchors": ["src/binlog_client.rs: update_binlog_position"]}
{"id": "C20", "title": "Only GTID replication touches the GTID position", "statement": "With any other starting strategy commit() never changes gtid_set or gtid_list, and commit() never changes any option other than file name, position and GTID position.", "quantifier": "every event sequence", "why_tests_cant": "Unbounded histories.", "anchors": ["src/binlog_client.rs: BinlogClient::commit"]}
{"id": "C21", "title": "Reconnecting by file position loses no event", "statement": "For a binlog of any number of files, committing events one by one and reconnecting at the recorded file/position after a crash at any point makes the server send every event that was not committed, in order; only the table-map events just before it can come twice.", "quantifier": "every log, every crash point", "why_tests_cant": "Every crash point.", "anchors": ["src/binlog_client.rs: update_binlog_position, replicate", "src/commands/dump_binlog_command.rs"]}
{"id": "C22", "title": "Reconnecting by GTID loses and repeats no transaction", "statement": "With MySQL GTID replication, after a crash at any point the server is asked for exactly the transactions whose final event was not committed.", "quantifier": "every stream of distinct transactions, every crash point", "why_tests_cant": "Every crash point.", "anchors": ["src/binlog_client.rs: BinlogClient::commit", "src/providers/mysql/mysql_provider.rs"]}
{"id": "C23", "title": "Row events are decodable after reconnecting", "statement": "After a crash at any point and reconnecting at the recorded position, every row event that is sent again is preceded by its table map.", "quantifier": "every log, every crash point", "why_tests_cant": "Every crash point; row events sharing one table map are easy to miss.", "anchors": ["src/binlog_client.rs: update_binlog_position", "src/events/row_events/row_parser.rs: TABLE_MAP_NOT_FOUND"]}
{"id": "C24", "title": "Packet framing is lossless", "statement": "Whatever packets (shorter than 16 MiB) are written to a connection are read back by the peer as the same payloads and sequence numbers in the same order, whatever bytes follow.", "quantifier": "every sequence of packets", "why_tests_cant": "All payloads and lengths up to 2^24-1, any number of packets.", "anchors": ["src/packet_channel.rs: PacketChannel::read_packet, write_packet"]}
{"id": "C25", "title": "A packet is sent whole", "statement": "write_packet returning Ok means every byte of the packet was handed to the connection, even if the operating system accepts writes only partly; a packet too long for the 3-byte length is refused.", "quantifier": "every payload, every pattern of partial writes", "why_tests_cant": "Short writes depend on kernel buffering.", "anchors": ["src/packet_channel.rs: PacketChannel::write_packet"]}
{"id": "C26", "title": "The live event iterator delivers every event once, in order", "statement": "From a stream of event packets the iterator yields one item per packet, in order, an error item for a server error packet, and ends exactly at the end-of-file packet.", "quantifier": "every sequence of packets", "why_tests_cant": "Unbounded streams.", "anchors": ["src/binlog_events.rs: BinlogEvents::next, read_event, read_error"]}
{"id": "C27", "title": "The file reader delivers every event once, in order", "statement": "For a file made of the magic number and any sequence of decodable events, iteration yields exactly those events in order and then ends, whatever their sizes (below or above the internal buffer).", "quantifier": "every event sequence", "why_tests_cant": "Unbounded files, every payload size.", "anchors": ["src/binlog_reader.rs: BinlogReader::new, read_event, next"]}
{"id": "C28", "title": "A truncated file yields the complete events before the cut", "statement": "Cutting a well-formed file at any byte after the magic number makes the reader yield exactly the events that are entirely before the cut and then end without error.", "quantifier": "every file, every cut point", "why_tests_cant": "Every cut point.", "anchors": ["src/binlog_reader.rs: BinlogReader::next"]}
{"id": "C29", "title": "The file reader ends only at the end of the file", "statement": "BinlogReader's iterator returns None only when the file has no further complete event.", "quantifier": "every file", "why_tests_cant": "Needs one malformed event in the middle of a file.", "anchors": ["src/binlog_reader.rs: BinlogReader::next"]}
{"id": "C30", "title": "One undecodable event does not desynchronise the reader", "statement": "After any item, including an error item for an undecodable payload, the next read starts at the next event's header as given by the event length.", "quantifier": "every file, every payload content", "why_tests_cant": "All payload contents.", "anchors": ["src/binlog_reader.rs: BinlogReader::read_event"]}
{"id": "C31", "title": "Only binlog files are opened", "statement": "BinlogReader::new succeeds exactly for files starting with fe 62 69 6e.", "quantifier": "every file content", "why_tests_cant": "All contents.", "anchors": ["src/binlog_reader.rs: BinlogReader::new"]}
{"id": "C32", "title": "Row events use the latest table map of their table", "statement": "A row event is decoded with the most recent successfully decoded table map that has its table id, whatever other tables were mapped in between; without one it is rejected with an error.", "quantifier": "every history of events", "why_tests_cant": "Unbounded interleavings of tables.", "anchors": ["src/events/event_parser.rs: EventParser::parse_event", "src/events/row_events/row_parser.rs: parse_row_data_list"]}
{"id": "C33", "title": "Checksums are stripped and otherwise ignored", "statement": "When the stream's checksum type is CRC32 the last four bytes of each event are not part of the decoded event, and the result does not depend on them; the checksum type in force is the one of the last format description event, else the initial one.", "quantifier": "every event, every checksum value, every history", "why_tests_cant": "All payloads and histories.", "anchors": ["src/events/event_parser.rs: EventParser::parse_event", "src/constants/checksum_type.rs"]}
{"id": "C34", "title": "Unknown event types are delivered as unknown, not as errors", "statement": "An event whose type code the library does not decode yields UnknownEvent for any payload and changes nothing in the decoder.", "quantifier": "every type code outside the supported list, every payload", "why_tests_cant": "All payloads.", "anchors": ["src/events/event_parser.rs: EventParser::parse_event", "src/events/event_type.rs: EventType::from_code"]}
{"id": "C35", "title": "A rejected event leaves the decoder as it was", "statement": "If decoding an event returns an error, later events are decoded as if it had never been there.", "quantifier": "every decoder state, event and continuation", "why_tests_cant": "All malformed payloads.", "anchors": ["src/events/event_parser.rs: EventParser::parse_event"]}
{"id": "C36", "title": "Format description events are decoded faithfully", "statement": "Binlog version, server version text and checksum algorithm are recovered from any v4 format description event, with or without the checksum trailer and for any number of event types.", "quantifier": "every server version string, every event-type count that fits, both build profiles", "why_tests_cant": "Depends on byte-size arithmetic modulo 256.", "anchors": ["src/events/format_description_event.rs: FormatDescriptionEvent::parse"]}
{"id": "C37", "title": "Bytes from the network or a file never crash the process", "statement": "Decoding an event returns Ok or Err for every byte string; it never panics.", "quantifier": "every header and payload, every decoder state, both build profiles", "why_tests_cant": "All byte strings.", "anchors": ["src/events/event_parser.rs: EventParser::parse_event"]}
{"id": "C38", "title": "Decoding always terminates", "statement": "Decoding an event terminates for every byte string.", "quantifier": "every header and payload", "why_tests_cant": "Non-termination cannot be observed by finite tests.", "anchors": ["src/events/row_events/row_parser.rs: parse_row_data_list, parse_update_row_data_list"]}
{"id": "C39", "title": "Event headers are decoded faithfully", "statement": "EventHeader::parse recovers the six fields of any 19-byte header and rejects anything shorter.", "quantifier": "all headers", "why_tests_cant": "2^152 values.", "anchors": ["src/events/event_header.rs: EventHeader::parse"]}
{"id": "C40", "title": "Length-encoded integers and strings are decoded faithfully", "statement": "Every 64-bit integer in any of the four length-encoded forms is recovered; 0xFB and 0xFF are rejected; length-encoded strings are recovered.", "quantifier": "all integers and encodings", "why_tests_cant": "2^64 values.", "anchors": ["src/extensions.rs: read_len_enc_num, read_len_enc_str"]}
{"id": "C41", "title": "Bitmaps are decoded bit by bit", "statement": "Each of the three bitmap readers returns exactly the requested number of bits, bit i being the bit the format says, and ignores padding bits.", "quantifier": "every bit count and bitmap", "why_tests_cant": "Unbounded sizes.", "anchors": ["src/extensions.rs: read_bitmap_little_endian, read_bitmap_big_endian", "src/metadata/table_metadata.rs: read_bitmap_reverted"]}
{"id": "C42", "title": "Plain events are decoded faithfully", "statement": "Query, rotate, xid, intvar, user-variable, heartbeat, rows-query (MySQL and MariaDB) and MySQL GTID events encoded by the published format are decoded to the encoded values.", "quantifier": "all field values within wire limits", "why_tests_cant": "Unbounded.", "anchors": ["src/events/query_event.rs", "src/events/rotate_event.rs", "src/events/xid_event.rs", "src/events/intvar_event.rs", "src/events/uservar_event.rs", "src/events/heartbeat_event.rs", "src/events/rows_query_event.rs", "src/providers/mysql/events/gtid_event.rs"]}
{"id": "C43", "title": "Text is accepted exactly when it is UTF-8", "statement": "Strings in events are accepted exactly when their bytes are well-formed UTF-8, and then represent exactly those bytes; otherwise the event is rejected with an error.", "quantifier": "every byte string", "why_tests_cant": "All byte strings.", "anchors": ["src/extensions.rs: read_string, read_null_term_string"]}
{"id": "C44", "title": "Table map events are decoded faithfully", "statement": "Table id, database and table names, column types, per-column metadata and nullability of any table are recovered, for any number of columns of any supported types.", "quantifier": "every table shape", "why_tests_cant": "Unbounded column lists.", "anchors": ["src/events/table_map_event.rs: TableMapEvent::parse, parse_metadata"]}
{"id": "C45", "title": "Optional table metadata is decoded faithfully", "statement": "Each optional metadata field of a table map (signedness, charsets, names, SET/ENUM values, geometry types, primary keys, visibility) is recovered whatever the order in which fields come, absent fields are None and the last occurrence wins.", "quantifier": "every list of metadata fields", "why_tests_cant": "Unbounded.", "anchors": ["src/metadata/table_metadata.rs: TableMetadata::parse"]}
{"id": "C46", "title": "Integer and floating cells keep their bits", "statement": "TINY/SHORT/INT24/LONG/LONGLONG cells are the little-endian value of their bytes, so that a signed column value is recovered by two's complement reinterpretation at the column width.", "quantifier": "all values", "why_tests_cant": "2^64 values.", "anchors": ["src/events/row_events/row_parser.rs: parse_cell"]}
{"id": "C47", "title": "DECIMAL values are decoded exactly", "statement": "For every DECIMAL(p,s), sign and digit string, the decoded text is the exact number: sign, integral digits without leading zeros (at least one), and exactly s fractional digits.", "quantifier": "every precision 1..255, scale <= precision, digits and sign", "why_tests_cant": "10^65 values and all p,s.", "anchors": ["src/events/row_events/decimal.rs: parse_decimal"]}
{"id": "C48", "title": "Date and time values are decoded exactly", "statement": "YEAR, DATE, TIME, TIMESTAMP, DATETIME and the fractional TIME2, TIMESTAMP2, DATETIME2 (fsp 0..6) of any representable non-negative value are decoded to the same calendar fields, with milliseconds truncated from microseconds.", "quantifier": "all representable values and precisions", "why_tests_cant": "Too many values; packed bit fields.", "anchors": ["src/events/row_events/col_parser.rs"]}
{"id": "C49", "title": "String, BLOB, BIT, ENUM and SET cells are decoded faithfully", "statement": "Each of these cells, encoded by the published format, is decoded to the encoded value whatever its length.", "quantifier": "all values, lengths and metadata", "why_tests_cant": "Unbounded.", "anchors": ["src/events/row_events/col_parser.rs: parse_string, parse_bit, parse_blob", "src/events/row_events/row_parser.rs: parse_cell"]}
{"id": "C50", "title": "CHAR, ENUM and SET columns are told apart and CHAR lengths up to 1023 bytes recovered", "statement": "For each CHAR byte length up to 1023, and for each ENUM/SET, the decoder recovers the real type and length packed in the string metadata.", "quantifier": "all packed metadata values", "why_tests_cant": "Bit packing over 65536 values.", "anchors": ["src/events/row_events/actual_string_type.rs: get_actual_string_type"]}
{"id": "C51", "title": "Row cells stay aligned with columns", "statement": "A decoded row has one cell per table column; a cell is None exactly when the column is absent from the event or NULL, and otherwise holds that column's value, for every pattern of absent and NULL columns.", "quantifier": "every table, present-columns bitmap, null bitmap and values", "why_tests_cant": "Exponentially many patterns.", "anchors": ["src/events/row_events/row_parser.rs: parse_row"]}
{"id": "C52", "title": "Write, update and delete events are decoded faithfully", "statement": "An event encoding any number of rows (V1 or V2 with any extra data) is decoded to its table id, flags, column bitmaps and exactly those rows in order; updates pair each before image with its after image.", "quantifier": "every number of rows, both versions", "why_tests_cant": "Unbounded.", "anchors": ["src/events/row_events/write_rows_event.rs", "src/events/row_events/update_rows_event.rs", "src/events/row_events/delete_rows_event.rs", "src/events/row_events/row_parser.rs"]}
{"id": "C53", "title": "The server greeting is decoded faithfully", "statement": "Protocol version, server version, connection id, whole scramble, capabilities, collation, status and auth plugin name are recovered from any protocol-10 greeting, with the optional parts present exactly when the capability bits say so.", "quantifier": "every greeting", "why_tests_cant": "All strings and flags.", "anchors": ["src/responses/handshake_packet.rs: HandshakePacket::parse"]}
{"id": "C54", "title": "Error, auth-switch and result-set packets are decoded faithfully", "statement": "Error code, SQL state (if marked) and message; plugin name and data; and the list of cells of a text row are recovered.", "quantifier": "every packet", "why_tests_cant": "Unbounded.", "anchors": ["src/responses/error_packet.rs", "src/responses/auth_switch_packet.rs", "src/responses/result_set_row_packet.rs", "src/responses/end_of_file_packet.rs"]}
{"id": "C55", "title": "Requests are encoded as the protocol says", "statement": "Query, register-slave, dump, SSL-request and authentication packets decode, by the published format, to the values they were built from; the database is announced exactly when it is sent.", "quantifier": "all option values", "why_tests_cant": "Unbounded strings.", "anchors": ["src/commands/"]}
{"id": "C56", "title": "mysql_native_password responses verify at the server", "statement": "For every password and scramble the authentication response sent for mysql_native_password passes the server's check against the stored double hash.", "quantifier": "every password, scramble and hash function with fixed output size", "why_tests_cant": "All passwords.", "anchors": ["src/extensions.rs: encrypt_password, xor", "src/commands/authenticate_command.rs"]}
{"id": "C57", "title": "caching_sha2_password fast-path responses verify at the server", "statement": "For every password and scramble the response sent for caching_sha2_password passes the server's fast-path check SHA256(stage2 || scramble).", "quantifier": "every password and scramble", "why_tests_cant": "All passwords.", "anchors": ["src/extensions.rs: encrypt_password"]}
{"id": "C58", "title": "The password is never sent in clear", "statement": "Whatever the server sends during connection, everything the client writes depends on the password only through the hashed response and the RSA-encrypted response.", "quantifier": "every sequence of server packets", "why_tests_cant": "All server behaviours.", "anchors": ["src/connect.rs: connect, authenticate, handle_auth_plugin_switch, authenticate_sha_256"]}
{"id": "C59", "title": "A server error stops the session set-up", "statement": "If the server answers any set-up step with an error packet, replicate() returns an error and no binlog dump request is sent afterwards.", "quantifier": "every sequence of server packets", "why_tests_cant": "Every step and every reply.", "anchors": ["src/binlog_client.rs: replicate", "src/configure.rs", "src/connect.rs", "src/providers/mariadb/mariadb_provider.rs", "src/extensions.rs: check_error_packet"]}
{"id": "C60", "title": "The dump request asks for the recorded position", "statement": "When replicate() succeeds, the last packet sent is a dump request carrying the recorded position: GTID set for MySQL GTID mode, file and position otherwise, with the slave server id exactly when blocking and 0 otherwise; asking for GTID mode without the matching GTID position is an error.", "quantifier": "every client state and server behaviour", "why_tests_cant": "All option combinations and histories.", "anchors": ["src/binlog_client.rs: replicate", "src/providers/mysql/mysql_provider.rs", "src/providers/mariadb/mariadb_provider.rs"]}
{"id": "C61", "title": "Starting from the end happens once", "statement": "With from_end the current master position is read on the first successful connect only; later replicate() calls resume from the recorded position; a failed attempt to read it leaves the options unchanged.", "quantifier": "every history of replicate() and commit() calls", "why_tests_cant": "Histories with failures.", "anchors": ["src/configure.rs: adjust_starting_position"]}
{"id": "C62", "title": "The read timeout is longer than the heartbeat interval", "statement": "The server is asked to send heartbeats at the configured interval in nanoseconds, and the read timeout is that interval plus ten seconds, so a live but idle server never times out.", "quantifier": "every heartbeat interval", "why_tests_cant": "All durations.", "anchors": ["src/packet_channel.rs: PacketChannel::new", "src/configure.rs: set_master_heartbeat"]}
{"id": "C63", "title": "Handshake replies carry the next sequence number", "statement": "Each packet of the connection phase carries the sequence number of the server packet it answers plus one.", "quantifier": "every server behaviour", "why_tests_cant": "All server behaviours.", "anchors": ["src/connect.rs"]}
{"id": "C64", "title": "Requesting encryption never silently falls back to plain text", "statement": "With any ssl_mode other than Disabled no client is built, so nothing is ever sent unencrypted.", "quantifier": "every option value and server behaviour", "why_tests_cant": "All server behaviours.", "anchors": ["src/binlog_client.rs: BinlogClient::new", "src/connect.rs: authenticate"]}
{"id": "C65", "title": "Adding any 64-bit id keeps the meaning of the set", "statement": "GtidSet::add_gtid never panics and adds exactly the given transaction for every u64 id the API accepts, including sets and ids that reach u64::MAX.", "quantifier": "every ordered set and every GTID over the whole u64 range, both overflow-check build profiles", "why_tests_cant": "The failing values sit at one end of a 2^64 range and need a particular neighbour interval; the result also depends on the build profile.", "anchors": ["src/providers/mysql/gtid/uuid_set.rs", "src/providers/mysql/gtid/gtid_set.rs"]}
{"id": "C66", "title": "An account without a password can log in", "statement": "With an empty password and mysql_native_password the client sends the empty authentication response the server demands of an account that has no password.", "quantifier": "every scramble", "why_tests_cant": "All scrambles; the test servers have a password.", "anchors": ["src/extensions.rs: encrypt_password", "src/commands/authenticate_command.rs"]}
{"id": "C67", "title": "MySQL: an XA transaction is recorded only when it is complete", "statement": "While streaming from a GTID set, the GTID of the first phase of a distributed transaction (GTID, XA START, changes, XA END, XA prepare event) is added to the recorded set only when its last event is committed.", "quantifier": "every such transaction, every prefix (crash point)", "why_tests_cant": "Every crash point inside a transaction kind the tests never run.", "anchors": ["src/binlog_client.rs: update_gtid_position"]}
{"id": "C68", "title": "Events of 16 MiB and more arrive whole", "statement": "An event whose packet payload is 2^24-1 bytes or more, which the server sends in several packets, is delivered by the live iterator as one event with all its content.", "quantifier": "every event, every size", "why_tests_cant": "Needs events above 16 MiB.", "anchors": ["src/packet_channel.rs: PacketChannel::read_packet", "src/binlog_events.rs: BinlogEvents::next"]}
{"id": "C69", "title": "No error packet is overlooked during set-up", "statement": "An error packet received at any point of the session set-up, also in the middle of a result set, ends it: replicate() returns an error and sends nothing more.", "quantifier": "every client state and every sequence of server packets", "why_tests_cant": "Every point of every exchange.", "anchors": ["src/configure.rs: read_result_set", "src/connect.rs", "src/extensions.rs: check_error_packet"]}
{"id": "C70", "title": "Session set-up returns whatever the server sends", "statement": "Whatever packets the server sends, replicate() returns a stream or an error: it neither panics nor loops.", "quantifier": "every client state and every sequence of server packets", "why_tests_cant": "Arbitrary server behaviour.", "anchors": ["src/binlog_client.rs: replicate", "src/configure.rs", "src/connect.rs", "src/extensions.rs: check_error_packet"]}
{"id": "C71", "title": "Full caching_sha2 authentication sends the password only masked and encrypted, and the server can recover it", "statement": "When the server does not accept the hashed response, the client asks for the server's key with the packet 02 and sends the zero-terminated password xored with the repeated scramble and encrypted with that key, so a server undoing both gets exactly the password.", "quantifier": "every password, scramble, key, encryption function and server behaviour", "why_tests_cant": "All passwords, scrambles and keys.", "anchors": ["src/connect.rs: authenticate_sha_256", "src/extensions.rs: xor"]}
{"id": "C72", "title": "Logging in to a conforming server consumes exactly its packets", "statement": "When the server accepts the client by any path of the connection phase (OK at once, fast or full caching_sha2 authentication, with or without a switch request), connect() succeeds, recognises the kind of server and has read exactly the packets of the log-in.", "quantifier": "every greeting, every accepting server exchange, every password", "why_tests_cant": "All greetings and paths.", "anchors": ["src/connect.rs: connect, authenticate, handle_auth_plugin_switch, authenticate_sha_256"]}
{"id": "C73", "title": "Against a conforming server replicate() succeeds and hands over the stream intact", "statement": "When the server accepts the log-in and answers every set-up command as the protocol prescribes, replicate() returns Ok: the returned stream begins exactly at the server's first packet after those answers, decodes with the checksum algorithm the server reported and an empty table-map cache, the recorded position is the server's end of log if the client asked for it and unchanged otherwise, and no state of an interrupted transaction remains.", "quantifier": "every conforming server exchange (MySQL and MariaDB, every log-in path), every starting strategy, every option values within the protocol's limits", "why_tests_cant": "All combinations of log-in paths, strategies, result-set contents and option values.", "anchors": ["src/binlog_client.rs: replicate", "src/configure.rs: adjust_starting_position, set_master_heartbeat, set_master_binlog_checksum", "src/connect.rs: connect", "src/providers/mysql/mysql_provider.rs: replicate_mysql", "src/providers/mariadb/mariadb_provider.rs: replicate_mariadb, register_gtid_slave"]}
{"id": "C74", "title": "From the server's bytes to the recorded position", "statement": "Against a conforming server (any exchange C73 covers) that then sends a log of events, each below 16 MiB, replicate() succeeds, and iterating over the returned stream gives exactly the events of the log, all decoded, in order. Committing each as it comes, the recorded position after any number of them is: for MySQL GTID replication the initial set plus the finished transactions; for MariaDB GTID replication (transactions without a statement before their last event) the last finished GTID of each domain; otherwise the file and position of the last committed event that carries them (below 2^32).", "quantifier": "every conforming exchange, every log of every mix of event types, tables and checksum changes, every stopping point", "why_tests_cant": "Composes log-in, set-up, framing, every decoder and position keeping for unbounded logs.", "anchors": ["src/binlog_client.rs: replicate, commit", "src/binlog_events.rs: BinlogEvents::next", "src/events/event_parser.rs: EventParser::parse_event"]}
{"id": "C75", "title": "Crash and reconnect end to end", "statement": "With MySQL GTID replication: after committing any number of the events of a first connection and replicating again, the dump request of the second connection leaves out exactly those of the server's transactions that have an uncommitted event; when the server sends those, all their events are delivered, and after committing them the recorded set is the initial set plus all transactions of the server.", "quantifier": "every stream of distinct transactions, every crash point, every second exchange", "why_tests_cant": "Every crash point of unbounded streams, over two connections.", "anchors": ["src/binlog_client.rs: replicate, commit", "src/providers/mysql/mysql_provider.rs: replicate_mysql", "src/binlog_events.rs: BinlogEvents::next"]}
{"id": "C76", "title": "A log gives the same events from a file and from a server", "statement": "Reading a binlog file gives exactly the events of the log that was written to it, all decoded, in order, then the end; the same log sent over a connection (each event below 16 MiB, then an end-of-file packet) gives the same items.", "quantifier": "every log of every mix of event types, tables and checksum changes", "why_tests_cant": "Unbounded logs with state (tables, checksum algorithm) carried from event to event.", "anchors": ["src/binlog_reader.rs: BinlogReader::read_events", "src/binlog_events.rs: BinlogEvents::next", "src/events/event_parser.rs: EventParser::parse_event"]}
{"id": "C77", "title": "The exact language of GtidSet::parse", "statement": "GtidSet::parse accepts the empty text and exactly the texts which, without newlines and cut at commas, consist of entries: 36 characters that name a server, one ignored character, and numbers or pairs of numbers of 64 bits separated by colons (with overflow checks: no interval up to u64::MAX followed by another one); of entries with the same name the last counts with all its intervals. It crashes exactly if the first part that is no such entry has an even number below 32 of hexadecimal digits in its first 36 characters, or (overflow checks) such an interval; every other text is refused with an error.", "quantifier": "every text, both build modes", "why_tests_cant": "An exact description of an infinite language needs every text.", "anchors": ["src/providers/mysql/gtid/gtid_set.rs: GtidSet::parse", "src/providers/mysql/gtid/uuid.rs: Uuid::parse", "src/providers/mysql/gtid/uuid_set.rs: UuidSet::new"]}
{"id": "C78", "title": "The exact language of GtidList::parse", "statement": "GtidList::parse accepts the empty text and exactly the texts which, without newlines and cut at commas, consist of three numbers (32, 32 and 64 bits) separated by dashes, perhaps followed by a dash and anything, with different domains, and gives exactly these GTIDs in order. It crashes exactly if, after accepted parts, a part is one number or two; every other text is refused with an error.", "quantifier": "every text", "why_tests_cant": "An exact description of an infinite language needs every text.", "anchors": ["src/providers/mariadb/gtid/gtid_list.rs: GtidList::parse"]}
{"id": "C79", "title": "What is recorded for any event sequence", "statement": "After replication has started from a GTID set (MySQL) or list (MariaDB) and any events have been committed, in whatever order and also ones no server writes, the recorded position is the initial one plus exactly the GTIDs finished so far: a GTID is finished by the first XID, COMMIT or ROLLBACK behind it, or by another non-empty statement that is not between BEGIN and its end; a GTID event before that replaces it. In a MariaDB list the GTID finished last in a domain stands. In particular the first phase of a MySQL XA transaction is recorded from XA START on, and a MariaDB transaction from its first statement on.", "quantifier": "every client that has not seen an event yet, every sequence of events (MySQL GTID numbers from 1 to 2^64-2; the recorded set in order and disjoint), every prefix", "why_tests_cant": "Unbounded, arbitrary histories and every crash point.", "anchors": ["src/binlog_client.rs: commit, update_gtid_position, commit_gtid"]}
{"id": "C80", "title": "What the server reports reaches the user", "statement": "When the server answers any packet of set-up, or sends instead of an event, a well-formed error packet, the error returned by replicate, or the next item of the stream, shows the server's error code, message and SQL state.", "quantifier": "every step of set-up, every point of the stream, every error code, SQL state and message", "why_tests_cant": "Every step at which any server error may come.", "anchors": ["src/extensions.rs: check_error_packet", "src/binlog_events.rs: read_error", "src/responses/error_packet.rs: ErrorPacket::parse"]}
{"id": "C81", "title": "Exactly which event bodies are decoded", "statement": "An event that is not a row event is decoded exactly when its bytes, less the checksum, have one of the accepted forms, and then to the value that form stands for. The accepted forms are those of the servers, made loose only where the decoder does not look: the byte after the database of a statement, the zero bytes after the names and the metadata size of a table map, trailing bytes, repeated servers (the last entry counts), numbers above 32 bits in optional metadata (the low 32 bits count), a stored interval end of zero in builds without overflow checks, and the low byte of the event length in a format description.", "quantifier": "all bytes, headers, checksum settings and table caches, both build modes", "why_tests_cant": "There are infinitely many bodies no server writes; each must be refused or have one meaning.", "anchors": ["src/events/event_parser.rs: parse_event", "src/events/table_map_event.rs: TableMapEvent::parse", "src/events/format_description_event.rs: FormatDescriptionEvent::parse", "src/providers/mysql/events/prev_gtids_event.rs: PreviousGtidsEvent::parse"]}
{"id": "C82", "title": "Exactly which row events and event streams are decoded", "statement": "A row event is decoded exactly when its bytes, less the checksum, have one of the accepted forms for the columns its table was last declared with, and then to the value that form stands for. The accepted forms are those of the servers, made loose only where the decoder does not look: DECIMAL groups above 10^9 and scales above the precision, digits of dates and times out of range, unused bits, more bitmap bits than columns, a length of 1 for the extra data. A sequence of events given to a new decoder is decoded exactly when each has an accepted form under the checksum algorithm and the table declarations of the events before it.", "quantifier": "all bytes, headers, checksum settings and table declarations, all sequences of events, both build modes", "why_tests_cant": "There are infinitely many row events and sequences no server writes; each must be refused or have one meaning.", "anchors": ["src/events/row_events/row_parser.rs: parse_row", "src/events/row_events/row_parser.rs: parse_head", "src/events/row_events/col_parser.rs", "src/events/event_parser.rs: parse_event"]}
{"id": "C83", "title": "Exactly which packets of the server are taken", "statement": "The client takes a greeting, an authentication switch request, an end-of-file packet, an error packet or a row of a result set exactly when its bytes have an accepted form, and then with the fields of that form. The accepted forms are those of the protocol manual, made loose only where the client does not look: the lengths of the two parts of the scramble, the filler of the greeting (any text of six bytes), a string whose closing zero is missing (it goes up to the last byte, which is dropped), an SQL state cut short by the end of the packet. Text must be UTF-8; a NULL in a row of a result set is refused.", "quantifier": "all bytes", "why_tests_cant": "There are infinitely many packets no server sends; each must be refused or have one meaning.", "anchors": ["src/responses/handshake_packet.rs: HandshakePacket::parse", "src/responses/auth_switch_packet.rs: AuthPluginSwitchPacket::parse", "src/responses/end_of_file_packet.rs: EndOfFilePacket::parse", "src/responses/error_packet.rs: ErrorPacket::parse", "src/responses/result_set_row_packet.rs: ResultSetRowPacket::parse"]}
{"id": "C84", "title": "Everything the client sends while it sets up replication, and exactly when it succeeds", "statement": "Whatever the server sends, the packets the client sends while it logs in and sets up replication are, byte for byte and with their sequence numbers, those of the described conversation: the answer to the greeting (or a request for encryption), the answers to a method switch and to caching_sha2_password, then the requests for the log's end (when it is to start there and has no file name), heartbeat, checksum (two), for a MariaDB its capability and with GTIDs its four more, and the request for the stream. The set-up succeeds exactly when the packets received complete such a conversation; then the result is the checksum algorithm the server named, the client stands at the place it asked the server to start from, and no byte beyond the conversation has been read.", "quantifier": "all options within the widths of their fields, all inputs, all hash and RSA functions, both build modes; success under the hypothesis that the connection takes what is written and no packet has 2^24 bytes or more", "why_tests_cant": "A test plays a few servers; the set of all answers, in every order and with every content, is infinite, and tests do not show that nothing else is ever sent.", "anchors": ["src/connect.rs", "src/configure.rs", "src/providers/mysql/mysql_provider.rs", "src/providers/mariadb/mariadb_provider.rs", "src/binlog_client.rs: replicate"]}
{"id": "C85", "title": "Exactly how setting up replication fails", "statement": "When the set-up of replication does not succeed, the conversation (C84) has come to a point from which it cannot go on, and the point decides how the set-up ends: an error packet of the server is reported with the words of the request it answers, and only then is a server error reported; a packet that cannot be read gives an error that says so; an unsupported method, an encryption insisted on and not offered, a missing GTID set or list, a wrong number of rows, a position that is no number, an unknown checksum algorithm and a failing RSA encryption give their own errors; a broken connection gives its error; and the client panics exactly for an empty packet, packet number 255 to be answered in a checked build, an empty scramble or hash, a cut caching_sha2_password answer, a cell of 2^63 bytes or more, a result without the cell that is needed, encryption, and a packet too long to send. The set-up always ends. What has been written is what the conversation says, the bytes behind it are unread, and the client is left as the stage says, with the file name changed but not the position when the position is no number.", "quantifier": "all options within the widths of their fields, all inputs, all hash and RSA functions, both build modes; connections that take what is written", "why_tests_cant": "There are infinitely many wrong answers at each of the many stages; tests try a few, and cannot show that there is no further way to panic, to hang or to blame the server.", "anchors": ["src/connect.rs", "src/configure.rs", "src/extensions.rs: check_error_packet", "src/providers/mysql/mysql_provider.rs", "src/providers/mariadb/mariadb_provider.rs", "src/binlog_client.rs: replicate"]}
{"id": "C86", "title": "Exactly which events crash the decoder, which it never finishes, and which it refuses", "statement": "For every event, its bytes and the tables known before it: decoding panics exactly if there is no room for the checksum, or the body has one of the listed forms (a length or number of columns of 2^63 or more in a table map, its metadata or a row event; fewer columns in a row event than in its table; fractional seconds, blob lengths, ENUM/SET widths and DECIMALs with impossible metadata; and, where overflow is checked, an interval with the end 0 among previous GTIDs, or a format description whose length has a low byte below 19), each at the point where everything before it is well-formed. Decoding never ends exactly for a row event with data of which no column is present. It fails with an error exactly in all other cases that are not accepted. A sequence of events fed to a new decoder panics, hangs or errs exactly if accepted events are followed by one that does so after these.", "quantifier": "all headers, bytes, sequences of events and decoder states reachable from a new decoder, both build modes", "why_tests_cant": "Fuzzing finds some crashing inputs; it cannot show that there are no others, nor that every input of a form crashes.", "anchors": ["src/events/event_parser.rs", "src/events/table_map_event.rs", "src/events/row_events/row_parser.rs", "src/events/row_events/col_parser.rs", "src/providers/mysql/events/prev_gtids_event.rs", "src/events/format_description_event.rs"]}
{"id": "C87", "title": "Exactly with which error an event is refused", "statement": "For every event, its bytes and the tables known before it, and every error other than the unexpected end of the bytes: decoding fails with this error exactly if the body has one of the forms listed for it, each at the point where everything before it is well-formed. The reasons are: a length-encoded number starting with 0xFB or 0xFF (\"Length encoded integer cannot be NULL.\", \"Unexpected length-encoded integer\"), text that is not UTF-8 (a conversion error for counted text, an InvalidData I/O error for text reaching to the end), an unknown column type, an unknown or unparseable kind of column value, a negative TIME, an unknown table metadata type, a checksum algorithm that is not known, and a row event of a table that was not announced. It fails with the unexpected-end error exactly if it is refused and none of these is the reason. A sequence of events fed to a new decoder is refused with an error exactly if accepted events are followed by one that is refused with it after these.", "quantifier": "all headers, bytes, errors, sequences of events and decoder states reachable from a new decoder, both build modes", "why_tests_cant": "There are several dozen places where decoding can fail; which one is met first depends on all bytes before it.", "anchors": ["src/events/event_parser.rs", "src/extensions.rs", "src/events/table_map_event.rs", "src/metadata/table_metadata.rs", "src/events/row_events/row_parser.rs", "src/events/row_events/col_parser.rs", "src/events/uservar_event.rs", "src/events/format_description_event.rs"]}
{"id": "C88", "title": "Exactly what iterating over a file gives", "statement": "For every file: opening it fails with the end-of-file error exactly if it has fewer than four bytes, and with \"Invalid binary log file header\" exactly if its first four bytes are not fe 62 69 6e. Otherwise calling next again and again gives exactly the items, and ends exactly the way, that the rules in FileRun say: an event of an accepted form gives its header and value, one refused for another reason than being too short gives an error item and iteration goes on behind it; it ends at an incomplete event, and at an event that is too short for what it says; it panics at a length below 19 and at events that crash the decoder; it never returns at row events with data but no columns. After finitely many items one of these happens.", "quantifier": "all files, any number of calls, both build modes", "why_tests_cant": "Every content of a file, well-formed or not, is covered, including what earlier events say about later ones.", "anchors": ["src/binlog_reader.rs", "src/events/event_parser.rs"]}
{"id": "C89", "title": "Exactly what iterating over a connection gives", "statement": "For all bytes that arrive after the dump request, whatever error then ends the connection: calling next again and again gives exactly the items, and ends exactly the way, that the rules in LiveRun say. A packet with status 0 gives the event, the error with which it is refused, or an end-of-file error if it is too short; one with status 0xFF gives what the server reported, an end-of-file error if it has no room for a number, or InvalidData if its message is not text; one with status 0xFE ends the iteration whatever else it says; any other status gives \"Unknown network stream status\"; an empty packet panics; and when there is no whole packet the error of the connection is given, again on every further call, and never the end.", "quantifier": "all bytes, all ways for the connection to break off, any number of calls, both checksum settings, both build modes", "why_tests_cant": "Every sequence of packets is covered, also what no server sends.", "anchors": ["src/binlog_events.rs", "src/packet_channel.rs", "src/events/event_parser.rs", "src/responses/error_packet.rs"]}
{"id": "C90", "title": "Exactly what a session with any server gives", "statement": "replicate() returns a stream if and only if the bytes of the server begin with the server's side of a complete set-up conversation and the connection takes something of every packet of the client; iterating over that stream then gives exactly the items of the packets behind the conversation, and ends the way those packets say. The client's position is that of the conversation, and on the wire is what the connection has taken of the packets of the conversation.", "quantifier": "for all clients, options within the request limits, byte strings sent by a server, sequences of write results, ways in which the connection ends, and numbers of calls of next()", "why_tests_cant": "a test plays a handful of scripted servers; the claim is about every byte string a server can send over the whole session", "anchors": ["src/binlog_client.rs", "src/binlog_events.rs", "src/connect.rs", "src/configure.rs", "src/packet_channel.rs"]}
{"id": "C91", "title": "What the next session asks for, whatever was received", "statement": "After a session with any server, of which the application has committed any of the delivered events, the next replicate() that succeeds asks for exactly what the committed events say: by position, the file of the last rotate event and the last position (in 32 bits), or where the first session started; by MySQL GTIDs, everything but the initial set and the transactions the committed events finish; by MariaDB GTIDs, the last finished GTID of each domain, or the initial one.", "quantifier": "for all servers of both sessions, clients, byte strings received, and sequences of committed events among the delivered ones (MySQL ids below 2^64-1)", "why_tests_cant": "the claim spans two sessions and every received byte string and commit pattern between them", "anchors": ["src/binlog_client.rs", "src/configure.rs", "src/commands/dump_binlog_command.rs", "src/commands/dump_binlog_gtid_command.rs"]}
{"id": "C92", "title": "Exactly with which error a GTID text is refused", "statement": "GtidSet::parse gives an error e for a text exactly if the text is not empty and, newlines left out, cut at commas and trimmed, all parts before some part are entries that are taken, and that part is refused with e: with the hex error if its first 36 characters are not an even number of hexadecimal digits among dashes; else, for a uuid of at least 32 digits, with the error of its first bad interval, which is a number error if the interval has one or two dash-separated components of which one is not a decimal u64 (a plus sign allowed), and the text \"Invalid interval format\" if it has three or more. GtidList::parse gives an error exactly if the parts before some part are GTIDs of different domains and that part either has, among its first three components, one that is not a number of its width (number error), or is a GTID whose domain occurs before it (\"GtidList must consist of unique domain ids\").", "quantifier": "all texts, both overflow-check modes, all errors", "why_tests_cant": "Infinitely many texts; the order in which a uuid, an interval count, a number and a domain are checked decides the error, and tests fix only a few combinations.", "anchors": ["src/providers/mysql/gtid/gtid_set.rs:27-57", "src/providers/mysql/gtid/uuid.rs:23-31", "src/providers/mariadb/gtid/gtid_list.rs:19-48"]}
{"id": "C93", "title": "The complete list of requests, for all options and for each documented way of starting", "statement": "If replicate() succeeds, the client has made one connection, to hostname:port, with a read timeout of the heartbeat interval plus ten seconds; the first packet it sent is the handshake response for the configured user; after the log-in it has sent, each with sequence number 0, exactly the requests of a list that depends only on the starting strategy, on whether a file name is recorded and on whether the server is a MariaDB. With the default options (localhost:3306, no TLS, server id 65535, blocking, heartbeat 30 s, from the end) this list is given text by text for from_start (first file, position 4), from_end (SHOW MASTER STATUS first, then the place the server named, which is also recorded), from_position, from_mysql_gtid (only a MySQL server; COM_BINLOG_DUMP_GTID with exactly the set) and from_mariadb_gtid (only a MariaDB; slave_connect_state with exactly the list, strict mode and ignore-duplicates off, registration as 65535, dump).", "quantifier": "all options, servers, networks and GTID positions (which fit into a request), both overflow-check modes", "why_tests_cant": "No test runs against a server; the order and the texts of the requests for every combination of strategy, recorded place and server kind are not enumerable by examples.", "anchors": ["src/replica_options.rs:44-58", "src/binlog_options.rs:31-86", "src/packet_channel.rs:13-19", "src/binlog_client.rs:37-61", "src/configure.rs:1-93", "src/providers/mariadb/mariadb_provider.rs:1-62", "src/providers/mysql/mysql_provider.rs:1-33"]}
{"id": "C94", "title": "add_gtid over the whole range of 64-bit ids", "statement": "For every set with ordered intervals of 64-bit ids and every 64-bit transaction id: with overflow checks GtidSet::add_gtid panics exactly if the server's last interval reaches u64::MAX, all others end before the id and the id is not the one in front of that interval; without checks it loses ids exactly when 0 is added to a single interval up to u64::MAX (not starting at 1) or u64::MAX is added to the set of all ids, with the stated result; in every other case it adds exactly the given transaction, tells whether it was new, and leaves a set of the same form. BinlogClient::commit panics exactly if such an addition does, and returns otherwise.", "quantifier": "every ordered set, every GTID of 64 bits, every client and event, both overflow-check build profiles", "why_tests_cant": "the failing cases are single points of a range of 2^64 ids times all interval lists; a test shows one of them, not that there are no others", "anchors": ["src/providers/mysql/gtid/uuid_set.rs:28-97", "src/providers/mysql/gtid/gtid_set.rs:60-67", "src/binlog_client.rs:64-132"]}
{"id": "C95", "title": "Setting up replication over connections that take packets piecemeal or break", "statement": "What the operating system does with the writes decides what is on the wire and whether the set-up goes on, and nothing else. Of each packet the length and the number are written whole, of the payload exactly what the first write call takes. As long as no call fails and none takes nothing of a header, the set-up goes through the same conversation, and ends in the same way, as over a connection that takes everything, although payloads on the wire are cut off. If a call fails, or takes nothing of a header, the set-up ends with that error (or with 'write zero'); the packet counts as sent, nothing more is written or read, the client is as it was when it sent the packet. The set-up always ends; when it succeeds and when it panics is characterised exactly.", "quantifier": "all sequences of write results, all inputs, all options within the widths of their fields, all hash and RSA functions, both build modes", "why_tests_cant": "Short and failing writes at each of the write calls of each conversation cannot be enumerated, and a local socket practically never produces them.", "anchors": ["src/packet_channel.rs:34-40", "src/connect.rs", "src/configure.rs", "src/binlog_client.rs:37-61", "src/providers/mysql/mysql_provider.rs", "src/providers/mariadb/mariadb_provider.rs"]}
{"id": "C96", "title": "All ways in which replicate() ends", "statement": "replicate() connects to hostname:port. If that fails it returns the error and leaves the client as it was; if the heartbeat interval plus ten seconds is 2^64 seconds or more it panics; otherwise it ends as the set-up of replication over this connection (C95): with a stream that has read nothing and expects the negotiated checksum, with the error, or with the panic, and leaves the client the set-up leaves. It never hangs on a connection that ends. When it returns a stream, and when it panics, is characterised exactly.", "quantifier": "all networks, servers, sequences of write results, options within the widths of their fields, hash and RSA functions, both build modes", "why_tests_cant": "There are infinitely many networks, servers and configurations; that there is no further way to end cannot be tested.", "anchors": ["src/binlog_client.rs:37-61", "src/packet_channel.rs:13-40", "src/connect.rs", "src/configure.rs"]}
{"id": "C97", "title": "Exactly which logs can be followed across reconnections", "statement": "A client that follows a log by file position, may be cut off after any event, and connects again at the recorded place, is sent the table map of every row event first, wherever it is cut off, if and only if in the log every row event comes right behind table maps one of which is its own.", "quantifier": "all logs a server may write (no file ending with a table map, no heartbeat right behind one), all places to start, all points at which the client is cut off, both build modes", "why_tests_cant": "The quantifier ranges over all logs and all crash points of each; the equivalence says something about every log for which it goes wrong.", "anchors": ["src/binlog_client.rs:64-117", "src/events/event_parser.rs"]}
{"id": "C98", "title": "How many entries a server has in a GTID set", "statement": "After adding any list of GTIDs taken from events, a server has the entries it had before, and one more exactly if one of the GTIDs is its own and it had no entry under the usual writing of its uuid (lower case, 8-4-4-4-12). A set with one entry per server keeps that form exactly if no GTID comes from a server whose entry is written in another way.", "quantifier": "all sets, however their uuids are written, all lists of GTIDs with ids below 2^64-1, both build modes", "why_tests_cant": "There are infinitely many histories, and 2^(number of letters) writings of each uuid.", "anchors": ["src/providers/mysql/gtid/gtid_set.rs", "src/providers/mysql/gtid/uuid.rs"]}
{"id": "C99", "title": "What becomes of events of 16 MiB and more", "statement": "The live iterator takes each packet for itself. Of an event sent in several packets it gives what the decoder makes of the first 2^24-21 bytes of the payload under the header of the whole event. What follows is judged by its own first byte: FE ends the iteration silently, FF or another byte gives an error, 00 makes the following bytes the header of an event, and if nothing follows because the event just filled its packets, the process panics.", "quantifier": "all events, payload lengths, packet numbers, decoder states, bytes behind the event, both build modes", "why_tests_cant": "Events of this size have 2^(2^27) contents; the outcome depends on the bytes at each cut.", "anchors": ["src/binlog_events.rs:25-59", "src/packet_channel.rs:21-31"]}
{"id": "C100", "title": "What is recorded, over the whole life of a client", "statement": "Take a client that has nothing pending, and let the application call replicate() and commit() on it as often as it likes, in any order, with any connections and any outcomes. By MySQL GTIDs: the recorded set is the initial one and exactly the transactions that were finished by a committed event of some session, where the GTID was the last one committed in that same session. By MariaDB GTIDs: for each domain the GTID that was finished last in this sense, or the initial one. By position: the file of the last committed rotate event and the last position a committed event carries (in 32 bits), or the initial ones. A session begins with every replicate() that succeeds; one that fails leaves the client as it was or begins a session, nothing else. A next commit() succeeds, and the next replicate() that succeeds asks the server for exactly what is recorded.", "quantifier": "all sequences of calls of commit() (any events; MySQL GTIDs with canonical server names and ids below 2^64-1) and replicate() (any crypto functions, any connections, any outcome); all initial clients with nothing pending (GTID sets well-formed and ordered, one GTID per domain); by position: if the client starts from the end it knows a file name, and no committed rotate event takes it away", "why_tests_cant": "Tests can try a few sequences of sessions; the claim is about every interleaving of commits, successful and failed reconnections of any length.", "anchors": ["src/binlog_client.rs:37-61", "src/binlog_client.rs:64-132"]}
{"id": "C101", "title": "Going on after a read that timed out", "statement": "When a read on a live connection fails (times out) and the application calls the iterator again, the events delivered are those of the connection on which the same bytes arrive without the failure, with one error item per failure: no event is lost, repeated or made up.", "quantifier": "all states of the iterator; all packets before and after; all failures, any number of them, in any place of the stream", "why_tests_cant": "Tests do not time out reads at every byte of every stream; the claim is about every place a failure can fall and all bytes that follow.", "anchors": ["src/packet_channel.rs:21-36", "src/binlog_events.rs:26-60", "src/binlog_client.rs:37-61"]}
{"id": "C102", "title": "Following a binlog file while it is written", "statement": "When BinlogReader is called again after it reported the end of the file, and the server has written more in the meantime, the events delivered are those of reading the complete file at once: none is lost, repeated or made up.", "quantifier": "all readers; all files of events; all ways of writing the file in parts, between any calls", "why_tests_cant": "Tests read complete files; the claim is about every place where a write can stop and every interleaving of writes and calls.", "anchors": ["src/binlog_reader.rs:39-59", "src/binlog_reader.rs:65-75"]}
{"id": "C103", "title": "Every transaction once, over any number of sessions (MySQL GTIDs)", "statement": "A client replicates by MySQL GTIDs from a server that reads the dump request it gets and sends, in the order of its log, the transactions the request does not list. The application takes and commits events, stops anywhere, reconnects, any number of times, with failed attempts in between and while the log grows. Then the transactions of which all events were committed, session after session, followed by those the recorded set leaves to ask for, are exactly the transactions of the log that the initial set did not have: each once, in the order of the log. None is lost, none is recorded without all of its events having been committed, none is sent again after it was recorded.", "quantifier": "all clients with a well-formed ordered set whose requests fit the packets; all logs of distinct GTIDs and their growth; all crypto functions and connections; all written forms of the transactions and neutral events in between; all places where a connection breaks or the application stops; any number of sessions and failed attempts", "why_tests_cant": "The claim composes the dump request, the framing, the parser and commit() over every history of sessions; an end-to-end test tries a handful of histories against one server.", "anchors": ["src/binlog_client.rs:37-61", "src/binlog_client.rs:64-132", "src/binlog_events.rs:26-60", "src/commands/dump_binlog_gtid_command.rs:1-60"]}
{"id": "C104", "title": "Every transaction once, over any number of sessions (MariaDB GTIDs)", "statement": "A client replicates by MariaDB GTIDs from a server that sends, in the order of its log, the transactions for which it finds no listed GTID of their domain, neither their own nor a later one, in the connect state it was told last. The application takes and commits events, stops anywhere, reconnects, any number of times, with failed attempts in between and while the log grows. Then the transactions of which all events were committed, session after session, followed by those the server has to send after being told the recorded list, are exactly those it had to send after the initial list: each once, in the order of the log.", "quantifier": "all clients with one recorded GTID per domain (in the log, if the server has it at all) whose requests fit the packets; all logs of distinct GTIDs with any domains and their growth; all crypto functions and connections; all written forms of the transactions and neutral events in between; all places where a connection breaks or the application stops; any number of sessions and failed attempts", "why_tests_cant": "The claim composes the connect state, the framing, the parser and commit() over every history of sessions and every interleaving of domains.", "anchors": ["src/binlog_client.rs:37-61", "src/binlog_client.rs:64-132", "src/binlog_events.rs:26-60", "src/providers/mariadb/mariadb_provider.rs:13-45"]}
{"id": "C105", "title": "Every event once, over any number of sessions (file and position)", "statement": "A client replicates by file name and position from a server that reads the dump request it gets and serves its log from the place the request names, with artificial events, announcements of files and heartbeats in between. The application takes events from the iterator, commits them, stops anywhere and reconnects, any number of times, with failed attempts in between. Then the events of the log that were committed, session after session, followed by what the log has from the recorded place on, are exactly the events the log had from the first place on, each once and in order. Table maps are left out of the count, because the client goes back to the first of a group of table maps.", "quantifier": "all clients with a file-and-position strategy (not the end of the log) at a place in the log; all logs of any number of files; all crypto functions and connections; all written forms of the events; all places where a connection breaks or the application stops; any number of sessions and failed attempts", "why_tests_cant": "The claim composes the dump request, the framing, the parser and commit() over every history of sessions; an end-to-end test tries a handful of histories against one server.", "anchors": ["src/binlog_client.rs:37-61", "src/binlog_client.rs:64-132", "src/binlog_events.rs:26-60", "src/commands/dump_binlog_command.rs:1-36"]}
{"id": "C106", "title": "Any number of calls on a file that grows and whose reads may fail", "statement": "Whatever is done with a BinlogReader: calls of next() in any number, also past the end and past errors, anything written to the file in between, reads that fail with other errors than the end of the file and work again later. What the calls give is exactly what the bytes say, call by call: the event, the reason why it is refused, the end, the error of the operating system, a panic, or a call that does not return; and what of the file is left for the next call. A read that fails is never taken for the end of the file.", "quantifier": "all files that can be opened; all sequences of calls, writes and changes in how reads fail; both build profiles", "why_tests_cant": "Errors of the operating system are hard to produce in a test, and histories of calls, writes and failures are unbounded.", "anchors": ["src/binlog_reader.rs:20-33", "src/binlog_reader.rs:39-59", "src/binlog_reader.rs:65-75"]}
{"id": "C107", "title": "GTID lists of MariaDB with flags are decoded", "statement": "MariaDB writes the number of GTIDs of a GTID_LIST_EVENT into the lower 28 bits of its first word and flags into the upper four. Every such list is decoded to its GTIDs, whatever its flags.", "quantifier": "all lists, all flags, all checksum settings, both build profiles", "why_tests_cant": "The flags appear only in lists sent at the end of START SLAVE UNTIL and in relay logs; tests use lists of ordinary binlogs.", "anchors": ["src/providers/mariadb/events/gtid_list_event.rs:16-30"]}
{"id": "C108", "title": "The text of one GTID", "statement": "The printed GTID of an event, given to the library as a starting position, stands for exactly that transaction: a MySQL GTID read as a set is the set of that one transaction, which prints in the same way; a MariaDB GTID read as a list is the list of that one GTID. Two GTIDs print the same only if they are the same.", "quantifier": "all server uuids, all ids of 64 bits, all MariaDB GTIDs, both build profiles", "why_tests_cant": "2^128 uuids and 2^64 ids.", "anchors": ["src/providers/mysql/gtid/gtid.rs:23-28", "src/providers/mysql/gtid/uuid.rs:34-39", "src/providers/mysql/gtid/gtid_set.rs:27-57", "src/providers/mariadb/gtid/gtid.rs:26-31"]}
{"id": "C109", "title": "Compressed and tagged transactions are recorded", "statement": "A transaction that MySQL 8 writes in compressed form (its GTID and one TRANSACTION_PAYLOAD_EVENT) or under a tagged GTID (GTID_TAGGED_LOG_EVENT) is recorded once all its events were committed, like any other transaction.", "quantifier": "all streams of ordinary, compressed, tagged, and tagged compressed transactions in any order; all prefixes of them; all initial sets; both build profiles", "why_tests_cant": "The tests use binlogs of older servers; whether a transaction is recorded is seen only after a reconnection.", "anchors": ["src/binlog_client.rs:64-132", "src/events/event_parser.rs:41-122", "src/events/event_type.rs:88-117"]}
{"id": "C110", "title": "Compressed statements of MariaDB are recorded", "statement": "A statement that MariaDB writes in compressed form (its GTID and one QUERY_COMPRESSED_EVENT, with log_bin_compress) is recorded once its events were committed, like any other transaction.", "quantifier": "all streams of transactions mixed with compressed statements; all prefixes of them; all initial lists; both build profiles", "why_tests_cant": "The tests use binlogs without compression; whether a transaction is recorded is seen only after a reconnection.", "anchors": ["src/binlog_client.rs:64-132", "src/events/event_parser.rs:41-122", "src/events/event_type.rs:88-117"]}
{"id": "C111", "title": "Reconnecting by MySQL GTIDs records every transaction, wherever the connection broke", "statement": "A client that replicates by MySQL GTIDs commits every event it is given, over any number of sessions with a server that starts at the file and position named in the dump request when the file name is not empty (as MySQL servers do). Once all events of the log were committed, every transaction of the log is in the recorded set.", "quantifier": "all logs; all sets recorded before; all sessions and failed attempts, broken off at any event; both build profiles", "why_tests_cant": "The place named in a GTID request matters only on a reconnection of the same client after it stopped within a transaction; the tests never reconnect.", "anchors": ["src/providers/mysql/mysql_provider.rs:13-34", "src/commands/dump_binlog_gtid_command.rs:25-61", "src/binlog_client.rs:37-61", "src/binlog_client.rs:63-132"]}
{"id": "C112", "title": "Row events with any values a server can store are decoded", "statement": "Every insert, update and delete event of a server is decoded to all its rows and values, also when they hold text in any character set, binary strings (BINARY, VARBINARY) or negative times.", "quantifier": "all tables; all rows and row images with any bytes as text and any times; both versions of the row events; both build profiles", "why_tests_cant": "The tests store ASCII text and positive times only; the space of values is unbounded, and one value decides over all rows of its event.", "anchors": ["src/events/row_events/col_parser.rs:7-14", "src/events/row_events/col_parser.rs:49-96", "src/events/row_events/row_parser.rs:27-187"]}
{"id": "C113", "title": "Statements in any character set and variables of any type are decoded, and their transactions recorded", "statement": "Statement events are decoded whatever character set the statement was sent in, and user-variable events whatever the type of the value. A client by MySQL GTIDs that commits all events it is handed records every transaction of which all events were sent.", "quantifier": "all statements and values, as any bytes; all logs of transactions with one or more such statements; all sets recorded before; both build profiles", "why_tests_cant": "The tests send ASCII statements only, and a refused event has its effect on the recorded set, which no test looks at after an error.", "anchors": ["src/events/query_event.rs:30-58", "src/events/rows_query_event.rs:16-31", "src/events/uservar_event.rs:35-62", "src/binlog_client.rs:63-132"]}
{"id": "C114", "title": "Rows are decoded with the columns of the table map sent last for their table, or refused", "statement": "Row events are decoded with the columns of the table map that the server sent last under their table number, also if that table has columns or metadata of newer servers. If the library does not know these, the rows are refused.", "quantifier": "all tables, also with VECTOR and compressed columns, later metadata fields and ENUM or SET values in any character set; all events before, and all events in between that are not table maps of the same number; both build profiles", "why_tests_cant": "The tests have no tables of newer servers, and none has two tables with the same number, as happens after a restart of the server. Wrong rows come without any error.", "anchors": ["src/events/event_parser.rs:44-123", "src/events/table_map_event.rs:30-100", "src/metadata/table_metadata.rs:60-180", "src/constants/column_type.rs:50-100"]}
{"id": "C115", "title": "Decoding an event asks for memory in proportion to its bytes", "statement": "However the bytes of an event are made up, the buffers that the decoder makes for it because a length or a number of columns says so have a total size bounded by a fixed multiple of the bytes of the event, plus, for row events, one vector of the columns of the table for each row that the bytes can hold.", "quantifier": "all event types, all bytes, all cached table maps, both build profiles, any size of a cell in memory", "why_tests_cant": "A length field is asked for before the bytes behind it are read, so the requests depend on combinations of length fields anywhere in the event; tests on recorded events see only lengths that are true.", "anchors": ["src/extensions.rs:62-66", "src/extensions.rs:100-137", "src/metadata/table_metadata.rs:66-112", "src/metadata/table_metadata.rs:182-201", "src/events/table_map_event.rs:36-113", "src/events/row_events/row_parser.rs:97-128", "src/events/row_events/decimal.rs:28", "src/events/row_events/col_parser.rs:7-28", "src/events/query_event.rs:40", "src/events/uservar_event.rs:35-61"]}
{"id": "C116", "title": "Nothing of a row is lost", "statement": "Two row events in the servers' format that decode to the same event are about the same table, have the same flags and columns, and hold the same bytes in every column of every row: the decoded event determines what the server has stored.", "quantifier": "all column types, all values a server can store, any number of columns and rows, inserts, deletes and updates, both versions, both build profiles", "why_tests_cant": "It compares every two events; a decoder that maps two stored values to one form passes every test that looks at one value at a time.", "anchors": ["src/events/row_events/row_parser.rs:16-128", "src/events/row_events/col_parser.rs:7-168", "src/events/row_events/decimal.rs:10-83"]}
{"id": "C117", "title": "A copy of the data kept from the events is a state the server's data was in", "statement": "An application keeps a copy of the server's data: it takes the events of a transaction together, applies them when the last one has come, forgets what is left over when a session ends, and commits every event it takes. It begins with the data after some first transactions of the server's log, those the GTID set has. After any number of sessions, broken anywhere, and of failed attempts, while the log grows, the copy is the data after some first transactions of the log, and these are exactly the transactions of the log that the recorded set has. When the set has all of them, the copy is the server's data.", "quantifier": "all kinds of data and all effects of transactions on it; all clients with a well-formed ordered set whose requests fit the packets; all logs of distinct GTIDs and their growth; all crypto functions and connections; all written forms of the transactions and neutral events in between; all places where a connection breaks or the application stops; any number of sessions and failed attempts", "why_tests_cant": "The claim is what the library is for, over every history of sessions, every log and every effect of the transactions; a test replays a handful of histories with one table.", "anchors": ["src/binlog_client.rs:37-61", "src/binlog_client.rs:64-132", "src/binlog_events.rs:26-60", "src/commands/dump_binlog_gtid_command.rs", "src/providers/mysql/gtid/gtid_set.rs"]}
{"id": "C118", "title": "Reading asks for memory in proportion to what there is to read", "statement": "The buffers that are made to read packets from a connection or events from a binlog file are together no larger than what is read into them. Reading a packet makes one buffer, smaller than 16 MiB, of exactly the size of the packet. Iterating over a file makes buffers for events above 32 KiB only, and together they are no larger than the file.", "quantifier": "all bytes sent by a server, all files, any number of calls, all decoder states, both build profiles", "why_tests_cant": "The buffers are sized by numbers in the input; the dangerous ones are in inputs nobody writes as a test.", "anchors": ["src/packet_channel.rs:21-32", "src/binlog_reader.rs:39-59"]}
{"id": "C119", "title": "A copy of the data of a MariaDB is a state the server's data was in", "statement": "As C117, with a MariaDB: the application begins with the data after some first transactions of the log when the server, told the recorded GTID list, would send exactly the others. After any number of sessions, broken anywhere, and of failed attempts, while the log grows, the copy is the data after some first transactions of the log, and the server, told the recorded list, would send exactly the others. When it has none to send, the copy is the server's data.", "quantifier": "all kinds of data and all effects of transactions on it; all clients whose list has one GTID per domain and whose requests fit the packets; all logs of distinct GTIDs of any number of domains, and their growth; all crypto functions and connections; all written forms of the transactions, whose flags say whether they are a single statement, and neutral events in between; all places where a connection breaks or the application stops; any number of sessions and failed attempts", "why_tests_cant": "The claim is what the library is for, over every history of sessions, every log and every effect of the transactions; a test replays a handful of histories with one table.", "anchors": ["src/binlog_client.rs:37-61", "src/binlog_client.rs:64-132", "src/binlog_events.rs:26-60", "src/providers/mariadb/gtid/gtid_list.rs"]}
{"id": "C120", "title": "A copy of the tables kept from the row events shows the server's tables", "statement": "A server holds tables, bags of rows, and writes a log of what it does to them: it names tables under numbers, inserts rows, deletes rows, and updates rows one after the other, with other events in between; the values are stored bytes of any kind. A reader that holds a copy of the tables, as the library shows values, and does to it what each decoded event says (append the rows of an insert, take out one equal row for each row of a delete, take out the old row and put in the new one for each update), has, after all items of the stream came without an error, a copy that shows the server's tables: as many rows in each table, and row for row the library's form of the stored values. No item is an error exactly if the library has a form for all values that the log shows. Such a copy determines the stored rows of the server, up to what is below a millisecond, and exactly in tables whose columns hold no more than milliseconds.", "quantifier": "all tables and columns (at least one each, unchanged meanwhile), all contents, all sequences of changes written as row events of version 1 or 2 with all columns, all numbers given to tables, re-used or not, all other events in between, both checksum settings, all packets below 16 MiB; with replicate(), all clients, crypto functions and logins of a conforming server", "why_tests_cant": "a test replays a few statements on a few tables; that the copy agrees after every history, with duplicate rows, re-used table numbers and every stored value, is a statement about all logs", "anchors": ["src/events/row_events/row_parser.rs", "src/events/row_events/write_rows_event.rs", "src/events/row_events/update_rows_event.rs", "src/events/row_events/delete_rows_event.rs", "src/events/table_map_event.rs", "src/events/event_parser.rs", "src/binlog_events.rs"]}
{"id": "C121", "title": "Over broken sessions, a copy of the tables shows the server's tables at some transaction", "statement": "An application has a copy of the tables of a MySQL server as they were after some first transactions of the log, those the GTID set has. It does to the copy what the row events of a transaction say when the last event of the transaction has come, forgets what is left over when a session ends, and commits every event it takes. After any number of sessions, broken anywhere, and of failed attempts, while the log grows, the copy shows the tables as they were after some first transactions of the log: as many rows in each table, and row for row the library's form of the stored values; and these transactions are exactly the ones recorded. When the set has all of them, the copy shows the tables as they are.", "quantifier": "all tables and columns (at least one each, unchanged meanwhile), all contents and all changes to them whose values the library has a form for; all clients with a well-formed ordered set whose requests fit the packets; all logs of distinct GTIDs and their growth; all crypto functions and connections; all written forms of the transactions and neutral events in between; all places where a connection breaks or the application stops; any number of sessions and failed attempts", "why_tests_cant": "The claim joins the stored bytes of every row, every transaction and every history of sessions; a test replays a handful of histories with one table.", "anchors": ["src/binlog_client.rs:37-61", "src/binlog_client.rs:64-132", "src/binlog_events.rs:26-60", "src/events/row_events/row_parser.rs", "src/events/table_map_event.rs", "src/events/event_parser.rs", "src/commands/dump_binlog_gtid_command.rs", "src/providers/mysql/gtid/gtid_set.rs"]}
{"id": "C122", "title": "Over broken sessions, a copy of the tables of a MariaDB shows its tables at some transaction", "statement": "As C121, with a MariaDB: the copy begins as the tables after some first transactions of the log when the server, told the recorded GTID list, would send exactly the others. After any number of sessions, broken anywhere, and of failed attempts, while the log grows, it shows the tables as they were after some first transactions, and the server, told the recorded list, would send exactly the others. When it has none to send, the copy shows the tables as they are.", "quantifier": "as C121, for all clients whose list has one GTID per domain and logs of any number of domains; the flags of a transaction say whether it is a single statement", "why_tests_cant": "The claim joins the stored bytes of every row, every transaction and every history of sessions; a test replays a handful of histories with one table.", "anchors": ["src/binlog_client.rs:37-61", "src/binlog_client.rs:64-132", "src/binlog_events.rs:26-60", "src/events/row_events/row_parser.rs", "src/events/table_map_event.rs", "src/events/event_parser.rs", "src/providers/mariadb/gtid/gtid_list.rs"]}
{"id": "C123", "title": "Over broken sessions by file and position, a copy of the tables shows the server's tables at the recorded place", "statement": "An application that replicates by file and position has a copy of the tables as they were at the place it begins at. It does to the copy what each event says as it comes, and commits the event. After any number of sessions, broken anywhere, and of failed attempts, the copy shows the tables as they were at the recorded place: as many rows in each table, and row for row the library's form of the stored values; no change is missing and none is made twice, though table maps may come again. When the log has nothing from the recorded place on, the copy shows the tables as they are.", "quantifier": "all logs of files with distinct names, increasing positions and rotations that name the next file; all tables and columns (at least one each, unchanged meanwhile), all contents and all changes to them whose values the library has a form for; all clients that begin at a place of the log; all crypto functions and connections; all events a server adds that are not in its log and do not speak of rows; all places where a connection breaks or the application stops; any number of sessions and failed attempts", "why_tests_cant": "The claim joins the stored bytes of every row, every file of the log and every history of sessions; a test replays a handful of histories with one table.", "anchors": ["src/binlog_client.rs:37-61", "src/binlog_client.rs:64-132", "src/binlog_events.rs:26-60", "src/events/row_events/row_parser.rs", "src/events/table_map_event.rs", "src/events/event_parser.rs", "src/commands/dump_binlog_command.rs"]}
{"id": "C124", "title": "A copy of the tables is kept also from row images that do not show all columns", "statement": "With binlog_row_image=MINIMAL or NOBLOB the log shows of a deleted or updated row at least the columns of the table's key, of a new row the columns that were given a value, and of an updated row the columns that were set. An application that knows the columns' defaults, looks for the row that has the cells of the image, and does what the event says, keeps a copy that shows the server's tables: after any records, and over any number of broken sessions. An item of the stream is an error exactly if the record shows a value for which the library has no form.", "quantifier": "all tables, columns, keys and defaults, all contents in which the key tells rows apart, all changes whose images show at least one column; all written forms; for sessions, everything that C121 ranges over", "why_tests_cant": "Which columns are shown and whether they find the right row depends on every table, key, content and change; tests use full images.", "anchors": ["src/events/row_events/row_parser.rs", "src/events/row_events/write_rows_event.rs", "src/events/row_events/update_rows_event.rs", "src/events/row_events/delete_rows_event.rs", "src/events/event_parser.rs", "src/binlog_events.rs:26-60"]}
{"id": "C125", "title": "One whole session brings a copy up to date, whatever happened before", "statement": "An application keeps a copy of a MySQL server's data by applying each transaction when its last event has come, and commits every event (C117), or a copy of the tables by GTID (C121) or by file and position (C123). After any number of sessions broken anywhere and of failed attempts, while the log grows: when a conforming server lets the client in and sends what the client asks for, all of it, then replicate() succeeds, the iterator gives every event, every commit succeeds, and the copy is the server's data and shows its tables as they are; by GTID, all transactions of the log are recorded, and by file and position nothing is left to send but table maps.", "quantifier": "all histories of sessions and failed attempts, all logs, starting sets and places, all ways of keeping a copy, all tables and changes, all written forms, both build profiles", "why_tests_cant": "The state from which the client recovers is the result of an unbounded history of interruptions; tests try a few.", "anchors": ["src/binlog_client.rs:36-160", "src/connect.rs", "src/configure.rs", "src/binlog_events.rs:26-60", "src/events/event_parser.rs"]}
{"id": "C126", "title": "One whole session brings a copy of a MariaDB's data up to date", "statement": "As C125, with MariaDB GTIDs: after any number of sessions broken anywhere and of failed attempts, while the log grows, one whole session brings the copy up to date, and the server, told the recorded list, has nothing left to send.", "quantifier": "all histories of sessions and failed attempts, all logs and starting lists with one GTID per domain, all ways of keeping a copy, both build profiles", "why_tests_cant": "The state from which the client recovers is the result of an unbounded history of interruptions; tests try a few.", "anchors": ["src/binlog_client.rs:36-160", "src/providers/mariadb/gtid/gtid_list.rs", "src/configure.rs", "src/binlog_events.rs:26-60"]}
{"id": "C127", "title": "An application that stops at errors and connects again gets every transaction in the end", "statement": "An application by MySQL or MariaDB GTIDs or by file and position commits the events it is given, stops at the first error, and connects again. Then, over sessions with a server that sends all that is not recorded, every transaction of the log is applied and recorded (by file and position: every event comes), also if some have text in other character sets, binary strings or negative times.", "quantifier": "all logs of transactions, any records of which may hold values the library has no form for, and all log files with such records; all initial sets, lists and places; all sessions and failed attempts, broken off anywhere, while the log grows; all ways to apply a transaction; both build profiles", "why_tests_cant": "What an application never gets, over however many sessions, no finite run shows.", "anchors": ["src/binlog_events.rs", "src/binlog_client.rs", "src/events/event_parser.rs", "src/events/row_events/row_parser.rs", "src/events/query_event.rs"]}
{"id": "C128", "title": "An application that passes over errors loses nothing for good", "statement": "An application by MySQL or MariaDB GTIDs or by file and position commits the events it is given, passes over errors, and connects again after whatever broke a session. Then every change of the log reaches it, at the latest in a later session.", "quantifier": "all logs of transactions, any records of which between their beginning and end may hold values the library has no form for, and all log files with such records; all initial sets, lists and places; all sessions and failed attempts, broken off anywhere, while the log grows; all ways to apply a transaction; both build profiles", "why_tests_cant": "It is about all logs and all ways sessions can break; a test has one of each.", "anchors": ["src/binlog_events.rs", "src/binlog_client.rs", "src/events/event_parser.rs", "src/events/row_events/row_parser.rs", "src/events/query_event.rs"]}
{"id": "C129", "title": "Builds with and without overflow checks do the same, unless the one with checks crashes", "statement": "Whatever an application does with the library (set up replication, take and commit events, read files, parse and add GTIDs) and whatever servers, files and texts it meets: if the debug build (overflow checks) does not panic, then the release build makes the same calls, gets the same results and errors, sends the same bytes and leaves the same state.", "quantifier": "all applications as functions of what they have got so far; all numbers of calls; all clients, connections, servers, files, texts and GTIDs", "why_tests_cant": "Tests run one build profile on some inputs; that two builds agree on all inputs no test shows.", "anchors": ["src/binlog_client.rs", "src/binlog_events.rs", "src/binlog_reader.rs", "src/events/event_parser.rs", "src/providers/mysql/gtid/uuid_set.rs", "src/commands/dump_binlog_gtid_command.rs", "src/connect.rs"]}
{"id": "C130", "title": "The order of hash maps makes no difference", "statement": "GTID sets and table maps are hash maps, whose order is unspecified and differs from run to run. Whatever order each of them is in at any moment, an application that does not itself look at the order makes the same calls, gets the same events, texts, flags, errors and crashes, records the same positions and sends the same packets, except that the request for events by GTIDs may list the same servers in another order.", "quantifier": "all applications that do not look at the order; all numbers of calls; all orders at every call; all clients, connections, servers, files, texts and GTIDs; both build profiles", "why_tests_cant": "A test sees the one order its run happens to have; an order-dependent result shows up only now and then.", "anchors": ["src/providers/mysql/gtid/gtid_set.rs", "src/providers/mysql/events/prev_gtids_event.rs", "src/events/event_parser.rs", "src/commands/dump_binlog_gtid_command.rs", "src/binlog_client.rs"]}
{"id": "C131", "title": "Transactions may be committed in any order, and again", "statement": "Two clients that start from the same position and commit the same transactions, each in an order of its own and any of them more than once, record the same position, with the same text; committing a transaction that is already recorded changes nothing.", "quantifier": "all starting positions; all lists of transactions with the same members; all orders and repetitions; both build profiles", "why_tests_cant": "The orders of any number of transactions of any number of servers, with repetitions, cannot be enumerated.", "anchors": ["src/binlog_client.rs:commit", "src/providers/mysql/gtid/gtid_set.rs:add_gtid", "src/providers/mariadb/gtid/gtid_list.rs:add_gtid"]}
{"id": "C132", "title": "Tables are decoded apart from each other", "statement": "Leaving all table maps and row events of some tables out of a sequence of events, or putting others in, whatever is in them, makes no difference to what the decoder answers to the remaining events.", "quantifier": "all sequences of events, well formed or not; all sets of table numbers; all decoder states; both build profiles", "why_tests_cant": "A leak from one table to another needs the right combination of table numbers, repeated maps and event contents; there are too many to try.", "anchors": ["src/events/event_parser.rs:parse_event", "src/events/row_events/row_parser.rs", "src/events/table_map_event.rs"]}
{"id": "C133", "title": "What the client does depends only on what it has been sent so far", "statement": "While replication is being set up, the outcome, the bytes written and the packets exchanged depend only on what has been received: with more to come they are the same, or go on from where the client waited. So whoever is at the other end and however they choose what to send by what they are sent, what happens is what happens with a fixed script of bytes. Of a stream, an event that has come whole is delivered the same whatever comes behind it.", "quantifier": "all clients and options, all connections (also those that take packets piecemeal or break), all bytes received and all that may come later, all ways in which the other side may answer, both build profiles", "why_tests_cant": "It compares runs for all continuations, and is about all possible partners in the conversation, not only the servers a test has at hand.", "anchors": ["src/connect.rs", "src/configure.rs", "src/packet_channel.rs", "src/binlog_client.rs", "src/binlog_events.rs", "src/providers/mariadb/mariadb_provider.rs", "src/providers/mysql/mysql_provider.rs"]}
{"id": "C134", "title": "It is enough to commit the end of each transaction", "statement": "An application that commits only the last event of each transaction (and the events between transactions) leaves the client as one that commits every event does: the same GTIDs, file, position and state.", "quantifier": "all clients and recorded positions, all strategies, all streams of MySQL or MariaDB transactions of any number and length, both build profiles", "why_tests_cant": "It compares two ways of using the library over all streams and all states to start from.", "anchors": ["src/binlog_client.rs"]}
{"id": "C135", "title": "Committing the first and the last event of each transaction loses none, over any number of sessions (MariaDB GTIDs)", "statement": "As C104, with an application that of the events it takes commits only those that are first or last in their transaction, and those between transactions. Then the transactions whose last event was committed, session after session, followed by those the server has to send after being told the recorded list, are exactly those it had to send after the initial list: each once, in the order of the log, also when transactions have statements before their last event.", "quantifier": "as C104, for all MariaDB transactions", "why_tests_cant": "It is about all histories of sessions broken anywhere, all logs and all transactions.", "anchors": ["src/binlog_client.rs", "src/providers/mariadb/mariadb_provider.rs", "src/providers/mariadb/gtid/gtid_list.rs", "src/binlog_events.rs"]}
{"id": "C136", "title": "Applying whole transactions and then committing their first and last event keeps an exact copy of a MariaDB", "statement": "An application gathers the events of a transaction; when it has them all, it brings its copy of the data up to date and commits the first and the last of them. After any number of sessions broken anywhere and of failed attempts, while the log grows, the copy is the data after some first transactions of the log, and the server, told the recorded list, would send exactly the others. One whole session brings the copy up to date. A copy of the tables shows the tables as they were after those transactions.", "quantifier": "as C119, C122 and C126, for all MariaDB transactions whose flags say whether they are a single statement, also with statements before their last event", "why_tests_cant": "It is about all histories of sessions, logs, data and ways of applying transactions.", "anchors": ["src/binlog_client.rs", "src/providers/mariadb/mariadb_provider.rs", "src/providers/mariadb/gtid/gtid_list.rs", "src/binlog_events.rs", "src/events/row_events/row_parser.rs"]}
{"id": "C137", "title": "An application whose commits lag behind what it has applied gets every transaction, and some again", "statement": "An application applies transactions when they have come whole, and may stop or lose its connection when it has not yet committed all of them. Over any number of such sessions and of failed attempts, while the log grows, what it applies are runs of transactions in the order of the log, of which each begins with the first transaction that is not recorded: none is left out, and exactly those between the recorded ones and the end of the last run come again. If each transaction writes values into places of the data whatever they held, each place of the copy always holds what it held on the server after the recorded transactions and some first ones of the others; when all are recorded, or once one session has been taken whole, the copy is the server's data. If transactions do not overwrite, it need not be.", "quantifier": "all logs of MySQL (commits of all events) and of MariaDB with any statements inside (commits of first and last events), all histories of sessions, all numbers of events taken and commits done, all data and ways of applying", "why_tests_cant": "It is about all points at which an application may be interrupted in all its sessions, and all data.", "anchors": ["src/binlog_client.rs", "src/binlog_events.rs", "src/providers/mysql/mysql_provider.rs", "src/providers/mariadb/mariadb_provider.rs", "src/providers/mysql/gtid/gtid_set.rs", "src/providers/mariadb/gtid/gtid_list.rs"]}
{"id": "C138", "title": "A copy of the tables kept by keys survives interruptions anywhere", "statement": "An application keeps, for each table and key, the row with that key: rows written replace what is under their key, rows deleted leave it empty. It may stop anywhere, also between applying and committing, and then gets transactions again (C137). If no two rows of a table have the same key, then under each key the copy always has what the server's table had under it at some time since the recorded transactions; and when all transactions are recorded, or once one session has been taken whole, the copy has exactly the rows of the server's tables, each under its key.", "quantifier": "all tables, columns, values, keys, logs and histories of interrupted sessions, with MySQL and MariaDB", "why_tests_cant": "It is about all points at which an application may be interrupted in all its sessions, and all contents of tables.", "anchors": ["src/binlog_client.rs", "src/binlog_events.rs", "src/events/row_events/row_parser.rs", "src/events/event_parser.rs", "src/providers/mysql/mysql_provider.rs", "src/providers/mariadb/mariadb_provider.rs"]}
{"id": "C139", "title": "By file and position, an application whose commits lag behind gets every event, and a copy by keys stays exact", "statement": "A client replicates by file name and position. The application does what each event says when it comes, and its commits lag behind: when a session ends, it has committed any first part of what it has taken. It may also be started again with a new client made from the recorded file name and position. Over any number of sessions, restarts and failed attempts it gets every event that it has not committed again, in order, and leaves none out (table maps left out of the count). If it keeps the tables by keys, and no two rows of a table have the same key, then under each key the copy has what the server's table had under it at the recorded place or at a later one; and when nothing is left, or once one session has been taken to the end of the log, it has exactly the rows of the server's tables, each under its key.", "quantifier": "all logs of any number of files, clients by file and position at a place in the log, tables, columns, values and keys, places where a session or the application stops, commits of any first part of the events taken", "why_tests_cant": "It is about all points at which an application may be interrupted in all its sessions, and all logs and contents of tables.", "anchors": ["src/binlog_client.rs", "src/binlog_events.rs", "src/events/event_parser.rs", "src/events/row_events/row_parser.rs", "src/commands/dump_binlog_command.rs"]}
{"id": "C140", "title": "A program that is killed and started again from the text of what it recorded loses no transaction", "statement": "A program keeps a copy by GTIDs; its commits lag behind what it has applied. It is stopped or killed at any time and started again with a new client made from the text that the recorded GTID set (MySQL) or list (MariaDB) prints to, any number of times, while the log grows. That text is always accepted, and means the same transactions. Over all restarts, sessions and failed attempts the program gets every transaction that is not recorded, in the order of the log, each run beginning with the first one that is not recorded. If transactions overwrite, each place of the copy holds what it held on the server at the recorded transactions or later. If it keeps tables by unique keys, then under each key it has what the server's table had at some such time, and once all are recorded, or once one session has been taken whole, exactly the rows of the server's tables.", "quantifier": "all logs of MySQL (commits of all events) and of MariaDB (commits of first and last events), histories of sessions and restarts, options of the new clients that name the text, numbers of events taken and commits done, tables, keys and values", "why_tests_cant": "It is about all points at which a program may be killed, all texts it may be started again from, and all contents of tables.", "anchors": ["src/binlog_client.rs", "src/binlog_options.rs", "src/providers/mysql/gtid/gtid_set.rs", "src/providers/mysql/gtid/uuid_set.rs", "src/providers/mysql/gtid/uuid.rs", "src/providers/mysql/gtid/interval.rs", "src/providers/mariadb/gtid/gtid_list.rs", "src/providers/mariadb/gtid/gtid.rs"]}
{"id": "C141", "title": "A program may go back to an older saved text, if it throws the newer ones away", "statement": "A program saves the text of the recorded GTID set (MySQL) or list (MariaDB) now and then, also in the middle of sessions, and is killed and started again any number of times from some text that it has saved, not always the last one. Every saved text is accepted, and means a first part of the transactions, all of which have been applied; in whatever order the texts are used, no transaction is left out. If transactions overwrite, and a program that goes back to an older text throws away the newer ones, each place of the copy holds what it held on the server at the recorded transactions or later; tables kept by unique keys are exact once all is recorded, or once one session has been taken whole. If the newer texts are kept and used later, everything may be recorded while the copy is not the server's data. The same holds of a program that saves the recorded file and position: every saved place is one of the log, all events before it but table maps have been taken, and a copy by keys that goes back, throwing away the newer places, is exact once the log has nothing from the recorded place on, or once one session has been taken whole.", "quantifier": "all logs of MySQL (commits of all events) and of MariaDB (commits of first and last events), all logs by file and position, histories of sessions, failed attempts, saved texts and restarts, numbers of events taken and commits done before and after each save, tables, keys and values", "why_tests_cant": "It is about all interleavings of saving, committing, being killed and going back, and all contents of tables.", "anchors": ["src/binlog_client.rs", "src/binlog_options.rs", "src/providers/mysql/gtid/gtid_set.rs", "src/providers/mysql/gtid/uuid_set.rs", "src/providers/mysql/mysql_provider.rs", "src/providers/mariadb/mariadb_provider.rs", "src/providers/mariadb/gtid/gtid_list.rs"]}
{"id": "C142", "title": "A decoded row event is in proportion to its bytes", "statement": "However the bytes of a row event are made up, what it is decoded to is at most eight times as large as the event, counting one for each cell of each row (of updates, of both images) and one for each byte of text or blob, each bit of a BIT and each character of a DECIMAL that the cells hold.", "quantifier": "all types of row events, all bytes, all decoder states that can be reached, both build profiles", "why_tests_cant": "It is a bound over all bytes and all tables; tests use tables of a few columns and images that show them all, where it holds.", "anchors": ["src/events/row_events/row_parser.rs", "src/events/row_events/col_parser.rs", "src/events/row_events/decimal.rs", "src/events/row_events/write_rows_event.rs", "src/events/row_events/update_rows_event.rs", "src/events/row_events/delete_rows_event.rs"]}
{"id": "C143", "title": "Decoded events other than row events are in proportion to their bytes", "statement": "However the bytes of an event that is not a row event are made up, what it is decoded to is at most four times as large as the event, counting each byte of text and of byte strings, each bit, each character of a uuid and each entry of a list; three times is not enough. The table maps that a decoder keeps are, after any events, together at most four times as large as the bytes of the events, and none of the tables it knows is ever forgotten.", "quantifier": "all event types but row events, all bytes, all decoder states, both build profiles; all sequences of events, accepted or refused", "why_tests_cant": "A test decodes events of some shapes. That no combination of counts, repeated metadata fields and texts makes a small event large is a claim about all bytes.", "anchors": ["src/events/table_map_event.rs", "src/metadata/table_metadata.rs", "src/providers/mysql/events/prev_gtids_event.rs", "src/events/event_parser.rs"]}
{"id": "C144", "title": "A copy of chosen tables, kept by keys, survives interruptions anywhere", "statement": "An application keeps a copy of some of the tables by keys, does nothing with the rows of the other tables, and may stop anywhere, also between applying and committing. If no two rows of a chosen table ever have the same key, then under each key of a chosen table the copy has what the server's table had under that key at some time since the transactions that are recorded; when all are recorded, and also after one whole session, it has exactly the rows of the chosen tables, each under its key, and nothing of the others. The other tables need not have keys. The same holds when the application also saves its place now and then and is killed and started again from any saved place, also an older one, if it throws the newer ones away then.", "quantifier": "all choices of tables, all keys, all histories of the tables, all sequences of sessions with interruptions anywhere and restarts from any saved place, MySQL GTIDs, MariaDB GTIDs and file and position, both build profiles", "why_tests_cant": "Which rows are applied again after an interruption depends on where it happens; the claim is about all of them and about all changes of tables that are not followed.", "anchors": ["src/binlog_client.rs", "src/binlog_events.rs", "src/events/row_events/row_parser.rs", "src/events/event_parser.rs", "src/providers/mysql/mysql_provider.rs", "src/providers/mariadb/mariadb_provider.rs"]}
{"id": "C145", "title": "Setting up replication sends at most 13 packets", "statement": "Whatever the server sends and whatever the connection does with what is written, setting up replication sends at most 13 packets; by the options: 13 by GTID with a list of MariaDB GTIDs, 8 by GTID without one, 10 from the end of the log, 9 from a given place, and 1 where encryption is required. Each of these numbers is reached with some server. When it succeeds it has sent at least 5, or 6 where the end of the log had to be found. Whoever is at the other end and however they choose what to send, one round more than the client may send packets settles everything.", "quantifier": "all clients and options, all bytes received, all results of writes, all hash and RSA functions, both build profiles; the numbers are reached with one server for each kind of options", "why_tests_cant": "A server that sends unusual answers (another plugin, a full password exchange, errors at any point) leads through combinations of the log-in and of the requests that no test server shows; the bound holds over all of them.", "anchors": ["src/connect.rs:19-156", "src/configure.rs:12-65", "src/providers/mariadb/mariadb_provider.rs:10-62", "src/providers/mysql/mysql_provider.rs:8-33", "src/binlog_client.rs:37-61"]}
