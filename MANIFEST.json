{
 "claims": [
  {
   "property": "C01",
   "status": "proved",
   "theorems": [
    "MysqlCdc.C01_add_gtid_adds_exactly",
    "MysqlCdc.C01_history_adds_exactly",
    "MysqlCdc.C01_bound_needed"
   ],
   "note": "Ids below 2^64-1 (MySQL ids end at 2^63-2); C01_bound_needed shows the bound is needed."
  },
  {
   "property": "C02",
   "status": "proved",
   "theorems": [
    "MysqlCdc.C02_stays_canonical"
   ],
   "note": ""
  },
  {
   "property": "C03",
   "status": "proved",
   "theorems": [
    "MysqlCdc.C03_reports_new"
   ],
   "note": ""
  },
  {
   "property": "C04",
   "status": "proved",
   "theorems": [
    "MysqlCdc.C04_order_independent"
   ],
   "note": "Every permutation of the hash maps."
  },
  {
   "property": "C05",
   "status": "proved",
   "theorems": [
    "MysqlCdc.C05_print_parse"
   ],
   "note": "Any canonical set, any hash-map order, ids over the whole u64 range."
  },
  {
   "property": "C06",
   "status": "partial",
   "theorems": [
    "MysqlCdc.C06_parse_keeps_all_partial",
    "MysqlCdc.C06_last_entry_counts",
    "MysqlCdc.C06_parsed_canonical",
    "MysqlCdc.C06_repeated_server_false",
    "MysqlCdc.C06_after_the_top_false",
    "MysqlCdc.C77_keeps"
   ],
   "note": "False when a text names a server twice (the last entry wins: C06_repeated_server_false; C06_last_entry_counts says for every text exactly what is kept), and when an interval up to u64::MAX is followed by another one (C06_after_the_top_false). Proved for all other texts."
  },
  {
   "property": "C07",
   "status": "partial",
   "theorems": [
    "MysqlCdc.C07_malformed_text_panics_false",
    "MysqlCdc.C07_gtid_set_returns_partial",
    "MysqlCdc.C07_gtid_list_returns_partial",
    "MysqlCdc.C77_crashes_iff",
    "MysqlCdc.C78_crashes_iff"
   ],
   "note": "False: several malformed texts panic (counterexamples). Proved: exactly which texts crash each parser (C77_crashes_iff, C78_crashes_iff), and simple sufficient conditions under which both parsers return."
  },
  {
   "property": "C08",
   "status": "proved",
   "theorems": [
    "MysqlCdc.C08_uuid_roundtrip",
    "MysqlCdc.C08_uuid_shape",
    "MysqlCdc.C08_uuid_injective"
   ],
   "note": ""
  },
  {
   "property": "C09",
   "status": "partial",
   "theorems": [
    "MysqlCdc.C09_one_entry_partial",
    "MysqlCdc.C09_upper_case_false",
    "MysqlCdc.C98_one_entry_iff"
   ],
   "note": "False of the code for upper-case text (C09_upper_case_false); the partial theorem covers usual lower-case texts. C98 says for every set and history exactly when a server gets a second entry."
  },
  {
   "property": "C10",
   "status": "proved",
   "theorems": [
    "MysqlCdc.C10_dump_request",
    "MysqlCdc.C10_one_reading"
   ],
   "note": "For every permutation of the map and every set within the wire limits; plus uniqueness of the reading of the published format."
  },
  {
   "property": "C100",
   "status": "proved",
   "theorems": [
    "MysqlCdc.C100_attempt",
    "MysqlCdc.C100_mysql_gtids",
    "MysqlCdc.C100_mariadb_gtids",
    "MysqlCdc.C100_position"
   ],
   "note": "Life = any sequence of commit and replicate calls; Cuts = how the committed events fall into sessions. C100_attempt: every call of replicate leaves the client alone or begins a session."
  },
  {
   "property": "C101",
   "status": "partial",
   "theorems": [
    "MysqlCdc.C101_exact",
    "MysqlCdc.C101_between_partial",
    "MysqlCdc.C101_false"
   ],
   "note": "False when the failure falls inside a packet: the part that was read is thrown away and the rest is taken for packets, so that statement text can become an event (C101_false). C101_between_partial: the claim for failures between packets, any number of them. C101_exact: what is delivered in every case."
  },
  {
   "property": "C102",
   "status": "partial",
   "theorems": [
    "MysqlCdc.C102_whole_partial",
    "MysqlCdc.C102_cut_out",
    "MysqlCdc.C102_false"
   ],
   "note": "False when the reader is called while an event is being written: the part that was there is lost and the rest is taken for an event (C102_false). C102_whole_partial: the claim when the file holds whole events at every call. C102_cut_out: what happens otherwise."
  },
  {
   "property": "C103",
   "status": "proved",
   "theorems": [
    "MysqlCdc.C103_mysql_each_once",
    "MysqlCdc.C103_mysql_session"
   ],
   "note": "The server is described by what it reads from the request (DumpGtidPacket; the sets read are unique, Lemmas/DumpRead) and by the bytes it sends; C103_mysql_each_once is about any number of sessions, C103_mysql_session says that sessions of the kind come about for every number of events taken. In the model of the protocol only (no real server). The server finds the transactions to send by the set alone, not by the file and position that are in the request too (see C111)."
  },
  {
   "property": "C104",
   "status": "partial",
   "theorems": [
    "MysqlCdc.C104_mariadb_each_once_partial",
    "MysqlCdc.C104_mariadb_session",
    "MysqlCdc.C104_false"
   ],
   "note": "False when a transaction has a statement before its last event: the GTID is recorded early and the rest is lost (C104_false, as C18). C104_mariadb_each_once_partial is the property for all other transactions; C104_mariadb_session says that such sessions come about, for any transactions."
  },
  {
   "property": "C105",
   "status": "proved",
   "theorems": [
    "MysqlCdc.C105_each_event_once",
    "MysqlCdc.C105_session"
   ],
   "note": "C105_each_event_once: the server is given by what it sends: it reads the request and serves its log from there; C105_session: such sessions come about with a conforming server, for any number of events taken. C21 says the same for events that are given already; here they come from bytes."
  },
  {
   "property": "C106",
   "status": "proved",
   "theorems": [
    "MysqlCdc.C106_sound",
    "MysqlCdc.C106_complete",
    "MysqlCdc.C106_failed_read"
   ],
   "note": "C106_sound and C106_complete: the results are exactly those the bytes allow (up to the order of the servers in sets of previous GTIDs, as in C81); C106_failed_read: the last sentence. What is written during a call is the same as written before or after it (see C102). read_exact retries reads that are interrupted."
  },
  {
   "property": "C107",
   "status": "partial",
   "theorems": [
    "MysqlCdc.C107_without_flags_partial",
    "MysqlCdc.C107_flags_refused",
    "MysqlCdc.C107_false"
   ],
   "note": "False of the code: the flags are taken for a part of the number. Without flags the list is decoded (C107_without_flags_partial); with any flag, every list is refused as an early end of the bytes (C107_flags_refused), which the file reader takes for the end of the file (C107_false)."
  },
  {
   "property": "C108",
   "status": "proved",
   "theorems": [
    "MysqlCdc.C108_mysql",
    "MysqlCdc.C108_mysql_injective",
    "MysqlCdc.C108_mariadb",
    "MysqlCdc.C108_mariadb_injective"
   ],
   "note": "MySQL GTIDs over all 16-byte servers and all ids of 64 bits; MariaDB GTIDs over the ranges of their fields."
  },
  {
   "property": "C109",
   "status": "partial",
   "theorems": [
    "MysqlCdc.C109_compressed_partial",
    "MysqlCdc.C109_tagged_partial",
    "MysqlCdc.C109_mixed_partial",
    "MysqlCdc.C109_not_decoded",
    "MysqlCdc.C109_never_recorded",
    "MysqlCdc.C109_false"
   ],
   "note": "False of the code: event types 40 and 42 are handed out as unknown events (C109_not_decoded), so a compressed transaction is not recorded with its own events (C109_never_recorded, C109_false). Proved instead, for every stream of ordinary, compressed, tagged, and tagged compressed transactions and every prefix, exactly what is recorded (C109_mixed_partial): the ordinary transactions of which all events were committed, and the compressed ones behind which a whole uncompressed tagged transaction was committed with no other GTID in between (the end of the tagged one is taken for the end of the compressed one). C109_compressed_partial and C109_tagged_partial are the cases of one kind among ordinary ones; the first starts from any pending GTID."
  },
  {
   "property": "C11",
   "status": "proved",
   "theorems": [
    "MysqlCdc.C11_previous_gtids",
    "MysqlCdc.C11_inverts_dump_request"
   ],
   "note": "Decoding of previous-gtids events, and inversion of the data part of the dump request."
  },
  {
   "property": "C110",
   "status": "partial",
   "theorems": [
    "MysqlCdc.C110_compressed_partial",
    "MysqlCdc.C110_not_decoded",
    "MysqlCdc.C110_never_recorded",
    "MysqlCdc.C110_false"
   ],
   "note": "False of the code: the compressed events of MariaDB (types 165 to 171) are handed out as unknown events (C110_not_decoded), so a compressed statement leaves the recorded list as it was (C110_never_recorded, C110_false). Proved instead, for every stream and every prefix: the list holds for each domain the last finished GTID of the transactions that are not compressed statements, or what it held before. As in C18, transactions have no statement before their last event."
  },
  {
   "property": "C111",
   "status": "partial",
   "theorems": [
    "MysqlCdc.C111_between_partial",
    "MysqlCdc.C111_first_partial",
    "MysqlCdc.C111_cut",
    "MysqlCdc.C111_never_recorded",
    "MysqlCdc.C111_cut_never_recorded",
    "MysqlCdc.C111_false"
   ],
   "note": "False of the code. The request carries the recorded file and position besides the set, so a server that starts there resumes within the transaction, behind its GTID event (C111_cut); that transaction is then never recorded, over any number of sessions, although every event is received and committed once (C111_cut_never_recorded; in general C111_never_recorded). A new client that starts from the stored set gets it a second time. What holds: stopping between transactions loses nothing (C111_between_partial), and the first request of a client names no file (C111_first_partial). The log here holds no transaction the set lists, and what the server makes up is neutral. How a MySQL server reads the file name is knowledge about the server, not from the repository."
  },
  {
   "property": "C112",
   "status": "partial",
   "theorems": [
    "MysqlCdc.C112_write_and_delete_partial",
    "MysqlCdc.C112_update_partial",
    "MysqlCdc.C112_false"
   ],
   "note": "False as stated (C112_false): an event with one text value that is not UTF-8 (Latin-1, BINARY) or one negative TIME is refused as a whole. Proved: for all events in the servers' format with any such values, the event is decoded to its rows exactly if all values have a form in the library, and otherwise gives the error for the first value without one, the decoder being as before."
  },
  {
   "property": "C113",
   "status": "partial",
   "theorems": [
    "MysqlCdc.C113_text_partial",
    "MysqlCdc.C113_recorded_partial",
    "MysqlCdc.C113_false"
   ],
   "note": "False as stated (C113_false): a statement that is not UTF-8 is refused, and if it is a transaction of its own (DDL) the transaction is never recorded, so it comes again in every session; a user variable with the integer value 200 is refused. Proved: such events are decoded exactly if their bytes are UTF-8; of any log of such transactions exactly those are recorded that have an end of their own or are single statements in UTF-8."
  },
  {
   "property": "C114",
   "status": "partial",
   "theorems": [
    "MysqlCdc.C114_table_partial",
    "MysqlCdc.C114_rows_partial",
    "MysqlCdc.C114_false"
   ],
   "note": "False of the code (C114_false): a refused table map leaves an older one with the same number in use, and the rows of the new table are decoded with the columns of the old one. Proved exactly: a known table map is decoded, kept and used for the rows that follow; any other is refused, and rows are then treated as if it had not been sent."
  },
  {
   "property": "C115",
   "status": "partial",
   "theorems": [
    "MysqlCdc.C115_same_result",
    "MysqlCdc.C115_requests_partial",
    "MysqlCdc.C115_decoded_partial",
    "MysqlCdc.C115_false"
   ],
   "note": "False of the code: 17 bytes make it ask for any size below 2^63 (C115_false), since buffers are made before their bytes are known to be there. Proved: the run with requests is the run of the decoder; every event that is handed out asked for at most n bytes (9n for table maps, 8n plus one vector of the row per byte for row events, two for updates); a refused or panicking one too, but for one last request that is followed by the error of a too short event. Missing: events on which the decoder loops for ever (C38), which ask for ever."
  },
  {
   "property": "C116",
   "status": "partial",
   "theorems": [
    "MysqlCdc.C116_value_partial",
    "MysqlCdc.C116_write_and_delete_partial",
    "MysqlCdc.C116_update_partial",
    "MysqlCdc.C116_value_lost",
    "MysqlCdc.C116_write_and_delete_lost",
    "MysqlCdc.C116_update_lost",
    "MysqlCdc.C116_false"
   ],
   "note": "False for TIME, DATETIME and TIMESTAMP with four to six fractional digits: what is below a millisecond is dropped (C116_false). Proved: two events that decode to the same are the same byte for byte up to that part of a time, and exactly the same if no column has more than three fractional digits. That part is all that is lost: two decoded events are the same if and only if table, flags, columns and rows are the same up to it (the three _lost theorems)."
  },
  {
   "property": "C117",
   "status": "proved",
   "theorems": [
    "MysqlCdc.C117_copy",
    "MysqlCdc.C117_session"
   ],
   "note": "The copy is any type with any effect of a transaction on it. Sessions are those of C103 with the events of the transactions; that sessions come about is C117_session."
  },
  {
   "property": "C118",
   "status": "partial",
   "theorems": [
    "MysqlCdc.C118_packet_same_result",
    "MysqlCdc.C118_packet",
    "MysqlCdc.C118_file_same_result",
    "MysqlCdc.C118_file_partial",
    "MysqlCdc.C118_false"
   ],
   "note": "Holds for connections and for all events that the file has. False for the last one: a header announces up to 4 GiB and the buffer is made before the file is known to be that long (C118_false: a file of 23 bytes). C118_file_partial says that this is the only exception."
  },
  {
   "property": "C119",
   "status": "partial",
   "theorems": [
    "MysqlCdc.C119_copy_partial",
    "MysqlCdc.C119_session",
    "MysqlCdc.C119_false"
   ],
   "note": "False when a transaction has a statement before its last event and the application stops behind that statement: the copy stays without the transaction and the server has nothing left to send (C119_false). C119_copy_partial is the property for all other transactions; C119_session says that such sessions come about."
  },
  {
   "property": "C12",
   "status": "partial",
   "theorems": [
    "MysqlCdc.C12_commit_returns_unchecked",
    "MysqlCdc.C12_commit_returns_partial",
    "MysqlCdc.C12_max_id_false",
    "MysqlCdc.C94_commit_panics_iff"
   ],
   "note": "Any history of replicate/commit from constructed options. Proved without overflow checks; with checks, for ids below 2^64-1; false at 2^64-1 (witness). C94_commit_panics_iff says exactly when commit panics."
  },
  {
   "property": "C120",
   "status": "proved",
   "theorems": [
    "MysqlCdc.C120_copy",
    "MysqlCdc.C120_session",
    "MysqlCdc.C120_determines"
   ],
   "note": "Values are the stored bytes of C112/C116; the server is Spec/Tables.lean. That the copy is kept only while no event is refused is part of the statement; which events are refused is stated exactly. Changes made other than by row events with full images (statements, ALTER TABLE, partial images) are outside."
  },
  {
   "property": "C121",
   "status": "proved",
   "theorems": [
    "MysqlCdc.C121_copy"
   ],
   "note": "C117 and C120 together: Spec.History says that the records of a transaction are the written form of its events and what the server writes when it changes its tables. Tables keep their columns; a transaction names the tables it speaks of."
  },
  {
   "property": "C122",
   "status": "partial",
   "theorems": [
    "MysqlCdc.C122_copy_partial",
    "MysqlCdc.C122_false"
   ],
   "note": "False when a transaction has a statement before its last event, as a savepoint, and the application stops behind it: the copy stays without the rows and the server has nothing left to send (C122_false). C122_copy_partial is the property for all other transactions."
  },
  {
   "property": "C123",
   "status": "proved",
   "theorems": [
    "MysqlCdc.C123_copy"
   ],
   "note": "C105 with the copy of C120. The tables at a place are those between the changes written before it and those written after it."
  },
  {
   "property": "C124",
   "status": "partial",
   "theorems": [
    "MysqlCdc.C124_copy_partial",
    "MysqlCdc.C124_sessions_partial",
    "MysqlCdc.C124_catches_up_partial",
    "MysqlCdc.C124_maria_partial",
    "MysqlCdc.C124_false"
   ],
   "note": "False when keys differ only in what is below a millisecond (DATETIME(6) and the like): the library shows the same event whichever row is deleted, so that no application can keep the copy (C124_false). C124_copy_partial: the property when the columns of the keys hold no more than milliseconds or images show all columns; C124_sessions_partial: over broken sessions (C124_maria_partial: of a MariaDB); C124_catches_up_partial: one whole session then brings the copy up to date."
  },
  {
   "property": "C125",
   "status": "proved",
   "theorems": [
    "MysqlCdc.C125_catches_up",
    "MysqlCdc.C125_tables",
    "MysqlCdc.C125_file"
   ],
   "note": "Data and tables by GTID, tables by file and position."
  },
  {
   "property": "C126",
   "status": "partial",
   "theorems": [
    "MysqlCdc.C126_catches_up_partial",
    "MysqlCdc.C126_tables_partial",
    "MysqlCdc.C126_images_partial",
    "MysqlCdc.C126_false"
   ],
   "note": "Proved for transactions without statements before their last event (row-based logging), as C119. False otherwise: after a session that ended within a transaction, behind a statement, no session brings that transaction (witness). C126_tables_partial, C126_images_partial: for a copy of the tables kept from full and from partial row images."
  },
  {
   "property": "C127",
   "status": "partial",
   "theorems": [
    "MysqlCdc.C127_reaches_partial",
    "MysqlCdc.C127_never_past",
    "MysqlCdc.C127_false",
    "MysqlCdc.C127_file_reaches_partial",
    "MysqlCdc.C127_file_never_past",
    "MysqlCdc.C127_file_false",
    "MysqlCdc.C127_mariadb_reaches_partial",
    "MysqlCdc.C127_mariadb_never_past",
    "MysqlCdc.C127_mariadb_false"
   ],
   "note": "False of the code (C127_false, C127_file_false): a record with text that is no UTF-8 or with a negative time is an error, and the application never gets past the first such record. By GTID (C127_never_past): over any sessions and failed attempts, what is applied and recorded is a beginning of the transactions that were not recorded, none of which has such a record. By file and position (C127_file_never_past): what it has made use of are events of records before the first such one. Proved: one whole session brings exactly the transactions before the first such one (C127_reaches_partial), by file and position exactly the events before it (C127_file_reaches_partial). The same with a MariaDB and a list of GTIDs (C127_mariadb_never_past, C127_mariadb_reaches_partial, C127_mariadb_false), for transactions in which no statement that commits of itself stands before the end, see C18."
  },
  {
   "property": "C128",
   "status": "partial",
   "theorems": [
    "MysqlCdc.C128_session_partial",
    "MysqlCdc.C128_lost_for_good",
    "MysqlCdc.C128_false",
    "MysqlCdc.C128_file_session_partial",
    "MysqlCdc.C128_file_shown_once",
    "MysqlCdc.C128_file_lost_for_good",
    "MysqlCdc.C128_file_false",
    "MysqlCdc.C128_mariadb_session_partial",
    "MysqlCdc.C128_mariadb_lost_for_good",
    "MysqlCdc.C128_mariadb_false"
   ],
   "note": "False of the code (C128_false, C128_file_false): the place behind the refused record is recorded with a later event, by GTID with the end of the transaction, so the refused records never come again. Proved, exactly: over any sessions and failed attempts, every transaction is applied once and in order, without its refused records, and recorded (C128_lost_for_good); by file and position every event of the log comes once and in order, table maps left out (C128_file_shown_once), and of what was sent only table maps and refused records at the very end come again (C128_file_lost_for_good). One whole session brings and records all (C128_session_partial, C128_file_session_partial). By GTID, a single statement (DDL) that is refused is not recorded, see C113. The same with a MariaDB and a list of GTIDs (C128_mariadb_lost_for_good, C128_mariadb_session_partial, C128_mariadb_false), for transactions in which no statement that commits of itself stands before the end, see C18."
  },
  {
   "property": "C129",
   "status": "proved",
   "theorems": [
    "MysqlCdc.C129_application",
    "MysqlCdc.C129_event",
    "MysqlCdc.C129_stream",
    "MysqlCdc.C129_file",
    "MysqlCdc.C129_parse",
    "MysqlCdc.C129_add",
    "MysqlCdc.C129_commit",
    "MysqlCdc.C129_request",
    "MysqlCdc.C129_set_up",
    "MysqlCdc.C129_replicate",
    "MysqlCdc.C129_only_one_way"
   ],
   "note": "For every function that computes with integers that can overflow: the outcome with checks is a panic, or the outcome without is the same, with the same state left behind (decoding, both iterators, GTID sets, commit, requests, setting up replication with all that is sent); and so for any application (C129_application). The converse is false: C129_only_one_way lists where the release build goes on and the debug build panics."
  },
  {
   "property": "C13",
   "status": "proved",
   "theorems": [
    "MysqlCdc.C13_last_of_each_domain",
    "MysqlCdc.C13_reports_new_domain"
   ],
   "note": ""
  },
  {
   "property": "C130",
   "status": "proved",
   "theorems": [
    "MysqlCdc.C130_application",
    "MysqlCdc.C130_runs_exist",
    "MysqlCdc.C130_call",
    "MysqlCdc.C130_add",
    "MysqlCdc.C130_text",
    "MysqlCdc.C130_event",
    "MysqlCdc.C130_stream",
    "MysqlCdc.C130_file",
    "MysqlCdc.C130_commit",
    "MysqlCdc.C130_request",
    "MysqlCdc.C130_set_up",
    "MysqlCdc.C130_replicate"
   ],
   "note": "Alike: the same except for the order of hash maps. Every call of the library on alike things gives alike results and leaves alike things behind; hence any run in which the maps are rearranged between calls gives what the run of the model gives (C130_application), texts and positions exactly. The set of orders is not empty (C130_runs_exist)."
  },
  {
   "property": "C131",
   "status": "partial",
   "theorems": [
    "MysqlCdc.C131_mysql_any_order",
    "MysqlCdc.C131_mysql_again",
    "MysqlCdc.C131_mariadb_any_order_false",
    "MysqlCdc.C131_mariadb_partial",
    "MysqlCdc.C131_position_any_order_false"
   ],
   "note": "Proved for MySQL GTID sets. False for MariaDB lists, where the last commit of a domain counts, and for file positions; for MariaDB lists proved where both orders end each domain with the same transaction."
  },
  {
   "property": "C132",
   "status": "proved",
   "theorems": [
    "MysqlCdc.C132_tables_apart",
    "MysqlCdc.C132_any_history"
   ],
   "note": "The table number is read as the library reads it: the first six bytes of the event."
  },
  {
   "property": "C133",
   "status": "proved",
   "theorems": [
    "MysqlCdc.C133_depends_on_received",
    "MysqlCdc.C133_writes_grow",
    "MysqlCdc.C133_at_most_15",
    "MysqlCdc.C133_any_peer",
    "MysqlCdc.C133_next"
   ],
   "note": "C133_depends_on_received compares setting up replication with and without more to come; C133_any_peer: for every partner that answers there is a script (the shortest) that is exactly what they send in answer to what the client writes, reached after at most 16 rounds, because at most 15 packets are sent. Partners that fail to read are scripts with failing writes."
  },
  {
   "property": "C134",
   "status": "partial",
   "theorems": [
    "MysqlCdc.C134_last_alone_false",
    "MysqlCdc.C134_nothing_recorded",
    "MysqlCdc.C134_last_alone_partial",
    "MysqlCdc.C134_last_alone_mariadb_partial",
    "MysqlCdc.C134_first_and_last_partial",
    "MysqlCdc.C134_first_and_last_mariadb_partial",
    "MysqlCdc.C134_never_early"
   ],
   "note": "False by GTID (nothing at all is recorded without the GTID event, for every stream); true by position; with the first and the last event of each transaction it is true for every strategy, and with MariaDB such an application does not record too early (unlike C18)."
  },
  {
   "property": "C135",
   "status": "proved",
   "theorems": [
    "MysqlCdc.C135_each_once",
    "MysqlCdc.C135_whole",
    "MysqlCdc.C135_session"
   ],
   "note": "C135_each_once is the property; C135_whole: what was taken are the first events of what the server has to send; C135_session: such sessions come about."
  },
  {
   "property": "C136",
   "status": "proved",
   "theorems": [
    "MysqlCdc.C136_copy",
    "MysqlCdc.C136_tables",
    "MysqlCdc.C136_catches_up"
   ],
   "note": "C136_copy: any way of keeping a copy; C136_tables: a copy of the tables; C136_catches_up: one whole session brings it up to date. That such sessions come about is C119_session."
  },
  {
   "property": "C137",
   "status": "proved",
   "theorems": [
    "MysqlCdc.C137_again",
    "MysqlCdc.C137_places",
    "MysqlCdc.C137_catches_up",
    "MysqlCdc.C137_counts_twice",
    "MysqlCdc.C137_maria_again",
    "MysqlCdc.C137_maria_places",
    "MysqlCdc.C137_maria_catches_up"
   ],
   "note": ""
  },
  {
   "property": "C138",
   "status": "proved",
   "theorems": [
    "MysqlCdc.C138_overwrites",
    "MysqlCdc.C138_indexes",
    "MysqlCdc.C138_mysql",
    "MysqlCdc.C138_mysql_catches_up",
    "MysqlCdc.C138_mariadb",
    "MysqlCdc.C138_mariadb_catches_up"
   ],
   "note": ""
  },
  {
   "property": "C139",
   "status": "proved",
   "theorems": [
    "MysqlCdc.C139_again",
    "MysqlCdc.C139_keyed",
    "MysqlCdc.C139_catches_up"
   ],
   "note": ""
  },
  {
   "property": "C14",
   "status": "proved",
   "theorems": [
    "MysqlCdc.C14_parse_distinct",
    "MysqlCdc.C14_repeated_domain_rejected",
    "MysqlCdc.C14_history_distinct"
   ],
   "note": ""
  },
  {
   "property": "C140",
   "status": "proved",
   "theorems": [
    "MysqlCdc.C140_again",
    "MysqlCdc.C140_text_parses",
    "MysqlCdc.C140_places",
    "MysqlCdc.C140_keyed",
    "MysqlCdc.C140_catches_up",
    "MysqlCdc.C140_maria_again",
    "MysqlCdc.C140_maria_keyed",
    "MysqlCdc.C140_maria_catches_up"
   ],
   "note": "Restarts, RestartsMaria: histories in which each new client is made from the displayed set or list. Restarts from an older text: C141."
  },
  {
   "property": "C141",
   "status": "proved",
   "theorems": [
    "MysqlCdc.C141_none_left_out",
    "MysqlCdc.C141_places",
    "MysqlCdc.C141_keyed",
    "MysqlCdc.C141_catches_up",
    "MysqlCdc.C141_maria_none_left_out",
    "MysqlCdc.C141_maria_keyed",
    "MysqlCdc.C141_maria_catches_up",
    "MysqlCdc.C141_file_none_left_out",
    "MysqlCdc.C141_file_keyed",
    "MysqlCdc.C141_file_catches_up",
    "MysqlCdc.C141_keeping_newer_false"
   ],
   "note": "Snapshots, SnapshotsMaria, FileSnapshots: saving in the middle of sessions and going back. C141_keeping_newer_false: throwing away the newer texts is needed."
  },
  {
   "property": "C142",
   "status": "partial",
   "theorems": [
    "MysqlCdc.C142_stated",
    "MysqlCdc.C142_full_partial",
    "MysqlCdc.C142_rows",
    "MysqlCdc.C142_false",
    "MysqlCdc.C142_no_factor"
   ],
   "note": "False of the code: an image that leaves columns out is decoded to a cell for each of them, so that a new decoder can be given a table map and a row event of 11j+39 bytes together that is decoded to 8j^2 cells (C142_false, C142_no_factor). Proved: what the images state (cells of present columns and all contents) is at most eight times the event; where all columns are present that is everything; and in general there are at most two rows for each byte, each with the columns of the table. Missing: a bound by the bytes alone for images that leave columns out, which does not hold."
  },
  {
   "property": "C143",
   "status": "proved",
   "theorems": [
    "MysqlCdc.C143_events",
    "MysqlCdc.C143_not_three",
    "MysqlCdc.C143_kept",
    "MysqlCdc.C143_never_dropped"
   ],
   "note": ""
  },
  {
   "property": "C144",
   "status": "proved",
   "theorems": [
    "MysqlCdc.C144_indexes",
    "MysqlCdc.C144_mysql",
    "MysqlCdc.C144_mysql_catches_up",
    "MysqlCdc.C144_mariadb",
    "MysqlCdc.C144_mariadb_catches_up",
    "MysqlCdc.C144_others",
    "MysqlCdc.C144_file_keyed",
    "MysqlCdc.C144_file_catches_up",
    "MysqlCdc.C144_mysql_older",
    "MysqlCdc.C144_mysql_older_catches_up",
    "MysqlCdc.C144_mariadb_older",
    "MysqlCdc.C144_mariadb_older_catches_up",
    "MysqlCdc.C144_file_older",
    "MysqlCdc.C144_file_older_catches_up"
   ],
   "note": ""
  },
  {
   "property": "C145",
   "status": "proved",
   "theorems": [
    "MysqlCdc.C145_at_most",
    "MysqlCdc.C145_reached",
    "MysqlCdc.C145_at_most_13",
    "MysqlCdc.C145_rounds",
    "MysqlCdc.C145_at_least",
    "MysqlCdc.C145_least_reached"
   ],
   "note": "C145_at_most gives the number by the options (Spec.mostSent); C145_reached shows for each kind of options a server to which the client sends as many; C145_at_least and C145_least_reached: the fewest when the set-up succeeds."
  },
  {
   "property": "C15",
   "status": "proved",
   "theorems": [
    "MysqlCdc.C15_parse_text",
    "MysqlCdc.C15_print_parse"
   ],
   "note": ""
  },
  {
   "property": "C16",
   "status": "proved",
   "theorems": [
    "MysqlCdc.C16_mariadb_gtid_events"
   ],
   "note": ""
  },
  {
   "property": "C17",
   "status": "proved",
   "theorems": [
    "MysqlCdc.C17_exactly_finished",
    "MysqlCdc.C17_new_client"
   ],
   "note": ""
  },
  {
   "property": "C18",
   "status": "partial",
   "theorems": [
    "MysqlCdc.C18_exactly_finished_partial",
    "MysqlCdc.C18_new_client_partial",
    "MysqlCdc.C18_statement_in_transaction_false",
    "MysqlCdc.C79_recorded_list",
    "MysqlCdc.C79_maria_recorded_from_first_statement"
   ],
   "note": "Proved for transactions without statements before their last event (row-based logging); false with a statement inside a transaction (witness). C79 gives the recorded list for every event sequence, and shows that such a transaction is recorded from its first statement on."
  },
  {
   "property": "C19",
   "status": "partial",
   "theorems": [
    "MysqlCdc.C19_position_follows_partial",
    "MysqlCdc.C19_large_position_false",
    "MysqlCdc.C19_position_cut"
   ],
   "note": "Proved for rotate positions below 2^32; the code cuts larger ones to 32 bits (witness), and C19_position_cut says so for every sequence."
  },
  {
   "property": "C20",
   "status": "proved",
   "theorems": [
    "MysqlCdc.C20_only_positions_change"
   ],
   "note": ""
  },
  {
   "property": "C21",
   "status": "proved",
   "theorems": [
    "MysqlCdc.C21_no_event_lost",
    "MysqlCdc.C21_every_event_once"
   ],
   "note": "Logs with offsets below 2^32; C21_every_event_once covers any number of connections and crashes. It does not depend on the mode: by GTIDs too, with a server that starts at the place named in the request."
  },
  {
   "property": "C22",
   "status": "proved",
   "theorems": [
    "MysqlCdc.C22_no_loss_no_repeat"
   ],
   "note": "The server finds the transactions to send by the set alone; see C111 for one that starts at the file and position of the request."
  },
  {
   "property": "C23",
   "status": "partial",
   "theorems": [
    "MysqlCdc.C23_decodable_partial",
    "MysqlCdc.C23_second_rows_event_false",
    "MysqlCdc.C97_survives_iff"
   ],
   "note": "Proved for logs in which every row event comes right behind its table maps; false when several row events follow one table map (witness). These are exactly the logs for which it holds: C97_survives_iff."
  },
  {
   "property": "C24",
   "status": "proved",
   "theorems": [
    "MysqlCdc.C24_round_trip",
    "MysqlCdc.C24_writes_succeed",
    "MysqlCdc.trace_faithful"
   ],
   "note": "For a connection that takes whole packets (C25 is about one that does not); trace_faithful ties the packet traces used by C58-C63 to bytes."
  },
  {
   "property": "C25",
   "status": "partial",
   "theorems": [
    "MysqlCdc.C25_false_short_write",
    "MysqlCdc.C25_false_long_packet",
    "MysqlCdc.C25_sent_whole_partial"
   ],
   "note": "False: short writes of the payload and lengths from 2^32 on go unnoticed. Partial: connection takes whole packets, packet below 4 GiB; otherwise header and a prefix."
  },
  {
   "property": "C26",
   "status": "proved",
   "theorems": [
    "MysqlCdc.C26_delivers_each",
    "MysqlCdc.C26_delivers_all",
    "MysqlCdc.C26_broken_off",
    "MysqlCdc.C26_every_packet",
    "MysqlCdc.BinlogEvents.Drains.unique"
   ],
   "note": "For packets below 16 MiB; C68 is about larger events."
  },
  {
   "property": "C27",
   "status": "proved",
   "theorems": [
    "MysqlCdc.C27_reads_all",
    "MysqlCdc.BinlogReader.Drains.unique"
   ],
   "note": "Also: the iterator stays ended."
  },
  {
   "property": "C28",
   "status": "proved",
   "theorems": [
    "MysqlCdc.C28_truncated",
    "MysqlCdc.BinlogReader.Drains.unique"
   ],
   "note": ""
  },
  {
   "property": "C29",
   "status": "partial",
   "theorems": [
    "MysqlCdc.C29_false",
    "MysqlCdc.C29_ends_partial",
    "MysqlCdc.C29_ends_at_end",
    "MysqlCdc.C29_ends_iff"
   ],
   "note": "False: an UnexpectedEof of the payload decoder is taken for the end of the file. Partial: that is the only other reason; C29_ends_iff says exactly for which events."
  },
  {
   "property": "C30",
   "status": "proved",
   "theorems": [
    "MysqlCdc.C30_resynchronised"
   ],
   "note": "For every content with a complete event at the reader's position; also after a panic or an early end."
  },
  {
   "property": "C31",
   "status": "proved",
   "theorems": [
    "MysqlCdc.C31_magic"
   ],
   "note": ""
  },
  {
   "property": "C32",
   "status": "proved",
   "theorems": [
    "MysqlCdc.C32_latest_table_map",
    "MysqlCdc.C32_no_table_map_rejected"
   ],
   "note": "Any history from any decoder state; the rejection half for every well-formed write/update/delete event of both versions."
  },
  {
   "property": "C33",
   "status": "proved",
   "theorems": [
    "MysqlCdc.C33_checksum_stripped",
    "MysqlCdc.C33_checksum_type"
   ],
   "note": ""
  },
  {
   "property": "C34",
   "status": "proved",
   "theorems": [
    "MysqlCdc.C34_unknown_types",
    "MysqlCdc.C34_known_types"
   ],
   "note": "In a CRC32 stream the payload is what precedes the four checksum bytes; shorter slices are covered by C37."
  },
  {
   "property": "C35",
   "status": "proved",
   "theorems": [
    "MysqlCdc.C35_rejected_event_forgotten"
   ],
   "note": ""
  },
  {
   "property": "C36",
   "status": "partial",
   "theorems": [
    "MysqlCdc.C36_format_description_partial",
    "MysqlCdc.C36_long_event_false"
   ],
   "note": "False with overflow checks on when event_length mod 256 < 19 (counterexample). Proved otherwise."
  },
  {
   "property": "C37",
   "status": "partial",
   "theorems": [
    "MysqlCdc.C37_no_crash_partial",
    "MysqlCdc.C37_false"
   ],
   "note": "False of the code (C37_false lists the crashes). The partial theorem covers arbitrary bytes for every event type and both build profiles outside those cases. C86 says exactly which events crash the decoder."
  },
  {
   "property": "C38",
   "status": "partial",
   "theorems": [
    "MysqlCdc.C38_terminates_partial",
    "MysqlCdc.C38_false",
    "MysqlCdc.whileData_fuel"
   ],
   "note": "False of the code (C38_false). The partial theorem: decoding ends for every byte string except row events that include no column. C86 says exactly which events the decoder never finishes."
  },
  {
   "property": "C39",
   "status": "proved",
   "theorems": [
    "MysqlCdc.C39_header_decoded",
    "MysqlCdc.C39_header_total",
    "MysqlCdc.C39_short_header_rejected"
   ],
   "note": ""
  },
  {
   "property": "C40",
   "status": "proved",
   "theorems": [
    "MysqlCdc.C40_integers",
    "MysqlCdc.C40_every_integer",
    "MysqlCdc.C40_markers_rejected",
    "MysqlCdc.C40_strings"
   ],
   "note": ""
  },
  {
   "property": "C41",
   "status": "proved",
   "theorems": [
    "MysqlCdc.C41_little_endian",
    "MysqlCdc.C41_big_endian",
    "MysqlCdc.C41_msb_first"
   ],
   "note": ""
  },
  {
   "property": "C42",
   "status": "proved",
   "theorems": [
    "MysqlCdc.C42_plain_events"
   ],
   "note": ""
  },
  {
   "property": "C43",
   "status": "proved",
   "theorems": [
    "MysqlCdc.C43_sized_text",
    "MysqlCdc.C43_text_to_end",
    "MysqlCdc.C43_rotate_event"
   ],
   "note": ""
  },
  {
   "property": "C44",
   "status": "proved",
   "theorems": [
    "MysqlCdc.C44_table_map"
   ],
   "note": ""
  },
  {
   "property": "C45",
   "status": "proved",
   "theorems": [
    "MysqlCdc.C45_optional_metadata"
   ],
   "note": ""
  },
  {
   "property": "C46",
   "status": "proved",
   "theorems": [
    "MysqlCdc.C46_numbers",
    "MysqlCdc.C46_signed_reading",
    "MysqlCdc.C46_signed_columns"
   ],
   "note": ""
  },
  {
   "property": "C47",
   "status": "proved",
   "theorems": [
    "MysqlCdc.C47_decimal"
   ],
   "note": ""
  },
  {
   "property": "C48",
   "status": "partial",
   "theorems": [
    "MysqlCdc.C48_dates_and_times_partial",
    "MysqlCdc.C48_year_zero_false"
   ],
   "note": "False for YEAR 0000 (counterexample); proved for every other value."
  },
  {
   "property": "C49",
   "status": "proved",
   "theorems": [
    "MysqlCdc.C49_data"
   ],
   "note": ""
  },
  {
   "property": "C50",
   "status": "proved",
   "theorems": [
    "MysqlCdc.C50_string_metadata"
   ],
   "note": ""
  },
  {
   "property": "C51",
   "status": "proved",
   "theorems": [
    "MysqlCdc.C51_row"
   ],
   "note": ""
  },
  {
   "property": "C52",
   "status": "proved",
   "theorems": [
    "MysqlCdc.C52_write_and_delete",
    "MysqlCdc.C52_update"
   ],
   "note": "Rows must have at least one present column (otherwise they take no bytes and cannot be counted)."
  },
  {
   "property": "C53",
   "status": "proved",
   "theorems": [
    "MysqlCdc.C53_greeting_decoded"
   ],
   "note": "Every HandshakeV10 greeting of the published format."
  },
  {
   "property": "C54",
   "status": "partial",
   "theorems": [
    "MysqlCdc.C54_error_decoded",
    "MysqlCdc.C54_switch_decoded",
    "MysqlCdc.C54_eof_decoded",
    "MysqlCdc.C54_row_decoded_partial",
    "MysqlCdc.C54_row_iff_partial",
    "MysqlCdc.C54_null_cell_false"
   ],
   "note": "Error, auth-switch, EOF packets in full; text rows exactly: a row is read if and only if it is one without NULL cells, and its cells are returned (C54_row_iff_partial). A row with a NULL cell is rejected (C54_null_cell_false)."
  },
  {
   "property": "C55",
   "status": "proved",
   "theorems": [
    "MysqlCdc.C55_query",
    "MysqlCdc.C55_register",
    "MysqlCdc.C55_dump",
    "MysqlCdc.C55_ssl_request",
    "MysqlCdc.C55_authenticate",
    "MysqlCdc.C55_query_one_reading",
    "MysqlCdc.C55_dump_one_reading",
    "MysqlCdc.C55_register_one_reading",
    "MysqlCdc.C55_ssl_one_reading",
    "MysqlCdc.C55_response_one_reading"
   ],
   "note": "Encodings meet the published formats and each format has one reading. The announced capabilities are exactly LONG_FLAG, PROTOCOL_41, SSL (request only), SECURE_CONNECTION, PLUGIN_AUTH, and CONNECT_WITH_DB if a database is named. User, database and plugin names with a zero character cannot be written in the format and are excluded."
  },
  {
   "property": "C56",
   "status": "proved",
   "theorems": [
    "MysqlCdc.C56_native_password"
   ],
   "note": "Any hash function with 20-byte output, any non-empty password (accounts with an empty password have no stored hash: C66), any scramble."
  },
  {
   "property": "C57",
   "status": "partial",
   "theorems": [
    "MysqlCdc.C57_fast_path_partial",
    "MysqlCdc.C57_fast_path_false"
   ],
   "note": "False: the client hashes scramble||stage2 where the server hashes stage2||scramble; refuted with the real SHA-256. Proved: the exact condition for acceptance."
  },
  {
   "property": "C58",
   "status": "proved",
   "theorems": [
    "MysqlCdc.C58_password_only_hashed_or_encrypted",
    "MysqlCdc.C58_responses_only"
   ],
   "note": "For arbitrary hash functions and public-key encryption, whatever the server sends: if they cannot tell two passwords apart (the encryption: the zero-terminated passwords masked with the scramble), the two clients write the same bytes. TLS (unimplemented!() in the code) is outside."
  },
  {
   "property": "C59",
   "status": "proved",
   "theorems": [
    "MysqlCdc.C59_error_answer_stops",
    "MysqlCdc.C59_error_greeting_stops",
    "MysqlCdc.C59_replicate_errs"
   ],
   "note": "an error packet answering any request, or in place of the greeting, is the last packet exchanged and replicate() errs"
  },
  {
   "property": "C60",
   "status": "proved",
   "theorems": [
    "MysqlCdc.C60_dump_request",
    "MysqlCdc.C60_mysql_without_gtid_set",
    "MysqlCdc.C60_mariadb_without_gtid_list"
   ],
   "note": "last packet sent, for MySQL and MariaDB, GTID and file modes; GTID mode without the matching position fails and sends no dump request"
  },
  {
   "property": "C61",
   "status": "partial",
   "theorems": [
    "MysqlCdc.C61_known_position_kept",
    "MysqlCdc.C61_master_position_recorded",
    "MysqlCdc.C61_resumes",
    "MysqlCdc.C61_not_asked",
    "MysqlCdc.C61_failure_changes_nothing_partial",
    "MysqlCdc.C61_failure_false"
   ],
   "note": "the clause about failed attempts is false when the master position does not fit 32 bits or is not a number (C61_failure_false): missing there; everything else proved"
  },
  {
   "property": "C62",
   "status": "partial",
   "theorems": [
    "MysqlCdc.C62_heartbeat_and_timeout_partial",
    "MysqlCdc.C62_false",
    "MysqlCdc.C62_longest_interval_panics"
   ],
   "note": "false below one millisecond (C62_false); otherwise period = interval rounded down to milliseconds and timeout = interval + 10 s. Time itself is not modelled"
  },
  {
   "property": "C63",
   "status": "proved",
   "theorems": [
    "MysqlCdc.C63_handshake_sequence_numbers"
   ],
   "note": ""
  },
  {
   "property": "C64",
   "status": "proved",
   "theorems": [
    "MysqlCdc.C64_no_client",
    "MysqlCdc.C64_no_silent_fallback",
    "MysqlCdc.C64_required"
   ],
   "note": "no client is built; and even with a client built otherwise, nothing but encryption requests is sent unless the mode is IfAvailable and the server does not offer encryption"
  },
  {
   "property": "C65",
   "status": "partial",
   "theorems": [
    "MysqlCdc.C01_bound_needed",
    "MysqlCdc.C01_add_gtid_adds_exactly",
    "MysqlCdc.C94_add_gtid_panics_iff",
    "MysqlCdc.C94_add_gtid_adds_exactly",
    "MysqlCdc.C94_add_gtid_loses"
   ],
   "note": "False at u64::MAX (C01_bound_needed is the counterexample for both build profiles); proved for ids below 2^64-1 by C01_add_gtid_adds_exactly. C94 says for every 64-bit id exactly when it panics, adds, or loses transactions."
  },
  {
   "property": "C66",
   "status": "partial",
   "theorems": [
    "MysqlCdc.C66_empty_password_false"
   ],
   "note": "False: twenty bytes are sent for an empty password, whatever the hash function and scramble."
  },
  {
   "property": "C67",
   "status": "partial",
   "theorems": [
    "MysqlCdc.C67_xa_recorded_partial",
    "MysqlCdc.C67_xa_recorded_early_false",
    "MysqlCdc.C79_recorded_set",
    "MysqlCdc.C79_xa_recorded_from_start"
   ],
   "note": "Recorded when complete is proved; that it is not recorded earlier is false (witness). Exactly: it is recorded from the second event, XA START, on (C79)."
  },
  {
   "property": "C68",
   "status": "partial",
   "theorems": [
    "MysqlCdc.C68_false",
    "MysqlCdc.C68_single_packet_partial",
    "MysqlCdc.C99_beginning"
   ],
   "note": "False: packets are not reassembled. Partial: events in one packet. C99 says exactly what larger events become."
  },
  {
   "property": "C69",
   "status": "partial",
   "theorems": [
    "MysqlCdc.C69_error_anywhere_partial",
    "MysqlCdc.C69_false"
   ],
   "note": "false in the column definitions of a result set (C69_false); proved everywhere else"
  },
  {
   "property": "C70",
   "status": "partial",
   "theorems": [
    "MysqlCdc.C70_set_up_ends_partial",
    "MysqlCdc.C70_crash_reasons",
    "MysqlCdc.C70_empty_packet_panics",
    "MysqlCdc.C70_false",
    "MysqlCdc.C70_other_reasons_false",
    "MysqlCdc.C70_checked_reasons_false"
   ],
   "note": "set-up never loops; panics are possible (C70_false, C70_empty_packet_panics, C70_other_reasons_false, C70_checked_reasons_false). C70_crash_reasons lists all reasons for a crash of the whole set-up, on any server: it happens only after one of ten recognisable packet sequences (Spec.Crash)."
  },
  {
   "property": "C71",
   "status": "proved",
   "theorems": [
    "MysqlCdc.C71_full_authentication",
    "MysqlCdc.C71_password_recovered"
   ],
   "note": "The exchange of a successful full authentication, and the recovery of the password by the server."
  },
  {
   "property": "C72",
   "status": "partial",
   "theorems": [
    "MysqlCdc.C72_login_partial",
    "MysqlCdc.C72_false",
    "MysqlCdc.C72_hash_leaves_ok"
   ],
   "note": "Proved for every path without TLS in which an OK packet answers the client's last packet (at once, full caching_sha2 authentication, with or without a switch request). When the server accepts the caching_sha2 hash the property is false of the code (the OK packet after 01 03 stays unread): C72_false and, for every such log-in, C72_hash_leaves_ok."
  },
  {
   "property": "C73",
   "status": "partial",
   "theorems": [
    "MysqlCdc.C73_replicate_partial",
    "MysqlCdc.C73_false"
   ],
   "note": "Proved for every conforming exchange without TLS, including those in which the caching_sha2 hash is accepted, except an OK packet directly in answer to a switch request to caching_sha2_password, for which it is false of the code (C73_false)."
  },
  {
   "property": "C74",
   "status": "proved",
   "theorems": [
    "MysqlCdc.C74_replicate_then_iterate",
    "MysqlCdc.C74_mysql_gtid",
    "MysqlCdc.C74_mariadb_gtid",
    "MysqlCdc.C74_position"
   ],
   "note": "Composes C73, C26, the decoders (C11, C16, C34, C36, C42, C44, C45, C52) and C17/C18/C19. The spec relation LogOf says how a log is written, with the checksum algorithm and the announced tables carried along. Excluded cases are in the statement and shown to fail by C73_false, C68_false, C18_statement_in_transaction_false and C19_large_position_false. Format description events are below 256 bytes (C36)."
  },
  {
   "property": "C75",
   "status": "proved",
   "theorems": [
    "MysqlCdc.C75_crash_and_reconnect"
   ],
   "note": "Composes C74, C60, C17 and C22; same limits as C74. The server finds the transactions to send by the set alone (see C111)."
  },
  {
   "property": "C76",
   "status": "proved",
   "theorems": [
    "MysqlCdc.C76_file",
    "MysqlCdc.C76_file_and_stream"
   ],
   "note": "Composes C27 and the decoders; same limits as C74 for the connection."
  },
  {
   "property": "C77",
   "status": "proved",
   "theorems": [
    "MysqlCdc.C77_accepts_iff",
    "MysqlCdc.C77_keeps",
    "MysqlCdc.C77_crashes_iff",
    "MysqlCdc.C77_otherwise_refused"
   ],
   "note": "Accepted, refused and crashing texts are characterised exactly; the value of an accepted text for intervals with start ≤ end (and none up to u64::MAX followed by another: see C06_after_the_top_false)."
  },
  {
   "property": "C78",
   "status": "proved",
   "theorems": [
    "MysqlCdc.C78_accepts_iff",
    "MysqlCdc.C78_crashes_iff",
    "MysqlCdc.C78_otherwise_refused"
   ],
   "note": "Accepted texts with their value, crashing texts and refused texts are characterised exactly."
  },
  {
   "property": "C79",
   "status": "proved",
   "theorems": [
    "MysqlCdc.C79_recorded_set",
    "MysqlCdc.C79_recorded_list",
    "MysqlCdc.C79_xa_recorded_from_start",
    "MysqlCdc.C79_maria_recorded_from_first_statement"
   ],
   "note": "Exact for arbitrary event sequences; the last two theorems say how early C67 and C18 go wrong."
  },
  {
   "property": "C80",
   "status": "proved",
   "theorems": [
    "MysqlCdc.C80_set_up_error",
    "MysqlCdc.C80_stream_error",
    "MysqlCdc.C69_error_anywhere_partial",
    "MysqlCdc.C26_delivers_each"
   ],
   "note": "Err.server keeps the parts printed into the error text (context, code, message, state); the Debug rendering itself is not modelled."
  },
  {
   "property": "C81",
   "status": "proved",
   "theorems": [
    "MysqlCdc.C81_sound",
    "MysqlCdc.C81_complete",
    "MysqlCdc.C81_iff"
   ],
   "note": "Row events are left to C82."
  },
  {
   "property": "C82",
   "status": "proved",
   "theorems": [
    "MysqlCdc.C82_iff",
    "MysqlCdc.C82_properCache",
    "MysqlCdc.C82_stream_sound",
    "MysqlCdc.C82_stream_complete"
   ],
   "note": "exact characterisation of row events and of whole event streams; order of servers in previous GTIDs aside (a hash map)"
  },
  {
   "property": "C83",
   "status": "proved",
   "theorems": [
    "MysqlCdc.C83_greeting_iff",
    "MysqlCdc.C83_switch_iff",
    "MysqlCdc.C83_eof_iff",
    "MysqlCdc.C83_error_iff",
    "MysqlCdc.C83_row_iff",
    "MysqlCdc.C83_greeting_covers",
    "MysqlCdc.C83_switch_covers",
    "MysqlCdc.C83_error_covers"
   ],
   "note": "One equivalence per packet, for all byte sequences; the forms of the manual (C53, C54) are among the accepted ones."
  },
  {
   "property": "C84",
   "status": "proved",
   "theorems": [
    "MysqlCdc.C84_always",
    "MysqlCdc.C84_sound",
    "MysqlCdc.C84_complete",
    "MysqlCdc.C84_encryption_panics"
   ],
   "note": "C84_always: what is sent, for any server; C84_sound and C84_complete: success exactly for the complete conversations. A client that asks for encryption panics (C84_encryption_panics), so no conversation goes on from there."
  },
  {
   "property": "C85",
   "status": "proved",
   "theorems": [
    "MysqlCdc.C85_ends",
    "MysqlCdc.C85_total",
    "MysqlCdc.C85_returns",
    "MysqlCdc.C85_panics_iff",
    "MysqlCdc.C85_refused_iff"
   ],
   "note": "C85_total: every run is a success with a complete conversation or stops at a point of Spec.Stops; C85_ends: at each such point the outcome, the output, the unread input and the client are the ones described. C85_returns, C85_panics_iff, C85_refused_iff: it always ends, when it panics, when a server error is reported."
  },
  {
   "property": "C86",
   "status": "proved",
   "theorems": [
    "MysqlCdc.C86_crash_iff",
    "MysqlCdc.C86_loop_iff",
    "MysqlCdc.C86_error_iff",
    "MysqlCdc.C86_stream_crash",
    "MysqlCdc.C86_stream_loop",
    "MysqlCdc.C86_stream_error"
   ],
   "note": "The forms are in Spec/Faults.lean; each of them is reached by an example or by C37_false. With C81 and C82 this decides the outcome for all bytes."
  },
  {
   "property": "C87",
   "status": "proved",
   "theorems": [
    "MysqlCdc.C87_error_iff",
    "MysqlCdc.C87_eof_iff",
    "MysqlCdc.C87_stream_error",
    "MysqlCdc.C87_stream_eof"
   ],
   "note": "Exact: for every error other than the unexpected end, the forms of events refused with it are listed; the unexpected end is what remains of the events refused (C86). Also for sequences of events from a new decoder."
  },
  {
   "property": "C88",
   "status": "proved",
   "theorems": [
    "MysqlCdc.C88_open",
    "MysqlCdc.C88_file_sound",
    "MysqlCdc.C88_file_complete",
    "MysqlCdc.C88_file_halts"
   ],
   "note": "Sound and complete: items and endings of the iterator are exactly those of FileRun (up to the order of servers in sets of previous GTIDs, which the code leaves to a hash map). C88_file_halts: iteration over a file is finite."
  },
  {
   "property": "C89",
   "status": "proved",
   "theorems": [
    "MysqlCdc.C89_live_sound",
    "MysqlCdc.C89_live_complete"
   ],
   "note": "Sound and complete as for C88."
  },
  {
   "property": "C90",
   "status": "proved",
   "theorems": [
    "MysqlCdc.C90_session_sound",
    "MysqlCdc.C90_session_complete"
   ],
   "note": "Soundness for any bytes and any connection; completeness up to the order of servers in sets of previous GTIDs, for connections that take something of every packet (all of it, or less)."
  },
  {
   "property": "C91",
   "status": "proved",
   "theorems": [
    "MysqlCdc.C91_next_position",
    "MysqlCdc.C91_next_mysql_gtids",
    "MysqlCdc.C91_next_mariadb_gtids"
   ],
   "note": "Position, MySQL GTIDs and MariaDB GTIDs. A client that starts from the end and has no file name asks for the end again. The request by MySQL GTIDs also names the recorded file and position (see C111)."
  },
  {
   "property": "C92",
   "status": "proved",
   "theorems": [
    "MysqlCdc.C92_mysql_refused_iff",
    "MysqlCdc.C92_mariadb_refused_iff"
   ],
   "note": "Iff for every error, both parsers."
  },
  {
   "property": "C93",
   "status": "proved",
   "theorems": [
    "MysqlCdc.C93_requests",
    "MysqlCdc.C93_from_start",
    "MysqlCdc.C93_from_position",
    "MysqlCdc.C93_from_end",
    "MysqlCdc.C93_from_mysql_gtid",
    "MysqlCdc.C93_from_mariadb_gtid"
   ],
   "note": "General theorem and one for each way of starting with the default options."
  },
  {
   "property": "C94",
   "status": "proved",
   "theorems": [
    "MysqlCdc.C94_add_gtid_panics_iff",
    "MysqlCdc.C94_add_gtid_adds_exactly",
    "MysqlCdc.C94_add_gtid_loses",
    "MysqlCdc.C94_any_id",
    "MysqlCdc.C94_commit_panics_iff"
   ],
   "note": "Exact over all 64-bit ids, both build modes; also what happens in the two cases that lose ids. Sets are assumed ordered (the parser keeps the order of the text)."
  },
  {
   "property": "C95",
   "status": "proved",
   "theorems": [
    "MysqlCdc.C95_ends",
    "MysqlCdc.C95_breaks",
    "MysqlCdc.C95_total",
    "MysqlCdc.C95_returns",
    "MysqlCdc.C95_succeeds_iff",
    "MysqlCdc.C95_panics_iff",
    "MysqlCdc.C95_error_source",
    "MysqlCdc.C95_unnoticed"
   ],
   "note": "C95_total: every run over any connection succeeds, stops as in C85, or breaks within a packet (Spec.SetUpEnds); C95_ends and C95_breaks: each of these determines outcome, wire, unread input and client. Interrupted system calls are not modelled."
  },
  {
   "property": "C96",
   "status": "proved",
   "theorems": [
    "MysqlCdc.C96_total",
    "MysqlCdc.C96_returns",
    "MysqlCdc.C96_opens_iff",
    "MysqlCdc.C96_panics_iff"
   ],
   "note": "C96_total: every run is one of Spec.Opening; C96_opens_iff and C96_panics_iff: exactly when there is a stream, and when it panics."
  },
  {
   "property": "C97",
   "status": "proved",
   "theorems": [
    "MysqlCdc.C97_survives_iff"
   ],
   "note": "For position-based starts; the same provisos as C23."
  },
  {
   "property": "C98",
   "status": "proved",
   "theorems": [
    "MysqlCdc.C98_entries_count",
    "MysqlCdc.C98_one_entry_iff"
   ],
   "note": "Exact number of entries for any well-formed set."
  },
  {
   "property": "C99",
   "status": "proved",
   "theorems": [
    "MysqlCdc.C99_each_packet_alone",
    "MysqlCdc.C99_beginning",
    "MysqlCdc.C99_continuation",
    "MysqlCdc.C99_just_filled"
   ],
   "note": "C99_each_packet_alone: for every payload and every later packet of it; C99_beginning, C99_continuation, C99_just_filled: what that means for events."
  }
 ]
}
