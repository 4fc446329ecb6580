{
 "claims": [
  {
   "property": "C01",
   "status": "proved",
   "theorems": [
    "JT808.C01_wire_format",
    "JT808.C01_escape_roundtrip",
    "JT808.C01_escape_injective"
   ],
   "note": "escape then unescape is the identity; the wire format equals an independent byte-stuffing spec; escape is injective"
  },
  {
   "property": "C02",
   "status": "proved",
   "theorems": [
    "JT808.C02_frame_shape",
    "JT808.C02_recv_own_frame"
   ],
   "note": "all packets, all following bytes"
  },
  {
   "property": "C03",
   "status": "proved",
   "theorems": [
    "JT808.C03_stream_segmentation",
    "JT808.C03_deterministic"
   ],
   "note": "all frame lists and 0x7e-free noise"
  },
  {
   "property": "C04",
   "status": "partial",
   "theorems": [
    "JT808.C04_chunking_partial",
    "JT808.C04_split_irrelevant_partial",
    "JT808.C04_empty_read_changes_frame"
   ],
   "note": "false when a read returns 0 bytes with a nil error (C04_empty_read_changes_frame): the previous byte is taken twice; proved for every splitting into non-empty reads"
  },
  {
   "property": "C05",
   "status": "proved",
   "theorems": [
    "JT808.C05_delivers_iff",
    "JT808.C05_error_iff",
    "JT808.C05_never_panics"
   ],
   "note": "exact characterisation of delivery and of the error case"
  },
  {
   "property": "C06",
   "status": "partial",
   "theorems": [
    "JT808.C06_stray_delimiter_desynchronises",
    "JT808.C06_paired_delimiters_partial"
   ],
   "note": "false: after a stray 0x7e in front of back-to-back frames no frame is ever delivered again; the negation is proved for all frame lists; paired delimiters are survived"
  },
  {
   "property": "C07",
   "status": "proved",
   "theorems": [
    "JT808.C07_send",
    "JT808.C07_send_progress",
    "JT808.C07_send_error"
   ],
   "note": "all write scripts"
  },
  {
   "property": "C08",
   "status": "proved",
   "theorems": [
    "JT808.C08_accept_implies_xor_zero",
    "JT808.C08_single_byte_corruption",
    "JT808.C08_own_frames_intact"
   ],
   "note": "acceptance implies XOR zero; every single-byte change is refused"
  },
  {
   "property": "C09",
   "status": "proved",
   "theorems": [
    "JT808.C09_packet_roundtrip"
   ],
   "note": "for every well-formed header and every body up to 1023 bytes"
  },
  {
   "property": "C10",
   "status": "partial",
   "theorems": [
    "JT808.C10_verify_code_is_delimiter",
    "JT808.C10_witness"
   ],
   "note": "false: the field always holds the closing delimiter 0x7e; negation and witness proved"
  },
  {
   "property": "C11",
   "status": "proved",
   "theorems": [
    "JT808.C11_byte",
    "JT808.C11_word",
    "JT808.C11_dword",
    "JT808.C11_bytes",
    "JT808.C11_string",
    "JT808.C11_big_endian",
    "JT808.C11_byte_bounded",
    "JT808.C11_bytes_bounded"
   ],
   "note": "all values, positions and surroundings; BYTE reads are bounded by len, multi-byte reads by cap"
  },
  {
   "property": "C12",
   "status": "partial",
   "theorems": [
    "JT808.C12_bcd_partial",
    "JT808.C12_odd_length_loses_digit",
    "JT808.C12_bcd_bytes"
   ],
   "note": "false for odd lengths from nine digits on (last digit lost, proved for all such strings); proved for all other digit strings"
  },
  {
   "property": "C13",
   "status": "proved",
   "theorems": [
    "JT808.C13_time_roundtrip",
    "JT808.C13_time_read"
   ],
   "note": "round trip for all dates of the window and exact acceptance for all six-byte inputs"
  },
  {
   "property": "C14",
   "status": "proved",
   "theorems": [
    "JT808.C14_decode_bits",
    "JT808.C14_decode_descriptions",
    "JT808.C14_reencode",
    "JT808.C14_encode_word"
   ],
   "note": "all words; bit-level specification"
  },
  {
   "property": "C15",
   "status": "proved",
   "theorems": [
    "JT808.C15_header_roundtrip",
    "JT808.C15_layout",
    "JT808.C15_reencode"
   ],
   "note": "both directions and the byte layout; phones that fill their field"
  },
  {
   "property": "C16",
   "status": "proved",
   "theorems": [
    "JT808.C16_accepted_iff",
    "JT808.C16_truncated_header",
    "JT808.C16_header_from_packet"
   ],
   "note": "exact acceptance condition for every packet and every capacity"
  },
  {
   "property": "C17",
   "status": "partial",
   "theorems": [
    "JT808.C17_min_length_partial",
    "JT808.C17_no_outside_bytes_partial",
    "JT808.C17_truncated_location_accepted"
   ],
   "note": "false for 0x0102, 0x0200 and 0x1205 bodies (multi-byte reads are bounded by capacity: C17_truncated_location_accepted); minimum lengths proved for the other types, independence of outside bytes for every message that stays within its body"
  },
  {
   "property": "C18",
   "status": "partial",
   "theorems": [
    "JT808.C18_body_length_partial",
    "JT808.C18_overlong_body"
   ],
   "note": "false for bodies of 1024 bytes and more (proved for all such lengths below 65536); proved up to 1023"
  },
  {
   "property": "C19",
   "status": "proved",
   "theorems": [
    "JT808.C19_general_reply",
    "JT808.C19_location",
    "JT808.C19_register_reply",
    "JT808.C19_media_query",
    "JT808.C19_media_list",
    "JT808.C19_server_time",
    "JT808.C19_layouts"
   ],
   "note": "all field values; body layouts proved equal to an independent byte specification"
  },
  {
   "property": "C20",
   "status": "partial",
   "theorems": [
    "JT808.C20_register_2019",
    "JT808.C20_register_2013_partial",
    "JT808.C20_register_2011_partial",
    "JT808.C20_empty_plate_lost",
    "JT808.C20_long_plate_2011",
    "JT808.C20_unencodable_plate",
    "JT808.C20_layout"
   ],
   "note": "proved for 2019 registrations; for 2013/2011 only for plates of the lengths where the version guess by body length is right; empty plates and plates GBK cannot encode are lost (proved)"
  },
  {
   "property": "C21",
   "status": "proved",
   "theorems": [
    "JT808.C21_status_bits",
    "JT808.C21_stored_status"
   ],
   "note": "all 32-bit status words"
  },
  {
   "property": "C22",
   "status": "partial",
   "theorems": [
    "JT808.C22_encode_swaps",
    "JT808.C22_inverse_iff_partial",
    "JT808.C22_not_inverse",
    "JT808.C22_hemispheres_exchanged"
   ],
   "note": "false: encoding exchanges the two hemisphere bits; exact condition for the round trip proved"
  },
  {
   "property": "C23",
   "status": "partial",
   "theorems": [
    "JT808.C23_table",
    "JT808.C23_byte",
    "JT808.C23_word",
    "JT808.C23_dword",
    "JT808.C23_string_partial",
    "JT808.C23_gbk_partial",
    "JT808.C23_bcd_partial",
    "JT808.C23_long_string",
    "JT808.C23_odd_bcd"
   ],
   "note": "false for strings over 255 bytes and odd BCD values from nine digits (both proved); proved for every other value of all 93 ids; the id table equals an independent one"
  },
  {
   "property": "C24",
   "status": "partial",
   "theorems": [
    "JT808.C24_set_message_partial",
    "JT808.C24_report_partial",
    "JT808.C24_count_exceeds_items",
    "JT808.C24_unsupported_item_panics",
    "JT808.C24_unsupported_roundtrip_fails"
   ],
   "note": "false for lists with unsupported ids: they are counted but not written (proved for all such lists), and reading one panics; proved for all lists of supported items"
  },
  {
   "property": "C25",
   "status": "proved",
   "theorems": [
    "JT808.C25_update",
    "JT808.C25_count",
    "JT808.C25_order_irrelevant"
   ],
   "note": "for every map iteration order; ids unique, ascending, last value wins"
  },
  {
   "property": "C26",
   "status": "partial",
   "theorems": [
    "JT808.C26_set_then_query_partial",
    "JT808.C26_new_id_dropped",
    "JT808.C26_new_id_dropped_witness"
   ],
   "note": "false for ids the terminal did not store before (general theorem and witness); exact description of what is kept and reported proved"
  },
  {
   "property": "C27",
   "status": "partial",
   "theorems": [
    "JT808.C27_unknown_id_partial",
    "JT808.C27_fragment_closes"
   ],
   "note": "false for fragments: the first fragment of any message ends the connection (proved); proved for unfragmented packets"
  },
  {
   "property": "C28",
   "status": "proved",
   "theorems": [
    "JT808.C28_corrupt_ignored",
    "JT808.C28_corrupt_raw_ignored",
    "JT808.C28_empty_ignored"
   ],
   "note": "every content with a wrong checksum, in canonical or other stuffing"
  },
  {
   "property": "C29",
   "status": "partial",
   "theorems": [
    "JT808.C29_platform_replies_partial",
    "JT808.C29_terminal_replies_partial",
    "JT808.C29_no_reply_to_replies",
    "JT808.C29_phone_with_F"
   ],
   "note": "proved for every reply of the server in every state, and of the simulator when the body fits 1023 bytes, provided the phone number fills its field; false for numbers with a digit F (witness)"
  },
  {
   "property": "C30",
   "status": "proved",
   "theorems": [
    "JT808.C30_reply_only_on_success",
    "JT808.C30_panic_sends_nothing"
   ],
   "note": "every frame, store and write result"
  },
  {
   "property": "C31",
   "status": "proved",
   "theorems": [
    "JT808.C31_indexes_agree",
    "JT808.C31_plates_unique",
    "JT808.C31_same_devices"
   ],
   "note": "by induction over all histories of the sequential model"
  },
  {
   "property": "C32",
   "status": "proved",
   "theorems": [
    "JT808.C32_plate_taken",
    "JT808.C32_phone_taken",
    "JT808.C32_free",
    "JT808.C32_success_iff"
   ],
   "note": "all three cases, every store / every reachable store"
  },
  {
   "property": "C33",
   "status": "partial",
   "theorems": [
    "JT808.C33_both_succeed",
    "JT808.C33_late_refused_partial"
   ],
   "note": "false: for any store in which the plate and two phones are free there is an interleaving in which both registrations succeed (C33_both_succeed). Proved: a registration that looks when the plate is taken is refused, in every interleaving"
  },
  {
   "property": "C34",
   "status": "proved",
   "theorems": [
    "JT808.C34_auth_iff_issued",
    "JT808.C34_replies_differ"
   ],
   "note": "Whole histories: the code of the last successful registration reply is the only one that authenticates."
  },
  {
   "property": "C35",
   "status": "partial",
   "theorems": [
    "JT808.C35_wrong_code_removes",
    "JT808.C35_foreign_guess",
    "JT808.C35_other_phones_partial"
   ],
   "note": "false: any connection removes a terminal with a wrong code (proved for all such cases); other phones are unaffected"
  },
  {
   "property": "C36",
   "status": "partial",
   "theorems": [
    "JT808.C36_woken_partial",
    "JT808.C36_authenticated_partial",
    "JT808.C36_location_wakes",
    "JT808.C36_general_reply_wakes"
   ],
   "note": "False: an ACC-off location report and a general reply sent by the terminal also wake an unauthenticated device (witnesses). Proved: one of the three kinds of event happened while registered; authentication if the other two are absent."
  },
  {
   "property": "C37",
   "status": "partial",
   "theorems": [
    "JT808.C37_deregistered_partial",
    "JT808.C37_locations_survive",
    "JT808.C37_old_location_served"
   ],
   "note": "false for the last location: tracks survive and are served to the next owner of the phone (proved); phone, plate and job are freed"
  },
  {
   "property": "C38",
   "status": "proved",
   "theorems": [
    "JT808.C38_unregistered_refused",
    "JT808.C38_remove_effect"
   ],
   "note": "all four message types"
  },
  {
   "property": "C39",
   "status": "proved",
   "theorems": [
    "JT808.C39_location_recorded"
   ],
   "note": "all reachable stores"
  },
  {
   "property": "C40",
   "status": "partial",
   "theorems": [
    "JT808.C40_newest_partial",
    "JT808.C40_track_exists_unique",
    "JT808.C40_hundredth_report_lost"
   ],
   "note": "False after every hundredth report (witness by induction). Proved: exact answer of the location query after any history."
  },
  {
   "property": "C41",
   "status": "proved",
   "theorems": [
    "JT808.C41_isolation",
    "JT808.C41_frame",
    "JT808.C41_check"
   ],
   "note": "over arbitrary stretches of events"
  },
  {
   "property": "C42",
   "status": "partial",
   "theorems": [
    "JT808.C42_any_connection_deregisters",
    "JT808.C42_foreign_deregistration",
    "JT808.C42_other_phones_partial"
   ],
   "note": "false: a deregistration works from any connection (proved for all); other phones are unaffected"
  },
  {
   "property": "C43",
   "status": "proved",
   "theorems": [
    "JT808.C43_heartbeat_protects",
    "JT808.C43_recent"
   ],
   "note": "Whole histories with clocks that do not run backwards."
  },
  {
   "property": "C44",
   "status": "proved",
   "theorems": [
    "JT808.C44_one_check",
    "JT808.C44_two_checks"
   ],
   "note": "One check and two checks in any history without frames of the phone in between."
  },
  {
   "property": "C45",
   "status": "proved",
   "theorems": [
    "JT808.C45_jobs"
   ],
   "note": "by induction over all histories of the sequential model"
  },
  {
   "property": "C46",
   "status": "partial",
   "theorems": [
    "JT808.C46_race_crashes",
    "JT808.C46_orphan_job_crashes",
    "JT808.C46_found_partial",
    "JT808.C46_sequential_partial"
   ],
   "note": "false under concurrency in two ways, each shown from every suitable store: a check racing with a deregistration, and a job left behind by a deregistration racing with a registration. Proved: no crash when handlers and checks run one at a time (C46_sequential_partial); in every interleaving a check that finds its device does not panic (C46_found_partial)"
  },
  {
   "property": "C47",
   "status": "proved",
   "theorems": [
    "JT808.C47_never_panics",
    "JT808.C47_slots",
    "JT808.C47_oldest",
    "JT808.C47_reads_cyclic",
    "JT808.C47_fifo"
   ],
   "note": "all sizes and all operation sequences"
  },
  {
   "property": "C48",
   "status": "partial",
   "theorems": [
    "JT808.C48_latest_partial",
    "JT808.C48_latest_nil_at_wrap",
    "JT808.C48_overwrite_hits_oldest",
    "JT808.C48_not_latest"
   ],
   "note": "false as stated: Latest is nil whenever the number of writes is a multiple of the size, and Overwrite replaces the oldest element (both proved for all histories); Latest is proved otherwise"
  },
  {
   "property": "C49",
   "status": "partial",
   "theorems": [
    "JT808.C49_sequential",
    "JT808.C49_distinct",
    "JT808.C49_concurrent_partial",
    "JT808.C49_concurrent_repeats",
    "JT808.C49_counts",
    "JT808.C49_on_the_wire"
   ],
   "note": "proved for successive calls (n-th number is n mod 65536, distinct within a cycle), for every server history one event at a time (each connection counts its own draws: C49_counts; the number is on the wire: C49_on_the_wire), and for all interleavings of up to 65535 concurrent calls; false for concurrent callers at the wrap-around (C49_concurrent_repeats)"
  },
  {
   "property": "C50",
   "status": "partial",
   "theorems": [
    "JT808.C50_session_served",
    "JT808.C50_open_found_partial",
    "JT808.C50_absent",
    "JT808.C50_reused_address_unreachable",
    "JT808.C50_closed_still_found"
   ],
   "note": "False with reused addresses and after a keepalive close (witnesses). Proved: sessions found are of served connections; open connections are found when addresses are not reused."
  },
  {
   "property": "C51",
   "status": "proved",
   "theorems": [
    "JT808.C51_any_frame"
   ],
   "note": ""
  },
  {
   "property": "C52",
   "status": "partial",
   "theorems": [
    "JT808.C52_first_fragment_closes",
    "JT808.C52_only_last_fragment",
    "JT808.C52_wrong_position",
    "JT808.C52_never_cleared",
    "JT808.C52_middle_acknowledged_partial"
   ],
   "note": "false: first fragment closes the connection, only the last fragment is processed, collected data is never dropped (general theorems and witness); acknowledgement of later fragments proved"
  },
  {
   "property": "C53",
   "status": "partial",
   "theorems": [
    "JT808.C53_only_own_fragments_partial",
    "JT808.C53_supported_ids",
    "JT808.C53_surrogate_ids_mixed"
   ],
   "note": "false for ids in the surrogate range (witness); for all other ids the collected data of a message is exactly its own fragments, over all histories"
  },
  {
   "property": "C54",
   "status": "partial",
   "theorems": [
    "JT808.C54_2013_partial",
    "JT808.C54_2019_query_panics",
    "JT808.C54_2019_set_misread",
    "JT808.C54_fragment_ack_partial",
    "JT808.C54_2019_fragment_ack_misread"
   ],
   "note": "false for every 2019 terminal: the protocol version byte is never written; the query makes a decoder panic, other messages lose their first body byte (general theorems). Proved for all other terminals over all histories"
  },
  {
   "property": "C55",
   "status": "proved",
   "theorems": [
    "JT808.C55_unknown_phone"
   ],
   "note": ""
  },
  {
   "property": "C56",
   "status": "partial",
   "theorems": [
    "JT808.C56_answered_400_partial",
    "JT808.C56_malformed_body_sent"
   ],
   "note": "False: the handler goes on after the bind error and sends a parameter-setting message (witness). Proved: the answer is 400."
  },
  {
   "property": "C57",
   "status": "partial",
   "theorems": [
    "JT808.C57_json_number",
    "JT808.C57_put_partial",
    "JT808.C57_2019_nothing_set"
   ],
   "note": "false for every 2019 terminal, which decodes a setting of no parameters (general theorem). Proved for other terminals and lists that survive encoding; whole JSON numbers below 2^53 survive the detour through float64 (C57_json_number)"
  },
  {
   "property": "C58",
   "status": "partial",
   "theorems": [
    "JT808.C58_handshake_2019",
    "JT808.C58_handshake_2013_partial",
    "JT808.C58_empty_plate_2013"
   ],
   "note": "proved for every 2019 simulator and for every 2013/2011 simulator with a plate, all server and simulator states, texts cut to their fields; a 2013 simulator without a plate can be refused (C58_empty_plate_2013), because its registration is read in the 2011 layout"
  },
  {
   "property": "C59",
   "status": "proved",
   "theorems": [
    "JT808.C59_code",
    "JT808.C59_same_code",
    "JT808.C59_placeholder"
   ],
   "note": "code = decimal FNV-1a of id_plate_phone against an arithmetic specification; same identity, same code; the placeholder never authenticates"
  },
  {
   "property": "C60",
   "status": "partial",
   "theorems": [
    "JT808.C60_every_stream_decomposes",
    "JT808.C60_frame_by_frame",
    "JT808.C60_noise_irrelevant",
    "JT808.C60_corrupt_skipped_partial",
    "JT808.C60_short_frame_closes"
   ],
   "note": "stream = frames one by one, noise and frames with a wrong checksum irrelevant, proved for all streams; false for other bad frames, which may end the connection (witness)"
  },
  {
   "property": "C61",
   "status": "proved",
   "theorems": [
    "JT808.C61_keys"
   ],
   "note": "all interleavings of all handlers and checks"
  },
  {
   "property": "C62",
   "status": "proved",
   "theorems": [
    "JT808.C62_listing",
    "JT808.C62_length"
   ],
   "note": "all reachable stores"
  },
  {
   "property": "C63",
   "status": "partial",
   "theorems": [
    "JT808.C63_levels_partial",
    "JT808.C63_fatal_writes_everything",
    "JT808.C63_unknown_writes_everything",
    "JT808.C63_fatal_misspelt"
   ],
   "note": "false for FATAL (misspelt), proved for the other four names and for all other strings"
  },
  {
   "property": "C64",
   "status": "proved",
   "theorems": [
    "JT808.C64_heartbeat"
   ],
   "note": "all reachable stores"
  },
  {
   "property": "C65",
   "status": "partial",
   "theorems": [
    "JT808.C65_auth_2013",
    "JT808.C65_auth_2019_partial",
    "JT808.C65_short_imei",
    "JT808.C65_long_code"
   ],
   "note": "2013 proved; 2019 proved for 15-character IMEIs and codes up to 255 bytes, shorter IMEIs come back NUL-padded (witness)"
  },
  {
   "property": "C66",
   "status": "partial",
   "theorems": [
    "JT808.C66_any_declared_length_accepted",
    "JT808.C66_length_mismatch_accepted",
    "JT808.C66_own_packets_partial"
   ],
   "note": "false: acceptance is independent of the declared length (proved for every length and body); the packets we write ourselves declare the right length"
  },
  {
   "property": "C67",
   "status": "partial",
   "theorems": [
    "JT808.C67_consumed",
    "JT808.C67_texts_partial",
    "JT808.C67_dword_ignores_length"
   ],
   "note": "false for BYTE/WORD/DWORD parameters (witness); proved for texts; exact consumption proved for all"
  },
  {
   "property": "C68",
   "status": "proved",
   "theorems": [
    "JT808.C68_isolation"
   ],
   "note": "all interleavings; every single step of every goroutine"
  },
  {
   "property": "C69",
   "status": "proved",
   "theorems": [
    "JT808.C69_accepted_code_issued",
    "JT808.C69_reply_code"
   ],
   "note": "all interleavings"
  },
  {
   "property": "C70",
   "status": "partial",
   "theorems": [
    "JT808.C70_resurrected",
    "JT808.C70_stays_gone_partial"
   ],
   "note": "false: a heartbeat racing with the deregistration brings the terminal back without a keepalive job, from every store (C70_resurrected). Proved for all interleavings when no handler of that phone is still running"
  },
  {
   "property": "C71",
   "status": "proved",
   "theorems": [
    "JT808.C71_handlers_do_not_panic"
   ],
   "note": "all interleavings; the built-in parameter table is shown to decode whatever the text converter does"
  },
  {
   "property": "C72",
   "status": "proved",
   "theorems": [
    "JT808.C72_no_interference"
   ],
   "note": "all interleavings of any number of goroutines"
  },
  {
   "property": "C73",
   "status": "partial",
   "theorems": [
    "JT808.C73_reports_keep_status",
    "JT808.C73_auth_wakes_partial"
   ],
   "note": "false: heartbeats and ACC-on reports never change the status, over all histories (C73_reports_keep_status). Proved: an authentication with the issued code wakes it"
  },
  {
   "property": "C74",
   "status": "partial",
   "theorems": [
    "JT808.C74_stays_offline",
    "JT808.C74_heartbeat_keeps_partial"
   ],
   "note": "false: heartbeats, ACC-on reports, registrations and checks keep an offline terminal offline, over all histories (C74_stays_offline). Proved: a heartbeat keeps it from being removed for a minute"
  },
  {
   "property": "C75",
   "status": "proved",
   "theorems": [
    "JT808.C75_fate",
    "JT808.C75_gone_after_three_periods",
    "JT808.C75_kept_two_periods"
   ],
   "note": "exact fate as a function of the number of late checks; the three-minute bound from a periodic schedule with any phase"
  },
  {
   "property": "C76",
   "status": "partial",
   "theorems": [
    "JT808.C76_offline_keeps_connection",
    "JT808.C76_removed_next",
    "JT808.C76_removal_partial"
   ],
   "note": "both promises are false: going offline leaves all connections and sessions alone (C76_offline_keeps_connection), and the next check removes the terminal however soon it comes (C76_removed_next). Proved: removal only after being offline and silent for a minute, closing the connection of the registration"
  },
  {
   "property": "C77",
   "status": "partial",
   "theorems": [
    "JT808.C77_refused_while_cached",
    "JT808.C77_after_checks_partial"
   ],
   "note": "false: refused with 1 or 3 as long as the terminal is cached, whatever happened to the connection (C77_refused_while_cached). Proved: accepted after the late checks that remove it"
  },
  {
   "property": "C78",
   "status": "partial",
   "theorems": [
    "JT808.C78_tied_to_registration",
    "JT808.C78_sent_to_registration_partial",
    "JT808.C78_lost",
    "JT808.C78_wrong_connection"
   ],
   "note": "false: a terminal stays tied to the connection of its registration (C78_tied_to_registration); when that is gone the request is answered 400 (C78_lost), or goes to whoever has the address now (C78_wrong_connection). Proved: what is sent goes to the address of the registration"
  },
  {
   "property": "C79",
   "status": "proved",
   "theorems": [
    "JT808.C79_start",
    "JT808.C79_step",
    "JT808.C79_arises",
    "JT808.C79_listing"
   ],
   "note": "forward simulation event by event, answers on the wire included (for writes that succeed); the tables that arise have no plate twice. Answers to parameter and query messages are not part of the table (C24, C29, C38)"
  },
  {
   "property": "C80",
   "status": "partial",
   "theorems": [
    "JT808.C80_reports_do_not_count",
    "JT808.C80_parked_reports_count_partial"
   ],
   "note": "false: reports with ACC on do not count as signs of life, a terminal that sends nothing else is removed like a silent one (C80_reports_do_not_count). Proved: a report with ACC off keeps the terminal for a minute"
  },
  {
   "property": "C81",
   "status": "partial",
   "theorems": [
    "JT808.C81_one_byte_partial",
    "JT808.C81_boundary_moved",
    "JT808.C81_colliding_ids",
    "JT808.C81_borrowed_code"
   ],
   "note": "false in three ways: the underscore may be part of id or plate (C81_boundary_moved), colliding ids collide for every plate and phone (C81_colliding_ids, with a concrete pair), and a code issued to one phone authenticates another in a concrete history (C81_borrowed_code). Proved: identities one byte apart get different codes"
  },
  {
   "property": "C82",
   "status": "partial",
   "theorems": [
    "JT808.C82_ranges",
    "JT808.C82_replaced",
    "JT808.C82_recorded_partial",
    "JT808.C82_any_recorded_partial",
    "JT808.C82_mirrored"
   ],
   "note": "false for the hemispheres, which encoding exchanges (C82_mirrored). Proved: the ranges for every draw, and the exact record stored for draws in range and, as the message says it, for any draw (C82_any_recorded_partial)"
  },
  {
   "property": "C83",
   "status": "partial",
   "theorems": [
    "JT808.C83_safe_partial",
    "JT808.C83_alone",
    "JT808.C83_lost",
    "JT808.C83_latest_goes_back"
   ],
   "note": "false: two overlapping calls can leave one report only (C83_lost), and an interrupted call makes Latest go back behind any number of newer reports (C83_latest_goes_back). Proved in all interleavings: no index out of range, slots and Latest only ever show reports that were written; calls that do not overlap do what the sequential model says"
  },
  {
   "property": "C84",
   "status": "proved",
   "theorems": [
    "JT808.C84_closed_for_a_reason",
    "JT808.C84_reasons_close",
    "JT808.C84_read_fails"
   ],
   "note": "exact list of reasons, each naming the very connection; the first three are also sufficient (for the write failure of an HTTP request the message must also be encodable)"
  },
  {
   "property": "C85",
   "status": "partial",
   "theorems": [
    "JT808.C85_expiry_takes_others_along",
    "JT808.C85_gateway",
    "JT808.C85_own_connection_partial"
   ],
   "note": "false for terminals that registered on the same connection (C85_expiry_takes_others_along, with a concrete gateway). Proved: connections on which the removed terminal did not register stay open"
  },
  {
   "property": "C86",
   "status": "partial",
   "theorems": [
    "JT808.C86_idle_never_closed",
    "JT808.C86_registered_closed_partial"
   ],
   "note": "false: only terminals are checked, a connection nobody registers on is served forever (C86_idle_never_closed). Proved: the connection of a registered terminal is closed when the terminal is removed"
  },
  {
   "property": "C87",
   "status": "proved",
   "theorems": [
    "JT808.C87_bytes",
    "JT808.C87_bytes_settle",
    "JT808.C87_conversation",
    "JT808.C87_settles"
   ],
   "note": "server and simulator as two machines with queues of frames between them, and again with single bytes between them (C87_bytes, C87_bytes_settle: a refinement of the former); the interference excluded is listed in Ev.aside"
  },
  {
   "property": "C88",
   "status": "proved",
   "theorems": [
    "JT808.C88_fleet",
    "JT808.C88_all_listed"
   ],
   "note": "simulators share one device cache, as in the simulator process; the server's steps for one simulator are other business for the rest"
  },
  {
   "property": "C89",
   "status": "partial",
   "theorems": [
    "JT808.C89_evicts",
    "JT808.C89_plate_taken_partial"
   ],
   "note": "false when the phone is taken: the simulator does not look at the result of the registration, authenticates with the placeholder text the refusal carries, and the server deletes the terminal registered under the phone (C89_evicts); proved when only the plate is taken"
  },
  {
   "property": "C90",
   "status": "partial",
   "theorems": [
    "JT808.CacheLock.C90_locked_methods_partial",
    "JT808.CacheLock.C90_read_only_partial",
    "JT808.CacheLock.C90_listing_is_fatal"
   ],
   "note": "false: ListDevice iterates over the map without the mutex, and iterating while a device is being cached ends the process with a fatal error that recover does not catch (C90_listing_is_fatal, from every state with the mutex free). Proved: all other methods together never do and never deadlock; nor do listings and lookups without writers"
  },
  {
   "property": "C91",
   "status": "partial",
   "theorems": [
    "JT808.C91_frames_stay_whole_partial",
    "JT808.C91_cut_write_loses"
   ],
   "note": "proved for all interleavings when each call of Write is all or nothing; false when a call fails half-way: nothing marks the connection as broken, and the next whole frame of another sender is lost (C91_cut_write_loses, for all frames and cuts)"
  },
  {
   "property": "C92",
   "status": "partial",
   "theorems": [
    "JT808.C92_anyone_sets_parameters",
    "JT808.C92_server_reports_media",
    "JT808.C92_registry_kept_partial"
   ],
   "note": "false: server and simulator share one table of handlers, so anybody connected can set parameters for any phone (C92_anyone_sets_parameters) and is sent media lists (C92_server_reports_media). Proved: registered terminals, locations and sessions are kept, except that a general reply turns an offline terminal online"
  },
  {
   "property": "C93",
   "status": "partial",
   "theorems": [
    "JT808.C93_harmless_partial",
    "JT808.C93_registration_again",
    "JT808.C93_deregistration_again",
    "JT808.C93_location_again"
   ],
   "note": "proved for heartbeats, authentications with the issued code, refused registrations and unanswered messages; false for registrations (refused without the code, C93_registration_again), deregistrations (the connection is closed, C93_deregistration_again) and locations (recorded twice, C93_location_again)"
  },
  {
   "property": "C94",
   "status": "proved",
   "theorems": [
    "JT808.C94_server_exact",
    "JT808.C94_client_exact",
    "JT808.C94_encoding_never_fails"
   ],
   "note": "both directions, for frames whose answer can be written (write errors: C84); which frames make the handler panic is the subject of C95"
  },
  {
   "property": "C95",
   "status": "proved",
   "theorems": [
    "JT808.C95_whole_message",
    "JT808.C95_sized",
    "JT808.C95_exact"
   ],
   "note": "equivalence for every frame; sufficient sizes per kind stated independently of the decoders. Whether a body that is too short panics or reads on into spare memory depends on the capacity of the buffer (C17)"
  },
  {
   "property": "C96",
   "status": "proved",
   "theorems": [
    "JT808.C96_isolated",
    "JT808.C96_unnoticed",
    "JT808.C96_same_plate"
   ],
   "note": "handlers one at a time (interleaved ones: C72); opened connections are kept because they are numbered; C96_same_plate shows that the plates must differ"
  },
  {
   "property": "C97",
   "status": "proved",
   "theorems": [
    "JT808.C97_bytes_are_frames",
    "JT808.C97_cut_unique",
    "JT808.C97_frames_arise",
    "JT808.C97_reachable",
    "JT808.C97_replies_cut"
   ],
   "note": "refinement between the byte-level and the frame-level server used in all other claims, in both directions; how a stream is cut is a relation of its own (Spec.Cut) that determines the frames (C97_cut_unique). One read returns one byte, as conn.Read on a one-byte buffer does"
  },
  {
   "property": "C98",
   "status": "partial",
   "theorems": [
    "JT808.C98_marks_ignored",
    "JT808.C98_unmarked_partial"
   ],
   "note": "false: the three encryption bits are decoded and never looked at; a marked message has the same effect as an unmarked one and its answer is plain text under a header with the same mark (C98_marks_ignored). Proved: answers to unmarked messages are unmarked"
  },
  {
   "property": "C99",
   "status": "partial",
   "theorems": [
    "JT808.C99_same_layout_partial",
    "JT808.C99_layouts_differ",
    "JT808.C99_F_collides",
    "JT808.C99_F_refused",
    "JT808.C99_dialled_number_unknown"
   ],
   "note": "proved for frames of one layout whose numbers are free of the hexadecimal digit F. False otherwise: the same number in the 2013 and the 2019 layout is two terminals (C99_layouts_differ), numbers that differ only before a digit F are one (C99_F_collides, C99_F_refused), and the HTTP interface knows a terminal only by the padded text of 12 or 20 digits (C99_dialled_number_unknown)"
  },
  {
   "property": "C100",
   "status": "partial",
   "theorems": [
    "JT808.C100_default_report_partial",
    "JT808.C100_leftover_reported"
   ],
   "note": "proved for every parameter of the list but 0x76. That one is announced with 35 bytes while 15 are left, and is reported with twenty bytes of the hexadecimal text the list was decoded from (C100_leftover_reported)"
  },
  {
   "property": "C101",
   "status": "partial",
   "theorems": [
    "JT808.C101_sessions_bounded",
    "JT808.C101_parameters_kept",
    "JT808.C101_track_lingers",
    "JT808.C101_anyone_piles_up"
   ],
   "note": "proved for sessions (never more than served connections) and, with C62_length, for terminals and keepalive jobs. False for parameters, which are never released (C101_parameters_kept): anybody who asks with frames of fifteen bytes for the parameters of any phones and hangs up leaves 39 parameters per phone behind for ever (C101_anyone_piles_up). The track of a terminal that signed off is kept until its phone is registered again (C101_track_lingers)"
  },
  {
   "property": "C102",
   "status": "proved",
   "theorems": [
    "JT808.C102_exact",
    "JT808.C102_digits",
    "JT808.C102_distinct",
    "JT808.C102_shown"
   ],
   "note": "binary64 division modelled with round-to-nearest-even; the printed text is specified as the documentation of strconv.FormatFloat does (fewest digits that parse back). Which report is the latest is C40"
  },
  {
   "property": "C103",
   "status": "partial",
   "theorems": [
    "JT808.C103_any_connection",
    "JT808.C103_code_computed",
    "JT808.C103_code_listed",
    "JT808.C103_registration_partial",
    "JT808.C103_stranger_reports"
   ],
   "note": "false: the connection plays no part except for registrations and when a connection ends (C103_any_connection), so any peer speaks for any phone without authenticating (C103_stranger_reports); the code is computed from what GET /device shows, and after an authentication GET /device shows the code itself (C103_code_computed, C103_code_listed). Proved: no event changes which connection, id, plate and session a registered terminal has (C103_registration_partial)"
  },
  {
   "property": "C104",
   "status": "proved",
   "theorems": [
    "JT808.Locks.C104_never_held_up",
    "JT808.Locks.C104_nothing_held_at_network",
    "JT808.Locks.C104_no_deadlock"
   ],
   "note": "the goroutines as sequences of taking and releasing the six mutexes and of network operations, each released by defer. Not modelled: whether Go's mutex is fair (that a goroutine that can go on does), and mutexes inside the libraries"
  },
  {
   "property": "C105",
   "status": "proved",
   "theorems": [
    "JT808.C105_decode",
    "JT808.C105_encode"
   ],
   "note": "the digits are given by a table of their own, the notation by an inductive relation; equivalence for every text"
  },
  {
   "property": "C106",
   "status": "partial",
   "theorems": [
    "JT808.C106_dial_ends_all",
    "JT808.C106_dial_only",
    "JT808.C106_no_reconnect",
    "JT808.C106_fragment_deafens",
    "JT808.C106_finished",
    "JT808.C106_deregistration_ends_all",
    "JT808.C106_platform_partial"
   ],
   "note": "false: seven failed attempts of one simulator to connect end the process whatever the others do (C106_dial_ends_all, and only that: C106_dial_only); a deregistration with the phone of one simulator ends it at the next report (C106_deregistration_ends_all); a connection that ended is never replaced (C106_no_reconnect); the first fragment of a message makes a simulator deaf for good while it goes on sending (C106_fragment_deafens). Proved: main returns exactly when all have connected and stopped reading (C106_finished), and a server that sends no registration, authentication or deregistration cannot make a simulator lose its device or end the process (C106_platform_partial)"
  },
  {
   "property": "C107",
   "status": "partial",
   "theorems": [
    "JT808.C107_status_partial",
    "JT808.C107_unsent_200",
    "JT808.C107_unsupported_200"
   ],
   "note": "exact conditions of 400, 500 and 200 proved; 200 is answered although the write failed (C107_unsent_200) and for parameters nobody supports (C107_unsupported_200)"
  },
  {
   "property": "C108",
   "status": "partial",
   "theorems": [
    "JT808.C108_2019",
    "JT808.C108_2013_partial",
    "JT808.C108_introduced",
    "JT808.C108_id_cut"
   ],
   "note": "proved for 2019 simulators with ids of at most 30 bytes and 15-byte IMEIs; for 2013/2011 simulators IMEI and software are shown empty and ids cut to seven bytes (C108_id_cut)"
  },
  {
   "property": "C109",
   "status": "proved",
   "theorems": [
    "JT808.C109_one_by_one"
   ],
   "note": "registrations and parameter messages of the terminal itself are not among the turns (registrations look at other terminals' plates)"
  },
  {
   "property": "C110",
   "status": "partial",
   "theorems": [
    "JT808.C110_shipped_partial",
    "JT808.C110_copies_evict"
   ],
   "note": "proved for one simulator and a text codec that knows the shipped plate. False for a concurrency above one: phone and plate are fixed texts, so every further simulator is refused and removes the one before it (C110_copies_evict). That regen.Generate returns a text matching its pattern is trusted"
  },
  {
   "property": "C111",
   "status": "partial",
   "theorems": [
    "JT808.C111_replies_copy",
    "JT808.C111_simulator_one",
    "JT808.C111_own_partial",
    "JT808.C111_collision"
   ],
   "note": "proved for the messages that parameter requests make the server send (C111_own_partial, from C49). False otherwise: an answer carries the number of the request (C111_replies_copy), also where the server has just used that number for a message of its own (C111_collision), and everything the simulator sends of its own accord has number 1 (C111_simulator_one)"
  },
  {
   "property": "C112",
   "status": "partial",
   "theorems": [
    "JT808.C112_cache_partial",
    "JT808.C112_overwrite"
   ],
   "note": "proved while no device is put beside another one with its plate or phone (C112_cache_partial); otherwise a device stays under its old plate for ever although another one took its phone (C112_overwrite). The message handlers keep to the condition (C31)"
  },
  {
   "property": "C113",
   "status": "partial",
   "theorems": [
    "JT808.C113_bound",
    "JT808.C113_put_partial",
    "JT808.C113_nothing_said",
    "JT808.C113_no_object",
    "JT808.C113_wrong_count",
    "JT808.C113_null_member",
    "JT808.C113_null",
    "JT808.C113_count_too_large",
    "JT808.C113_no_content_type"
   ],
   "note": "proved for bodies that name count and list once and give each parameter id and value once (C113_put_partial). False otherwise: a body that says nothing of parameters is answered 200 and an empty setting is sent (C113_nothing_said), a body that is no object is answered 400 and an empty setting is sent all the same (C113_no_object), the announced count goes out as it is (C113_wrong_count, C113_count_too_large), and a null in the list is answered 500 (C113_null); without the content type for JSON the body is not looked at (C113_no_content_type)"
  },
  {
   "property": "C114",
   "status": "partial",
   "theorems": [
    "JT808.C114_failures_partial",
    "JT808.C114_closed_partial",
    "JT808.C114_served_on",
    "JT808.C114_never_returns",
    "JT808.C114_spins",
    "JT808.C114_second_listen"
   ],
   "note": "proved that no connection is accepted after Stop if Listen succeeded at most once before (C114_closed_partial; otherwise one more is: C114_second_listen) and that failures of Accept do not show (C114_failures_partial). False for the rest: whoever is connected is served on as if nothing had happened (C114_served_on), Start never returns (C114_never_returns), and its loop goes round with errors for ever (C114_spins)"
  },
  {
   "property": "C115",
   "status": "partial",
   "theorems": [
    "JT808.C115_listing",
    "JT808.C115_faithful_partial",
    "JT808.C115_alike"
   ],
   "note": "proved that the body is JSON with exactly one meaning and one entry per device, texts as a reader of UTF-8 sees them (C115_listing), and that devices with UTF-8 texts can be told from it (C115_faithful_partial). False otherwise: terminals with different ids are listed with the same text if the ids are not UTF-8 (C115_alike)"
  },
  {
   "property": "C116",
   "status": "proved",
   "theorems": [
    "JT808.C116_told"
   ],
   "note": "C116_told; together with C79 (presence and time) every field of the listing is accounted for"
  },
  {
   "property": "C117",
   "status": "proved",
   "theorems": [
    "JT808.Once.C117_one",
    "JT808.Once.C117_not_stuck"
   ],
   "note": "C117_one (safety) and C117_not_stuck (from every reachable state everybody can still be served)"
  },
  {
   "property": "C118",
   "status": "partial",
   "theorems": [
    "JT808.Startup.C118_up_iff",
    "JT808.Startup.C118_exit_partial",
    "JT808.Startup.C118_no_ports",
    "JT808.Startup.C118_no_directory",
    "JT808.Startup.C118_lurking",
    "JT808.Startup.C118_http_taken",
    "JT808.Startup.C118_silent"
   ],
   "note": "proved exactly when it comes up and on which ports (C118_up_iff), and that status 1 means a port could not be had and is logged at every level but FATAl (C118_exit_partial). False otherwise: a missing section (C118_no_ports) or a log directory that cannot be made (C118_no_directory) is a crash, the latter with a level above INFO only at the first warning (C118_lurking); status 1 can come without a word (C118_silent) and after terminals could connect (C118_http_taken)"
  },
  {
   "property": "C119",
   "status": "partial",
   "theorems": [
    "JT808.Startup.C119_first_partial",
    "JT808.Startup.C119_kept",
    "JT808.Startup.C119_never_again",
    "JT808.Startup.C119_other_path",
    "JT808.Startup.C119_after_panic"
   ],
   "note": "proved for the first call (C119_first_partial). Later calls return what the first one left behind (C119_kept) and never panic (C119_never_again), also for another path (C119_other_path) and, with an empty configuration, after a panic (C119_after_panic)"
  },
  {
   "property": "C120",
   "status": "partial",
   "theorems": [
    "JT808.C120_answer",
    "JT808.C120_latest_partial",
    "JT808.C120_last_heard"
   ],
   "note": "proved: the text is JSON with one meaning and has the numbers of the report to the last digit (C120_answer, C120_latest_partial). False: the time the terminal was last heard of is named but empty, so a heartbeat does not change the answer (C120_last_heard)"
  },
  {
   "property": "C121",
   "status": "partial",
   "theorems": [
    "JT808.C121_held",
    "JT808.C121_bounded_partial",
    "JT808.C121_flood",
    "JT808.C121_no_bound"
   ],
   "note": "proved what is held (C121_held) and that it is at most 2091 bytes while a peer sends frames of packets of protocol size (C121_bounded_partial). False in general: after one 0x7e everything that is not 0x7e is kept, the connection is not closed (C121_flood), and no bound exists (C121_no_bound)"
  },
  {
   "property": "C122",
   "status": "partial",
   "theorems": [
    "JT808.C122_answered_partial",
    "JT808.C122_unanswered",
    "JT808.C122_time_ignored",
    "JT808.C122_time_never_sent"
   ],
   "note": "proved for all but 0004 (C122_answered_partial, C122_unanswered), for registered terminals with phone numbers that fill their field. False for 0004: it is ignored in every state (C122_time_ignored) and no history has an 8004 in it (C122_time_never_sent)"
  },
  {
   "property": "C123",
   "status": "partial",
   "theorems": [
    "JT808.C123_prompt_partial",
    "JT808.C123_handled_no_pause",
    "JT808.C123_unknown_stalls",
    "JT808.C123_corrupt_stalls",
    "JT808.C123_unwritten",
    "JT808.C123_lag",
    "JT808.C123_as_if_silent",
    "JT808.C123_no_bound"
   ],
   "note": "proved: never before it arrived, at most one second later per earlier frame that made the loop pause, at once if there was none (C123_prompt_partial), and that handled messages do not make it pause (C123_handled_no_pause). False otherwise: every message without a handler and every corrupt frame makes the loop sleep for a second (C123_unknown_stalls, C123_corrupt_stalls; a written answer costs none, an answer that cannot be written one, unless the connection ends, C123_unwritten), so n of them hold back everything behind for n seconds (C123_lag), without bound (C123_no_bound), and a terminal that sends its heartbeats behind them is taken offline and removed as if it were silent (C123_as_if_silent)"
  },
  {
   "property": "C124",
   "status": "partial",
   "theorems": [
    "JT808.C124_2019",
    "JT808.C124_2013",
    "JT808.C124_2011_is_2013",
    "JT808.C124_somebody_else",
    "JT808.C124_gives_up"
   ],
   "note": "proved for 2019 and 2013 (C124_2019, C124_2013). False: with 2011 it sends exactly what it sends with 2013 (C124_2011_is_2013); any other text is accepted and leaves the phone number unpadded, so that with ten or eleven digits the server takes every frame for one of another number (C124_somebody_else) and the simulator gives up at the first answer (C124_gives_up)"
  },
  {
   "property": "C125",
   "status": "partial",
   "theorems": [
    "JT808.C125_position",
    "JT808.C125_near_partial",
    "JT808.C125_shown_partial",
    "JT808.C125_pole",
    "JT808.C125_rest",
    "JT808.C125_high",
    "JT808.C125_direction",
    "JT808.C125_shared",
    "JT808.C125_hundred"
   ],
   "note": "proved for latitude, longitude, height and speed of positions away from the edges and phones of their own, in the message (C125_near_partial) and as the server stores it (C125_shown_partial). False: at the equator a terminal is reported at the pole (C125_pole), at rest it is reported at 100 km/h (C125_rest), above 5005 m at 1000 m (C125_high); the configured direction is never used (C125_direction); simulators with one phone all report from the position built last (C125_shared), and a hundred of them report nothing (C125_hundred)"
  },
  {
   "property": "C126",
   "status": "partial",
   "theorems": [
    "JT808.C126_status",
    "JT808.C126_position",
    "JT808.C126_registration",
    "JT808.C126_recorded_partial",
    "JT808.C126_any_case",
    "JT808.C126_missing",
    "JT808.C126_cut",
    "JT808.C126_no_number"
   ],
   "note": "proved for the shipped file: flags (C126_status), position (C126_position), registration (C126_registration), whatever the case of the keys (C126_any_case), and as the server stores it but for the hemispheres (C126_recorded_partial). False for other files: a key that is missing or misspelt (C126_missing), a text that is no number (C126_no_number) count as 0, and of a number too big only the low bits take effect (C126_cut), all without a complaint"
  },
  {
   "property": "C127",
   "status": "proved",
   "theorems": [
    "JT808.C127_same",
    "JT808.C127_listing",
    "JT808.C127_position",
    "JT808.C127_no_other_memory",
    "JT808.C127_asking_changes_nothing",
    "JT808.C127_bytes"
   ],
   "note": "C127_same (what is sent, ended and answered), C127_listing, C127_position, C127_no_other_memory, C127_asking_changes_nothing, and for bytes instead of frames C127_bytes. The reference server has the peculiarities found elsewhere on purpose: no position after every hundredth report (C48), the first fragment of a message ends the connection (C51), surrogate message ids share their fragments (C53). It uses the decoders and encoders of the model, whose properties are C01-C26; handlers run one at a time (C94 and others have them interleaved)"
  },
  {
   "property": "C128",
   "status": "proved",
   "theorems": [
    "JT808.C128_order",
    "JT808.C128_frames",
    "JT808.C128_late",
    "JT808.C128_same_plate",
    "JT808.C128_lost_line"
   ],
   "note": "C128_order for any two such events, C128_frames for messages in plain terms, C128_late for an event put off past many others; that the exceptions are needed: C128_same_plate, C128_lost_line. Events are handled one at a time here; interleavings inside handlers are C72 and C109"
  },
  {
   "property": "C129",
   "status": "proved",
   "theorems": [
    "JT808.C129_found",
    "JT808.C129_info",
    "JT808.C129_names",
    "JT808.C129_dir",
    "JT808.C129_every_name",
    "JT808.C129_starts",
    "JT808.C129_ports",
    "JT808.C129_deflate_tables",
    "JT808.C129_tables",
    "JT808.C129_dials",
    "JT808.C129_patterns"
   ],
   "note": "C129_found, C129_info, C129_names, C129_dir with C129_every_name, C129_starts, C129_ports. C129_tables proves that the tables C110 and C126 were stated with (copied by hand) are what the built-in file says; C129_patterns that reading an expression gives the texts it matches. C129_deflate_tables: the length and distance tables of the decompressor are those of RFC 1951. C129_dials: a simulator started with its built-in configuration dials 119.249.51.166:5080, not a server started with its own"
  },
  {
   "property": "C130",
   "status": "partial",
   "theorems": [
    "JT808.C130_waits_partial",
    "JT808.C130_order",
    "JT808.C130_answered",
    "JT808.C130_refused_silent",
    "JT808.C130_any_reply",
    "JT808.C130_somebody_elses",
    "JT808.C130_answers_first",
    "JT808.C130_refused_for_ever"
   ],
   "note": "C130_order: nothing of its own accord before the registration, one registration, then heartbeats and positions. C130_waits_partial: between the registration and the first of these some simulator of the process was handed a positive general reply (or an authentication, which no platform sends) for its phone. False beyond that: any positive reply releases it, also one to a message nobody sent (C130_any_reply) and one read by another simulator (C130_somebody_elses); C130_answered: what it sends on a frame is the answer to that frame. It answers frames before it has registered (C130_answers_first); refused, it is silent for ever and never stops (C130_refused_silent, C130_refused_for_ever)"
  },
  {
   "property": "C131",
   "status": "partial",
   "theorems": [
    "JT808.C131_same_partial",
    "JT808.C131_plate",
    "JT808.C131_layout",
    "JT808.C131_code",
    "JT808.C131_answer"
   ],
   "note": "C131_same_partial for every kind whose layout says where it ends, e.g. the location report of the README with its two items. False for the others: what follows a registration becomes part of the plate (C131_plate), and a registration of 2011 that grows by twelve bytes is read in the layout of 2013 (C131_layout); an authentication of 2011/2013 with a byte more is refused and the terminal forgotten (C131_code); what follows a registration answer becomes part of the code (C131_answer)"
  },
  {
   "property": "C132",
   "status": "partial",
   "theorems": [
    "JT808.C132_read",
    "JT808.C132_one_meaning",
    "JT808.C132_exact",
    "JT808.C132_trailing",
    "JT808.C132_cut_off",
    "JT808.C132_put_partial",
    "JT808.C132_cut_off_sent",
    "JT808.C132_request_partial"
   ],
   "note": "C132_read: every JSON text; C132_exact: an object is read exactly if the body begins with its text (taking bytes that are no UTF-8 and single surrogates for U+FFFD); C132_one_meaning: no text has two values; C132_cut_off: refused wherever it is cut; C132_put_partial and, from the request line on, C132_request_partial: the effect, under the hypotheses of C113. False: whatever follows the object is not looked at (C132_trailing), and a body cut off is answered 400 but a setting without parameters is sent to the terminal (C132_cut_off_sent)"
  },
  {
   "property": "C133",
   "status": "partial",
   "theorems": [
    "JT808.Startup.C133_connected_iff",
    "JT808.Startup.C133_exit_partial",
    "JT808.Startup.C133_gives_up",
    "JT808.Startup.C133_no_client",
    "JT808.Startup.C133_negative",
    "JT808.Startup.C133_none",
    "JT808.Startup.C133_idle",
    "JT808.Startup.C133_as_shipped"
   ],
   "note": "C133_connected_iff: when terminals are connected, how many, and whether they register; C133_gives_up and C133_exit_partial: status 1 exactly after seven refusals of one terminal (with a place for log files), with the error as last line; C133_as_shipped for the built-in configuration. False beyond that: a configuration without the section is a panic (C133_no_client), so is a negative number (C133_negative); with no number the process ends successfully without a word (C133_none); without the section about the position the terminals stay connected for ever and never register (C133_idle)"
  },
  {
   "property": "C134",
   "status": "proved",
   "theorems": [
    "JT808.C134_exact",
    "JT808.C134_other",
    "JT808.C134_request",
    "JT808.C134_every_terminal",
    "JT808.C134_one_terminal",
    "JT808.C134_redirected_to_nothing"
   ],
   "note": "C134_exact: which requests ask for what, both ways; C134_one_terminal: no request asks for two things; C134_request: the effect on the server; C134_every_terminal: after any history no number in the cache needs escapes; C134_other: the other answers, among them a redirect to a path that is answered 404 (C134_redirected_to_nothing)"
  },
  {
   "property": "C135",
   "status": "proved",
   "theorems": [
    "JT808.C135_ignored",
    "JT808.C135_read",
    "JT808.C135_one_meaning",
    "JT808.C135_alike",
    "JT808.C135_ports",
    "JT808.C135_comes_up",
    "JT808.C135_udp"
   ],
   "note": "C135_read and C135_one_meaning: every text is read as what it says; C135_alike: order and case make no difference; C135_comes_up and C135_ports: the server is on the ports of the file; C135_udp: whatever the UDP port, the process does the same; C135_ignored: so does a setting nobody reads, such as a misspelt one"
  },
  {
   "property": "C136",
   "status": "proved",
   "theorems": [
    "JT808.C136_shown",
    "JT808.C136_connected",
    "JT808.C136_registers",
    "JT808.C136_device_conf",
    "JT808.C136_terminal",
    "JT808.C136_registration",
    "JT808.C136_position",
    "JT808.C136_listed",
    "JT808.C136_transport"
   ],
   "note": "C136_connected and C136_registers: number, address and whether they register; C136_terminal: exactly the terminals of the file (iff), C136_device_conf links this to the patterns; C136_registration, C136_position: the messages; C136_listed: what the server lists after the sign-on; C136_shown: what GET /device then answers, after any history of the server; C136_transport: the transport protocol makes no difference"
  },
  {
   "property": "C137",
   "status": "proved",
   "theorems": [
    "JT808.C137_events",
    "JT808.C137_output",
    "JT808.C137_first"
   ],
   "note": "C137_events: level and place of every event; C137_output: all a server says that comes up; C137_first: the first two things either program says. The panic with a directory that cannot be made is C118, the misspelt fifth level C63 and C118_silent"
  },
  {
   "property": "C138",
   "status": "partial",
   "theorems": [
    "JT808.C138_answer",
    "JT808.C138_json_partial",
    "JT808.C138_two_complaints",
    "JT808.C138_status"
   ],
   "note": "C138_answer: status and body of every request; C138_status: complaints and 400 go together; C138_json_partial: empty or one JSON text with one meaning, missing: settings with a body that cannot be used for a terminal that is not known or connected; C138_two_complaints: there the body is two objects one after the other, no JSON text, for every such request. The text of the complaint about a body is a parameter of the model"
  },
  {
   "property": "C139",
   "status": "proved",
   "theorems": [
    "JT808.C139_outside",
    "JT808.C139_determined"
   ],
   "note": "C139_outside: every history of the model shows what the relation allows; C139_determined: the relation fixes the frames, and what is sent and closed. Events are one step each; how the goroutines of one event interleave is C33, C68 to C72, C83, C90 and C109"
  },
  {
   "property": "C140",
   "status": "partial",
   "theorems": [
    "JT808.C140_alone_partial",
    "JT808.C140_shared_phone"
   ],
   "note": "C140_alone_partial: for every simulator whose number is its own, and frames of the kind a platform sends for the terminal of the connection, what it sends and its state are those of the run in which the others only connect, as long as the process runs. Missing: simulators that drew the same number, where the claim is false (C140_shared_phone: the answer to one makes the other send), and the end of the process, which is shared (C106)"
  },
  {
   "property": "C141",
   "status": "proved",
   "theorems": [
    "JT808.C141_level",
    "JT808.C141_replay",
    "JT808.C141_quiet",
    "JT808.C141_content",
    "JT808.C141_late"
   ],
   "note": "C141_level: same states and same observations as without a log; C141_replay: the file has one reading, and frames received and sent can be read from it; C141_content: the lines about a message and its answer show every field; C141_quiet: the other levels; C141_late: with a year of five digits json.Marshal fails for a media query without dates, and the message is answered at INFO and not at DEBUG. Lines that other places write are not modelled (list in the model), nor rotation (the console format: C143). The debug log has the authentication codes of registrations in the clear, and every level name that is not spelt as one of the four is debug level"
  },
  {
   "property": "C142",
   "status": "partial",
   "theorems": [
    "JT808.C142_query",
    "JT808.C142_media",
    "JT808.C142_register",
    "JT808.C142_register_2011",
    "JT808.C142_reencode",
    "JT808.C142_unique",
    "JT808.C142_lenient",
    "JT808.C142_not_injective",
    "JT808.C142_body_partial",
    "JT808.C142_set_params",
    "JT808.C142_params",
    "JT808.C142_params_gbk",
    "JT808.C142_position"
   ],
   "note": "C142_reencode: exactly the frames that are escaped as the standard says, whose phone number fills its field and whose declared length is right come out again; C142_unique: among these a reading has one frame; C142_lenient: a frame with a stray 0x7d is treated as the one with it escaped; C142_not_injective: different frames that are read alike. C142_body_partial: bodies of eight of the thirteen messages; C142_position: positions, exactly if no half of a byte of the time is F; C142_set_params and C142_params: parameter lists, exactly if each item has the length of its type and texts and numbers stand as they are written (C142_params_gbk: with GBK as the environment); C142_query and C142_media: media queries and lists, exactly if their times are dates; C142_register: registrations of 2013 and 2019, exactly if the plate is what GBK has for it; C142_register_2011: false for the layout of 2011; so it is settled for every message which bodies come out again, and the claim for all bodies is false"
  },
  {
   "property": "C143",
   "status": "partial",
   "theorems": [
    "JT808.C143_replay",
    "JT808.C143_quiet",
    "JT808.C143_content",
    "JT808.C143_panic"
   ],
   "note": "The claim for every line of the log is false: the report of GoSafe is printed as it is and spans several lines (C143_panic counts them). Lines of other places are not covered. The ConsoleWriter of zerolog v1.28.0, strconv.Quote and json.Marshal are modelled from knowledge of those libraries; the writer is given what the JSON line denotes (C141)."
  },
  {
   "property": "C144",
   "status": "proved",
   "theorems": [
    "JT808.C144_read",
    "JT808.C144_says",
    "JT808.C144_write",
    "JT808.C144_refused",
    "JT808.C144_survives",
    "JT808.C144_ascii",
    "JT808.C144_lost",
    "JT808.C144_plates",
    "JT808.C144_mistaken",
    "JT808.C144_registers",
    "JT808.C144_conversation",
    "JT808.C144_shipped"
   ],
   "note": "C144_read: any bytes; C144_says: GBK is read as what it says; C144_write, C144_refused: exactly the texts of known characters are written; C144_survives: there and back, with the length; C144_ascii; C144_plates: all plates of all histories; C144_registers, C144_conversation, C144_shipped: the hypotheses about converters in C20, C87, C100 and C110 hold with these; C144_lost, C144_mistaken: bytes that mean nothing are all read as U+FFFD, so that two terminals with different such plates are taken for one. The entries of the tables are a parameter, that a code leads back to its character is assumed of them"
  },
  {
   "property": "C145",
   "status": "partial",
   "theorems": [
    "JT808.C145_at_most",
    "JT808.C145_at_least_partial",
    "JT808.C145_exact_partial",
    "JT808.C145_too_few",
    "JT808.C145_closed_counted"
   ],
   "note": "C145_at_most for all histories; C145_at_least_partial and C145_exact_partial without reused addresses; missing: reused addresses, where it is false (C145_too_few); C145_closed_counted: a connection closed by a keepalive check counts until its loop has noticed"
  },
  {
   "property": "C146",
   "status": "partial",
   "theorems": [
    "JT808.C146_each_partial",
    "JT808.C146_total_partial",
    "JT808.C146_query_amplified"
   ],
   "note": "C146_each_partial and C146_total_partial for messages of terminals; missing: messages only the platform should send, for which it is false (C146_query_amplified: 15 bytes from an unknown phone get more than 30 times as many)"
  },
  {
   "property": "C147",
   "status": "proved",
   "theorems": [
    "JT808.C147_region",
    "JT808.C147_text_ambiguous"
   ],
   "note": "C147_region for every table of six-digit codes (the table of the package GB2260 is not in the sandbox); C147_text_ambiguous: the text that is looked up is the same for different pairs of large numbers, so the theorem needs the length of the codes"
  },
  {
   "property": "C148",
   "status": "partial",
   "theorems": [
    "JT808.C148_saved_code",
    "JT808.C148_refused",
    "JT808.C148_same_code_again",
    "JT808.C148_locked_out"
   ],
   "note": "False without a new registration: C148_refused shows that after a restart every message of a phone that has not registered again, authentications included, is not answered and ends the connection, C148_locked_out shows a terminal to which it happens. What holds: C148_saved_code (while a terminal is known exactly the code once given for its id, plate and phone is accepted, in whichever life it was given), C148_same_code_again (registering again gives the same code)."
  },
  {
   "property": "C149",
   "status": "partial",
   "theorems": [
    "JT808.C149_once",
    "JT808.C149_addressed",
    "JT808.C149_own_connection_partial",
    "JT808.C149_reused_address",
    "JT808.C149_unregistered",
    "JT808.C149_answered",
    "JT808.C149_alone",
    "JT808.C149_unnoticed"
   ],
   "note": "C149_once, C149_addressed (message, phone, version, address of a registration of that phone), C149_unregistered, C149_answered, C149_unnoticed and C149_alone (a request with nothing in between is that of C54-C57) for all interleavings; C149_own_connection_partial: the very connection if no address was used twice; missing: reused addresses, where it is false (C149_reused_address)"
  },
  {
   "property": "C150",
   "status": "partial",
   "theorems": [
    "JT808.C150_overtaken",
    "JT808.C150_forgotten",
    "JT808.C150_checks_still_partial",
    "JT808.C150_stays_partial"
   ],
   "note": "C150_checks_still_partial (no step of a check changes any device, index or connection within the minute) and C150_stays_partial (a terminal with only heartbeats and checks stays registered, in its state, on its connection), for checks that begin after the heartbeat; missing: a check under way when the heartbeat arrives, for which it is false (C150_overtaken, C150_forgotten)"
  },
  {
   "property": "C151",
   "status": "proved",
   "theorems": [
    "JT808.C151_offline",
    "JT808.C151_online",
    "JT808.C151_overlapping"
   ],
   "note": "C151_offline (one check), C151_online (two checks); C151_overlapping shows that the checks must not overlap"
  },
  {
   "property": "C152",
   "status": "proved",
   "theorems": [
    "JT808.C152_no_interference",
    "JT808.C152_one_by_one",
    "JT808.C152_same_plate"
   ],
   "note": "C152_no_interference (any interleaving, no turns), C152_one_by_one (turns); C152_same_plate shows that the condition on plates is needed; parameters are set under the number in the header, as Decode makes the message (decode_8103_phone)"
  },
  {
   "property": "C153",
   "status": "proved",
   "theorems": [
    "JT808.C153_moments"
   ],
   "note": "the milliseconds and the calendar date of the moment may come from different steps of the turn (0200 reads the date for the position and later the time of the last message)"
  },
  {
   "property": "C154",
   "status": "proved",
   "theorems": [
    "JT808.C154_one_connection"
   ],
   "note": "C154_one_connection; a terminal's own check at the same time is left to C150 and C151, another terminal with its plate to C152_same_plate"
  },
  {
   "property": "C155",
   "status": "proved",
   "theorems": [
    "JT808.C155_answered"
   ],
   "note": "C155_answered; that the reply reaches the terminal is C07 and C91; mutexes are C104"
  },
  {
   "property": "C156",
   "status": "proved",
   "theorems": [
    "JT808.C156_welcome"
   ],
   "note": "C156_welcome; the checks of these terminals themselves are left out (C157 adds them, within a minute; C150 says what they do later)"
  },
  {
   "property": "C157",
   "status": "proved",
   "theorems": [
    "JT808.C157_calm"
   ],
   "note": "C157_calm; the scheduler is taken to start checks only for jobs in its table (hypothesis FromTable). After a minute without a message C150 applies"
  },
  {
   "property": "C158",
   "status": "proved",
   "theorems": [
    "JT808.C158_bytes"
   ],
   "note": "C158_bytes; frames that are fragments are left out (C52, C53 are about them), and so are write errors (C84)"
  },
  {
   "property": "C159",
   "status": "proved",
   "theorems": [
    "JT808.C159_bytes_calm"
   ],
   "note": "C159_bytes_calm; the scheduler is taken to start checks only for jobs in its table (hypothesis LinesFromTable); fragments and write errors as in C158"
  },
  {
   "property": "C160",
   "status": "proved",
   "theorems": [
    "JT808.C160_bytes_sequential"
   ],
   "note": "C160_bytes_sequential; fragments (C52, C53) and write errors (C84) are left out; checks of the terminal itself are C159"
  },
  {
   "property": "C161",
   "status": "proved",
   "theorems": [
    "JT808.C161_bytes_answered"
   ],
   "note": "C161_bytes_answered; a query of parameters (0x8104, which terminals do not send) may also end serve; fragments and write errors are left out"
  },
  {
   "property": "C162",
   "status": "proved",
   "theorems": [
    "JT808.C162_awake_sequential",
    "JT808.C162_first_minute"
   ],
   "note": "C162_awake_sequential, C162_first_minute; that the process lives is a hypothesis because a check of a phone that is not known panics (C46); fragments and write errors are left out as in C160"
  },
  {
   "property": "C163",
   "status": "proved",
   "theorems": [
    "JT808.C163_bytes_total",
    "JT808.C163_minute_total"
   ],
   "note": "C163_bytes_total, C163_minute_total; fragments and write errors are left out as in C160; that the process lives is a hypothesis of the second as in C162"
  },
  {
   "property": "C164",
   "status": "proved",
   "theorems": [
    "JT808.C164_answers_are_a_function"
   ],
   "note": "C164_answers_are_a_function; 0x9205, which only platforms send, is left out because its answer repeats times that fall back to the clock when they are not times; fragments and write errors are left out as in C160"
  },
  {
   "property": "C165",
   "status": "proved",
   "theorems": [
    "JT808.C165_others_break",
    "JT808.C165_own_breaks"
   ],
   "note": "C165_others_break, C165_own_breaks; fragments are left out as in C160"
  },
  {
   "property": "C166",
   "status": "proved",
   "theorems": [
    "JT808.C166_first_minute_alone"
   ],
   "note": "C166_first_minute_alone; that the process lives is a hypothesis as in C162, fragments and 0x9205 are left out as in C164; the messages handled before are taken to be such as Decode makes (a setting of parameters carries the phone of its header)"
  },
  {
   "property": "C167",
   "status": "proved",
   "theorems": [
    "JT808.C167_gateway"
   ],
   "note": "C167_gateway; fragments, write errors and checks of the phone itself are left out as in C160"
  },
  {
   "property": "C168",
   "status": "proved",
   "theorems": [
    "JT808.C168_gateway_total"
   ],
   "note": "C168_gateway_total; a query of parameters (0x8104, which terminals do not send) may also end serve as in C161; fragments and checks of the phone itself are left out as in C160"
  },
  {
   "property": "C169",
   "status": "proved",
   "theorems": [
    "JT808.C169_unnoticed",
    "JT808.C169_terminal"
   ],
   "note": "C169_unnoticed, C169_terminal; the bytes that a request writes to the terminal are kept apart from the answers, which may come between but not inside one another because each is one write"
  },
  {
   "property": "C170",
   "status": "proved",
   "theorems": [
    "JT808.C170_fragments_of_others"
   ],
   "note": "C170_fragments_of_others; what other terminals must not do is to say, in whole messages or fragments, that they are this phone or to register with its plates; write errors are left out here (C165), to cache and to acknowledge a fragment is taken as one step"
  },
  {
   "property": "C171",
   "status": "proved",
   "theorems": [
    "JT808.C171_gateway_among_fragments"
   ],
   "note": "C171_gateway_among_fragments; a query of parameters (0x8104, which terminals do not send) may also end serve as in C161; write errors are left out here (C172)"
  },
  {
   "property": "C172",
   "status": "proved",
   "theorems": [
    "JT808.C172_terminal",
    "JT808.C172_gateway"
   ],
   "note": "C172_terminal, C172_gateway; what others must not do is to say that they are this phone or to register with its plates; checks of the terminal itself are in C173; to cache and to acknowledge a fragment is taken as one step"
  },
  {
   "property": "C173",
   "status": "proved",
   "theorems": [
    "JT808.C173_first_minute"
   ],
   "note": "C173_first_minute; that the process lives is a hypothesis as in C162; connections of others must not say that they are this phone or register with its plates; to cache and to acknowledge a fragment is taken as one step"
  },
  {
   "property": "C174",
   "status": "proved",
   "theorems": [
    "JT808.C174_awake_all_at_once",
    "JT808.C174_awake_among_fragments"
   ],
   "note": "C174_awake_among_fragments, C174_awake_all_at_once (where other connections also break as in C172); that the process lives is a hypothesis as in C162"
  }
 ]
}
