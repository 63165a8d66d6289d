{
 "claims": [
  {
   "property": "C01",
   "status": "proved",
   "theorems": [
    "Verif.C01_header_read_total"
   ],
   "note": "Reading a MAC header is total"
  },
  {
   "property": "C02",
   "status": "proved",
   "theorems": [
    "Verif.C02_header_round_trip",
    "Verif.C02_header_round_trip_exact"
   ],
   "note": "Header write/read round trip"
  },
  {
   "property": "C03",
   "status": "proved",
   "theorems": [
    "Verif.C03_header_layout",
    "Verif.C03_header_layout_exists"
   ],
   "note": "Header wire layout"
  },
  {
   "property": "C04",
   "status": "proved",
   "theorems": [
    "Verif.C04_flags_not_written",
    "Verif.C04_flags_survive_iff"
   ],
   "note": "seq_no_suppress and ie_present are not preserved"
  },
  {
   "property": "C05",
   "status": "proved",
   "theorems": [
    "Verif.C05_compress_refused_iff",
    "Verif.C05_compress_saves_two",
    "Verif.C05_compress_read",
    "Verif.C05_compress_nodest_refused",
    "Verif.C05_addresses_survive_iff"
   ],
   "note": "PAN id compression"
  },
  {
   "property": "C06",
   "status": "proved",
   "theorems": [
    "Verif.C06_header_read_local",
    "Verif.C06_header_read_congr"
   ],
   "note": "Header reading is local"
  },
  {
   "property": "C07",
   "status": "proved",
   "theorems": [
    "Verif.C07_header_read_verdict"
   ],
   "note": "Exact acceptance of headers"
  },
  {
   "property": "C08",
   "status": "proved",
   "theorems": [
    "Verif.C08_secured_reencode",
    "Verif.C08_header_reencode",
    "Verif.C08_refused_iff"
   ],
   "note": "Re-encoding a decoded header"
  },
  {
   "property": "C09",
   "status": "proved",
   "theorems": [
    "Verif.C09_octet_size",
    "Verif.C09_octet_size_value",
    "Verif.C09_octet_size_exact_iff"
   ],
   "note": "Header::get_octet_size versus octets written"
  },
  {
   "property": "C10",
   "status": "proved",
   "theorems": [
    "Verif.C10_contained",
    "Verif.C10_at_offset"
   ],
   "note": "Writers touch only what they report"
  },
  {
   "property": "C11",
   "status": "proved",
   "theorems": [
    "Verif.C11_encodes",
    "Verif.C11_parts",
    "Verif.C11_header_refusals",
    "Verif.C11_frames",
    "Verif.C11_iff_room"
   ],
   "note": "Writers succeed exactly when the buffer is large enough"
  },
  {
   "property": "C12",
   "status": "proved",
   "theorems": [
    "Verif.C12_superframe_round_trip",
    "Verif.C12_superframe_truncation",
    "Verif.C12_superframe_reencode"
   ],
   "note": "Superframe specification round trip"
  },
  {
   "property": "C13",
   "status": "proved",
   "theorems": [
    "Verif.C13_gts_round_trip"
   ],
   "note": "Guaranteed-time-slot information round trip inside a buffer with room"
  },
  {
   "property": "C14",
   "status": "proved",
   "theorems": [
    "Verif.C14_gts_needs_spare_octet"
   ],
   "note": "GTS information needs a spare octet to be read"
  },
  {
   "property": "C15",
   "status": "proved",
   "theorems": [
    "Verif.C15_pending_round_trip",
    "Verif.C15_pending_read_iff"
   ],
   "note": "Pending address list round trip"
  },
  {
   "property": "C16",
   "status": "proved",
   "theorems": [
    "Verif.C16_beacon_round_trip",
    "Verif.C16_beacon_written"
   ],
   "note": "Beacon round trip"
  },
  {
   "property": "C17",
   "status": "proved",
   "theorems": [
    "Verif.C17_beacon_read_total",
    "Verif.C17_beacon_values",
    "Verif.C17_parts_never_panic"
   ],
   "note": "Beacon reading is total and yields consistent values"
  },
  {
   "property": "C18",
   "status": "proved",
   "theorems": [
    "Verif.C18_command_round_trip",
    "Verif.C18_gts_count_truncated"
   ],
   "note": "Command round trip"
  },
  {
   "property": "C19",
   "status": "proved",
   "theorems": [
    "Verif.C19_command_layout"
   ],
   "note": "Command wire layout"
  },
  {
   "property": "C20",
   "status": "proved",
   "theorems": [
    "Verif.C20_realignment_swallows"
   ],
   "note": "Coordinator realignment swallows a following octet"
  },
  {
   "property": "C21",
   "status": "proved",
   "theorems": [
    "Verif.C21_command_read",
    "Verif.C21_command_acceptance"
   ],
   "note": "Exact acceptance of commands"
  },
  {
   "property": "C22",
   "status": "proved",
   "theorems": [
    "Verif.C22_frame_type",
    "Verif.C22_frame_version",
    "Verif.C22_address_mode",
    "Verif.C22_security_level",
    "Verif.C22_key_id_mode",
    "Verif.C22_command_id",
    "Verif.C22_association_status",
    "Verif.C22_disassociation_reason",
    "Verif.C22_infallible_conversion",
    "Verif.C22_integer_comparison",
    "Verif.C22_tag_length"
   ],
   "note": "Enumeration conversions are inverse and total"
  },
  {
   "property": "C23",
   "status": "proved",
   "theorems": [
    "Verif.C23_C24_frame_round_trip",
    "Verif.C23_round_trip_no_footer",
    "Verif.C23_C24_plain_write"
   ],
   "note": "Unsecured frame round trip, no footer"
  },
  {
   "property": "C24",
   "status": "proved",
   "theorems": [
    "Verif.C23_C24_frame_round_trip",
    "Verif.C24_round_trip_explicit",
    "Verif.C23_C24_plain_write"
   ],
   "note": "Unsecured frame round trip, explicit footer"
  },
  {
   "property": "C25",
   "status": "proved",
   "theorems": [
    "Verif.C25_no_footer_no_panic",
    "Verif.C25_explicit_panic_iff"
   ],
   "note": "Reading a frame without footer never panics"
  },
  {
   "property": "C26",
   "status": "proved",
   "theorems": [
    "Verif.C26_accounts",
    "Verif.C26_accepts"
   ],
   "note": "Reading a frame accounts for every octet"
  },
  {
   "property": "C27",
   "status": "proved",
   "theorems": [
    "Verif.C27_never_secured",
    "Verif.C27_security_enabled",
    "Verif.C27_security_bit"
   ],
   "note": "Plain reading never yields a secured frame"
  },
  {
   "property": "C28",
   "status": "proved",
   "theorems": [
    "Verif.C28_no_context_no_frame",
    "Verif.C28_missing_context"
   ],
   "note": "Writing a secured frame requires a context"
  },
  {
   "property": "C29",
   "status": "proved",
   "theorems": [
    "Verif.C29_content_matches",
    "Verif.C29_mismatch_becomes_payload",
    "Verif.C29_mismatch_reread"
   ],
   "note": "Content always matches the frame type"
  },
  {
   "property": "C30",
   "status": "proved",
   "theorems": [
    "Verif.C30_nonce",
    "Verif.C30_nonce_injective"
   ],
   "note": "Nonces are unique per address, counter and level"
  },
  {
   "property": "C31",
   "status": "proved",
   "theorems": [
    "Verif.C31_counter_monotone",
    "Verif.C31_nonce_of_call",
    "Verif.C31_nonce_never_reused",
    "Verif.C31_nonce_other_device",
    "Verif.C31_success_uses"
   ],
   "note": "A frame counter is never used twice by one context"
  },
  {
   "property": "C32",
   "status": "proved",
   "theorems": [
    "Verif.C32_exhausted",
    "Verif.C32_exhausted_error",
    "Verif.C32_at_most_one",
    "Verif.C32_taken_iff"
   ],
   "note": "Counter exhaustion is refused"
  },
  {
   "property": "C33",
   "status": "proved",
   "theorems": [
    "Verif.C33_counter_on_air",
    "Verif.C33_little",
    "Verif.C33_big"
   ],
   "note": "The frame counter on the wire is the one in the nonce"
  },
  {
   "property": "C34",
   "status": "proved",
   "theorems": [
    "Verif.C34_header_read",
    "Verif.C34_secured_round_trip",
    "Verif.C34_write_succeeds",
    "Verif.C34_header_back"
   ],
   "note": "Secured frame round trip"
  },
  {
   "property": "C35",
   "status": "proved",
   "theorems": [
    "Verif.C35_counters_increase",
    "Verif.C35_no_replay",
    "Verif.C35_between_table_counters"
   ],
   "note": "Replay protection over histories"
  },
  {
   "property": "C36",
   "status": "proved",
   "theorems": [
    "Verif.C36_accept_stores",
    "Verif.C36_decrease_only_by_wrap",
    "Verif.C36_wrap"
   ],
   "note": "Counter wrap on reception"
  },
  {
   "property": "C37",
   "status": "proved",
   "theorems": [
    "Verif.C37_context_unchanged",
    "Verif.C37_nothing_stored",
    "Verif.C37_descriptors_unchanged",
    "Verif.C37_same_devices"
   ],
   "note": "Rejected frames leave the receiver's state alone"
  },
  {
   "property": "C38",
   "status": "proved",
   "theorems": [
    "Verif.C38_accept_iff",
    "Verif.C38_verifies_iff",
    "Verif.C38_other_tag_rejected",
    "Verif.C38_mic_payload"
   ],
   "note": "Acceptance is exactly tag verification"
  },
  {
   "property": "C39",
   "status": "proved",
   "theorems": [
    "Verif.C39_treated_alike",
    "Verif.C39_header_unauthenticated"
   ],
   "note": "Header fields are not authenticated"
  },
  {
   "property": "C40",
   "status": "proved",
   "theorems": [
    "Verif.C40_secured_write_iff",
    "Verif.C40_protected_part"
   ],
   "note": "Secured frame wire format"
  },
  {
   "property": "C41",
   "status": "proved",
   "theorems": [
    "Verif.C41_too_long",
    "Verif.C41_fits_phy",
    "Verif.C41_compressed_early"
   ],
   "note": "Secured frames respect the PHY limit"
  },
  {
   "property": "C42",
   "status": "proved",
   "theorems": [
    "Verif.C42_never_accepted",
    "Verif.C42_none_in_clear",
    "Verif.C42_enc_refused"
   ],
   "note": "Security level None is write-only, ENC unsupported"
  },
  {
   "property": "C43",
   "status": "proved",
   "theorems": [
    "Verif.C43_panic_iff",
    "Verif.C43_explicit_panic_iff",
    "Verif.C43_no_context"
   ],
   "note": "Panics of secured reading"
  },
  {
   "property": "C44",
   "status": "proved",
   "theorems": [
    "Verif.C44_none_never_panics",
    "Verif.C44_explicit_panics_iff",
    "Verif.C44_explicit_no_context"
   ],
   "note": "Panics of secured writing"
  },
  {
   "property": "C45",
   "status": "proved",
   "theorems": [
    "Verif.C45_unsecured_alike",
    "Verif.C45_no_context"
   ],
   "note": "Unsecured frames are read alike with and without security"
  },
  {
   "property": "C46",
   "status": "proved",
   "theorems": [
    "Verif.C46_read_refusals",
    "Verif.C46_write_not_data"
   ],
   "note": "Unsupported security is refused"
  },
  {
   "property": "C47",
   "status": "proved",
   "theorems": [
    "Verif.C47_no_security_read",
    "Verif.C47_write_needs_key",
    "Verif.C47_no_security_write"
   ],
   "note": "The no-security context cannot secure or unsecure"
  },
  {
   "property": "C48",
   "status": "proved",
   "theorems": [
    "Verif.C48_aux_round_trip",
    "Verif.C48_counter_little",
    "Verif.C48_stored_counter_ignored"
   ],
   "note": "Auxiliary security header round trip"
  },
  {
   "property": "C49",
   "status": "proved",
   "theorems": [
    "Verif.C49_delivery"
   ],
   "note": "Delivery through a lossy, reordering, duplicating channel"
  },
  {
   "property": "C50",
   "status": "proved",
   "theorems": [
    "Verif.C50_ccm_tag_unique",
    "Verif.C50_ccm_laws",
    "Verif.C50_ccm_round_trip"
   ],
   "note": "CCM decrypts what it encrypts, for every block cipher"
  },
  {
   "property": "C51",
   "status": "proved",
   "theorems": [
    "Verif.C51_header",
    "Verif.C51_aux",
    "Verif.C51_superframe",
    "Verif.C51_gts_descriptor",
    "Verif.C51_gts",
    "Verif.C51_pending",
    "Verif.C51_beacon",
    "Verif.C51_header_fields",
    "Verif.C51_accessors"
   ],
   "note": "The octets decide every decoded value"
  },
  {
   "property": "C52",
   "status": "proved",
   "theorems": [
    "Verif.C52_headers",
    "Verif.C52_beacons",
    "Verif.C52_commands",
    "Verif.C52_superframes",
    "Verif.C52_pending",
    "Verif.C52_gts",
    "Verif.C52_in_turn_is_shared_offset",
    "Verif.C52_in_turn_is_shared_read"
   ],
   "note": "Several values in one buffer"
  },
  {
   "property": "C53",
   "status": "proved",
   "theorems": [
    "Verif.C53_headers",
    "Verif.C53_headers_exact",
    "Verif.C53_beacons",
    "Verif.C53_commands",
    "Verif.C53_frames"
   ],
   "note": "Unique decoding"
  },
  {
   "property": "C55",
   "status": "proved",
   "theorems": [
    "Verif.C55_sending_account",
    "Verif.C55_no_room_for_head"
   ],
   "note": "A complete account of securing"
  },
  {
   "property": "C56",
   "status": "proved",
   "theorems": [
    "Verif.C56_receiving_account"
   ],
   "note": "A complete account of unsecuring"
  },
  {
   "property": "C54",
   "status": "proved",
   "theorems": [
    "Verif.C54_decode_error",
    "Verif.C54_decode_incomplete",
    "Verif.C54_encode_error",
    "Verif.C54_security_error",
    "Verif.C54_wrapped",
    "Verif.C54_clashes"
   ],
   "note": "Errors keep their meaning"
  },
  {
   "property": "C57",
   "status": "proved",
   "theorems": [
    "Verif.C57_broadcast",
    "Verif.C57_broadcast_values",
    "Verif.C57_address",
    "Verif.C57_no_address",
    "Verif.C57_readers",
    "Verif.C57_constructors",
    "Verif.C57_frame_counter",
    "Verif.C57_contexts"
   ],
   "note": "Addresses, their modes and constructors"
  },
  {
   "property": "C58",
   "status": "proved",
   "theorems": [
    "Verif.C58_octets_in_clear",
    "Verif.C58_keyless_write",
    "Verif.C58_keyless_read",
    "Verif.C58_unimplemented_cipher",
    "Verif.C58_any_key_reads"
   ],
   "note": "The placeholder cipher gives no security"
  },
  {
   "property": "C59",
   "status": "proved",
   "theorems": [
    "Verif.C59_keystream_inputs",
    "Verif.C59_first_inputs",
    "Verif.C59_no_keystream_reuse",
    "Verif.C59_positions"
   ],
   "note": "Keystream is never reused"
  },
  {
   "property": "C60",
   "status": "proved",
   "theorems": [
    "Verif.C60_sizes",
    "Verif.C60_unsecured_unlimited"
   ],
   "note": "Sizes"
  },
  {
   "property": "C61",
   "status": "proved",
   "theorems": [
    "Verif.C61_header_across",
    "Verif.C61_unsecured_across",
    "Verif.C61_key_source_across",
    "Verif.C61_key_not_found",
    "Verif.C61_accepted_across_iff",
    "Verif.C61_round_trip_across"
   ],
   "note": "Hosts of different byte order"
  },
  {
   "property": "C62",
   "status": "proved",
   "theorems": [
    "Verif.C62_command",
    "Verif.C62_content",
    "Verif.C62_frame",
    "Verif.C62_frame_unique"
   ],
   "note": "Exactly which octets are a frame"
  },
  {
   "property": "C63",
   "status": "proved",
   "theorems": [
    "Verif.C63_relay",
    "Verif.C63_relay_stable",
    "Verif.C63_refused_iff"
   ],
   "note": "Relaying"
  },
  {
   "property": "C64",
   "status": "proved",
   "theorems": [
    "Verif.C64_gts",
    "Verif.C64_pending",
    "Verif.C64_beacon"
   ],
   "note": "Equality means what the accessors show"
  },
  {
   "property": "C65",
   "status": "proved",
   "theorems": [
    "Verif.C65_restart_safe",
    "Verif.C65_reserve_ahead",
    "Verif.C65_reuse_leaks"
   ],
   "note": "Restarts of a sender"
  },
  {
   "property": "C66",
   "status": "proved",
   "theorems": [
    "Verif.C66_counter_is_all",
    "Verif.C66_set_back_replays"
   ],
   "note": "What a receiver must keep"
  },
  {
   "property": "C67",
   "status": "proved",
   "theorems": [
    "Verif.C67_other_address_replays",
    "Verif.C67_nonce_accepted_once"
   ],
   "note": "Replay protection is per address"
  },
  {
   "property": "C68",
   "status": "proved",
   "theorems": [
    "Verif.C68_sent_increasing",
    "Verif.C68_accepted_increasing",
    "Verif.C68_channel"
   ],
   "note": "An authenticated channel"
  },
  {
   "property": "C69",
   "status": "proved",
   "theorems": [
    "Verif.C69_into",
    "Verif.C69_from",
    "Verif.C69_round_trip",
    "Verif.C69_compare",
    "Verif.C69_uses"
   ],
   "note": "The exported enum macro"
  },
  {
   "property": "C70",
   "status": "proved",
   "theorems": [
    "Verif.C70_copies_collide",
    "Verif.C70_copy_leaks"
   ],
   "note": "Copies of a security context"
  },
  {
   "property": "C71",
   "status": "proved",
   "theorems": [
    "Verif.C71_changes_allowed"
   ],
   "note": "Replay protection while the application changes the table"
  },
  {
   "property": "C72",
   "status": "proved",
   "theorems": [
    "Verif.C72_only_counters",
    "Verif.C72_histories"
   ],
   "note": "Only counters of devices count"
  },
  {
   "property": "C73",
   "status": "proved",
   "theorems": [
    "Verif.C73_nonce_never_reused",
    "Verif.C73_lowered_reuses"
   ],
   "note": "Nonces while the application changes the context"
  },
  {
   "property": "C74",
   "status": "proved",
   "theorems": [
    "Verif.C74_reception_uses_keys_only",
    "Verif.C74_no_interference"
   ],
   "note": "Sending and receiving with one context do not interfere"
  },
  {
   "property": "C75",
   "status": "proved",
   "theorems": [
    "Verif.C75_refused_reception",
    "Verif.C75_refused_write_in_clear",
    "Verif.C75_refused_write_protected"
   ],
   "note": "What a refused reception or write leaves in the buffer"
  },
  {
   "property": "C76",
   "status": "proved",
   "theorems": [
    "Verif.C76_every_write"
   ],
   "note": "One table for every frame write"
  },
  {
   "property": "C77",
   "status": "proved",
   "theorems": [
    "Verif.C77_every_plain_read",
    "Verif.C77_every_reception"
   ],
   "note": "One table for every frame read"
  },
  {
   "property": "C78",
   "status": "proved",
   "theorems": [
    "Verif.C78_nodes_independent",
    "Verif.C78_nonce_once",
    "Verif.C78_agreement",
    "Verif.C78_accepted_increasing",
    "Verif.C78_once_in_order",
    "Verif.C78_accepted_once"
   ],
   "note": "A network of nodes"
  },
  {
   "property": "C79",
   "status": "proved",
   "theorems": [
    "Verif.C79_encrypt",
    "Verif.C79_decrypt",
    "Verif.C79_involutive",
    "Verif.C79_written",
    "Verif.C79_verifies",
    "Verif.C79_accepted_iff"
   ],
   "note": "Secured frames carry CCM as RFC 3610 defines it"
  },
  {
   "property": "C80",
   "status": "proved",
   "theorems": [
    "Verif.C80_beacon_order",
    "Verif.C80_superframe_order",
    "Verif.C80_capability",
    "Verif.C80_characteristics",
    "Verif.C80_realignment_read",
    "Verif.C80_realignment_round_trip",
    "Verif.C80_empty"
   ],
   "note": "Field conversions and empty lists"
  },
  {
   "property": "C81",
   "status": "proved",
   "theorems": [
    "Verif.C81_write_refines",
    "Verif.C81_without_context",
    "Verif.C81_counter_moves_first",
    "Verif.C81_counter_over_history",
    "Verif.C81_no_nonce_twice",
    "Verif.C81_cuts_are_steps"
   ],
   "note": "Nonces stay unique when writes are cut short"
  },
  {
   "property": "C82",
   "status": "proved",
   "theorems": [
    "Verif.C82_read_refines",
    "Verif.C82_without_context",
    "Verif.C82_stored_before_delivery",
    "Verif.C82_all_or_nothing",
    "Verif.C82_counters_never_back",
    "Verif.C82_no_wrap",
    "Verif.C82_no_replay",
    "Verif.C82_cut_leaves_no_trace"
   ],
   "note": "Replay protection when receptions are cut short"
  },
  {
   "property": "C83",
   "status": "proved",
   "theorems": [
    "Verif.C83_sizes",
    "Verif.C83_frame_size",
    "Verif.C83_securing",
    "Verif.C83_counts",
    "Verif.C83_reading",
    "Verif.C83_writing"
   ],
   "note": "Length arithmetic never overflows"
  },
  {
   "property": "C84",
   "status": "proved",
   "theorems": [
    "Verif.C84_growing",
    "Verif.C84_commands",
    "Verif.C84_frames",
    "Verif.C84_cut_frame"
   ],
   "note": "Reading from a growing slice"
  },
  {
   "property": "C85",
   "status": "proved",
   "theorems": [
    "Verif.C85_secrecy_before_tags",
    "Verif.C85_secrecy"
   ],
   "note": "Secrecy of payloads on the air"
  },
  {
   "property": "C86",
   "status": "proved",
   "theorems": [
    "Verif.C86_forgery",
    "Verif.C86_not_spent"
   ],
   "note": "Forging a frame under an unspent nonce"
  },
  {
   "property": "C87",
   "status": "proved",
   "theorems": [
    "Verif.C87_clash_is_rare",
    "Verif.C87_secrecy_bound",
    "Verif.C87_perfect_before_tags"
   ],
   "note": "How much an observer can learn"
  },
  {
   "property": "C88",
   "status": "proved",
   "theorems": [
    "Verif.C88_forgery_is_rare",
    "Verif.C88_forgeries_are_rare"
   ],
   "note": "The chance of a forgery"
  },
  {
   "property": "C89",
   "status": "proved",
   "theorems": [
    "Verif.C89_interactive_long_tags",
    "Verif.C89_interactive_forgeries"
   ],
   "note": "The chance of a forgery against a receiver that answers"
  },
  {
   "property": "C90",
   "status": "proved",
   "theorems": [
    "Verif.C90_channel"
   ],
   "note": "An authenticated channel, without assumption on forgeries"
  },
  {
   "property": "C91",
   "status": "proved",
   "theorems": [
    "Verif.C91_adaptive_long_tags",
    "Verif.C91_adaptive_forgeries"
   ],
   "note": "The chance of a forgery when the attacker also chooses what is sent"
  },
  {
   "property": "C92",
   "status": "proved",
   "theorems": [
    "Verif.C92_adaptive_channel"
   ],
   "note": "An authenticated channel in a network under the attacker's control"
  },
  {
   "property": "C93",
   "status": "proved",
   "theorems": [
    "Verif.C93_adaptive_secrecy_long_tags",
    "Verif.C93_adaptive_secrecy",
    "Verif.C93_chosen_payloads"
   ],
   "note": "An attacker in control of the network cannot tell which of two payloads was encrypted"
  },
  {
   "property": "C94",
   "status": "proved",
   "theorems": [
    "Verif.C94_permutation_forgeries_long_tags",
    "Verif.C94_permutation_forgeries",
    "Verif.C94_permutation_channel",
    "Verif.C94_permutation_secrecy_long_tags",
    "Verif.C94_permutation_secrecy"
   ],
   "note": "The bounds against an attacker in control of the network hold for block ciphers that are permutations"
  },
  {
   "property": "C95",
   "status": "proved",
   "theorems": [
    "Verif.C95_whole_network",
    "Verif.C95_whole_network_permutation"
   ],
   "note": "In a whole network nothing goes wrong, but for the chance of a single forgery"
  },
  {
   "property": "C96",
   "status": "proved",
   "theorems": [
    "Verif.C96_cut_write",
    "Verif.C96_cut_read",
    "Verif.C96_retry"
   ],
   "note": "What a call that is cut short leaves in the caller's buffer"
  },
  {
   "property": "C97",
   "status": "proved",
   "theorems": [
    "Verif.C97_parts",
    "Verif.C97_plain_read",
    "Verif.C97_receive",
    "Verif.C97_plain_write",
    "Verif.C97_secure_write",
    "Verif.C97_secure_write_any"
   ],
   "note": "Exactly which errors each call can return"
  },
  {
   "property": "C98",
   "status": "proved",
   "theorems": [
    "Verif.C98_frames_hash_apart",
    "Verif.C98_frames_equal",
    "Verif.C98_headers_hash_apart",
    "Verif.C98_addresses_hash_apart",
    "Verif.C98_beacons_hash_apart",
    "Verif.C98_beacons_by_what_they_show",
    "Verif.C98_commands_hash_apart",
    "Verif.C98_errors_hash_apart",
    "Verif.C98_hash32"
   ],
   "note": "Hashing tells values apart exactly as equality does"
  },
  {
   "property": "C99",
   "status": "proved",
   "theorems": [
    "Verif.C99_parts_iff",
    "Verif.C99_address_iff",
    "Verif.C99_round_trip",
    "Verif.C99_stored_apart",
    "Verif.C99_strict_round_trip",
    "Verif.C99_types_apart"
   ],
   "note": "Addresses stored with serde"
  },
  {
   "property": "C100",
   "status": "proved",
   "theorems": [
    "Verif.C100_write",
    "Verif.C100_written",
    "Verif.C100_read",
    "Verif.C100_delivered",
    "Verif.C100_write_call",
    "Verif.C100_read_call"
   ],
   "note": "What a call asks of the application"
  },
  {
   "property": "C101",
   "status": "proved",
   "theorems": [
    "Verif.C101_write",
    "Verif.C101_read"
   ],
   "note": "Applications with a memory of their own"
  },
  {
   "property": "C102",
   "status": "proved",
   "theorems": [
    "Verif.C102_refines",
    "Verif.C102_refines_without_context",
    "Verif.C102_cut_write",
    "Verif.C102_cut_without_context",
    "Verif.C102_counter_first",
    "Verif.C102_values",
    "Verif.C102_parts"
   ],
   "note": "Writes cut short in the middle of a store"
  },
  {
   "property": "C103",
   "status": "proved",
   "theorems": [
    "Verif.C103_reads_as_after",
    "Verif.C103_writes_as_without",
    "Verif.C103_write_call",
    "Verif.C103_read_call",
    "Verif.C103_lives_follow",
    "Verif.C103_no_replay",
    "Verif.C103_no_wrap",
    "Verif.C103_nonces_made",
    "Verif.C103_no_nonce_twice"
   ],
   "note": "Everything at once"
  },
  {
   "property": "C104",
   "status": "proved",
   "theorems": [
    "Verif.C104_write_by_name",
    "Verif.C104_read_by_name",
    "Verif.C104_real_play",
    "Verif.C104_attack_as_computation",
    "Verif.C104_real_network",
    "Verif.C104_real_secrecy"
   ],
   "note": "Networks with a real block cipher"
  },
  {
   "property": "C105",
   "status": "proved",
   "theorems": [
    "Verif.C105_lost_keys",
    "Verif.C105_lost_keys_permutation",
    "Verif.C105_lost_real_keys",
    "Verif.C105_lost_keys_secrecy",
    "Verif.C105_lost_keys_secrecy_permutation",
    "Verif.C105_lost_real_keys_secrecy"
   ],
   "note": "Lost keys do not endanger the others"
  },
  {
   "property": "C106",
   "status": "proved",
   "theorems": [
    "Verif.C106_guessing_empty",
    "Verif.C106_guessing_payload",
    "Verif.C106_guessing_body",
    "Verif.C106_exhausting",
    "Verif.C106_within_limits",
    "Verif.C106_other_levels",
    "Verif.C106_other_address"
   ],
   "note": "Guessing tags: no minimum level, no limit to attempts, and C91's bound is reached"
  },
  {
   "property": "C107",
   "status": "proved",
   "theorems": [
    "Verif.C107_answer",
    "Verif.C107_not_shut_out",
    "Verif.C107_nothing_missing",
    "Verif.C107_not_shut_out_permutation",
    "Verif.C107_nothing_missing_permutation",
    "Verif.C107_real_answer",
    "Verif.C107_real_not_shut_out",
    "Verif.C107_real_nothing_missing"
   ],
   "note": "An attacker in control of the network cannot shut a device out"
  },
  {
   "property": "C108",
   "status": "proved",
   "theorems": [
    "Verif.C108_frames",
    "Verif.C108_headers",
    "Verif.C108_addresses",
    "Verif.C108_beacons",
    "Verif.C108_commands",
    "Verif.C108_errors",
    "Verif.C108_logs",
    "Verif.C108_printable",
    "Verif.C108_printable_security"
   ],
   "note": "What is logged of a value tells which value it was"
  }
 ]
}