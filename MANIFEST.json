{
 "claims": [
  {
   "property": "C01",
   "status": "proved",
   "theorems": [
    "Verif.Thm.C01_blocks_distinct",
    "Verif.Thm.C01_sockets",
    "Verif.Thm.C01_datasheet_blocks",
    "Verif.Thm.C01_bitmask",
    "Verif.Thm.C01_try_from"
   ],
   "note": ""
  },
  {
   "property": "C02",
   "status": "proved",
   "theorems": [
    "Verif.Thm.C02_header_decodes",
    "Verif.Thm.C02_header_injective"
   ],
   "note": ""
  },
  {
   "property": "C03",
   "status": "proved",
   "theorems": [
    "Verif.Thm.C03_read",
    "Verif.Thm.C03_write",
    "Verif.Thm.C03_infallible_pin",
    "Verif.Thm.C03_infallible",
    "Verif.Thm.C03_transaction",
    "Verif.Thm.C03_read_all_drivers",
    "Verif.Thm.C03_write_all_drivers"
   ],
   "note": "Five drivers: fixed length (both embedded-hal versions), variable length with a fallible pin, with an infallible pin, with an infallible bus and pin (embedded-hal 0.2), and variable length with SpiDevice::transaction (embedded-hal 1.0, blocking and asynchronous). For the last one a device that is alone on its bus is assumed, as embedded-hal describes it (exclusive)."
  },
  {
   "property": "C04",
   "status": "proved",
   "theorems": [
    "Verif.Thm.C04_gar",
    "Verif.Thm.C04_subr",
    "Verif.Thm.C04_shar",
    "Verif.Thm.C04_sipr",
    "Verif.Thm.C04_mr",
    "Verif.Thm.C04_intlevel",
    "Verif.Thm.C04_ir",
    "Verif.Thm.C04_imr",
    "Verif.Thm.C04_sir",
    "Verif.Thm.C04_simr",
    "Verif.Thm.C04_rtr",
    "Verif.Thm.C04_rcr",
    "Verif.Thm.C04_ptimer",
    "Verif.Thm.C04_pmagic",
    "Verif.Thm.C04_phar",
    "Verif.Thm.C04_psid",
    "Verif.Thm.C04_pmru",
    "Verif.Thm.C04_uipr",
    "Verif.Thm.C04_uportr",
    "Verif.Thm.C04_phycfgr",
    "Verif.Thm.C04_version",
    "Verif.Thm.C04_snMr",
    "Verif.Thm.C04_snIr",
    "Verif.Thm.C04_snCr",
    "Verif.Thm.C04_snPort",
    "Verif.Thm.C04_snDhar",
    "Verif.Thm.C04_snDipr",
    "Verif.Thm.C04_snDport",
    "Verif.Thm.C04_snMssr",
    "Verif.Thm.C04_snTos",
    "Verif.Thm.C04_snTtl",
    "Verif.Thm.C04_snTxFsr",
    "Verif.Thm.C04_snTxRd",
    "Verif.Thm.C04_snTxWr",
    "Verif.Thm.C04_snRxRsr",
    "Verif.Thm.C04_snRxRd",
    "Verif.Thm.C04_snRxWr",
    "Verif.Thm.C04_snImr",
    "Verif.Thm.C04_snFrag",
    "Verif.Thm.C04_snKpalvtr",
    "Verif.Thm.C04_snDest",
    "Verif.Thm.C04_setSnCr",
    "Verif.Thm.C04_setSnIr",
    "Verif.Thm.C04_setSnRxbufSize",
    "Verif.Thm.C04_setSnTxbufSize",
    "Verif.Thm.C04_snSr",
    "Verif.Thm.C04_snRxbufSize",
    "Verif.Thm.C04_snTxbufSize",
    "Verif.Thm.C04_buffers",
    "Verif.Thm.C04_get_set",
    "Verif.Thm.C04_set_frame",
    "Verif.Thm.C04_noninterference"
   ],
   "note": ""
  },
  {
   "property": "C05",
   "status": "proved",
   "theorems": [
    "Verif.Thm.C05_reads",
    "Verif.Thm.C05_set_dest"
   ],
   "note": ""
  },
  {
   "property": "C06",
   "status": "partial",
   "theorems": [
    "Verif.Thm.C06_SnReg",
    "Verif.Thm.C06_SocketStatus",
    "Verif.Thm.C06_SocketCommand",
    "Verif.Thm.C06_Protocol",
    "Verif.Thm.C06_BufferSize",
    "Verif.Thm.C06_OperationMode",
    "Verif.Thm.C06_datasheet_codes",
    "Verif.Thm.C06_Reg_false",
    "Verif.Thm.C06_Reg_partial",
    "Verif.Thm.C06_Reg_witness",
    "Verif.Thm.C06_isRo"
   ],
   "note": "Proved for every type of specifiers.rs and registers.rs except Reg; the conversion of Reg is wrong (C06_Reg_false is a counterexample) and C06_Reg_partial is what holds of it."
  },
  {
   "property": "C07",
   "status": "proved",
   "theorems": [
    "Verif.Thm.C07_Mode_wolEnabled",
    "Verif.Thm.C07_Mode_pbEnabled",
    "Verif.Thm.C07_Mode_pppoeEnabled",
    "Verif.Thm.C07_Mode_farpEnabled",
    "Verif.Thm.C07_Mode_rst",
    "Verif.Thm.C07_Interrupt_conflict",
    "Verif.Thm.C07_Interrupt_unreach",
    "Verif.Thm.C07_Interrupt_pppoe",
    "Verif.Thm.C07_Interrupt_mp",
    "Verif.Thm.C07_PhyCfg_rst",
    "Verif.Thm.C07_PhyCfg_opmd",
    "Verif.Thm.C07_SocketMode_multiEnabled",
    "Verif.Thm.C07_SocketMode_mfenEnabled",
    "Verif.Thm.C07_SocketMode_bcastbEnabled",
    "Verif.Thm.C07_SocketMode_ndEnabled",
    "Verif.Thm.C07_SocketMode_mmbEnabled",
    "Verif.Thm.C07_SocketMode_ucastbEnabled",
    "Verif.Thm.C07_SocketMode_mip6bEnabled",
    "Verif.Thm.C07_SocketMode_mc",
    "Verif.Thm.C07_SocketInterrupt_con",
    "Verif.Thm.C07_SocketInterruptMask_con",
    "Verif.Thm.C07_SocketInterrupt_discon",
    "Verif.Thm.C07_SocketInterruptMask_discon",
    "Verif.Thm.C07_SocketInterrupt_recv",
    "Verif.Thm.C07_SocketInterruptMask_recv",
    "Verif.Thm.C07_SocketInterrupt_timeout",
    "Verif.Thm.C07_SocketInterruptMask_timeout",
    "Verif.Thm.C07_SocketInterrupt_sendok",
    "Verif.Thm.C07_SocketInterruptMask_sendok",
    "Verif.Thm.C07_SocketInterrupt_any",
    "Verif.Thm.C07_PhyCfg_status",
    "Verif.Thm.C07_PhyCfg_opmdc",
    "Verif.Thm.C07_PhyCfg_opmdc_frame",
    "Verif.Thm.C07_SocketMode_protocol",
    "Verif.Thm.C07_SocketMode_protocol_frame",
    "Verif.Thm.C07_defaults",
    "Verif.Thm.C07_flag_get_set",
    "Verif.Thm.C07_flag_frame"
   ],
   "note": ""
  },
  {
   "property": "C08",
   "status": "proved",
   "theorems": [
    "Verif.Thm.C08_sizes",
    "Verif.Thm.C08_injective"
   ],
   "note": ""
  },
  {
   "property": "C09",
   "status": "proved",
   "theorems": [
    "Verif.Thm.C09_tcp_reader_seek",
    "Verif.Thm.C09_writer_seek",
    "Verif.Thm.C09_udp_reader_seek",
    "Verif.Thm.C09_reader_stays_inside"
   ],
   "note": ""
  },
  {
   "property": "C10",
   "status": "proved",
   "theorems": [
    "Verif.Thm.C10_tcp_reader_is_cursor",
    "Verif.Thm.C10_udp_reader_is_cursor"
   ],
   "note": ""
  },
  {
   "property": "C11",
   "status": "proved",
   "theorems": [
    "Verif.Thm.C11_writer_is_image",
    "Verif.Thm.C11_udp_send_to",
    "Verif.Thm.C11_write_alls_concat"
   ],
   "note": ""
  },
  {
   "property": "C12",
   "status": "proved",
   "theorems": [
    "Verif.Thm.C12_reads_in_order",
    "Verif.Thm.C12_tcp_read",
    "Verif.Thm.C12_open_establishes"
   ],
   "note": ""
  },
  {
   "property": "C13",
   "status": "proved",
   "theorems": [
    "Verif.Thm.C13_tcp_write",
    "Verif.Thm.C13_writes_in_order"
   ],
   "note": ""
  },
  {
   "property": "C14",
   "status": "proved",
   "theorems": [
    "Verif.Thm.C14_read_exact_all_or_nothing",
    "Verif.Thm.C14_write_all_all_or_nothing"
   ],
   "note": ""
  },
  {
   "property": "C15",
   "status": "proved",
   "theorems": [
    "Verif.Thm.C15_udp_recv_from",
    "Verif.Thm.C15_empty_would_block",
    "Verif.Thm.C15_datagrams_in_order"
   ],
   "note": ""
  },
  {
   "property": "C16",
   "status": "proved",
   "theorems": [
    "Verif.Thm.C16_peek_from",
    "Verif.Thm.C16_peek_contents",
    "Verif.Thm.C16_peek_header"
   ],
   "note": ""
  },
  {
   "property": "C17",
   "status": "proved",
   "theorems": [
    "Verif.Thm.C17_udp_reader",
    "Verif.Thm.C17_udp_reader_succeeds"
   ],
   "note": ""
  },
  {
   "property": "C18",
   "status": "partial",
   "theorems": [
    "Verif.Thm.C18_send_if_free_partial",
    "Verif.Thm.C18_send_if_free_wrong_count_partial",
    "Verif.Thm.C18_all_or_nothing_partial",
    "Verif.Thm.C18_send_to_if_free_partial",
    "Verif.Thm.C18_send_to_all_or_nothing_partial"
   ],
   "note": "The property is false of the code: C18_send_if_free_wrong_count_partial and the other witnesses show where; the _partial theorems are what holds."
  },
  {
   "property": "C19",
   "status": "proved",
   "theorems": [
    "Verif.Thm.C19_udp_send_to"
   ],
   "note": ""
  },
  {
   "property": "C20",
   "status": "proved",
   "theorems": [
    "Verif.Thm.C20_new_accepts_exactly",
    "Verif.Thm.C20_try_from_accepts_exactly",
    "Verif.Thm.C20_len_and_labels"
   ],
   "note": ""
  },
  {
   "property": "C21",
   "status": "proved",
   "theorems": [
    "Verif.Thm.C21_constructors_agree"
   ],
   "note": ""
  },
  {
   "property": "C22",
   "status": "proved",
   "theorems": [
    "Verif.Thm.C22_writes_own_blocks",
    "Verif.Thm.C22_others_unchanged"
   ],
   "note": ""
  },
  {
   "property": "C23",
   "status": "proved",
   "theorems": [
    "Verif.Thm.C23_port_unique_exact",
    "Verif.Thm.C23_check_used"
   ],
   "note": ""
  },
  {
   "property": "C24",
   "status": "proved",
   "theorems": [
    "Verif.Thm.C24_failures_propagate"
   ],
   "note": ""
  },
  {
   "property": "C25",
   "status": "proved",
   "theorems": [
    "Verif.Thm.C25_would_block",
    "Verif.Thm.C25_would_block_unchanged"
   ],
   "note": ""
  },
  {
   "property": "C26",
   "status": "proved",
   "theorems": [
    "Verif.Thm.C26_query",
    "Verif.Thm.C26_a_question",
    "Verif.Thm.C26_bind_error",
    "Verif.Thm.C26_mdns"
   ],
   "note": ""
  },
  {
   "property": "C27",
   "status": "proved",
   "theorems": [
    "Verif.Thm.C27_questions_skipped",
    "Verif.Thm.C27_not_a_response",
    "Verif.Thm.C27_response",
    "Verif.Thm.C27_success",
    "Verif.Thm.C27_header_fields",
    "Verif.Thm.C27_nothing_waiting"
   ],
   "note": ""
  },
  {
   "property": "C28",
   "status": "proved",
   "theorems": [
    "Verif.Thm.C28_read_name",
    "Verif.Thm.C28_ascii_is_utf8",
    "Verif.Thm.C28_utf8",
    "Verif.Thm.C28_utf8_string"
   ],
   "note": ""
  },
  {
   "property": "C29",
   "status": "partial",
   "theorems": [
    "Verif.Thm.C29_self_pointer_never_returns_partial",
    "Verif.Thm.C29_returns_within_length_partial",
    "Verif.Thm.C29_no_pointers_partial",
    "Verif.Thm.C29_valid_names_partial",
    "Verif.Thm.C29_response_never_returns_partial"
   ],
   "note": "False as stated: a pointer loop never returns (C29_self_pointer_never_returns_partial). Termination is proved for messages without such loops."
  },
  {
   "property": "C30",
   "status": "partial",
   "theorems": [
    "Verif.Thm.C30_well_formed_response",
    "Verif.Thm.C30_record_partial",
    "Verif.Thm.C30_empty_data_partial",
    "Verif.Thm.C30_valid_record",
    "Verif.Thm.C30_at_most_announced",
    "Verif.Thm.C30_then_none",
    "Verif.Thm.C30_records_of_datagram"
   ],
   "note": "False for a record with empty data and a type that calls for data (C30_empty_data_partial): the bytes after the record are taken for its data. Proved for every other record, of a message of fewer than 65535 bytes."
  },
  {
   "property": "C31",
   "status": "partial",
   "theorems": [
    "Verif.Thm.C31_qtype_codes",
    "Verif.Thm.C31_qtype_values",
    "Verif.Thm.C31_bytes",
    "Verif.Thm.C31_qclass_wrong_mask_partial",
    "Verif.Thm.C31_qclass_partial",
    "Verif.Thm.C31_qclass_small_partial",
    "Verif.Thm.C31_qclass_values",
    "Verif.Thm.C31_response_codes"
   ],
   "note": "Qtype is proved; Qclass masks too many bits (C31_qclass_wrong_mask_partial)."
  },
  {
   "property": "C32",
   "status": "proved",
   "theorems": [
    "Verif.Thm.C32_send_discover",
    "Verif.Thm.C32_send_request"
   ],
   "note": ""
  },
  {
   "property": "C33",
   "status": "proved",
   "theorems": [
    "Verif.Thm.C33_lookup",
    "Verif.Thm.C33_history_independent",
    "Verif.Thm.C33_accessors"
   ],
   "note": ""
  },
  {
   "property": "C34",
   "status": "proved",
   "theorems": [
    "Verif.Thm.C34_ipv4",
    "Verif.Thm.C34_u32",
    "Verif.Thm.C34_message_type_codes",
    "Verif.Thm.C34_message_type"
   ],
   "note": ""
  },
  {
   "property": "C35",
   "status": "partial",
   "theorems": [
    "Verif.Thm.C35_leased_ip",
    "Verif.Thm.C35_address_register",
    "Verif.Thm.C35_setup",
    "Verif.Thm.C35_discover_partial",
    "Verif.Thm.C35_failed_discover_keeps_lease"
   ],
   "note": "The address register always agrees with leased_ip in all histories; clearing on restart is proved when DISCOVER can be sent. C35_failed_discover_keeps_lease is a counterexample to the rest."
  },
  {
   "property": "C36",
   "status": "proved",
   "theorems": [
    "Verif.Thm.C36_foreign_xid"
   ],
   "note": ""
  },
  {
   "property": "C37",
   "status": "partial",
   "theorems": [
    "Verif.Thm.C37_bound",
    "Verif.Thm.C37_unanswered_partial",
    "Verif.Thm.C37_ack",
    "Verif.Thm.C37_expiry_missed",
    "Verif.Thm.C37_which_timer"
   ],
   "note": "Proved for bound clients with any queue and for all started clients without matching replies; C37_expiry_missed is a counterexample in the remaining case."
  },
  {
   "property": "C38",
   "status": "partial",
   "theorems": [
    "Verif.Thm.C38_process",
    "Verif.Thm.C38_never_late_partial",
    "Verif.Thm.C38_not_early",
    "Verif.Thm.C38_clock_wrapped",
    "Verif.Thm.C38_times_out_of_order"
   ],
   "note": "Proved when the lease times are in order and the clock has not wrapped; C38_times_out_of_order and C38_clock_wrapped are counterexamples otherwise."
  },
  {
   "property": "C39",
   "status": "partial",
   "theorems": [
    "Verif.Thm.C39_rejected_packet_stays",
    "Verif.Thm.C39_ack_not_seen",
    "Verif.Thm.C39_handled_removed_partial"
   ],
   "note": "False of the code: C39_rejected_packet_stays proves that rejected packets are never removed; the partial theorem covers packets that are handled."
  },
  {
   "property": "C72",
   "status": "proved",
   "theorems": [
    "Verif.Thm.C72_link_down",
    "Verif.Thm.C72_link_up"
   ],
   "note": ""
  },
  {
   "property": "C40",
   "status": "proved",
   "theorems": [
    "Verif.Thm.C40_reply",
    "Verif.Thm.C40_only_valid"
   ],
   "note": ""
  },
  {
   "property": "C41",
   "status": "proved",
   "theorems": [
    "Verif.Thm.C41_request",
    "Verif.Thm.C41_setup_request"
   ],
   "note": ""
  },
  {
   "property": "C42",
   "status": "proved",
   "theorems": [
    "Verif.Thm.C42_round_trip"
   ],
   "note": ""
  },
  {
   "property": "C43",
   "status": "partial",
   "theorems": [
    "Verif.Thm.C43_next_second",
    "Verif.Thm.C43_within_second_partial",
    "Verif.Thm.C43_accuracy"
   ],
   "note": "False for the timestamps whose fraction is all ones (C43_next_second); proved for all others, and the accuracy for all."
  },
  {
   "property": "C67",
   "status": "partial",
   "theorems": [
    "Verif.Thm.C67_silent_error",
    "Verif.Thm.C67_conversion_partial"
   ],
   "note": "False of the code: C67_silent_error gives dates that convert without an error to another date; the partial theorem says exactly which dates convert back."
  },
  {
   "property": "C68",
   "status": "partial",
   "theorems": [
    "Verif.Thm.C68_removed_partial",
    "Verif.Thm.C68_short_blocks"
   ],
   "note": "False of the code: C68_short_blocks proves that a datagram of fewer than 48 bytes from the server blocks the client for ever; all other datagrams are removed."
  },
  {
   "property": "C69",
   "status": "partial",
   "theorems": [
    "Verif.Thm.C69_half",
    "Verif.Thm.C69_fixed_point_partial",
    "Verif.Thm.C69_negative"
   ],
   "note": "False of the code: the divisor is 65535 instead of 65536 (C69_half); the partial theorem bounds the error."
  },
  {
   "property": "C44",
   "status": "proved",
   "theorems": [
    "Verif.Thm.C44_encode",
    "Verif.Thm.C44_encode_large",
    "Verif.Thm.C44_decode",
    "Verif.Thm.C44_decode_error",
    "Verif.Thm.C44_round_trip"
   ],
   "note": ""
  },
  {
   "property": "C45",
   "status": "proved",
   "theorems": [
    "Verif.Thm.C45_unambiguous",
    "Verif.Thm.C45_publish",
    "Verif.Thm.C45_subscribe",
    "Verif.Thm.C45_unsubscribe",
    "Verif.Thm.C45_connect"
   ],
   "note": ""
  },
  {
   "property": "C46",
   "status": "proved",
   "theorems": [
    "Verif.Thm.C46_ids",
    "Verif.Thm.C46_empty_filter"
   ],
   "note": ""
  },
  {
   "property": "C47",
   "status": "partial",
   "theorems": [
    "Verif.Thm.C47_connack_partial",
    "Verif.Thm.C47_connack_long_not",
    "Verif.Thm.C47_suback_partial",
    "Verif.Thm.C47_unsuback_partial",
    "Verif.Thm.C47_suback_props_not",
    "Verif.Thm.C47_ignored",
    "Verif.Thm.C47_incomplete",
    "Verif.Thm.C47_interrupted",
    "Verif.Thm.C47_connack_short_not"
   ],
   "note": "Proved for every packet but these, where it is false: a CONNACK of 128 bytes or more (C47_connack_long_not) and acknowledgements with 128 or more property bytes (C47_suback_props_not). Acknowledgements are proved with one reason code, which is what the client asks for."
  },
  {
   "property": "C48",
   "status": "partial",
   "theorems": [
    "Verif.Thm.C48_publish_partial",
    "Verif.Thm.C48_props_not"
   ],
   "note": "Proved for properties of fewer than 128 bytes (C48_publish_partial). Refuted for every longer property list: C48_props_not proves that the payload given to the application then begins with a part of the properties, because the length of the properties is taken to be one byte long."
  },
  {
   "property": "C49",
   "status": "proved",
   "theorems": [
    "Verif.Thm.C49_connected",
    "Verif.Thm.C49_refused",
    "Verif.Thm.C49_stays",
    "Verif.Thm.C49_connack"
   ],
   "note": ""
  },
  {
   "property": "C50",
   "status": "partial",
   "theorems": [
    "Verif.Thm.C50_partial",
    "Verif.Thm.C50_or_unchanged_partial",
    "Verif.Thm.C50_not"
   ],
   "note": "False of the code: after an unexpected CONNACK the client is not reset and the error repeats for ever (C50_not). Proved for Disconnect, TcpTimeout, StateTimeout and ConnAck; after the other errors, Protocol, Decode and OutOfMemory, the client is reset or unchanged (C50_or_unchanged_partial)."
  },
  {
   "property": "C51",
   "status": "proved",
   "theorems": [
    "Verif.Thm.C51_client_id"
   ],
   "note": ""
  },
  {
   "property": "C70",
   "status": "partial",
   "theorems": [
    "Verif.Thm.C70_not",
    "Verif.Thm.C70_partial"
   ],
   "note": "False of the code: a length with four continuation bytes stalls the client (C70_not). Proved for the other malformed packets."
  },
  {
   "property": "C71",
   "status": "proved",
   "theorems": [
    "Verif.Thm.C71_reason_codes",
    "Verif.Thm.C71_names"
   ],
   "note": ""
  },
  {
   "property": "C73",
   "status": "proved",
   "theorems": [
    "Verif.Thm.C73_state_timeout"
   ],
   "note": ""
  },
  {
   "property": "C52",
   "status": "partial",
   "theorems": [
    "Verif.Tls.C52_alert_reuses_the_nonce",
    "Verif.Tls.C52_writer_nonces_partial",
    "Verif.Tls.C52_write_all_reuses_the_nonce"
   ],
   "note": "False of the code: write_all does not advance the sequence number (C52_write_all_reuses_the_nonce holds for all data). Proved for histories of TlsWriter alone."
  },
  {
   "property": "C53",
   "status": "partial",
   "theorems": [
    "Verif.Tls.C53_receive_buffer_is_a_queue_partial",
    "Verif.Tls.C53_one_byte_too_many_is_accepted"
   ],
   "note": "False of the code: an append of exactly one byte too many is accepted and loses the unread bytes (C53_one_byte_too_many_is_accepted). For all other histories the buffer is proved to be a queue."
  },
  {
   "property": "C54",
   "status": "proved",
   "theorems": [
    "Verif.Tls.C54_encrypt",
    "Verif.Tls.C54_decrypt",
    "Verif.Tls.C54_inverse",
    "Verif.Tls.C54_limit"
   ],
   "note": ""
  },
  {
   "property": "C55",
   "status": "proved",
   "theorems": [
    "Verif.Tls.C55_aes128"
   ],
   "note": ""
  },
  {
   "property": "C56",
   "status": "proved",
   "theorems": [
    "Verif.Gf2.C56_ghash"
   ],
   "note": ""
  },
  {
   "property": "C57",
   "status": "proved",
   "theorems": [
    "Verif.Tls.C57_client_hello"
   ],
   "note": ""
  },
  {
   "property": "C58",
   "status": "proved",
   "theorems": [
    "Verif.Tls.C58_server_hello_accepted_iff",
    "Verif.Tls.C58_server_hello_parse_ends",
    "Verif.Tls.C58_encrypted_extensions_accepted_iff"
   ],
   "note": ""
  },
  {
   "property": "C59",
   "status": "proved",
   "theorems": [
    "Verif.Tls.C59_no_missing_key",
    "Verif.Tls.C59_authenticated",
    "Verif.Tls.C59_handshake",
    "Verif.Tls.C59_error_disconnects"
   ],
   "note": "Unconditional: no missing key, errors disconnect, connected exactly when handshakeFinished, and then the Finished was right for the messages. C59_handshake adds that the client message is the one ClientHello of the offer, if the chip raises CON only for a client that waits for it. Witness/TlsWitness runs a whole handshake in the kernel."
  },
  {
   "property": "C60",
   "status": "partial",
   "theorems": [
    "Verif.Tls.C60_aborts_are_reported_as_warnings",
    "Verif.Tls.C60_forgery_partial"
   ],
   "note": "Refuted: C60_aborts_are_reported_as_warnings proves for every bus and state that every abort is reported with level Warning (Alert::new_fatal builds a Warning), except the one for an unparsable alert of the server, which is not sent; C60_forgery_partial shows that the wire level is fatal and the description right, for a forged record."
  },
  {
   "property": "C61",
   "status": "partial",
   "theorems": [
    "Verif.Thm.C61_send_partial",
    "Verif.Thm.C61_wrapped_send_drops_a_byte",
    "Verif.Thm.C61_send_failure",
    "Verif.Thm.C61_udp_send_to_partial",
    "Verif.Thm.C61_udp_send_to_drops_a_byte"
   ],
   "note": "Refuted for wrapped pointers (C61_wrapped_send_drops_a_byte, C61_udp_send_to_drops_a_byte): the byte at ring position 65535 is not sent. Proved while the write pointer is not below the read pointer."
  },
  {
   "property": "C62",
   "status": "partial",
   "theorems": [
    "Verif.Thm.C62_recv_partial",
    "Verif.Thm.C62_wrapped_recv"
   ],
   "note": "Refuted for wrapped pointers (C62_wrapped_recv): panics with overflow checks, otherwise stores the free space. Proved while the pointers have not wrapped."
  },
  {
   "property": "C63",
   "status": "partial",
   "theorems": [
    "Verif.Thm.C63_common",
    "Verif.Thm.C63_mode",
    "Verif.Thm.C63_socket",
    "Verif.Thm.C63_readonly",
    "Verif.Thm.C63_missing_registers_panic",
    "Verif.Thm.C63_interrupts",
    "Verif.Thm.C63_tx_buffer",
    "Verif.Thm.C63_rx_buffer",
    "Verif.Thm.C63_burst_write",
    "Verif.Thm.C63_burst_read",
    "Verif.Thm.C63_interrupts_reached"
   ],
   "note": "Proved for the registers the simulator implements; writes to Sn_MSSR, Sn_TOS, Sn_RX_WR, Sn_FRAG and Sn_KPALVTR panic (C63_missing_registers_panic)."
  },
  {
   "property": "C64",
   "status": "proved",
   "theorems": [
    "Verif.Thm.C64_state",
    "Verif.Thm.C64_output",
    "Verif.Thm.C64_full_period",
    "Verif.Thm.C64_every_state_reached"
   ],
   "note": ""
  },
  {
   "property": "C65",
   "status": "proved",
   "theorems": [
    "Verif.Thm.C65_chip_deselected",
    "Verif.Thm.C65_select_failure",
    "Verif.Thm.C65_infallible_pin"
   ],
   "note": ""
  },
  {
   "property": "C66",
   "status": "partial",
   "theorems": [
    "Verif.Thm.C66_gateway_is_server",
    "Verif.Thm.C66_registers_partial"
   ],
   "note": "False of the code: C66_gateway_is_server is a counterexample (the gateway is taken from option 54); the partial theorem is what holds."
  },
  {
   "property": "C74",
   "status": "partial",
   "theorems": [
    "Verif.Thm.C74_offer_partial",
    "Verif.Thm.C74_nak_taken_as_offer"
   ],
   "note": "False in one respect: the message type is not checked while selecting (C74_nak_taken_as_offer). What an OFFER leads to is proved."
  },
  {
   "property": "C75",
   "status": "proved",
   "theorems": [
    "Verif.Thm.C75_state_queries",
    "Verif.Thm.C75_close",
    "Verif.Thm.C75_disconnect",
    "Verif.Thm.C75_local_addr"
   ],
   "note": ""
  },
  {
   "property": "C76",
   "status": "proved",
   "theorems": [
    "Verif.Thm.C76_other_interrupts_are_kept",
    "Verif.Thm.C76_bitmask"
   ],
   "note": ""
  },
  {
   "property": "C77",
   "status": "partial",
   "theorems": [
    "Verif.Tls.C77_fragmented_messages_are_reassembled_partial",
    "Verif.Tls.C77_messages_in_one_record_are_not_split",
    "Verif.Tls.C77_message_after_application_data_has_other_bytes",
    "Verif.Tls.C77_fragment_after_application_data_panics",
    "Verif.Tls.C77_unread_application_data_is_taken_as_a_message",
    "Verif.Tls.C77_message_around_the_end_waits",
    "Verif.Tls.C77_second_ticket_waits"
   ],
   "note": "False of the code: messages that share a record, and messages after application data, are taken apart wrongly, and messages around the end of the buffer are held back (the other C77 theorems are counterexamples). Proved for any fragmentation of messages that do not share records."
  },
  {
   "property": "C78",
   "status": "proved",
   "theorems": [
    "Verif.Tls.C78_codes_convert",
    "Verif.Tls.C78_values"
   ],
   "note": ""
  },
  {
   "property": "C79",
   "status": "proved",
   "theorems": [
    "Verif.Tls.C79_empty_hash",
    "Verif.Tls.C79_binder",
    "Verif.Tls.C79_key_schedule",
    "Verif.Tls.C79_key_and_nonce",
    "Verif.Tls.C79_nonces_differ"
   ],
   "note": "The hash, HMAC, HKDF and P-256 crates are arguments of the model; the theorems assume that the first three compute their standards (Crypto.Standard), which are specified in Spec/Sha256.lean."
  },
  {
   "property": "C80",
   "status": "partial",
   "theorems": [
    "Verif.Tls.C80_key_update_is_not_the_standard",
    "Verif.Tls.Witness.C80_key_update_is_ignored"
   ],
   "note": "False of the code: both directions get the same new secret, and a KeyUpdate that requests no update is ignored; the theorems are refutations."
  },
  {
   "property": "C81",
   "status": "proved",
   "theorems": [
    "Verif.Tls.C81_writer",
    "Verif.Tls.C81_write_all",
    "Verif.Tls.C81_write_all_refused"
   ],
   "note": ""
  },
  {
   "property": "C82",
   "status": "partial",
   "theorems": [
    "Verif.Tls.Witness.C82_plaintext_handshake_is_accepted",
    "Verif.Tls.Witness.C82_plaintext_key_update_is_accepted"
   ],
   "note": "False of the code: the theorems are refutations, each with a whole history from Client::new."
  },
  {
   "property": "C83",
   "status": "proved",
   "theorems": [
    "Verif.Tls.C83_delivery",
    "Verif.Tls.C83_forgery",
    "Verif.Tls.C83_authenticity",
    "Verif.Tls.C83_stream"
   ],
   "note": ""
  },
  {
   "property": "C84",
   "status": "partial",
   "theorems": [
    "Verif.Tls.C84_padding_is_refused",
    "Verif.Tls.C84_size_limit_is_too_strict"
   ],
   "note": "False of the code: the theorems are refutations. What does hold is C83: records without padding and within the limit including the tag are delivered."
  },
  {
   "property": "C85",
   "status": "partial",
   "theorems": [
    "Verif.Thm.C85_open_partial",
    "Verif.Thm.C85_open_keeps_stale_bytes"
   ],
   "note": "Refuted for the received size (C85_open_keeps_stale_bytes); pointers, status and the rest proved."
  },
  {
   "property": "C86",
   "status": "partial",
   "theorems": [
    "Verif.Thm.C86_free_size_is_constant",
    "Verif.Thm.C86_free_size_is_wrong",
    "Verif.Thm.C86_free_size_partial"
   ],
   "note": "Refuted (C86_free_size_is_constant, C86_free_size_is_wrong): the register is always 2048. Right for an empty buffer of 2 KiB."
  },
  {
   "property": "C87",
   "status": "partial",
   "theorems": [
    "Verif.Thm.C87_datagram_partial",
    "Verif.Thm.C87_datagram_cut",
    "Verif.Thm.C87_stream_partial",
    "Verif.Thm.C87_stream_bytes_lost"
   ],
   "note": "Refuted for data that do not fit (C87_datagram_cut, C87_stream_bytes_lost): cut, with the full length in the header. Proved for data that fit."
  },
  {
   "property": "C88",
   "status": "partial",
   "theorems": [
    "Verif.Tls.C88_plain_alert_partial",
    "Verif.Tls.C88_encrypted_alerts_are_not_reported"
   ],
   "note": "Proved for alerts in the clear, in every state that receives records. Refuted for encrypted alerts: recv_alert compares the length of the ciphertext with 2, so that every encrypted alert becomes DecodeError."
  },
  {
   "property": "C89",
   "status": "proved",
   "theorems": [
    "Verif.Tls.C89_handshake_completes"
   ],
   "note": ""
  },
  {
   "property": "C90",
   "status": "proved",
   "theorems": [
    "Verif.MqttTls.C90_publish",
    "Verif.MqttTls.C90_subscribe",
    "Verif.MqttTls.C90_unsubscribe",
    "Verif.MqttTls.C90_empty_filter",
    "Verif.MqttTls.C90_connect",
    "Verif.MqttTls.C90_session"
   ],
   "note": "CanSend: the TLS connection is up and the transmit buffer is described by TxState. A filter longer than any buffer panics in a debug build (stated in the theorems)."
  },
  {
   "property": "C91",
   "status": "partial",
   "theorems": [
    "Verif.MqttTls.C91_connack_partial",
    "Verif.MqttTls.C91_connack_long_not",
    "Verif.MqttTls.C91_suback_partial",
    "Verif.MqttTls.C91_unsuback_partial",
    "Verif.MqttTls.C91_suback_props_not",
    "Verif.MqttTls.C91_ignored",
    "Verif.MqttTls.C91_incomplete",
    "Verif.MqttTls.C91_publish",
    "Verif.MqttTls.C91_unexpected_connack_not",
    "Verif.MqttTls.C91_malformed_not",
    "Verif.MqttTls.C91_malformed_partial",
    "Verif.MqttTls.C91_record"
   ],
   "note": "Gives: the TLS client of this call returns no event and its buffer holds the bytes D; C91_record goes from the record on the wire to the message. The negations are those of the client over TCP (C47, C50, C70): long CONNACKs, acknowledgements with 128 or more bytes of properties, an unexpected CONNACK, and four continuation bytes."
  },
  {
   "property": "C92",
   "status": "partial",
   "theorems": [
    "Verif.MqttTls.C92_disconnect_not",
    "Verif.MqttTls.C92_partial"
   ],
   "note": "is_connected stays true after a disconnect (C92_disconnect_not); it never is true before a ConnAck event (C92_partial)."
  },
  {
   "property": "C93",
   "status": "partial",
   "theorems": [
    "Verif.MqttTls.C93_disconnection_partial",
    "Verif.MqttTls.C93_silent_server_partial",
    "Verif.MqttTls.C93_abort_partial",
    "Verif.MqttTls.C93_timeout_not",
    "Verif.MqttTls.C93_refused_not",
    "Verif.MqttTls.C93_full_not",
    "Verif.MqttTls.C93_malformed_not"
   ],
   "note": "After a timeout of the MQTT connection, a refusal or a full transmit buffer all later calls return Ok(Event::None) and nothing is sent; after a malformed packet they repeat the error; as long as the server does nothing (C93_*_not). Positive part: after a disconnection, a TCP timeout, a silent TLS server or an abort by the TLS client the client does connect again (C93_*_partial, release build)."
  },
  {
   "property": "C94",
   "status": "partial",
   "theorems": [
    "Verif.MqttTls.C94_not",
    "Verif.MqttTls.C94_partial"
   ],
   "note": "Sent as soon as the TLS handshake is finished (C94_not); refused without a TLS connection (C94_partial)."
  },
  {
   "property": "C95",
   "status": "proved",
   "theorems": [
    "Verif.Thm.C95_configured",
    "Verif.Thm.C95_opens"
   ],
   "note": "C95_configured holds for every schedule. C95_opens: no environment step changes the status of the socket (Steady); the debug assertion of port uniqueness may panic, which the theorem names. The chip's reaction to the commands is that of the specification chip."
  },
  {
   "property": "C96",
   "status": "proved",
   "theorems": [
    "Verif.Thm.C96_mqtt",
    "Verif.Tls.C96_tls"
   ],
   "note": "Steady: no environment step changes the status of the socket during the call; Quiet (TLS): no interrupt that matters is pending. Sizes: the buffer size registers hold legal sizes. The debug assertion of port uniqueness may panic, which the theorems name. C96_tls needs a client buffer of one of the sizes the constructor supports."
  },
  {
   "property": "C97",
   "status": "proved",
   "theorems": [
    "Verif.Tls.C97_waits"
   ],
   "note": "C97_waits; nothing arrives during the call (Still) and no interrupt is pending (Quiet); in a debug build an assertion about the socket status may panic, which the theorem names."
  },
  {
   "property": "C98",
   "status": "proved",
   "theorems": [
    "Verif.Tls.C98_between_plain",
    "Verif.Tls.C98_between_protected",
    "Verif.Tls.C98_ccs_dropped",
    "Verif.Tls.C98_ccs_refused"
   ],
   "note": "C98_between_plain, C98_between_protected, C98_ccs_dropped, C98_ccs_refused. The record fits into the receive buffer and is within the limit (C84 says what happens otherwise)."
  },
  {
   "property": "C99",
   "status": "proved",
   "theorems": [
    "Verif.Tls.C99_disconnects_and_retries",
    "Verif.Tls.C99_silent_server",
    "Verif.Tls.C99_after_abort",
    "Verif.Tls.C99_after_disconnection",
    "Verif.Tls.C99_awaited_disconnection"
   ],
   "note": "Release build. Nothing happens on the socket by itself after the failure (Alone: no further CON, DISCON or TIMEOUT interrupt, no status change; in C99_after_disconnection the pending interrupt is the failure). A DISCON interrupt during the wait for the disconnection itself does not shorten the wait: see C60/C84 and the findings."
  },
  {
   "property": "C100",
   "status": "proved",
   "theorems": [
    "Verif.Thm.C100_reset",
    "Verif.Thm.C100_succeeds"
   ],
   "note": "Delays take at least as long as asked (the contract of embedded-hal); a failing pin keeps its level."
  },
  {
   "property": "C101",
   "status": "partial",
   "theorems": [
    "Verif.Thm.C101_lease_partial",
    "Verif.Thm.C101_second_offer_starves"
   ],
   "note": "C101_lease_partial proves the exchange with one server, for release builds: three calls of process, any environment steps between and during them, the OFFER and the ACK each alone in the queue; it says what each call returns, what is sent and what the client and the chip hold at the end. Refuted for two servers: C101_second_offer_starves proves that if a second OFFER is behind the first, then after the REQUEST no call before the timeout changes the client, whatever arrives, so the ACK is not seen (the REQUEST has a new transaction id, and a packet with another one is never removed, C39)."
  },
  {
   "property": "C102",
   "status": "partial",
   "theorems": [
    "Verif.Thm.C102_connect_partial",
    "Verif.Thm.C102_connect_refused",
    "Verif.Thm.C102_listen_partial",
    "Verif.Thm.C102_listen_refused",
    "Verif.Thm.C102_close",
    "Verif.Thm.C102_accept_partial",
    "Verif.Thm.C102_peer_close_unseen",
    "Verif.Thm.C102_second_listen_never_accepts",
    "Verif.Thm.C102_sendok_never_raised",
    "Verif.Thm.C102_missing_commands_panic"
   ],
   "note": "Proved: CONNECT, LISTEN and CLOSE with success and with refusal, and the first accept. Refuted: C102_peer_close_unseen (no sequence of reads changes the status of a connected socket, whatever the operating system answers) and C102_second_listen_never_accepts (a socket that accepted a client once, then closed, opened and listening again, stays listening: the old stream is kept and read instead). A failure of set_nonblocking or set_ttl after a successful call is returned as an error by the model and not covered."
  },
  {
   "property": "C103",
   "status": "partial",
   "theorems": [
    "Verif.Thm.C103_session_partial",
    "Verif.Thm.C103_messages_partial"
   ],
   "note": "Proved for packets with fewer than 128 bytes of properties and without a CONNACK in the session, in a release build (C103_session_partial, C103_messages_partial). For the excluded packets the property is false: C47_suback_props_not, C48_props_not, C50_not."
  },
  {
   "property": "C104",
   "status": "proved",
   "theorems": [
    "Verif.Thm.C104_connects"
   ],
   "note": "Composes C96 (opening the socket), C73 (the timeouts), C45 (the CONNECT packet) and C49 (the CONNACK), for every schedule. What happens if the connection is refused or times out is in C49, C50 and C73; a debug build can end in the debug assertions about the socket."
  },
  {
   "property": "C105",
   "status": "partial",
   "theorems": [
    "Verif.Thm.C105_session_partial"
   ],
   "note": "Proved for the packets of C103 (C105_session_partial); for the others the property is false, as stated there. A request is refused only if its packet is longer than the free part of the transmit buffer: C45."
  },
  {
   "property": "C106",
   "status": "partial",
   "theorems": [
    "Verif.Thm.C106_keeps_partial",
    "Verif.Thm.C106_renewal",
    "Verif.Thm.C106_stray_packet"
   ],
   "note": "For release builds. C106_renewal proves one renewal in two calls; C106_keeps_partial is an induction over any list of calls, at any times and with any environment steps between and during them, where before each call nothing or one ACK of the last REQUEST has arrived (ServedInTime). Refuted for other datagrams: C106_stray_packet proves that if a packet with op 1 is at the head of the queue then, whatever else arrives, no call extends the lease, and the first call after its end takes the address away (C39: rejected packets are never removed)."
  },
  {
   "property": "C107",
   "status": "partial",
   "theorems": [
    "Verif.Thm.C107_selecting_partial",
    "Verif.Thm.C107_renewing"
   ],
   "note": "C107_selecting_partial: the answer to an OFFER has the right form. Refuted for renewals: C107_renewing proves that the REQUEST with which a client with a lease renews or rebinds never has the form of RFC 2131 section 4.3.2: ciaddr is zero and option 50 is present, so that it has the form of an answer to an OFFER."
  },
  {
   "property": "C108",
   "status": "proved",
   "theorems": [
    "Verif.MqttTls.C108_ids"
   ],
   "note": "C108_ids: from a new client, over any history and any device. Requests that fail or have an empty filter also use up an identifier, and are counted."
  },
  {
   "property": "C109",
   "status": "partial",
   "theorems": [
    "Verif.MqttTls.C109_not_connected",
    "Verif.MqttTls.C109_writer",
    "Verif.MqttTls.C109_connection",
    "Verif.MqttTls.C109_alert_partial",
    "Verif.MqttTls.C109_silent_server"
   ],
   "note": "C109_connection: DISCON and TIMEOUT in every state. C109_silent_server: a timeout in the handshake is reported, always with the state WaitConAck, whatever the client waited for. C109_not_connected and C109_writer: the errors for which the MQTT client has unreachable!() do not occur. C109_alert_partial: alerts that are not encrypted are reported; missing: encrypted ones, which the TLS client does not understand (C88)."
  },
  {
   "property": "C110",
   "status": "partial",
   "theorems": [
    "Verif.MqttTls.C110_session_partial",
    "Verif.MqttTls.C110_arrived_partial",
    "Verif.MqttTls.C110_burst_not"
   ],
   "note": "C110_session_partial proves the statement for a client built for release as long as the receive buffer has room for each record when its turn comes (Room; room_of_total and room_of_groups give two sufficient conditions: everything fits, or every packet has records of its own). C110_arrived_partial is the case in which everything has arrived. C110_burst_not proves that the statement is false otherwise: process takes one record and handles one packet in a call, so that records with many small packets fill the buffer, and then the client ends the connection with InternalError although no packet and no record is too large."
  },
  {
   "property": "C111",
   "status": "partial",
   "theorems": [
    "Verif.MqttTls.C111_session_partial"
   ],
   "note": "C111_session_partial proves the statement for a client built for release as long as the receive buffer has room for each record when its turn comes (Room, as in C110; otherwise the property is false, C110_burst_not) and for the packets of C103. A request is refused only if the transmit buffer has no room for its record: C90."
  },
  {
   "property": "C112",
   "status": "proved",
   "theorems": [
    "Verif.Thm.C112_session"
   ],
   "note": "Release build; the environment delivers whole datagrams to the socket. Short datagrams from the server are an exception in the statement, since they block the client (C68_short_blocks)."
  },
  {
   "property": "C113",
   "status": "proved",
   "theorems": [
    "Verif.Thm.C113_lookup",
    "Verif.Thm.C113_mdns"
   ],
   "note": "Release build; the environment delivers whole datagrams to the socket. Responses to the query with malformed questions are an exception in the statement, since they block the client (C114_blocked); so are names that need more steps than the model's bound, on which the code does not return (C29)."
  },
  {
   "property": "C114",
   "status": "partial",
   "theorems": [
    "Verif.Thm.C114_blocked",
    "Verif.Thm.C114_removed_partial"
   ],
   "note": "False of the code: C114_blocked proves that a response that announces a question and ends after the header makes every later call fail until the next query; all other datagrams are removed."
  },
  {
   "property": "C115",
   "status": "partial",
   "theorems": [
    "Verif.Thm.C115_changes_partial",
    "Verif.Thm.C115_from_a_lease_partial",
    "Verif.Thm.C115_ack_partial",
    "Verif.Thm.C115_times",
    "Verif.Thm.C115_never_withdrawn",
    "Verif.Thm.C115_stale"
   ],
   "note": "False of the code: C115_never_withdrawn proves that once a server is reported one is reported for ever, and C115_stale shows both ways: after the end of the lease, and with a new lease that came without the option. The partials prove that only a call that binds the client changes what is reported, that what is reported came with some lease, and what an ACK with the options gives; C115_times is proved in full."
  },
  {
   "property": "C116",
   "status": "proved",
   "theorems": [
    "Verif.Tls.C116_handshake_polls"
   ],
   "note": ""
  },
  {
   "property": "C117",
   "status": "proved",
   "theorems": [
    "Verif.MqttTls.C117_connects"
   ],
   "note": ""
  },
  {
   "property": "C118",
   "status": "proved",
   "theorems": [
    "Verif.Thm.C118_asks_again",
    "Verif.Thm.C118_from_the_start",
    "Verif.Thm.C118_every_call",
    "Verif.Thm.C118_called_when_asked"
   ],
   "note": "For release builds: with overflow checks process panics if the clock reads less than when the client asked."
  },
  {
   "property": "C119",
   "status": "partial",
   "theorems": [
    "Verif.MqttTls.C119_whole_partial"
   ],
   "note": "C119_whole_partial composes C117_connects and C111_session_partial, with the limits of C111: room in the receive buffer for each record when its turn comes (Room; otherwise false, C110_burst_not), the packets of C103, release build."
  },
  {
   "property": "C120",
   "status": "partial",
   "theorems": [
    "Verif.Thm.C120_configured",
    "Verif.Thm.C120_group_not",
    "Verif.Thm.C120_group_partial"
   ],
   "note": "C120_configured: registers and one OPEN, in every case in which no wait for the status hangs. False as to the order: C120_group_not proves that a query opens the socket without the group whenever the destination registers did not hold it before, for example after a reset, because they are written after OPEN. C120_group_partial: they are right if they held it before, for example from an earlier query."
  },
  {
   "property": "C121",
   "status": "proved",
   "theorems": [
    "Verif.Thm.C121_dns_query",
    "Verif.Thm.C121_mdns_query",
    "Verif.Thm.C121_dns_response",
    "Verif.Thm.C121_dns_records",
    "Verif.Thm.C121_sntp",
    "Verif.Thm.C121_dhcp_setup",
    "Verif.Thm.C121_dhcp_process",
    "Verif.Thm.C121_mqtt_process",
    "Verif.Thm.C121_mqtt_send",
    "Verif.Thm.C121_mqtt_message"
   ],
   "note": "Device says only that accesses end in data or in a bus error. In debug builds the status assertion is assumed of every read of the status, so that there the theorem about DHCP process is about calls that do not reopen the socket (reopening waits for a closed socket); release builds have no such assumption. The TLS client is C122."
  },
  {
   "property": "C122",
   "status": "partial",
   "theorems": [
    "Verif.Tls.C122_process_never_panics_partial",
    "Verif.Tls.C122_error_gives_up",
    "Verif.Tls.C122_write_all_panics_iff"
   ],
   "note": "False once application data has arrived: the first part of a handshake message then panics (C77_fragment_after_application_data_panics). Until then, and again after the connection has been given up, C122_process_never_panics_partial proves it for every history and device. C122_error_gives_up and C122_write_all_panics_iff hold without that limit."
  },
  {
   "property": "C123",
   "status": "proved",
   "theorems": [
    "Verif.Thm.C123_dns",
    "Verif.Thm.C123_sntp",
    "Verif.Thm.C123_dhcp",
    "Verif.Thm.C123_mqtt_process",
    "Verif.Thm.C123_mqtt",
    "Verif.Tls.C123_tls_process",
    "Verif.Tls.C123_tls_data",
    "Verif.Tls.C123_mqtt_tls"
   ],
   "note": "For every device that may answer anything and fail at any access; the accesses are listed by the bus traceBus of Spec/Trace.lean. In debug builds the uniqueness check of ports reads, but does not write, other sockets."
  },
  {
   "property": "C124",
   "status": "proved",
   "theorems": [
    "Verif.Thm.C124_dns",
    "Verif.Thm.C124_sntp",
    "Verif.Thm.C124_dhcp",
    "Verif.Thm.C124_mqtt"
   ],
   "note": "For every device that may answer anything and fail at any access; covers every call of the four clients and the readers they return. The TLS client reports errors of its own instead: see C125."
  },
  {
   "property": "C125",
   "status": "partial",
   "theorems": [
    "Verif.Tls.C125_process_partial",
    "Verif.Tls.C125_data",
    "Verif.Tls.C125_mqtt_tls_partial",
    "Verif.Tls.C125_interrupts_failure_ignored"
   ],
   "note": "Holds for write_all, writer, send, publish, subscribe and unsubscribe, and for process with the exception of its first access: a failure to read the interrupt register is taken for no interrupt, so the call can succeed and what was raised is not noticed (C125_interrupts_failure_ignored shows both). The partial theorems say that the first access is that read and that after a success none of the others failed."
  },
  {
   "property": "C126",
   "status": "proved",
   "theorems": [
    "Verif.Tls.C126_tls_writer",
    "Verif.Tls.C126_mqtt_tls_send",
    "Verif.Tls.C126_mqtt_tls_process",
    "Verif.Tls.C126_mqtt_tls_before_data",
    "Verif.Tls.C126_mqtt_tls_message"
   ],
   "note": "For every history of the TLS client below, every device that may answer anything or fail, and every number of calls below 2^64. C126_mqtt_tls_process says that process of the MQTT client panics exactly when process of the TLS client below does; that the latter does not before application data is C122, which is partial."
  },
  {
   "property": "C127",
   "status": "proved",
   "theorems": [
    "Verif.Thm.C127_display",
    "Verif.Thm.C127_injective"
   ],
   "note": "For all addresses. The reader of the specification takes only upper-case digits."
  },
  {
   "property": "C128",
   "status": "proved",
   "theorems": [
    "Verif.Thm.C128_tcp",
    "Verif.Thm.C128_udp",
    "Verif.Thm.C128_streams",
    "Verif.Thm.C128_common",
    "Verif.Thm.C128_open"
   ],
   "note": "For every device: any answers, any failures. The numbers include the reads of the debug assertions in a debug build (inDebug). Opening a socket waits for the status of the chip; C128_open bounds the number of all other accesses."
  },
  {
   "property": "C129",
   "status": "proved",
   "theorems": [
    "Verif.Thm.C129_sntp",
    "Verif.Thm.C129_mqtt_process",
    "Verif.Thm.C129_mqtt"
   ],
   "note": "For every device: any answers, any failures. C129_mqtt_process treats the state before the socket is opened apart, because that call waits for the status of the chip."
  },
  {
   "property": "C130",
   "status": "proved",
   "theorems": [
    "Verif.Thm.C130_dns"
   ],
   "note": "For every device: any answers, any failures. The labels of a name are counted as its dots and one more (questionWrites in Spec/Cost.lean). Reading a response is not covered: its accesses grow with the number of compression pointers that the server puts into a name."
  },
  {
   "property": "C131",
   "status": "proved",
   "theorems": [
    "Verif.Thm.C131_dhcp"
   ],
   "note": "For every device that answers zero, or fails, when the received size is read. With datagrams waiting, a call reads options until it has found them and goes on with the next datagram, so that the number depends on what was received."
  },
  {
   "property": "C132",
   "status": "proved",
   "theorems": [
    "Verif.Tls.C132_tls"
   ],
   "note": "For every device: any answers, any failures; no assumption about the cryptographic functions."
  },
  {
   "property": "C133",
   "status": "proved",
   "theorems": [
    "Verif.Thm.C133_Mode",
    "Verif.Thm.C133_Interrupt",
    "Verif.Thm.C133_SocketInterrupt",
    "Verif.Thm.C133_SocketInterruptMask",
    "Verif.Thm.C133_PhyCfg",
    "Verif.Thm.C133_SocketMode",
    "Verif.Thm.C133_SocketMode_injective"
   ],
   "note": "For the format {}; the indented format {:#} of the core library is not modelled. The reader of the specification is proved to invert debug_struct for all names and fields without spaces. The reset bits of Mode and PhyCfg and the reserved bits are not part of the texts."
  }
 ]
}