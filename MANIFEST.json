{
 "claims": [
  {
   "property": "C01",
   "status": "proved",
   "theorems": [
    "Verif.H4.C01_packets_delivered",
    "Verif.H4.C01_packets_delivered_from_idle",
    "Verif.H4.C01_chunking_irrelevant"
   ],
   "note": ""
  },
  {
   "property": "C02",
   "status": "proved",
   "theorems": [
    "Verif.H4.C02_silent_until_reset",
    "Verif.H4.C02_resync_at_first_reset"
   ],
   "note": ""
  },
  {
   "property": "C03",
   "status": "proved",
   "theorems": [
    "Verif.H4.C03_always_requests",
    "Verif.H4.C03_no_abort_with_recovery",
    "Verif.H4.C03_abort_only_on_unknown_type",
    "Verif.H4.C03_empty_read"
   ],
   "note": ""
  },
  {
   "property": "C04",
   "status": "partial",
   "theorems": [
    "Verif.Addr.C04_roundtrip",
    "Verif.Addr.C04_toString_injective",
    "Verif.Addr.C04_hex_accepted",
    "Verif.Addr.C04_accepted_shape_partial",
    "Verif.Addr.C04_reads",
    "Verif.Addr.C04_valid",
    "Verif.Addr.C04_strict_parse_violated",
    "Verif.Addr.C04_invalid_leaves_target_violated",
    "Verif.Addr.C04_into_partial"
   ],
   "note": "The code disagrees with the property: (`C04_strict_parse_violated`, `C04_invalid_leaves_target_violated`): the text parser accepts strings that are not six two-digit hex octets, and can modify its target on failure. What holds is stated by C04_accepted_shape_partial, C04_into_partial; the comment of each says what is missing."
  },
  {
   "property": "C05",
   "status": "proved",
   "theorems": [
    "Verif.Conn.C05_handles_unique",
    "Verif.Conn.C05_handle_in_range",
    "Verif.Conn.C05_create_acl",
    "Verif.Conn.C05_create_le",
    "Verif.Conn.C05_create_sco",
    "Verif.Conn.C05_search_terminates_iff",
    "Verif.Conn.C05_round_robin"
   ],
   "note": "The code disagrees with the property: creating a 257th connection of a kind never returns (`C05_search_terminates_iff`); the English property excludes it. The other theorems state what holds."
  },
  {
   "property": "C06",
   "status": "proved",
   "theorems": [
    "Verif.Conn.C06_disconnect_exact",
    "Verif.Conn.C06_disconnect_aborts_iff",
    "Verif.Conn.C06_lookup_by_handle",
    "Verif.Conn.C06_lookup_by_address",
    "Verif.Conn.C06_pending_sco",
    "Verif.Conn.C06_cancel_pending_sco",
    "Verif.Conn.C06_accept_pending_sco"
   ],
   "note": ""
  },
  {
   "property": "C07",
   "status": "partial",
   "theorems": [
    "Verif.Sco.C07_esco_best_as_coded_partial",
    "Verif.Sco.C07_esco_best_partial",
    "Verif.Sco.C07_esco_complete_partial",
    "Verif.Sco.C07_types_allowed_violated",
    "Verif.Sco.C07_sco_fallback_types",
    "Verif.Sco.C07_sco_bandwidth_violated",
    "Verif.Sco.C07_air_mode",
    "Verif.Sco.C07_negotiation_sound_partial",
    "Verif.Sco.C07_negotiation_complete",
    "Verif.Sco.C07_dont_care_bandwidth_violated",
    "Verif.Sco.C07_receive_bandwidth_violated",
    "Verif.Sco.C07_extended"
   ],
   "note": "The code disagrees with the property: (`C07_types_allowed_violated`): the sizes of 3-EV3 and 2-EV5 are exchanged in the packet table. `C07_sco_bandwidth_violated`: the SCO fallback ignores the bandwidth. `C07_dont_care_bandwidth_violated`, `C07_receive_bandwidth_violated`: the don't-care bandwidth is 0xFFFF instead of 0xFFFFFFFF, and the receive bandwidth is checked on eSCO requests only. What holds is stated by C07_esco_best_as_coded_partial, C07_esco_best_partial, C07_esco_complete_partial, C07_negotiation_sound_partial; the comment of each says what is missing."
  },
  {
   "property": "C08",
   "status": "partial",
   "theorems": [
    "Verif.Async.C08_cancel_exact",
    "Verif.Async.C08_cancelled_never_runs_partial",
    "Verif.Async.C08_user_cancelled_never_runs_partial",
    "Verif.Async.C08_stopped_never_runs_partial",
    "Verif.Async.C08_cancel_user_isolated_partial",
    "Verif.Async.C08_periodic_runs_after_cancel_violated",
    "Verif.Async.C08_one_shot_runs_after_cancel_violated",
    "Verif.Async.C08_cancel_user_isolated_violated"
   ],
   "note": "The code disagrees with the property: (`C08_periodic_runs_after_cancel_violated`, `C08_one_shot_runs_after_cancel_violated`): between picking a task and starting its callback the scheduler thread holds no lock, so the callback can run after the cancelling call has returned. `C08_cancel_user_isolated_violated`: cancelling a task leaves its identifier recorded for its user; after the identifiers wrap around, cancelling that user's tasks cancels another user's task. What holds is stated by C08_cancelled_never_runs_partial, C08_user_cancelled_never_runs_partial, C08_stopped_never_runs_partial, C08_cancel_user_isolated_partial; the comment of each says what is missing."
  },
  {
   "property": "C09",
   "status": "proved",
   "theorems": [
    "Verif.Async.C09_ids_unique",
    "Verif.Async.C09_schedule",
    "Verif.Async.C09_never_early",
    "Verif.Async.C09_deadline_order",
    "Verif.Async.C09_no_overtaking",
    "Verif.Async.C09_one_shot_once",
    "Verif.Async.C09_pick"
   ],
   "note": ""
  },
  {
   "property": "C10",
   "status": "proved",
   "theorems": [
    "Verif.Phy.C10_membership_symmetric",
    "Verif.Phy.C10_listed_present",
    "Verif.Phy.C10_ids_distinct",
    "Verif.Phy.C10_id_never_reused",
    "Verif.Phy.C10_attach",
    "Verif.Phy.C10_detach",
    "Verif.Phy.C10_remove_device",
    "Verif.Phy.C10_remove_phy",
    "Verif.Phy.C10_reset",
    "Verif.Phy.C10_add_phy",
    "Verif.Phy.C10_add_hci",
    "Verif.Phy.C10_add_link_layer"
   ],
   "note": ""
  },
  {
   "property": "C11",
   "status": "partial",
   "theorems": [
    "Verif.Phy.C11_receivers",
    "Verif.Phy.C11_never_to_sender",
    "Verif.Phy.C11_exactly_once_partial",
    "Verif.Phy.C11_exactly_once_careful_partial",
    "Verif.Phy.C11_exactly_once_violated"
   ],
   "note": "The code disagrees with the property: (`C11_exactly_once_violated`): a device attached twice to a phy, or two devices sharing two phys of one type, receives a packet twice. What holds is stated by C11_exactly_once_partial, C11_exactly_once_careful_partial; the comment of each says what is missing."
  },
  {
   "property": "C12",
   "status": "partial",
   "theorems": [
    "Verif.Phy.C12_generated_unused",
    "Verif.Phy.C12_generates_iff_free",
    "Verif.Phy.C12_generated_nonempty",
    "Verif.Phy.C12_add_hci_address",
    "Verif.Phy.C12_pairwise_distinct",
    "Verif.Phy.C12_no_reuse_distinct_violated",
    "Verif.Phy.C12_no_reuse_distinct_partial"
   ],
   "note": "The code disagrees with the property: (`C12_no_reuse_distinct_violated`): an address generated for a device can be given again after the device is removed. `C12_generates_iff_free`: when all 65536 generated addresses are in use, adding a device never returns, even when an explicit address is supplied. What holds is stated by C12_no_reuse_distinct_partial; the comment of each says what is missing."
  },
  {
   "property": "C13",
   "status": "partial",
   "theorems": [
    "Verif.Pcap.C13_length",
    "Verif.Pcap.C13_acl",
    "Verif.Pcap.C13_sco",
    "Verif.Pcap.C13_iso",
    "Verif.Pcap.C13_write_local_name",
    "Verif.Pcap.C13_remote_name",
    "Verif.Pcap.C13_set_advertising_data",
    "Verif.Pcap.C13_advertising_report",
    "Verif.Pcap.C13_set_extended_data",
    "Verif.Pcap.C13_set_periodic_data",
    "Verif.Pcap.C13_write_eir",
    "Verif.Pcap.C13_read_local_name",
    "Verif.Pcap.C13_read_eir",
    "Verif.Pcap.C13_inquiry_result",
    "Verif.Pcap.C13_extended_report",
    "Verif.Pcap.C13_other_commands",
    "Verif.Pcap.C13_other_events",
    "Verif.Pcap.C13_gap_partial",
    "Verif.Pcap.C13_gap_type_kept_violated",
    "Verif.Pcap.C13_gap_name_replaced_violated",
    "Verif.Pcap.C13_malformed_aborts_violated",
    "Verif.Pcap.C13_data_never_aborts",
    "Verif.Pcap.C13_pseudonym"
   ],
   "note": "The code disagrees with the property: (`C13_gap_type_kept_violated`, `C13_gap_name_replaced_violated`): the name walk over advertising data is one octet off, so the type octet of a name structure is overwritten and the last octet of the name survives. `C13_malformed_aborts_violated`: a correctly framed command with too few parameters aborts the filter. What holds is stated by C13_gap_partial; the comment of each says what is missing."
  },
  {
   "property": "C14",
   "status": "partial",
   "theorems": [
    "Verif.Pcap.C14_consistent",
    "Verif.Pcap.C14_same_length",
    "Verif.Pcap.C14_distinguishable_partial",
    "Verif.Pcap.C14_distinguishable_violated"
   ],
   "note": "The code disagrees with the property: (`C14_distinguishable_violated`): two distinct names shorter than the counter's digits can share a pseudonym. What holds is stated by C14_distinguishable_partial; the comment of each says what is missing."
  },
  {
   "property": "C15",
   "status": "partial",
   "theorems": [
    "Verif.Sock.C15_delivery_partial",
    "Verif.Sock.C15_all_delivered",
    "Verif.Sock.C15_no_overrun_partial",
    "Verif.Sock.C15_progress",
    "Verif.Sock.C15_overrun_violated",
    "Verif.Sock.C15_overrun_always_violated",
    "Verif.Sock.C15_empty_packet_closes_violated",
    "Verif.Sock.C15_send_frame",
    "Verif.Sock.C15_end_to_end",
    "Verif.Sock.C15_full_socket_violated"
   ],
   "note": "The code disagrees with the property: (`C15_overrun_violated`, `C15_overrun_always_violated`): after a partial read of a length the device asks for four bytes again and writes past its buffer. `C15_empty_packet_closes_violated`: a length of zero closes the connection. `C15_full_socket_violated`: when the socket is full after the length was sent, the stream loses its framing. What holds is stated by C15_delivery_partial, C15_no_overrun_partial; the comment of each says what is missing."
  },
  {
   "property": "C16",
   "status": "proved",
   "theorems": [
    "Verif.Hec.C16_remainder",
    "Verif.Hec.C16_affine",
    "Verif.Hec.C16_detects",
    "Verif.Hec.C16_detects_five",
    "Verif.Hec.C16_header_layout"
   ],
   "note": ""
  },
  {
   "property": "C17",
   "status": "partial",
   "theorems": [
    "Verif.Le.C17_sizes",
    "Verif.Le.C17_resolving_list",
    "Verif.Le.C17_resolving_entries",
    "Verif.Le.C17_periodic_advertiser_list",
    "Verif.Le.C17_filter_accept_list_partial",
    "Verif.Le.C17_filter_accept_list_violated",
    "Verif.Le.C17_failure_changes_nothing",
    "Verif.Le.C17_filter_accept_list_in_use_partial",
    "Verif.Le.C17_filter_accept_list_in_use_violated",
    "Verif.Le.C17_resolving_list_in_use",
    "Verif.Le.C17_resolving_list_sync_violated",
    "Verif.Le.C17_periodic_advertiser_list_in_use",
    "Verif.Le.C17_acceptance"
   ],
   "note": "The code disagrees with the property: (`C17_filter_accept_list_violated`): a device added twice to the filter accept list survives one Remove. `C17_filter_accept_list_in_use_violated`: the list can be cleared while an initiator with the filter policy \"accept list with decision PDUs\" is using it. `C17_resolving_list_sync_violated`: the resolving list can be cleared while resolution is enabled and a periodic sync is being created. What holds is stated by C17_filter_accept_list_partial, C17_filter_accept_list_in_use_partial; the comment of each says what is missing."
  },
  {
   "property": "C18",
   "status": "partial",
   "theorems": [
    "Verif.Le.C18_legacy_excludes_extended_partial",
    "Verif.Le.C18_extended_excludes_legacy_partial",
    "Verif.Le.C18_never_both",
    "Verif.Le.C18_reset",
    "Verif.Le.C18_unchecked_commands_violated",
    "Verif.Le.C18_failed_command_selects"
   ],
   "note": "The code disagrees with the property: (`C18_unchecked_commands_violated`): Clear Advertising Sets, Create Sync and some other extended commands do not take part in the exclusion. What holds is stated by C18_legacy_excludes_extended_partial, C18_extended_excludes_legacy_partial; the comment of each says what is missing."
  },
  {
   "property": "C19",
   "status": "proved",
   "theorems": [
    "Verif.Le.C19_sets_are_legal",
    "Verif.Le.C19_number_of_sets",
    "Verif.Le.C19_tick_never_fatal",
    "Verif.Le.C19_transmitted_data_fits"
   ],
   "note": ""
  },
  {
   "property": "C20",
   "status": "partial",
   "theorems": [
    "Verif.Le.C20_concatenation",
    "Verif.Le.C20_incomplete_never_advertised",
    "Verif.Le.C20_rejected_leave_data_partial",
    "Verif.Le.C20_rejected_data_violated",
    "Verif.Le.C20_rejected_scan_response_violated"
   ],
   "note": "The code disagrees with the property: (`C20_rejected_data_violated`, `C20_rejected_scan_response_violated`): replacing the data of an enabled set by data that does not fit one PDU is rejected with Packet Too Long, but the old data is gone. What holds is stated by C20_rejected_leave_data_partial; the comment of each says what is missing."
  },
  {
   "property": "C21",
   "status": "proved",
   "theorems": [
    "Verif.Ll.C21_extended",
    "Verif.Ll.C21_legacy",
    "Verif.Ll.C21_scan_response",
    "Verif.Ll.C21_periodic",
    "Verif.Ll.C21_periodic_delivered"
   ],
   "note": ""
  },
  {
   "property": "C22",
   "status": "partial",
   "theorems": [
    "Verif.Le.C22_create_connection_partial",
    "Verif.Le.C22_create_connection_violated",
    "Verif.Le.C22_extended_create_connection_partial",
    "Verif.Le.C22_extended_create_connection_violated",
    "Verif.Le.C22_parameters_in_use_partial",
    "Verif.Le.C22_connect_request_partial",
    "Verif.Le.C22_connect_request_violated",
    "Verif.Le.C22_parameter_reply",
    "Verif.Le.C22_connection_update_violated"
   ],
   "note": "The code disagrees with the property: (`C22_create_connection_violated`, `C22_extended_create_connection_violated`): a supervision timeout equal to the bound is accepted. `C22_connect_request_violated`: the connection request takes its timing from the 1M PHY parameters even if only another PHY was requested. `C22_connection_update_violated`: LE Connection Update is not validated. What holds is stated by C22_create_connection_partial, C22_extended_create_connection_partial, C22_parameters_in_use_partial, C22_connect_request_partial; the comment of each says what is missing."
  },
  {
   "property": "C23",
   "status": "partial",
   "theorems": [
    "Verif.Le.C23_legacy",
    "Verif.Le.C23_extended_accepted_partial",
    "Verif.Le.C23_extended_used_partial",
    "Verif.Le.C23_2m_accepted_violated",
    "Verif.Le.C23_2m_shifts_violated"
   ],
   "note": "The code disagrees with the property: (`C23_2m_accepted_violated`, `C23_2m_shifts_violated`): scanning on the 2M PHY is accepted, and shifts the parameters of the coded PHY. What holds is stated by C23_extended_accepted_partial, C23_extended_used_partial; the comment of each says what is missing."
  },
  {
   "property": "C24",
   "status": "partial",
   "theorems": [
    "Verif.Sub.C24_request_legal",
    "Verif.Sub.C24_request_rejected",
    "Verif.Sub.C24_legal_request_violated",
    "Verif.Sub.C24_default",
    "Verif.Sub.C24_default_violated",
    "Verif.Sub.C24_incoming_partial",
    "Verif.Sub.C24_accepts_illegal_violated",
    "Verif.Sub.C24_peripheral_refused_violated",
    "Verif.Sub.C24_indication_violated",
    "Verif.Sub.C24_peer_aborts_violated",
    "Verif.Sub.C24_overflow_violated",
    "Verif.Sub.C24_two_controllers",
    "Verif.Sub.C24_race_violated"
   ],
   "note": "The code disagrees with the property: (`C24_legal_request_violated`): LeSubrateRequest compares the interval (units of 1.25 ms) with the timeout (units of 10 ms) as numbers, so a legal request is refused unless its timeout is eight times what is needed. (`C24_default_violated`): LeSetDefaultSubrate checks neither the product of factor and latency nor that the continuation number is below the factor. (`C24_accepts_illegal_violated`, `C24_peripheral_refused_violated`): IncomingLlSubrateReq has its timeout check the wrong way round. It accepts requests whose timeout is too short, and refuses every request that a peripheral's own controller lets through. (`C24_indication_violated`): a peripheral takes any indication unchecked. `C24_race_violated`: between two unmodified controllers a change of the interval that overtakes a subrate request leaves an illegal timing. (`C24_peer_aborts_violated`): the role assertions and a signed overflow can be reached by a peer's PDU. What holds is stated by C24_incoming_partial; the comment of each says what is missing."
  },
  {
   "property": "C25",
   "status": "partial",
   "theorems": [
    "Verif.Iso.C25_send_partial",
    "Verif.Iso.C25_receive",
    "Verif.Iso.C25_end_to_end_partial",
    "Verif.Iso.C25_interleaved_violated",
    "Verif.Iso.C25_header_violated",
    "Verif.Iso.C25_wrong_stream_violated",
    "Verif.Iso.C25_disconnected_violated"
   ],
   "note": "The code disagrees with the property: (`C25_interleaved_violated`): one buffer assembles the SDUs of all streams, so interleaved fragments are mixed. `C25_header_violated`: every fragment is expected to start with a header, which the specification has only in first and complete ones. `C25_wrong_stream_violated`: received data is attributed by CIG and CIS identifiers alone, which two centrals can share. `C25_disconnected_violated`: data is still sent over a disconnected CIS. What holds is stated by C25_send_partial, C25_end_to_end_partial; the comment of each says what is missing."
  },
  {
   "property": "C26",
   "status": "partial",
   "theorems": [
    "Verif.Iso.C26_cis_handles",
    "Verif.Iso.C26_bis_handles",
    "Verif.Iso.C26_peer_request_partial",
    "Verif.Iso.C26_last_handle_violated",
    "Verif.Iso.C26_create_big",
    "Verif.Iso.C26_terminate_big"
   ],
   "note": "The code disagrees with the property: (`C26_last_handle_violated`): the CIS handle 0xEFE is never assigned, and one more request from a peer than there are handles aborts the controller. What holds is stated by C26_peer_request_partial; the comment of each says what is missing."
  },
  {
   "property": "C27",
   "status": "proved",
   "theorems": [
    "Verif.Iso.C27_set_cig",
    "Verif.Iso.C27_set_cig_test",
    "Verif.Iso.C27_remove_cig",
    "Verif.Iso.C27_create_locks",
    "Verif.Iso.C27_locked",
    "Verif.Iso.C27_locked_refused"
   ],
   "note": ""
  },
  {
   "property": "C28",
   "status": "partial",
   "theorems": [
    "Verif.Iso.C28_interval",
    "Verif.Iso.C28_no_fault_partial",
    "Verif.Iso.C28_overflow_violated",
    "Verif.Iso.C28_zero_violated"
   ],
   "note": "The code disagrees with the property: (`C28_overflow_violated`, `C28_zero_violated`): the choice of the ISO interval overflows for legal SDU intervals without a small common multiple, and divides by zero for a group without SDU intervals. What holds is stated by C28_no_fault_partial; the comment of each says what is missing."
  },
  {
   "property": "C29",
   "status": "partial",
   "theorems": [
    "Verif.Iso.C29_no_spurious",
    "Verif.Iso.C29_answered_partial",
    "Verif.Iso.C29_exactly_one_partial",
    "Verif.Iso.C29_in_order",
    "Verif.Iso.C29_one_at_a_time_partial",
    "Verif.Iso.C29_progress_partial",
    "Verif.Iso.C29_answer_starts_next",
    "Verif.Iso.C29_stuck_violated",
    "Verif.Iso.C29_one_at_a_time_violated",
    "Verif.Iso.C29_remove_queued_violated"
   ],
   "note": "The code disagrees with the property: (`C29_stuck_violated`): when a CIS that waits for its peer is disconnected, the rest of the LE Create CIS command is never started. `C29_one_at_a_time_violated`: a second LE Create CIS command is accepted while the first is under way. `C29_remove_queued_violated`: a CIG with a queued CIS can be removed, and the controller aborts later. What holds is stated by C29_answered_partial, C29_exactly_one_partial, C29_one_at_a_time_partial, C29_progress_partial; the comment of each says what is missing."
  },
  {
   "property": "C30",
   "status": "partial",
   "theorems": [
    "Verif.Iso.C30_central_partial",
    "Verif.Iso.C30_peripheral_partial",
    "Verif.Iso.C30_agree_partial",
    "Verif.Iso.C30_directions_violated",
    "Verif.Iso.C30_wrong_cis_violated"
   ],
   "note": "The code disagrees with the property: (`C30_directions_violated`): the peripheral's event has the burst numbers, flush timeouts and PDU sizes of the other direction. `C30_wrong_cis_violated`: with two requests under way, an answer can be taken for the wrong one. What holds is stated by C30_central_partial, C30_peripheral_partial, C30_agree_partial; the comment of each says what is missing."
  },
  {
   "property": "C31",
   "status": "partial",
   "theorems": [
    "Verif.Mask.C31_event",
    "Verif.Mask.C31_le_event",
    "Verif.Mask.C31_commands",
    "Verif.Mask.C31_sites_partial",
    "Verif.Mask.C31_one_bit",
    "Verif.Mask.C31_clear_one",
    "Verif.Mask.C31_connection_complete",
    "Verif.Mask.C31_unchecked_violated",
    "Verif.Mask.C31_unchecked_events_violated",
    "Verif.Mask.C31_page_2_violated"
   ],
   "note": "The code disagrees with the property: (`C31_unchecked_violated`): 57 of 139 places that send an event ignore the masks or test only the LE Meta bit, among them every event of the Rust link manager and isochronous manager. `C31_page_2_violated`: the second page is read one bit too low, so Encryption Change version 2 follows bit 24 instead of bit 25. What holds is stated by C31_sites_partial; the comment of each says what is missing."
  },
  {
   "property": "C32",
   "status": "proved",
   "theorems": [
    "Verif.Ll.C32_well_formed",
    "Verif.Ll.C32_all_random_parts",
    "Verif.Ll.C32_recognised_iff",
    "Verif.Ll.C32_resolution",
    "Verif.Ll.C32_peer_recognised",
    "Verif.Ll.C32_two_controllers",
    "Verif.Ll.C32_target_accepted",
    "Verif.Ll.C32_target_only",
    "Verif.Ll.C32_addresses_read"
   ],
   "note": ""
  },
  {
   "property": "C33",
   "status": "partial",
   "theorems": [
    "Verif.Ec.C33_generate_p192",
    "Verif.Ec.C33_generate_p256",
    "Verif.Ec.C33_derive_p192",
    "Verif.Ec.C33_derive_p256",
    "Verif.Ec.C33_shared_p192_partial",
    "Verif.Ec.C33_shared_p256_partial",
    "Verif.Ec.C33_same_key_violated",
    "Verif.Ec.C33_sign_violated",
    "Verif.Ec.C33_generate_violated"
   ],
   "note": "The code disagrees with the property: (`C33_same_key_violated`): `to_bytes` writes coordinates with `to_signed_bytes_le` cut to the key size, and `to_point` reads them as signed numbers. A coordinate with the top bit set is read back 2^256 too small, so the two devices of the private keys 2 and 3 compute different shared keys. Only about one public key in four survives. (`C33_sign_violated`): `%` truncates, so a coordinate can be computed as x \u2212 p. Two devices that compute the same point can therefore hold different octets. (`C33_generate_violated`): the random octets of \u22122^191 (\u22122^255) make key generation panic. What holds is stated by C33_shared_p192_partial, C33_shared_p256_partial; the comment of each says what is missing."
  },
  {
   "property": "C34",
   "status": "partial",
   "theorems": [
    "Verif.Lmp.C34_simple_pairing_partial",
    "Verif.Lmp.C34_stored_key",
    "Verif.Lmp.C34_initiator_refuses",
    "Verif.Lmp.C34_legacy_partial",
    "Verif.Lmp.C34_hangs_violated",
    "Verif.Lmp.C34_concludes_iff",
    "Verif.Lmp.C34_agreement_partial"
   ],
   "note": "The code disagrees with the property: (`C34_hangs_violated`): with these answers an authentication never ends, on any fair schedule: a negative PIN reply (no procedure takes that command), a negative IO capability reply of the responder (the initiator waits for LMP_io_capability_res only), a negative reply of the initiator's host to the request for out-of-band data (the responder is not told), a negative passkey reply when both users type the passkey. `C34_concludes_iff` shows that there are no others. A negative reply of the responder's host to the request for out-of-band data is ignored. What holds is stated by C34_simple_pairing_partial, C34_legacy_partial, C34_agreement_partial; the comment of each says what is missing."
  },
  {
   "property": "C35",
   "status": "partial",
   "theorems": [
    "Verif.Lmp.C35_answered_once",
    "Verif.Lmp.C35_answered_by_removal_partial",
    "Verif.Lmp.C35_no_abort_partial",
    "Verif.Lmp.C35_empty_address_violated",
    "Verif.Lmp.C35_command_aborts_violated",
    "Verif.Lmp.C35_packet_aborts_violated",
    "Verif.Lmp.C35_eighth_link_violated"
   ],
   "note": "The code disagrees with the property: (`C35_empty_address_violated`): a command about the address 00:00:00:00:00:00 is stored in an unused link and never answered; a second one aborts the process. `C35_command_aborts_violated`, `C35_packet_aborts_violated`, `C35_eighth_link_violated`: commands, packets and links that abort it. What holds is stated by C35_answered_by_removal_partial, C35_no_abort_partial; the comment of each says what is missing."
  },
  {
   "property": "C36",
   "status": "partial",
   "theorems": [
    "Verif.Ll.C36_completed_partial",
    "Verif.Ll.C36_response_completes",
    "Verif.Ll.C36_after_cancel_violated",
    "Verif.Ll.C36_other_device_violated",
    "Verif.Ll.C36_other_initiator_violated",
    "Verif.Ll.C36_no_attempt_violated"
   ],
   "note": "The code disagrees with the property: a response to a connect request is dropped only if *both* its advertiser and its initiator are unexpected (`&&` for `||`), so a response of another device (`C36_other_device_violated`) or to another initiator (`C36_other_initiator_violated`) creates a connection. LE Create Connection Cancel does not forget the request (`C36_after_cancel_violated`), and without any attempt a response to the empty address is accepted (`C36_no_attempt_violated`). What holds is stated by C36_completed_partial; the comment of each says what is missing."
  },
  {
   "property": "C37",
   "status": "proved",
   "theorems": [
    "Verif.Ll.C37_unknown_ignored",
    "Verif.Ll.C37_known_processed",
    "Verif.Ll.C37_handles_unique",
    "Verif.Ll.C37_connections_reported"
   ],
   "note": ""
  },
  {
   "property": "C38",
   "status": "partial",
   "theorems": [
    "Verif.Task.C38_never_early",
    "Verif.Task.C38_in_order",
    "Verif.Task.C38_at_most_once",
    "Verif.Task.C38_request",
    "Verif.Task.C38_exactly_once",
    "Verif.Task.C38_cancel_is_final_partial",
    "Verif.Task.C38_cancel_running_violated"
   ],
   "note": "The code disagrees with the property: (`C38_cancel_running_violated`): a periodic task that is cancelled while its callback runs is inserted again when the callback returns, and runs again. Two further limits of the queue: a period of zero keeps the loop of one tick running for ever, and once the 32-bit identifiers have wrapped around, a new task can get the identifier of a periodic task whose callback is running. What holds is stated by C38_cancel_is_final_partial; the comment of each says what is missing."
  },
  {
   "property": "C39",
   "status": "partial",
   "theorems": [
    "Verif.Ll.C39_handles_unique",
    "Verif.Ll.C39_established",
    "Verif.Ll.C39_asked",
    "Verif.Ll.C39_one_per_advertiser_partial",
    "Verif.Ll.C39_duplicate_violated",
    "Verif.Ll.C39_handles_exhausted_violated"
   ],
   "note": "The code disagrees with the property: (`C39_duplicate_violated`): Create Sync with the periodic advertiser list does not look at the synchronizations that exist, so a second one to the same advertiser can be established. `C39_handles_exhausted_violated`: with 0xEFF synchronizations the search for a free handle does not end. What holds is stated by C39_one_per_advertiser_partial; the comment of each says what is missing."
  },
  {
   "property": "C40",
   "status": "partial",
   "theorems": [
    "Verif.Cs.C40_classification",
    "Verif.Cs.C40_create_partial",
    "Verif.Cs.C40_create_refused",
    "Verif.Cs.C40_channel_79_violated",
    "Verif.Cs.C40_peer_configuration_violated",
    "Verif.Cs.C40_peer_map_violated",
    "Verif.Cs.C40_two_controllers_partial",
    "Verif.Cs.C40_two_controllers"
   ],
   "note": "The code disagrees with the property: (`C40_channel_79_violated`): the mask of LeCsCreateConfig ends with channel 78 (0x60 for 0xE0). `C40_peer_configuration_violated`, `C40_peer_map_violated`: the maps a peer sends are not looked at. What holds is stated by C40_create_partial, C40_two_controllers_partial; the comment of each says what is missing."
  },
  {
   "property": "C41",
   "status": "partial",
   "theorems": [
    "Verif.Cs.C41_commands",
    "Verif.Cs.C41_abort_iff",
    "Verif.Cs.C41_no_abort_partial",
    "Verif.Cs.C41_peripheral_aborts_violated",
    "Verif.Cs.C41_central_aborts_violated",
    "Verif.Cs.C41_response_aborts_violated",
    "Verif.Cs.C41_remove_local",
    "Verif.Cs.C41_remove_violated",
    "Verif.Cs.C41_remove_run_violated",
    "Verif.Cs.C41_remove_partial",
    "Verif.Cs.C41_terminate_violated",
    "Verif.Cs.C41_disable_violated",
    "Verif.Cs.C41_flag_violated"
   ],
   "note": "The code disagrees with the property: (`C41_abort_iff` and the theorems after it): `procedure_parameters.value()` throws for a configuration whose parameters were never set. This happens between two unmodified controllers: to a peripheral whose host set no parameters, and to a central whose request the peer refuses. (`C41_remove_violated`): the PDU of LeCsRemoveConfig is checked like a creation and refused by every peer. `C41_terminate_violated`, `C41_disable_violated`, `C41_flag_violated`: a procedure that is enabled is never disabled. What holds is stated by C41_no_abort_partial, C41_remove_partial; the comment of each says what is missing."
  },
  {
   "property": "C42",
   "status": "partial",
   "theorems": [
    "Verif.Test.C42_command",
    "Verif.Test.C42_commands",
    "Verif.Test.C42_close",
    "Verif.Test.C42_split_violated",
    "Verif.Test.C42_response",
    "Verif.Test.C42_response_whole"
   ],
   "note": "The code disagrees with the property: (`C42_split_violated`): a test channel command that arrives in two pieces is misread, since short reads are only logged. The other theorems state what holds."
  },
  {
   "property": "C43",
   "status": "partial",
   "theorems": [
    "Verif.Le.C43_answered_partial",
    "Verif.Le.C43_handle_255_violated",
    "Verif.Le.C43_indices"
   ],
   "note": "The code disagrees with the property: (`C43_handle_255_violated`): LE Set Extended Advertising Enable with handle 0xFF reads past an array. What holds is stated by C43_answered_partial; the comment of each says what is missing."
  },
  {
   "property": "C44",
   "status": "partial",
   "theorems": [
    "Verif.Le.C44_rejected_partial",
    "Verif.Le.C44_advertising_enable_partial",
    "Verif.Le.C44_advertising_enable_violated",
    "Verif.Le.C44_data_partial",
    "Verif.Le.C44_extended_enable_partial",
    "Verif.Le.C44_extended_enable_violated"
   ],
   "note": "The code disagrees with the property: (`C44_advertising_enable_violated`, `C44_extended_enable_violated`): rejected enable commands have generated new private addresses, and a running set starts to use one. The data commands: see C20. What holds is stated by C44_rejected_partial, C44_advertising_enable_partial, C44_data_partial, C44_extended_enable_partial; the comment of each says what is missing."
  },
  {
   "property": "C45",
   "status": "partial",
   "theorems": [
    "Verif.Iso.C45_commands",
    "Verif.Iso.C45_pdus_partial",
    "Verif.Iso.C45_large_sdu_violated",
    "Verif.Iso.C45_no_data_violated",
    "Verif.Iso.C45_interval_violated",
    "Verif.Iso.C45_undecodable_violated",
    "Verif.Iso.C45_disconnect_reason_violated",
    "Verif.Iso.C45_phy_violated",
    "Verif.Iso.C45_latency_violated"
   ],
   "note": "The code disagrees with the property: legal commands that abort the controller (`C45_large_sdu_violated`, `C45_no_data_violated`, `C45_interval_violated`), undecodable commands and unexpected PDUs (`C45_undecodable_violated`), and peers that do it (`C45_disconnect_reason_violated`, `C45_phy_violated`, `C45_latency_violated`). What holds is stated by C45_pdus_partial; the comment of each says what is missing."
  },
  {
   "property": "C46",
   "status": "proved",
   "theorems": [
    "Verif.Le.C46_limited_set",
    "Verif.Le.C46_duration",
    "Verif.Le.C46_max_events"
   ],
   "note": ""
  },
  {
   "property": "C47",
   "status": "partial",
   "theorems": [
    "Verif.Test.C47_operation",
    "Verif.Test.C47_add",
    "Verif.Test.C47_add_interval",
    "Verif.Test.C47_add_remote",
    "Verif.Test.C47_unknown",
    "Verif.Test.C47_answered_partial",
    "Verif.Test.C47_crash_violated",
    "Verif.Test.C47_interval_range_partial",
    "Verif.Test.C47_configuration",
    "Verif.Test.C47_reset",
    "Verif.Test.C47_period_violated",
    "Verif.Test.C47_silent_violated",
    "Verif.Test.C47_other_device_violated",
    "Verif.Test.C47_consistent",
    "Verif.Test.C47_client_gone_violated",
    "Verif.Test.C47_short_write_violated"
   ],
   "note": "The code disagrees with the property: (`C47_crash_violated`): `del`, `del_phy` and `set_timer_period` without arguments read past an empty vector, and a beacon interval that is not a number ends the process. `C47_silent_violated`: `list` with arguments is not answered. `C47_other_device_violated`: a text that is not a number stands for device 0, and identifiers are taken modulo 2^32. `C47_client_gone_violated`: the process aborts if the client is gone when a response is written. (`C47_period_violated`, `C47_short_write_violated`): a number that does not fit is not refused by `set_timer_period`, the period becomes -1 ms. If the socket takes only a part of a response the process aborts. What holds is stated by C47_answered_partial, C47_interval_range_partial; the comment of each says what is missing."
  },
  {
   "property": "C48",
   "status": "partial",
   "theorems": [
    "Verif.Test.C48_timer_partial",
    "Verif.Test.C48_started_twice_violated"
   ],
   "note": "The code disagrees with the property: (`C48_started_twice_violated`): a timer started twice cannot be stopped any more. What holds is stated by C48_timer_partial; the comment of each says what is missing."
  },
  {
   "property": "C49",
   "status": "proved",
   "theorems": [
    "Verif.Ll.C49_extended",
    "Verif.Ll.C49_legacy"
   ],
   "note": ""
  },
  {
   "property": "C50",
   "status": "proved",
   "theorems": [
    "Verif.Ll.C50_no_duplicates",
    "Verif.Ll.C50_first_not_suppressed"
   ],
   "note": ""
  },
  {
   "property": "C51",
   "status": "proved",
   "theorems": [
    "Verif.Ll.C51_extended",
    "Verif.Ll.C51_legacy",
    "Verif.Ll.C51_total"
   ],
   "note": ""
  },
  {
   "property": "C52",
   "status": "partial",
   "theorems": [
    "Verif.Ll.C52_bounded",
    "Verif.Ll.C52_response_partial",
    "Verif.Ll.C52_other_scanner_violated"
   ],
   "note": "The code disagrees with the property: (`C52_other_scanner_violated`): the destination of a scan response is not looked at. What holds is stated by C52_response_partial; the comment of each says what is missing."
  },
  {
   "property": "C53",
   "status": "partial",
   "theorems": [
    "Verif.Ll.C53_legacy_partial",
    "Verif.Ll.C53_extended_partial",
    "Verif.Ll.C53_no_address_violated",
    "Verif.Ll.C53_parameters_violated"
   ],
   "note": "The code disagrees with the property: (`C53_no_address_violated`): creating a connection with the filter accept list and the own address type \"resolvable or random\" does not check that a random address is set; the PDU of a listed device then aborts the controller. `C53_parameters_violated`: the request always has the parameters of the LE 1M PHY, even if it is not used. What holds is stated by C53_legacy_partial, C53_extended_partial; the comment of each says what is missing."
  },
  {
   "property": "C54",
   "status": "partial",
   "theorems": [
    "Verif.Ll.C54_accepts",
    "Verif.Ll.C54_accepted",
    "Verif.Ll.C54_mirrored",
    "Verif.Ll.C54_data_partial",
    "Verif.Ll.C54_second_connection_violated"
   ],
   "note": "The code disagrees with the property: (`C54_second_connection_violated`): a second connection to a connected device is created instead of the error Connection Already Exists. What holds is stated by C54_data_partial; the comment of each says what is missing."
  },
  {
   "property": "C55",
   "status": "partial",
   "theorems": [
    "Verif.Ll.C55_single",
    "Verif.Ll.C55_continuous",
    "Verif.Ll.C55_duration",
    "Verif.Ll.C55_periodic_violated"
   ],
   "note": "The code disagrees with the property: (`C55_periodic_violated`): a periodic scan goes on reporting between the end of the duration and the end of the period. The other theorems state what holds."
  },
  {
   "property": "C56",
   "status": "partial",
   "theorems": [
    "Verif.Ec.C56_valid_p192_partial",
    "Verif.Ec.C56_valid_p256_partial",
    "Verif.Ec.C56_public_key_violated"
   ],
   "note": "The code disagrees with the property: (`C56_public_key_violated`): the peer's public key is not checked to be on the curve. A second coordinate of zero makes every even private key reach the point at infinity, and `to_bytes().unwrap()` panics. What holds is stated by C56_valid_p192_partial, C56_valid_p256_partial; the comment of each says what is missing."
  },
  {
   "property": "C57",
   "status": "partial",
   "theorems": [
    "Verif.Lmp.C57_encryption_partial",
    "Verif.Lmp.C57_both_hosts_violated"
   ],
   "note": "The code disagrees with the property: (`C57_both_hosts_violated`): a procedure takes any LMP_features_res_ext, whatever page it is about. When both hosts ask for encryption at once, both are told E0 although both devices support AES-CCM. What holds is stated by C57_encryption_partial; the comment of each says what is missing."
  },
  {
   "property": "C58",
   "status": "partial",
   "theorems": [
    "Verif.Lmp.C58_stored_keys_partial",
    "Verif.Lmp.C58_both_pair_violated"
   ],
   "note": "The code disagrees with the property: (`C58_both_pair_violated`): when both hosts ask for authentication at once and there are no keys, both devices wait for good. What holds is stated by C58_stored_keys_partial; the comment of each says what is missing."
  },
  {
   "property": "C59",
   "status": "partial",
   "theorems": [
    "Verif.Sub.C59_agreement_partial",
    "Verif.Sub.C59_legal_partial",
    "Verif.Sub.C59_connection_update_violated",
    "Verif.Sub.C59_peripheral_reply_violated",
    "Verif.Sub.C59_refusal_violated",
    "Verif.Sub.C59_reply_legal",
    "Verif.Sub.C59_request_answered",
    "Verif.Sub.C59_reply_accepted"
   ],
   "note": "The code disagrees with the property: (`C59_connection_update_violated`): LE Connection Update at a central is neither validated nor applied to its own parameters; only the peripheral changes. `C59_peripheral_reply_violated`: a peripheral may reply to a request nobody made. `C59_refusal_violated`: a negative reply with reason 0 sets all parameters to zero. What holds is stated by C59_agreement_partial, C59_legal_partial; the comment of each says what is missing."
  },
  {
   "property": "C60",
   "status": "partial",
   "theorems": [
    "Verif.Cs.C60_created_partial",
    "Verif.Cs.C60_agreed_iff",
    "Verif.Cs.C60_main_mode_violated",
    "Verif.Cs.C60_role_violated",
    "Verif.Cs.C60_stale_violated",
    "Verif.Cs.C60_unsupported_violated",
    "Verif.Cs.C60_event_violated",
    "Verif.Cs.C60_capabilities",
    "Verif.Cs.C60_roles"
   ],
   "note": "The code disagrees with the property: (`C60_main_mode_violated`): the main mode of a peer's configuration is compared with the bits of the supported modes, so main modes 2 and 3 are always refused. `C60_role_violated`: the role is compared with the bits of the supported roles, so a device with one role refuses its counterpart. `C60_stale_violated`: a refused change leaves the old configuration with the peer only. `C60_unsupported_violated`: a peer without host support names configuration 0 in its refusal. `C60_event_violated`: two arguments of the event are exchanged. What holds is stated by C60_created_partial; the comment of each says what is missing."
  },
  {
   "property": "C61",
   "status": "partial",
   "theorems": [
    "Verif.Cs.C61_parameters",
    "Verif.Cs.C61_agrees_partial",
    "Verif.Cs.C61_refused_violated",
    "Verif.Cs.C61_refused_run_violated",
    "Verif.Cs.C61_indication_violated",
    "Verif.Cs.C61_key_encrypted"
   ],
   "note": "The code disagrees with the property: (`C61_refused_violated`): the central ignores the status of the peer's answer. `C61_indication_violated`: the peripheral checks nothing. What holds is stated by C61_agrees_partial; the comment of each says what is missing."
  },
  {
   "property": "C62",
   "status": "partial",
   "theorems": [
    "Verif.Br.C62_exactly_once",
    "Verif.Br.C62_timeout",
    "Verif.Br.C62_not_early",
    "Verif.Br.C62_short_timeout_violated",
    "Verif.Br.C62_reason_violated"
   ],
   "note": "The code disagrees with the property: (`C62_short_timeout_violated`): the first page is sent one second after Create Connection; with a page timeout up to one second (1600 slots) the device is never paged. `C62_reason_violated`: a page rejection with reason 0 is reported as a successful connection. The page timeout event ignores the event mask. The other theorems state what holds."
  },
  {
   "property": "C63",
   "status": "partial",
   "theorems": [
    "Verif.Br.C63_request",
    "Verif.Br.C63_accept",
    "Verif.Br.C63_one_at_a_time",
    "Verif.Br.C63_reject_violated",
    "Verif.Br.C63_reject_create_violated",
    "Verif.Br.C63_accept_collision_violated"
   ],
   "note": "The code disagrees with the property: (`C63_reject_violated`, `C63_reject_create_violated`): RejectConnectionRequest does not clear the page scan state. After a rejection no device can connect any more until Reset, and the host cannot connect to the rejected device. `C63_accept_collision_violated`: the same after accepting a request of a device that has been connected meanwhile. The other theorems state what holds."
  },
  {
   "property": "C64",
   "status": "partial",
   "theorems": [
    "Verif.Br.C64_agree_partial",
    "Verif.Br.C64_cancel_violated",
    "Verif.Br.C64_timeout_violated",
    "Verif.Br.C64_reject_violated",
    "Verif.Br.C64_crossing_violated",
    "Verif.Br.C64_empty_address_violated",
    "Verif.Br.C64_stale_page_violated",
    "Verif.Br.C64_ping_violated",
    "Verif.Br.C64_connects",
    "Verif.Br.C64_switch",
    "Verif.Br.C64_switch_same"
   ],
   "note": "The code disagrees with the property: (`C64_cancel_violated`, `C64_timeout_violated`, `C64_reject_violated`): an attempt that was cancelled, timed out or rejected can still be accepted by the other host, which then is connected alone. `C64_crossing_violated`: of two devices that page each other and accept, both are the peripheral. `C64_empty_address_violated`: every scanning device takes a page to the empty address. `C64_stale_page_violated`: pages are repeated until the answer arrives, and the last one may be accepted after the connection has ended. `C64_ping_violated`: pings are answered without a connection, so such a one-sided connection never expires. What holds is stated by C64_agree_partial; the comment of each says what is missing."
  },
  {
   "property": "C65",
   "status": "partial",
   "theorems": [
    "Verif.Br.C65_failures",
    "Verif.Br.C65_no_failure_partial",
    "Verif.Br.C65_two_syncs_violated",
    "Verif.Br.C65_peer_disconnects_violated",
    "Verif.Br.C65_eighth_violated",
    "Verif.Br.C65_second_answer_violated",
    "Verif.Br.C65_malformed_violated",
    "Verif.Br.C65_features_violated"
   ],
   "note": "The code disagrees with the property: (`C65_failures` lists all of them): a second synchronous connection makes Disconnect abort (`C65_two_syncs_violated`); a peer's Disconnect aborts if there is a synchronous connection (`C65_peer_disconnects_violated`); the eighth connection aborts (`C65_eighth_violated`); a second answer for a synchronous connection with a stream aborts (`C65_second_answer_violated`); malformed LMP aborts (`C65_malformed_violated`); a features page above 2 reads outside the array (`C65_features_violated`). What holds is stated by C65_no_failure_partial; the comment of each says what is missing."
  },
  {
   "property": "C66",
   "status": "partial",
   "theorems": [
    "Verif.Br.C66_outcome_partial",
    "Verif.Br.C66_rejected",
    "Verif.Br.C66_data_and_end",
    "Verif.Br.C66_lengths_violated",
    "Verif.Br.C66_own_request_violated",
    "Verif.Br.C66_stranger_violated",
    "Verif.Br.C66_kind_violated"
   ],
   "note": "The code disagrees with the property: (`C66_lengths_violated`): the packet lengths of the link parameters are sent unchanged, so the accepting host is told that it sends what the other sends. `C66_own_request_violated`: a host may accept its own request. `C66_stranger_violated`: a request does not need a connection. `C66_kind_violated`: the link type of a failure is looked up after the connection was erased. What holds is stated by C66_outcome_partial; the comment of each says what is missing."
  },
  {
   "property": "C67",
   "status": "partial",
   "theorems": [
    "Verif.Br.C67_history",
    "Verif.Br.C67_found_partial",
    "Verif.Br.C67_limit_violated",
    "Verif.Br.C67_unasked_violated",
    "Verif.Br.C67_mask_violated",
    "Verif.Br.C67_short_violated"
   ],
   "note": "The code disagrees with the property: (`C67_limit_violated`): `num_responses` is stored and never used. `C67_unasked_violated`: results are reported without an inquiry. `C67_mask_violated`: extended results ignore the event mask. `C67_short_violated`: the first inquiry is sent after two seconds; an inquiry of length 1 (1.28 s) is over before. What holds is stated by C67_found_partial; the comment of each says what is missing."
  },
  {
   "property": "C68",
   "status": "proved",
   "theorems": [
    "Verif.Br.C68_in_order",
    "Verif.Br.C68_in_order_back",
    "Verif.Br.C68_acknowledged"
   ],
   "note": ""
  },
  {
   "property": "C69",
   "status": "partial",
   "theorems": [
    "Verif.Br.C69_features_version_partial",
    "Verif.Br.C69_name",
    "Verif.Br.C69_subversion_violated",
    "Verif.Br.C69_absent_violated"
   ],
   "note": "The code disagrees with the property: (`C69_subversion_violated`): the LMP subversion has 16 bits in the device and 8 in the packet. `C69_absent_violated`: the name request of a device that is not there is accepted and never answered. What holds is stated by C69_features_version_partial; the comment of each says what is missing."
  },
  {
   "property": "C70",
   "status": "partial",
   "theorems": [
    "Verif.Hci.C70_answered_partial",
    "Verif.Hci.C70_total",
    "Verif.Hci.C70_malformed_partial",
    "Verif.Hci.C70_contactCounter_violated",
    "Verif.Hci.C70_eventFilter_violated",
    "Verif.Hci.C70_oob_violated",
    "Verif.Hci.C70_csr_violated",
    "Verif.Hci.C70_csrShort_violated",
    "Verif.Hci.C70_csrUnsupported",
    "Verif.Hci.C70_malformed_violated"
   ],
   "note": "The code disagrees with the property: of the handlers seven break the rule (`unruly`). `C70_contactCounter_violated`: Reset Failed Contact Counter creates the view of Read Failed Contact Counter, so it is always refused as malformed. `C70_eventFilter_violated`: Set Event Filter stops the controller for any filter other than \"clear\". `C70_oob_violated`: the link manager does not know Remote OOB Extended Data Request Reply and the assertion fails. `C70_csr_violated`, `C70_csrShort_violated`: the CSR command is answered with a vendor event, and writes outside its parameters if there are fewer than three. The two Intel commands assert the size of their parameters; an unknown APCF part is answered and then reported as invalid. Malformed commands of pairing and isochronous channels stop the controller (`C70_malformed_violated`). What holds is stated by C70_answered_partial, C70_malformed_partial; the comment of each says what is missing."
  },
  {
   "property": "C71",
   "status": "partial",
   "theorems": [
    "Verif.Hci.C71_bits",
    "Verif.Hci.C71_declared",
    "Verif.Hci.C71_usable",
    "Verif.Hci.C71_unused",
    "Verif.Hci.C71_implemented_partial",
    "Verif.Hci.C71_hollow",
    "Verif.Hci.C71_default_violated",
    "Verif.Hci.C71_lenient"
   ],
   "note": "The code disagrees with the property: (`C71_default_violated`): the default controller claims 33 commands it does not implement, among them Flush and Host Number Of Completed Packets; being strict, it stops when one arrives. The other presets claim 39, 50 and 58. (unused): Set Min Encryption Key Size, LE Create BIG and LE Terminate BIG are implemented, but their bits are not among the supported commands of a default controller, so they are answered as unknown commands: `C71_unused`. What holds is stated by C71_implemented_partial; the comment of each says what is missing."
  },
  {
   "property": "C72",
   "status": "partial",
   "theorems": [
    "Verif.Hci.C72_feature_partial",
    "Verif.Hci.C72_other_partial",
    "Verif.Hci.C72_shared_violated"
   ],
   "note": "The code disagrees with the property: (`C72_shared_violated`): two commands are in the lists of several features; the last one decides. What holds is stated by C72_feature_partial, C72_other_partial; the comment of each says what is missing."
  },
  {
   "property": "C73",
   "status": "partial",
   "theorems": [
    "Verif.Hci.C73_reset",
    "Verif.Hci.C73_loopback",
    "Verif.Hci.C73_echo",
    "Verif.Hci.C73_quirk",
    "Verif.Hci.C73_leave_violated"
   ],
   "note": "The code disagrees with the property: (`C73_leave_violated`): leaving the loopback mode sends Connection Complete events. The other theorems state what holds."
  },
  {
   "property": "C74",
   "status": "partial",
   "theorems": [
    "Verif.Link.C74_known",
    "Verif.Link.C74_agree_partial",
    "Verif.Link.C74_asked_once",
    "Verif.Link.C74_told_once",
    "Verif.Link.C74_same_key",
    "Verif.Link.C74_procedure",
    "Verif.Link.C74_no_key",
    "Verif.Link.C74_wrong_key_violated",
    "Verif.Link.C74_unknown",
    "Verif.Link.C74_unasked_violated",
    "Verif.Link.C74_role_violated",
    "Verif.Link.C74_overlap_violated"
   ],
   "note": "The code disagrees with the property: (`C74_wrong_key_violated`): after a wrong key the peripheral's end is encrypted and its host is told so; the central only reports the failure. `C74_unasked_violated`: a reply nobody has asked for is taken. `C74_role_violated`: the peripheral may enable encryption. `C74_overlap_violated`: a second Enable Encryption replaces the key of the first. What holds is stated by C74_agree_partial; the comment of each says what is missing."
  },
  {
   "property": "C75",
   "status": "partial",
   "theorems": [
    "Verif.Link.C75_agree",
    "Verif.Link.C75_no_abort",
    "Verif.Link.C75_known",
    "Verif.Link.C75_answered",
    "Verif.Link.C75_peripheral",
    "Verif.Link.C75_choice_central",
    "Verif.Link.C75_choice_peripheral",
    "Verif.Link.C75_accept",
    "Verif.Link.C75_default",
    "Verif.Link.C75_each_violated",
    "Verif.Link.C75_other_connection_violated"
   ],
   "note": "The code disagrees with the property: (`C75_each_violated`): two Set PHY commands of the peripheral can lead to one event, since only a flag remembers them. `C75_other_connection_violated`: the requested PHYs are kept once per controller, so a request for one connection changes what another one gets. The other theorems state what holds."
  },
  {
   "property": "C76",
   "status": "partial",
   "theorems": [
    "Verif.Link.C76_data",
    "Verif.Link.C76_no_abort",
    "Verif.Link.C76_broadcast_violated"
   ],
   "note": "The code disagrees with the property: (`C76_broadcast_violated`): data with a broadcast flag makes the controller abort. The other theorems state what holds."
  },
  {
   "property": "C77",
   "status": "partial",
   "theorems": [
    "Verif.Link.C77_features",
    "Verif.Link.C77_version_partial",
    "Verif.Link.C77_subversion_violated"
   ],
   "note": "The code disagrees with the property: (`C77_subversion_violated`): the subversion has 16 bits in the device and 8 in the packet. What holds is stated by C77_version_partial; the comment of each says what is missing."
  },
  {
   "property": "C78",
   "status": "partial",
   "theorems": [
    "Verif.Apcf.C78_filters",
    "Verif.Apcf.C78_short_violated",
    "Verif.Apcf.C78_short"
   ],
   "note": "The code disagrees with the property: (`C78_short_violated`): a Set Filtering Parameters or Broadcaster Address command that is too short makes the controller abort: the view that is checked is the outer one. Apart from the property: the scanner never looks at the filters, so they have no effect on the reports. The other theorems state what holds."
  },
  {
   "property": "C79",
   "status": "partial",
   "theorems": [
    "Verif.Reg.C79_parameters_partial",
    "Verif.Reg.C79_new_partial",
    "Verif.Reg.C79_constant_violated",
    "Verif.Reg.C79_iac_violated",
    "Verif.Reg.C79_sounding_violated",
    "Verif.Reg.C79_page_violated"
   ],
   "note": "The code disagrees with the property: (`C79_constant_violated`): inquiry mode, page scan type, inquiry scan type and the activities of page scan and inquiry scan are read as constants, whatever is written. `C79_iac_violated`: before the first Reset no inquiry access code is set. `C79_sounding_violated`: Reset takes the channel sounding feature of the host away, but the commands are still allowed. `C79_page_violated`: Read Local Extended Features reads outside of an array for pages above 2. What holds is stated by C79_parameters_partial, C79_new_partial; the comment of each says what is missing."
  },
  {
   "property": "C80",
   "status": "proved",
   "theorems": [
    "Verif.Pdl.C80_read",
    "Verif.Pdl.C80_injective",
    "Verif.Pdl.C80_octets",
    "Verif.Pdl.C80_again",
    "Verif.Pdl.C80_exact",
    "Verif.Pdl.C80_fixed"
   ],
   "note": ""
  },
  {
   "property": "C81",
   "status": "partial",
   "theorems": [
    "Verif.Pdl.C81_apart_partial",
    "Verif.Pdl.C81_apart_violated"
   ],
   "note": "The code disagrees with the property: (`C81_apart_violated`): LeSetExtendedAdvertisingEnableDisableAll and LeSetExtendedAdvertisingEnable accept the same command, and DM1AclPacket and FHSAclPacket have the same conditions. Apart from the property: the events Create BIG Complete and BIG Sync Established count octets where the specification counts streams; RejectInd has an error code of 16 bits (specification: 8) and EncReq an initialization vector of 16 bits (32); one test of hci_packets.pdl is about a packet that has been renamed. What holds is stated by C81_apart_partial; the comment of each says what is missing."
  },
  {
   "property": "C82",
   "status": "partial",
   "theorems": [
    "Verif.Port.C82_received",
    "Verif.Port.C82_received_all",
    "Verif.Port.C82_sent",
    "Verif.Port.C82_host",
    "Verif.Port.C82_closed",
    "Verif.Port.C82_end",
    "Verif.Port.C82_removed",
    "Verif.Port.C82_survives_partial",
    "Verif.Port.C82_event_violated",
    "Verif.Port.C82_full_violated",
    "Verif.Port.C82_iso_violated"
   ],
   "note": "The code disagrees with the property: (`C82_event_violated`, `C82_full_violated`, `C82_iso_violated`): an HCI event written by a host ends the process, as do read errors other than EAGAIN and ECONNRESET; a write that the socket takes only in part loses the rest, and the host then reads packets that were never sent; the lengths of ISO packets are read with 12 of their 14 bits. What holds is stated by C82_survives_partial; the comment of each says what is missing."
  },
  {
   "property": "C83",
   "status": "partial",
   "theorems": [
    "Verif.Port.C83_trace_partial",
    "Verif.Port.C83_time_violated",
    "Verif.Port.C83_filter_violated",
    "Verif.Port.C83_dropped_violated"
   ],
   "note": "The code disagrees with the property: (`C83_time_violated`, `C83_filter_violated`, `C83_dropped_violated`): the field for microseconds holds milliseconds; `HciSniffer::Create` does not pass on its filter; packets that are dropped because the socket is closed are recorded as sent. What holds is stated by C83_trace_partial; the comment of each says what is missing."
  },
  {
   "property": "C84",
   "status": "partial",
   "theorems": [
    "Verif.Port.C84_framed_partial",
    "Verif.Port.C84_stream_partial",
    "Verif.Port.C84_iso_violated"
   ],
   "note": "The code disagrees with the property: (`C84_iso_violated`): ISO packets of 4096 octets and more are cut off (the same mask of the length). What holds is stated by C84_framed_partial, C84_stream_partial; the comment of each says what is missing."
  },
  {
   "property": "C85",
   "status": "partial",
   "theorems": [
    "Verif.Port.C85_trace_partial",
    "Verif.Port.C85_survives",
    "Verif.Port.C85_lap_violated",
    "Verif.Port.C85_long_violated",
    "Verif.Port.C85_page_violated"
   ],
   "note": "The code disagrees with the property: (`C85_lap_violated`, `C85_long_violated`, `C85_page_violated`): the lower address part and the reference LAP are variables of eight bits; the length of a DM1 packet has five bits, so that LMP packets of 32 octets and more are not found in their records; a page that is cut off fails an assertion. The flags say that a CRC was checked though it is 0; times as for C83. What holds is stated by C85_trace_partial; the comment of each says what is missing."
  },
  {
   "property": "C86",
   "status": "partial",
   "theorems": [
    "Verif.Port.C86_when",
    "Verif.Port.C86_what",
    "Verif.Port.C86_scan_violated"
   ],
   "note": "The code disagrees with the property: (`C86_scan_violated`): a beacon never answers scan requests, as beacon.h says it does: its advertisements are not scannable. The other theorems state what holds."
  },
  {
   "property": "C87",
   "status": "proved",
   "theorems": [
    "Verif.Cfg.C87_features",
    "Verif.Cfg.C87_rest",
    "Verif.Cfg.C87_phys",
    "Verif.Cfg.C87_default"
   ],
   "note": ""
  },
  {
   "property": "C88",
   "status": "partial",
   "theorems": [
    "Verif.Cfg.C88_reported_partial",
    "Verif.Cfg.C88_presets",
    "Verif.Cfg.C88_le_only_violated",
    "Verif.Cfg.C88_slots_violated"
   ],
   "note": "The code disagrees with the property: (`C88_le_only_violated`, `C88_slots_violated`): the features of the LE only preset (Laird) are measured with the rules for BR/EDR devices, so that the warning is always printed; for version 5.0 the slot availability mask is taken to be reserved. What holds is stated by C88_reported_partial; the comment of each says what is missing."
  },
  {
   "property": "C89",
   "status": "partial",
   "theorems": [
    "Verif.Cfg.C89_reported_partial",
    "Verif.Cfg.C89_requirements_violated",
    "Verif.Cfg.C89_warning_violated"
   ],
   "note": "The code disagrees with the property: (`C89_requirements_violated`, `C89_warning_violated`): thirteen requirements are not coded as their text says: \"optional or excluded\" is mandatory or excluded (C10, C50, C135, C136), \"otherwise optional\" is excluded (C12, C13, C152, C153, C154), optional is mandatory (C148), multi-slot packets are left out (C133), and the sleep clock accuracy and test mode are as the sources say not supported, but asked for (C37, C123). The warning that the supported commands are not consistent is never printed: the check always succeeds. What holds is stated by C89_reported_partial; the comment of each says what is missing."
  },
  {
   "property": "C90",
   "status": "partial",
   "theorems": [
    "Verif.Cfg.C90_presets_partial",
    "Verif.Cfg.C90_presets_violated",
    "Verif.Cfg.C90_choices_violated"
   ],
   "note": "The code disagrees with the property: (`C90_presets_violated`, `C90_choices_violated`): each preset contradicts its own features, e.g. the default preset has no Remote Name Request Cancel, and LE Request Peer SCA without the feature; further commands do after a feature is turned on or off, e.g. LE Set Data Related Address Changes, which belongs to LL privacy, goes with extended and periodic advertising. What holds is stated by C90_presets_partial; the comment of each says what is missing."
  },
  {
   "property": "C91",
   "status": "partial",
   "theorems": [
    "Verif.Live.C91_only_silent",
    "Verif.Live.C91_ping",
    "Verif.Live.C91_ends_silent",
    "Verif.Live.C91_warned",
    "Verif.Live.C91_answered",
    "Verif.Live.C91_supervised_violated"
   ],
   "note": "The code disagrees with the property: (`C91_supervised_violated`): the supervision timeout that the host gives for an LE connection has no effect: every connection is ended after three seconds without a packet, also one whose timeout is 20 s, and none before, also one whose timeout is 0.1 s. The other theorems state what holds."
  },
  {
   "property": "C92",
   "status": "partial",
   "theorems": [
    "Verif.Voice.C92_setup",
    "Verif.Voice.C92_accept_partial",
    "Verif.Voice.C92_voice",
    "Verif.Voice.C92_outcome_partial",
    "Verif.Voice.C92_air_violated",
    "Verif.Voice.C92_accept_path_violated"
   ],
   "note": "The code disagrees with the property: (`C92_air_violated`, `C92_accept_path_violated`): the coding format of the enhanced commands has no effect, the hosts are told the air mode of the voice setting: CVSD for a connection that both asked to be transparent. A data path other than HCI in the accept command is ignored, although the log says that the data will be spoofed; only the side that sets up the connection gets the stream. What holds is stated by C92_accept_partial, C92_outcome_partial; the comment of each says what is missing."
  },
  {
   "property": "C93",
   "status": "partial",
   "theorems": [
    "Verif.Pol.C93_unknown",
    "Verif.Pol.C93_modes",
    "Verif.Pol.C93_checked",
    "Verif.Pol.C93_qos",
    "Verif.Pol.C93_packet_types",
    "Verif.Pol.C93_policy_written",
    "Verif.Pol.C93_policy_kept",
    "Verif.Pol.C93_policy_new",
    "Verif.Pol.C93_policy_default",
    "Verif.Pol.C93_role",
    "Verif.Pol.C93_rssi",
    "Verif.Pol.C93_le",
    "Verif.Pol.C93_oob_fresh",
    "Verif.Pol.C93_oob_arrays",
    "Verif.Pol.C93_oob_violated",
    "Verif.Pol.C93_power_violated",
    "Verif.Pol.C93_power_partial",
    "Verif.Pol.C93_key_size_violated"
   ],
   "note": "The code disagrees with the property: (`C93_oob_violated`, `C93_power_violated`, `C93_key_size_violated`): after Reset the out of band data starts again from the same values, so data of an earlier session comes back. LE Read Remote Transmit Power Level accepts PHYs that do not exist, and LE Set Transmit Power Reporting Enable reserved values. Read Encryption Key Size says 16 for a connection that is not encrypted, where the specification has the error Insufficient Security. What holds is stated by C93_power_partial; the comment of each says what is missing."
  },
  {
   "property": "C94",
   "status": "partial",
   "theorems": [
    "Verif.Flow.C94_credited",
    "Verif.Flow.C94_abort",
    "Verif.Flow.C94_reset_violated",
    "Verif.Flow.C94_reset_partial",
    "Verif.Flow.C94_voice_partial",
    "Verif.Flow.C94_voice_violated"
   ],
   "note": "The code disagrees with the property: (`C94_reset_violated`, `C94_voice_violated`): Reset does not discard the reports of completed packets that are scheduled, so after it the host is told of packets it sent before. Synchronous data outside the loopback mode is never credited, also when the host has enabled synchronous flow control. What holds is stated by C94_reset_partial, C94_voice_partial; the comment of each says what is missing."
  },
  {
   "property": "C95",
   "status": "partial",
   "theorems": [
    "Verif.Flow.C95_acl",
    "Verif.Flow.C95_sco",
    "Verif.Flow.C95_command_partial",
    "Verif.Flow.C95_command_violated",
    "Verif.Flow.C95_session",
    "Verif.Flow.C95_mode"
   ],
   "note": "The code disagrees with the property: (`C95_command_violated`): a command with more than 252 octets of parameters comes back in a Loopback Command event longer than its length octet says. What holds is stated by C95_command_partial; the comment of each says what is missing."
  },
  {
   "property": "C96",
   "status": "proved",
   "theorems": [
    "Verif.Flow.C96_acl",
    "Verif.Flow.C96_le",
    "Verif.Flow.C96_sco",
    "Verif.Flow.C96_session"
   ],
   "note": ""
  },
  {
   "property": "C97",
   "status": "partial",
   "theorems": [
    "Verif.Lmp.C97_initiator",
    "Verif.Lmp.C97_responder_partial",
    "Verif.Lmp.C97_legacy",
    "Verif.Lmp.C97_key_last",
    "Verif.Lmp.C97_oob_violated",
    "Verif.Lmp.C97_refused_violated"
   ],
   "note": "The code disagrees with the property: (`C97_oob_violated`, `C97_refused_violated`): the responder does not look at the answer of its host to the request for out-of-band data: it says that there is none, and is told of an authenticated key. Refusals of the public key and of the nonces, and of the responder's DHKey check, are ignored. The values of the commitments are compared with zero and the values of the DHKey check and of the responses are not looked at (they are not in the model). What holds is stated by C97_responder_partial; the comment of each says what is missing."
  },
  {
   "property": "C98",
   "status": "partial",
   "theorems": [
    "Verif.Watch.C98_only",
    "Verif.Watch.C98_round",
    "Verif.Watch.C98_unwatched",
    "Verif.Watch.C98_unwatched_inside_partial",
    "Verif.Watch.C98_reentrant",
    "Verif.Watch.C98_unwatched_inside_violated",
    "Verif.Watch.C98_reported_partial",
    "Verif.Watch.C98_stale_violated",
    "Verif.Watch.C98_served",
    "Verif.Watch.C98_awake",
    "Verif.Watch.C98_range_partial",
    "Verif.Watch.C98_range_violated",
    "Verif.Watch.C98_survives_partial",
    "Verif.Watch.C98_survives_violated",
    "Verif.Watch.C98_stopped"
   ],
   "note": "The code disagrees with the property: (`C98_unwatched_inside_violated`, `C98_stale_violated`, `C98_range_violated`, `C98_survives_violated`): a callback that stops watching another descriptor of its round does not prevent that descriptor's callback. A report of `select` is used for whatever descriptor has the number when the round begins. `FD_SET` is applied to any descriptor: above 1023 (one is open for each host) and for -1 (a closed socket) it writes outside the set. A registration while the watcher is stopped assigns to a thread that was not joined. What holds is stated by C98_unwatched_inside_partial, C98_reported_partial, C98_range_partial, C98_survives_partial; the comment of each says what is missing."
  },
  {
   "property": "C99",
   "status": "partial",
   "theorems": [
    "Verif.Env.C99_own_controller",
    "Verif.Env.C99_placed",
    "Verif.Env.C99_listens",
    "Verif.Env.C99_leaves",
    "Verif.Env.C99_stays",
    "Verif.Env.C99_testers",
    "Verif.Env.C99_answers_partial",
    "Verif.Env.C99_answers_violated",
    "Verif.Env.C99_race_partial",
    "Verif.Env.C99_race_violated",
    "Verif.Env.C99_end_partial",
    "Verif.Env.C99_end_violated",
    "Verif.Env.C99_clock_partial",
    "Verif.Env.C99_clock_violated",
    "Verif.Env.C99_first",
    "Verif.Env.C99_furnished"
   ],
   "note": "The code disagrees with the property: (`C99_race_violated`, `C99_answers_violated`, `C99_end_violated`, `C99_clock_violated`): the link-layer servers add their devices to the test model on the thread of the watcher, while a tick or a command can run on the task thread; so does the baseband sniffer on the main thread. The test channel replaces the response callback on the thread of the watcher. The answer to a command goes to whoever is connected when it runs. A second END_SIMULATION sets the promise again, and the exception ends the process. A second start_timer forgets the first timer, which nothing can stop any more. What holds is stated by C99_answers_partial, C99_race_partial, C99_end_partial, C99_clock_partial; the comment of each says what is missing."
  },
  {
   "property": "C100",
   "status": "partial",
   "theorems": [
    "Verif.Bye.C100_sends",
    "Verif.Bye.C100_told_partial",
    "Verif.Bye.C100_told_violated",
    "Verif.Bye.C100_stranger",
    "Verif.Bye.C100_le"
   ],
   "note": "The code disagrees with the property: (`C100_told_violated`): a device that has more synchronous connections with the one that leaves than the other has with it (its request is on its way, say) still has one when the end of the ACL connection arrives, and aborts. What holds is stated by C100_told_partial; the comment of each says what is missing."
  },
  {
   "property": "C101",
   "status": "proved",
   "theorems": [
    "Verif.Br.C101_refused",
    "Verif.Br.C101_status",
    "Verif.Br.C101_silence",
    "Verif.Br.C101_cancelled",
    "Verif.Br.C101_deaf",
    "Verif.Br.C101_second_voice",
    "Verif.Br.C101_no_agreement",
    "Verif.Br.C101_legacy"
   ],
   "note": ""
  },
  {
   "property": "C102",
   "status": "partial",
   "theorems": [
    "Verif.Fd.C102_owned",
    "Verif.Fd.C102_no_leak",
    "Verif.Fd.C102_never_stray",
    "Verif.Fd.C102_alive_partial",
    "Verif.Fd.C102_alive_violated",
    "Verif.Fd.C102_watched_partial",
    "Verif.Fd.C102_watched_violated",
    "Verif.Fd.C102_asked_partial",
    "Verif.Fd.C102_silent_partial",
    "Verif.Fd.C102_closed_partial",
    "Verif.Fd.C102_close",
    "Verif.Fd.C102_accepts",
    "Verif.Fd.C102_one_client_partial",
    "Verif.Fd.C102_mute_partial",
    "Verif.Fd.C102_unbound",
    "Verif.Fd.C102_unbound_violated",
    "Verif.Fd.C102_listens_partial",
    "Verif.Fd.C102_listens_violated",
    "Verif.Fd.C102_watch_partial",
    "Verif.Fd.C102_watch_violated",
    "Verif.Fd.C102_connect_partial",
    "Verif.Fd.C102_connect_violated"
   ],
   "note": "The code disagrees with the property: (`C102_alive_violated`, `C102_watched_violated`): the move constructor of a socket that is watched leaves the callback with the old socket, which may be gone when it runs. Nothing in the program moves a socket. `_partial` theorems of C102 assume that no socket is moved. (`C102_unbound_violated`): StopListening on a server whose port was taken uses an empty pointer; TestChannelTransport::CleanUp calls it without a test. (`C102_listens_violated`): StartListening returns true although the thread of the watcher could not be started; on a closed server it watches descriptor -1. (`C102_watch_violated`): WatchForNonBlockingRead that returns false leaves the socket watched, and a second call is refused. (`C102_connect_violated`): the connector takes descriptor 0 for a failure and returns an open socket that is not connected. What holds is stated by C102_alive_partial, C102_watched_partial, C102_asked_partial, C102_silent_partial, C102_closed_partial, C102_one_client_partial, C102_mute_partial, C102_listens_partial, C102_watch_partial, C102_connect_partial; the comment of each says what is missing."
  },
  {
   "property": "C103",
   "status": "partial",
   "theorems": [
    "Verif.Cs.C103_refused",
    "Verif.Cs.C103_accepted",
    "Verif.Cs.C103_phy_violated"
   ],
   "note": "The code disagrees with the property: (`C103_phy_violated`): LeCsSetProcedureParameters takes the value of the PHY for the number of its bit in the supported PHYs: LE 2M, which is bit 1 for a configuration, is bit 2 there. A controller with LE 2M and without LE 2M 2BT refuses LE 2M. The other theorems state what holds."
  },
  {
   "property": "C104",
   "status": "proved",
   "theorems": [
    "Verif.Cs.C104_refused",
    "Verif.Cs.C104_answered",
    "Verif.Cs.C104_one_answer"
   ],
   "note": ""
  },
  {
   "property": "C105",
   "status": "proved",
   "theorems": [
    "Verif.Iso.C105_refused",
    "Verif.Iso.C105_accepted",
    "Verif.Iso.C105_lost",
    "Verif.Iso.C105_rejected",
    "Verif.Iso.C105_terminated",
    "Verif.Iso.C105_request",
    "Verif.Iso.C105_established",
    "Verif.Iso.C105_established_peripheral"
   ],
   "note": ""
  },
  {
   "property": "C106",
   "status": "proved",
   "theorems": [
    "Verif.Le.C106_status",
    "Verif.Le.C106_unique"
   ],
   "note": ""
  },
  {
   "property": "C107",
   "status": "partial",
   "theorems": [
    "Verif.Le.C107_on_air_partial",
    "Verif.Le.C107_notes_follow",
    "Verif.Le.C107_only_at_ticks",
    "Verif.Le.C107_on_air_violated"
   ],
   "note": "The code disagrees with the property: (what is advertised is what was configured): a refused LE Set Extended Advertising Enable that lists several sets changes the addresses of the sets before the one it is refused for (le_advertiser.cc 966-1088), even of a set that is enabled: from then on the set advertises with a newly generated address. `C107_on_air_violated`; `C107_on_air_partial` covers all other histories. What holds is stated by C107_on_air_partial; the comment of each says what is missing."
  },
  {
   "property": "C108",
   "status": "partial",
   "theorems": [
    "Verif.Br.C108_inquiry",
    "Verif.Br.C108_new_violated",
    "Verif.Br.C108_hidden",
    "Verif.Br.C108_page",
    "Verif.Br.C108_self",
    "Verif.Br.C108_role"
   ],
   "note": "The code disagrees with the property: (new controller): `current_iac_lap_list_` is empty when a controller is constructed (bredr_controller.h:386) and only Reset puts the general access code into it, so a controller whose host did not begin with Reset answers no inquiry although it is discoverable. `Ctl.fresh` has the empty list, the host's book in `SpecWish` too; shown as `C108_new_violated`. The other theorems state what holds."
  },
  {
   "property": "C109",
   "status": "partial",
   "theorems": [
    "Verif.Ll.C109_notes",
    "Verif.Ll.C109_legacy_partial",
    "Verif.Ll.C109_extended_partial",
    "Verif.Ll.C109_request_legacy_partial",
    "Verif.Ll.C109_request_extended_partial",
    "Verif.Ll.C109_response_partial",
    "Verif.Ll.C109_connect_legacy_partial",
    "Verif.Ll.C109_connect_extended_partial",
    "Verif.Ll.C109_period_violated",
    "Verif.Ll.C109_coded_violated",
    "Verif.Ll.C109_passive_violated"
   ],
   "note": "The code disagrees with the property: (the pause of a periodic scan): a scan with a duration and a period listens all the time. Packets are reported between the end of the duration and the end of the period (`C109_period_violated`). (the PHY of a scan): a scan on the LE Coded PHY only reports legacy packets, which are sent on the LE 1M PHY (`C109_coded_violated`). Active scanning asked for on one PHY makes the controller send scan requests on the other, where passive scanning was asked for (`C109_passive_violated`). What holds is stated by C109_legacy_partial, C109_extended_partial, C109_request_legacy_partial, C109_request_extended_partial, C109_response_partial, C109_connect_legacy_partial, C109_connect_extended_partial; the comment of each says what is missing."
  },
  {
   "property": "C110",
   "status": "partial",
   "theorems": [
    "Verif.Ll.C110_notes",
    "Verif.Ll.C110_quiet",
    "Verif.Ll.C110_established",
    "Verif.Ll.C110_reported_partial",
    "Verif.Ll.C110_list",
    "Verif.Ll.C110_scan_violated",
    "Verif.Ll.C110_lost_violated",
    "Verif.Ll.C110_disabled_violated"
   ],
   "note": "The code disagrees with the property: (reports need a scan): the packets of an advertiser the host is synchronized with are dropped when no extended scan goes on (le_controller.cc 5207), and the host is not told that the synchronization is lost (`C110_scan_violated`). (lost synchronizations): nothing calls `LeSynchronization` (le_controller.cc 6306-6321), so that a synchronization is never lost, whatever timeout the host gave, and may not be asked for again (`C110_lost_violated`). (disabled reports): the option to start with reports disabled is accepted and has no effect (`C110_disabled_violated`). What holds is stated by C110_reported_partial; the comment of each says what is missing."
  },
  {
   "property": "C111",
   "status": "partial",
   "theorems": [
    "Verif.Ll.C111_heard",
    "Verif.Ll.C111_peer_packet",
    "Verif.Ll.C111_peer_otherwise",
    "Verif.Ll.C111_local_packet",
    "Verif.Ll.C111_local_otherwise",
    "Verif.Ll.C111_unused_violated"
   ],
   "note": "The code disagrees with the property: (addresses never in use): a scanner or initiator whose own address type is public or random generates a local resolvable private address for the peer nevertheless (le_controller.cc 4578, 4728, 4996 and 5144: before one is chosen), and LE Read Local Resolvable Address gives it although it was never used (`C111_unused_violated`). The other theorems state what holds."
  },
  {
   "property": "C112",
   "status": "partial",
   "theorems": [
    "Verif.Ll.C112_notes",
    "Verif.Ll.C112_scan_partial",
    "Verif.Ll.C112_connect_partial",
    "Verif.Ll.C112_tick_partial",
    "Verif.Ll.C112_directed_violated",
    "Verif.Ll.C112_notified_violated"
   ],
   "note": "The code disagrees with the property: (directed scannable sets): a set directed to a peer in the resolving list gets a generated private address as its target (le_advertiser.cc, LE Set Extended Advertising Enable), and the resolved address of the scanner is compared with this target (le_controller.cc 6040-6110), so the peer is never answered (`C112_directed_violated`). (scan request notification): the parameter is stored (le_advertiser.cc 565), but no LE Scan Request Received event is ever sent (`C112_notified_violated`). What holds is stated by C112_scan_partial, C112_connect_partial, C112_tick_partial; the comment of each says what is missing."
  },
  {
   "property": "C113",
   "status": "proved",
   "theorems": [
    "Verif.Ll.C113_send",
    "Verif.Ll.C113_receive",
    "Verif.Ll.C113_receive_on",
    "Verif.Ll.C113_disconnect",
    "Verif.Ll.C113_reset",
    "Verif.Ll.C113_told",
    "Verif.Ll.C113_list"
   ],
   "note": ""
  },
  {
   "property": "C114",
   "status": "proved",
   "theorems": [
    "Verif.Br.C114_send",
    "Verif.Br.C114_receive",
    "Verif.Br.C114_ask",
    "Verif.Br.C114_role",
    "Verif.Br.C114_disconnect",
    "Verif.Br.C114_reset",
    "Verif.Br.C114_create",
    "Verif.Br.C114_book",
    "Verif.Br.C114_told"
   ],
   "note": ""
  },
  {
   "property": "C115",
   "status": "partial",
   "theorems": [
    "Verif.Iso.C115_disconnect",
    "Verif.Iso.C115_accept",
    "Verif.Iso.C115_reject",
    "Verif.Iso.C115_create",
    "Verif.Iso.C115_exists",
    "Verif.Iso.C115_told_partial",
    "Verif.Iso.C115_lost",
    "Verif.Iso.C115_reason_violated",
    "Verif.Iso.C115_told_violated"
   ],
   "note": "The code disagrees with the property: (reason): a link that is lost for the reason 0 (success), which the peer chooses, makes the controller report the streams being created on it with a CIS Established event of status success although there is no stream. Proved as `C115_reason_violated`; the theorems are for other reasons. (told twice): if both ends disconnect a stream at the same time, the central's host gets a second Disconnection Complete event for it, and the handle is unknown from then on although the group that has it is still configured: LE Create CIS for it is refused with Unknown Connection. Proved as `C115_told_violated`; `C115_told_partial` leaves out the peer's LL_CIS_TERMINATE_IND. What holds is stated by C115_told_partial; the comment of each says what is missing."
  },
  {
   "property": "C116",
   "status": "partial",
   "theorems": [
    "Verif.Iso.C116_agree_partial",
    "Verif.Iso.C116_wait_partial",
    "Verif.Iso.C116_always_partial",
    "Verif.Iso.C116_cross_violated",
    "Verif.Iso.C116_cancel_violated",
    "Verif.Iso.C116_two_violated"
   ],
   "note": "The code disagrees with the property: (crossing): if both hosts end a stream at the same time and the central creates it again at once, the peripheral's LL_CIS_TERMINATE_IND ends the new attempt on the central only. The answer to it is later taken for that to a request for another stream, so that each end has a stream the other does not have. Proved as `C116_cross_violated`. (giving up): if the central's host disconnects a stream being created and creates it again while LL_CIS_RSP is on its way, the answer is taken for that to the second request and only the central has the stream. Proved as `C116_cancel_violated`. (two commands): a second LE Create CIS is accepted while the request of the first waits for its answer (only queued requests are considered, iso.rs 1057). LL_CIS_RSP does not name a stream and is given to the first waiting stream in iteration order, so the two ends may end up with different streams. Proved as `C116_two_violated`. The theorems of C116 have the suffix `_partial` because they are for hosts that avoid these three situations. What holds is stated by C116_agree_partial, C116_wait_partial, C116_always_partial; the comment of each says what is missing."
  },
  {
   "property": "C117",
   "status": "partial",
   "theorems": [
    "Verif.Br.C117_send_partial",
    "Verif.Br.C117_receive_partial",
    "Verif.Br.C117_role",
    "Verif.Br.C117_disconnect",
    "Verif.Br.C117_setup",
    "Verif.Br.C117_answer",
    "Verif.Br.C117_told",
    "Verif.Br.C117_send_violated",
    "Verif.Br.C117_receive_violated",
    "Verif.Br.C117_refusal_violated",
    "Verif.Br.C117_order_violated"
   ],
   "note": "The code disagrees with the property: (data before the connection): voice data is accepted from the host, and handed to it, on the handle of a synchronous connection that is still being requested, which the host was never told (bredr_controller.cc SendScoToRemote and IncomingScoPacket look up the handle only). Proved as `C117_send_violated` and `C117_receive_violated`; the theorems have the suffix `_partial`. (refusal): a ScoConnectionResponse with an error status ends the first synchronous connection with the device even if it is open (bredr_controller.cc:1824-1884); the host gets a Synchronous Connection Complete event with the error and the handle 0, and no Disconnection Complete. Proved as `C117_refusal_violated`; the theorems assume that devices refuse only what was asked (`Fair`). (iteration order): `HasPendingScoConnection` looks at the first synchronous connection with the device in the iteration order of an `std::unordered_map`. If an open one comes before a requested one, the host's answer to the request is refused with Command Disallowed. Proved as `C117_order_violated`; the model iterates over the newest connection first, so the theorems hold for that order only when a device has several synchronous connections. What holds is stated by C117_send_partial, C117_receive_partial; the comment of each says what is missing."
  },
  {
   "property": "C118",
   "status": "partial",
   "theorems": [
    "Verif.Reset.C118_classic_partial",
    "Verif.Reset.C118_policy_partial",
    "Verif.Reset.C118_le",
    "Verif.Reset.C118_le_new_partial",
    "Verif.Reset.C118_filters",
    "Verif.Reset.C118_registers_partial",
    "Verif.Reset.C118_data_partial",
    "Verif.Reset.C118_reject_violated",
    "Verif.Reset.C118_inquiry_violated",
    "Verif.Reset.C118_random_address_violated",
    "Verif.Reset.C118_sounding_violated",
    "Verif.Reset.C118_name_violated",
    "Verif.Reset.C118_credit_violated"
   ],
   "note": "The code disagrees with the property: (what is left of the past): a connection that was rejected before Reset has its rejection sent, and reported, at the next tick after it (the tasks are not cancelled; `C118_reject_violated`); data that was handed over is still acknowledged (`C118_credit_violated`); the host's support of channel sounding is not cleared (`C118_sounding_violated`). The theorems wait for one tick, and leave that feature out. (not as new): a controller that was reset answers inquiries and a new one does not (`C118_inquiry_violated`); it has an empty name and a new one has the one of the device (`C118_name_violated`); with the quirk `has_default_random_address` a new one has a random address and one that was reset has none (`C118_random_address_violated`). Each part is a machine of its own here: that the one Reset command reaches all of them is the list of calls in dual_mode_controller.cc `Reset`, which is modelled in `Flow` for the links only. The requested PHYs (`requested_tx_phys_`) and partly received isochronous data (`iso_sdu_`) are not part of these machines and are not cleared by the code. What holds is stated by C118_classic_partial, C118_policy_partial, C118_le_new_partial, C118_registers_partial, C118_data_partial; the comment of each says what is missing."
  },
  {
   "property": "C119",
   "status": "partial",
   "theorems": [
    "Verif.Br.C119_agree_partial",
    "Verif.Br.C119_crossing_violated",
    "Verif.Br.C119_consent_violated"
   ],
   "note": "The code disagrees with the property: (crossing ends): when both hosts end a synchronous connection at once and one of them asks for a new one, the old ScoDisconnect cancels the new request at the asking device only; the other host keeps an offer that nobody made (bredr_controller.cc IncomingScoDisconnect removes whatever entry the device has). Proved as `C119_crossing_violated`; `C119_agree_partial` assumes hosts that do not end a connection while the other's end is on its way, that do not reset or end the link itself, and links that are not lost. (accepting for the other): Accept Synchronous Connection Request on an own, outgoing request opens the connection and sends the other device a positive response, which opens it there too, though its host did not answer (bredr_controller.cc AcceptSynchronousConnection looks at the address only). Proved as `C119_consent_violated`. What holds is stated by C119_agree_partial; the comment of each says what is missing."
  },
  {
   "property": "C120",
   "status": "proved",
   "theorems": [
    "Verif.Ll.C120_legacy",
    "Verif.Ll.C120_extended",
    "Verif.Ll.C120_response"
   ],
   "note": ""
  },
  {
   "property": "C121",
   "status": "partial",
   "theorems": [
    "Verif.Ll.C121_agree_partial",
    "Verif.Ll.C121_half_open_partial",
    "Verif.Ll.C121_second_violated",
    "Verif.Ll.C121_reset_violated",
    "Verif.Ll.C121_crossing_violated"
   ],
   "note": "The code disagrees with the property: (second connection): the packet that ends a connection has only the two addresses. When the initiator asks for a second connection while it has one and both end the first, the end of the initiator removes the second connection of the advertiser; the initiator keeps one that the advertiser does not have (le_controller.cc IncomingDisconnectPacket): `C121_second_violated`. (reset): a controller that is reset while its connection request is on its way tells nobody; the advertiser accepts and keeps the connection (le_controller.cc Reset; IncomingLeConnectCompletePacket ignores the acceptance without an answer): `C121_reset_violated`. (crossing): two devices that both advertise and initiate get two connections; when one of them is ended each device removes a different one: `C121_crossing_violated`. What holds is stated by C121_agree_partial, C121_half_open_partial; the comment of each says what is missing."
  },
  {
   "property": "C122",
   "status": "proved",
   "theorems": [
    "Verif.Storm.C122_answers",
    "Verif.Storm.C122_few",
    "Verif.Storm.C122_ends",
    "Verif.Storm.C122_silence"
   ],
   "note": ""
  },
  {
   "property": "C123",
   "status": "proved",
   "theorems": [
    "Verif.Lmp.Say.C123_bound",
    "Verif.Lmp.Say.C123_ends"
   ],
   "note": ""
  },
  {
   "property": "C124",
   "status": "partial",
   "theorems": [
    "Verif.Csr.C124_handler",
    "Verif.Csr.C124_answer_partial",
    "Verif.Csr.C124_history_partial",
    "Verif.Csr.C124_unsupported",
    "Verif.Csr.C124_echo_partial",
    "Verif.Csr.C124_features_partial",
    "Verif.Csr.C124_stops",
    "Verif.Csr.C124_short_violated",
    "Verif.Csr.C124_abort_violated",
    "Verif.Csr.C124_wrap_violated"
   ],
   "note": "The code disagrees with the property: (short): the label `complete` of CsrVendorCommand writes `parameters[1]` and `parameters[2]` whatever the length: without parameters, or with one or two octets, that is outside of the vector (dual_mode_controller.cc 3217-3220): `C124_short_violated`. (assertions): a read of the build identifier, of the key lengths or of the version with a value that is too short, and a write of fewer than eight octets of features, fail an `ASSERT` and end the process: `C124_abort_violated`. A count of words of 0x8005 is taken for 5: `C124_wrap_violated`. What holds is stated by C124_answer_partial, C124_history_partial, C124_echo_partial, C124_features_partial; the comment of each says what is missing."
  },
  {
   "property": "C125",
   "status": "partial",
   "theorems": [
    "Verif.Both.C125_one",
    "Verif.Both.C125_disconnect_le",
    "Verif.Both.C125_disconnect_br_partial",
    "Verif.Both.C125_unknown",
    "Verif.Both.C125_data",
    "Verif.Both.C125_step",
    "Verif.Both.C125_order_violated"
   ],
   "note": "The code disagrees with the property: (order): HCI Disconnect is answered last: Disconnection Complete is sent by the controller that has the connection, from within the call whose result is the status (dual_mode_controller.cc 2128-2134): `C125_order_violated`. What holds is stated by C125_disconnect_br_partial; the comment of each says what is missing."
  },
  {
   "property": "C126",
   "status": "proved",
   "theorems": [
    "Verif.Wire.C126_layouts",
    "Verif.Wire.C126_obey",
    "Verif.Wire.C126_distinct",
    "Verif.Wire.C126_answer",
    "Verif.Wire.C126_script"
   ],
   "note": ""
  },
  {
   "property": "C127",
   "status": "proved",
   "theorems": [
    "Verif.WireBr.C127_layouts",
    "Verif.WireBr.C127_obey",
    "Verif.WireBr.C127_distinct",
    "Verif.WireBr.C127_answer",
    "Verif.WireBr.C127_script"
   ],
   "note": ""
  },
  {
   "property": "C128",
   "status": "proved",
   "theorems": [
    "Verif.WireBr.C128_layouts",
    "Verif.WireBr.C128_octets",
    "Verif.WireBr.C128_hears",
    "Verif.WireBr.C128_told",
    "Verif.WireBr.C128_distinct",
    "Verif.WireBr.C128_all"
   ],
   "note": ""
  },
  {
   "property": "C129",
   "status": "proved",
   "theorems": [
    "Verif.WireLe.C129_layouts",
    "Verif.WireLe.C129_octets",
    "Verif.WireLe.C129_hears",
    "Verif.WireLe.C129_told",
    "Verif.WireLe.C129_silent",
    "Verif.WireLe.C129_distinct",
    "Verif.WireLe.C129_reports",
    "Verif.WireLe.C129_fit",
    "Verif.WireLe.C129_whole"
   ],
   "note": ""
  },
  {
   "property": "C130",
   "status": "proved",
   "theorems": [
    "Verif.WireLink.C130_layouts",
    "Verif.WireLink.C130_obey",
    "Verif.WireLink.C130_distinct",
    "Verif.WireLink.C130_answer",
    "Verif.WireLink.C130_unknown",
    "Verif.WireLink.C130_timing",
    "Verif.WireLink.C130_subrate",
    "Verif.WireLink.C130_link",
    "Verif.WireLink.C130_script"
   ],
   "note": ""
  },
  {
   "property": "C131",
   "status": "proved",
   "theorems": [
    "Verif.WireLink.C131_layouts",
    "Verif.WireLink.C131_octets",
    "Verif.WireLink.C131_hears",
    "Verif.WireLink.C131_told",
    "Verif.WireLink.C131_distinct",
    "Verif.WireLink.C131_all",
    "Verif.WireLink.C131_commands"
   ],
   "note": ""
  },
  {
   "property": "C132",
   "status": "proved",
   "theorems": [
    "Verif.WireAir.C132_octets",
    "Verif.WireAir.C132_receive",
    "Verif.WireAir.C132_distinct",
    "Verif.WireAir.C132_all",
    "Verif.WireAir.C132_command",
    "Verif.WireAir.C132_task",
    "Verif.WireAir.C132_answer",
    "Verif.WireAir.C132_layouts",
    "Verif.WireAir.C132_net",
    "Verif.WireAir.C132_subcommand",
    "Verif.WireAir.C132_subanswer",
    "Verif.WireAir.C132_sub"
   ],
   "note": ""
  },
  {
   "property": "C133",
   "status": "proved",
   "theorems": [
    "Verif.WireAir.Bredr.C133_octets",
    "Verif.WireAir.Bredr.C133_receive",
    "Verif.WireAir.Bredr.C133_distinct",
    "Verif.WireAir.Bredr.C133_all",
    "Verif.WireAir.Bredr.C133_layouts"
   ],
   "note": ""
  },
  {
   "property": "C134",
   "status": "proved",
   "theorems": [
    "Verif.WireAir.Adv.C134_octets",
    "Verif.WireAir.Adv.C134_receive",
    "Verif.WireAir.Adv.C134_distinct",
    "Verif.WireAir.Adv.C134_all",
    "Verif.WireAir.Adv.C134_layouts"
   ],
   "note": ""
  }
 ]
}