{
 "claims": [
  {
   "property": "C01",
   "status": "proved",
   "theorems": [
    "Letmein.Props.C01_serialize_layout",
    "Letmein.Props.C01_new_magic",
    "Letmein.Props.C01_roundtrip"
   ],
   "note": ""
  },
  {
   "property": "C02",
   "status": "proved",
   "theorems": [
    "Letmein.Props.C02_decode_iff",
    "Letmein.Props.C02_accept_iff",
    "Letmein.Props.C02_canonical",
    "Letmein.Props.C02_no_panic"
   ],
   "note": ""
  },
  {
   "property": "C03",
   "status": "proved",
   "theorems": [
    "Letmein.Props.C03_macText_spec",
    "Letmein.Props.C03_macText_injective",
    "Letmein.Props.C03_tag_binds",
    "Letmein.Props.C03_knock_is_not_response"
   ],
   "note": ""
  },
  {
   "property": "C04",
   "status": "proved",
   "theorems": [
    "Letmein.Props.C04_check_knock_iff",
    "Letmein.Props.C04_check_response_iff",
    "Letmein.Props.C04_knock_roundtrip",
    "Letmein.Props.C04_response_roundtrip",
    "Letmein.Props.C04_tampered_response_rejected",
    "Letmein.Props.C04_tampered_knock_rejected"
   ],
   "note": ""
  },
  {
   "property": "C05",
   "status": "proved",
   "theorems": [
    "Letmein.Props.C05_recv_any_schedule",
    "Letmein.Props.C05_recv_completes",
    "Letmein.Props.C05_closed",
    "Letmein.Props.C05_send_any_schedule",
    "Letmein.Props.C05_transfer_prefix",
    "Letmein.Props.C05_transfer_exact",
    "Letmein.Props.C05_truncated_tail",
    "Letmein.Props.C05_fw_transfer_exact"
   ],
   "note": ""
  },
  {
   "property": "C06",
   "status": "proved",
   "theorems": [
    "Letmein.Props.C06_serialize_layout",
    "Letmein.Props.C06_decode_iff",
    "Letmein.Props.C06_roundtrip",
    "Letmein.Props.C06_canonical",
    "Letmein.Props.C06_accept_iff",
    "Letmein.Props.C06_no_panic",
    "Letmein.Props.C06_open_roundtrip",
    "Letmein.Props.C06_reply_roundtrip",
    "Letmein.Props.C06_reply_bytes"
   ],
   "note": ""
  },
  {
   "property": "C07",
   "status": "proved",
   "theorems": [
    "Letmein.Props.C07_no_request_without_full_auth"
   ],
   "note": ""
  },
  {
   "property": "C08",
   "status": "proved",
   "theorems": [
    "Letmein.Props.C08_request_content",
    "Letmein.Props.C08_at_most_one"
   ],
   "note": ""
  },
  {
   "property": "C09",
   "status": "proved",
   "theorems": [
    "Letmein.Props.C09_comein_after_ack",
    "Letmein.Props.C09_nothing_after_verdict",
    "Letmein.Props.C09_success_iff"
   ],
   "note": ""
  },
  {
   "property": "C10",
   "status": "proved",
   "theorems": [
    "Letmein.Props.C10_stealth",
    "Letmein.Props.C10_goaway_permitted",
    "Letmein.Props.C10_rejections_answered"
   ],
   "note": ""
  },
  {
   "property": "C11",
   "status": "partial",
   "theorems": [
    "Letmein.Props.C11_reply_ids_partial",
    "Letmein.Props.C11_fails_before_knock"
   ],
   "note": "The full statement is false of the code: before a Knock has been read a Go-Away carries ids FFFFFFFF (C11_fails_before_knock). Proved for every message sent after the Knock."
  },
  {
   "property": "C12",
   "status": "proved",
   "theorems": [
    "Letmein.Props.C12_loaded_config_has_proto",
    "Letmein.Props.C12_no_panic",
    "Letmein.Props.C12_needs_proto"
   ],
   "note": ""
  },
  {
   "property": "C13",
   "status": "proved",
   "theorems": [
    "Letmein.Props.C13_sends",
    "Letmein.Props.C13_success",
    "Letmein.Props.C13_verdict"
   ],
   "note": ""
  },
  {
   "property": "C14",
   "status": "proved",
   "theorems": [
    "Letmein.Props.C14_every_run_succeeds",
    "Letmein.Props.C14_run_exists"
   ],
   "note": ""
  },
  {
   "property": "C15",
   "status": "proved",
   "theorems": [
    "Letmein.Props.C15_request_needs_live_client",
    "Letmein.Props.C15_answer_is_fresh",
    "Letmein.Props.C15_response_serves_one_session",
    "Letmein.Props.C15_no_more_openings_than_responses"
   ],
   "note": ""
  },
  {
   "property": "C16",
   "status": "partial",
   "theorems": [
    "Letmein.Props.C16_address_partial",
    "Letmein.Props.C16_fails_with_relay"
   ],
   "note": "The full statement is false of the code: the source address is not authenticated, so a relay that forwards an honest client's packets unchanged gets the port opened for the relay's address (C16_fails_with_relay). C16_address_partial proves it under the premise that everything the session receives was sent by a client at the peer's address, up to collisions of the MAC."
  },
  {
   "property": "C17",
   "status": "proved",
   "theorems": [
    "Letmein.Props.C17_only_configured_requests",
    "Letmein.Props.C17_others_refused",
    "Letmein.Props.C17_valid_requests_acked",
    "Letmein.Props.C17_open_answered"
   ],
   "note": ""
  },
  {
   "property": "C18",
   "status": "partial",
   "theorems": [
    "Letmein.Props.C18_protocol_irrelevant",
    "Letmein.Props.C18_configured_protocol_partial",
    "Letmein.Props.C18_fails"
   ],
   "note": "The full statement is false of the code: letmeinfwd takes the protocol from the request and does not compare it with the resource (C18_fails). C18_configured_protocol_partial proves it for histories whose requests all come from letmeind sessions with the same configuration. C18_protocol_irrelevant and C25_openable_iff say exactly what requests can open."
  },
  {
   "property": "C19",
   "status": "proved",
   "theorems": [
    "Letmein.Props.C19_chain_equals_grants",
    "Letmein.Props.C19_keeps_running"
   ],
   "note": ""
  },
  {
   "property": "C20",
   "status": "proved",
   "theorems": [
    "Letmein.Props.C20_bounded",
    "Letmein.Props.C20_not_early",
    "Letmein.Props.C20_never_unasked"
   ],
   "note": ""
  },
  {
   "property": "C21",
   "status": "proved",
   "theorems": [
    "Letmein.Props.C21_renewal",
    "Letmein.Props.C21_rule_count"
   ],
   "note": ""
  },
  {
   "property": "C22",
   "status": "proved",
   "theorems": [
    "Letmein.Props.C22_shutdown_closes_everything"
   ],
   "note": ""
  },
  {
   "property": "C23",
   "status": "proved",
   "theorems": [
    "Letmein.Props.C23_foreign_rules_untouched",
    "Letmein.Props.C23_start_untouched",
    "Letmein.Props.C23_start_iff"
   ],
   "note": ""
  },
  {
   "property": "C24",
   "status": "proved",
   "theorems": [
    "Letmein.Props.C24_lease_rules",
    "Letmein.Props.C24_literals_denote"
   ],
   "note": ""
  },
  {
   "property": "C25",
   "status": "partial",
   "theorems": [
    "Letmein.Props.C25_openable_iff",
    "Letmein.Props.C25_special_addresses_partial",
    "Letmein.Props.C25_fails"
   ],
   "note": "The full statement is false of the code: ::ffff:0.0.0.0 and ::ffff:255.255.255.255 pass the address check and get rules (C25_fails). C25_special_addresses_partial proves it for the plain spellings. C25_openable_iff says exactly which packets some request can let in."
  },
  {
   "property": "C26",
   "status": "proved",
   "theorems": [
    "Letmein.Props.C26_served_iff",
    "Letmein.Props.C26_test_mode",
    "Letmein.Props.C26_single_identity"
   ],
   "note": ""
  },
  {
   "property": "C27",
   "status": "proved",
   "theorems": [
    "Letmein.Props.C27_bounded_memory"
   ],
   "note": ""
  },
  {
   "property": "C28",
   "status": "proved",
   "theorems": [
    "Letmein.Props.C28_own_datagrams_only",
    "Letmein.Props.C28_session",
    "Letmein.Props.C28_only_sessions",
    "Letmein.Props.C28_nothing_lost",
    "Letmein.Props.C28_delivers"
   ],
   "note": ""
  },
  {
   "property": "C29",
   "status": "proved",
   "theorems": [
    "Letmein.Props.C29_accept_only_waiting",
    "Letmein.Props.C29_never_twice",
    "Letmein.Props.C29_none_waiting",
    "Letmein.Props.C29_new_peer_waits",
    "Letmein.Props.C29_waiting_stays"
   ],
   "note": ""
  },
  {
   "property": "C30",
   "status": "partial",
   "theorems": [
    "Letmein.Props.C30_counter",
    "Letmein.Props.C30_crash_iff",
    "Letmein.Props.C30_worn_out",
    "Letmein.Props.C30_no_crash_partial",
    "Letmein.Props.C30_overflow_crashes",
    "Letmein.Props.C30_negation"
   ],
   "note": "The full statement is false of the code: a queue overflow drops the connection but not its share of the counter of queued datagrams; with any connection limit, five unauthenticated datagrams and the end of the session crash the server (C30_overflow_crashes, C30_negation). C30_no_crash_partial proves it for histories without overflow. C30_counter and C30_crash_iff say exactly when it crashes: the counter is too high by four for each overflowed queue, and the next operation crashes if and only if that exhausts the limit when a datagram is taken, or the last connection is closed."
  },
  {
   "property": "C31",
   "status": "partial",
   "theorems": [
    "Letmein.Props.C31_failure_iff",
    "Letmein.Props.C31_anybody_fails",
    "Letmein.Props.C31_failure_cause_partial",
    "Letmein.Props.C31_negation"
   ],
   "note": "The full statement is false of the code: a short datagram of anybody fails the receive round that reads it (C31_negation). C31_failure_cause_partial lists the only causes of failure. C31_failure_iff: these causes always fail the round."
  },
  {
   "property": "C32",
   "status": "partial",
   "theorems": [
    "Letmein.Props.C32_delivered_iff",
    "Letmein.Props.C32_size_partial",
    "Letmein.Props.C32_exact_size_partial",
    "Letmein.Props.C32_negation"
   ],
   "note": "The full statement is false of the code: a datagram longer than 56 bytes is cut and delivered (C32_negation). Proved: shorter ones are never delivered, and without oversized ones only exact ones are. C32_delivered_iff says exactly what is delivered."
  },
  {
   "property": "C33",
   "status": "partial",
   "theorems": [
    "Letmein.Props.C33_failure_changes_nothing",
    "Letmein.Props.C33_success_all_new_partial",
    "Letmein.Props.C33_client_fresh",
    "Letmein.Props.C33_negation",
    "Letmein.Props.C33_exact"
   ],
   "note": "False as stated (C33_negation): a client (ConfigVariant::Client) ignores a file that cannot be read or parsed and keeps every old setting while reporting success. Failure changes nothing (full). Success from a well-formed file, or on the server, replaces every setting (C33_success_all_new_partial); a fresh client gets defaults (C33_client_fresh). C33_exact: the complete case analysis of a successful load."
  },
  {
   "property": "C34",
   "status": "proved",
   "theorems": [
    "Letmein.Props.C34_users_restriction",
    "Letmein.Props.C34_only_defined_resources"
   ],
   "note": ""
  },
  {
   "property": "C35",
   "status": "proved",
   "theorems": [
    "Letmein.Props.C35_key_is_written",
    "Letmein.Props.C35_every_key_loaded"
   ],
   "note": ""
  },
  {
   "property": "C36",
   "status": "proved",
   "theorems": [
    "Letmein.Props.C36_ports_distinct",
    "Letmein.Props.C36_lookup_unambiguous"
   ],
   "note": ""
  },
  {
   "property": "C37",
   "status": "proved",
   "theorems": [
    "Letmein.Props.C37_order_irrelevant"
   ],
   "note": ""
  },
  {
   "property": "C38",
   "status": "proved",
   "theorems": [
    "Letmein.Props.C38_loaded_port_enabled",
    "Letmein.Props.C38_port_enabled_invariant",
    "Letmein.Props.C38_exactly_one_protocol",
    "Letmein.Props.C38_client_never_panics"
   ],
   "note": ""
  },
  {
   "property": "C39",
   "status": "proved",
   "theorems": [
    "Letmein.Props.C39_line_is_entry",
    "Letmein.Props.C39_line_is_loaded"
   ],
   "note": ""
  },
  {
   "property": "C40",
   "status": "partial",
   "theorems": [
    "Letmein.Props.C40_duplicates_rejected_partial",
    "Letmein.Props.C40_negation",
    "Letmein.Props.C40_overridden",
    "Letmein.Props.C40_distinct_iff"
   ],
   "note": "False as stated (C40_negation): two lines with the same spelling of an id silently collapse to the last one. Different spellings of one id, and two resources with one port, are rejected (partial). C40_distinct_iff: a loaded file repeats an id exactly if it repeats a spelling; C40_overridden: the earlier of two lines with the same spelling has no influence."
  },
  {
   "property": "C41",
   "status": "partial",
   "theorems": [
    "Letmein.Props.C41_malformed_reported_partial",
    "Letmein.Props.C41_negation",
    "Letmein.Props.C41_ok_iff"
   ],
   "note": "False as stated (C41_negation): the client treats a malformed file as empty. The server rejects every malformed file, and the client every well-formed file with a bad value (partial). C41_ok_iff says exactly when a load succeeds."
  },
  {
   "property": "C42",
   "status": "proved",
   "theorems": [
    "Letmein.Props.C42_print_parse",
    "Letmein.Props.C42_printed_form",
    "Letmein.Props.C42_parse_iff",
    "Letmein.Props.C42_rejects_large",
    "Letmein.Props.C42_case_insensitive"
   ],
   "note": ""
  },
  {
   "property": "C43",
   "status": "partial",
   "theorems": [
    "Letmein.Props.C43_permits_unused",
    "Letmein.Props.C43_negation",
    "Letmein.Props.C43_descriptors_partial",
    "Letmein.Props.C43_fwd_permits_unused"
   ],
   "note": "False as stated (C43_negation): the semaphore permit is dropped as soon as the session's task has been spawned, so any number of sessions runs at once for every limit of at least one; limit 0 serves nobody. C43_permits_unused and C43_fwd_permits_unused show that the limit never has another effect; C43_descriptors_partial gives the bound that holds."
  },
  {
   "property": "C44",
   "status": "proved",
   "theorems": [
    "Letmein.Props.C44_options",
    "Letmein.Props.C44_family",
    "Letmein.Props.C44_literal",
    "Letmein.Props.C44_queries",
    "Letmein.Props.C44_policy"
   ],
   "note": ""
  },
  {
   "property": "C45",
   "status": "proved",
   "theorems": [
    "Letmein.Props.C45_nothing_without_key_and_resource",
    "Letmein.Props.C45_families_and_verdict",
    "Letmein.Props.C45_success_means_comein"
   ],
   "note": ""
  },
  {
   "property": "C46",
   "status": "partial",
   "theorems": [
    "Letmein.Props.C46_only_configured",
    "Letmein.Props.C46_exactly_configured_partial",
    "Letmein.Props.C46_serves_something",
    "Letmein.Props.C46_negation",
    "Letmein.Props.C46_passed_sockets",
    "Letmein.Props.C46_served_iff",
    "Letmein.Props.C46_exactly_configured_iff",
    "Letmein.Props.C46_passed_iff",
    "Letmein.Props.C46_starts_iff"
   ],
   "note": "False as stated (C46_negation): if systemd passes a socket for one of two configured protocols, the other is not served. Proved: never an unconfigured protocol (full), exactly the configured ones if systemd passes sockets for all of them or none (partial), always at least one. C46_served_iff and C46_exactly_configured_iff: the condition is necessary."
  },
  {
   "property": "C47",
   "status": "partial",
   "theorems": [
    "Letmein.Props.C47_nothing_else",
    "Letmein.Props.C47_union_partial",
    "Letmein.Props.C47_negation",
    "Letmein.Props.C47_compile_ok_iff",
    "Letmein.Props.C47_letmeind",
    "Letmein.Props.C47_letmein",
    "Letmein.Props.C47_letmeinfwd",
    "Letmein.Props.C47_letmeind_harmless"
   ],
   "note": "False as stated for lists that contain an unrestricted and a restricted entry for the same call (C47_negation: the restriction wins). Proved: never more than the union (all lists); exactly the union for lists without such pairs, which includes all three programs' lists; the exact set of permitted calls of each program."
  },
  {
   "property": "C48",
   "status": "partial",
   "theorems": [
    "Letmein.Props.C48_success_means_open_partial",
    "Letmein.Props.C48_negation_shutdown",
    "Letmein.Props.C48_negation_expired",
    "Letmein.Props.C48_iff"
   ],
   "note": "False as stated: letmeinfwd may be terminated between its acknowledgement and the arrival of the Come-In (C48_negation_shutdown), or the lease time may be configured shorter than the exchange may take (C48_negation_expired). Proved for every run in which letmeinfwd has not been shut down and the exchange takes less than the lease time, with losses, reordering, duplicates, failures and other traffic (partial). C48_iff: while letmeinfwd runs and time does not go backwards, the port is open if no maintenance came at or after the end of the lease, and only then if nothing else has opened it for this host."
  },
  {
   "property": "C49",
   "status": "proved",
   "theorems": [
    "Letmein.Props.C49_no_crash",
    "Letmein.Props.C49_start_no_panic"
   ],
   "note": ""
  },
  {
   "property": "C50",
   "status": "partial",
   "theorems": [
    "Letmein.Props.C50_per_peer",
    "Letmein.Props.C50_close_iff",
    "Letmein.Props.C50_own_connection_partial",
    "Letmein.Props.C50_negation"
   ],
   "note": "The full statement is false of the code: after an overflow a peer can have two sessions, and the end of the older removes the connection of the newer (C50_negation). Proved for histories without overflow. C50_per_peer: only an overflow of the peer's own queue can disturb it. C50_close_iff: exactly when the end of a session removes another session's connection."
  },
  {
   "property": "C51",
   "status": "partial",
   "theorems": [
    "Letmein.Props.C51_lost_iff",
    "Letmein.Props.C51_waiting_noticed_partial",
    "Letmein.Props.C51_negation",
    "Letmein.Props.C51_negation_single"
   ],
   "note": "The full statement is false of the code: the watch flag is consumed by one accept round, which takes one connection only or fails on a bad datagram (C51_negation, C51_negation_single). Proved for histories with at most one waiting connection and no rejected datagram in accept rounds. C51_lost_iff says exactly which operation loses the wake-up."
  },
  {
   "property": "C52",
   "status": "proved",
   "theorems": [
    "Letmein.Props.C52_no_leaked_connection",
    "Letmein.Props.C52_ended_session_receives_nothing"
   ],
   "note": ""
  },
  {
   "property": "C53",
   "status": "partial",
   "theorems": [
    "Letmein.Props.C53_deaf_iff",
    "Letmein.Props.C53_data_noticed_partial",
    "Letmein.Props.C53_negation"
   ],
   "note": "The full statement is false of the code: a receive round woken by the watch channel that reads a bad datagram fails before passing the notification on, so another session's datagram stays unnoticed (C53_negation). Proved for histories without overflow and without rejected datagrams in receive rounds. C53_deaf_iff says exactly which operation loses the wake-up."
  },
  {
   "property": "C54",
   "status": "proved",
   "theorems": [
    "Letmein.Props.C54_determined",
    "Letmein.Props.C54_loaded_is_described",
    "Letmein.Props.C54_described_is_loaded",
    "Letmein.Props.C54_server_needs_document",
    "Letmein.Props.C54_blanks"
   ],
   "note": ""
  },
  {
   "property": "C55",
   "status": "partial",
   "theorems": [
    "Letmein.Props.C55_negation",
    "Letmein.Props.C55_unknown_names_ignored_partial",
    "Letmein.Props.C55_same_outcome"
   ],
   "note": "False (C55_negation): unknown names are silently ignored. The partial theorem states that they have no influence at all. C55_same_outcome: files that agree on the known names have the same outcome."
  },
  {
   "property": "C56",
   "status": "partial",
   "theorems": [
    "Letmein.Props.C56_negation",
    "Letmein.Props.C56_keeps_accepting_partial",
    "Letmein.Props.C56_keeps_accepting_iff"
   ],
   "note": "False as stated (C56_negation): idle connections until accept fails with EMFILE terminate the server. C56_keeps_accepting_partial: as long as descriptors are left, connections and session ends never do. C56_keeps_accepting_iff: the condition is necessary."
  },
  {
   "property": "C57",
   "status": "partial",
   "theorems": [
    "Letmein.Props.C57_negation",
    "Letmein.Props.C57_orderly_exit_partial",
    "Letmein.Props.C57_sighup_ignored",
    "Letmein.Props.C57_exit_iff",
    "Letmein.Props.C57_sessions_iff"
   ],
   "note": "False as stated (C57_negation): with a session in progress, dropping its unclosed connection fails an assertion and the process aborts. Proved for states without sessions. C57_exit_iff: with a session in progress it always aborts. C57_sessions_iff: a session is in progress exactly if its connection was accepted and its end has not been handled."
  },
  {
   "property": "C58",
   "status": "partial",
   "theorems": [
    "Letmein.Props.C58_rejected_changes_nothing_partial",
    "Letmein.Props.C58_negation"
   ],
   "note": "False as stated (C58_negation): the accept loop ends with the error of the rejected connection, and the daemon terminates and closes all ports. The partial theorem: the rejection itself changes nothing."
  },
  {
   "property": "C59",
   "status": "partial",
   "theorems": [
    "Letmein.Props.C59_no_rules_left_partial",
    "Letmein.Props.C59_negation",
    "Letmein.Props.C59_failed_start_iff"
   ],
   "note": "False as stated (C59_negation): start-up failing after the firewall has been initialized leaves the control port's rules. Proved for every history after a completed start-up. C59_failed_start_iff says exactly when a failed start leaves rules."
  },
  {
   "property": "C60",
   "status": "proved",
   "theorems": [
    "Letmein.Props.C60_asked_by_letmeind"
   ],
   "note": ""
  },
  {
   "property": "C61",
   "status": "proved",
   "theorems": [
    "Letmein.Props.C61_socket",
    "Letmein.Props.C61_socket_iff"
   ],
   "note": ""
  },
  {
   "property": "C62",
   "status": "partial",
   "theorems": [
    "Letmein.Props.C62_unfiltered_iff",
    "Letmein.Props.C62_mode_in_force_partial",
    "Letmein.Props.C62_no_silent_failure",
    "Letmein.Props.C62_negation"
   ],
   "note": "False as stated (C62_negation): on platforms without support a configured filter is skipped with a warning. Proved for the supported ones. C62_unfiltered_iff: it runs unfiltered exactly then."
  },
  {
   "property": "C63",
   "status": "proved",
   "theorems": [
    "Letmein.Props.C63_only_key_holders_get_in",
    "Letmein.Props.C63_for_bounded_time"
   ],
   "note": ""
  },
  {
   "property": "C64",
   "status": "proved",
   "theorems": [
    "Letmein.Props.C64_pid_round_trip",
    "Letmein.Props.C64_no_other_pid",
    "Letmein.Props.C64_failed_write"
   ],
   "note": ""
  },
  {
   "property": "C65",
   "status": "proved",
   "theorems": [
    "Letmein.Props.C65_never_open",
    "Letmein.Props.C65_open_for_group",
    "Letmein.Props.C65_others_stay"
   ],
   "note": ""
  },
  {
   "property": "C66",
   "status": "proved",
   "theorems": [
    "Letmein.Props.C66_letmeind",
    "Letmein.Props.C66_letmeinfwd",
    "Letmein.Props.C66_client_filter_first",
    "Letmein.Props.C66_client_network",
    "Letmein.Props.C66_client_success",
    "Letmein.Props.C66_client_genkey"
   ],
   "note": ""
  },
  {
   "property": "C67",
   "status": "proved",
   "theorems": [
    "Letmein.Props.C67_no_more_requests_than_connections",
    "Letmein.Props.C67_second_message_ignored"
   ],
   "note": "Counts the messages handled against the accepted connections in every history of letmeinfwd's main loop; the messages a connection would carry later are shown to have no effect."
  },
  {
   "property": "C68",
   "status": "partial",
   "theorems": [
    "Letmein.Props.C68_session_peer_time",
    "Letmein.Props.C68_session_total_partial",
    "Letmein.Props.C68_client_peer_time",
    "Letmein.Props.C68_client_total_partial",
    "Letmein.Props.C68_client_no_limit",
    "Letmein.Props.C68_session_no_limit"
   ],
   "note": "The full statement is false of the code: connecting (client) and the conversation with letmeinfwd (letmeind) have no time limit. The _partial theorems bound the time spent waiting for the peer, and the total under a premise on those steps."
  },
  {
   "property": "C69",
   "status": "partial",
   "theorems": [
    "Letmein.Props.C69_anyone_is_believed",
    "Letmein.Props.C69_fails",
    "Letmein.Props.C69_authentic_partial",
    "Letmein.Props.C69_success_iff"
   ],
   "note": "The full statement is false of the code: the client checks neither the authentication nor the ids of what it receives. The _partial theorem says what its success does mean. C69_success_iff says exactly what makes the client report success."
  },
  {
   "property": "C70",
   "status": "partial",
   "theorems": [
    "Letmein.Props.C70_open_iff",
    "Letmein.Props.C70_first_request_partial",
    "Letmein.Props.C70_recovery",
    "Letmein.Props.C70_fails"
   ],
   "note": "The full statement is false of the code (C70_fails): renewing a lease writes no rule. C70_first_request_partial proves it for requests that create a lease, C70_recovery the repair after a failed removal. C70_open_iff says exactly when the port is open after an acknowledged request."
  },
  {
   "property": "C71",
   "status": "proved",
   "theorems": [
    "Letmein.Props.C71_no_leak"
   ],
   "note": "Relational: every trace under one configuration is a trace under the other. Running times are not modelled."
  },
  {
   "property": "C72",
   "status": "proved",
   "theorems": [
    "Letmein.Props.C72_generated_key_works"
   ],
   "note": "Composition of C39, C54 and C14."
  },
  {
   "property": "C73",
   "status": "proved",
   "theorems": [
    "Letmein.Props.C73_every_byte_run_succeeds",
    "Letmein.Props.C73_byte_run_exists",
    "Letmein.Props.C73_tx_round",
    "Letmein.Props.C73_rx_round"
   ],
   "note": "Refinement: each byte level step is a message level step of C14 or works on one message; the rounds are tied to the loops of C05 (C73_tx_round, C73_rx_round). Errors of the kernel are outside (they are in C05 and in the traces of the session)."
  },
  {
   "property": "C74",
   "status": "proved",
   "theorems": [
    "Letmein.Props.C74_never_fails",
    "Letmein.Props.C74_can_finish"
   ],
   "note": "Simulation of the message level exchange of C14 by the dispatchers of C27-C33 on both sides, with arbitrary foreign operations. The conditions of undisturbed runs are exactly the known weaknesses (C27, C30, C31, C33). Not covered: lost, duplicated or spoofed datagrams of the client's address, time limits."
  },
  {
   "property": "C75",
   "status": "partial",
   "theorems": [
    "Letmein.Props.C75_accept_wakeups",
    "Letmein.Props.C75_idle_partial",
    "Letmein.Props.C75_negation_waiting",
    "Letmein.Props.C75_negation_overflow"
   ],
   "note": "False of the code in two ways: sessions poll every 10 ms while another session leaves a datagram unfetched (C75_negation_waiting), and for ever after an overflow, since the counter of queued datagrams then never returns to zero (C75_negation_overflow). C75_accept_wakeups holds of all runs; C75_idle_partial of servers without overflow and with nothing queued."
  },
  {
   "property": "C76",
   "status": "partial",
   "theorems": [
    "Letmein.Props.C76_letmeind_iff",
    "Letmein.Props.C76_letmeinfwd_iff",
    "Letmein.Props.C76_letmeind_partial",
    "Letmein.Props.C76_letmeinfwd_partial",
    "Letmein.Props.C76_letmein",
    "Letmein.Props.C76_negation",
    "Letmein.Props.C76_negation_fwd",
    "Letmein.Props.C76_life_iff",
    "Letmein.Props.C76_no_firewall"
   ],
   "note": "False of the daemons for --num-connections above 2^61-1, where creating the semaphore panics (C76_negation); letmeinfwd has written its rules by then (C76_negation_fwd). The _partial theorems exclude only that. The client panics only if the random generator does not work (hypothesis of C76_letmein, checked panic in the code). Not covered: clap, the runtime, the signal handlers. C76_letmeind_iff and C76_letmeinfwd_iff: the daemons panic exactly then, if nothing else is wrong."
  },
  {
   "property": "C77",
   "status": "partial",
   "theorems": [
    "Letmein.Props.C77_rounds",
    "Letmein.Props.C77_closes_in_time_partial",
    "Letmein.Props.C77_negation"
   ],
   "note": "C77_rounds: when rounds take place. C77_closes_in_time_partial: the bound, given bounds on the hold-up by scheduler, lock and nft. Without these there is none, because nothing limits the run of nft (C77_negation). The interval of the tokio runtime is modelled after its documentation."
  },
  {
   "property": "C78",
   "status": "partial",
   "theorems": [
    "Letmein.Props.C78_count_partial",
    "Letmein.Props.C78_negation",
    "Letmein.Props.C78_printed_iff"
   ],
   "note": "Holds at the start, while no maintenance has failed, and at the shutdown (C78_count_partial); false for requests served between a failed maintenance and the shutdown (C78_negation)."
  },
  {
   "property": "C79",
   "status": "proved",
   "theorems": [
    "Letmein.Props.C79_honest_knock_opens",
    "Letmein.Props.C79_complete_run"
   ],
   "note": "C79_honest_knock_opens: every run; C79_complete_run: there is one to the end. Messages are delivered in order (C73 and C74 are about bytes and datagrams); the openness at the end needs that the knock took less than the lease time."
  },
  {
   "property": "C80",
   "status": "proved",
   "theorems": [
    "Letmein.Props.C80_only_described",
    "Letmein.Props.C80_one_file",
    "Letmein.Props.C80_command_opens"
   ],
   "note": "C80_only_described: pid file stays as letmeind wrote it, and what arrives from letmeind's process was sent by its sessions (operating system). C80_command_opens: messages are delivered (cf. C79). Equality of the two servers' files is an assumption of C80_one_file and C80_command_opens; it is the default (SERVER_CONF_PATH)."
  },
  {
   "property": "C81",
   "status": "partial",
   "theorems": [
    "Letmein.Props.C81_recognised_partial",
    "Letmein.Props.C81_error_iff",
    "Letmein.Props.C81_letmeinfwd",
    "Letmein.Props.C81_shipped_letmeinfwd",
    "Letmein.Props.C81_shipped_letmeind",
    "Letmein.Props.C81_short_name_negation",
    "Letmein.Props.C81_protocol_negation",
    "Letmein.Props.C81_port_negation"
   ],
   "note": "What Linux answers about a descriptor is specified in Props/SystemdFd (FdObject.answers). False in three ways: Unix sockets with short names are refused because their address is shorter than struct sockaddr (C81_short_name_negation); protocol and port are not looked at (C81_protocol_negation, C81_port_negation)."
  },
  {
   "property": "C82",
   "status": "proved",
   "theorems": [
    "Letmein.Props.C82_default_path",
    "Letmein.Props.C82_client_has_its_own",
    "Letmein.Props.C82_daemons_share"
   ],
   "note": "PathBuf::push is modelled after its documentation. The path is relative to the working directory if the prefix is (C82_default_path says exactly when)."
  },
  {
   "property": "C83",
   "status": "proved",
   "theorems": [
    "Letmein.Props.C83_serial",
    "Letmein.Props.C83_ruleset",
    "Letmein.Props.C83_only_asked",
    "Letmein.Props.C83_no_crash",
    "Letmein.Props.C83_answer_possible",
    "Letmein.Props.C83_unanswered",
    "Letmein.Props.C83_nft_runs"
   ],
   "note": "Removes, for letmeinfwd, the assumption that operations under the mutex are atomic: a task-level model (one step per stretch between awaits, one nft run at a time) is shown to be explained by histories of the model that C17 to C25 and C49 are about. What other programs may do is any preorder on rulesets. C83_unanswered is a behaviour to know of: a connection waiting when the shutdown takes the lock gets no answer."
  },
  {
   "property": "C84",
   "status": "partial",
   "theorems": [
    "Letmein.Props.C84_nothing_unasked",
    "Letmein.Props.C84_refused_partial",
    "Letmein.Props.C84_shutdown",
    "Letmein.Props.C84_negation"
   ],
   "note": "False when nft, run for a connection, takes effect and is reported as failed: open_port forgets the lease, so the rule stays until the chain is flushed (C84_negation: still open after a successful maintenance at any later time). Proved when such reports are limited to maintenance and shutdown (C84_refused_partial)."
  },
  {
   "property": "C85",
   "status": "proved",
   "theorems": [
    "Letmein.Props.C85_hidden",
    "Letmein.Props.C85_closed_in_time",
    "Letmein.Props.C85_established",
    "Letmein.Props.C85_only_opens",
    "Letmein.Props.C85_other_protocols"
   ],
   "note": ""
  },
  {
   "property": "C86",
   "status": "partial",
   "theorems": [
    "Letmein.Props.C86_emptied_iff",
    "Letmein.Props.C86_restored_partial",
    "Letmein.Props.C86_not_restored",
    "Letmein.Props.C86_locked_out",
    "Letmein.Props.C86_repeat_acked"
   ],
   "note": "False of the code: maintenance writes to the chain only if a grant has expired, so without grants the control port stays closed for ever (C86_not_restored, C86_locked_out), and a repeated knock is acknowledged though its rule is gone (C86_repeat_acked). C86_restored_partial proves that a maintenance at which a grant has expired whose rule is missing restores everything. C86_emptied_iff: after the chain was emptied, exactly which maintenance restores what is wanted."
  },
  {
   "property": "C87",
   "status": "proved",
   "theorems": [
    "Letmein.Props.C87_collision",
    "Letmein.Props.C87_tag_binds",
    "Letmein.Props.C87_collision_in_run",
    "Letmein.Props.C87_padding"
   ],
   "note": ""
  },
  {
   "property": "C88",
   "status": "proved",
   "theorems": [
    "Letmein.Props.C88_accepted",
    "Letmein.Props.C88_meaning",
    "Letmein.Props.C88_accuracy",
    "Letmein.Props.C88_negative",
    "Letmein.Props.C88_exact",
    "Letmein.Props.C88_whole",
    "Letmein.Props.C88_monotone",
    "Letmein.Props.C88_configured"
   ],
   "note": "The parser of f64 and Duration::from_secs_f64 are modelled after the documentation of the standard library (grammar, nearest double, nearest nanosecond, ties to even)."
  },
  {
   "property": "C89",
   "status": "proved",
   "theorems": [
    "Letmein.Props.C89_meaning",
    "Letmein.Props.C89_unambiguous",
    "Letmein.Props.C89_round_trip",
    "Letmein.Props.C89_characters",
    "Letmein.Props.C89_lookups",
    "Letmein.Props.C89_knock"
   ],
   "note": ""
  },
  {
   "property": "C90",
   "status": "proved",
   "theorems": [
    "Letmein.Props.C90_values",
    "Letmein.Props.C90_commands",
    "Letmein.Props.C90_unambiguous",
    "Letmein.Props.C90_one_line",
    "Letmein.Props.C90_own_chain",
    "Letmein.Props.C90_lease",
    "Letmein.Props.C90_rebuild",
    "Letmein.Props.C90_comment_fits"
   ],
   "note": ""
  },
  {
   "property": "C91",
   "status": "proved",
   "theorems": [
    "Letmein.Props.C91_keeps_running",
    "Letmein.Props.C91_keeps_accepting",
    "Letmein.Props.C91_stops"
   ],
   "note": ""
  },
  {
   "property": "C92",
   "status": "proved",
   "theorems": [
    "Letmein.Props.C92_letmeind_starts",
    "Letmein.Props.C92_letmeinfwd_starts"
   ],
   "note": ""
  },
  {
   "property": "C93",
   "status": "proved",
   "theorems": [
    "Letmein.Props.C93_expressible",
    "Letmein.Props.C93_seconds"
   ],
   "note": ""
  },
  {
   "property": "C94",
   "status": "proved",
   "theorems": [
    "Letmein.Props.C94_same_settings",
    "Letmein.Props.C94_any_order",
    "Letmein.Props.C94_layout"
   ],
   "note": ""
  },
  {
   "property": "C95",
   "status": "proved",
   "theorems": [
    "Letmein.Props.C95_sha3",
    "Letmein.Props.C95_hmac",
    "Letmein.Props.C95_check",
    "Letmein.Props.C95_check_knock",
    "Letmein.Props.C95_collision"
   ],
   "note": ""
  },
  {
   "property": "C96",
   "status": "proved",
   "theorems": [
    "Letmein.Props.C96_status",
    "Letmein.Props.C96_ended",
    "Letmein.Props.C96_success_clean",
    "Letmein.Props.C96_left"
   ],
   "note": ""
  },
  {
   "property": "C97",
   "status": "partial",
   "theorems": [
    "Letmein.Props.C97_killed_iff",
    "Letmein.Props.C97_undisturbed",
    "Letmein.Props.C97_handled_partial",
    "Letmein.Props.C97_negation"
   ],
   "note": "False of the code: the handlers are registered after the rules have been written, so a signal (SIGHUP as well) in between kills letmeinfwd and leaves the control port open (C97_negation). C97_killed_iff says exactly when rules are left; C97_handled_partial is the statement from the registration on; C97_undisturbed: without being killed, start-up ends as without the signal."
  },
  {
   "property": "C98",
   "status": "partial",
   "theorems": [
    "Letmein.Props.C98_found_iff",
    "Letmein.Props.C98_known_found_partial",
    "Letmein.Props.C98_not_invented",
    "Letmein.Props.C98_negation"
   ],
   "note": "False of the code (C98_negation): an answer without an address of the family ends the search. C98_found_iff: exactly when the name is found. C98_known_found_partial: found if no name server answers without an address."
  },
  {
   "property": "C99",
   "status": "partial",
   "theorems": [
    "Letmein.Props.C99_bound_partial",
    "Letmein.Props.C99_rules_per_address",
    "Letmein.Props.C99_negation"
   ],
   "note": "False of the code (C99_negation, C99_rules_per_address): every address gets its own rules. C99_bound_partial: the rules are at most those of the control port and two for every granted request that had not expired at the last maintenance."
  },
  {
   "property": "C100",
   "status": "proved",
   "theorems": [
    "Letmein.Props.C100_restart",
    "Letmein.Props.C100_start",
    "Letmein.Props.C100_renamed"
   ],
   "note": "Model/Several.lean: any number of runs on one kernel; operations of different runs are atomic with respect to each other. C100_restart is the exact statement for one run at a time, C100_start needs no such assumption, C100_renamed is the case of another chain."
  },
  {
   "property": "C101",
   "status": "partial",
   "theorems": [
    "Letmein.Props.C101_nothing_more_partial",
    "Letmein.Props.C101_not_noticed",
    "Letmein.Props.C101_negation"
   ],
   "note": "False of the code (C101_negation, C100_start): a second start empties the chain. C101_nothing_more_partial: what is accepted is the control port of some run or granted by some run. C101_not_noticed: renewals are acknowledged without opening again."
  },
  {
   "property": "C102",
   "status": "partial",
   "theorems": [
    "Letmein.Props.C102_served_partial",
    "Letmein.Props.C102_port_in_use",
    "Letmein.Props.C102_disturbed_iff",
    "Letmein.Props.C102_fwd_start",
    "Letmein.Props.C102_negation"
   ],
   "note": "False of the code (C102_negation): another start that gets as far as its sockets takes the pid file over, even if it fails or is killed then, and the running letmeind's next connection ends letmeinfwd. C102_served_partial: as long as no other start gets its sockets, exactly that letmeind is served. C102_disturbed_iff: exactly which starts disturb. C102_port_in_use: the usual case."
  },
  {
   "property": "C103",
   "status": "partial",
   "theorems": [
    "Letmein.Props.C103_last_start_partial",
    "Letmein.Props.C103_running_iff",
    "Letmein.Props.C103_negation"
   ],
   "note": "False of the code (C103_negation): the pid file is never removed, so a process that gets the pid of a letmeind that has ended is served (if it has letmeind's account), and after a kill in the middle of the write the first digits count as pid. C103_last_start_partial: the pid is always that of the start that last changed the file, or leading digits of it. C103_running_iff: exactly when only a running letmeind is served."
  },
  {
   "property": "C104",
   "status": "proved",
   "theorems": [
    "Letmein.Props.C104_refines",
    "Letmein.Props.C104_complete",
    "Letmein.Props.C104_one_ahead",
    "Letmein.Props.C104_sigterm"
   ],
   "note": ""
  },
  {
   "property": "C105",
   "status": "partial",
   "theorems": [
    "Letmein.Props.C105_success_exact",
    "Letmein.Props.C105_no_copies_partial",
    "Letmein.Props.C105_succeeds_iff",
    "Letmein.Props.C105_negation"
   ],
   "note": "The first sentence is false: a Knock delivered twice makes the session refuse (port closed), a Challenge delivered twice makes the client fail although the port has been opened (C105_negation). Proved: if nothing times out, the client succeeds exactly if no datagram has been taken twice (C105_succeeds_iff); without copies the exchange always comes to its good end (C105_no_copies_partial); the second sentence holds for every delivery (C105_success_exact)."
  },
  {
   "property": "C106",
   "status": "partial",
   "theorems": [
    "Letmein.Props.C106_server_partial",
    "Letmein.Props.C106_programs",
    "Letmein.Props.C106_server_steps",
    "Letmein.Props.C106_keys_kept",
    "Letmein.Props.C106_client_open",
    "Letmein.Props.C106_negation"
   ],
   "note": "False for the client's configuration: install-client.sh sets mode 0644, so every local user can read the keys, even if the administrator had closed the file before (C106_negation, C106_client_open), although doc/CONFIGURATION.md asks for the key to be kept secret at both ends. Everything else is proved. Trusted: what GNU install, chown and chmod do."
  },
  {
   "property": "C107",
   "status": "partial",
   "theorems": [
    "Letmein.Props.C107_knock_iff",
    "Letmein.Props.C107_same_firewall",
    "Letmein.Props.C107_restart_partial",
    "Letmein.Props.C107_negation"
   ],
   "note": "False: letmeinfwd reads the same file at its own start, and the unit files restart it with its socket or nftables only, not with letmeind; a resource with a new port is refused until then, with Go-Away to a fully authenticated client (C107_negation). Exact condition: C107_knock_iff. True for all edits outside of NFTABLES, the control port and the set of resource ports (C107_restart_partial, C107_same_firewall)."
  },
  {
   "property": "C108",
   "status": "proved",
   "theorems": [
    "Letmein.Props.C108_session",
    "Letmein.Props.C108_datagrams",
    "Letmein.Props.C108_no_amplification",
    "Letmein.Props.C108_bound_reached"
   ],
   "note": "C108_session for one session (also TCP), C108_datagrams and C108_no_amplification for the whole UDP server, C108_bound_reached shows that the factor 1 is reached."
  },
  {
   "property": "C109",
   "status": "proved",
   "theorems": [
    "Letmein.Props.C109_open",
    "Letmein.Props.C109_two_datagrams_each"
   ],
   "note": "C109_open composes the session (C07, C08) with the dispatcher (C28); C109_two_datagrams_each counts."
  },
  {
   "property": "C110",
   "status": "proved",
   "theorems": [
    "Letmein.Props.C110_server",
    "Letmein.Props.C110_client",
    "Letmein.Props.C110_token",
    "Letmein.Props.C110_never_reused"
   ],
   "note": "C110_server, C110_client (salts are the draws, one each, in order), C110_token, C110_never_reused (any number of runs)."
  },
  {
   "property": "C111",
   "status": "partial",
   "theorems": [
    "Letmein.Props.C111_client_iff",
    "Letmein.Props.C111_server",
    "Letmein.Props.C111_silence",
    "Letmein.Props.C111_client_negation",
    "Letmein.Props.C111_client_partial"
   ],
   "note": "True for the server (C111_server, C111_silence). False for the client: check_reply only warns about wrong user or resource ids, so a Challenge for other ids is answered and a Come-In for other ids is success (C111_client_negation). Disregarding ids it holds for the client (C111_client_partial). C111_client_iff says exactly what is needed."
  },
  {
   "property": "C112",
   "status": "proved",
   "theorems": [
    "Letmein.Props.C112_server",
    "Letmein.Props.C112_client",
    "Letmein.Props.C112_fwd",
    "Letmein.Props.C112_start",
    "Letmein.Props.C112_other_keys"
   ],
   "note": ""
  },
  {
   "property": "C113",
   "status": "proved",
   "theorems": [
    "Letmein.Props.C113_named_ports",
    "Letmein.Props.C113_loaded",
    "Letmein.Props.C113_firewall",
    "Letmein.Props.C113_letmeind",
    "Letmein.Props.C113_client",
    "Letmein.Props.C113_example_keys",
    "Letmein.Props.C113_examples"
   ],
   "note": ""
  },
  {
   "property": "C114",
   "status": "proved",
   "theorems": [
    "Letmein.Props.C114_revoked",
    "Letmein.Props.C114_port_closed",
    "Letmein.Props.C114_restart_letmeinfwd",
    "Letmein.Props.C114_not_at_once"
   ],
   "note": ""
  },
  {
   "property": "C115",
   "status": "proved",
   "theorems": [
    "Letmein.Props.C115_keys_not_printed",
    "Letmein.Props.C115_printed_iff",
    "Letmein.Props.C115_kinds"
   ],
   "note": "Chains of error contexts; the texts about options of other sections and about names are parameters that get what is read there only. The iteration order of the HashMap depends on the names only (ByName)."
  },
  {
   "property": "C116",
   "status": "partial",
   "theorems": [
    "Letmein.Props.C116_iff",
    "Letmein.Props.C116_who",
    "Letmein.Props.C116_order",
    "Letmein.Props.C116_reload_partial",
    "Letmein.Props.C116_after",
    "Letmein.Props.C116_negation"
   ],
   "note": "False of the unit files: letmeinfwd.service requires nftables.service but is not ordered after it. If it is started before the ruleset is loaded, letmeinfwd runs with an empty chain for good (C116_negation, for every configuration and state). Proved for all orders in which it is started after it; with After=nftables.service all orders are (C116_after). C116_iff says exactly when."
  },
  {
   "property": "C117",
   "status": "partial",
   "theorems": [
    "Letmein.Props.C117_no_effect",
    "Letmein.Props.C117_refused_partial",
    "Letmein.Props.C117_negation",
    "Letmein.Props.C117_negation_lost"
   ],
   "note": "False: the port is opened before the acknowledgement is sent, so it stays open for the lease time if the acknowledgement (C117_negation) or the Come-In (C117_negation_lost) is lost. Proved: nothing happens unless letmeinfwd acknowledged (C117_no_effect); after a Go-Away the only other case is that the acknowledgement did not reach the session (C117_refused_partial)."
  },
  {
   "property": "C118",
   "status": "partial",
   "theorems": [
    "Letmein.Props.C118_lm_result",
    "Letmein.Props.C118_fwd_result",
    "Letmein.Props.C118_lm_steps",
    "Letmein.Props.C118_lm_partial",
    "Letmein.Props.C118_lm_iff",
    "Letmein.Props.C118_fwd_steps",
    "Letmein.Props.C118_fwd_partial",
    "Letmein.Props.C118_fwd_iff",
    "Letmein.Props.C118_pulled",
    "Letmein.Props.C118_negation_early",
    "Letmein.Props.C118_negation_never"
   ],
   "note": "False of the code in both directions: the message is sent before the pid file is written and the filter installed (C118_negation_early), and it is not sent if letmeind binds its own sockets, which happens when letmeind.service is started without letmeind.socket, that it does not require (C118_negation_never, C118_pulled). Proved: the exact order of the steps on all paths, what holds whenever the message is sent (control port open, listening), and exactly when a daemon that runs has sent it."
  },
  {
   "property": "C119",
   "status": "partial",
   "theorems": [
    "Letmein.Props.C119_install",
    "Letmein.Props.C119_restart_partial",
    "Letmein.Props.C119_restart_disables",
    "Letmein.Props.C119_negation",
    "Letmein.Props.C119_negation_failed",
    "Letmein.Props.C119_fixed"
   ],
   "note": "Proved for install-server.sh (C119_install) and, for the time up to the next boot, for restart.sh (C119_restart_partial). False for restart.sh after a boot: it uses the function stop_services of the installation, which disables all units, and never enables them again (C119_restart_disables, C119_negation); without these calls it is right (C119_fixed). A failed installation leaves letmein stopped and disabled (C119_negation_failed)."
  },
  {
   "property": "C120",
   "status": "proved",
   "theorems": [
    "Letmein.Props.C120_default",
    "Letmein.Props.C120_required"
   ],
   "note": "Proved: C120_default for the seven documented defaults, C120_required (exactly when letmeinfwd starts with a loaded file). A server file without family, table or chain-input is nevertheless accepted by letmeind."
  },
  {
   "property": "C121",
   "status": "partial",
   "theorems": [
    "Letmein.Props.C121_unforgeable_partial",
    "Letmein.Props.C121_fresh_iff",
    "Letmein.Props.C121_stays",
    "Letmein.Props.C121_negation_umask",
    "Letmein.Props.C121_negation_kept"
   ],
   "note": "Proved for a umask that takes the write permission from group and others and a run directory that others could not write to before (C121_unforgeable_partial, C121_stays), which holds under the shipped unit; exactly which umasks suffice if letmeind makes the directory itself: C121_fresh_iff. False in general: letmeind sets neither owner nor mode of its directory and pid file (letmeinfwd does), so an empty umask or a directory that somebody else made lets others forge the file (C121_negation_umask, C121_negation_kept)."
  },
  {
   "property": "C122",
   "status": "partial",
   "theorems": [
    "Letmein.Props.C122_account",
    "Letmein.Props.C122_busy",
    "Letmein.Props.C122_readers_partial",
    "Letmein.Props.C122_negation",
    "Letmein.Props.C122_negation_failed"
   ],
   "note": "Proved for create-user.sh followed by install-server.sh (C122_account, C122_readers_partial), given that every user's primary group exists. False when create-user.sh is run on an installed system without another installation: it deletes and recreates user and group, the gid may change, the configuration keeps the old gid; letmeind cannot read it, and members of a group that later gets the old gid can (C122_negation). A failed run leaves no user letmeind (C122_negation_failed); if the user cannot be deleted the script fails (C122_busy)."
  },
  {
   "property": "C123",
   "status": "partial",
   "theorems": [
    "Letmein.Props.C123_asks",
    "Letmein.Props.C123_iff",
    "Letmein.Props.C123_named_partial",
    "Letmein.Props.C123_negation"
   ],
   "note": "False if client and server have different ports for the resource: only its identifier is sent (C123_negation: the knock for port 2222 succeeds, port 22 is open, port 2222 is not). Proved if they agree (C123_named_partial); C123_iff: if nothing else has opened the port for this host, a packet is let in exactly if the resource has this port and the packet's protocol in letmeind's configuration. C123_asks: the command asks for nothing else."
  },
  {
   "property": "C124",
   "status": "partial",
   "theorems": [
    "Letmein.Props.C124_iff",
    "Letmein.Props.C124_usable_partial",
    "Letmein.Props.C124_negation_control",
    "Letmein.Props.C124_negation_nokey"
   ],
   "note": "False of the code: files load although a resource has the control port, which letmeind refuses at every knock (C124_negation_control), and although a resource is for users without a key (C124_negation_nokey). C124_iff says exactly who can open what: there is a key for the user, the resource is for everybody or this user, and it does not have the control port."
  },
  {
   "property": "C125",
   "status": "proved",
   "theorems": [
    "Letmein.Props.C125_files",
    "Letmein.Props.C125_knock",
    "Letmein.Props.C125_nobody_else",
    "Letmein.Props.C125_second_restart",
    "Letmein.Props.C125_possible"
   ],
   "note": "The files are the shipped ones, line by line; the parser of floating-point numbers is the exact one of the model (f64Secs). C125_second_restart: after the first of the two documented restarts the knock still fails, since letmeinfwd does not know the port."
  },
  {
   "property": "C126",
   "status": "partial",
   "theorems": [
    "Letmein.Props.C126_files",
    "Letmein.Props.C126_units",
    "Letmein.Props.C126_removed_partial",
    "Letmein.Props.C126_account",
    "Letmein.Props.C126_negation"
   ],
   "note": "False for the accounts: none of the commands removes the user and the group letmeind (C126_negation, C126_account). Proved for all files and units; every other file survives even if commands fail (C126_files)."
  },
  {
   "property": "C127",
   "status": "proved",
   "theorems": [
    "Letmein.Props.C127_server",
    "Letmein.Props.C127_server_only",
    "Letmein.Props.C127_client",
    "Letmein.Props.C127_goaway",
    "Letmein.Props.C127_server_possible",
    "Letmein.Props.C127_client_possible"
   ],
   "note": "The other side is described as bytes, from the document alone (DocKnock, DocChallenge, DocResponse, DocComeIn, DocGoAway, DocTable), with the bit-level functions of FIPS 202 and FIPS 198-1. That the hypotheses can be met is C127_server_possible and C127_client_possible."
  },
  {
   "property": "C128",
   "status": "proved",
   "theorems": [
    "Letmein.Props.C128_same_daemon",
    "Letmein.Props.C128_command_lines",
    "Letmein.Props.C128_how_often",
    "Letmein.Props.C128_only_if_needed",
    "Letmein.Props.C128_no_other_way",
    "Letmein.Props.C128_which_file",
    "Letmein.Props.C128_configured",
    "Letmein.Props.C128_values"
   ],
   "note": "CONFIGURATION.md also says that the path cannot end with a backslash; the code has no such restriction (C128_values). The arguments that the crate nftables puts together and the search of execvp(3) are taken from their documentation."
  },
  {
   "property": "C129",
   "status": "proved",
   "theorems": [
    "Letmein.Props.C129_all_succeed",
    "Letmein.Props.C129_success_means_there",
    "Letmein.Props.C129_nothing_else",
    "Letmein.Props.C129_alone",
    "Letmein.Props.C129_simpler_model"
   ],
   "note": "Covers the creation of missing parents and concurrent processes, which the simpler model used for the start-up of the daemons leaves out; C129_simpler_model relates both. Symbolic links are not modelled."
  },
  {
   "property": "C130",
   "status": "partial",
   "theorems": [
    "Letmein.Props.C130_files",
    "Letmein.Props.C130_stub_answers",
    "Letmein.Props.C130_stub_suffices",
    "Letmein.Props.C130_daemons_start",
    "Letmein.Props.C130_pidfile_partial",
    "Letmein.Props.C130_pidfile_race",
    "Letmein.Props.C130_genkey",
    "Letmein.Props.C130_knock",
    "Letmein.Props.C130_possible"
   ],
   "note": "Partial: that the script accepts the pid file of a starting daemon whenever it looks is false. Between open and write the file is there but empty, and then the script ends the test with \"Invalid PID-file\" (C130_pidfile_race: such a moment exists in every successful start of either daemon). C130_pidfile_partial covers the time after the file has been written."
  },
  {
   "property": "C131",
   "status": "proved",
   "theorems": [
    "Letmein.Props.C131_among_strangers",
    "Letmein.Props.C131_all_succeed",
    "Letmein.Props.C131_completed"
   ],
   "note": "Assumes that letmeinfwd's own commands succeed, that it isn't told to stop, and that no message of this exchange is lost, as C79 does. That letmeinfwd handles one message at a time is justified by C83."
  },
  {
   "property": "C132",
   "status": "proved",
   "theorems": [
    "Letmein.Props.C132_prompt_knock_succeeds",
    "Letmein.Props.C132_bounds_exact"
   ],
   "note": "The exact bounds show how slow letmeinfwd and nft may be with the default time limits: five eighths of a second for each step."
  },
  {
   "property": "C133",
   "status": "proved",
   "theorems": [
    "Letmein.Props.C133_no_gap",
    "Letmein.Props.C133_late_closes"
   ],
   "note": "That an honest knock makes such a request is C79. As in C19 the points are those between operations; each run of nft is one transaction."
  },
  {
   "property": "C134",
   "status": "partial",
   "theorems": [
    "Letmein.Props.C134_same_port_refused",
    "Letmein.Props.C134_negation",
    "Letmein.Props.C134_new_session_partial"
   ],
   "note": "Partial: false over UDP if the new client happens to get the local port of the old one (or a NAT maps it so) while the old session waits for the Response. C134_same_port_refused: then the new client does not succeed and letmeinfwd is not asked, whatever happens; but the old session ends by that, after ten steps at most, so that the attempt after that is as any other. C134_new_session_partial covers all knocks with a session of their own."
  },
  {
   "property": "C135",
   "status": "partial",
   "theorems": [
    "Letmein.Props.C135_last_line_unchecked",
    "Letmein.Props.C135_only_last_program",
    "Letmein.Props.C135_negation",
    "Letmein.Props.C135_build_checked_partial"
   ],
   "note": "Partial: false in two ways. The text is piped without a line end after its last line, so that read fails for it and the last library is never looked at (C135_last_line_unchecked). The loop runs in a subshell in dash and bash, so that die ends the subshell only; nobody looks at the status of check_dynlibs, and what letmein and letmeind need has no influence on the exit status (C135_only_last_program). C135_build_checked_partial covers the rest; an unexpected library that is not printed last is always complained about."
  },
  {
   "property": "C136",
   "status": "proved",
   "theorems": [
    "Letmein.Props.C136_no_gap_between_runs",
    "Letmein.Props.C136_series_exists",
    "Letmein.Props.C136_bound_exact"
   ],
   "note": "Joins C132 (each knock is in time) and C133 (a renewal in time leaves no gap). The other operations must be fair in the sense of C19, letmeinfwd isn't told to stop and is still running at the end. As in C132 the time of a step is when it takes effect."
  },
  {
   "property": "C137",
   "status": "partial",
   "theorems": [
    "Letmein.Props.C137_negation",
    "Letmein.Props.C137_success_iff",
    "Letmein.Props.C137_steps_partial"
   ],
   "note": "Partial: false for commands that crash. Windows gives a crashed program a status with the highest bit set, which is negative for cmd.exe, and `if ERRORLEVEL 1` is not true then (C137_negation). C137_success_iff says exactly when success is reported; C137_steps_partial is the claim for commands that do not crash, with the commands that are run. That cmd.exe compares signed numbers and that a missing label ends a script are assumptions about cmd.exe; the theorems hold for either reading of the line `@:error`."
  },
  {
   "property": "C138",
   "status": "proved",
   "theorems": [
    "Letmein.Props.C138_replay_is_answered",
    "Letmein.Props.C138_recorded_opens_nothing",
    "Letmein.Props.C138_policy_basic_auth_is_passed"
   ],
   "note": "For a server that keeps its configuration. C138_replay_is_answered is the weakness itself, including that the server does nothing else; C138_recorded_opens_nothing is its limit, with the only way out that one of the recorded texts collides with the text checked; that none of them is a Response to the challenge drawn is the hypothesis `OldText`. C138_policy_basic_auth_is_passed: the policy basic-auth does not hide the server from somebody who has recorded a Knock."
  },
  {
   "property": "C139",
   "status": "partial",
   "theorems": [
    "Letmein.Props.C139_enough_partial",
    "Letmein.Props.C139_full_auth_not_weaker",
    "Letmein.Props.C139_exact",
    "Letmein.Props.C139_negation"
   ],
   "note": "Partial: false for Knocks with a valid tag for a resource that is not configured, not granted to the user or on the control port. These, and replays of them, are answered with a Go-Away with basic-auth, and with nothing with full-auth (C139_negation). C139_exact: this is exactly the difference. C139_enough_partial: otherwise the same Challenge is sent in the same circumstances; C139_full_auth_not_weaker: full-auth reveals nothing that basic-auth hides."
  }
 ]
}