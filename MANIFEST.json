{
 "claims": [
  {
   "property": "C01",
   "status": "proved",
   "theorems": [
    "SSP21.C01_vlength_write",
    "SSP21.C01_vlength_roundtrip",
    "SSP21.C01_vlength_canonical",
    "SSP21.C01_vlength_unique",
    "SSP21.C01_vlength_size"
   ],
   "note": ""
  },
  {
   "property": "C02",
   "status": "proved",
   "theorems": [
    "SSP21.C02_request_write",
    "SSP21.C02_reply_write",
    "SSP21.C02_error_write",
    "SSP21.C02_session_data_write",
    "SSP21.C02_request_roundtrip",
    "SSP21.C02_reply_roundtrip",
    "SSP21.C02_error_roundtrip",
    "SSP21.C02_session_data_roundtrip"
   ],
   "note": ""
  },
  {
   "property": "C03",
   "status": "proved",
   "theorems": [
    "SSP21.C03_request_canonical",
    "SSP21.C03_reply_canonical",
    "SSP21.C03_error_canonical",
    "SSP21.C03_session_data_canonical",
    "SSP21.C03_function_code",
    "SSP21.C03_no_trailing"
   ],
   "note": ""
  },
  {
   "property": "C04",
   "status": "proved",
   "theorems": [
    "SSP21.C04_request_size",
    "SSP21.C04_reply_size",
    "SSP21.C04_error_size",
    "SSP21.C04_session_data_size",
    "SSP21.C04_messages_fit"
   ],
   "note": ""
  },
  {
   "property": "C05",
   "status": "proved",
   "theorems": [
    "SSP21.C05_extension",
    "SSP21.C05_certificate_body",
    "SSP21.C05_envelope",
    "SSP21.C05_chain",
    "SSP21.C05_container",
    "SSP21.C05_chain_capacity",
    "SSP21.C05_extension_capacity"
   ],
   "note": ""
  },
  {
   "property": "C06",
   "status": "proved",
   "theorems": [
    "SSP21.C06_crc_is_polynomial"
   ],
   "note": ""
  },
  {
   "property": "C07",
   "status": "proved",
   "theorems": [
    "SSP21.C07_burst32_detected",
    "SSP21.C07_odd_errors_detected",
    "SSP21.C07_hamming_distance_4"
   ],
   "note": ""
  },
  {
   "property": "C08",
   "status": "proved",
   "theorems": [
    "C08_writer_emits_frame",
    "C08_frame_round_trip",
    "C08_writer_parser"
   ],
   "note": ""
  },
  {
   "property": "C09",
   "status": "proved",
   "theorems": [
    "SSP21.Link.C09_chunking_irrelevant"
   ],
   "note": ""
  },
  {
   "property": "C10",
   "status": "proved",
   "theorems": [
    "C10_frame_was_received"
   ],
   "note": ""
  },
  {
   "property": "C11",
   "status": "proved",
   "theorems": [
    "SSP21.Link.C11_parser_never_faults",
    "SSP21.Link.C11_parser_consumes"
   ],
   "note": ""
  },
  {
   "property": "C12",
   "status": "partial",
   "theorems": [
    "C12_garbage_skipped",
    "C12_bad_header_rescanned",
    "C12_frame_after_truncated_header",
    "C12_bad_body_dropped",
    "C12_recovers_after_silence",
    "C12_stray_sync_swallows_frame"
   ],
   "note": "The unrestricted claim is false of the code: C12_stray_sync_swallows_frame is a proved counterexample family. Proved: garbage without a sync byte, re-scan after a corrupted header, drop of a bad body, guaranteed recovery after 4108 non-sync bytes."
  },
  {
   "property": "C13",
   "status": "proved",
   "theorems": [
    "SSP21.Link.C13_delivered_is_addressed_to_us",
    "SSP21.Link.C13_in_order_delivery"
   ],
   "note": ""
  },
  {
   "property": "C14",
   "status": "partial",
   "theorems": [
    "SSP21.Link.C14_foreign_frame_wedges",
    "SSP21.Link.C14_reachable",
    "SSP21.Link.C14_delivered_partial"
   ],
   "note": "False of the code: C14_foreign_frame_wedges for every foreign or empty frame, C14_reachable. C14_delivered_partial says exactly what is delivered of any sequence of frames, in any chunks: the payloads of the frames before the first that is not for this station or has no payload. Missing: the frames after it, which are not delivered until the layer below closes."
  },
  {
   "property": "C15",
   "status": "partial",
   "theorems": [
    "SSP21.Link.C15_clean_reopen_partial",
    "SSP21.Link.C15_first_frame_after_reopen_is_lost",
    "SSP21.Link.C15_stale_frame_delivered_after_reopen"
   ],
   "note": "False of the code in general: two theorems prove the violations (lost frame, stale frame). C15_clean_reopen_partial proves the property when no unparsed byte and no outstanding read is left at the close."
  },
  {
   "property": "C16",
   "status": "proved",
   "theorems": [
    "SSP21.Crypto.C16_layer_nonces_count_up",
    "SSP21.Crypto.C16_layer_messages",
    "SSP21.Crypto.C16_layer_frames",
    "SSP21.C16_tx_nonces_count_up",
    "SSP21.C16_tx_nonces_distinct",
    "SSP21.C16_nothing_before_initialisation"
   ],
   "note": ""
  },
  {
   "property": "C17",
   "status": "proved",
   "theorems": [
    "SSP21.Crypto.C17_layer_no_replay",
    "SSP21.C17_rx_nonces_increase",
    "SSP21.C17_auth_only_first"
   ],
   "note": ""
  },
  {
   "property": "C18",
   "status": "proved",
   "theorems": [
    "SSP21.C18_data_is_authentic",
    "SSP21.C18_auth_is_authentic",
    "SSP21.C18_hmac_mode",
    "SSP21.C18_gcm_mode",
    "SSP21.C18_refusal_has_no_effect"
   ],
   "note": ""
  },
  {
   "property": "C19",
   "status": "proved",
   "theorems": [
    "SSP21.C19_accepted_in_time",
    "SSP21.C19_formatted_in_time",
    "SSP21.C19_ttl_exact",
    "SSP21.C19_ttl_padding_honoured"
   ],
   "note": ""
  },
  {
   "property": "C20",
   "status": "proved",
   "theorems": [
    "SSP21.C20_invalid_session_is_inert",
    "SSP21.C20_reset",
    "SSP21.C20_initialize",
    "SSP21.C20_keys_only_while_valid"
   ],
   "note": ""
  },
  {
   "property": "C21",
   "status": "partial",
   "theorems": [
    "SSP21.Crypto.C21_layer",
    "SSP21.C21_fragmentation_partial",
    "SSP21.C21_chunk_fits_iff",
    "SSP21.C21_small_limit_violation"
   ],
   "note": "At the level of the layer, for every configuration and execution: until it is replaced by other data or dropped, data handed over is cut without gap, repetition or reordering (C21_layer). Complete transmission: proved for link payload limits of at least 1051 bytes (C21_fragmentation_partial). For smaller limits the claim is false of the code: C21_chunk_fits_iff says exactly when a chunk can be sent and C21_small_limit_violation gives the failure for every limit below 1051."
  },
  {
   "property": "C22",
   "status": "proved",
   "theorems": [
    "SSP21.C22_mac_input_injective",
    "SSP21.C22_gcm_nonce_injective",
    "SSP21.C22_formatted_tag"
   ],
   "note": ""
  },
  {
   "property": "C23",
   "status": "proved",
   "theorems": [
    "SSP21.C23_data_roundtrip",
    "SSP21.C23_auth_roundtrip"
   ],
   "note": ""
  },
  {
   "property": "C24",
   "status": "proved",
   "theorems": [
    "SSP21.C24_shared_secret",
    "SSP21.C24_qkd",
    "SSP21.C24_public_key",
    "SSP21.C24_preshared",
    "SSP21.C24_agree_counterpart"
   ],
   "note": ""
  },
  {
   "property": "C25",
   "status": "proved",
   "theorems": [
    "SSP21.C25_initiator_keys",
    "SSP21.C25_responder_keys",
    "SSP21.C25_derivation_binds",
    "SSP21.C25_keys_bind_transcript",
    "SSP21.C25_shared_secret_required",
    "SSP21.C25_initiator_session",
    "SSP21.C25_responder_session",
    "SSP21.C25_public_key_agreement"
   ],
   "note": ""
  },
  {
   "property": "C26",
   "status": "proved",
   "theorems": [
    "SSP21.Crypto.C26_responses",
    "SSP21.Crypto.C26_no_prior_handshake"
   ],
   "note": "Exact: the error code is always the code of an actual fault of the request, faults always lead to exactly one error reply, and only requests without fault are answered with a reply or `unknown`. Exception: misuse of the backend by too short keys in certificates (C28_short_authority_key_faults)."
  },
  {
   "property": "C27",
   "status": "proved",
   "theorems": [
    "SSP21.Qix.C27_returned_was_added",
    "SSP21.Qix.C27_at_most_once",
    "SSP21.Qix.C27_one_user",
    "SSP21.Qix.C27_source_total",
    "SSP21.Qix.C27_zero_users_violation",
    "SSP21.Crypto.C27_initiator_uses_key",
    "SSP21.Crypto.C27_responder_uses_key",
    "SSP21.Crypto.C27_new_key_for_each_session",
    "SSP21.Crypto.C27_new_request_for_each_session"
   ],
   "note": "Store: every history (C27_returned_was_added, C27_at_most_once, C27_one_user for several users of one source). Layer: each session installed by an initiator or responder in every execution used its own key (C27_new_key_for_each_session). A source configured with zero users divides by zero: C27_zero_users_violation."
  },
  {
   "property": "C28",
   "status": "proved",
   "theorems": [
    "SSP21.C28_accept_iff",
    "SSP21.C28_bounds",
    "SSP21.C28_no_chain_without_anchor_signature",
    "SSP21.C28_handler",
    "SSP21.C28_own_chain_is_acceptable",
    "C28_short_authority_key_faults"
   ],
   "note": ""
  },
  {
   "property": "C29",
   "status": "partial",
   "theorems": [
    "SSP21.Crypto.C29_data_only_from_session_partial",
    "SSP21.Crypto.LayerExample.C29_nested_read_violation",
    "SSP21.Crypto.C29_opened_only_after_handshake",
    "SSP21.Crypto.C29_keys_from_handshake",
    "SSP21.Crypto.C29_opened_under_handshake_keys",
    "SSP21.Crypto.C29_initiator_shared_secret",
    "SSP21.Crypto.C29_responder_shared_secret"
   ],
   "note": "Opening only after an authenticated handshake: proved for every environment. Delivery only of authentic data: proved for responders with any application, and for initiators whose application calls start_rx from inside callbacks at most at once when it is told that there is data, as the proxy does (ReadsAtOnce; C29_data_only_from_session_partial). Without that restriction it is false of the code: C29_nested_read_violation exhibits an execution in which an attacker's bytes are delivered."
  },
  {
   "property": "C30",
   "status": "proved",
   "theorems": [
    "SSP21.Crypto.C30_unauthenticated_cannot_disturb",
    "SSP21.Crypto.C30_in_executions",
    "SSP21.Crypto.C30_other_messages",
    "SSP21.Crypto.C30_replays",
    "SSP21.Crypto.C30_short_ephemeral_faults",
    "SSP21.Crypto.LayerExample.C30_forged_reply_loses_data"
   ],
   "note": "Proved for every state, every message that is not authentic and fresh; the only exception is the misuse of the backend by messages with too short keys (BackendMisuse; C30_short_ephemeral_faults shows it is real). 'Undisturbed' is about the established session; C30_forged_reply_loses_data shows that a forged reply to a renegotiation still makes the initiator send user data under keys the peer does not have."
  },
  {
   "property": "C31",
   "status": "proved",
   "theorems": [
    "SSP21.Crypto.C31_close_resets",
    "SSP21.Crypto.C31_during_close",
    "SSP21.Crypto.C31_nothing_until_handshake"
   ],
   "note": ""
  },
  {
   "property": "C32",
   "status": "proved",
   "theorems": [
    "SSP21.Crypto.C32_never_while_busy",
    "SSP21.Crypto.C32_once_per_readiness"
   ],
   "note": ""
  },
  {
   "property": "C33",
   "status": "proved",
   "theorems": [
    "SSP21.Crypto.C33_announced_data_is_given_partial",
    "SSP21.Crypto.LayerExample.C33_nested_read_violation",
    "SSP21.Crypto.LayerExample.C33_stack_violation",
    "SSP21.Crypto.C33_no_read_before_consumed",
    "SSP21.Crypto.C33_given_memory_untouched",
    "SSP21.Crypto.C33_layer_given_in_order",
    "SSP21.Crypto.C33_layer_none_skipped"
   ],
   "note": "Kept and unmodified, and nothing read before consumption: proved for every environment when the application uses the layer directly. Through the IStack of the factory the claim is false after a close: C33_stack_violation. In addition, announced data is given at the next call (C33_announced_data_is_given_partial, under the same restriction as C29; C33_nested_read_violation shows it is needed). For whole layers (same restriction): what the application receives is, session after session, what was accepted, in order, each item at most once (C33_layer_given_in_order), and nothing is skipped when the application uses the layer directly, or through an IStack before the first close (C33_layer_none_skipped)."
  },
  {
   "property": "C34",
   "status": "proved",
   "theorems": [
    "SSP21.Crypto.C34_never_stuck",
    "SSP21.Crypto.C34_retry",
    "SSP21.Crypto.C34_session",
    "SSP21.Crypto.C34_response",
    "SSP21.Crypto.C34_error_reply",
    "SSP21.Crypto.C34_txReady",
    "SSP21.Crypto.LayerExample.C34_nested_stall",
    "SSP21.Crypto.LayerExample.C34_idle_without_session"
   ],
   "note": "Proved for applications that read (start_rx) from inside callbacks at most at once when they are told that there is data; with other reads the claim is false (C34_nested_stall). An idle initiator with a running session timer need not have a valid session (C34_idle_without_session). A running timer is assumed to expire eventually (exe4cpp); that every expiry leads to an attempt is proved. The bad-configuration state is left only by a close."
  },
  {
   "property": "C35",
   "status": "proved",
   "theorems": [
    "SSP21.Crypto.C35_nonce_trigger",
    "SSP21.Crypto.C35_session_timer",
    "SSP21.Crypto.LayerExample.C35_empty_data_violation"
   ],
   "note": "For applications that read from inside callbacks at most at once when they are told that there is data, triggers of at least 2, and peers that send no empty data messages; the latter restriction is needed (C35_empty_data_violation). C34_session is the session timer."
  },
  {
   "property": "C36",
   "status": "partial",
   "theorems": [
    "SSP21.Crypto.C36_nothing_survives_reopen",
    "SSP21.Crypto.LayerExample.C36_stale_data_violation"
   ],
   "note": "False of the code as stated: C36_stale_data_violation is a reachable execution in which data of a failed session is sent in the next one (the lower layer stays open). Proved positive part, for every execution: nothing handed over before a reopening of the layer below is put into a message after it (C36_nothing_survives_reopen)."
  },
  {
   "property": "C37",
   "status": "partial",
   "theorems": [
    "SSP21.C37_each_message_counted_partial",
    "SSP21.C37_violations"
   ],
   "note": "False of the code in two cases, both proved (C37_violations): empty authentic data is counted twice, clock and session-age refusals are not counted. C37_each_message_counted_partial gives the exact count in every case."
  },
  {
   "property": "C38",
   "status": "partial",
   "theorems": [
    "SSP21.Qix.C38_writer",
    "SSP21.Qix.C38_chunking",
    "SSP21.Qix.C38_frames_are_read",
    "SSP21.Qix.C38_reported_occur",
    "SSP21.Qix.C38_damaged_blocks",
    "SSP21.Qix.C38_damage_detected",
    "SSP21.Qix.C38_handled",
    "SSP21.Qix.C38_status_violation",
    "SSP21.Qix.C38_roundtrip_partial",
    "SSP21.Qix.C38_misaligned_violation"
   ],
   "note": "Chunking, detection and checksum: proved for every stream and chunking. The round trip holds for status ok only (C38_roundtrip_partial): the writer never writes the status (C38_status_violation). A reader that starts in the middle of a frame may never synchronize (C38_misaligned_violation)."
  },
  {
   "property": "C39",
   "status": "proved",
   "theorems": [
    "SSP21.Qix.C39_contents",
    "SSP21.Qix.C39_consume",
    "SSP21.Qix.C39_find",
    "SSP21.Qix.C39_add",
    "SSP21.Qix.C39_available",
    "SSP21.Qix.C39_source"
   ],
   "note": ""
  },
  {
   "property": "C40",
   "status": "partial",
   "theorems": [
    "SSP21.Facade.C40_supported_partial",
    "SSP21.Facade.C40_keypair_violation",
    "SSP21.Facade.C40_advertised",
    "SSP21.Facade.C40_once",
    "SSP21.Facade.C40_mandatory"
   ],
   "note": "Proved for every operation but the generation of X25519 key pairs (C40_supported_partial), for which the claim is false of the code in both directions (C40_keypair_violation)."
  },
  {
   "property": "C41",
   "status": "proved",
   "theorems": [
    "SSP21.C41_upper_layer",
    "SSP21.C41_forwarded_once",
    "SSP21.C41_stack_forwards",
    "SSP21.Link.C41_link_forwards",
    "SSP21.Link.C41_link_layer",
    "SSP21.Crypto.C41_crypto_layer",
    "SSP21.Crypto.C41_open_only_if_lower_open"
   ],
   "note": ""
  },
  {
   "property": "C42",
   "status": "partial",
   "theorems": [
    "SSP21.Proxy.C42_bounded_partial",
    "SSP21.Proxy.C42_connect_partial",
    "SSP21.Proxy.C42_others_stay",
    "SSP21.Proxy.C42_eviction_violation",
    "SSP21.Proxy.C42_leak"
   ],
   "note": "Proved for all histories in which no session with a completed handshake is evicted; evicting such a session is undefined behaviour (double erase from the map), which is reachable with every maximum (C42_eviction_violation)."
  },
  {
   "property": "C43",
   "status": "partial",
   "theorems": [
    "SSP21.Tool.C43_days_partial",
    "SSP21.Tool.C43_overflow_violation",
    "SSP21.Tool.C43_wrapping_violation"
   ],
   "note": "Proved up to 24 days; false of the code for every larger number of days (C43_overflow_violation, C43_wrapping_violation)."
  },
  {
   "property": "C44",
   "status": "proved",
   "theorems": [
    "SSP21.C44_delivered_is_prefix",
    "SSP21.C44_delivered_is_subsequence",
    "SSP21.C44_complete",
    "SSP21.C44_auth_payload",
    "SSP21.Crypto.C44_layer_subsequence",
    "SSP21.Crypto.C44_layer_prefix",
    "SSP21.Crypto.C44_layer_complete",
    "SSP21.Crypto.C44_end_to_end",
    "SSP21.Crypto.C44_end_to_end_complete"
   ],
   "note": "Two session objects (C44_delivered_*), and two whole layers in arbitrary environments (C44_layer_*, C44_end_to_end*): the application of one side receives a prefix of what the application of the other side handed over; equal when all messages were processed. Hypotheses: no tag is forged (the ideal property of the MAC/AEAD), the two sessions share keys (what the handshake gives: C24), strict nonces for prefix (subsequence otherwise), and for the statement across the applications: direct use of the layer or no close yet, reads from inside callbacks at most when data was just announced (see findings 20 and 25), one session and no close on the sending side."
  },
  {
   "property": "C45",
   "status": "proved",
   "theorems": [
    "SSP21.Config.C45_keys_load",
    "SSP21.Config.C45_keys_sign",
    "SSP21.Tool.C45_key_files",
    "SSP21.Tool.C45_create",
    "SSP21.Tool.C45_short_key_faults",
    "SSP21.Tool.C45_direct_accepted",
    "SSP21.Tool.C45_append",
    "SSP21.Tool.C45_append_accepted",
    "SSP21.Tool.C45_at_most_two"
   ],
   "note": "Exact conditions and contents (C45_create, C45_append), acceptance by stations (C45_direct_accepted, C45_append_accepted). Signatures are abstract: 64 bytes, and verify under the matching key. C45_short_key_faults: a short private key file is undefined behaviour. C45_at_most_two: no longer chains can be made."
  },
  {
   "property": "C46",
   "status": "partial",
   "theorems": [
    "SSP21.Asio.C46_in_order",
    "SSP21.Asio.C46_slice_stable",
    "SSP21.Asio.C46_one_at_a_time",
    "SSP21.Asio.C46_ready_means_accepted",
    "SSP21.Asio.C46_tcp_keeps_reading",
    "SSP21.Asio.C46_udp_silent_stop"
   ],
   "note": "Proved for both transports: order, stability, at most one operation. The liveness part is proved for TCP and false of the code for UDP: C46_udp_silent_stop. Asio and the operating system are the environment: an operation completes at most once, never inside the call that starts it."
  },
  {
   "property": "C47",
   "status": "partial",
   "theorems": [
    "SSP21.Crypto.C47_refused_only_if",
    "SSP21.Crypto.C47_accepted_only_if",
    "SSP21.Crypto.C47_ready_once",
    "SSP21.Crypto.C47_empty_never_completes",
    "SSP21.Crypto.C47_no_stall",
    "SSP21.Crypto.C47_accepted_iff",
    "SSP21.Crypto.LayerExample.C47_stall_after_loss"
   ],
   "note": "Refusals, completion and requests without data: proved for every environment. Acceptance if and only if, and the absence of stalls, are proved as long as no session has been lost on the connection (C47_accepted_iff, C47_no_stall); after a loss they are false of the code: C47_stall_after_loss."
  },
  {
   "property": "C48",
   "status": "partial",
   "theorems": [
    "SSP21.Crypto.Bridge.C48_chunks_accepted",
    "SSP21.Crypto.Bridge.C48_data_written",
    "SSP21.Crypto.Bridge.C48_buffer_not_overwritten",
    "SSP21.Crypto.Bridge.C48_written_memory_untouched",
    "SSP21.Crypto.Bridge.C48_tcp_keeps_reading",
    "SSP21.Crypto.Bridge.C48_tcp_keeps_writing",
    "SSP21.Crypto.Bridge.C48_reading_stall_is_final",
    "SSP21.Crypto.Bridge.C48_writing_stall_is_final",
    "SSP21.Crypto.Bridge.C48_socket_to_socket",
    "SSP21.Crypto.Bridge.C48_socket_to_socket_complete",
    "SSP21.Crypto.Bridge.C48_udp_empty_datagram_violation",
    "SSP21.Crypto.Bridge.C48_udp_write_error_violation"
   ],
   "note": "Forwarding, buffers and end-to-end bytes: proved for TCP and UDP, every environment that is silent after closing. Progress is proved for TCP; with UDP it is false of the code (C48_udp_empty_datagram_violation, C48_udp_write_error_violation). The session is followed until its error handler is called."
  },
  {
   "property": "C49",
   "status": "partial",
   "theorems": [
    "SSP21.Config.C49_serial",
    "SSP21.Config.C49_accepted",
    "SSP21.Config.C49_no_link",
    "SSP21.Config.C49_cache_size",
    "SSP21.Config.C49_baud_violation",
    "SSP21.Config.C49_unknown_settings_violation",
    "SSP21.Config.C49_session_duration_violation",
    "SSP21.Config.C49_overflow_violation",
    "SSP21.Config.C49_subscriber_range_violation",
    "SSP21.Config.C49_zero_subscribers_violation",
    "SSP21.Config.C49_file_means",
    "SSP21.Config.C49_parameters",
    "SSP21.Config.C49_keys",
    "SSP21.Config.C49_tcp_has_link",
    "SSP21.Config.C49_addresses",
    "SSP21.Config.C49_mirrored",
    "SSP21.Config.C49_request",
    "SSP21.Config.C49_keys_in_use",
    "SSP21.Config.C49_parameters_in_use",
    "SSP21.Config.C49_protection_partial",
    "SSP21.Config.C49_mirrored_secrets",
    "SSP21.Config.C49_certificate_protection_violation",
    "SSP21.Config.C49_stores_distinct",
    "SSP21.Config.C49_reading_safe_partial"
   ],
   "note": "Exactly the files that describe a set of proxies are accepted (C49_accepted), meaning of all settings, stacks made from them, mirrored files, distinct stores: proved. Protection of the session is proved for all types of handshakes but certificates, where the code ignores it (C49_certificate_protection_violation); reading is safe unless a time exceeds 64 bits of nanoseconds (C49_overflow_violation); further violations are theorems named _violation. The parser of yaml-cpp is not modelled (a file is a tree; how a scalar reads as a number is a parameter)."
  },
  {
   "property": "C50",
   "status": "partial",
   "theorems": [
    "SSP21.Lifetime.C50_outlives_operations",
    "SSP21.Lifetime.C50_removed_closed",
    "SSP21.Lifetime.C50_removed_safe",
    "SSP21.Lifetime.C50_removed_destroyed",
    "SSP21.Lifetime.C50_reset_violation",
    "SSP21.Lifetime.C50_tcp_safe_partial",
    "SSP21.Lifetime.C50_tcp_error_removes",
    "SSP21.Lifetime.C50_udp_restarts",
    "SSP21.Lifetime.C50_udp_local_error_violation",
    "SSP21.Lifetime.C50_udp_dead_violation"
   ],
   "note": "Outstanding operations keep the session, removed sessions close and are destroyed within six completions and a poll: proved for every behaviour of the stack, TCP and UDP. The rest of the claim is false of the code: exactly when is C50_reset_violation (TCP, an iff), C50_udp_local_error_violation and C50_udp_dead_violation; C50_tcp_safe_partial is what is true of TCP (the stack must not act after it has closed the application side)."
  },
  {
   "property": "C51",
   "status": "proved",
   "theorems": [
    "SSP21.Crypto.C51_well_formed",
    "SSP21.Crypto.C51_functions"
   ],
   "note": "For every environment whose initiators were made by one of the three constructors of the product."
  },
  {
   "property": "C52",
   "status": "proved",
   "theorems": [
    "SSP21.Crypto.C52_key_agreement",
    "SSP21.Crypto.C52_sessions",
    "SSP21.Crypto.C52_to_responder",
    "SSP21.Crypto.C52_to_initiator",
    "SSP21.Crypto.C52_everything_to_responder",
    "SSP21.Crypto.C52_everything_to_initiator",
    "SSP21.Crypto.C52_writers_faithful"
   ],
   "note": "For lawful primitives (2.3) and frame writers that do not confuse messages (those of the product: C52_writers_faithful). Absence of forgery is a hypothesis of the end-to-end theorems, not of the agreement on keys."
  },
  {
   "property": "C53",
   "status": "partial",
   "theorems": [
    "SSP21.Crypto.C53_subsequence",
    "SSP21.Crypto.C53_to_initiator",
    "SSP21.Crypto.C53_to_responder_partial",
    "SSP21.Crypto.LayerExample.C53_loss_violation",
    "SSP21.Crypto.LayerExample.C53_reordering_violation"
   ],
   "note": "Order and at most once over any number of sessions: proved for any two layers whose sender uses its sessions in turn (C53_subsequence), hence always from the responder to the initiator (C53_to_initiator). From the initiator to the responder the claim is false of the code: C53_loss_violation, C53_reordering_violation; C53_to_responder_partial is what is true."
  },
  {
   "property": "C54",
   "status": "partial",
   "theorems": [
    "SSP21.Config.C54_matching_files_make_peers",
    "SSP21.Config.C54_keys_of_the_tool_match",
    "SSP21.Config.C54_certificates_of_the_tool_certify",
    "SSP21.Config.C54_bytes_to_responder",
    "SSP21.Config.C54_bytes_to_initiator",
    "SSP21.Config.C54_everything_to_responder",
    "SSP21.Config.C54_everything_to_initiator",
    "SSP21.Config.C54_sessions_to_initiator",
    "SSP21.Config.C54_sessions_to_responder_partial"
   ],
   "note": "First session in both directions, any number of sessions to the initiator, keys and certificates of the tool: proved. Any number of sessions to the responder: C54_sessions_to_responder_partial, with the hypothesis that the initiator used its sessions in turn, which it need not (C53_reordering_violation)."
  },
  {
   "property": "C55",
   "status": "proved",
   "theorems": [
    "SSP21.Qkd.C55_keys_come_from_the_device",
    "SSP21.Qkd.C55_keys_taken_once",
    "SSP21.Qkd.C55_sessions_use_device_keys",
    "SSP21.Qkd.C55_one_session_per_key",
    "SSP21.Qkd.C55_sessions_counted",
    "SSP21.Qkd.C55_no_key_twice",
    "SSP21.Qkd.C55_stations_agree",
    "SSP21.Qkd.C55_sessions_agree"
   ],
   "note": "Invariant of a process with device, router of keys and any number of layers (Verif/Qkd.lean), from Reader/Router histories (C38, C27_one_user) and from the layers (Verif/Keyed.lean: each answer of the store is used at most once). For layers in the middle of a function the observations are not counted until they are between functions again."
  },
  {
   "property": "C56",
   "status": "partial",
   "theorems": [
    "SSP21.Crypto.C56_not_stalled_partial",
    "SSP21.Crypto.LayerExample.C56_example_waits",
    "SSP21.Crypto.LayerExample.C56_example_busy",
    "SSP21.Crypto.C56_stalled_violation"
   ],
   "note": "Proved with the exception that the code makes: after a session auth reply or session data could not be formatted (C56_not_stalled_partial says exactly when). In that case the claim is false of the code: C56_stalled_violation exhibits a reachable state in which the layer below is open, ready and has a message, the application is closed, and nothing is read any more. Applications that read from inside callbacks do so as in C29 (ReadsInOrder). The announcements are tracked by an observer beside the machine (Spec/Reception.lean); the observer excludes no execution (Reachable.watched)."
  },
  {
   "property": "C57",
   "status": "proved",
   "theorems": [
    "SSP21.Crypto.C57_handshake_succeeds"
   ],
   "note": "C57_handshake_succeeds: a nested must-statement (Spec/Inevitable: some step is possible and after every step the outcome is inevitable) over the real small-step machine for the five calls request / reply / auth / auth reply / open; both applications may do anything from the callback in which they are told. Assumes that X25519 of two honest keys does not fail, that buffers have the size the factory gives them (1024..65535) and that no user data is in the layer. The time conditions are those of the code: the handshake fits in the peer's time to live and, with the own one, in the session time."
  },
  {
   "property": "C58",
   "status": "proved",
   "theorems": [
    "SSP21.Crypto.C58_data_carried",
    "SSP21.Crypto.C58_connected_linked"
   ],
   "note": "C58_data_carried: must-statement over the small-step machine in which the application reads in the callback (Spec/Carry: Play, Serves, Carried), by induction on the pieces; either station may be the sender. C58_connected_linked: the states at the end of C57 meet the hypothesis that the sessions belong together. Frames must have room for 1051 bytes (otherwise finding on C21 applies) and buffers the size the factory gives them."
  },
  {
   "property": "C59",
   "status": "proved",
   "theorems": [
    "SSP21.Crypto.C59_start_to_data"
   ],
   "note": "C59_start_to_data composes the handshake (C57) and the transfer of data (C58) in one must-statement over the small-step machine, with applications that return at once from every call and read when told (Spec/Start: Comes, Delivers). Instances for all four credential modes beside it. Everything must happen within the time to live of a message, measured from the beginning; for later transfers use C58, whose hypotheses remain true as long as the session lives."
  },
  {
   "property": "C60",
   "status": "partial",
   "theorems": [
    "SSP21.Qix.C60_when",
    "SSP21.Qix.C60_spacing",
    "SSP21.Qix.C60_times",
    "SSP21.Qix.C60_small_bin",
    "SSP21.Qix.C60_entropy_partial",
    "SSP21.Qix.C60_entropy_violation",
    "SSP21.Qix.C60_entropy_number",
    "SSP21.Qix.C60_first_seven_keys_violation",
    "SSP21.Qix.C60_entropy_range"
   ],
   "note": "False of the code: 0 * log2(0) is 0 * -inf = NaN (C60_entropy_violation, C60_first_seven_keys_violation; C60_entropy_number: a number exactly if all 256 values have occurred). Otherwise proved: when and how often metrics are logged for every rounding (C60_when, C60_spacing); the values in exact arithmetic (C60_times, C60_entropy_partial), C60_entropy_range as a check of the specification."
  },
  {
   "property": "C61",
   "status": "partial",
   "theorems": [
    "SSP21.Tool.C61_exact",
    "SSP21.Tool.C61_frame",
    "SSP21.Tool.C61_done_partial",
    "SSP21.Tool.C61_cert_done",
    "SSP21.Tool.C61_unchanged_partial",
    "SSP21.Tool.C61_level",
    "SSP21.Tool.C61_at_most_two",
    "SSP21.Tool.C61_status_violation",
    "SSP21.Tool.C61_same_path_violation",
    "SSP21.Tool.C61_half_pair_violation",
    "SSP21.Tool.C61_full_disk_violation",
    "SSP21.Tool.C61_hang_violation",
    "SSP21.Tool.C61_typed_violation"
   ],
   "note": "C61_exact: exact condition for and effect of a run that ends well, for every request, input and state of the disk; C61_frame; C61_cert_done (a certificate is read back, so it is there in full); C61_level; C61_at_most_two over all sequences of runs. C61_done_partial and C61_unchanged_partial assume that the outputs are different files that can be written; without that the claims are false of the code: C61_status_violation, C61_same_path_violation, C61_half_pair_violation, C61_full_disk_violation, C61_hang_violation, C61_typed_violation."
  },
  {
   "property": "C62",
   "status": "proved",
   "theorems": [
    "SSP21.Qkd.C62_found",
    "SSP21.Qkd.C62_newest",
    "SSP21.Qkd.C62_from_the_device",
    "SSP21.Qkd.C62_both_ends",
    "SSP21.Qkd.C62_source",
    "SSP21.Qkd.C62_store",
    "SSP21.Qkd.C62_device_to_data"
   ],
   "note": ""
  },
  {
   "property": "C63",
   "status": "partial",
   "theorems": [
    "SSP21.Memory.C63_nowhere_else",
    "SSP21.Memory.C63_responder_closed_partial",
    "SSP21.Memory.C63_only_the_key_is_loaded",
    "SSP21.Memory.C63_quantum_key_used_up",
    "SSP21.Memory.C63_initiator_keeps_violation",
    "SSP21.Memory.C63_parser_keeps_violation",
    "SSP21.Memory.C63_add_key_computes",
    "SSP21.Memory.C63_key_store_computes",
    "SSP21.Memory.C63_shared_secret_computes",
    "SSP21.Memory.C63_quantum_key_computes",
    "SSP21.Memory.C63_public_key_computes",
    "SSP21.Memory.C63_initiator_computes",
    "SSP21.Memory.C63_seal_computes",
    "SSP21.Memory.C63_open_computes",
    "SSP21.Memory.C63_begin_computes",
    "SSP21.Memory.C63_request_computes"
   ],
   "note": "Proved for all stations that nothing is outside the places where it is meant to be, and for responders that closing leaves nothing of a handshake (_partial). For initiators the last sentence is false: the ephemeral private key or quantum key of the last handshake stays until the next one begins (C63_initiator_keeps_violation); the parser of QIX frames keeps the last key in an ordinary buffer (C63_parser_keeps_violation). The C63_..._computes theorems show that the programs on memory compute what the handshake and session functions of the rest of the model do. Not modelled: working memory of libsodium, copies made by the compiler, streams, buffers of sockets."
  },
  {
   "property": "C64",
   "status": "proved",
   "theorems": [
    "SSP21.Crypto.C64_same",
    "SSP21.Crypto.C64_follows",
    "SSP21.Crypto.C64_possible",
    "SSP21.Crypto.C64_shared_secret",
    "SSP21.Crypto.C64_responder_shared",
    "SSP21.Crypto.C64_initiator_shared",
    "SSP21.Crypto.C64_responder_private_key",
    "SSP21.Crypto.C64_initiator_private_key"
   ],
   "note": ""
  },
  {
   "property": "C65",
   "status": "proved",
   "theorems": [
    "SSP21.Qix.Threads.C65_one_after_the_other",
    "SSP21.Qix.Threads.C65_no_race",
    "SSP21.Qix.Threads.C65_nothing_undefined",
    "SSP21.Qix.Threads.C65_released",
    "SSP21.Qix.Threads.C65_not_twice"
   ],
   "note": ""
  },
  {
   "property": "C66",
   "status": "partial",
   "theorems": [
    "SSP21.Emulator.C66_random",
    "SSP21.Emulator.C66_stdin",
    "SSP21.Emulator.C66_timed",
    "SSP21.Emulator.C66_time_ids",
    "SSP21.Emulator.C66_time_agrees",
    "SSP21.Emulator.C66_read_back",
    "SSP21.Emulator.C66_options",
    "SSP21.Emulator.C66_rate_violation",
    "SSP21.Emulator.C66_delay_violation"
   ],
   "note": "Everything except the rate is proved. The rate is not what is asked for (C66_rate_violation, proved): `elapsed` is start - now instead of now - start, so the thread sleeps the interval and the time that writing took, instead of the interval less this time; a frame then takes the interval and twice the time of writing."
  },
  {
   "property": "C67",
   "status": "proved",
   "theorems": [
    "SSP21.Tool.C67_show_several",
    "SSP21.Tool.C67_show_key",
    "SSP21.Tool.C67_show_complete",
    "SSP21.Tool.C67_show_certificates",
    "SSP21.Tool.C67_certificate_shown",
    "SSP21.Tool.C67_certificate_any",
    "SSP21.Tool.C67_append_silent",
    "SSP21.Tool.C67_nothing_secret",
    "SSP21.Tool.C67_wrote_exact",
    "SSP21.Tool.C67_show_refused"
   ],
   "note": ""
  },
  {
   "property": "C68",
   "status": "proved",
   "theorems": [
    "SSP21.Crypto.C68_authenticated_was_sent",
    "SSP21.Crypto.C68_no_forgery",
    "SSP21.Config.C68_links_of_files",
    "SSP21.Config.C68_messages_cross",
    "SSP21.Config.C68_network_wired",
    "SSP21.Config.C68_bytes_to_responder",
    "SSP21.Config.C68_bytes_to_initiator",
    "SSP21.Config.C68_everything_to_responder",
    "SSP21.Config.C68_everything_to_initiator"
   ],
   "note": ""
  }
 ]
}