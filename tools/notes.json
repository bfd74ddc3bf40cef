{
 "C12": {
  "status": "partial",
  "note": "The unrestricted claim is false of the code: C12_stray_sync_swallows_frame is a proved counterexample family. Proved: garbage without a sync byte, re-scan after a corrupted header, drop of a bad body, guaranteed recovery after 4108 non-sync bytes."
 },
 "C14": {
  "status": "partial",
  "note": "False of the code: C14_foreign_frame_wedges for every foreign or empty frame, C14_reachable. C14_delivered_partial says exactly what is delivered of any sequence of frames, in any chunks: the payloads of the frames before the first that is not for this station or has no payload. Missing: the frames after it, which are not delivered until the layer below closes."
 },
 "C15": {
  "status": "partial",
  "note": "False of the code in general: two theorems prove the violations (lost frame, stale frame). C15_clean_reopen_partial proves the property when no unparsed byte and no outstanding read is left at the close."
 },
 "C37": {
  "status": "partial",
  "note": "False of the code in two cases, both proved (C37_violations): empty authentic data is counted twice, clock and session-age refusals are not counted. C37_each_message_counted_partial gives the exact count in every case."
 },
 "C21": {
  "status": "partial",
  "note": "At the level of the layer, for every configuration and execution: until it is replaced by other data or dropped, data handed over is cut without gap, repetition or reordering (C21_layer). Complete transmission: proved for link payload limits of at least 1051 bytes (C21_fragmentation_partial). For smaller limits the claim is false of the code: C21_chunk_fits_iff says exactly when a chunk can be sent and C21_small_limit_violation gives the failure for every limit below 1051."
 },
 "C29": {
  "status": "partial",
  "note": "Opening only after an authenticated handshake: proved for every environment. Delivery only of authentic data: proved for responders with any application, and for initiators whose application calls start_rx from inside callbacks at most at once when it is told that there is data, as the proxy does (ReadsAtOnce; C29_data_only_from_session_partial). Without that restriction it is false of the code: C29_nested_read_violation exhibits an execution in which an attacker's bytes are delivered."
 },
 "C33": {
  "status": "proved",
  "note": "Kept and unmodified, and nothing read before consumption: proved for every environment when the application uses the layer directly. Through the IStack of the factory the claim is false after a close: C33_stack_violation. In addition, announced data is given at the next call (C33_announced_data_is_given_partial, under the same restriction as C29; C33_nested_read_violation shows it is needed). For whole layers (same restriction): what the application receives is, session after session, what was accepted, in order, each item at most once (C33_layer_given_in_order), and nothing is skipped when the application uses the layer directly, or through an IStack before the first close (C33_layer_none_skipped)."
 },
 "C30": {
  "status": "proved",
  "note": "Proved for every state, every message that is not authentic and fresh; the only exception is the misuse of the backend by messages with too short keys (BackendMisuse; C30_short_ephemeral_faults shows it is real). 'Undisturbed' is about the established session; C30_forged_reply_loses_data shows that a forged reply to a renegotiation still makes the initiator send user data under keys the peer does not have."
 },
 "C26": {
  "status": "proved",
  "note": "Exact: the error code is always the code of an actual fault of the request, faults always lead to exactly one error reply, and only requests without fault are answered with a reply or `unknown`. Exception: misuse of the backend by too short keys in certificates (C28_short_authority_key_faults)."
 },
 "C38": {
  "status": "partial",
  "note": "Chunking, detection and checksum: proved for every stream and chunking. The round trip holds for status ok only (C38_roundtrip_partial): the writer never writes the status (C38_status_violation). A reader that starts in the middle of a frame may never synchronize (C38_misaligned_violation)."
 },
 "C27": {
  "status": "proved",
  "note": "Store: every history (C27_returned_was_added, C27_at_most_once, C27_one_user for several users of one source). Layer: each session installed by an initiator or responder in every execution used its own key (C27_new_key_for_each_session). A source configured with zero users divides by zero: C27_zero_users_violation."
 },
 "C34": {
  "status": "proved",
  "note": "Proved for applications that read (start_rx) from inside callbacks at most at once when they are told that there is data; with other reads the claim is false (C34_nested_stall). An idle initiator with a running session timer need not have a valid session (C34_idle_without_session). A running timer is assumed to expire eventually (exe4cpp); that every expiry leads to an attempt is proved. The bad-configuration state is left only by a close."
 },
 "C35": {
  "status": "proved",
  "note": "For applications that read from inside callbacks at most at once when they are told that there is data, triggers of at least 2, and peers that send no empty data messages; the latter restriction is needed (C35_empty_data_violation). C34_session is the session timer."
 },
 "C40": {
  "status": "partial",
  "note": "Proved for every operation but the generation of X25519 key pairs (C40_supported_partial), for which the claim is false of the code in both directions (C40_keypair_violation)."
 },
 "C42": {
  "status": "partial",
  "note": "Proved for all histories in which no session with a completed handshake is evicted; evicting such a session is undefined behaviour (double erase from the map), which is reachable with every maximum (C42_eviction_violation)."
 },
 "C43": {
  "status": "partial",
  "note": "Proved up to 24 days; false of the code for every larger number of days (C43_overflow_violation, C43_wrapping_violation)."
 },
 "C45": {
  "status": "proved",
  "note": "Exact conditions and contents (C45_create, C45_append), acceptance by stations (C45_direct_accepted, C45_append_accepted). Signatures are abstract: 64 bytes, and verify under the matching key. C45_short_key_faults: a short private key file is undefined behaviour. C45_at_most_two: no longer chains can be made."
 },
 "C36": {
  "status": "partial",
  "note": "False of the code as stated: C36_stale_data_violation is a reachable execution in which data of a failed session is sent in the next one (the lower layer stays open). Proved positive part, for every execution: nothing handed over before a reopening of the layer below is put into a message after it (C36_nothing_survives_reopen)."
 },
 "C44": {
  "status": "proved",
  "note": "Two session objects (C44_delivered_*), and two whole layers in arbitrary environments (C44_layer_*, C44_end_to_end*): the application of one side receives a prefix of what the application of the other side handed over; equal when all messages were processed. Hypotheses: no tag is forged (the ideal property of the MAC/AEAD), the two sessions share keys (what the handshake gives: C24), strict nonces for prefix (subsequence otherwise), and for the statement across the applications: direct use of the layer or no close yet, reads from inside callbacks at most when data was just announced (see findings 20 and 25), one session and no close on the sending side."
 },
 "C46": {
  "status": "partial",
  "note": "Proved for both transports: order, stability, at most one operation. The liveness part is proved for TCP and false of the code for UDP: C46_udp_silent_stop. Asio and the operating system are the environment: an operation completes at most once, never inside the call that starts it."
 },
 "C47": {
  "status": "partial",
  "note": "Refusals, completion and requests without data: proved for every environment. Acceptance if and only if, and the absence of stalls, are proved as long as no session has been lost on the connection (C47_accepted_iff, C47_no_stall); after a loss they are false of the code: C47_stall_after_loss."
 },
 "C48": {
  "status": "partial",
  "note": "Forwarding, buffers and end-to-end bytes: proved for TCP and UDP, every environment that is silent after closing. Progress is proved for TCP; with UDP it is false of the code (C48_udp_empty_datagram_violation, C48_udp_write_error_violation). The session is followed until its error handler is called."
 },
 "C49": {
  "status": "partial",
  "note": "Exactly the files that describe a set of proxies are accepted (C49_accepted), meaning of all settings, stacks made from them, mirrored files, distinct stores: proved. Protection of the session is proved for all types of handshakes but certificates, where the code ignores it (C49_certificate_protection_violation); reading is safe unless a time exceeds 64 bits of nanoseconds (C49_overflow_violation); further violations are theorems named _violation. The parser of yaml-cpp is not modelled (a file is a tree; how a scalar reads as a number is a parameter)."
 },
 "C50": {
  "status": "partial",
  "note": "Outstanding operations keep the session, removed sessions close and are destroyed within six completions and a poll: proved for every behaviour of the stack, TCP and UDP. The rest of the claim is false of the code: exactly when is C50_reset_violation (TCP, an iff), C50_udp_local_error_violation and C50_udp_dead_violation; C50_tcp_safe_partial is what is true of TCP (the stack must not act after it has closed the application side)."
 },
 "C51": {
  "status": "proved",
  "note": "For every environment whose initiators were made by one of the three constructors of the product."
 },
 "C52": {
  "status": "proved",
  "note": "For lawful primitives (2.3) and frame writers that do not confuse messages (those of the product: C52_writers_faithful). Absence of forgery is a hypothesis of the end-to-end theorems, not of the agreement on keys."
 },
 "C53": {
  "status": "partial",
  "note": "Order and at most once over any number of sessions: proved for any two layers whose sender uses its sessions in turn (C53_subsequence), hence always from the responder to the initiator (C53_to_initiator). From the initiator to the responder the claim is false of the code: C53_loss_violation, C53_reordering_violation; C53_to_responder_partial is what is true."
 },
 "C54": {
  "status": "partial",
  "note": "First session in both directions, any number of sessions to the initiator, keys and certificates of the tool: proved. Any number of sessions to the responder: C54_sessions_to_responder_partial, with the hypothesis that the initiator used its sessions in turn, which it need not (C53_reordering_violation)."
 },
 "C55": {
  "status": "proved",
  "note": "Invariant of a process with device, router of keys and any number of layers (Verif/Qkd.lean), from Reader/Router histories (C38, C27_one_user) and from the layers (Verif/Keyed.lean: each answer of the store is used at most once). For layers in the middle of a function the observations are not counted until they are between functions again."
 },
 "C56": {
  "status": "partial",
  "note": "Proved with the exception that the code makes: after a session auth reply or session data could not be formatted (C56_not_stalled_partial says exactly when). In that case the claim is false of the code: C56_stalled_violation exhibits a reachable state in which the layer below is open, ready and has a message, the application is closed, and nothing is read any more. Applications that read from inside callbacks do so as in C29 (ReadsInOrder). The announcements are tracked by an observer beside the machine (Spec/Reception.lean); the observer excludes no execution (Reachable.watched)."
 },
 "C57": {
  "status": "proved",
  "note": "C57_handshake_succeeds: a nested must-statement (Spec/Inevitable: some step is possible and after every step the outcome is inevitable) over the real small-step machine for the five calls request / reply / auth / auth reply / open; both applications may do anything from the callback in which they are told. Assumes that X25519 of two honest keys does not fail, that buffers have the size the factory gives them (1024..65535) and that no user data is in the layer. The time conditions are those of the code: the handshake fits in the peer's time to live and, with the own one, in the session time."
 },
 "C58": {
  "status": "proved",
  "note": "C58_data_carried: must-statement over the small-step machine in which the application reads in the callback (Spec/Carry: Play, Serves, Carried), by induction on the pieces; either station may be the sender. C58_connected_linked: the states at the end of C57 meet the hypothesis that the sessions belong together. Frames must have room for 1051 bytes (otherwise finding on C21 applies) and buffers the size the factory gives them."
 },
 "C59": {
  "status": "proved",
  "note": "C59_start_to_data composes the handshake (C57) and the transfer of data (C58) in one must-statement over the small-step machine, with applications that return at once from every call and read when told (Spec/Start: Comes, Delivers). Instances for all four credential modes beside it. Everything must happen within the time to live of a message, measured from the beginning; for later transfers use C58, whose hypotheses remain true as long as the session lives."
 },
 "C60": {
  "status": "partial",
  "note": "False of the code: 0 * log2(0) is 0 * -inf = NaN (C60_entropy_violation, C60_first_seven_keys_violation; C60_entropy_number: a number exactly if all 256 values have occurred). Otherwise proved: when and how often metrics are logged for every rounding (C60_when, C60_spacing); the values in exact arithmetic (C60_times, C60_entropy_partial), C60_entropy_range as a check of the specification."
 },
 "C61": {
  "status": "partial",
  "note": "C61_exact: exact condition for and effect of a run that ends well, for every request, input and state of the disk; C61_frame; C61_cert_done (a certificate is read back, so it is there in full); C61_level; C61_at_most_two over all sequences of runs. C61_done_partial and C61_unchanged_partial assume that the outputs are different files that can be written; without that the claims are false of the code: C61_status_violation, C61_same_path_violation, C61_half_pair_violation, C61_full_disk_violation, C61_hang_violation, C61_typed_violation."
 },
 "C63": {
  "status": "partial",
  "note": "Proved for all stations that nothing is outside the places where it is meant to be, and for responders that closing leaves nothing of a handshake (_partial). For initiators the last sentence is false: the ephemeral private key or quantum key of the last handshake stays until the next one begins (C63_initiator_keeps_violation); the parser of QIX frames keeps the last key in an ordinary buffer (C63_parser_keeps_violation). The C63_..._computes theorems show that the programs on memory compute what the handshake and session functions of the rest of the model do. Not modelled: working memory of libsodium, copies made by the compiler, streams, buffers of sockets."
 },
 "C66": {
  "status": "partial",
  "note": "Everything except the rate is proved. The rate is not what is asked for (C66_rate_violation, proved): `elapsed` is start - now instead of now - start, so the thread sleeps the interval and the time that writing took, instead of the interval less this time; a frame then takes the interval and twice the time of writing."
 }
}