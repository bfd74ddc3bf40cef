{"id": "C01", "title": "Variable-length integers: round trip and minimality", "statement": "Writing any 32-bit length and reading it back returns the same value and leaves exactly the bytes that followed; conversely every length accepted by the reader is the one and only (shortest) encoding the writer would produce, so over-long encodings are rejected.", "quantifier": "every uint32 value, every suffix, every input byte sequence", "why_tests_cant": "2^32 values and unboundedly many inputs; a test samples boundaries only", "anchors": ["cpp/libs/ssp21/src/crypto/VLength.cpp: VLength::write, VLength::read, VLength::num_values_bytes"]}
{"id": "C02", "title": "Every message written is read back unchanged", "statement": "For each of the four SSP21 messages (request/reply handshake begin, handshake error reply, session data), formatting any well-formed message and parsing the resulting bytes yields the same field values and no error.", "quantifier": "every message value: all integers, all defined enum values, byte fields of any length below 2^32", "why_tests_cant": "the value space is unbounded", "anchors": ["cpp/libs/ssp21/src/crypto/gen/*.cpp: read, write", "cpp/libs/ssp21/src/crypto/MessageParser.h", "cpp/libs/ssp21/src/crypto/MessageFormatter.h"]}
{"id": "C03", "title": "Message encoding is canonical and unambiguous", "statement": "If the parser for a message type accepts a byte string, re-formatting the parsed message produces exactly that byte string; so two different byte strings never denote the same message, no byte string denotes messages of two types, and no accepted message has trailing bytes, an unknown function code or an undefined enum value.", "quantifier": "every byte string and every pair of byte strings", "why_tests_cant": "quantifies over all byte strings (malleability cannot be sampled)", "anchors": ["cpp/libs/ssp21/src/crypto/MessageParser.h: read_message", "cpp/libs/ssp21/include/ssp21/crypto/EnumField.h", "cpp/libs/ssp21/include/ssp21/crypto/SeqByteField.h"]}
{"id": "C04", "title": "Declared size is exact and buffers are never overrun", "statement": "For every message or certificate structure, size() equals the number of bytes write() emits; write() succeeds exactly when the destination has at least that many bytes and otherwise reports insufficient_space; the buffer allocated by the serialization helper is always exactly filled.", "quantifier": "every value and every destination capacity", "why_tests_cant": "all sizes times all capacities", "anchors": ["cpp/libs/ssp21/include/ssp21/util/SerializationUtils.h", "cpp/libs/ssp21/src/crypto/MessageFormatter.h: sum_sizes, write_fields"]}
{"id": "C05", "title": "Certificate structures round trip, are canonical and capacity limited", "statement": "Certificate bodies, envelopes, chains, extension envelopes and container files that respect the implementation limits (5 extensions, 6 certificates) round-trip through write and read; every accepted encoding is canonical; encodings declaring more entries than the limit are never accepted.", "quantifier": "every structure value and every byte string", "why_tests_cant": "recursive structures of unbounded content", "anchors": ["cpp/libs/ssp21/src/crypto/gen/CertificateBody.cpp", "cpp/libs/ssp21/include/ssp21/crypto/SeqStructField.h"]}
{"id": "C06", "title": "The table driven CRC is the polynomial CRC", "statement": "The table-driven checksum used on frame headers and bodies equals the bit-serial CRC with polynomial 0xF4ACFB13 (MSB first, zero init, no final xor) on every byte string.", "quantifier": "every byte string", "why_tests_cant": "unbounded inputs; known-answer tests sample a few", "anchors": ["cpp/libs/ssp21/src/link/CastagnoliCRC32.cpp"]}
{"id": "C07", "title": "Burst errors, odd-weight errors and up to three bit errors are always detected by the CRC", "statement": "(a) If two byte strings of equal length (data followed by its checksum) differ, and all differing bits lie within a window of 32 consecutive bits, they cannot both carry a correct checksum; (b) the same when the number of differing bits is odd; (c) the same when one, two or three bits differ and the string is no longer than any link frame (Hamming distance four).", "quantifier": "every byte string of every length and every burst error pattern", "why_tests_cant": "all lengths, positions and 2^32 patterns", "anchors": ["cpp/libs/ssp21/src/link/CastagnoliCRC32.cpp", "cpp/libs/ssp21/src/link/LinkParser.cpp: parse_header, parse_body"]}
{"id": "C08", "title": "Link frames round trip", "statement": "For any destination, source and payload that fits the configured maximum, the frame writer succeeds and a parser waiting for sync fed those bytes reports exactly one frame with the same destination, source and payload, and leaves the bytes that follow the frame unconsumed; larger payloads are refused with insufficient_space.", "quantifier": "every address pair, payload and following bytes", "why_tests_cant": "unbounded payloads", "anchors": ["cpp/libs/ssp21/src/link/LinkFrameWriter.cpp", "cpp/libs/ssp21/src/link/LinkParser.cpp"]}
{"id": "C09", "title": "Frame parsing is independent of how the byte stream is chunked", "statement": "Feeding a byte stream to the link parser in any sequence of chunks (calling it again with what is left, until a frame is available or all is consumed) gives the same parser state, the same delivered frame and the same unconsumed bytes as feeding it at once.", "quantifier": "every parser state, byte stream and chunking", "why_tests_cant": "all segmentations of all streams", "anchors": ["cpp/libs/ssp21/src/link/LinkParser.cpp: parse, parse_many"]}
{"id": "C10", "title": "Delivered frames really were received", "statement": "Whenever the link parser reports a frame, the bytes received since it was last reset end with a contiguous, well-formed frame: sync bytes, header with a matching header checksum, a length within the configured limit, and a payload with a matching body checksum, and the reported fields are those bytes.", "quantifier": "every input stream, chunking and history of resets", "why_tests_cant": "quantifies over all hostile byte streams", "anchors": ["cpp/libs/ssp21/src/link/LinkParser.cpp"]}
{"id": "C11", "title": "The link parser never reads or writes outside its buffer", "statement": "For every configured maximum payload size and every input, all buffer accesses of the parser (including re-scanning of a rejected header that aliases the same buffer) stay inside the allocated buffer, and the aliasing copy does not corrupt bytes still to be scanned.", "quantifier": "every configuration, input and chunking", "why_tests_cant": "memory safety for all inputs; a sanitizer only sees executed inputs", "anchors": ["cpp/libs/ssp21/src/link/LinkParser.cpp: transfer_data, parse_header", "cpp/libs/ssp21/src/link/LinkParser.h: Context"]}
{"id": "C12", "title": "The link parser resynchronises", "statement": "After any garbage a subsequent valid frame is found: (a) garbage bytes without a sync byte before a frame never prevent it being delivered; (b) after a corrupted header the parser re-scans the header bytes so a frame starting inside them is found. (The unrestricted claim is false: a garbage 0x07 directly before a frame swallows it.)", "quantifier": "every garbage prefix and frame", "why_tests_cant": "all garbage strings", "anchors": ["cpp/libs/ssp21/src/link/LinkParser.cpp: parse_sync1, parse_sync2, parse_header"]}
{"id": "C13", "title": "Only frames addressed to the local station reach the upper layer", "statement": "Every payload the link layer hands to the layer above is the payload of a correctly checksummed frame received from the layer below whose destination equals the local address.", "quantifier": "every history of received data, reads, opens and closes", "why_tests_cant": "all histories", "anchors": ["cpp/libs/ssp21/src/link/LinkLayer.cpp: start_rx_from_upper_impl, get_frame"]}
{"id": "C14", "title": "Frames for other stations do not block reception", "statement": "After receiving a valid frame addressed to another station the link layer continues and delivers later frames addressed to it. (False of the code: the foreign frame stays in the parser and every later read returns nothing until the layer is closed.)", "quantifier": "every history", "why_tests_cant": "liveness over all histories", "anchors": ["cpp/libs/ssp21/src/link/LinkLayer.cpp: start_rx_from_upper_impl", "cpp/libs/ssp21/include/ssp21/stack/ILowerLayer.h: start_rx_from_upper"]}
{"id": "C15", "title": "Reopening the link starts from a clean slate", "statement": "After close and reopen, what is delivered depends only on data received after the reopen. (False of the code: the unparsed remainder and the outstanding-read flag survive the close.)", "quantifier": "every history with close/open", "why_tests_cant": "all interleavings of reads and closes", "anchors": ["cpp/libs/ssp21/src/link/LinkLayer.cpp: on_lower_close_impl", "cpp/libs/ssp21/include/ssp21/stack/ILowerLayer.h"]}
{"id": "C16", "title": "A session never transmits the same nonce twice under one key", "statement": "Between two initialisations of a session, the nonces of the messages it formats are strictly increasing by one, start at the first value after initialisation, and never exceed the session's maximum nonce.", "quantifier": "every sequence of format/validate/reset operations, clock readings and payloads", "why_tests_cant": "all histories up to 65535 messages", "anchors": ["cpp/libs/ssp21/src/crypto/Session.cpp: format_session_message, format_session_data, format_session_auth", "cpp/libs/ssp21/src/crypto/Nonce.h"]}
{"id": "C17", "title": "No replayed or reordered message is accepted", "statement": "Between two initialisations, the nonces of the data messages a session accepts are strictly increasing, positive and at most the negotiated maximum; in strict mode the consumed nonces are 1,2,3,...; so no data message is accepted twice. Session-authentication messages are accepted with nonce zero only, and none after a data message was consumed.", "quantifier": "every sequence of received messages, in every nonce mode", "why_tests_cant": "all adversarial schedules", "anchors": ["cpp/libs/ssp21/src/crypto/Session.cpp: validate_message", "cpp/libs/ssp21/src/crypto/NonceFunctions.h"]}
{"id": "C18", "title": "Only authentic data is delivered, and rejection has no effect", "statement": "A session returns user data only if the session's authenticated decryption accepted that metadata, ciphertext and tag under the receive key; on every failed validation except the empty-data case, the session's nonces, keys and validity are unchanged.", "quantifier": "every message, session state and clock reading", "why_tests_cant": "all adversarial inputs", "anchors": ["cpp/libs/ssp21/src/crypto/Session.cpp: validate_message, validate_session_data, validate_session_auth"]}
{"id": "C19", "title": "Session time limits and TTLs are enforced", "statement": "No message is accepted when the clock is before the session start, after the maximum session time, or after the message's time-to-live; no message is formatted outside the session lifetime; a message formatted with TTL padding and received within the padding (less one millisecond, as TTLs are truncated to milliseconds) is not rejected for its TTL; the 32-bit TTL never wraps.", "quantifier": "every clock reading, session limits and padding", "why_tests_cant": "arithmetic over 64-bit clocks", "anchors": ["cpp/libs/ssp21/src/crypto/Session.cpp"]}
{"id": "C20", "title": "An invalid or reset session is inert and holds no keys", "statement": "After reset (or before a successful initialisation) every format and validate call fails (validation with no_valid_session) and no session state changes, and the session's keys have been cleared; initialisation succeeds exactly with two 32-byte keys and otherwise changes nothing; in every history a valid session holds two 32-byte keys and an invalid one none.", "quantifier": "every session state and operation", "why_tests_cant": "all states", "anchors": ["cpp/libs/ssp21/src/crypto/Session.cpp: initialize, reset", "cpp/libs/ssp21/src/crypto/Session.h"]}
{"id": "C21", "title": "User data survives fragmentation", "statement": "For every byte string handed to the stack for transmission, the payload chunks formatted for it are non-empty, none exceeds the frame limit, and their concatenation in order is the original data; transmission is reported complete exactly after the last chunk. (True of the code for link payload limits of at least 1051 bytes; for smaller limits a long message makes formatting fail.)", "quantifier": "every payload and every frame size limit", "why_tests_cant": "all lengths", "anchors": ["cpp/libs/ssp21/src/crypto/Session.cpp: format_session_data", "cpp/libs/ssp21/src/crypto/TxState.h", "cpp/libs/ssp21/src/crypto/CryptoLayer.cpp: check_transmit"]}
{"id": "C22", "title": "The authentication tag input binds nonce, TTL, length and data", "statement": "The byte string that is MACed determines uniquely the metadata and the user data; and for the AES-GCM mode distinct session nonces give distinct AEAD nonces.", "quantifier": "every pair of messages", "why_tests_cant": "injectivity over all pairs", "anchors": ["cpp/libs/ssp21/src/crypto/SessionMode.cpp", "cpp/libs/ssp21/src/crypto/MacAdapters.h"]}
{"id": "C23", "title": "Session encryption round trip", "statement": "What a session formats under a key, a peer session holding the same key as receive key, in the same mode, with a compatible clock and nonce, accepts, yielding the same user data.", "quantifier": "every key, payload, nonce state and clock", "why_tests_cant": "all values", "anchors": ["cpp/libs/ssp21/src/crypto/Session.cpp", "cpp/libs/ssp21/src/crypto/SessionMode.cpp"]}
{"id": "C24", "title": "Both sides derive the same session keys", "statement": "For the shared-secret, QKD and public-key modes, when the responder processes exactly the bytes the initiator sent and the initiator processes exactly the responder's reply, the initiator's transmit key is the responder's receive key and vice versa, and both use the limits in the request.", "quantifier": "every key pair, nonce, ephemeral, configuration", "why_tests_cant": "algebraic over all keys", "anchors": ["cpp/libs/ssp21/src/crypto/*InitiatorHandshake.cpp", "cpp/libs/ssp21/src/crypto/*ResponderHandshake.cpp"]}
{"id": "C25", "title": "Session keys are bound to the whole transcript", "statement": "If initiator and responder derive from different request or reply bytes, then they use different hash inputs: equality of the derived salt implies either identical request and reply bytes or an explicit collision of the handshake hash.", "quantifier": "every pair of transcripts", "why_tests_cant": "all pairs of transcripts", "anchors": ["cpp/libs/ssp21/src/crypto/HandshakeHasher.cpp", "cpp/libs/ssp21/src/crypto/*Handshake.cpp"]}
{"id": "C26", "title": "The responder answers malformed or unsupported requests with the right error and keeps the session", "statement": "For every request: bad format, wrong version, unsupported algorithm, wrong ephemeral length, bad certificate or unknown key leads to exactly one handshake error reply with the matching code, and neither the active session nor the upper layer is affected.", "quantifier": "every byte string and responder state", "why_tests_cant": "all hostile inputs", "anchors": ["cpp/libs/ssp21/src/crypto/Responder.cpp", "cpp/libs/ssp21/src/crypto/*ResponderHandshake.cpp", "cpp/libs/ssp21/src/crypto/Algorithms.cpp"]}
{"id": "C27", "title": "A QKD key is used for at most one handshake", "statement": "Each quantum key id delivered by the store is returned by consume / find-and-consume at most once per time it was added.", "quantifier": "every history of add/consume/find operations", "why_tests_cant": "all histories", "anchors": ["cpp/libs/qix/src/QIXKeyStore.cpp", "cpp/libs/ssp21/src/crypto/QKDInitiatorHandshake.cpp", "cpp/libs/ssp21/src/crypto/QKDResponderHandshake.cpp"]}
{"id": "C28", "title": "Certificate chains: acceptance means an unbroken chain of trust", "statement": "A chain is accepted only if it is non-empty, every certificate is signed by its predecessor (the first by the trust anchor), each signer is an Ed25519 authority, validity intervals are nested, signing levels strictly decrease, and the final certificate is a level-0 X25519 key, which is the key returned; conversely any such chain is accepted.", "quantifier": "every chain of every length and every anchor", "why_tests_cant": "unbounded chains", "anchors": ["cpp/libs/ssp21/src/crypto/Chain.cpp", "cpp/libs/ssp21/src/crypto/IndustrialCertificateHandler.cpp"]}
{"id": "C29", "title": "The upper layer is opened only after an authenticated handshake", "statement": "In every execution, the application layer is told the session is open only immediately after an authenticated session-auth message was validated under keys from a completed handshake, and user data is delivered only from messages validated by the active session while it is open.", "quantifier": "every sequence of lower-layer events, received bytes, timer expirations and application calls", "why_tests_cant": "all interleavings", "anchors": ["cpp/libs/ssp21/src/crypto/Responder.cpp", "cpp/libs/ssp21/src/crypto/Initiator.cpp", "cpp/libs/ssp21/src/crypto/InitiatorHandshakeStates.cpp", "cpp/libs/ssp21/src/crypto/CryptoLayer.cpp"]}
{"id": "C30", "title": "Unauthenticated messages cannot disturb an established session", "statement": "A received message which is unparseable, of an unexpected type, a handshake request or an unauthentic session message never changes the active session, never delivers data and never closes the application layer.", "quantifier": "every state and every received byte string", "why_tests_cant": "all hostile inputs in all states", "anchors": ["cpp/libs/ssp21/src/crypto/CryptoLayer.cpp: process, on_message", "cpp/libs/ssp21/src/crypto/Responder.cpp"]}
{"id": "C31", "title": "Closing resets everything security relevant", "statement": "After the lower layer closes, both sessions are invalid with cleared keys, no decrypted payload or pending transmission remains, the application has been told, and nothing is delivered until a new handshake completes.", "quantifier": "every state at which the close occurs", "why_tests_cant": "all crash/close points", "anchors": ["cpp/libs/ssp21/src/crypto/CryptoLayer.cpp: on_lower_close_impl", "cpp/libs/ssp21/src/crypto/Initiator.cpp: reset_state"]}
{"id": "C32", "title": "The lower layer is never asked to transmit while busy", "statement": "Transmission is requested from the layer below only when it reported itself ready in the same step, and at most once per readiness.", "quantifier": "every interleaving of events", "why_tests_cant": "all schedules", "anchors": ["cpp/libs/ssp21/src/crypto/CryptoLayer.cpp: check_transmit, try_read_one"]}
{"id": "C33", "title": "Received payload is held until consumed", "statement": "Decrypted user data handed to the application stays readable, unmodified, until the application has consumed it; no further message is read from below before that.", "quantifier": "every interleaving of reads, discards and receptions", "why_tests_cant": "all schedules", "anchors": ["cpp/libs/ssp21/src/crypto/CryptoLayer.cpp: try_read, try_read_one, start_rx_from_upper_impl, discard_rx_data"]}
{"id": "C34", "title": "The initiator never gets stuck", "statement": "In every reachable state other than the permanent bad-configuration state, an open initiator either is idle with a handshake still required, or is idle with a valid session and a running session timer, or waits for a reply or retry with a running timer; every timer expiry leads to a new handshake attempt.", "quantifier": "every reachable state", "why_tests_cant": "liveness invariant over all histories", "anchors": ["cpp/libs/ssp21/src/crypto/Initiator.cpp", "cpp/libs/ssp21/src/crypto/InitiatorHandshakeStates.cpp"]}
{"id": "C35", "title": "Renegotiation triggers", "statement": "When the nonce of either direction reaches the configured trigger, or the session timer fires, the initiator begins a new handshake before the session limit is reached, while the old session remains usable until the new one is authenticated.", "quantifier": "every history and configuration", "why_tests_cant": "all histories", "anchors": ["cpp/libs/ssp21/src/crypto/Initiator.cpp: on_session_nonce_change, on_session_timeout"]}
{"id": "C36", "title": "Data of a closed application session is not sent in the next one", "statement": "Data whose transmission failed with the session is discarded and never transmitted in a later session. (False of the code: the transmit state is not reset on the error path.)", "quantifier": "every history", "why_tests_cant": "all histories", "anchors": ["cpp/libs/ssp21/src/crypto/CryptoLayer.cpp: check_transmit"]}
{"id": "C37", "title": "Statistics count every outcome once", "statement": "Each validated message increments exactly one of the success / failure counters. (False of the code for authentic empty data, which increments two, and for messages refused because of the local clock or session age, which increment none.)", "quantifier": "every message", "why_tests_cant": "all inputs", "anchors": ["cpp/libs/ssp21/src/crypto/Session.cpp", "cpp/libs/ssp21/include/ssp21/crypto/Statistics.h"]}
{"id": "C38", "title": "QIX key frames round trip, survive chunking and are checked", "statement": "A QIX frame written for any key id, key and status is parsed back exactly, under any chunking of the byte stream, from any garbage-free starting point, and every frame reported carries a correct checksum.", "quantifier": "every frame, stream and chunking", "why_tests_cant": "all streams", "anchors": ["cpp/libs/qix/src/QIXFrameParser.cpp", "cpp/libs/qix/src/QIXFrameWriter.cpp"]}
{"id": "C39", "title": "The QIX key store is bounded and prefers new keys", "statement": "The key store never holds more than its configured number of keys, holds only keys that were added, keeps the largest ids, and consume returns the largest id. A key that has arrived is found under its id until it is given away, or as many newer keys as the store holds have arrived (with increasing ids). With several users of one source, the store of each behaves like a store of its own at which only its keys arrive.", "quantifier": "every history of operations", "why_tests_cant": "all histories", "anchors": ["cpp/libs/qix/src/QIXKeyStore.cpp"]}
{"id": "C40", "title": "No cryptographic primitive runs unless the backend supports it", "statement": "Every facade operation calls the backend only when the backend advertises the corresponding algorithm. (False of key-pair generation for X25519, which tests Ed25519 support.)", "quantifier": "every backend capability set and operation", "why_tests_cant": "all capability sets", "anchors": ["cpp/libs/ssp21/src/crypto/Crypto.cpp"]}
{"id": "C41", "title": "Layer open/close and readiness discipline", "statement": "The upper interface of every layer forwards open/close exactly once per transition and never delivers readiness notifications while closed.", "quantifier": "every sequence of notifications", "why_tests_cant": "all histories", "anchors": ["cpp/libs/ssp21/include/ssp21/stack/IUpperLayer.h", "cpp/libs/ssp21/include/ssp21/stack/ILowerLayer.h"]}
{"id": "C42", "title": "Proxy connection limit", "statement": "The TCP proxy never keeps more sessions than its configured maximum, evicts the oldest, and never reuses a session id.", "quantifier": "every sequence of accepts and session errors", "why_tests_cant": "all histories", "anchors": ["cpp/exe/proxy/src/tcp/TcpProxySession.cpp"]}
{"id": "C43", "title": "Certificate lifetimes computed by the tool", "statement": "The validity interval computed for a certificate of n days spans exactly n days. (False of the code: the product overflows a 32-bit int from 25 days on.)", "quantifier": "every day count", "why_tests_cant": "all ints", "anchors": ["cpp/exe/icftool/Actions.cpp: days_to_times"]}
{"id": "C44", "title": "End-to-end delivery", "statement": "Over a reliable lower layer, after the two stations complete a handshake, and within the session that it makes, the bytes the application layer of one side receives are a prefix of (and when all messages are processed equal to) the bytes the other side's application sent, in order, without duplication.", "quantifier": "every payload sequence, key and interleaving", "why_tests_cant": "all executions", "anchors": ["cpp/libs/ssp21/src/crypto/CryptoLayer.cpp", "cpp/libs/ssp21/src/crypto/Session.cpp"]}
{"id": "C45", "title": "Certificates made by the tool are accepted", "statement": "The certificate files that icftool writes contain exactly the certificate the user asked for, correctly signed with the given private key; a final certificate or a two-certificate chain made with it is accepted by a station whose anchor was made with it too (levels and validity permitting). Key files hold the generated keys, and a proxy whose configuration names them uses those keys. The tool refuses everything else without undefined behaviour (false for private key files that are too short).", "quantifier": "every pair of input files, validity, level and key", "why_tests_cant": "all file contents", "anchors": ["cpp/exe/icftool/Actions.cpp: create_certificate, append_certificate_chains, calc_signature"]}
{"id": "C46", "title": "The proxy feeds the stack every received chunk", "statement": "The layer between a socket and the stack in the proxy hands every chunk received from the socket to the stack, once and in order; the bytes it has handed out are not modified until the stack asks for more, although the operating system writes into the same buffer; at most one read and one write are outstanding; while a TCP socket is open and nothing is waiting, a read is outstanding, and the stack is told when the socket is no longer open. (False for UDP: a receive error before the first datagram silently ends reception.)", "quantifier": "every sequence of socket completions, failures, stack calls and closes, both transports", "why_tests_cant": "all histories of socket events", "anchors": ["cpp/exe/proxy/src/AsioLowerLayer.h", "cpp/exe/proxy/src/tcp/AsioTcpSocketWrapper.h", "cpp/exe/proxy/src/udp/AsioUdpSocketWrapper.h"]}
{"id": "C47", "title": "Requests of the application to transmit", "statement": "While the session is open, a request of the application to transmit is accepted exactly if the previous one is complete; a request that was accepted and has data is reported complete at most once, and nothing else is; a request without data is accepted and never reported complete; and a transfer never stalls: while a request is in progress the layer below is busy, so the layer is called again. (The last part and the acceptance are false once a session has been lost on the connection: what remains of the old request blocks the application in the new session.)", "quantifier": "every execution, environment, application and message", "why_tests_cant": "all executions and interleavings", "anchors": ["cpp/libs/ssp21/src/crypto/CryptoLayer.cpp: start_tx_from_upper, is_tx_ready, check_transmit, on_lower_tx_ready_impl", "cpp/libs/ssp21/src/crypto/TxState.h"]}
{"id": "C48", "title": "The proxy forwards what the local application sends and what it is sent", "statement": "Between the local socket and the crypto layer the proxy loses, duplicates and reorders nothing: every chunk that it reads from the socket is handed to the crypto layer and accepted, everything that the crypto layer gives out is handed to the socket and accepted; the read buffer is not overwritten while the crypto layer still uses it, and data that is being written is not overwritten. What one proxy writes to its socket is a prefix of what the other has read from its own, and the same if everything was handled. While the proxy is open and the layer below is ready, a read of the local socket is outstanding; while data waits, a write is. (False with UDP: an empty datagram stops reading, a failed first write stops writing, for ever.)", "quantifier": "every execution of crypto layer, proxy and socket; every peer, environment and order of completions", "why_tests_cant": "all interleavings of socket completions, messages and timers, with the callbacks nested as in the code", "anchors": ["cpp/exe/proxy/src/AsioUpperLayer.h", "cpp/exe/proxy/src/Session.h", "cpp/exe/proxy/src/tcp/AsioTcpSocketWrapper.h", "cpp/exe/proxy/src/udp/AsioUdpSocketWrapper.h", "cpp/libs/ssp21/src/crypto/CryptoLayer.cpp"]}
{"id": "C49", "title": "The configuration file of a proxy is obeyed", "statement": "When the proxy accepts a configuration file, it runs exactly the proxies that the file describes: every setting that it reads has the value in the file, or the documented default where it may be left out; numbers and times out of range, unknown names and keys of the wrong type or length are refused, and everything in range is accepted. The stacks use the configured keys, addresses, limits and type of handshake, so that two files with mirrored addresses and the same secret exchange frames and agree on sessions; no two proxies share quantum keys. Reading a file has no undefined behaviour. (False: certificate mode ignores the configured protection of the session; unknown settings are ignored, among them the limit on the session time in all files that come with the code; very large times overflow; a subscriber beyond the number of subscribers and a source without subscribers are accepted.)", "quantifier": "every file (as a tree), every contents of the key files and every number syntax", "why_tests_cant": "all files and key files", "anchors": ["cpp/exe/proxy/src/StackConfigReader.cpp", "cpp/exe/proxy/src/YAMLHelpers.h", "cpp/exe/proxy/src/YAMLHelpers.cpp", "cpp/exe/proxy/src/ConfigReader.cpp", "cpp/exe/proxy/src/ProxyConfig.cpp", "cpp/exe/proxy/src/QKDSourceRegistry.cpp", "cpp/libs/ssp21/src/stack/Factory.cpp", "cpp/libs/ssp21/src/stack/LinkCryptoStack.h"]}
{"id": "C50", "title": "A session of a proxy lives as long as it can be called back, and no longer", "statement": "A session of a proxy is never used after it has been destroyed: as long as an operation of one of its sockets has not completed, or a poll is posted, it exists. An error of a connection removes it from the proxy and closes both sockets, after which it is destroyed as soon as its operations have completed; a UDP proxy starts the next session. (False: when the connection below fails while the application side is open and no other operation is outstanding, the session is destroyed while its stack is being closed; an error that the local socket reports ends a UDP proxy; an error of the socket below before the application side is open leaves it without a session for ever.)", "quantifier": "every sequence of completions, errors, timers, polls and evictions; every behaviour of the stack", "why_tests_cant": "all interleavings of completions and errors", "anchors": ["cpp/exe/proxy/src/Session.h", "cpp/exe/proxy/src/AsioUpperLayer.h", "cpp/exe/proxy/src/AsioLowerLayer.h", "cpp/exe/proxy/src/tcp/TcpProxySession.cpp", "cpp/exe/proxy/src/udp/UdpProxySession.cpp"]}
{"id": "C51", "title": "Everything that is transmitted is a well-formed message of the right kind", "statement": "Every frame that an endpoint hands to the layer below holds one message, no longer than the layer below permits, that parses: a session message or, from an initiator, a handshake request that states protocol version 0.1, the configured suite, limits and mode; from a responder, the handshake reply of its mode or an error with a defined reason. An initiator never sends a reply and a responder never sends a request.", "quantifier": "every execution (all inputs, timers, callbacks, cryptographic results) of both roles and every frame transmitted in it", "why_tests_cant": "all histories", "anchors": ["cpp/libs/ssp21/src/crypto/CryptoLayer.cpp", "cpp/libs/ssp21/src/crypto/Responder.cpp", "cpp/libs/ssp21/src/crypto/InitiatorHandshakeStates.cpp", "cpp/libs/ssp21/src/crypto/Session.cpp: format_session_message", "cpp/libs/ssp21/src/crypto/gen"]}
{"id": "C52", "title": "A handshake between two stations makes two ends of one channel", "statement": "When an initiator and a responder with matching credentials (the same shared secret, quantum keys, or keys that each of them validates) have both completed a handshake, and the responder read the last request of the initiator and the initiator read the reply to it, then both hold the same two keys, each receiving with the one that the other sends with, the same algorithms (those of the suite of the initiator) and the same limits. Hence the data that either application receives is a prefix of the data that the other handed over, unless session messages are forged.", "quantifier": "every pair of executions of an initiator and a responder (all interleavings, other traffic, failed handshakes before) and every mode and credential", "why_tests_cant": "all histories and all cryptographic results", "anchors": ["cpp/libs/ssp21/src/crypto/SharedSecretInitiatorHandshake.cpp", "cpp/libs/ssp21/src/crypto/QKDInitiatorHandshake.cpp", "cpp/libs/ssp21/src/crypto/PublicKeyInitiatorHandshake.cpp", "cpp/libs/ssp21/src/crypto/Responder.cpp", "cpp/libs/ssp21/src/crypto/Initiator.cpp", "cpp/libs/ssp21/src/crypto/Session.cpp"]}
{"id": "C53", "title": "User data across renegotiations", "statement": "However many sessions two stations agree on one after the other, the user data that an application receives is, in order and without duplication, a part of what the other application handed over, as long as no session message is forged, whatever the mode of nonces; and a renegotiation neither loses nor reorders data of its own accord. (False of the code in the direction from the initiator: it goes on sending in the old session until the reply to its session auth message arrives, while the responder has already replaced that session. What is sent then is lost over a perfect network, and delivered out of order if the network exchanges it with the session auth message.)", "quantifier": "every pair of executions, any number of sessions, every schedule of the network", "why_tests_cant": "all histories and numbers of sessions", "anchors": ["cpp/libs/ssp21/src/crypto/CryptoLayer.cpp: check_transmit, transmit_session_auth", "cpp/libs/ssp21/src/crypto/Responder.cpp: on_auth_session", "cpp/libs/ssp21/src/crypto/InitiatorHandshakeStates.cpp", "cpp/libs/ssp21/src/crypto/Sessions.h"]}
{"id": "C54", "title": "Two proxies with matching files are one secure connection", "statement": "If the configuration files of two proxies match (same shared secret; quantum keys; each the public key of the other; or certificates of the same authority for their own keys), then after a handshake between them the bytes that either writes to the socket of its application are a prefix of the bytes that the other has read from its own socket (over several sessions: a part of them, in order and without repetition), unless session messages are forged. Keys and certificates that the tool makes match. (Across renegotiations false from the initiator to the responder, see C53.)", "quantifier": "all files, key files and certificates; all pairs of executions of the two proxies, both transports", "why_tests_cant": "all files and all histories", "anchors": ["cpp/exe/proxy/src/StackConfigReader.cpp", "cpp/exe/proxy/src/AsioUpperLayer.h", "cpp/libs/ssp21/src/stack/Factory.cpp", "cpp/libs/ssp21/src/crypto/IndustrialCertificateHandler.cpp", "cpp/libs/ssp21/src/crypto/CryptoLayer.cpp", "cpp/exe/icftool/src"]}
{"id": "C55", "title": "Quantum keys, from the device to the sessions", "statement": "In a process with a QKD device on a serial port and any number of crypto layers: each quantum key that a layer takes was sent by the device in a complete frame with status ok and a correct checksum, under the id that the layer uses, and belongs to the layer's store; under each id, all layers together take keys, and install sessions with keys derived from them, at most as often as the device has sent that id, so that no two sessions share a quantum key if the device does not repeat ids; each session of a layer with quantum keys uses the key taken last. Two stations whose devices send the same keys under the same ids have the same session keys after an exchange of request and reply.", "quantifier": "all byte streams from the device in any chunks, all numbers of layers and configurations, all interleavings of their executions", "why_tests_cant": "unboundedly many histories and interleavings of device, stores and layers", "anchors": ["cpp/exe/proxy/src/qkd/QIXQKDSource.cpp", "cpp/libs/qix/src/AsyncQIXFrameReader.cpp", "cpp/libs/qix/src/QIXFrameParser.cpp", "cpp/libs/qix/include/qix/QIXKeyStore.h", "cpp/libs/ssp21/src/crypto/QKDInitiatorHandshake.cpp", "cpp/libs/ssp21/src/crypto/QKDResponderHandshake.cpp", "cpp/libs/ssp21/src/crypto/CryptoLayer.cpp"]}
{"id": "C56", "title": "Reception does not stall", "statement": "If the layer below is open, has announced a message and has not said since that there is nothing left to read, then after every call and every timer the secure layer is waiting for somebody else: for the layer below, which is still sending, or for an open application, which has been told of data or given data and has to make its next call. So no announced message is left unread for lack of a further event.", "quantifier": "all configurations, roles, messages, clocks, interleavings of events, calls and timers, including reads from inside callbacks", "why_tests_cant": "a missing re-read shows only for particular interleavings of announcements, transmissions and reads; unboundedly many", "anchors": ["cpp/libs/ssp21/src/crypto/CryptoLayer.cpp try_read_from_lower / on_lower_rx_ready_impl / on_lower_tx_ready_impl / start_rx_from_upper_impl", "cpp/libs/ssp21/src/crypto/Initiator.cpp", "cpp/libs/ssp21/src/crypto/Responder.cpp"]}
{"id": "C57", "title": "A handshake over a faithful network succeeds", "statement": "If an initiator and a responder have matching credentials (shared secret, quantum keys or public keys), neither application has data in the layer, the layers below are ready and deliver what is sent, then every event that makes the initiator begin a handshake (opening, retry timer, session timer, or readiness of the layer below when a handshake is due) inevitably leads, message by message, to both applications being open with two active sessions that are the two ends of one association, whatever the random numbers, the clocks (each side's part must fit in the allowed time) and the moments at which the messages arrive.", "quantifier": "all configurations, credentials, modes, suites, states reachable before the handshake, random numbers, times and arrival orders", "why_tests_cant": "tests run one handshake with fixed keys and times; success must hold from every earlier history and for every random value, clock and schedule", "anchors": ["cpp/libs/ssp21/src/crypto/Initiator.cpp", "cpp/libs/ssp21/src/crypto/InitiatorHandshakeStates.cpp", "cpp/libs/ssp21/src/crypto/Responder.cpp", "cpp/libs/ssp21/src/crypto/CryptoLayer.cpp", "cpp/libs/ssp21/src/crypto/Session.cpp", "cpp/libs/ssp21/src/crypto/SharedSecretInitiatorHandshake.cpp", "cpp/libs/ssp21/src/crypto/QKDInitiatorHandshake.cpp", "cpp/libs/ssp21/src/crypto/PublicKeyInitiatorHandshake.cpp"]}
{"id": "C58", "title": "Data between connected stations is delivered", "statement": "If the active sessions of two stations belong together, nothing is on its way, the layers below are ready and deliver what is sent, and the application of the receiver takes data when it is told and asks again, then any data that the application of the sender asks to transmit inevitably arrives: the receiver's application is given the pieces of the data, each of at most 1024 bytes, in order, each exactly once, whether a message comes before or after it asks; the sender transmits one message for each piece and tells its application once, after the last one, that it may transmit again. The nonces must suffice, no renegotiation be due, and the messages arrive before their time to live is over.", "quantifier": "all configurations, roles, reachable states, data of any length, times and arrival orders", "why_tests_cant": "tests send a few messages in fixed states; delivery must hold from every earlier history, for every length, clock and schedule", "anchors": ["cpp/libs/ssp21/src/crypto/CryptoLayer.cpp", "cpp/libs/ssp21/src/crypto/Session.cpp", "cpp/libs/ssp21/src/crypto/TxState.h", "cpp/libs/ssp21/src/crypto/Initiator.cpp"]}
{"id": "C59", "title": "From nothing to the exchange of data", "statement": "If an initiator and a responder have what it takes - matching shared secrets, public keys, certificates or quantum keys, the same algorithms, frames and buffers with enough room - and the network delivers what is sent, then from the moment the initiator's layer below opens (or a timer makes it begin) exactly four handshake messages are exchanged, both applications are told that they are open, and from then on whatever either application hands over is given to the other completely, in order and once, in each direction, whether messages come early or late. Both clocks may run arbitrarily within the time to live of a message; the number of messages is limited by the nonces.", "quantifier": "all configurations with matching credentials in each of the four modes, reachable states of both stations, initiating events, data, times and arrival orders", "why_tests_cant": "tests run one handshake and a few messages with fixed clocks; the claim concerns every earlier history of both stations, every answer of the random generators, every clock and arrival order", "anchors": ["cpp/libs/ssp21/src/crypto/CryptoLayer.cpp", "cpp/libs/ssp21/src/crypto/Initiator.cpp", "cpp/libs/ssp21/src/crypto/Responder.cpp", "cpp/libs/ssp21/src/crypto/Session.cpp", "cpp/libs/ssp21/src/crypto/InitiatorHandshakeStates.cpp"]}
{"id": "C60", "title": "The metrics of a source of quantum keys", "statement": "A source of quantum keys logs metrics only when a key arrives, when the bin is full, and never more often than the configured period. The mean and the standard deviation are those of the times between the last keys, as many as the bin holds; the entropy is Shannon's entropy of all bytes of all keys so far. (False of the entropy: as long as a single byte value has not occurred, it is not a number, in particular for the first seven keys.)", "quantifier": "every history of frames and times, period, size of the bin and rounding of floating-point operations", "why_tests_cant": "all histories and roundings", "anchors": ["cpp/exe/proxy/src/qkd/QIXQKDSource.cpp: FrameHandler::handle, calc_mean_time_between_keys, calc_std_dev_of_time_between_keys, calculate_shannon_entropy"]}
{"id": "C61", "title": "What a run of icftool does to the files", "statement": "A run of icftool writes only the files that the command line names as outputs. If it ends without an error, they hold what was asked for: a shared secret, a key pair, a certificate with the keys, the number of days and the level from the command line or typed, a chain with one more certificate. If it does not, no file has changed, and the exit status tells so. It ends for every input. However often it is run, no chain of more than two certificates comes about. (False in several ways: the exit status is 0 also after an error; one name for both files of a pair loses the private key silently; a pair can be half written; a full disk can go unnoticed; a level that is not a number counts as 0; without an answer it runs for ever.)", "quantifier": "all command lines, file systems, states of the disk, typed input, keys, times and sequences of runs", "why_tests_cant": "tests run the tool with a few command lines on an intact disk", "anchors": ["cpp/exe/icftool/main.cpp", "cpp/exe/icftool/Program.cpp: Program::run", "cpp/exe/icftool/UserInput.cpp", "cpp/exe/icftool/Actions.cpp", "cpp/libs/ssp21/include/ssp21/util/SecureFile.h: SecureFile::write"]}
{"id": "C62", "title": "Quantum keys are there when they are needed", "statement": "In a process with a QKD device: a key that the device has sent with status ok, after the store to which its id belongs was configured, is found under its id with its bytes, until somebody is given it or as many keys with increasing ids have arrived for this store as it can hold; whoever needs a new key is given the newest one that nobody has been given. So if the devices of two stations send the same keys under the same ids, and the newest unused key of the initiator's store is still in stock at the responder's station, then a handshake with quantum keys over a faithful network succeeds and data is delivered in both directions.", "quantifier": "all byte streams from the devices in any portions, numbers of layers, stores and sizes, interleavings, earlier histories of both stations", "why_tests_cant": "tests put a few keys into one store; the claim concerns all histories of device, stores and layers at two stations", "anchors": ["cpp/exe/proxy/src/qkd/QIXQKDSource.cpp", "cpp/libs/qix/src/QIXKeyStore.cpp", "cpp/libs/qix/src/AsyncQIXFrameReader.cpp", "cpp/libs/ssp21/src/crypto/QKDInitiatorHandshake.cpp", "cpp/libs/ssp21/src/crypto/QKDResponderHandshake.cpp"]}
{"id": "C63", "title": "What handshakes and sessions leave behind in memory", "statement": "At any time, whatever messages, keys and clocks a station has met, what it has written is only where it is meant to be: in the object of its long-term key, the unused quantum keys, the keys of valid sessions, and what an initiator keeps for the handshake under way. Everything else - the file the key was read from, ephemeral private keys of a responder, results of Diffie-Hellman, hashes, keys in the course of derivation, keys of earlier sessions, quantum keys that have been used or superseded - has been overwritten with zeros; what a responder has sent in the clear (nonces, ephemeral public keys) may remain. When the sessions have been closed nothing remains of the handshakes from which they were made.", "quantifier": "all six kinds of station, all sequences of handshakes, data, activations, resets and arriving keys, with any contents; all outcomes of the functions; any previous contents of memory", "why_tests_cant": "tests compare return values; what destructors leave behind on each path of each function after each history cannot be seen in a return value", "anchors": ["cpp/libs/ssp21/src/crypto/BufferTypes.cpp", "cpp/libs/ssp21/include/ssp21/crypto/BufferTypes.h", "cpp/libs/sodium/src/HKDF.h", "cpp/libs/ssp21/src/crypto/TripleDH.cpp", "cpp/libs/ssp21/src/crypto/Session.cpp: Session::initialize, Session::reset", "cpp/libs/ssp21/src/crypto/Sessions.cpp", "cpp/libs/ssp21/src/crypto/SharedSecretResponderHandshake.cpp", "cpp/libs/ssp21/src/crypto/PublicKeyInitiatorHandshake.cpp", "cpp/libs/ssp21/src/crypto/MacAdapters.h", "cpp/libs/qix/src/QIXKeyStore.cpp", "cpp/libs/ssp21/src/util/SecureFile.cpp"]}
{"id": "C64", "title": "What a station does depends on its secrets only through the primitives", "statement": "Take two stations that are configured alike except for their secrets (shared secret, static private key, quantum keys, ephemeral private keys), each with its own primitives, such that the primitives applied to secrets give the same visible results (tags, ciphertexts, public keys, acceptance and errors) for both. Given the same events, calls, messages received and times, they send the same bytes at the same points, make the same callbacks with the same payload, return the same results and count the same statistics: nothing of a secret gets out other than through the primitives. In particular, for each shared secret and each static private key, a station with any other one can be seen to do exactly the same with primitives that treat the other secret as this one.", "quantifier": "all pairs of configurations, secrets and primitives, both roles, all modes; all executions: events, nested calls of the application, messages, times, random bytes", "why_tests_cant": "that an output does not depend on an input is a statement about pairs of executions, for all of them; a test sees one execution at a time", "anchors": ["cpp/libs/ssp21/src/crypto/CryptoLayer.cpp", "cpp/libs/ssp21/src/crypto/Initiator.cpp", "cpp/libs/ssp21/src/crypto/Responder.cpp", "cpp/libs/ssp21/src/crypto/Session.cpp", "cpp/libs/ssp21/src/crypto/InitiatorHandshakeStates.cpp", "cpp/libs/ssp21/src/crypto/SharedSecretInitiatorHandshake.cpp", "cpp/libs/ssp21/src/crypto/SharedSecretResponderHandshake.cpp", "cpp/libs/ssp21/src/crypto/PublicKeyInitiatorHandshake.cpp", "cpp/libs/ssp21/src/crypto/PublicKeyResponderHandshake.cpp", "cpp/libs/ssp21/src/crypto/QKDInitiatorHandshake.cpp", "cpp/libs/ssp21/src/crypto/QKDResponderHandshake.cpp"]}
{"id": "C65", "title": "A key store may be used by several threads", "statement": "QIXKeyStore may be used by several threads at once (the thread of QIXFrameReader delivers keys while the threads of handshakes take them). Whatever the schedule: the calls of add_key, consume_key and find_and_consume_key behave as if they had been made one after the other, in an order in which a call that had returned before another was made comes first; no two threads ever access the map at the same time; no iterator or reference to an entry that is gone is used and no last entry of an empty map is taken; a thread that holds the mutex releases it after at most eight steps of its own, and a free mutex can be had by whoever waits; and no entry is given to two callers unless its id was delivered twice.", "quantifier": "every number of threads, every sequence of calls by each of them, every interleaving of their steps (each access to the map is a step), every capacity", "why_tests_cant": "a test runs a few schedules; a race shows up in one of very many interleavings", "anchors": ["cpp/libs/qix/src/QIXKeyStore.cpp QIXKeyStore::add_key", "cpp/libs/qix/src/QIXKeyStore.cpp QIXKeyStore::consume_key", "cpp/libs/qix/src/QIXKeyStore.cpp QIXKeyStore::find_and_consume_key", "cpp/libs/qix/include/qix/QIXKeyStore.h QIXKeyStore::mutex", "cpp/libs/qix/src/QIXFrameReader.cpp QIXFrameReader::QIXFrameReader"]}
{"id": "C66", "title": "The emulator of a QKD device writes the frames it is asked for", "statement": "qix-emulator writes to every port that is named the same frames in the same order: with --write the ids 0, 1, 2, ... with the random keys, `count` of them; with --stdin the ids 0, 1, 2, ... with the keys whose 256 binary digits are the lines of the input, up to the first line that is anything else, at which it ends with -1; with --twrite the next multiple of the period (in milliseconds since 1970) with the SHA-256 of this number as key, so that emulators on different machines whose clocks agree write the same keys under the same ids, and the ids increase. It ends with 0 exactly when all has been written; if a write fails, the ports have received all frames before, and of the frame that failed the ports before it all, the ports after it nothing. A reader of a port gets exactly the complete frames. Options that make no sense (no port, rate 0, a period below 100 ms, two ports to read from) are refused. With --write it writes `rate` frames per second as long as writing takes less time than the interval.", "quantifier": "all options, counts, periods, times, random keys, lines of input, numbers of ports, failures of writes at any byte of any frame on any port, and all divisions into read operations", "why_tests_cant": "a test writes a few frames to ports that work, at whatever speed", "anchors": ["cpp/exe/qix-emulator/main.cpp write_random_frames", "cpp/exe/qix-emulator/main.cpp write_frames_from_std_in", "cpp/exe/qix-emulator/main.cpp write_time_based_frames", "cpp/exe/qix-emulator/main.cpp main", "cpp/libs/qix/src/QIXFrameWriter.cpp QIXFrameWriter::write"]}
{"id": "C67", "title": "What icftool prints about files is complete and exact", "statement": "icftool --show prints of each file, in the order of the command line, up to the first that it cannot show, all that is in it: the type; of a key its length and all its bytes; of a chain every certificate in its order, with its signature, the bytes that are signed, and what they say (times, level, type of the key, key, extensions). Two files for which it prints the same (under the same name) have the same contents. Of a file that is missing, empty, too long or no container file it prints nothing. A certificate that has been made is shown in the same way, after the questions for what is not on the command line. Making secrets and keys, and appending chains, prints nothing of what is in the files. A secret or key file is reported as written exactly when the system has taken it, however the run ends.", "quantifier": "all files and contents, all numbers of files, all keys, chains and extensions, all command lines and typed input", "why_tests_cant": "tests do not look at what is printed; that nothing is left out or ambiguous is a statement about all pairs of files", "anchors": ["cpp/exe/icftool/Actions.cpp print_contents", "cpp/exe/icftool/Actions.cpp print_certificate_chain", "cpp/exe/icftool/ConsolePrinter.h", "cpp/libs/ssp21/src/crypto/gen/CertificateBody.cpp CertificateBody::print", "cpp/libs/ssp21/include/ssp21/crypto/SeqStructField.h print"]}
{"id": "C68", "title": "A network that nobody tampers with needs no assumption about the cryptography", "statement": "If what a station reads was transmitted by its peer - a datagram network that may lose, repeat and reorder, or link frames as one stream of bytes that arrives cut into chunks anywhere, in part or completely - then every message that a session authenticates was made by the peer. Frames of the messages that a station transmits, arriving in any chunks at the link layer of a station with the right address, are put together to exactly these messages, in order; files with mirrored addresses have the right addresses. So between two stations with matching files, what is written to one socket is a prefix of what was read from the other, and all of it when everything has arrived, in the first session, if that was made by a handshake between the two.", "quantifier": "all executions of both stations, all messages, all ways of cutting the stream into chunks and of losing, repeating and reordering datagrams", "why_tests_cant": "tests connect the layers directly and look at single exchanges; this composes proxies, crypto layers, frame writers and link layers for all executions", "anchors": ["cpp/libs/ssp21/src/stack/LinkCryptoStack.h", "cpp/libs/ssp21/src/link/LinkLayer.cpp", "cpp/libs/ssp21/src/link/LinkFrameWriter.cpp", "cpp/libs/ssp21/src/crypto/CryptoLayer.cpp", "cpp/libs/ssp21/src/crypto/Session.cpp", "cpp/exe/proxy/src/Session.cpp"]}
