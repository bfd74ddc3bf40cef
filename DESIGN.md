# Formal model of ssp21-cpp in Lean 4 — design

Sources: `/repo` (C++), read as text. Properties: `properties.jsonl`. Status and exact theorem names: `MANIFEST.json`
(generated by `tools/manifest.py` from the names `Cxx_…` in `lean/Verif/Props/` and from `tools/notes.json`).

## 1. Trusted base

* **Lean 4.33.0's kernel.** No axioms of our own; every theorem depends on a subset of
  `propext`, `Classical.choice`, `Quot.sound` (what `simp`, `omega`, `split`, `by_cases` use). No `native_decide`, no `bv_decide`.
  `decide +kernel` and `rfl` are used for closed facts (the 256 entries of the CRC table, the non-vacuity examples, the counterexample executions);
  they are evaluated by the kernel.
* **The reading of `/repo`**: that the definitions of the model say what the cited lines say. Every definition cites file and lines, and says where it simplifies.
* **ser4cpp, exe4cpp, asio, yaml-cpp, libsodium, openssl** are not in the repository. Assumed contracts (each is stated in the comment of the definition that uses it):
  * ser4cpp: integers are big-endian, `read_from`/`write_to` fail without effect if too short, `take/skip/advance` clamp or copy as named, `copy_from` between overlapping
    regions behaves as `memmove` (used by the link parser and the QIX parser), `rseq` values are views (so *who may overwrite them* matters: C29/C33 treat the memory explicitly).
  * exe4cpp: one executor; one event at a time; a cancelled timer does not fire; a running timer may expire at any later moment
    (a superset of the real schedules; liveness theorems say "if the timer expires then").
  * cryptographic primitives (hash, HMAC, HKDF, AES-GCM, X25519, Ed25519) are the fields of the structure `Backend` (`Primitives.lean`), arbitrary functions.
    Where a theorem needs a law (DH commutes, decrypt after encrypt, signatures verify), the law is an explicit hypothesis and `Toy.lean` gives a backend that satisfies all laws, used in the examples.
    Unforgeability is never assumed of the functions (it would be false of any function); theorems about authenticity say *which tag the accepted message carries*, and end-to-end theorems take the
    absence of forgeries in the history at hand as a hypothesis (`NoForgery`).
  * sodium's fixed-size functions read their fixed sizes: a shorter argument is undefined behaviour, a separate outcome (`Backend.guard…`, fault) of the model.

## 2. How the code is modelled

Bytes are `List UInt8`; C++ fixed-width integers are `UInt8/16/32/64` with wrap-around, except where a comment says that `Nat`/`Int` is used (clock values in milliseconds).
A reader is `Bytes → Except ParseError (α × Bytes)`; a writer takes the remaining capacity. Stateful classes are structures with step functions.
Undefined behaviour is a distinct outcome wherever code could reach it (link parser buffer indexes, short keys, modulo zero, erasing an invalid iterator).

### 2.1 Modules

| module | models (under `/repo/cpp`) |
|---|---|
| `Bytes`, `VLength`, `Fields`, `Enums`, `Messages`, `Certs` | message and certificate codec (`lib/.../crypto/gen`, `VLength`, `SeqField`, ICF files) |
| `Crc`, `LinkParser`, `LinkLayer` | `link/CastagnoliCRC32`, `LinkParser`, `LinkFrameWriter`, `LinkLayer`; `LinkRefine` = the same parser on an indexed buffer, with faults, and the refinement between both |
| `Primitives`, `Facade` | backend interface; `crypto/Crypto.cpp` (capability checks, one-time initialisation) |
| `Session`, `TxState`, `Algorithms` | `crypto/Session`, session modes (HMAC and GCM), nonce functions, `TxState`, `SessionAlgorithms` |
| `Chain`, `Handshake` | `Chain`, certificate handlers, the handshake modes (shared secret, QKD, pre-shared public key, certificates) on both sides |
| `CryptoLayer` | `CryptoLayer`, `Initiator`, `Responder`, all handshake states, with the application and lower layer as environment |
| `Stack` | `LowerLayer`/`UpperLayer` interface bookkeeping, `AbstractStack`, `LinkLayer` composition |
| `Qix` | QIX frame writer, parser, `QIXKeyStore`, `QIXFrameHandler` key source |
| `Metrics` | `QIXQKDSource.cpp`: the metrics of a key source, with floating-point numbers |
| `Tool`, `Proxy` | `icftool`'s certificate creation, lifetimes and chains; the proxies' session map |
| `Program` | a run of `icftool`: choice of the action, questions, file system, exit status |
| `Asio` | the proxies' socket wrappers and `AsioLowerLayer` |
| `Bridge` | the proxies' `AsioUpperLayer` with crypto layer and local socket, callbacks nested as in the code |
| `Lifetime`, `LifetimeProof` | the proxies' `Session`, its owners and the error handlers of both proxies, with a stack that does anything; its invariants |
| `Config` | the proxies' configuration: `YAMLHelpers`, `StackConfigReader`, `ConfigReader`, `ProxyConfig`, `QKDSourceRegistry`, and `stack/Factory.cpp`, `LinkCryptoStack.h` |
| `Segments`, `BridgeExec` | no code: what each function of the layer may append to the history; an interpreter that exhibits executions of `Bridge` |
| `Keyed` | no code: what the layer takes from the key store per query |
| `Spec/Reception`, `Calm` | no code: the machine with an observer of announcements; why the read loop ends |
| `Spec/Inevitable`, `Ends`, `Spec/Success` | no code: the machine with a clock and an inbox, what a call must lead to, and the proof rule for it; what a successful handshake is |
| `Spec/Carry`, `Plays` | no code: the same with an application that reads when told; what it means that data is carried |
| `Spec/Start` | no code: from the beginning of a handshake to the exchange of data |
| `Qkd`, `QkdExec` | a process with a QKD device, the router of keys and any number of layers; an interpreter that exhibits executions |
| `Threads` | `QIXKeyStore` used by any number of threads: every access to its map is a step, only `lock_guard`'s constructor and destructor look at the mutex |
| `Emulator` | cpp/exe/qix-emulator/main.cpp: the options, the three loops that write frames, the digits of standard input, the time arithmetic; random keys, times and failing writes are supplied by the environment; printing and `--read` (which only prints) left out |
| `Console` | what a run of `icftool` prints to standard output, line by line (`Actions::print_contents`, `ConsolePrinter`, the generated `print` functions of certificates); standard error left out |
| `Memory` | objects that hold keys (bytes, declared length, owners, whether the destructor overwrites them), and handshakes, sessions and key store as programs that work on them |
| `Machine`, `Atoms`, `AtomFields`, `Fine`, `Monitor` | no code: executions of the layer, proof rules for invariants over all of them, lemmas for properties of logs |
| `Toy`, `LayerExample`, `Exec` | a concrete backend, configuration and a small interpreter that exhibits concrete executions of the layer |

### 2.2 Executions of the layer

`CryptoLayer.lean` is written in a monad of state transformers with *callbacks*: when the code calls its upper or lower layer, the environment may act.
* `Observed c E log s`: `log` is the history of a layer with configuration `c` after some events (start, lower open/close, lower tx-ready, lower rx-ready, upper `start_tx`, upper `start_rx`, timers), `s` its state.
  Between events, and inside each callback that permits it, the application may call `start_tx`/`start_rx` again (re-entrancy); the lower layer may complete or refuse synchronously.
* `Env` restricts the environment when a theorem needs it: `NoNestedRx` (no `start_rx` from inside a callback), `ReadsAtOnce` (from inside callbacks `start_rx` is called at most at once when the layer has said that there is data; this is what the proxy of the repository does), `ReadsInOrder` (that, or a responder), `SilentWhenClosed`, `NoEmptyData`, `viaStack` (the application sits behind `AbstractStack`, which filters calls by its flag).
  `.any` restricts nothing. Each theorem names the restriction; where it is needed a counterexample execution without it is proved.
* `Machine.lean`, `Atoms.lean`, `AtomFields.lean`, `Grows.lean`, `Monitor.lean`, `Quietly.lean` are proof machinery: each method is decomposed *by proof* (not by definition) into atomic steps between two callbacks
  (`HsReq`, `TxAtom`, `RxAtom`, `RxTail`, `TopAtom`), so that an invariant is proved once per atomic step (`Atomic`, `AtomicW`, `Atomic1`) and holds in every execution with arbitrary nesting.
* Layer states carry ghost fields that no code reads: the number of initialised sessions, the requests and key-store queries made, and `acts`, the time-stamped record of session operations (formatted, checked, refused, discarded). They only serve to state properties.

### 2.3 Not modelled

Logging (except that unknown levels are refused); printing of messages (except by `icftool`, `Console`); the parser of yaml-cpp (a configuration file is a tree; the meaning of a scalar as a number is a parameter); asio sockets themselves, serial ports; thread scheduling, except that of the users of a `QIXKeyStore` (`Threads`, C65, where it is proved that its operations can be regarded as atomic, as the other models do; the executor is assumed to run one handler at a time);
the implementation of cryptography; key file parsing other than the ICF container; secure erasure of memory below the level of objects (`Memory`): working memory of libsodium and of streams, registers, copies made by the compiler; C++ object lifetime except for the proxies' sessions (`Proxy`, `Lifetime`). `Bridge` follows a proxy session until its error handler is called (what happens then is `Proxy` and `Lifetime`, where the stack is arbitrary instead; of the stack it is assumed that while closed it only reads from and writes below, as argued at `Sess.act`).

## 3. Properties: specification and method

The small independent specifications are in `Spec/`: `Wire` (message layout as relations on byte strings), `Frame` (link frame layout), `Crc` (polynomial division), `Discipline` (open/close/tx automaton), `History` (what a layer's history must look like), and at the top of each `Props/*.lean` file.

| id | file | method |
|---|---|---|
| C01–C05 | `Props/Codec` | structural; encoders related to `Spec/Wire`, readers proved inverse and canonical, for all values |
| C06, C07 | `Props/Crc` | table = bitwise division (induction over message); burst, odd and ≤3-bit errors through linear algebra over the polynomial, for all lengths of a frame |
| C08–C12 | `Props/Link`, `LinkRefine` | parser as state machine; induction over chunk lists; buffer-level refinement |
| C13–C15, C41 | `Props/LinkLayer`, `Props/Discipline` | invariants over event histories; delivery (C14_delivered_partial) by induction on the chunks, with the payloads of a stream as a list function |
| C16–C20, C22, C23, C37 | `Props/Session` | invariant over all sequences of session operations with arbitrary backend |
| C21 | `Props/Transfer`, `Props/LayerSessions` | recursion over chunks; at the layer: refinement of every execution to `Spec/History` |
| C24–C26, C28 | `Props/Handshake`, `Props/Chain`, `Props/Refusal` | case analysis of the handshake functions; induction over the chain |
| C27, C39 | `Props/KeyStore`, `Props/OneUse` | store refined to a list of unused keys; all histories; layer invariant |
| C29–C36 | `Props/{Open,Secrets,Hold,Delivery,Robust,Close,LowerTx,Liveness,Stale}` | invariants over all executions of the layer (2.2) |
| C38 | `Props/Qix` | parser state machine, induction over chunk lists |
| C40 | `Props/Facade` | every operation of the facade × every backend |
| C42, C43, C45 | `Props/Proxy`, `Props/Tool`, `Props/KeyFiles` | state machine; 32-bit arithmetic |
| C46 | `Props/Asio` | invariant over all sequences of socket completions and stack calls |
| C47 | `Props/Request` | invariant over all executions (rule of `Fine.lean`); concrete counterexample after the loss of a session |
| C48 | `Props/Bridge` | every execution of `Bridge` up to a callback is an execution of the layer (2.2) in an environment that behaves as the proxy; invariant over `Step`; C44 and C47 then apply |
| C49 | `Props/Config`, `ConfigFile`, `ConfigTotal`, `ConfigExample`, `ConfigAccept` | every reader is characterised by an iff with a declarative relation between section and value (`Spec/Config`); the sessions of a file by induction, with the invariant that a handed out store is registered; absence of faults by a predicate closed under sequencing; the whole reader by an iff (`C49_accepted`: a file is accepted iff it describes the proxies, `Spec.FileMeans`), following which stores are free; C08, C13, C24 and C27 for the stacks |
| C50 | `Props/Lifetime` | inductive invariant over all events and all behaviours of the stack; error handlers evaluated in closed form (with their nested calls), which makes the violations exact; a decreasing weight for termination |
| C51 | `Props/Frames` | invariant over all executions, on top of the one of C29 (configuration of the handshake, frame writers); codecs by C02; error codes by the verdict of C26 |
| C52 | `Props/Agreement` | C29 gives the inputs of the key derivation on both sides; the transcripts are equal because the last request is unique and codecs and frame writers are injective; the secrets by case analysis over credentials; then C44 |
| C53 | `Props/Renegotiation` | sessions one after the other: a list lemma composes C44 session by session; invariant over atoms that a responder never sends in an older session after a newer one; concrete pairs of executions for the violations |
| C54 | `Props/Stations` | C49 gives what the stacks are made of; certificates of one authority are accepted by both because each accepts its own chain (C28); hence `Peers` (C52); then C48, C52 and C53 |
| C55 | `Keyed`, `Qkd`, `QkdExec`, `Props/Qkd` | a process of device, router and any number of layers, in arbitrary interleaving; structural proof that each answer of the key store is recorded at most once by the layer that asked (`Run.keyed`); invariant: device bytes → C38, source history → C27, number of keys taken ≤ number returned ≤ number of frames; sessions by C27/C29 (the key is the last one taken); two stations by C52 |
| C56 | `Spec/Reception`, `Calm`, `Props/Reception` | an observer beside the machine tracks announcements; structural proof over all functions that the read loop ends only with a reason not to read (`Run.calm`); invariant that held data has been announced to an open application, or that a transmission failed |
| C57 | `Spec/Inevitable`, `Spec/Success`, `Ends`, `Props/Success` | must-modality over the small-step machine with monotone clock and inbox; weakest-precondition calculus for straight code and rules for the receive loop; five step lemmas joined by the completeness of the exchange (`answered_*`) and of the session messages (`C23_auth_roundtrip`) |
| C58 | `Spec/Carry`, `Plays`, `Props/Carry` | the must-modality extended by an application that reads when it is told; calculus `Served`/`Plays`; step lemmas for the sender (begin, go on, complete) and the receiver (message before or after the application asks), joined by `C23_data_roundtrip`, induction on the number of pieces |
| C59 | `Spec/Start`, `Props/Start` | the step lemmas of C57, restated for the calculus that also continues after callbacks (`Ends` implies `Served`), give the state in which the hypotheses of C58 hold in both directions; time only goes forward (`through_later`) |
| C60 | `Metrics`, `Spec/Metrics`, `Props/Metrics` | a `double` is a real number, infinity or NaN and the rounding a parameter; invariant over all histories; telescoping sums; Jensen's inequality for the range of the entropy |
| C61 | `Program`, `Props/Program` | file system with a disk that may be full (reported or not); exact characterisation of successful runs by case analysis on C43 and C45; induction over typed words and over sequences of runs; prefix-freeness of the container encoding for truncated files |
| C62 | `Qkd`, `Props/Supply` | projection of a history of the source to the operations of one store (C39_source step by step), then C39_available; completeness of the reader (C38) from device bytes to the history; at two stations, the answers of the stores are those that C59 assumes, and C59 applies |
| C63 | `Memory`, `Props/Memory`, `Props/MemoryValues`, `Props/MemoryStore`, `Props/MemoryExample` | the functions as programs on objects with destructors and owners; frame rule for programs (old objects outside a footprint unchanged, new ones destroyed and overwritten, unless public), an invariant of stations (ownership, disjointness, what each object may hold), induction over arbitrary sequences of events; the same programs compute the functions of `Handshake`, `Session`, `Primitives` |
| C64 | `Props/Secrecy`, `Props/SecrecyCases` | two executions side by side (`Together`): a relation between two layers (public members equal, sessions that read and write alike, handshake objects alike up to secrets), kept by every function of `CryptoLayer` (relational rules for the resumption monad), induction over pairs of executions; simulation step for step gives the possibilistic form; closed cases by renaming the secret inside the primitives. Durations are those of the clock only: how long the machine takes is not modelled |
| C65 | `Threads`, `Props/Threads` | small steps of threads; invariant: the thread that holds the mutex is inside a critical section and the map is what its code so far has made of the map at its beginning (`Part`), the order is the order of unlocking; linearizability stated from calls and returns only (`Explains`) |
| C66 | `Emulator`, `Props/Emulator` | induction on the passes of each loop; what the ports have received is stated with the frames of C38 (`Written`), also for a write that fails at any byte; digits by induction on the line; `C66_read_back` by `C38_frames_are_read` |
| C67 | `Console`, `Props/Console` | the lines that are printed determine the bytes: injectivity of decimal numbers (core library), of hexadecimal digits (all pairs of bytes reduced to all pairs of digits), of lines and of blocks by induction; `shown_ends` shows that this model and `Program` agree about which files can be shown; `C67_show_certificates` by induction on the chain with C05; `C67_wrote_exact` by cases of what the system does with each file |
| C68 | `Props/Wire` | what is checked by a session was read by its layer (history invariant `Fits`), what is transmitted is a message that a session or handshake has made (bounded writers), and the frame writers are injective, so authenticity follows from the network instead of from the algorithms; a stream cut into chunks is put together by C14_delivered_partial; files give link layers with mirrored addresses (`C68_links_of_files`, C49); then C54. The 'everything' theorems use `C52_everything_to_*` and `C54_everything_to_*` |
| C16, C17, C21, C36 at the layer | `Spec/History`, `Props/Refine`, `Props/LayerSessions` | the history of every execution (observations and session operations interleaved) is proved to fit an abstract automaton (`Fits`), which splits it into the histories of the sessions; the theorems about sessions then hold of each session of a layer |
| C44 | `Props/Channel`, `Props/Streams` | composition of two session histories; lifted to two whole layers with the refinement of `Props/Refine` and the invariant of `Props/Reading` (what is unread, what may arrive) |

Every theorem (or group) is followed by an `example` showing a concrete non-trivial case that meets its hypotheses.
No property was found impossible to express. Partial ones (and why) are listed in `MANIFEST.json`; nearly all are partial because the code violates the English claim and the violation is itself proved.

## 4. Findings: where the code violates the expected property

| # | finding | theorem |
|---|---|---|
| 1 | A frame for another station (or an empty frame) stops the link layer: nothing more is read although bytes are buffered | `C14_foreign_frame_wedges`, `C14_reachable` |
| 2 | Unparsed bytes and the read flag of the link layer survive a close | `C15_first_frame_after_reopen_is_lost`, `C15_stale_frame_delivered_after_reopen` |
| 3 | The error path of `check_transmit` keeps the transmit state: data of a failed session is sent in the next | `C36_stale_data_violation` |
| 4 | `07 07 AA …` loses a frame | `C12_stray_sync_swallows_frame` |
| 5 | `gen_keypair_x25519` checks for Ed25519 support | `C40_keypair_violation` |
| 6 | Lengths of keys in messages and certificates unchecked: fixed-size primitives read out of bounds | `C30_short_ephemeral_faults`, `C28_short_authority_key_faults`, `C45_short_key_faults` |
| 7 | `days_to_times` overflows `int` from 25 days on | `C43_overflow_violation`, `C43_wrapping_violation` |
| 8 | Certificate validity is never compared with the clock; extensions are ignored | (by `C28_accept_iff`: the clock does not occur) |
| 9 | Shared-secret and QKD responders ignore the handshake mode of the request; a QKD key is consumed by an unauthenticated request; the initiator ignores the version of a reply | `C26_responses`, `C27_responder_uses_key` |
| 10 | Authentic empty data: two counters, nonce advanced, no renegotiation trigger; refusals because of clock or session age are not counted | `C37_violations`, `C35_empty_data_violation` |
| 11 | Evicting a proxy session with completed handshake erases it twice | `C42_eviction_violation` |
| 12 | Certificate-mode proxy configuration ignores `session_crypto_mode` | `C49_certificate_protection_violation` (finding 36) |
| 13 | QIX source configured with zero users: modulo zero | `C27_zero_users_violation` |
| 14 | Appending certificates requires a terminal certificate, so no chain longer than two can be made | `C45_at_most_two` |
| 15 | Nonces: reception accepts up to the maximum, transmission only below; a failed authentication message leaves the transmit nonce at 0 | `C17_…`, `C16_…` state the exact bounds |
| 16 | Chunk sizes ignore tag and length bytes: links with a limit below 1051 never transmit full chunks | `C21_small_limit_violation` |
| 17 | The link frame writer does not cap its payload limit at 4092, the parser does | `C08_writer_parser` (hypothesis) |
| 18 | A session authentication message is accepted again until the first data message | `C17_auth_only_first` (exact statement) |
| 19 | An unauthenticated message in the initiator's `WaitForAuthReply` aborts the handshake (it is retried) | `C30_…` covers established sessions only |
| 20 | `start_rx` from inside the application's open callback: payload memory overwritten, payload lost, or a stall | `C29_nested_read_violation`, `C33_nested_read_violation`, `C34_nested_stall` |
| 21 | After an error in `check_transmit` the unread payload remains: handshake wedge or stale data | `Props/Delivery` (`Dead` states) |
| 22 | `start_rx` on a closed layer still reads from the lower layer | hypothesis `SilentWhenClosed` |
| 24 | Responder: active session valid though the application was never opened | `Props/Delivery` |
| 25 | The read flag of the `AbstractStack` is never reset on close | `C33_stack_violation` |
| 26 | A forged reply during renegotiation makes the initiator send user data under keys that the peer does not have | `C30_forged_reply_loses_data` |
| 27 | The QIX writer always writes status 1 | `C38_status_violation` |
| 28 | The QIX parser drops 47 bytes on a CRC error without searching again: may never synchronise | `C38_misaligned_violation` |
| 29 | After a failed transmission the initiator idles without a session until the session timer | `C34_idle_without_session` |
| 30 | Proxy sessions whose handshake never completes leak when the lower socket fails | `C42_leak` |
| 31 | UDP proxy: a receive error before the first datagram silently ends reception | `C46_udp_silent_stop` |
| 32 | After the loss of a session, what remains of the application's last request blocks the application in the next session: its requests are refused although the layer below is idle, until the next negotiation | `C47_stall_after_loss` |
| 33 | A request without data is accepted and never reported complete: an application that waits for completion (the proxy, on an empty UDP datagram) waits for ever | `C47_empty_never_completes` |
| 34 | UDP proxy: one empty datagram of the local application stops the proxy from reading for ever, while the session stays open | `C48_udp_empty_datagram_violation` |
| 35 | UDP proxy: if the first write to the local application fails, the proxy never writes again, while the session stays open | `C48_udp_write_error_violation` |
| 36 | An initiator with certificates always asks for `hmac_sha256_16`, also if `aes_256_gcm` (encryption) is configured: the algorithms must be present but are not read | `C49_certificate_protection_violation` |
| 37 | Unknown settings are ignored; all shipped files limit sessions with `max_session_duration` and `session_time_renegotiation_trigger`, which are not the names that are read, so the defaults apply whatever is written there | `C49_unknown_settings_violation`, `C49_session_duration_violation` |
| 38 | A time of 2562048 hours or more (or the same in other units) is signed overflow | `C49_overflow_violation` |
| 39 | `subscriber_id` is not compared with `num_subscribers`: a proxy with a larger one never gets a key; `num_subscribers: 0` is accepted and the first key is a division by zero | `C49_subscriber_range_violation`, `C49_zero_subscribers_violation` |
| 40 | TCP proxy: when the connection below fails while the application side is open and no other socket operation is outstanding (e.g. transmitting, with received data not yet read), `on_session_error` destroys the session while `CryptoLayer::on_lower_close_impl` is running: use after free | `C50_reset_violation` |
| 41 | UDP proxy: an error that the local socket reports starts the next session twice; binding the address again throws and ends the program | `C50_udp_local_error_violation` |
| 42 | UDP proxy: an error of the socket below after the first datagram but before the handshake is complete closes the stack and nothing starts another session | `C50_udp_dead_violation` |
| 43 | The shipped files with a source of quantum keys give the speed of the serial line as `baud`; `baud_rate` is read, so the line runs at 9600 baud whatever is written there | `C49_baud_violation` |
| 44 | Renegotiation loses data: after the session auth message the initiator goes on sending in the old session, which the responder has already replaced; the frames are rejected, the application is not told | `C53_loss_violation` |
| 45 | Renegotiation reorders data if the network exchanges two messages, although nonces are strict: data sent in the old session after the session auth message overtakes the data in that message | `C53_reordering_violation` |
| 46 | After data could not be sent (nonce or time limit), data that the application was told of and has not read stays in the layer, the application is closed, and nothing is read from the layer below until it closes (21, as a reachable state) | `C56_stalled_violation` |
| 47 | The entropy of quantum keys is logged as NaN as long as a byte value has not occurred: `0 * log2(0)` is `0 * -inf` | `C60_entropy_violation`, `C60_first_seven_keys_violation` |
| 48 | `icftool` returns exit status 0 after every exception | `C61_status_violation` |
| 49 | `icftool` given one name for both key files overwrites the private key with the public one, without an error; if the second file cannot be written, the first has been replaced | `C61_same_path_violation`, `C61_half_pair_violation` |
| 50 | `SecureFile::write` does not flush or close before it reports success: a full disk can go unnoticed (only `--cert` reads the file back) | `C61_full_disk_violation`, `C61_cert_done` |
| 51 | `icftool` without `--level` waits for ever at the end of its input or after a number of days that is not a number; a level that is not a number counts as 0, missing days count as 0; `--level` is not limited to 6 | `C61_hang_violation`, `C61_typed_violation` |
| 52 | an initiator keeps the ephemeral private key (public-key modes) or the quantum key of its last handshake in memory until it begins another handshake, also after both sessions have been closed: `reset` on the lower layer's close does not touch the handshake object | `C63_initiator_keeps_violation` |
| 53 | `QIXFrameParser` keeps each quantum key in a plain `StaticBuffer` until the next frame arrives; the buffer is not overwritten when the key has been handed on or when the object is destroyed | `C63_parser_keeps_violation` |
| 54 | `qix-emulator --write`: `elapsed = start - now()` has the wrong sign, so the thread sleeps *longer* by the time that writing took; the rate is lower than asked for whenever writing takes any time (and `1000 / rate` is truncated: every rate from 501 to 1000 means 1 ms, every rate above 1000 means no delay) | `C66_rate_violation`, `C66_delay_violation` |
| 55 | `icftool --show`: the indentation that `print_certificate_chain` adds for a certificate is not taken back, so the `n`th certificate of a chain is printed `2n` columns to the right, as if it were part of the one before | `C67_show_certificates` |

## 5. Testing the theorems

`tools/seed.py` applies a textual mutation to a scratch copy of the model, rebuilds, and records which theorems fail in `seeded/LOG.jsonl`.
A surviving mutant whose edit falsifies an English claim led to a new or tightened theorem (field `tightened`).
