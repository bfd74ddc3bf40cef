import Verif.Chain
/-
  The three handshake modes (shared secret, QKD, public keys / certificates), on the initiator's and on the
  responder's side.

  Random bytes are an argument of the functions that draw them. The key stores used by QKD are arguments as
  well: `record` is what `IKeySource::consume_key` returned, `lookup` what `find_and_consume_key` would return
  (the store itself is modelled in Verif/Qix.lean).
-/
namespace SSP21

/-- `KeyPair`, cpp/libs/ssp21/include/ssp21/crypto/BufferTypes.h. -/
structure KeyPair where
  priv : Bytes
  pub : Bytes

/-- `gen_keypair_x25519`, cpp/libs/sodium/src/Backend.cpp:105-115; `rnd` are the 32 random bytes. -/
def Backend.genKeyPair (b : Backend) (rnd : Bytes) : KeyPair := ⟨rnd, b.dhPublic rnd⟩

/-- `version::get`, cpp/libs/ssp21/src/crypto/ProtocolVersion.cpp:10-15 and Constants.h:13-14. -/
def protocolVersion : Version := ⟨0, 1⟩

/-- `SessionLimits`, cpp/libs/ssp21/include/ssp21/crypto/CryptoLayerConfig.h:33-39. -/
structure SessionLimits where
  maxNonce : UInt16
  maxSessionTimeMs : UInt32

/-- `HandshakeHasher::compute`, cpp/libs/ssp21/src/crypto/HandshakeHasher.cpp:6-15. -/
def handshakeHasher (hash : Bytes → Bytes) (first second : Bytes) : Bytes := hash (hash first ++ second)

/-- `TripleDH::compute`, cpp/libs/ssp21/src/crypto/TripleDH.cpp:6-27: dh1, dh2, dh3. -/
def tripleDH (b : Backend) (staticPriv ephemeralPriv remoteStatic remoteEphemeral : Bytes) :
    Except CryptoError (Bytes × Bytes × Bytes) :=
  match b.dh ephemeralPriv remoteEphemeral with
  | .error e => .error e
  | .ok dh1 =>
    match b.dh ephemeralPriv remoteStatic with
    | .error e => .error e
    | .ok dh2 =>
      match b.dh staticPriv remoteEphemeral with
      | .error e => .error e
      | .ok dh3 => .ok (dh1, dh2, dh3)

/-! ### Initiator -/

/-- The members that differ between `SharedSecretInitiatorHandshake` (SharedSecretInitiatorHandshake.h:46-48),
`QKDInitiatorHandshake` (QKDInitiatorHandshake.h) and `PublicKeyInitiatorHandshake`
(PublicKeyInitiatorHandshake.h:54-63). -/
inductive InitiatorMode
  | sharedSecret (key nonce : Bytes)
  | qkd (key : Option Bytes)
  | publicKey (staticPriv : Bytes) (certs : CertHandler) (ephemeral : KeyPair)

/-- An `IInitiatorHandshake`: the members common to the three classes (e.g.
SharedSecretInitiatorHandshake.h:43-54). `suite` is the `DHCryptoSuite` returned by `get_crypto_suite` in the
form of the `CryptoSpec` of the request. -/
structure InitiatorHandshake where
  mode : InitiatorMode
  suite : CryptoSpec
  algorithms : CommonAlgorithms
  timeRequestTx : Int
  handshakeHash : Bytes

/-- The constructor SharedSecretInitiatorHandshake.cpp:10-16 and `get_crypto_suite`,
SharedSecretInitiatorHandshake.h:35-38 (the ephemeral type of the suite is `nonce`); `none` is an exception. -/
def InitiatorHandshake.mkSharedSecret (b : Backend) (caps : Caps) (suite : CryptoSpec) (key : Bytes) :
    Option InitiatorHandshake :=
  match CommonAlgorithms.configure b caps suite with
  | .error _ => none
  | .ok a => some ⟨.sharedSecret key (List.replicate 32 0), { suite with handshake_ephemeral := .nonce }, a, 0, []⟩

/-- The constructor QKDInitiatorHandshake.cpp:10-16 and `get_crypto_suite`, QKDInitiatorHandshake.h (the
ephemeral type is `none`). -/
def InitiatorHandshake.mkQkd (b : Backend) (caps : Caps) (suite : CryptoSpec) : Option InitiatorHandshake :=
  match CommonAlgorithms.configure b caps suite with
  | .error _ => none
  | .ok a => some ⟨.qkd none, { suite with handshake_ephemeral := .none }, a, 0, []⟩

/-- The constructor PublicKeyInitiatorHandshake.h:18-26. A backend that supports X25519 but not Ed25519 makes
the process exit at the first key generation (Crypto.cpp:142-146, property C40); here that is a failure of
the constructor. -/
def InitiatorHandshake.mkPublicKey (b : Backend) (caps : Caps) (suite : CryptoSpec) (staticPriv : Bytes)
    (certs : CertHandler) : Option InitiatorHandshake :=
  match CommonAlgorithms.configure b caps suite with
  | .error _ => none
  | .ok a =>
    match dhConfigure caps suite.handshake_ephemeral with
    | .error _ => none
    | .ok () => if caps.ed25519 then some ⟨.publicKey staticPriv certs ⟨[], []⟩, suite, a, 0, []⟩ else none

/-- `get_handshake_mode`, SharedSecretInitiatorHandshake.h:30-33, QKDInitiatorHandshake.h,
PublicKeyInitiatorHandshake.h:39-42. -/
def InitiatorHandshake.handshakeMode (h : InitiatorHandshake) : HandshakeMode :=
  match h.mode with
  | .sharedSecret _ _ => .shared_secret
  | .qkd _ => .quantum_key_distribution
  | .publicKey _ certs _ => certs.mode

/-- `initialize_new_handshake`, SharedSecretInitiatorHandshake.cpp:18-23, QKDInitiatorHandshake.cpp:18-36,
PublicKeyInitiatorHandshake.cpp:11-18: mode ephemeral and mode data, or failure. `rnd` is what the random
generator delivers (32 bytes), `record` what the key source delivers. -/
def InitiatorHandshake.initializeNew (h : InitiatorHandshake) (b : Backend) (rnd : Bytes)
    (record : Option (UInt64 × Bytes)) : InitiatorHandshake × Option (Bytes × Bytes) :=
  match h.mode with
  | .sharedSecret key _ => ({ h with mode := .sharedSecret key rnd }, some (rnd, []))
  | .qkd _ =>
    match record with
    | none => ({ h with mode := .qkd none }, none)
    | some (id, key) => ({ h with mode := .qkd (some key) }, some ([], be 8 id.toNat))
  | .publicKey sp certs _ =>
    let kp := b.genKeyPair rnd
    ({ h with mode := .publicKey sp certs kp }, some (kp.pub, certs.data))

/-- The quantum key, with its id, that `initialize_new_handshake` takes from the key source, QKDInitiatorHandshake.cpp:18-36
(`consume_key` removes it from the source). -/
def InitiatorHandshake.usedRecord (h : InitiatorHandshake) (record : Option (UInt64 × Bytes)) : Option (UInt64 × Bytes) :=
  match h.mode with
  | .qkd _ => record
  | _ => none

/-- The request built by `Idle::on_handshake_required`,
cpp/libs/ssp21/src/crypto/InitiatorHandshakeStates.cpp:21-46. -/
def InitiatorHandshake.buildRequest (h : InitiatorHandshake) (limits : SessionLimits) (ephemeral data : Bytes) :
    RequestHandshakeBegin :=
  ⟨protocolVersion, h.suite, ⟨limits.maxNonce, limits.maxSessionTimeMs⟩, h.handshakeMode, ephemeral, data⟩

/-- `finalize_request_tx`, SharedSecretInitiatorHandshake.cpp:25-29, QKDInitiatorHandshake.cpp:38-42,
PublicKeyInitiatorHandshake.cpp:20-24. -/
def InitiatorHandshake.finalizeRequestTx (h : InitiatorHandshake) (requestData : Bytes) (now : Int) :
    InitiatorHandshake :=
  { h with timeRequestTx := now, handshakeHash := h.algorithms.handshake.hash requestData }

/-- Handshake objects only ever hold the algorithms of their suite (all three constructors:
`InitiatorHandshake.configured_of_make`; preserved by every operation). -/
def InitiatorHandshake.Configured (b : Backend) (caps : Caps) (h : InitiatorHandshake) : Prop :=
  CommonAlgorithms.configure b caps h.suite = .ok h.algorithms

/-- What the three constructors make is configured. -/
theorem InitiatorHandshake.configured_of_make (b : Backend) (caps : Caps) (suite : CryptoSpec) (key : Bytes)
    (certs : CertHandler) (h : InitiatorHandshake) (hm : mkSharedSecret b caps suite key = some h ∨
      mkQkd b caps suite = some h ∨ mkPublicKey b caps suite key certs = some h) : h.Configured b caps := by
  rcases hm with hm | hm | hm
  · unfold mkSharedSecret at hm
    split at hm
    · cases hm
    · rename_i a hc; cases hm; exact hc
  · unfold mkQkd at hm
    split at hm
    · cases hm
    · rename_i a hc; cases hm; exact hc
  · unfold mkPublicKey at hm
    split at hm
    · cases hm
    rename_i a hc
    split at hm
    · cases hm
    split at hm
    · cases hm; exact hc
    · cases hm

/-- Outcome of `initialize_session`: true, false, or undefined behaviour. -/
inductive InitOutcome
  | ok | refused | fault
  deriving DecidableEq, Repr

/-- The common tail of the three `initialize_session` functions: key derivation, clock check and session
initialization (SharedSecretInitiatorHandshake.cpp:46-68, QKDInitiatorHandshake.cpp:64-86,
PublicKeyInitiatorHandshake.cpp:56-77). Durations are halved by integer division (truncation; the elapsed
time is not negative there). -/
def InitiatorHandshake.finishSession (h : InitiatorHandshake) (ikm : List Bytes) (limits : SessionLimits)
    (now : Int) (session : Session) (st : Stats) : Session × Stats × InitOutcome :=
  let (k1, k2) := h.algorithms.handshake.kdf h.handshakeHash ikm
  if now < h.timeRequestTx then (session, st, .refused)
  else
    let start := now - (now - h.timeRequestTx).tdiv 2
    match session.initialize st h.algorithms.session ⟨start, limits.maxNonce, ms limits.maxSessionTimeMs⟩
        ⟨k2, k1⟩ with
    | (s, st, true) => (s, st, .ok)
    | (s, st, false) => (s, st, .refused)

/-- `mix_handshake_hash`, SharedSecretInitiatorHandshake.cpp:73-82 (the same in the other two classes). -/
def InitiatorHandshake.mix (h : InitiatorHandshake) (input : Bytes) : InitiatorHandshake :=
  { h with handshakeHash := h.algorithms.handshake.hash (h.handshakeHash ++ input) }

/-- `initialize_session`, SharedSecretInitiatorHandshake.cpp:31-71, QKDInitiatorHandshake.cpp:44-89,
PublicKeyInitiatorHandshake.cpp:26-78. -/
def InitiatorHandshake.initializeSession (h : InitiatorHandshake) (b : Backend) (caps : Caps)
    (msg : ReplyHandshakeBegin) (msgBytes : Bytes) (limits : SessionLimits) (now : Int) (session : Session)
    (st : Stats) : InitiatorHandshake × Session × Stats × InitOutcome :=
  match h.mode with
  | .sharedSecret key nonce =>
    if msg.mode_ephemeral.length ≠ 32 then (h, session, st, .refused)
    else if msg.mode_data ≠ [] then (h, session, st, .refused)
    else
      let h := h.mix msgBytes
      (h, h.finishSession [key, nonce, msg.mode_ephemeral] limits now session st)
  | .qkd none => (h, session, st, .refused)
  | .qkd (some key) =>
    if msg.mode_ephemeral ≠ [] then (h, session, st, .refused)
    else if msg.mode_data ≠ [] then (h, session, st, .refused)
    else
      let h := h.mix msgBytes
      (h, h.finishSession [key] limits now session st)
  | .publicKey sp certs eph =>
    match certs.validate b caps certs.mode msg.mode_data with
    | .error .fault => (h, session, st, .fault)
    | .error (.err _) => (h, session, st, .refused)
    | .ok remote =>
      let h := h.mix msgBytes
      match tripleDH b sp eph.priv remote msg.mode_ephemeral with
      | .error .memory_fault => (h, session, st, .fault)
      | .error _ => (h, session, st, .refused)
      | .ok (dh1, dh2, dh3) => (h, h.finishSession [dh1, dh3, dh2] limits now session st)

/-! ### Responder -/

/-- `SharedSecretResponderHandshake`, `QKDResponderHandshake`, `PublicKeyResponderHandshake`: their members
(.h files of the same names). -/
inductive ResponderHandshake
  | sharedSecret (key : Bytes)
  | qkd
  | publicKey (staticPriv : Bytes) (certs : CertHandler)

/-- The common tail of the three `process` functions: write the reply, derive the keys, initialize the
session (SharedSecretResponderHandshake.cpp:55-80, QKDResponderHandshake.cpp:66-91,
PublicKeyResponderHandshake.cpp:67-108). The result of `session.initialize` is ignored. `ikm` is computed
after the reply is written, as in PublicKeyResponderHandshake.cpp:76-90. -/
def respond (a : CommonAlgorithms) (reply : ReplyHandshakeBegin) (ikm : Except HsFail (List Bytes))
    (msg : RequestHandshakeBegin) (msgBytes : Bytes) (now : Int) (fw : FrameWriter) (session : Session)
    (st : Stats) : Session × Stats × Except HsFail Bytes :=
  match reply.write fw.maxPayload.toNat with
  | .error _ => (session, st, .error (.err .unknown))
  | .ok written =>
    let hash := handshakeHasher a.handshake.hash msgBytes written
    match ikm with
    | .error e => (session, st, .error e)
    | .ok ikm =>
      let (k1, k2) := a.handshake.kdf hash ikm
      let (s, st, _) := session.initialize st a.session
        ⟨now, msg.constraints.max_nonce, ms msg.constraints.max_session_duration⟩ ⟨k1, k2⟩
      (s, st, .ok (fw.wrap written))

/-- `IResponderHandshake::process`: SharedSecretResponderHandshake.cpp:22-81, QKDResponderHandshake.cpp:22-92,
PublicKeyResponderHandshake.cpp:22-109. Also returns the key taken out of the key store, with its id, if any.
`BigEndian::read` of the key id needs 8 bytes, all of the mode data must be used. Key generation exits the
process when the backend lacks Ed25519 (Crypto.cpp:142-146): modelled as `fault`. -/
def ResponderHandshake.process (h : ResponderHandshake) (b : Backend) (caps : Caps)
    (lookup : UInt64 → Option Bytes) (rnd : Bytes) (msg : RequestHandshakeBegin) (msgBytes : Bytes)
    (now : Int) (fw : FrameWriter) (session : Session) (st : Stats) :
    Session × Stats × Option (UInt64 × Bytes) × Except HsFail Bytes :=
  let fail (e : HsFail) : Session × Stats × Option (UInt64 × Bytes) × Except HsFail Bytes := (session, st, none, .error e)
  match h with
  | .sharedSecret key =>
    if msg.mode_ephemeral.length ≠ 32 then fail (.err .bad_message_format)
    else if msg.mode_data ≠ [] then fail (.err .bad_message_format)
    else match CommonAlgorithms.configure b caps msg.spec with
    | .error e => fail (.err e)
    | .ok a =>
      let r := respond a ⟨protocolVersion, rnd, []⟩ (.ok [key, msg.mode_ephemeral, rnd]) msg msgBytes now fw
        session st
      (r.1, r.2.1, none, r.2.2)
  | .qkd =>
    if msg.mode_ephemeral ≠ [] then fail (.err .bad_message_format)
    else match CommonAlgorithms.configure b caps msg.spec with
    | .error e => fail (.err e)
    | .ok a =>
      if msg.mode_data.length ≠ 8 then fail (.err .bad_message_format)
      else
        let id := UInt64.ofNat (beNat msg.mode_data)
        match lookup id with
        | none => fail (.err .key_not_found)
        | some key =>
          let r := respond a ⟨protocolVersion, [], []⟩ (.ok [key]) msg msgBytes now fw session st
          (r.1, r.2.1, some (id, key), r.2.2)
  | .publicKey sp certs =>
    match CommonAlgorithms.configure b caps msg.spec with
    | .error e => fail (.err e)
    | .ok a =>
      match dhConfigure caps msg.spec.handshake_ephemeral with
      | .error e => fail (.err e)
      | .ok () =>
        if msg.mode_ephemeral.length ≠ 32 then fail (.err .bad_message_format)
        else match certs.validate b caps msg.handshake_mode msg.mode_data with
        | .error e => fail e
        | .ok remote =>
          if !caps.ed25519 then fail .fault
          else
            let eph := b.genKeyPair rnd
            let ikm : Except HsFail (List Bytes) := match tripleDH b sp eph.priv remote msg.mode_ephemeral with
              | .error .memory_fault => .error .fault
              | .error _ => .error (.err .unknown)
              | .ok (dh1, dh2, dh3) => .ok [dh1, dh2, dh3]
            let r := respond a ⟨protocolVersion, eph.pub, certs.data⟩ ikm msg msgBytes now fw session st
            (r.1, r.2.1, none, r.2.2)

end SSP21
