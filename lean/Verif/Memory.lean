import Verif.Handshake
import Verif.Qix
/-
  What becomes of secrets in memory: the objects that hold keys and intermediate results, their destructors, and the
  functions of the handshakes and sessions as programs that work on such objects.

  An object that holds data is a `Cell`: its bytes, the length it declares, whether its destructor overwrites the bytes,
  and how many owners it has (`std::shared_ptr`; 1 for members and local variables; 0 after its destruction). Addresses are
  not used again, so what an object leaves behind can still be seen later; a new object finds arbitrary bytes.
  Simplifications: slices (`seq32_t`) are read where they are passed; the working memory of libsodium, of streams and of
  the frame writers, copies in registers and what an optimiser might add are not modelled; `KeyRecord` is represented by
  its key; messages and user data are not regarded as secrets here.
-/
namespace SSP21.Memory

/-- An object of a class derived from `BufferBase` (cpp/libs/ssp21/include/ssp21/crypto/BufferTypes.h:22-47) or a
`StaticBuffer`. `wipes`: its class derives from `SecureBuffer` (BufferTypes.h:53-62). -/
structure Cell where
  bytes : Bytes
  len : Nat
  wipes : Bool
  owners : Nat

/-- Memory; the addresses from `next` on have not been used yet. -/
structure Mem where
  cell : Nat → Cell
  next : Nat

def Mem.set (m : Mem) (a : Nat) (c : Cell) : Mem := { m with cell := fun x => if x = a then c else m.cell x }

/-- A program. -/
def Op (α : Type) := Mem → α × Mem

instance : Monad Op where
  pure a m := (a, m)
  bind f g m := g (f m).1 (f m).2

/-- A new object with one owner. `BufferBase()` sets the length (BufferTypes.h:43) and leaves the bytes as they are (whether
`StaticBuffer` clears them does not matter). -/
def new (wipes : Bool) : Op Nat := fun m =>
  (m.next, { m.set m.next { m.cell m.next with len := 0, wipes := wipes, owners := 1 } with next := m.next + 1 })

/-- The bytes overwritten by `zero_memory`, cpp/libs/sodium/src/Backend.cpp:53-56. -/
def zeros (bs : Bytes) : Bytes := bs.map fun _ => 0

/-- One owner less; without owners the object is destroyed: `SecureBuffer::~SecureBuffer`,
cpp/libs/ssp21/src/crypto/BufferTypes.cpp:55-58. -/
def release (a : Nat) : Op Unit := fun m =>
  let c := m.cell a
  let last := c.owners ≤ 1
  ((), m.set a { c with owners := c.owners - 1, bytes := if last ∧ c.wipes then zeros c.bytes else c.bytes })

/-- One owner more: a copy of a `std::shared_ptr`. -/
def share (a : Nat) : Op Unit := fun m => ((), m.set a { m.cell a with owners := (m.cell a).owners + 1 })

/-- A local variable: destroyed on every way out of the block. -/
def withLocal {α : Type} (wipes : Bool) (body : Nat → Op α) : Op α := do
  let a ← new wipes
  let r ← body a
  release a
  pure r

/-- Writing through `as_wseq()`, BufferTypes.cpp:25-28. -/
def put (a : Nat) (bs : Bytes) : Op Unit := fun m =>
  ((), m.set a { m.cell a with bytes := bs ++ (m.cell a).bytes.drop bs.length })

/-- `BufferBase::set_length`, BufferTypes.cpp:30-33. -/
def setLength (a n : Nat) : Op Unit := fun m => ((), m.set a { m.cell a with len := n })

/-- `BufferBase::as_seq`, BufferTypes.cpp:10-13. -/
def read (a : Nat) : Op Bytes := fun m => ((m.cell a).bytes.take (m.cell a).len, m)

/-- `BufferBase::get_length_in_bytes`, BufferTypes.cpp:15-18. -/
def lengthOf (a : Nat) : Op Nat := fun m => ((m.cell a).len, m)

/-- `BufferBase::copy`, BufferTypes.cpp:35-39: only as many bytes as the source declares. -/
def copy (dst src : Nat) : Op Unit := fun m =>
  let s := m.cell src
  ((), m.set dst { m.cell dst with len := s.len, bytes := s.bytes.take s.len ++ (m.cell dst).bytes.drop s.len })

/-- `SecureBuffer::zero`, BufferTypes.cpp:60-64. -/
def zero (a : Nat) : Op Unit := fun m => ((), m.set a { m.cell a with len := 0, bytes := zeros (m.cell a).bytes })

/-! ### Primitives -/

/-- `hash_sha256` of the concatenation, cpp/libs/sodium/src/Backend.cpp:72-84. -/
def hashInto (b : Backend) (data : Bytes) (dst : Nat) : Op Unit := do
  put dst (b.hash data)
  setLength dst 32

/-- `hmac_sha256`, Backend.cpp:86-98. -/
def hmacInto (b : Backend) (key data : Bytes) (dst : Nat) : Op Unit := do
  put dst (b.hmac key data)
  setLength dst 32

/-- `hkdf`, cpp/libs/sodium/src/HKDF.h:15-36. -/
def hkdfInto (b : Backend) (salt : Bytes) (ikm : List Bytes) (out1 out2 : Nat) : Op Unit :=
  withLocal true fun temp => do
    hmacInto b salt ikm.flatten temp
    let t ← read temp
    hmacInto b t [0x01] out1
    let t ← read temp
    let k ← read out1
    hmacInto b t (k ++ [0x02]) out2
    setLength out1 32
    setLength out2 32

/-- `gen_keypair_x25519`, Backend.cpp:105-115. -/
def genKeyPairInto (b : Backend) (rnd : Bytes) (pub priv : Nat) : Op Unit := do
  put priv rnd
  put pub (b.dhPublic rnd)
  setLength pub 32
  setLength priv 32

/-- `dh_x25519`, Backend.cpp:117-125 (a failed `crypto_scalarmult` is taken to leave the output alone). -/
def dhInto (b : Backend) (priv : Nat) (pub : Bytes) (out : Nat) : Op (Except CryptoError Unit) := do
  let k ← read priv
  if pub.length < 32 then pure (.error .memory_fault)
  else match b.dhRaw k (pub.take 32) with
    | none => pure (.error .dh_x25519_fail)
    | some r => do
      put out r
      setLength out 32
      pure (.ok ())

/-- `TripleDH::compute`, cpp/libs/ssp21/src/crypto/TripleDH.cpp:6-27. -/
def tripleInto (b : Backend) (staticPriv ephPriv : Nat) (remoteStatic remoteEph : Bytes) (d1 d2 d3 : Nat) :
    Op (Except CryptoError Unit) := do
  match ← dhInto b ephPriv remoteEph d1 with
  | .error e => pure (.error e)
  | .ok () =>
    match ← dhInto b ephPriv remoteStatic d2 with
    | .error e => pure (.error e)
    | .ok () => dhInto b staticPriv remoteEph d3

/-- The `TripleDH triple_dh` of PublicKeyInitiatorHandshake.cpp:40-54 and PublicKeyResponderHandshake.cpp:76-90 with what
follows it in its scope: `fail` after an error, otherwise `k` with the three results. -/
def withTriple {α : Type} (b : Backend) (staticPriv ephPriv : Nat) (remoteStatic remoteEph : Bytes)
    (fail : CryptoError → Op α) (k : Bytes → Bytes → Bytes → Op α) : Op α :=
  withLocal true fun d1 => withLocal true fun d2 => withLocal true fun d3 => do
    match ← tripleInto b staticPriv ephPriv remoteStatic remoteEph d1 d2 d3 with
    | .error e => fail e
    | .ok () => do
      let x ← read d1
      let y ← read d2
      let z ← read d3
      k x y z

/-! ### Sessions -/

/-- The keys of a `Session` (cpp/libs/ssp21/src/crypto/Session.h:98) and whether it is valid. -/
structure SessionMem where
  rx : Nat
  tx : Nat
  valid : Bool

/-- `Session::initialize`, cpp/libs/ssp21/src/crypto/Session.cpp:26-42, as far as keys are concerned. -/
def SessionMem.initialize (s : SessionMem) (rx tx : Nat) : Op (SessionMem × Bool) := do
  let n ← lengthOf rx
  let k ← lengthOf tx
  if n = 32 ∧ k = 32 then do
    copy s.rx rx
    copy s.tx tx
    pure ({ s with valid := true }, true)
  else pure (s, false)

/-- `Session::reset`, Session.cpp:44-48. -/
def SessionMem.reset (s : SessionMem) : Op SessionMem := do
  zero s.rx
  zero s.tx
  pure { s with valid := false }

/-- The part of `format_session_data_no_nonce_check` that uses the key, Session.cpp:171-177 with MacAdapters.h:17-44 and
Backend.cpp:152-177: ciphertext and tag. -/
def sealWith (b : Backend) (mode : SessionCryptoMode) (key : Nat) (nonce : UInt16) (ad clear : Bytes) (bufLen : Nat) :
    Op (Except CryptoError (Bytes × Bytes)) :=
  withLocal true fun mac => do
    let k ← read key
    match mode with
    | .aes_256_gcm =>
      if clear.length > bufLen then pure (.error .memory_fault)
      else match b.gcmSeal k (gcmNonce nonce) ad clear with
        | none => pure (.error .aead_encrypt_fail)
        | some (ct, tag) => do
          put mac tag
          setLength mac 16
          let t ← read mac
          pure (.ok (ct, t))
    | _ =>
      if clear.length > 65535 then pure (.error .bad_length)
      else do
        hmacInto b k (macInput ad clear) mac
        let t ← read mac
        pure (.ok (clear, t.take 16))

/-- `SessionMode::read` with the key, MacAdapters.h:48-84 and Backend.cpp:179-200. -/
def openWith (b : Backend) (mode : SessionCryptoMode) (key : Nat) (nonce : UInt16) (ad cipher tag : Bytes) (destLen : Nat) :
    Op (Except CryptoError Bytes) := do
  let k ← read key
  match mode with
  | .aes_256_gcm =>
    if cipher.length > destLen ∨ tag.length < 16 then pure (.error .memory_fault)
    else match b.gcmOpen k (gcmNonce nonce) ad cipher (tag.take 16) with
      | none => pure (.error .aead_decrypt_fail)
      | some x => pure (.ok x)
  | _ =>
    if destLen > 65535 then pure (.error .bad_length)
    else withLocal true fun mac => do
      hmacInto b k (macInput ad cipher) mac
      let t ← read mac
      if t.take 16 ≠ tag then pure (.error .mac_auth_fail) else pure (.ok cipher)

/-! ### Responder -/

/-- The members of the responder handshakes: the keys by address. -/
inductive ResponderMem
  | sharedSecret (key : Nat)
  | qkd
  | publicKey (staticPriv : Nat) (certs : CertHandler)

/-- The result of `process`, with the session. -/
abbrev Processed := SessionMem × Except HsFail Bytes

/-- The local `SessionKeys session_keys` of the three `process` functions: key derivation and `session.initialize`
(SharedSecretResponderHandshake.cpp:63-80, QKDResponderHandshake.cpp:74-91, PublicKeyResponderHandshake.cpp:92-108). -/
def deriveResponder (b : Backend) (salt : Bytes) (ikm : List Bytes) (s : SessionMem) (frame : Bytes) : Op Processed :=
  withLocal true fun rx => withLocal true fun tx => do
    hkdfInto b salt ikm rx tx
    let r ← s.initialize rx tx
    pure (r.1, .ok frame)

/-- The common part of the three `process` functions from the reply on: SharedSecretResponderHandshake.cpp:55-80,
QKDResponderHandshake.cpp:60-91, PublicKeyResponderHandshake.cpp:60-108. `ikm` gets the key material for the rest. -/
def respondMem (b : Backend) (reply : ReplyHandshakeBegin) (ikm : (List Bytes → Op Processed) → Op Processed)
    (msgBytes : Bytes) (fw : FrameWriter) (s : SessionMem) : Op Processed :=
  match reply.write fw.maxPayload.toNat with
  | .error _ => pure (s, .error (.err .unknown))
  | .ok written => withLocal true fun hasher => do
    hashInto b msgBytes hasher
    let h ← read hasher
    hashInto b (h ++ written) hasher
    ikm fun l => do
      let salt ← read hasher
      deriveResponder b salt l s (fw.wrap written)

/-- `SharedSecretResponderHandshake::process`, SharedSecretResponderHandshake.cpp:22-81. -/
def processShared (b : Backend) (caps : Caps) (key : Nat) (rnd : Bytes) (msg : RequestHandshakeBegin)
    (msgBytes : Bytes) (fw : FrameWriter) (s : SessionMem) : Op Processed :=
  if msg.mode_ephemeral.length ≠ 32 then pure (s, .error (.err .bad_message_format))
  else if msg.mode_data ≠ [] then pure (s, .error (.err .bad_message_format))
  else match CommonAlgorithms.configure b caps msg.spec with
  | .error e => pure (s, .error (.err e))
  | .ok _ => withLocal false fun nonce => do
    put nonce rnd
    setLength nonce 32
    respondMem b ⟨protocolVersion, rnd, []⟩ (fun k => do
      let x ← read key
      let n ← read nonce
      k [x, msg.mode_ephemeral, n]) msgBytes fw s

/-- `PublicKeyResponderHandshake::process`, PublicKeyResponderHandshake.cpp:22-109. -/
def processPublic (b : Backend) (caps : Caps) (staticPriv : Nat) (certs : CertHandler) (rnd : Bytes)
    (msg : RequestHandshakeBegin) (msgBytes : Bytes) (fw : FrameWriter) (s : SessionMem) : Op Processed :=
  match CommonAlgorithms.configure b caps msg.spec with
  | .error e => pure (s, .error (.err e))
  | .ok _ =>
    match dhConfigure caps msg.spec.handshake_ephemeral with
    | .error e => pure (s, .error (.err e))
    | .ok () =>
      if msg.mode_ephemeral.length ≠ 32 then pure (s, .error (.err .bad_message_format))
      else match certs.validate b caps msg.handshake_mode msg.mode_data with
      | .error e => pure (s, .error e)
      | .ok remote =>
        if !caps.ed25519 then pure (s, .error .fault)
        else withLocal false fun pub => withLocal true fun priv => do
          genKeyPairInto b rnd pub priv
          respondMem b ⟨protocolVersion, b.dhPublic rnd, certs.data⟩ (fun k =>
            withTriple b staticPriv priv remote msg.mode_ephemeral
              (fun e => pure (s, .error (match e with | .memory_fault => .fault | _ => .err .unknown)))
              (fun x y z => k [x, y, z])) msgBytes fw s

/-- The keys of a `QIXKeyStore` (cpp/libs/qix/include/qix/QIXKeyStore.h:29-31) by id, in increasing order. -/
abbrev StoreMem := List (UInt64 × Nat)

/-- `QKDResponderHandshake::process`, QKDResponderHandshake.cpp:22-92, with `find_and_consume_key`,
cpp/libs/qix/src/QIXKeyStore.cpp:41-52: the caller becomes an owner of the key and the entry is erased; `shared_secret`
goes out of scope at every return. -/
def processQkd (b : Backend) (caps : Caps) (store : StoreMem) (msg : RequestHandshakeBegin)
    (msgBytes : Bytes) (fw : FrameWriter) (s : SessionMem) : Op (StoreMem × Processed) :=
  if msg.mode_ephemeral ≠ [] then pure (store, s, .error (.err .bad_message_format))
  else match CommonAlgorithms.configure b caps msg.spec with
  | .error e => pure (store, s, .error (.err e))
  | .ok _ =>
    if msg.mode_data.length ≠ 8 then pure (store, s, .error (.err .bad_message_format))
    else
      let id := UInt64.ofNat (beNat msg.mode_data)
      match store.find? (fun r => r.1 = id) with
      | none => pure (store, s, .error (.err .key_not_found))
      | some (_, key) => do
        share key
        release key
        let r ← respondMem b ⟨protocolVersion, [], []⟩ (fun k => do
          let x ← read key
          k [x]) msgBytes fw s
        release key
        pure (store.filter (fun r => r.1 ≠ id), r)

/-! ### Initiator -/

/-- The members of the initiator handshakes that hold keys, nonces and hashes: SharedSecretInitiatorHandshake.h:46-54,
QKDInitiatorHandshake.h:50-60, PublicKeyInitiatorHandshake.h:54-72. -/
inductive InitiatorMem
  | sharedSecret (key nonce hash : Nat)
  | qkd (key : Option Nat) (hash : Nat)
  | publicKey (staticPriv : Nat) (certs : CertHandler) (pub priv hash : Nat)

def InitiatorMem.hash : InitiatorMem → Nat
  | .sharedSecret _ _ h => h
  | .qkd _ h => h
  | .publicKey _ _ _ _ h => h

/-- `std::shared_ptr::reset`. -/
def drop : Option Nat → Op Unit
  | none => pure ()
  | some a => release a

/-- `initialize_new_handshake`, SharedSecretInitiatorHandshake.cpp:18-23, QKDInitiatorHandshake.cpp:18-36 (with
`consume_key`, QIXKeyStore.cpp:29-39: the record is another owner of the key until the function returns),
PublicKeyInitiatorHandshake.cpp:11-18. The result is whether there is a handshake to begin. -/
def InitiatorMem.begin (h : InitiatorMem) (b : Backend) (store : StoreMem) (rnd : Bytes) :
    Op (InitiatorMem × StoreMem × Bool) :=
  match h with
  | .sharedSecret _ nonce _ => do
    put nonce rnd
    setLength nonce 32
    pure (h, store, true)
  | .qkd key hash => do
    drop key
    match store.getLast? with
    | none => pure (.qkd none hash, store, false)
    | some (_, a) => do
      share a
      release a
      pure (.qkd (some a) hash, store.dropLast, true)
  | .publicKey _ _ pub priv _ => do
    genKeyPairInto b rnd pub priv
    pure (h, store, true)

/-- `finalize_request_tx`, SharedSecretInitiatorHandshake.cpp:25-29 (and the same in the other classes). -/
def InitiatorMem.requested (h : InitiatorMem) (b : Backend) (request : Bytes) : Op Unit := hashInto b request h.hash

/-- `mix_handshake_hash`, SharedSecretInitiatorHandshake.cpp:73-82: the salt. -/
def InitiatorMem.mix (h : InitiatorMem) (b : Backend) (input : Bytes) : Op Bytes := do
  let x ← read h.hash
  hashInto b (x ++ input) h.hash
  read h.hash

/-- The local `SessionKeys session_keys` of the three `initialize_session` functions: SharedSecretInitiatorHandshake.cpp:46-68,
QKDInitiatorHandshake.cpp:64-86, PublicKeyInitiatorHandshake.cpp:56-77. `rollback`: the clock has gone back. -/
def deriveInitiator (b : Backend) (salt : Bytes) (ikm : List Bytes) (rollback : Bool) (s : SessionMem) :
    Op (SessionMem × InitOutcome) :=
  withLocal true fun rx => withLocal true fun tx => do
    hkdfInto b salt ikm tx rx
    if rollback then pure (s, .refused)
    else do
      let r ← s.initialize rx tx
      pure (r.1, if r.2 then .ok else .refused)

/-- `initialize_session`, SharedSecretInitiatorHandshake.cpp:31-71, QKDInitiatorHandshake.cpp:44-89,
PublicKeyInitiatorHandshake.cpp:26-78. -/
def InitiatorMem.reply (h : InitiatorMem) (b : Backend) (caps : Caps) (msg : ReplyHandshakeBegin) (msgBytes : Bytes)
    (rollback : Bool) (s : SessionMem) : Op (SessionMem × InitOutcome) :=
  match h with
  | .sharedSecret key nonce _ =>
    if msg.mode_ephemeral.length ≠ 32 then pure (s, .refused)
    else if msg.mode_data ≠ [] then pure (s, .refused)
    else do
      let salt ← h.mix b msgBytes
      let x ← read key
      let n ← read nonce
      deriveInitiator b salt [x, n, msg.mode_ephemeral] rollback s
  | .qkd none _ => pure (s, .refused)
  | .qkd (some key) _ =>
    if msg.mode_ephemeral ≠ [] then pure (s, .refused)
    else if msg.mode_data ≠ [] then pure (s, .refused)
    else do
      let salt ← h.mix b msgBytes
      let x ← read key
      deriveInitiator b salt [x] rollback s
  | .publicKey staticPriv certs _ priv _ =>
    match certs.validate b caps certs.mode msg.mode_data with
    | .error .fault => pure (s, .fault)
    | .error (.err _) => pure (s, .refused)
    | .ok remote => do
      let salt ← h.mix b msgBytes
      withTriple b staticPriv priv remote msg.mode_ephemeral
        (fun e => pure (s, match e with | .memory_fault => .fault | _ => .refused))
        (fun x y z => deriveInitiator b salt [x, z, y] rollback s)

/-! ### The key store -/

/-- Erasing entries destroys the records. -/
def releaseAll : StoreMem → Op Unit
  | [] => pure ()
  | r :: rest => do
    release r.2
    releaseAll rest

/-- `key_map[id] = record`. -/
def insertMem (id : UInt64) (a : Nat) : StoreMem → StoreMem
  | [] => [(id, a)]
  | (i, k) :: rest =>
    if id < i then (id, a) :: (i, k) :: rest
    else if id = i then (id, a) :: rest
    else (i, k) :: insertMem id a rest

/-- A key with a smaller id than the last one: QIXKeyStore.cpp:15-18. -/
def goesBack (store : StoreMem) (id : UInt64) : Bool :=
  match store.getLast? with
  | some (last, _) => decide (id < last)
  | none => false

/-- The rest of `add_key`, QIXKeyStore.cpp:20-26. -/
def addRecord (max : UInt16) (store : StoreMem) (id : UInt64) (key : Bytes) : Op StoreMem := do
  let a ← new true
  put a key
  setLength a 32
  releaseAll (store.filter fun r => r.1 = id)
  let store := insertMem id a store
  if store.length > max.toNat then do
    releaseAll (store.take 1)
    pure (store.drop 1)
  else pure store

/-- `QIXKeyStore::add_key`, cpp/libs/qix/src/QIXKeyStore.cpp:11-27, with `KeyRecord::create_key`,
cpp/libs/ssp21/src/crypto/KeyRecord.cpp:12-22, for a key of 32 bytes (others are not routed to a store,
cpp/exe/proxy/src/qkd/QIXQKDSource.cpp:81-84). The map is emptied before the record is made, the record that is replaced
goes when the new one is assigned, and the oldest one last. -/
def addKeyMem (max : UInt16) (store : StoreMem) (id : UInt64) (key : Bytes) : Op StoreMem :=
  if goesBack store id then do
    releaseAll store
    addRecord max [] id key
  else addRecord max store id key

/-! ### Stations -/

/-- The handshake of a station. -/
inductive RoleMem
  | responder (h : ResponderMem)
  | initiator (h : InitiatorMem)

/-- A station: `Sessions` (cpp/libs/ssp21/src/crypto/Sessions.h:32-33), the handshake, and the store of its quantum keys. -/
structure Station where
  role : RoleMem
  active : SessionMem
  pending : SessionMem
  store : StoreMem

/-- What happens to a station: a request is processed (Responder.cpp:69-87), a handshake is begun and its request written,
a reply is processed (InitiatorHandshakeStates.cpp:15-82), user data is sent or received in the active or the pending
session, the pending session is activated, both are reset, or a quantum key arrives. Whether and in which order they
happen is left open. -/
inductive Event
  | request (rnd : Bytes) (msg : RequestHandshakeBegin) (raw : Bytes)
  | begin (rnd : Bytes)
  | requested (raw : Bytes)
  | reply (msg : ReplyHandshakeBegin) (raw : Bytes) (rollback : Bool)
  | transmit (mode : SessionCryptoMode) (pending : Bool) (nonce : UInt16) (ad clear : Bytes) (bufLen : Nat)
  | receive (mode : SessionCryptoMode) (pending : Bool) (nonce : UInt16) (ad cipher tag : Bytes) (destLen : Nat)
  | activate
  | reset
  | key (id : UInt64) (key : Bytes)

/-- The constants of a station. -/
structure Setting where
  backend : Backend
  caps : Caps
  fw : FrameWriter
  maxCached : UInt16

def Station.session (st : Station) (pending : Bool) : SessionMem := if pending then st.pending else st.active

/-- One event. `activate` is `Sessions::activate_pending`, cpp/libs/ssp21/src/crypto/Sessions.cpp:21-25 and `reset` is
`reset_both`, Sessions.cpp:11-19. -/
def Station.step (g : Setting) (st : Station) : Event → Op Station
  | .request rnd msg raw =>
    match st.role with
    | .responder (.sharedSecret key) => do
      let r ← processShared g.backend g.caps key rnd msg raw g.fw st.pending
      pure { st with pending := r.1 }
    | .responder .qkd => do
      let r ← processQkd g.backend g.caps st.store msg raw g.fw st.pending
      pure { st with pending := r.2.1, store := r.1 }
    | .responder (.publicKey priv certs) => do
      let r ← processPublic g.backend g.caps priv certs rnd msg raw g.fw st.pending
      pure { st with pending := r.1 }
    | .initiator _ => pure st
  | .begin rnd =>
    match st.role with
    | .initiator h => do
      let r ← h.begin g.backend st.store rnd
      pure { st with role := .initiator r.1, store := r.2.1 }
    | .responder _ => pure st
  | .requested raw =>
    match st.role with
    | .initiator h => do
      h.requested g.backend raw
      pure st
    | .responder _ => pure st
  | .reply msg raw rollback =>
    match st.role with
    | .initiator h => do
      let r ← h.reply g.backend g.caps msg raw rollback st.pending
      pure { st with pending := r.1 }
    | .responder _ => pure st
  | .transmit mode p nonce ad clear n => do
    if (st.session p).valid then do
      let _ ← sealWith g.backend mode (st.session p).tx nonce ad clear n
      pure st
    else pure st
  | .receive mode p nonce ad cipher tag n => do
    if (st.session p).valid then do
      let _ ← openWith g.backend mode (st.session p).rx nonce ad cipher tag n
      pure st
    else pure st
  | .activate => do
    let a ← st.active.reset
    pure { st with active := st.pending, pending := a }
  | .reset => do
    let a ← st.active.reset
    let p ← st.pending.reset
    pure { st with active := a, pending := p }
  | .key id key => do
    let store ← addKeyMem g.maxCached st.store id key
    pure { st with store := store }

/-- A sequence of events. -/
def Station.run (g : Setting) : Station → List Event → Op Station
  | st, [] => pure st
  | st, e :: es => do
    let st ← st.step g e
    st.run g es

/-- `Sessions::Sessions`, Sessions.cpp:5-9: two sessions without keys. -/
def newSession : Op SessionMem := do
  let rx ← new true
  let tx ← new true
  pure ⟨rx, tx, false⟩

/-- A long-term key: the object made by `get_crypto_key`, cpp/exe/proxy/src/StackConfigReader.cpp:63-88, from the file that
`SecureFile::read` has read into a `SecureDynamicBuffer` (cpp/libs/ssp21/src/util/SecureFile.cpp:8-35,
SecureDynamicBuffer.h:13-26), which is destroyed at the end. `contents` are the bytes of the file and `payload` the key in
it. -/
def loadKey (contents payload : Bytes) : Op Nat :=
  withLocal true fun file => do
    put file contents
    let a ← new true
    put a payload
    setLength a 32
    pure a

/-- The kinds of stations. -/
inductive Kind
  | sharedSecretResponder | qkdResponder | publicKeyResponder (certs : CertHandler)
  | sharedSecretInitiator | qkdInitiator | publicKeyInitiator (certs : CertHandler)

/-- The station as it is made: the handshake with its long-term key (if the kind has one) and its members, and the
sessions. -/
def start (kind : Kind) (contents payload : Bytes) : Op Station := do
  let role ← (match kind with
    | .sharedSecretResponder => do
      let k ← loadKey contents payload
      pure (.responder (.sharedSecret k))
    | .qkdResponder => pure (.responder .qkd)
    | .publicKeyResponder certs => do
      let k ← loadKey contents payload
      pure (.responder (.publicKey k certs))
    | .sharedSecretInitiator => do
      let k ← loadKey contents payload
      let n ← new false
      let h ← new true
      pure (.initiator (.sharedSecret k n h))
    | .qkdInitiator => do
      let h ← new true
      pure (.initiator (.qkd none h))
    | .publicKeyInitiator certs => do
      let k ← loadKey contents payload
      let pub ← new false
      let priv ← new true
      let h ← new true
      pure (.initiator (.publicKey k certs pub priv h)) : Op RoleMem)
  let active ← newSession
  let pending ← newSession
  pure ⟨role, active, pending, []⟩

end SSP21.Memory
