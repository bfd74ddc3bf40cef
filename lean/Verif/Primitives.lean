import Verif.Messages
/-
  Cryptographic primitives (uninterpreted) and the session encryption modes built from them.

  The primitives are libsodium functions (external). They are represented by an arbitrary `Backend`; the
  algebraic facts a theorem needs (`decrypt ∘ encrypt`, commutativity of DH, output lengths) are explicit
  hypotheses of that theorem (`Backend.Lawful`), never axioms.
-/
namespace SSP21

/-- `CryptoError`, cpp/libs/ssp21/include/ssp21/crypto/gen/CryptoError.h:28-64 (the values produced by the
modelled code). `memory_fault` is not a C++ error code: it stands for a read or write outside a buffer
inside a backend function, i.e. undefined behaviour. -/
inductive CryptoError
  | bad_key_type | bad_length | dh_x25519_fail | undefined_algorithm | mac_auth_fail | signature_auth_fail
  | bad_buffer_size | no_valid_session | expired_ttl | nonce_replay | max_nonce_exceeded
  | max_session_time_exceeded | empty_user_data | clock_rollback | aead_encrypt_fail | aead_decrypt_fail
  | memory_fault
  deriving DecidableEq, Repr

/-- The backend functions, cpp/libs/sodium/src/Backend.cpp:53-200. Hash and MAC functions take a list of
slices in C++ and process them one after the other (Backend.cpp:72-98): they are functions of the
concatenation. -/
structure Backend where
  /-- `hash_sha256`, Backend.cpp:72-84 -/
  hash : Bytes → Bytes
  /-- `hmac_sha256` key data, Backend.cpp:86-98 -/
  hmac : Bytes → Bytes → Bytes
  /-- `crypto_scalarmult_base`, Backend.cpp:111 -/
  dhPublic : Bytes → Bytes
  /-- `crypto_scalarmult` private public, Backend.cpp:119; `none` is a failure -/
  dhRaw : Bytes → Bytes → Option Bytes
  /-- `crypto_sign_verify_detached` message signature key, Backend.cpp:149 -/
  verifyRaw : Bytes → Bytes → Bytes → Bool
  /-- `crypto_aead_aes256gcm_encrypt_detached` key nonce12 ad plaintext = ciphertext, tag; Backend.cpp:156-166 -/
  gcmSeal : Bytes → Bytes → Bytes → Bytes → Option (Bytes × Bytes)
  /-- `crypto_aead_aes256gcm_decrypt_detached` key nonce12 ad ciphertext tag16; Backend.cpp:183-192 -/
  gcmOpen : Bytes → Bytes → Bytes → Bytes → Bytes → Option Bytes

/-- Facts about the primitives used by some theorems (as hypotheses). -/
structure Backend.Lawful (b : Backend) : Prop where
  hash_length : ∀ m, (b.hash m).length = 32
  hmac_length : ∀ k m, (b.hmac k m).length = 32
  dh_comm : ∀ x y, b.dhRaw x (b.dhPublic y) = b.dhRaw y (b.dhPublic x)
  dh_length : ∀ x p r, b.dhRaw x p = some r → r.length = 32
  dhPublic_length : ∀ x, (b.dhPublic x).length = 32
  gcm_seal : ∀ k n ad m, ∃ ct tag, b.gcmSeal k n ad m = some (ct, tag) ∧ ct.length = m.length ∧ tag.length = 16 ∧
    b.gcmOpen k n ad ct tag = some m

/-- A pair of AEAD functions: `SessionMode`, cpp/libs/ssp21/src/crypto/SessionMode.h:11-22. `encrypt` takes
key, nonce, associated data, cleartext and the length of the encryption buffer; `decrypt` takes key, nonce,
associated data, ciphertext, tag and the length of the destination. -/
structure SessionMode where
  encrypt : Bytes → UInt16 → Bytes → Bytes → Nat → Except CryptoError (Bytes × Bytes)
  decrypt : Bytes → UInt16 → Bytes → Bytes → Bytes → Nat → Except CryptoError Bytes

/-- The MAC input built by the MAC adapters: `ad || BE16(len) || data`
(cpp/libs/ssp21/src/crypto/MacAdapters.h:30-39 and 63-74). -/
def macInput (ad data : Bytes) : Bytes := ad ++ be 2 (UInt16.ofNat data.length).toNat ++ data

/-- `aead_mac_encrypt<HMACSHA256, 16>`, cpp/libs/ssp21/src/crypto/MacAdapters.h:17-44. -/
def aeadMacEncrypt (b : Backend) (key : Bytes) (_nonce : UInt16) (ad clear : Bytes) (_bufLen : Nat) :
    Except CryptoError (Bytes × Bytes) :=
  if clear.length > 65535 then .error .bad_length
  else .ok (clear, (b.hmac key (macInput ad clear)).take 16)

/-- `aead_mac_decrypt<HMACSHA256, 16>`, cpp/libs/ssp21/src/crypto/MacAdapters.h:48-84. `secure_equals`
compares lengths and contents (cpp/libs/sodium/src/Backend.cpp:63-70). -/
def aeadMacDecrypt (b : Backend) (key : Bytes) (_nonce : UInt16) (ad cipher tag : Bytes) (destLen : Nat) :
    Except CryptoError Bytes :=
  if destLen > 65535 then .error .bad_length
  else if (b.hmac key (macInput ad cipher)).take 16 ≠ tag then .error .mac_auth_fail
  else .ok cipher

/-- `GCMNonceBuffer::set`, cpp/libs/sodium/src/Backend.cpp:40-51. -/
def gcmNonce (nonce : UInt16) : Bytes := List.replicate 10 0 ++ be 2 nonce.toNat

/-- `aes256_gcm_encrypt`, cpp/libs/sodium/src/Backend.cpp:152-177. -/
def gcmEncrypt (b : Backend) (key : Bytes) (nonce : UInt16) (ad clear : Bytes) (bufLen : Nat) :
    Except CryptoError (Bytes × Bytes) :=
  if clear.length > bufLen then .error .memory_fault
  else match b.gcmSeal key (gcmNonce nonce) ad clear with
    | none => .error .aead_encrypt_fail
    | some (ct, tag) => .ok (ct, tag)

/-- `aes256_gcm_decrypt`, cpp/libs/sodium/src/Backend.cpp:179-200. The code checks neither the length of the
destination nor that of the tag: libsodium writes as many bytes as the ciphertext has, and reads 16 tag
bytes. -/
def gcmDecrypt (b : Backend) (key : Bytes) (nonce : UInt16) (ad cipher tag : Bytes) (destLen : Nat) :
    Except CryptoError Bytes :=
  if cipher.length > destLen ∨ tag.length < 16 then .error .memory_fault
  else match b.gcmOpen key (gcmNonce nonce) ad cipher (tag.take 16) with
    | none => .error .aead_decrypt_fail
    | some m => .ok m

/-- cpp/libs/ssp21/src/crypto/SessionModes.h:28-33 -/
def SessionMode.hmacSha256Trunc16 (b : Backend) : SessionMode := ⟨aeadMacEncrypt b, aeadMacDecrypt b⟩
/-- cpp/libs/ssp21/src/crypto/SessionModes.h:35-38 -/
def SessionMode.aes256Gcm (b : Backend) : SessionMode := ⟨gcmEncrypt b, gcmDecrypt b⟩

/-- `calc_user_data_tx_length`, cpp/libs/ssp21/src/crypto/SessionMode.cpp:13-24. -/
def calcUserDataTxLength (total encryptBufferLen maxFramePayload : Nat) : Nat :=
  min (min (min total encryptBufferLen) maxFramePayload) 65535

/-- `get_metadata_bytes`, cpp/libs/ssp21/src/crypto/SessionMode.cpp:26-31 (the fields of
cpp/libs/ssp21/src/crypto/gen/AuthMetadata.cpp:52-61, written into a buffer of exactly their size). -/
def metadataBytes (m : AuthMetadata) : Bytes := be 2 m.nonce.toNat ++ be 4 m.valid_until_ms.toNat

/-- `SessionMode::read`, cpp/libs/ssp21/src/crypto/SessionMode.cpp:46-57. -/
def SessionMode.read (mode : SessionMode) (key : Bytes) (msg : SessionData) (destLen : Nat) :
    Except CryptoError Bytes :=
  if key.length ≠ 32 then .error .bad_buffer_size
  else mode.decrypt key msg.metadata.nonce (metadataBytes msg.metadata) msg.user_data msg.auth_tag destLen

/-- `SessionMode::write`, cpp/libs/ssp21/src/crypto/SessionMode.cpp:59-92: the message and the user data that
remains to be sent. -/
def SessionMode.write (mode : SessionMode) (key : Bytes) (metadata : AuthMetadata) (userData : Bytes)
    (encryptBufferLen : Nat) : Except CryptoError (SessionData × Bytes) :=
  if key.length ≠ 32 then .error .bad_buffer_size
  else if encryptBufferLen = 0 then .error .bad_buffer_size
  else
    let n := calcUserDataTxLength userData.length encryptBufferLen 1024
    match mode.encrypt key metadata.nonce (metadataBytes metadata) (userData.take n) encryptBufferLen with
    | .error e => .error e
    | .ok (ct, tag) => .ok (⟨metadata, ct, tag⟩, userData.drop n)

/-- The HKDF of cpp/libs/sodium/src/HKDF.h:15-36 over HMAC (Backend.cpp:100-103): two keys. -/
def Backend.hkdf (b : Backend) (salt : Bytes) (ikm : List Bytes) : Bytes × Bytes :=
  let temp := b.hmac salt ikm.flatten
  let k1 := b.hmac temp [0x01]
  let k2 := b.hmac temp (k1 ++ [0x02])
  (k1, k2)

/-- `dh_x25519`, cpp/libs/sodium/src/Backend.cpp:117-125. The code does not check the length of the public
key: libsodium reads 32 bytes. -/
def Backend.dh (b : Backend) (priv pub : Bytes) : Except CryptoError Bytes :=
  if pub.length < 32 then .error .memory_fault
  else match b.dhRaw priv (pub.take 32) with
    | none => .error .dh_x25519_fail
    | some r => .ok r

end SSP21
