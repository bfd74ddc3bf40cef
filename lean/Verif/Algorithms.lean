import Verif.Session
/-
  Selection of the algorithms of a handshake. The functions a backend provides (cpp/libs/ssp21/src/crypto/
  Crypto.cpp:103-121) are summarised by the four support predicates.
-/
namespace SSP21

/-- What the backend supports: `Crypto::supports_sha256/x25519/ed25519/aes256_gcm`,
cpp/libs/ssp21/src/crypto/Crypto.cpp:103-121. -/
structure Caps where
  sha256 : Bool
  x25519 : Bool
  ed25519 : Bool
  aesGcm : Bool
  deriving DecidableEq, Repr

/-- `Algorithms::Handshake`, cpp/libs/ssp21/src/crypto/Algorithms.h:36-47. The hash function is given the
concatenation of its inputs (see `Backend`). -/
structure HandshakeAlgorithms where
  hash : Bytes → Bytes
  kdf : Bytes → List Bytes → Bytes × Bytes

/-- `Algorithms::Common`, cpp/libs/ssp21/src/crypto/Algorithms.h:49-64. -/
structure CommonAlgorithms where
  handshake : HandshakeAlgorithms
  session : SessionAlgorithms

/-- `Algorithms::Session::configure`, cpp/libs/ssp21/src/crypto/Algorithms.cpp:8-40. (The C++ function fills
the object in place; every caller drops the object when the result is an error.) -/
def SessionAlgorithms.configure (b : Backend) (caps : Caps) (nm : SessionNonceMode) (sm : SessionCryptoMode) :
    Except HandshakeError SessionAlgorithms :=
  let session (f : UInt16 → UInt16 → Bool) : Except HandshakeError SessionAlgorithms :=
    match sm with
    | .hmac_sha256_16 =>
      if !caps.sha256 then .error .unsupported_session_mode else .ok ⟨f, .hmacSha256Trunc16 b⟩
    | .aes_256_gcm =>
      if !caps.aesGcm then .error .unsupported_session_mode else .ok ⟨f, .aes256Gcm b⟩
    | .undefined => .error .unsupported_session_mode
  match nm with
  | .greater_than_last_rx => session verifyGreaterThanLast
  | .strict_increment => session verifyStrictIncrement
  | .undefined => .error .unsupported_nonce_mode

/-- `Algorithms::Handshake::configure`, cpp/libs/ssp21/src/crypto/Algorithms.cpp:42-69. -/
def HandshakeAlgorithms.configure (b : Backend) (caps : Caps) (kdf : HandshakeKDF) (hash : HandshakeHash) :
    Except HandshakeError HandshakeAlgorithms :=
  match hash with
  | .undefined => .error .unsupported_handshake_hash
  | .sha256 =>
    if !caps.sha256 then .error .unsupported_handshake_hash
    else match kdf with
      | .undefined => .error .unsupported_handshake_kdf
      | .hkdf_sha256 =>
        if !caps.sha256 then .error .unsupported_handshake_kdf else .ok ⟨b.hash, b.hkdf⟩

/-- `Algorithms::Common::configure`, cpp/libs/ssp21/src/crypto/Algorithms.cpp:87-115. -/
def CommonAlgorithms.configure (b : Backend) (caps : Caps) (spec : CryptoSpec) :
    Except HandshakeError CommonAlgorithms :=
  match HandshakeAlgorithms.configure b caps spec.handshake_kdf spec.handshake_hash with
  | .error e => .error e
  | .ok h =>
    match SessionAlgorithms.configure b caps spec.session_nonce_mode spec.session_crypto_mode with
    | .error e => .error e
    | .ok s => .ok ⟨h, s⟩

/-- `Algorithms::DH::configure`, cpp/libs/ssp21/src/crypto/Algorithms.cpp:127-140: the error, if any (there is
one set of functions to choose from). -/
def dhConfigure (caps : Caps) (type : HandshakeEphemeral) : Except HandshakeError Unit :=
  match type with
  | .x25519 => if !caps.x25519 then .error .unsupported_handshake_ephemeral else .ok ()
  | _ => .error .unsupported_handshake_ephemeral

end SSP21
