import Verif.Algorithms
import Verif.Certs
/-
  Certificate chain verification and the certificate handlers.
-/
namespace SSP21

/-- Outcome of handshake functions that return a `HandshakeError`. `fault` is not an error code: it stands
for a read outside a buffer inside a backend function (undefined behaviour). -/
inductive HsFail
  | err (e : HandshakeError)
  | fault
  deriving DecidableEq, Repr

/-- `verify_ed25519`, cpp/libs/sodium/src/Backend.cpp:147-150. libsodium reads 64 bytes of signature and 32
of key; neither length is checked here (the caller checks the signature's). -/
def Backend.verifyEd25519 (b : Backend) (message signature publicKey : Bytes) : Except HsFail Bool :=
  if signature.length < 64 ∨ publicKey.length < 32 then .error .fault
  else .ok (b.verifyRaw message (signature.take 64) (publicKey.take 32))

/-- `Chain::try_get_dsa_info`, cpp/libs/ssp21/src/crypto/Chain.cpp:78-91: the signature length, if the type is
a signature algorithm that the backend supports. -/
def tryGetDsaInfo (caps : Caps) (type : PublicKeyType) : Option Nat :=
  match type with
  | .Ed25519 => if caps.ed25519 then some 64 else none
  | _ => none

/-- `Chain::is_dh_key`, Chain.cpp:93-101. -/
def isDhKey (type : PublicKeyType) : Bool :=
  match type with
  | .X25519 => true
  | _ => false

/-- `Chain::verify_pair`, cpp/libs/ssp21/src/crypto/Chain.cpp:44-76. -/
def verifyPair (b : Backend) (caps : Caps) (parent : CertificateBody) (child : CertificateEnvelope) :
    Except HsFail CertificateBody :=
  match tryGetDsaInfo caps parent.public_key_type with
  | none => .error (.err .bad_certificate_chain)
  | some sigLen =>
    if sigLen ≠ child.signature.length then .error (.err .bad_certificate_chain)
    else match b.verifyEd25519 child.certificate_body child.signature parent.public_key with
    | .error f => .error f
    | .ok false => .error (.err .authentication_error)
    | .ok true =>
      match Codec.readAll CertificateBody.codec child.certificate_body with
      | .error _ => .error (.err .bad_certificate_format)
      | .ok body =>
        if body.valid_after < parent.valid_after then .error (.err .bad_certificate_chain)
        else if body.valid_before > parent.valid_before then .error (.err .bad_certificate_chain)
        else if body.signing_level ≥ parent.signing_level then .error (.err .bad_certificate_chain)
        else .ok body

/-- The loop of `Chain::verify`, Chain.cpp:16-27. -/
def verifyLoop (b : Backend) (caps : Caps) (parent : CertificateBody) :
    List CertificateEnvelope → Except HsFail CertificateBody
  | [] => .ok parent
  | c :: cs =>
    match verifyPair b caps parent c with
    | .error e => .error e
    | .ok child => verifyLoop b caps child cs

/-- `Chain::verify`, cpp/libs/ssp21/src/crypto/Chain.cpp:10-42. -/
def Chain.verify (b : Backend) (caps : Caps) (anchor : CertificateBody) (certs : List CertificateEnvelope) :
    Except HsFail CertificateBody :=
  if certs.length = 0 then .error (.err .bad_certificate_chain)
  else match verifyLoop b caps anchor certs with
  | .error e => .error e
  | .ok last =>
    if last.signing_level ≠ 0 then .error (.err .bad_certificate_chain)
    else if !isDhKey last.public_key_type then .error (.err .bad_certificate_chain)
    else .ok last

/-- The two implementations of `ICertificateHandler`: `PresharedKeyCertificateHandler`
(cpp/libs/ssp21/src/crypto/PresharedKeyCertificateHandler.h:16-48) and `IndustrialCertificateHandler`
(IndustrialCertificateHandler.h, its members anchor_certificate_body and presented_certificate_data). -/
inductive CertHandler
  | preshared (remoteKey : Bytes)
  | industrial (anchor : CertificateBody) (presented : Bytes)

/-- `ICertificateHandler::mode`, PresharedKeyCertificateHandler.h:29-32, IndustrialCertificateHandler.h. -/
def CertHandler.mode : CertHandler → HandshakeMode
  | .preshared _ => .public_keys
  | .industrial _ _ => .industrial_certificates

/-- `certificate_data`, PresharedKeyCertificateHandler.h:24-27, IndustrialCertificateHandler.cpp:86-89. -/
def CertHandler.data : CertHandler → Bytes
  | .preshared _ => []
  | .industrial _ presented => presented

/-- `validate`, PresharedKeyCertificateHandler.h:34-44, IndustrialCertificateHandler.cpp:91-112: the validated
public key of the other party. -/
def CertHandler.validate (h : CertHandler) (b : Backend) (caps : Caps) (mode : HandshakeMode) (data : Bytes) :
    Except HsFail Bytes :=
  match h with
  | .preshared key =>
    if mode ≠ .public_keys then .error (.err .unsupported_handshake_mode)
    else if data ≠ [] then .error (.err .bad_message_format)
    else .ok key
  | .industrial anchor _ =>
    if mode ≠ .industrial_certificates then .error (.err .unsupported_handshake_mode)
    else match Codec.readAll CertificateChain.codec data with
    | .error _ => .error (.err .bad_certificate_format)
    | .ok chain =>
      match Chain.verify b caps anchor chain with
      | .error e => .error e
      | .ok body => .ok body.public_key

/-- `read_anchor_cert`, cpp/libs/ssp21/src/crypto/IndustrialCertificateHandler.cpp:24-53; `none` is an
exception. -/
def readAnchorCert (fileData : Bytes) : Option CertificateBody :=
  match Codec.readAll ContainerFile.codec fileData with
  | .error _ => none
  | .ok file =>
    if file.container_entry_type ≠ .certificate_chain then none
    else match Codec.readAll CertificateChain.codec file.payload with
    | .error _ => none
    | .ok chain =>
      match chain with
      | [env] =>
        match Codec.readAll CertificateBody.codec env.certificate_body with
        | .error _ => none
        | .ok body => some body
      | _ => none

/-- `verify_presented_chain`, IndustrialCertificateHandler.cpp:55-84; `none` is an exception (or a fault). -/
def verifyPresentedChain (b : Backend) (caps : Caps) (anchor : CertificateBody) (fileData : Bytes) :
    Option Bytes :=
  match Codec.readAll ContainerFile.codec fileData with
  | .error _ => none
  | .ok file =>
    if file.container_entry_type ≠ .certificate_chain then none
    else match Codec.readAll CertificateChain.codec file.payload with
    | .error _ => none
    | .ok chain =>
      match Chain.verify b caps anchor chain with
      | .error _ => none
      | .ok _ => some file.payload

/-- The constructor of `IndustrialCertificateHandler`, IndustrialCertificateHandler.cpp:14-22. -/
def CertHandler.mkIndustrial (b : Backend) (caps : Caps) (anchorFile chainFile : Bytes) : Option CertHandler :=
  match readAnchorCert anchorFile with
  | none => none
  | some anchor =>
    match verifyPresentedChain b caps anchor chainFile with
    | none => none
    | some p => some (.industrial anchor p)

end SSP21
