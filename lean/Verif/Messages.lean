import Verif.Enums
/-
  The four SSP21 messages and their sub-structures. Models cpp/libs/ssp21/src/crypto/gen/*.{h,cpp}
  together with MessageParser.h / MessageFormatter.h.
-/
namespace SSP21
open Codec

/-- cpp/libs/ssp21/src/crypto/gen/Version.h:30-50. -/
structure Version where
  major_version : UInt16
  minor_version : UInt16
  deriving DecidableEq, Repr

/-- cpp/libs/ssp21/src/crypto/gen/Version.cpp:35-68. -/
def Version.codec : Codec Version :=
  iso (pair u16 u16) (fun v => ⟨v.1, v.2⟩) (fun v => (v.major_version, v.minor_version))

/-- cpp/libs/ssp21/src/crypto/gen/AuthMetadata.h:30-50. -/
structure AuthMetadata where
  nonce : UInt16
  valid_until_ms : UInt32
  deriving DecidableEq, Repr

/-- cpp/libs/ssp21/src/crypto/gen/AuthMetadata.cpp:35-68. -/
def AuthMetadata.codec : Codec AuthMetadata :=
  iso (pair u16 u32) (fun v => ⟨v.1, v.2⟩) (fun v => (v.nonce, v.valid_until_ms))

/-- cpp/libs/ssp21/src/crypto/gen/SessionConstraints.h:30-50. -/
structure SessionConstraints where
  max_nonce : UInt16
  max_session_duration : UInt32
  deriving DecidableEq, Repr

/-- cpp/libs/ssp21/src/crypto/gen/SessionConstraints.cpp:35-68. -/
def SessionConstraints.codec : Codec SessionConstraints :=
  iso (pair u16 u32) (fun v => ⟨v.1, v.2⟩) (fun v => (v.max_nonce, v.max_session_duration))

/-- cpp/libs/ssp21/src/crypto/gen/CryptoSpec.h:32-58. -/
structure CryptoSpec where
  handshake_ephemeral : HandshakeEphemeral
  handshake_hash : HandshakeHash
  handshake_kdf : HandshakeKDF
  session_nonce_mode : SessionNonceMode
  session_crypto_mode : SessionCryptoMode
  deriving DecidableEq, Repr

/-- cpp/libs/ssp21/src/crypto/gen/CryptoSpec.cpp:41-86. -/
def CryptoSpec.codec : Codec CryptoSpec :=
  iso (pair HandshakeEphemeral.codec (pair HandshakeHash.codec (pair HandshakeKDF.codec
      (pair SessionNonceMode.codec SessionCryptoMode.codec))))
    (fun v => ⟨v.1, v.2.1, v.2.2.1, v.2.2.2.1, v.2.2.2.2⟩)
    (fun v => (v.handshake_ephemeral, v.handshake_hash, v.handshake_kdf, v.session_nonce_mode,
      v.session_crypto_mode))

/-- cpp/libs/ssp21/src/crypto/gen/RequestHandshakeBegin.h:35-62. -/
structure RequestHandshakeBegin where
  version : Version
  spec : CryptoSpec
  constraints : SessionConstraints
  handshake_mode : HandshakeMode
  mode_ephemeral : Bytes
  mode_data : Bytes
  deriving DecidableEq, Repr

/-- The field list of cpp/libs/ssp21/src/crypto/gen/RequestHandshakeBegin.cpp:43-91. -/
def RequestHandshakeBegin.fields : Codec RequestHandshakeBegin :=
  iso (pair Version.codec (pair CryptoSpec.codec (pair SessionConstraints.codec
      (pair HandshakeMode.codec (pair seqByte seqByte)))))
    (fun v => ⟨v.1, v.2.1, v.2.2.1, v.2.2.2.1, v.2.2.2.2.1, v.2.2.2.2.2⟩)
    (fun v => (v.version, v.spec, v.constraints, v.handshake_mode, v.mode_ephemeral, v.mode_data))

/-- cpp/libs/ssp21/src/crypto/gen/ReplyHandshakeBegin.h:32-52. -/
structure ReplyHandshakeBegin where
  version : Version
  mode_ephemeral : Bytes
  mode_data : Bytes
  deriving DecidableEq, Repr

/-- The field list of cpp/libs/ssp21/src/crypto/gen/ReplyHandshakeBegin.cpp:37-77. -/
def ReplyHandshakeBegin.fields : Codec ReplyHandshakeBegin :=
  iso (pair Version.codec (pair seqByte seqByte))
    (fun v => ⟨v.1, v.2.1, v.2.2⟩) (fun v => (v.version, v.mode_ephemeral, v.mode_data))

/-- cpp/libs/ssp21/src/crypto/gen/ReplyHandshakeError.h:32-51. -/
structure ReplyHandshakeError where
  version : Version
  handshake_error : HandshakeError
  deriving DecidableEq, Repr

/-- The field list of cpp/libs/ssp21/src/crypto/gen/ReplyHandshakeError.cpp:35-72. -/
def ReplyHandshakeError.fields : Codec ReplyHandshakeError :=
  iso (pair Version.codec HandshakeError.codec)
    (fun v => ⟨v.1, v.2⟩) (fun v => (v.version, v.handshake_error))

/-- cpp/libs/ssp21/src/crypto/gen/SessionData.h:32-52. -/
structure SessionData where
  metadata : AuthMetadata
  user_data : Bytes
  auth_tag : Bytes
  deriving DecidableEq, Repr

/-- The field list of cpp/libs/ssp21/src/crypto/gen/SessionData.cpp:37-76. -/
def SessionData.fields : Codec SessionData :=
  iso (pair AuthMetadata.codec (pair seqByte seqByte))
    (fun v => ⟨v.1, v.2.1, v.2.2⟩) (fun v => (v.metadata, v.user_data, v.auth_tag))

/-- `MessageParser::read_message`, cpp/libs/ssp21/src/crypto/MessageParser.h:18-35: the first byte must be
a known function and the expected one, the fields must parse, and all input must be consumed. -/
def readMessage {α : Type} (expected : Function) (fields : Codec α) (input : Bytes) : Except ParseError α :=
  match Function.codec.read input with
  | .error e => .error e
  | .ok (func, copy) =>
    if func ≠ expected then .error .unexpected_function
    else
      match fields.read copy with
      | .error e => .error e
      | .ok (a, rest) => if rest.isEmpty then .ok a else .error .too_many_bytes

/-- `MessageFormatter::write_message`, cpp/libs/ssp21/src/crypto/MessageFormatter.h:16-32: the bytes
written (`FormatResult::written`). -/
def writeMessage {α : Type} (function : Function) (fields : Codec α) (a : α) (cap : Nat) :
    Except FormatError Bytes :=
  andThen (Function.codec.write function) (fields.write a) cap

/-- cpp/libs/ssp21/src/crypto/gen/RequestHandshakeBegin.cpp:57-73. -/
def RequestHandshakeBegin.read := readMessage .request_handshake_begin RequestHandshakeBegin.fields
/-- cpp/libs/ssp21/src/crypto/gen/RequestHandshakeBegin.cpp:75-91. -/
def RequestHandshakeBegin.write := writeMessage .request_handshake_begin RequestHandshakeBegin.fields
/-- cpp/libs/ssp21/src/crypto/gen/RequestHandshakeBegin.cpp:43-54. -/
def RequestHandshakeBegin.size (m : RequestHandshakeBegin) : Nat := 1 + RequestHandshakeBegin.fields.size m

/-- cpp/libs/ssp21/src/crypto/gen/ReplyHandshakeBegin.cpp:48-61. -/
def ReplyHandshakeBegin.read := readMessage .reply_handshake_begin ReplyHandshakeBegin.fields
/-- cpp/libs/ssp21/src/crypto/gen/ReplyHandshakeBegin.cpp:63-76. -/
def ReplyHandshakeBegin.write := writeMessage .reply_handshake_begin ReplyHandshakeBegin.fields
/-- cpp/libs/ssp21/src/crypto/gen/ReplyHandshakeBegin.cpp:37-45. -/
def ReplyHandshakeBegin.size (m : ReplyHandshakeBegin) : Nat := 1 + ReplyHandshakeBegin.fields.size m

/-- cpp/libs/ssp21/src/crypto/gen/ReplyHandshakeError.cpp:45-57. -/
def ReplyHandshakeError.read := readMessage .reply_handshake_error ReplyHandshakeError.fields
/-- cpp/libs/ssp21/src/crypto/gen/ReplyHandshakeError.cpp:59-71. -/
def ReplyHandshakeError.write := writeMessage .reply_handshake_error ReplyHandshakeError.fields
/-- cpp/libs/ssp21/src/crypto/gen/ReplyHandshakeError.cpp:35-42. -/
def ReplyHandshakeError.size (m : ReplyHandshakeError) : Nat := 1 + ReplyHandshakeError.fields.size m

/-- cpp/libs/ssp21/src/crypto/gen/SessionData.cpp:48-61. -/
def SessionData.read := readMessage .session_data SessionData.fields
/-- cpp/libs/ssp21/src/crypto/gen/SessionData.cpp:63-76. -/
def SessionData.write := writeMessage .session_data SessionData.fields
/-- cpp/libs/ssp21/src/crypto/gen/SessionData.cpp:37-45. -/
def SessionData.size (m : SessionData) : Nat := 1 + SessionData.fields.size m

/-! ### Lawfulness (helper lemmas) -/

theorem Version.lawful : Lawful Version.codec
    (fun v => be 2 v.major_version.toNat ++ be 2 v.minor_version.toNat) (fun _ => True) :=
  (iso_lawful (pair_lawful u16_lawful u16_lawful) (fun _ => rfl) (fun _ => rfl)).congr
    (fun _ => rfl) (by simp)

theorem AuthMetadata.lawful : Lawful AuthMetadata.codec
    (fun v => be 2 v.nonce.toNat ++ be 4 v.valid_until_ms.toNat) (fun _ => True) :=
  (iso_lawful (pair_lawful u16_lawful u32_lawful) (fun _ => rfl) (fun _ => rfl)).congr
    (fun _ => rfl) (by simp)

theorem SessionConstraints.lawful : Lawful SessionConstraints.codec
    (fun v => be 2 v.max_nonce.toNat ++ be 4 v.max_session_duration.toNat) (fun _ => True) :=
  (iso_lawful (pair_lawful u16_lawful u32_lawful) (fun _ => rfl) (fun _ => rfl)).congr
    (fun _ => rfl) (by simp)

/-- All enumeration members hold defined values. -/
def CryptoSpec.Defined (v : CryptoSpec) : Prop :=
  v.handshake_ephemeral ≠ .undefined ∧ v.handshake_hash ≠ .undefined ∧ v.handshake_kdf ≠ .undefined ∧
  v.session_nonce_mode ≠ .undefined ∧ v.session_crypto_mode ≠ .undefined

instance (v : CryptoSpec) : Decidable v.Defined := by unfold CryptoSpec.Defined; infer_instance

theorem CryptoSpec.lawful : Lawful CryptoSpec.codec
    (fun v => [v.handshake_ephemeral.toType, v.handshake_hash.toType, v.handshake_kdf.toType,
      v.session_nonce_mode.toType, v.session_crypto_mode.toType]) CryptoSpec.Defined :=
  (iso_lawful (pair_lawful HandshakeEphemeral.lawful (pair_lawful HandshakeHash.lawful
    (pair_lawful HandshakeKDF.lawful (pair_lawful SessionNonceMode.lawful SessionCryptoMode.lawful))))
      (fun _ => rfl) (fun _ => rfl)).congr (fun _ => rfl) (fun _ => Iff.rfl)

/-- A request that can be written: defined enum values, byte fields with a 32-bit length. -/
def RequestHandshakeBegin.WF (m : RequestHandshakeBegin) : Prop :=
  m.spec.Defined ∧ m.handshake_mode ≠ .undefined ∧ m.mode_ephemeral.length < 2 ^ 32 ∧
  m.mode_data.length < 2 ^ 32

theorem RequestHandshakeBegin.lawful : Lawful RequestHandshakeBegin.fields
    (fun m => (be 2 m.version.major_version.toNat ++ be 2 m.version.minor_version.toNat) ++
      ([m.spec.handshake_ephemeral.toType, m.spec.handshake_hash.toType, m.spec.handshake_kdf.toType,
        m.spec.session_nonce_mode.toType, m.spec.session_crypto_mode.toType] ++
      ((be 2 m.constraints.max_nonce.toNat ++ be 4 m.constraints.max_session_duration.toNat) ++
      ([m.handshake_mode.toType] ++ (encSeq m.mode_ephemeral ++ encSeq m.mode_data)))))
    RequestHandshakeBegin.WF :=
  (iso_lawful (pair_lawful Version.lawful (pair_lawful CryptoSpec.lawful
    (pair_lawful SessionConstraints.lawful (pair_lawful HandshakeMode.lawful
      (pair_lawful seqByte_lawful seqByte_lawful))))) (fun _ => rfl) (fun _ => rfl)).congr
    (fun _ => rfl) (fun _ => by simp [RequestHandshakeBegin.WF])

/-- Byte fields with a 32-bit length. -/
def ReplyHandshakeBegin.WF (m : ReplyHandshakeBegin) : Prop :=
  m.mode_ephemeral.length < 2 ^ 32 ∧ m.mode_data.length < 2 ^ 32

theorem ReplyHandshakeBegin.lawful : Lawful ReplyHandshakeBegin.fields
    (fun m => (be 2 m.version.major_version.toNat ++ be 2 m.version.minor_version.toNat) ++
      (encSeq m.mode_ephemeral ++ encSeq m.mode_data))
    ReplyHandshakeBegin.WF :=
  (iso_lawful (pair_lawful Version.lawful (pair_lawful seqByte_lawful seqByte_lawful))
    (fun _ => rfl) (fun _ => rfl)).congr
    (fun _ => rfl) (fun _ => by simp [ReplyHandshakeBegin.WF])

/-- The error code is a defined value. -/
def ReplyHandshakeError.WF (m : ReplyHandshakeError) : Prop := m.handshake_error ≠ .undefined

theorem ReplyHandshakeError.lawful : Lawful ReplyHandshakeError.fields
    (fun m => (be 2 m.version.major_version.toNat ++ be 2 m.version.minor_version.toNat) ++
      [m.handshake_error.toType])
    ReplyHandshakeError.WF :=
  (iso_lawful (pair_lawful Version.lawful HandshakeError.lawful)
    (fun _ => rfl) (fun _ => rfl)).congr
    (fun _ => rfl) (fun _ => by simp [ReplyHandshakeError.WF])

/-- Byte fields with a 32-bit length. -/
def SessionData.WF (m : SessionData) : Prop :=
  m.user_data.length < 2 ^ 32 ∧ m.auth_tag.length < 2 ^ 32

theorem SessionData.lawful : Lawful SessionData.fields
    (fun m => (be 2 m.metadata.nonce.toNat ++ be 4 m.metadata.valid_until_ms.toNat) ++
      (encSeq m.user_data ++ encSeq m.auth_tag))
    SessionData.WF :=
  (iso_lawful (pair_lawful AuthMetadata.lawful (pair_lawful seqByte_lawful seqByte_lawful))
    (fun _ => rfl) (fun _ => rfl)).congr
    (fun _ => rfl) (fun _ => by simp [SessionData.WF])

theorem writeMessage_eq {α : Type} {f : Function} {c : Codec α} {e w} (hc : Lawful c e w) (a : α) (h : w a)
    (cap : Nat) : writeMessage f c a cap = emit (f.toType :: e a) cap := by
  have : Function.codec.write f = emit [f.toType] := rfl
  unfold writeMessage
  rw [this, hc.write a h, andThen_emit]; rfl

theorem readMessage_ok {α : Type} {f : Function} (hf : f ≠ .undefined) {c : Codec α} {e w}
    (hc : Lawful c e w) (a : α) (h : w a) : readMessage f c (f.toType :: e a) = .ok a := by
  have h1 := Function.lawful.read f (e a) hf
  have h2 := hc.read a [] h
  simp only [List.append_nil] at h2
  unfold readMessage
  rw [show f.toType :: e a = [f.toType] ++ e a from rfl, h1]
  simp [h2]

theorem readMessage_trailing {α : Type} {f : Function} (hf : f ≠ .undefined) {c : Codec α} {e w}
    (hc : Lawful c e w) (a : α) (h : w a) (x : Bytes) (hx : x ≠ []) :
    readMessage f c (f.toType :: e a ++ x) = .error .too_many_bytes := by
  have h1 := Function.lawful.read f (e a ++ x) hf
  have h2 := hc.read a x h
  unfold readMessage
  rw [show f.toType :: e a ++ x = [f.toType] ++ (e a ++ x) from rfl, h1]
  simp [h2, hx]

theorem readMessage_canon {α : Type} {f : Function} {c : Codec α} {e w}
    (hc : Lawful c e w) {bs : Bytes} {a : α} (h : readMessage f c bs = .ok a) :
    w a ∧ bs = f.toType :: e a := by
  unfold readMessage at h
  split at h
  · cases h
  · rename_i func copy hf
    split at h
    · cases h
    · rename_i hne
      simp only [ne_eq, Decidable.not_not] at hne
      subst hne
      split at h
      · cases h
      · rename_i a' rest hr
        split at h
        · rename_i he
          cases h
          have h1 := hc.canon _ _ _ hr
          have h2 := Function.lawful.canon _ _ _ hf
          refine ⟨h1.1, ?_⟩
          rw [h2.2, h1.2]
          simp [List.isEmpty_iff.mp he]
        · cases h

end SSP21
