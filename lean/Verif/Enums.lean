import Verif.Fields
/-
  The enumerations of the wire format. Each models `XSpec::to_type` / `XSpec::from_type` of the
  generated file cited at the type.
-/
namespace SSP21

/-- Models cpp/libs/ssp21/src/crypto/gen/Function.cpp:22-40 and the enumeration in the header of the same name. -/
inductive Function
  | request_handshake_begin | reply_handshake_begin | reply_handshake_error | session_data | undefined
  deriving DecidableEq, Repr

/-- `FunctionSpec::to_type`, cpp/libs/ssp21/src/crypto/gen/Function.cpp:22-40. -/
def Function.toType : Function → UInt8
  | .request_handshake_begin => 0x0
  | .reply_handshake_begin => 0x1
  | .reply_handshake_error => 0x2
  | .session_data => 0x3
  | .undefined => 0xff

/-- `FunctionSpec::from_type`, cpp/libs/ssp21/src/crypto/gen/Function.cpp:22-40. -/
def Function.fromType (b : UInt8) : Function :=
  if b = 0x0 then .request_handshake_begin else
  if b = 0x1 then .reply_handshake_begin else
  if b = 0x2 then .reply_handshake_error else
  if b = 0x3 then .session_data else
  .undefined

/-- `EnumField<FunctionSpec>`, cpp/libs/ssp21/include/ssp21/crypto/EnumField.h. -/
def Function.codec : Codec Function := Codec.enum Function.toType Function.fromType .undefined

theorem Function.lawful : Codec.Lawful Function.codec (fun e => [e.toType]) (fun e => e ≠ .undefined) :=
  Codec.enum_lawful (by intro e _; cases e <;> rfl)
    (by
      have h : ∀ n : Fin 256, Function.fromType (UInt8.ofNat n) = .undefined ∨
          (Function.fromType (UInt8.ofNat n)).toType = UInt8.ofNat n := by decide +kernel
      intro b hb
      have := h ⟨b.toNat, b.toNat_lt⟩
      simp only [UInt8.ofNat_toNat] at this
      exact this.resolve_left hb)

/-- Models cpp/libs/ssp21/src/crypto/gen/HandshakeEphemeral.cpp:22-38 and the enumeration in the header of the same name. -/
inductive HandshakeEphemeral
  | x25519 | nonce | none | undefined
  deriving DecidableEq, Repr

/-- `HandshakeEphemeralSpec::to_type`, cpp/libs/ssp21/src/crypto/gen/HandshakeEphemeral.cpp:22-38. -/
def HandshakeEphemeral.toType : HandshakeEphemeral → UInt8
  | .x25519 => 0x0
  | .nonce => 0x1
  | .none => 0x2
  | .undefined => 0xff

/-- `HandshakeEphemeralSpec::from_type`, cpp/libs/ssp21/src/crypto/gen/HandshakeEphemeral.cpp:22-38. -/
def HandshakeEphemeral.fromType (b : UInt8) : HandshakeEphemeral :=
  if b = 0x0 then .x25519 else
  if b = 0x1 then .nonce else
  if b = 0x2 then .none else
  .undefined

/-- `EnumField<HandshakeEphemeralSpec>`, cpp/libs/ssp21/include/ssp21/crypto/EnumField.h. -/
def HandshakeEphemeral.codec : Codec HandshakeEphemeral := Codec.enum HandshakeEphemeral.toType HandshakeEphemeral.fromType .undefined

theorem HandshakeEphemeral.lawful : Codec.Lawful HandshakeEphemeral.codec (fun e => [e.toType]) (fun e => e ≠ .undefined) :=
  Codec.enum_lawful (by intro e _; cases e <;> rfl)
    (by
      have h : ∀ n : Fin 256, HandshakeEphemeral.fromType (UInt8.ofNat n) = .undefined ∨
          (HandshakeEphemeral.fromType (UInt8.ofNat n)).toType = UInt8.ofNat n := by decide +kernel
      intro b hb
      have := h ⟨b.toNat, b.toNat_lt⟩
      simp only [UInt8.ofNat_toNat] at this
      exact this.resolve_left hb)

/-- Models cpp/libs/ssp21/src/crypto/gen/HandshakeHash.cpp:22-34 and the enumeration in the header of the same name. -/
inductive HandshakeHash
  | sha256 | undefined
  deriving DecidableEq, Repr

/-- `HandshakeHashSpec::to_type`, cpp/libs/ssp21/src/crypto/gen/HandshakeHash.cpp:22-34. -/
def HandshakeHash.toType : HandshakeHash → UInt8
  | .sha256 => 0x0
  | .undefined => 0xff

/-- `HandshakeHashSpec::from_type`, cpp/libs/ssp21/src/crypto/gen/HandshakeHash.cpp:22-34. -/
def HandshakeHash.fromType (b : UInt8) : HandshakeHash :=
  if b = 0x0 then .sha256 else
  .undefined

/-- `EnumField<HandshakeHashSpec>`, cpp/libs/ssp21/include/ssp21/crypto/EnumField.h. -/
def HandshakeHash.codec : Codec HandshakeHash := Codec.enum HandshakeHash.toType HandshakeHash.fromType .undefined

theorem HandshakeHash.lawful : Codec.Lawful HandshakeHash.codec (fun e => [e.toType]) (fun e => e ≠ .undefined) :=
  Codec.enum_lawful (by intro e _; cases e <;> rfl)
    (by
      have h : ∀ n : Fin 256, HandshakeHash.fromType (UInt8.ofNat n) = .undefined ∨
          (HandshakeHash.fromType (UInt8.ofNat n)).toType = UInt8.ofNat n := by decide +kernel
      intro b hb
      have := h ⟨b.toNat, b.toNat_lt⟩
      simp only [UInt8.ofNat_toNat] at this
      exact this.resolve_left hb)

/-- Models cpp/libs/ssp21/src/crypto/gen/HandshakeKDF.cpp:22-34 and the enumeration in the header of the same name. -/
inductive HandshakeKDF
  | hkdf_sha256 | undefined
  deriving DecidableEq, Repr

/-- `HandshakeKDFSpec::to_type`, cpp/libs/ssp21/src/crypto/gen/HandshakeKDF.cpp:22-34. -/
def HandshakeKDF.toType : HandshakeKDF → UInt8
  | .hkdf_sha256 => 0x0
  | .undefined => 0xff

/-- `HandshakeKDFSpec::from_type`, cpp/libs/ssp21/src/crypto/gen/HandshakeKDF.cpp:22-34. -/
def HandshakeKDF.fromType (b : UInt8) : HandshakeKDF :=
  if b = 0x0 then .hkdf_sha256 else
  .undefined

/-- `EnumField<HandshakeKDFSpec>`, cpp/libs/ssp21/include/ssp21/crypto/EnumField.h. -/
def HandshakeKDF.codec : Codec HandshakeKDF := Codec.enum HandshakeKDF.toType HandshakeKDF.fromType .undefined

theorem HandshakeKDF.lawful : Codec.Lawful HandshakeKDF.codec (fun e => [e.toType]) (fun e => e ≠ .undefined) :=
  Codec.enum_lawful (by intro e _; cases e <;> rfl)
    (by
      have h : ∀ n : Fin 256, HandshakeKDF.fromType (UInt8.ofNat n) = .undefined ∨
          (HandshakeKDF.fromType (UInt8.ofNat n)).toType = UInt8.ofNat n := by decide +kernel
      intro b hb
      have := h ⟨b.toNat, b.toNat_lt⟩
      simp only [UInt8.ofNat_toNat] at this
      exact this.resolve_left hb)

/-- Models cpp/libs/ssp21/src/crypto/gen/HandshakeMode.cpp:22-40 and the enumeration in the header of the same name. -/
inductive HandshakeMode
  | shared_secret | public_keys | quantum_key_distribution | industrial_certificates | undefined
  deriving DecidableEq, Repr

/-- `HandshakeModeSpec::to_type`, cpp/libs/ssp21/src/crypto/gen/HandshakeMode.cpp:22-40. -/
def HandshakeMode.toType : HandshakeMode → UInt8
  | .shared_secret => 0x0
  | .public_keys => 0x1
  | .quantum_key_distribution => 0x2
  | .industrial_certificates => 0x3
  | .undefined => 0xff

/-- `HandshakeModeSpec::from_type`, cpp/libs/ssp21/src/crypto/gen/HandshakeMode.cpp:22-40. -/
def HandshakeMode.fromType (b : UInt8) : HandshakeMode :=
  if b = 0x0 then .shared_secret else
  if b = 0x1 then .public_keys else
  if b = 0x2 then .quantum_key_distribution else
  if b = 0x3 then .industrial_certificates else
  .undefined

/-- `EnumField<HandshakeModeSpec>`, cpp/libs/ssp21/include/ssp21/crypto/EnumField.h. -/
def HandshakeMode.codec : Codec HandshakeMode := Codec.enum HandshakeMode.toType HandshakeMode.fromType .undefined

theorem HandshakeMode.lawful : Codec.Lawful HandshakeMode.codec (fun e => [e.toType]) (fun e => e ≠ .undefined) :=
  Codec.enum_lawful (by intro e _; cases e <;> rfl)
    (by
      have h : ∀ n : Fin 256, HandshakeMode.fromType (UInt8.ofNat n) = .undefined ∨
          (HandshakeMode.fromType (UInt8.ofNat n)).toType = UInt8.ofNat n := by decide +kernel
      intro b hb
      have := h ⟨b.toNat, b.toNat_lt⟩
      simp only [UInt8.ofNat_toNat] at this
      exact this.resolve_left hb)

/-- Models cpp/libs/ssp21/src/crypto/gen/SessionCryptoMode.cpp:22-36 and the enumeration in the header of the same name. -/
inductive SessionCryptoMode
  | hmac_sha256_16 | aes_256_gcm | undefined
  deriving DecidableEq, Repr

/-- `SessionCryptoModeSpec::to_type`, cpp/libs/ssp21/src/crypto/gen/SessionCryptoMode.cpp:22-36. -/
def SessionCryptoMode.toType : SessionCryptoMode → UInt8
  | .hmac_sha256_16 => 0x0
  | .aes_256_gcm => 0x1
  | .undefined => 0xff

/-- `SessionCryptoModeSpec::from_type`, cpp/libs/ssp21/src/crypto/gen/SessionCryptoMode.cpp:22-36. -/
def SessionCryptoMode.fromType (b : UInt8) : SessionCryptoMode :=
  if b = 0x0 then .hmac_sha256_16 else
  if b = 0x1 then .aes_256_gcm else
  .undefined

/-- `EnumField<SessionCryptoModeSpec>`, cpp/libs/ssp21/include/ssp21/crypto/EnumField.h. -/
def SessionCryptoMode.codec : Codec SessionCryptoMode := Codec.enum SessionCryptoMode.toType SessionCryptoMode.fromType .undefined

theorem SessionCryptoMode.lawful : Codec.Lawful SessionCryptoMode.codec (fun e => [e.toType]) (fun e => e ≠ .undefined) :=
  Codec.enum_lawful (by intro e _; cases e <;> rfl)
    (by
      have h : ∀ n : Fin 256, SessionCryptoMode.fromType (UInt8.ofNat n) = .undefined ∨
          (SessionCryptoMode.fromType (UInt8.ofNat n)).toType = UInt8.ofNat n := by decide +kernel
      intro b hb
      have := h ⟨b.toNat, b.toNat_lt⟩
      simp only [UInt8.ofNat_toNat] at this
      exact this.resolve_left hb)

/-- Models cpp/libs/ssp21/src/crypto/gen/SessionNonceMode.cpp:22-36 and the enumeration in the header of the same name. -/
inductive SessionNonceMode
  | strict_increment | greater_than_last_rx | undefined
  deriving DecidableEq, Repr

/-- `SessionNonceModeSpec::to_type`, cpp/libs/ssp21/src/crypto/gen/SessionNonceMode.cpp:22-36. -/
def SessionNonceMode.toType : SessionNonceMode → UInt8
  | .strict_increment => 0x0
  | .greater_than_last_rx => 0x1
  | .undefined => 0xff

/-- `SessionNonceModeSpec::from_type`, cpp/libs/ssp21/src/crypto/gen/SessionNonceMode.cpp:22-36. -/
def SessionNonceMode.fromType (b : UInt8) : SessionNonceMode :=
  if b = 0x0 then .strict_increment else
  if b = 0x1 then .greater_than_last_rx else
  .undefined

/-- `EnumField<SessionNonceModeSpec>`, cpp/libs/ssp21/include/ssp21/crypto/EnumField.h. -/
def SessionNonceMode.codec : Codec SessionNonceMode := Codec.enum SessionNonceMode.toType SessionNonceMode.fromType .undefined

theorem SessionNonceMode.lawful : Codec.Lawful SessionNonceMode.codec (fun e => [e.toType]) (fun e => e ≠ .undefined) :=
  Codec.enum_lawful (by intro e _; cases e <;> rfl)
    (by
      have h : ∀ n : Fin 256, SessionNonceMode.fromType (UInt8.ofNat n) = .undefined ∨
          (SessionNonceMode.fromType (UInt8.ofNat n)).toType = UInt8.ofNat n := by decide +kernel
      intro b hb
      have := h ⟨b.toNat, b.toNat_lt⟩
      simp only [UInt8.ofNat_toNat] at this
      exact this.resolve_left hb)

/-- Models cpp/libs/ssp21/src/crypto/gen/PublicKeyType.cpp:22-36 and the enumeration in the header of the same name. -/
inductive PublicKeyType
  | Ed25519 | X25519 | undefined
  deriving DecidableEq, Repr

/-- `PublicKeyTypeSpec::to_type`, cpp/libs/ssp21/src/crypto/gen/PublicKeyType.cpp:22-36. -/
def PublicKeyType.toType : PublicKeyType → UInt8
  | .Ed25519 => 0x0
  | .X25519 => 0x1
  | .undefined => 0xff

/-- `PublicKeyTypeSpec::from_type`, cpp/libs/ssp21/src/crypto/gen/PublicKeyType.cpp:22-36. -/
def PublicKeyType.fromType (b : UInt8) : PublicKeyType :=
  if b = 0x0 then .Ed25519 else
  if b = 0x1 then .X25519 else
  .undefined

/-- `EnumField<PublicKeyTypeSpec>`, cpp/libs/ssp21/include/ssp21/crypto/EnumField.h. -/
def PublicKeyType.codec : Codec PublicKeyType := Codec.enum PublicKeyType.toType PublicKeyType.fromType .undefined

theorem PublicKeyType.lawful : Codec.Lawful PublicKeyType.codec (fun e => [e.toType]) (fun e => e ≠ .undefined) :=
  Codec.enum_lawful (by intro e _; cases e <;> rfl)
    (by
      have h : ∀ n : Fin 256, PublicKeyType.fromType (UInt8.ofNat n) = .undefined ∨
          (PublicKeyType.fromType (UInt8.ofNat n)).toType = UInt8.ofNat n := by decide +kernel
      intro b hb
      have := h ⟨b.toNat, b.toNat_lt⟩
      simp only [UInt8.ofNat_toNat] at this
      exact this.resolve_left hb)

/-- Models cpp/libs/ssp21/src/crypto/gen/ContainerEntryType.cpp:22-46 and the enumeration in the header of the same name. -/
inductive ContainerEntryType
  | shared_secret | certificate_chain | x25519_public_key | x25519_private_key | ed25519_public_key | ed25519_private_key | undefined
  deriving DecidableEq, Repr

/-- `ContainerEntryTypeSpec::to_type`, cpp/libs/ssp21/src/crypto/gen/ContainerEntryType.cpp:22-46. -/
def ContainerEntryType.toType : ContainerEntryType → UInt8
  | .shared_secret => 0x0
  | .certificate_chain => 0x1
  | .x25519_public_key => 0x2
  | .x25519_private_key => 0x3
  | .ed25519_public_key => 0x4
  | .ed25519_private_key => 0x5
  | .undefined => 0xff

/-- `ContainerEntryTypeSpec::from_type`, cpp/libs/ssp21/src/crypto/gen/ContainerEntryType.cpp:22-46. -/
def ContainerEntryType.fromType (b : UInt8) : ContainerEntryType :=
  if b = 0x0 then .shared_secret else
  if b = 0x1 then .certificate_chain else
  if b = 0x2 then .x25519_public_key else
  if b = 0x3 then .x25519_private_key else
  if b = 0x4 then .ed25519_public_key else
  if b = 0x5 then .ed25519_private_key else
  .undefined

/-- `EnumField<ContainerEntryTypeSpec>`, cpp/libs/ssp21/include/ssp21/crypto/EnumField.h. -/
def ContainerEntryType.codec : Codec ContainerEntryType := Codec.enum ContainerEntryType.toType ContainerEntryType.fromType .undefined

theorem ContainerEntryType.lawful : Codec.Lawful ContainerEntryType.codec (fun e => [e.toType]) (fun e => e ≠ .undefined) :=
  Codec.enum_lawful (by intro e _; cases e <;> rfl)
    (by
      have h : ∀ n : Fin 256, ContainerEntryType.fromType (UInt8.ofNat n) = .undefined ∨
          (ContainerEntryType.fromType (UInt8.ofNat n)).toType = UInt8.ofNat n := by decide +kernel
      intro b hb
      have := h ⟨b.toNat, b.toNat_lt⟩
      simp only [UInt8.ofNat_toNat] at this
      exact this.resolve_left hb)

/-- Models cpp/libs/ssp21/src/crypto/gen/HandshakeError.cpp:20-63 and the enumeration in the header of the same name. -/
inductive HandshakeError
  | bad_message_format | unsupported_version | unsupported_handshake_ephemeral | unsupported_handshake_hash | unsupported_handshake_kdf | unsupported_session_mode | unsupported_nonce_mode | unsupported_handshake_mode | bad_certificate_format | bad_certificate_chain | unsupported_certificate_feature | authentication_error | no_prior_handshake_begin | key_not_found | unknown | none | undefined
  deriving DecidableEq, Repr

/-- `HandshakeErrorSpec::to_type`, cpp/libs/ssp21/src/crypto/gen/HandshakeError.cpp:20-63. -/
def HandshakeError.toType : HandshakeError → UInt8
  | .bad_message_format => 0x0
  | .unsupported_version => 0x1
  | .unsupported_handshake_ephemeral => 0x2
  | .unsupported_handshake_hash => 0x3
  | .unsupported_handshake_kdf => 0x4
  | .unsupported_session_mode => 0x5
  | .unsupported_nonce_mode => 0x6
  | .unsupported_handshake_mode => 0x7
  | .bad_certificate_format => 0x8
  | .bad_certificate_chain => 0x9
  | .unsupported_certificate_feature => 0xa
  | .authentication_error => 0xb
  | .no_prior_handshake_begin => 0xc
  | .key_not_found => 0xd
  | .unknown => 0xff
  | .none => 0xfd
  | .undefined => 0xfe

/-- `HandshakeErrorSpec::from_type`, cpp/libs/ssp21/src/crypto/gen/HandshakeError.cpp:20-63. -/
def HandshakeError.fromType (b : UInt8) : HandshakeError :=
  if b = 0x0 then .bad_message_format else
  if b = 0x1 then .unsupported_version else
  if b = 0x2 then .unsupported_handshake_ephemeral else
  if b = 0x3 then .unsupported_handshake_hash else
  if b = 0x4 then .unsupported_handshake_kdf else
  if b = 0x5 then .unsupported_session_mode else
  if b = 0x6 then .unsupported_nonce_mode else
  if b = 0x7 then .unsupported_handshake_mode else
  if b = 0x8 then .bad_certificate_format else
  if b = 0x9 then .bad_certificate_chain else
  if b = 0xa then .unsupported_certificate_feature else
  if b = 0xb then .authentication_error else
  if b = 0xc then .no_prior_handshake_begin else
  if b = 0xd then .key_not_found else
  if b = 0xff then .unknown else
  if b = 0xfd then .none else
  .undefined

/-- `EnumField<HandshakeErrorSpec>`, cpp/libs/ssp21/include/ssp21/crypto/EnumField.h. -/
def HandshakeError.codec : Codec HandshakeError := Codec.enum HandshakeError.toType HandshakeError.fromType .undefined

theorem HandshakeError.lawful : Codec.Lawful HandshakeError.codec (fun e => [e.toType]) (fun e => e ≠ .undefined) :=
  Codec.enum_lawful (by intro e _; cases e <;> rfl)
    (by
      have h : ∀ n : Fin 256, HandshakeError.fromType (UInt8.ofNat n) = .undefined ∨
          (HandshakeError.fromType (UInt8.ofNat n)).toType = UInt8.ofNat n := by decide +kernel
      intro b hb
      have := h ⟨b.toNat, b.toNat_lt⟩
      simp only [UInt8.ofNat_toNat] at this
      exact this.resolve_left hb)

end SSP21
