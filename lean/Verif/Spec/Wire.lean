import Verif.Certs
/-
  Specification of the SSP21 wire format, written independently of the codec model: flat lists of
  bytes, literal function and enumeration codes. (Only the data types are shared with the model.)
-/
namespace SSP21.Spec

/-- Two bytes, most significant first. -/
def u16 (v : UInt16) : Bytes := [UInt8.ofNat (v.toNat / 256), UInt8.ofNat (v.toNat % 256)]

/-- Four bytes, most significant first. -/
def u32 (v : UInt32) : Bytes :=
  [UInt8.ofNat (v.toNat / 16777216), UInt8.ofNat (v.toNat / 65536 % 256),
   UInt8.ofNat (v.toNat / 256 % 256), UInt8.ofNat (v.toNat % 256)]

/-- Eight bytes, most significant first. -/
def u64 (v : UInt64) : Bytes :=
  u32 (UInt32.ofNat (v.toNat / 4294967296)) ++ u32 (UInt32.ofNat (v.toNat % 4294967296))

/-- The shortest big-endian representation of a positive number (empty for zero). -/
def minBE (n : Nat) : Bytes := if n = 0 then [] else minBE (n / 256) ++ [UInt8.ofNat (n % 256)]

/-- A variable length: one byte below 128, otherwise a byte `0x80 + k` followed by the shortest
`k`-byte big-endian representation. -/
def vlength (n : Nat) : Bytes :=
  if n < 128 then [UInt8.ofNat n] else UInt8.ofNat (128 + (minBE n).length) :: minBE n

/-- A byte field: length then bytes. -/
def field (v : Bytes) : Bytes := vlength v.length ++ v

/-- A list of structures: count, then the items. -/
def listOf {α : Type} (e : α → Bytes) (v : List α) : Bytes := vlength v.length ++ v.flatMap e

def handshakeMode : HandshakeMode → UInt8
  | .shared_secret => 0 | .public_keys => 1 | .quantum_key_distribution => 2
  | .industrial_certificates => 3 | .undefined => 0xFF
def ephemeral : HandshakeEphemeral → UInt8
  | .x25519 => 0 | .nonce => 1 | .none => 2 | .undefined => 0xFF
def hash : HandshakeHash → UInt8
  | .sha256 => 0 | .undefined => 0xFF
def kdf : HandshakeKDF → UInt8
  | .hkdf_sha256 => 0 | .undefined => 0xFF
def nonceMode : SessionNonceMode → UInt8
  | .strict_increment => 0 | .greater_than_last_rx => 1 | .undefined => 0xFF
def cryptoMode : SessionCryptoMode → UInt8
  | .hmac_sha256_16 => 0 | .aes_256_gcm => 1 | .undefined => 0xFF
def keyType : PublicKeyType → UInt8
  | .Ed25519 => 0 | .X25519 => 1 | .undefined => 0xFF
def entryType : ContainerEntryType → UInt8
  | .shared_secret => 0 | .certificate_chain => 1 | .x25519_public_key => 2
  | .x25519_private_key => 3 | .ed25519_public_key => 4 | .ed25519_private_key => 5 | .undefined => 0xFF
def handshakeError : HandshakeError → UInt8
  | .bad_message_format => 0 | .unsupported_version => 1 | .unsupported_handshake_ephemeral => 2
  | .unsupported_handshake_hash => 3 | .unsupported_handshake_kdf => 4 | .unsupported_session_mode => 5
  | .unsupported_nonce_mode => 6 | .unsupported_handshake_mode => 7 | .bad_certificate_format => 8
  | .bad_certificate_chain => 9 | .unsupported_certificate_feature => 10 | .authentication_error => 11
  | .no_prior_handshake_begin => 12 | .key_not_found => 13 | .none => 0xFD | .undefined => 0xFE
  | .unknown => 0xFF

/-- Request handshake begin, function code 0. -/
def request (m : RequestHandshakeBegin) : Bytes :=
  [0x00] ++ u16 m.version.major_version ++ u16 m.version.minor_version
  ++ [ephemeral m.spec.handshake_ephemeral, hash m.spec.handshake_hash, kdf m.spec.handshake_kdf,
      nonceMode m.spec.session_nonce_mode, cryptoMode m.spec.session_crypto_mode]
  ++ u16 m.constraints.max_nonce ++ u32 m.constraints.max_session_duration
  ++ [handshakeMode m.handshake_mode] ++ field m.mode_ephemeral ++ field m.mode_data

/-- Reply handshake begin, function code 1. -/
def reply (m : ReplyHandshakeBegin) : Bytes :=
  [0x01] ++ u16 m.version.major_version ++ u16 m.version.minor_version
  ++ field m.mode_ephemeral ++ field m.mode_data

/-- Reply handshake error, function code 2. -/
def error (m : ReplyHandshakeError) : Bytes :=
  [0x02] ++ u16 m.version.major_version ++ u16 m.version.minor_version
  ++ [handshakeError m.handshake_error]

/-- Session data, function code 3. -/
def sessionData (m : SessionData) : Bytes :=
  [0x03] ++ u16 m.metadata.nonce ++ u32 m.metadata.valid_until_ms ++ field m.user_data ++ field m.auth_tag

def extension (v : ExtensionEnvelope) : Bytes := u32 v.identifier ++ field v.extension_body

def certificateBody (v : CertificateBody) : Bytes :=
  u64 v.valid_after ++ u64 v.valid_before ++ [v.signing_level] ++ [keyType v.public_key_type]
  ++ field v.public_key ++ listOf extension v.extensions

def envelope (v : CertificateEnvelope) : Bytes := field v.signature ++ field v.certificate_body

def chain (v : List CertificateEnvelope) : Bytes := listOf envelope v

def container (v : ContainerFile) : Bytes := [entryType v.container_entry_type] ++ field v.payload

/-! ### The model's closed-form encodings are these (helper lemmas) -/

theorem be1_eq (v : UInt8) : be 1 v.toNat = [v] := by simp [be]

theorem be2_eq (v : UInt16) : be 2 v.toNat = u16 v := by
  simp only [be, u16, List.nil_append, List.cons_append]
  congr 2
  apply UInt8.toNat_inj.mp; simp

theorem be4_eq (v : UInt32) : be 4 v.toNat = u32 v := by
  have := v.toNat_lt
  simp only [be, u32, List.nil_append, List.cons_append, List.cons.injEq, and_true]
  refine ⟨?_, ?_, ?_, ?_⟩ <;> (apply UInt8.toNat_inj.mp; simp only [UInt8.toNat_ofNat']; omega)

theorem be8_eq (v : UInt64) : be 8 v.toNat = u64 v := by
  have := v.toNat_lt
  simp only [be, u32, u64, List.nil_append, List.cons_append, List.cons.injEq, and_true,
    UInt32.toNat_ofNat']
  refine ⟨?_, ?_, ?_, ?_, ?_, ?_, ?_, ?_⟩ <;>
    (apply UInt8.toNat_inj.mp; simp only [UInt8.toNat_ofNat']; omega)

theorem minBE_eq (k n : Nat) (h : n < 256 ^ k) (h' : 256 ^ k ≤ n * 256 ∨ k = 0) : minBE n = be k n := by
  induction k generalizing n with
  | zero => have : n = 0 := by simpa using h
            subst this; unfold minBE; simp [be]
  | succ k ih =>
    unfold minBE
    rw [Nat.pow_succ] at h h'
    have hpos : 0 < 256 ^ k := Nat.pow_pos (by omega)
    have hn : n ≠ 0 := by
      rintro rfl; omega
    rw [if_neg hn, be]
    have hk : minBE (n / 256) = be k (n / 256) := by
      apply ih
      · omega
      · cases k with
        | zero => right; rfl
        | succ k => left; rw [Nat.pow_succ] at h'  ⊢; omega
    rw [hk]
    congr 2
    apply UInt8.toNat_inj.mp; simp

theorem vlength_eq (v : UInt32) : VLength.enc v = vlength v.toNat := by
  have hv := v.toNat_lt
  unfold VLength.enc vlength
  by_cases h1 : v.toNat ≤ 127
  · rw [if_pos h1, if_pos (by omega)]
  · have h2 : ¬ v.toNat < 128 := by omega
    rw [if_neg h1, if_neg h2]
    have key : ∀ k, v.toNat < 256 ^ k → 256 ^ k ≤ v.toNat * 256 →
        UInt8.ofNat (128 + k) :: be k v.toNat =
          UInt8.ofNat (128 + (minBE v.toNat).length) :: minBE v.toNat := by
      intro k a b
      rw [minBE_eq k v.toNat a (Or.inl b)]; simp
    simp only
    repeat' split
    all_goals (apply key <;> omega)

theorem field_eq (v : Bytes) (h : v.length < 2 ^ 32) : Codec.encSeq v = field v := by
  have : (UInt32.ofNat v.length).toNat = v.length := by simp; omega
  unfold Codec.encSeq field
  rw [vlength_eq, this]

theorem listOf_eq {α : Type} (e e' : α → Bytes) (v : List α) (h : v.length < 2 ^ 32)
    (he : ∀ a ∈ v, e a = e' a) : Codec.encList e v = listOf e' v := by
  have : (UInt32.ofNat v.length).toNat = v.length := by simp; omega
  unfold Codec.encList listOf
  rw [vlength_eq, this, List.flatMap_def, List.map_congr_left he]

theorem handshakeMode_eq (e : HandshakeMode) : e.toType = handshakeMode e := by cases e <;> rfl
theorem ephemeral_eq (e : HandshakeEphemeral) : e.toType = ephemeral e := by cases e <;> rfl
theorem hash_eq (e : HandshakeHash) : e.toType = hash e := by cases e <;> rfl
theorem kdf_eq (e : HandshakeKDF) : e.toType = kdf e := by cases e <;> rfl
theorem nonceMode_eq (e : SessionNonceMode) : e.toType = nonceMode e := by cases e <;> rfl
theorem cryptoMode_eq (e : SessionCryptoMode) : e.toType = cryptoMode e := by cases e <;> rfl
theorem keyType_eq (e : PublicKeyType) : e.toType = keyType e := by cases e <;> rfl
theorem entryType_eq (e : ContainerEntryType) : e.toType = entryType e := by cases e <;> rfl
theorem handshakeError_eq (e : HandshakeError) : e.toType = handshakeError e := by cases e <;> rfl

/-- Restrict the encoding equation of a lawful codec to well-formed values. -/
theorem lawful_of {α : Type} {c : Codec α} {e e' : α → Bytes} {w : α → Prop}
    (hc : Codec.Lawful c e w) (he : ∀ a, w a → e a = e' a) : Codec.Lawful c e' w where
  write a h := by rw [hc.write a h, he a h]
  size a h := by rw [hc.size a h, he a h]
  read a rest h := by rw [← he a h]; exact hc.read a rest h
  canon bs a rest h := by
    have := hc.canon bs a rest h
    exact ⟨this.1, by rw [← he a this.1]; exact this.2⟩

theorem request_lawful :
    Codec.Lawful RequestHandshakeBegin.fields (fun m => (request m).tail) RequestHandshakeBegin.WF :=
  lawful_of RequestHandshakeBegin.lawful (by
    intro m h
    simp only [request, be2_eq, be4_eq, field_eq _ h.2.2.1, field_eq _ h.2.2.2, ephemeral_eq, hash_eq,
      kdf_eq, nonceMode_eq, cryptoMode_eq, handshakeMode_eq]
    simp [List.append_assoc])

theorem reply_lawful :
    Codec.Lawful ReplyHandshakeBegin.fields (fun m => (reply m).tail) ReplyHandshakeBegin.WF :=
  lawful_of ReplyHandshakeBegin.lawful (by
    intro m h
    simp only [reply, be2_eq, field_eq _ h.1, field_eq _ h.2]
    simp [List.append_assoc])

theorem error_lawful :
    Codec.Lawful ReplyHandshakeError.fields (fun m => (error m).tail) ReplyHandshakeError.WF :=
  lawful_of ReplyHandshakeError.lawful (by
    intro m h
    simp only [error, be2_eq, handshakeError_eq]
    simp [List.append_assoc])

theorem sessionData_lawful :
    Codec.Lawful SessionData.fields (fun m => (sessionData m).tail) SessionData.WF :=
  lawful_of SessionData.lawful (by
    intro m h
    simp only [sessionData, be2_eq, be4_eq, field_eq _ h.1, field_eq _ h.2]
    simp [List.append_assoc])

theorem extension_eq (v : ExtensionEnvelope) (h : v.WF) : v.enc = extension v := by
  simp only [ExtensionEnvelope.enc, extension, be4_eq, field_eq _ h]

theorem certificateBody_lawful :
    Codec.Lawful CertificateBody.codec certificateBody CertificateBody.WF :=
  lawful_of CertificateBody.lawful (by
    intro m h
    simp only [CertificateBody.enc, certificateBody, be8_eq, be1_eq, keyType_eq, field_eq _ h.2.1]
    rw [listOf_eq _ extension _ (by have := h.2.2.1; omega) (fun a ha => extension_eq a (h.2.2.2 a ha))]
    simp [List.append_assoc])

theorem envelope_eq (v : CertificateEnvelope) (h : v.WF) : v.enc = envelope v := by
  simp only [CertificateEnvelope.enc, envelope, field_eq _ h.1, field_eq _ h.2]

theorem chain_lawful : Codec.Lawful CertificateChain.codec chain CertificateChain.WF :=
  lawful_of CertificateChain.lawful (by
    intro m h
    unfold chain
    rw [listOf_eq _ envelope _ (by have := h.1; omega) (fun a ha => envelope_eq a (h.2 a ha))])

theorem container_lawful : Codec.Lawful ContainerFile.codec container ContainerFile.WF :=
  lawful_of ContainerFile.lawful (by
    intro m h
    simp only [ContainerFile.enc, container, entryType_eq, field_eq _ h.2])

theorem extension_lawful : Codec.Lawful ExtensionEnvelope.codec extension ExtensionEnvelope.WF :=
  lawful_of ExtensionEnvelope.lawful extension_eq

theorem envelope_lawful : Codec.Lawful CertificateEnvelope.codec envelope CertificateEnvelope.WF :=
  lawful_of CertificateEnvelope.lawful envelope_eq

end SSP21.Spec
