import Verif.Messages
/-
  Certificate structures and container files. Models cpp/libs/ssp21/src/crypto/gen/
  {ExtensionEnvelope,CertificateBody,CertificateEnvelope,CertificateChain,ContainerFile}.cpp.
-/
namespace SSP21
open Codec

/-- cpp/libs/ssp21/include/ssp21/crypto/gen/ExtensionEnvelope.h:30-50. -/
structure ExtensionEnvelope where
  identifier : UInt32
  extension_body : Bytes
  deriving DecidableEq, Repr

/-- cpp/libs/ssp21/src/crypto/gen/ExtensionEnvelope.cpp:35-68. -/
def ExtensionEnvelope.codec : Codec ExtensionEnvelope :=
  iso (pair u32 seqByte) (fun v => ⟨v.1, v.2⟩) (fun v => (v.identifier, v.extension_body))

/-- cpp/libs/ssp21/include/ssp21/crypto/gen/CertificateBody.h:34-61. -/
structure CertificateBody where
  valid_after : UInt64
  valid_before : UInt64
  signing_level : UInt8
  public_key_type : PublicKeyType
  public_key : Bytes
  extensions : List ExtensionEnvelope
  deriving DecidableEq, Repr

/-- cpp/libs/ssp21/src/crypto/gen/CertificateBody.cpp:41-86; at most 5 extensions
(CertificateBody.h:55). -/
def CertificateBody.codec : Codec CertificateBody :=
  iso (pair u64 (pair u64 (pair u8 (pair PublicKeyType.codec (pair seqByte
      (seqStruct ExtensionEnvelope.codec 5))))))
    (fun v => ⟨v.1, v.2.1, v.2.2.1, v.2.2.2.1, v.2.2.2.2.1, v.2.2.2.2.2⟩)
    (fun v => (v.valid_after, v.valid_before, v.signing_level, v.public_key_type, v.public_key, v.extensions))

/-- cpp/libs/ssp21/include/ssp21/crypto/gen/CertificateEnvelope.h:28-48. -/
structure CertificateEnvelope where
  signature : Bytes
  certificate_body : Bytes
  deriving DecidableEq, Repr

/-- cpp/libs/ssp21/src/crypto/gen/CertificateEnvelope.cpp:35-68. -/
def CertificateEnvelope.codec : Codec CertificateEnvelope :=
  iso (pair seqByte seqByte) (fun v => ⟨v.1, v.2⟩) (fun v => (v.signature, v.certificate_body))

/-- The certificates of a chain; cpp/libs/ssp21/src/crypto/gen/CertificateChain.cpp:28-58,
at most 6 (CertificateChain.h:37). -/
def CertificateChain.codec : Codec (List CertificateEnvelope) := seqStruct CertificateEnvelope.codec 6

/-- cpp/libs/ssp21/include/ssp21/crypto/gen/ContainerFile.h:30-50. -/
structure ContainerFile where
  container_entry_type : ContainerEntryType
  payload : Bytes
  deriving DecidableEq, Repr

/-- cpp/libs/ssp21/src/crypto/gen/ContainerFile.cpp:35-68. -/
def ContainerFile.codec : Codec ContainerFile :=
  iso (pair ContainerEntryType.codec seqByte) (fun v => ⟨v.1, v.2⟩)
    (fun v => (v.container_entry_type, v.payload))

/-- Outcome of `serialize::to_any_buffer`. -/
inductive ToBuffer
  | ok (buffer : Bytes)
  | throwWrite (e : FormatError)
  | throwMismatch
  deriving DecidableEq, Repr

/-- `serialize::to_any_buffer`, cpp/libs/ssp21/include/ssp21/util/SerializationUtils.h:13-27: allocate
`size()` bytes, write, and require the destination to be filled. -/
def toAnyBuffer {α : Type} (c : Codec α) (a : α) : ToBuffer :=
  match c.write a (c.size a) with
  | .error e => .throwWrite e
  | .ok bs => if c.size a - bs.length ≠ 0 then .throwMismatch else .ok bs

/-! ### Lawfulness (helper lemmas) -/

/-- 32-bit length. -/
def ExtensionEnvelope.WF (v : ExtensionEnvelope) : Prop := v.extension_body.length < 2 ^ 32

/-- Encoding of an extension. -/
def ExtensionEnvelope.enc (v : ExtensionEnvelope) : Bytes := be 4 v.identifier.toNat ++ encSeq v.extension_body

theorem ExtensionEnvelope.lawful : Lawful ExtensionEnvelope.codec ExtensionEnvelope.enc ExtensionEnvelope.WF :=
  (iso_lawful (pair_lawful u32_lawful seqByte_lawful) (fun _ => rfl) (fun _ => rfl)).congr
    (fun _ => rfl) (fun _ => by simp [ExtensionEnvelope.WF])

/-- Defined key type, 32-bit lengths, at most five extensions. -/
def CertificateBody.WF (v : CertificateBody) : Prop :=
  v.public_key_type ≠ .undefined ∧ v.public_key.length < 2 ^ 32 ∧ v.extensions.length ≤ 5 ∧
  ∀ x ∈ v.extensions, x.WF

/-- Encoding of a certificate body. -/
def CertificateBody.enc (v : CertificateBody) : Bytes :=
  be 8 v.valid_after.toNat ++ (be 8 v.valid_before.toNat ++ (be 1 v.signing_level.toNat ++
    ([v.public_key_type.toType] ++ (encSeq v.public_key ++ encList ExtensionEnvelope.enc v.extensions))))

theorem CertificateBody.lawful : Lawful CertificateBody.codec CertificateBody.enc CertificateBody.WF :=
  (iso_lawful (pair_lawful u64_lawful (pair_lawful u64_lawful (pair_lawful u8_lawful
    (pair_lawful PublicKeyType.lawful (pair_lawful seqByte_lawful
      (seqStruct_lawful ExtensionEnvelope.lawful 5 (by decide)))))))
    (fun _ => rfl) (fun _ => rfl)).congr
    (fun _ => rfl) (fun _ => by simp [CertificateBody.WF])

/-- 32-bit lengths. -/
def CertificateEnvelope.WF (v : CertificateEnvelope) : Prop :=
  v.signature.length < 2 ^ 32 ∧ v.certificate_body.length < 2 ^ 32

/-- Encoding of a certificate envelope. -/
def CertificateEnvelope.enc (v : CertificateEnvelope) : Bytes := encSeq v.signature ++ encSeq v.certificate_body

theorem CertificateEnvelope.lawful :
    Lawful CertificateEnvelope.codec CertificateEnvelope.enc CertificateEnvelope.WF :=
  (iso_lawful (pair_lawful seqByte_lawful seqByte_lawful) (fun _ => rfl) (fun _ => rfl)).congr
    (fun _ => rfl) (fun _ => by simp [CertificateEnvelope.WF])

/-- At most six certificates, each with 32-bit lengths. -/
def CertificateChain.WF (v : List CertificateEnvelope) : Prop := v.length ≤ 6 ∧ ∀ x ∈ v, x.WF

theorem CertificateChain.lawful :
    Lawful CertificateChain.codec (encList CertificateEnvelope.enc) CertificateChain.WF :=
  seqStruct_lawful CertificateEnvelope.lawful 6 (by decide)

/-- Defined entry type, 32-bit payload length. -/
def ContainerFile.WF (v : ContainerFile) : Prop :=
  v.container_entry_type ≠ .undefined ∧ v.payload.length < 2 ^ 32

/-- Encoding of a container file. -/
def ContainerFile.enc (v : ContainerFile) : Bytes := [v.container_entry_type.toType] ++ encSeq v.payload

theorem ContainerFile.lawful : Lawful ContainerFile.codec ContainerFile.enc ContainerFile.WF :=
  (iso_lawful (pair_lawful ContainerEntryType.lawful seqByte_lawful) (fun _ => rfl) (fun _ => rfl)).congr
    (fun _ => rfl) (fun _ => by simp [ContainerFile.WF])

theorem readAll_ok {α : Type} {c : Codec α} {e w} (hc : Lawful c e w) (a : α) (h : w a) :
    readAll c (e a) = .ok a := by
  have := hc.read a [] h
  simp only [List.append_nil] at this
  simp [readAll, this]

theorem readAll_canon {α : Type} {c : Codec α} {e w} (hc : Lawful c e w) {bs : Bytes} {a : α}
    (h : readAll c bs = .ok a) : w a ∧ bs = e a := by
  unfold readAll at h
  split at h
  · cases h
  · rename_i a' rest hr
    split at h
    · rename_i he
      cases h
      have := hc.canon _ _ _ hr
      simpa [List.isEmpty_iff.mp he] using this
    · cases h

theorem toAnyBuffer_ok {α : Type} {c : Codec α} {e w} (hc : Lawful c e w) (a : α) (h : w a) :
    toAnyBuffer c a = .ok (e a) := by
  simp [toAnyBuffer, hc.write a h, hc.size a h, emit]

end SSP21
