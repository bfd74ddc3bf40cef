import Verif.Spec.Wire
/-
  Properties C01–C05: the message and certificate codec.
-/
namespace SSP21
open Codec

/-! ## C01 — variable lengths -/

/-- Writing a length emits exactly the shortest encoding, or fails for lack of space. -/
theorem C01_vlength_write (v : UInt32) (cap : Nat) :
    VLength.write v cap =
      if (Spec.vlength v.toNat).length ≤ cap then .ok (Spec.vlength v.toNat)
      else .error .insufficient_space := by
  rw [VLength.write_eq, Spec.vlength_eq]; rfl

/-- Reading back what was written returns the value and leaves what followed. -/
theorem C01_vlength_roundtrip (v : UInt32) (cap : Nat) (bs rest : Bytes)
    (h : VLength.write v cap = .ok bs) : VLength.read (bs ++ rest) = .ok (v, rest) := by
  rw [VLength.write_eq] at h
  unfold emit at h
  split at h
  · cases h; exact VLength.read_enc v rest
  · cases h

/-- The reader accepts exactly the shortest encodings. -/
theorem C01_vlength_canonical (bs rest : Bytes) (v : UInt32) :
    VLength.read bs = .ok (v, rest) ↔ bs = Spec.vlength v.toNat ++ rest := by
  rw [← Spec.vlength_eq]
  exact ⟨VLength.read_canon, fun h => h ▸ VLength.read_enc v rest⟩

/-- Uniqueness: no length has two encodings, no encoding two readings. -/
theorem C01_vlength_unique (n m : UInt32) (rest rest' : Bytes)
    (h : Spec.vlength n.toNat ++ rest = Spec.vlength m.toNat ++ rest') : n = m ∧ rest = rest' := by
  have h1 := (C01_vlength_canonical _ rest n).mpr rfl
  have h2 := (C01_vlength_canonical _ rest' m).mpr rfl
  rw [h, h2] at h1
  cases h1; exact ⟨rfl, rfl⟩

/-- The advertised size is the encoded size, between 1 and 5. -/
theorem C01_vlength_size (v : UInt32) :
    VLength.size v = (Spec.vlength v.toNat).length ∧ 1 ≤ VLength.size v ∧ VLength.size v ≤ 5 := by
  refine ⟨by rw [← Spec.vlength_eq, VLength.enc_length], ?_⟩
  unfold VLength.size
  rw [VLength.numValueBytes_toNat]
  repeat' split
  all_goals omega

/-- Test: the documented boundaries (VLength.h:19-25). -/
example : Spec.vlength 127 = [0x7F] ∧ Spec.vlength 128 = [0x81, 0x80] ∧ Spec.vlength 256 = [0x82, 1, 0] ∧
    Spec.vlength 65536 = [0x83, 1, 0, 0] ∧ Spec.vlength 16777216 = [0x84, 1, 0, 0, 0] := by decide +kernel
/-- Test: an over-long encoding is rejected. -/
example : VLength.read [0x81, 0x7F] = .error .bad_vlength := by decide +kernel

/-! ## C02 / C03 / C04 — messages -/

theorem C02_request_write (m : RequestHandshakeBegin) (h : m.WF) (cap : Nat) :
    RequestHandshakeBegin.write m cap =
      if (Spec.request m).length ≤ cap then .ok (Spec.request m) else .error .insufficient_space :=
  writeMessage_eq Spec.request_lawful m h cap

theorem C02_reply_write (m : ReplyHandshakeBegin) (h : m.WF) (cap : Nat) :
    ReplyHandshakeBegin.write m cap =
      if (Spec.reply m).length ≤ cap then .ok (Spec.reply m) else .error .insufficient_space :=
  writeMessage_eq Spec.reply_lawful m h cap

theorem C02_error_write (m : ReplyHandshakeError) (h : m.WF) (cap : Nat) :
    ReplyHandshakeError.write m cap =
      if (Spec.error m).length ≤ cap then .ok (Spec.error m) else .error .insufficient_space :=
  writeMessage_eq Spec.error_lawful m h cap

theorem C02_session_data_write (m : SessionData) (h : m.WF) (cap : Nat) :
    SessionData.write m cap =
      if (Spec.sessionData m).length ≤ cap then .ok (Spec.sessionData m) else .error .insufficient_space :=
  writeMessage_eq Spec.sessionData_lawful m h cap

/-- The request parser accepts exactly the specified encodings of well-formed requests. -/
theorem C03_request_canonical (bs : Bytes) (m : RequestHandshakeBegin) :
    RequestHandshakeBegin.read bs = .ok m ↔ m.WF ∧ bs = Spec.request m :=
  ⟨fun h => readMessage_canon Spec.request_lawful h,
   fun h => h.2 ▸ readMessage_ok (f := .request_handshake_begin) (by decide) Spec.request_lawful m h.1⟩

theorem C03_reply_canonical (bs : Bytes) (m : ReplyHandshakeBegin) :
    ReplyHandshakeBegin.read bs = .ok m ↔ m.WF ∧ bs = Spec.reply m :=
  ⟨fun h => readMessage_canon Spec.reply_lawful h,
   fun h => h.2 ▸ readMessage_ok (f := .reply_handshake_begin) (by decide) Spec.reply_lawful m h.1⟩

theorem C03_error_canonical (bs : Bytes) (m : ReplyHandshakeError) :
    ReplyHandshakeError.read bs = .ok m ↔ m.WF ∧ bs = Spec.error m :=
  ⟨fun h => readMessage_canon Spec.error_lawful h,
   fun h => h.2 ▸ readMessage_ok (f := .reply_handshake_error) (by decide) Spec.error_lawful m h.1⟩

theorem C03_session_data_canonical (bs : Bytes) (m : SessionData) :
    SessionData.read bs = .ok m ↔ m.WF ∧ bs = Spec.sessionData m :=
  ⟨fun h => readMessage_canon Spec.sessionData_lawful h,
   fun h => h.2 ▸ readMessage_ok (f := .session_data) (by decide) Spec.sessionData_lawful m h.1⟩

/-- Round trips, stated on the API functions alone. -/
theorem C02_request_roundtrip (m : RequestHandshakeBegin) (h : m.WF) (cap : Nat) (bs : Bytes)
    (hw : RequestHandshakeBegin.write m cap = .ok bs) : RequestHandshakeBegin.read bs = .ok m := by
  rw [C02_request_write m h] at hw
  split at hw
  · cases hw; exact (C03_request_canonical _ m).mpr ⟨h, rfl⟩
  · cases hw

theorem C02_reply_roundtrip (m : ReplyHandshakeBegin) (h : m.WF) (cap : Nat) (bs : Bytes)
    (hw : ReplyHandshakeBegin.write m cap = .ok bs) : ReplyHandshakeBegin.read bs = .ok m := by
  rw [C02_reply_write m h] at hw
  split at hw
  · cases hw; exact (C03_reply_canonical _ m).mpr ⟨h, rfl⟩
  · cases hw

theorem C02_error_roundtrip (m : ReplyHandshakeError) (h : m.WF) (cap : Nat) (bs : Bytes)
    (hw : ReplyHandshakeError.write m cap = .ok bs) : ReplyHandshakeError.read bs = .ok m := by
  rw [C02_error_write m h] at hw
  split at hw
  · cases hw; exact (C03_error_canonical _ m).mpr ⟨h, rfl⟩
  · cases hw

theorem C02_session_data_roundtrip (m : SessionData) (h : m.WF) (cap : Nat) (bs : Bytes)
    (hw : SessionData.write m cap = .ok bs) : SessionData.read bs = .ok m := by
  rw [C02_session_data_write m h] at hw
  split at hw
  · cases hw; exact (C03_session_data_canonical _ m).mpr ⟨h, rfl⟩
  · cases hw

/-- An accepted byte string is non-empty and its first byte is the function code of its type. -/
theorem C03_function_code (bs : Bytes) :
    (∀ m, RequestHandshakeBegin.read bs = .ok m → bs.head? = some 0x00) ∧
    (∀ m, ReplyHandshakeBegin.read bs = .ok m → bs.head? = some 0x01) ∧
    (∀ m, ReplyHandshakeError.read bs = .ok m → bs.head? = some 0x02) ∧
    (∀ m, SessionData.read bs = .ok m → bs.head? = some 0x03) :=
  ⟨fun m h => ((C03_request_canonical bs m).mp h).2 ▸ rfl,
   fun m h => ((C03_reply_canonical bs m).mp h).2 ▸ rfl,
   fun m h => ((C03_error_canonical bs m).mp h).2 ▸ rfl,
   fun m h => ((C03_session_data_canonical bs m).mp h).2 ▸ rfl⟩

/-- Bytes after a complete message are always detected: the parse fails with `too_many_bytes`. -/
theorem C03_no_trailing (x : Bytes) (hx : x ≠ []) :
    (∀ m : RequestHandshakeBegin, m.WF →
      RequestHandshakeBegin.read (Spec.request m ++ x) = .error .too_many_bytes) ∧
    (∀ m : ReplyHandshakeBegin, m.WF →
      ReplyHandshakeBegin.read (Spec.reply m ++ x) = .error .too_many_bytes) ∧
    (∀ m : ReplyHandshakeError, m.WF →
      ReplyHandshakeError.read (Spec.error m ++ x) = .error .too_many_bytes) ∧
    (∀ m : SessionData, m.WF →
      SessionData.read (Spec.sessionData m ++ x) = .error .too_many_bytes) :=
  ⟨fun m h => readMessage_trailing (f := .request_handshake_begin) (by decide) Spec.request_lawful m h x hx,
   fun m h => readMessage_trailing (f := .reply_handshake_begin) (by decide) Spec.reply_lawful m h x hx,
   fun m h => readMessage_trailing (f := .reply_handshake_error) (by decide) Spec.error_lawful m h x hx,
   fun m h => readMessage_trailing (f := .session_data) (by decide) Spec.sessionData_lawful m h x hx⟩

/-- `size()` is the number of bytes written, and never below the advertised minimum / fixed sizes
(RequestHandshakeBegin.h:50, ReplyHandshakeBegin.h:43, ReplyHandshakeError.h:43, SessionData.h:43). -/
theorem C04_request_size (m : RequestHandshakeBegin) (h : m.WF) :
    RequestHandshakeBegin.size m = (Spec.request m).length ∧ 19 ≤ RequestHandshakeBegin.size m := by
  have := Spec.request_lawful.size m h
  have h1 : RequestHandshakeBegin.size m = (Spec.request m).length := by
    unfold RequestHandshakeBegin.size
    rw [this]
    simp only [Spec.request, List.length_tail, List.length_append, List.length_cons]; omega
  refine ⟨h1, ?_⟩
  have v1 : 1 ≤ (Spec.vlength m.mode_ephemeral.length).length := by unfold Spec.vlength; split <;> simp
  have v2 : 1 ≤ (Spec.vlength m.mode_data.length).length := by unfold Spec.vlength; split <;> simp
  rw [h1]
  simp only [Spec.request, Spec.field, Spec.u16, Spec.u32, List.length_append, List.length_cons, List.length_nil]
  omega

theorem C04_reply_size (m : ReplyHandshakeBegin) (h : m.WF) :
    ReplyHandshakeBegin.size m = (Spec.reply m).length ∧ 7 ≤ ReplyHandshakeBegin.size m := by
  have := Spec.reply_lawful.size m h
  have h1 : ReplyHandshakeBegin.size m = (Spec.reply m).length := by
    unfold ReplyHandshakeBegin.size
    rw [this]
    simp only [Spec.reply, List.length_tail, List.length_append, List.length_cons]; omega
  refine ⟨h1, ?_⟩
  have v1 : 1 ≤ (Spec.vlength m.mode_ephemeral.length).length := by unfold Spec.vlength; split <;> simp
  have v2 : 1 ≤ (Spec.vlength m.mode_data.length).length := by unfold Spec.vlength; split <;> simp
  rw [h1]
  simp only [Spec.reply, Spec.field, Spec.u16, List.length_append, List.length_cons, List.length_nil]
  omega

theorem C04_error_size (m : ReplyHandshakeError) (_ : m.WF) :
    ReplyHandshakeError.size m = (Spec.error m).length ∧ ReplyHandshakeError.size m = 6 :=
  ⟨rfl, rfl⟩

theorem C04_session_data_size (m : SessionData) (h : m.WF) :
    SessionData.size m = (Spec.sessionData m).length ∧ 9 ≤ SessionData.size m := by
  have := Spec.sessionData_lawful.size m h
  have h1 : SessionData.size m = (Spec.sessionData m).length := by
    unfold SessionData.size
    rw [this]
    simp only [Spec.sessionData, List.length_tail, List.length_append, List.length_cons]; omega
  refine ⟨h1, ?_⟩
  have v1 : 1 ≤ (Spec.vlength m.user_data.length).length := by unfold Spec.vlength; split <;> simp
  have v2 : 1 ≤ (Spec.vlength m.auth_tag.length).length := by unfold Spec.vlength; split <;> simp
  rw [h1]
  simp only [Spec.sessionData, Spec.field, Spec.u16, Spec.u32, List.length_append, List.length_cons, List.length_nil]
  omega

/-- Writing succeeds exactly when the destination holds at least `size()` bytes, and then fills
exactly `size()` bytes. -/
theorem C04_messages_fit (cap : Nat) :
    (∀ m : RequestHandshakeBegin, m.WF → ((∃ bs, m.write cap = .ok bs ∧ bs.length = m.size) ↔ m.size ≤ cap)) ∧
    (∀ m : ReplyHandshakeBegin, m.WF → ((∃ bs, m.write cap = .ok bs ∧ bs.length = m.size) ↔ m.size ≤ cap)) ∧
    (∀ m : ReplyHandshakeError, m.WF → ((∃ bs, m.write cap = .ok bs ∧ bs.length = m.size) ↔ m.size ≤ cap)) ∧
    (∀ m : SessionData, m.WF → ((∃ bs, m.write cap = .ok bs ∧ bs.length = m.size) ↔ m.size ≤ cap)) := by
  refine ⟨?_, ?_, ?_, ?_⟩ <;> intro m h
  · rw [C02_request_write m h, (C04_request_size m h).1]
    by_cases hc : (Spec.request m).length ≤ cap <;> simp [hc]
  · rw [C02_reply_write m h, (C04_reply_size m h).1]
    by_cases hc : (Spec.reply m).length ≤ cap <;> simp [hc]
  · rw [C02_error_write m h, (C04_error_size m h).1]
    by_cases hc : (Spec.error m).length ≤ cap <;> simp [hc]
  · rw [C02_session_data_write m h, (C04_session_data_size m h).1]
    by_cases hc : (Spec.sessionData m).length ≤ cap <;> simp [hc]

/-- A concrete well-formed request, used below to show that the hypotheses are met. -/
def exampleRequest : RequestHandshakeBegin :=
  { version := ⟨0, 1⟩, spec := ⟨.x25519, .sha256, .hkdf_sha256, .strict_increment, .aes_256_gcm⟩,
    constraints := ⟨32768, 3600000⟩, handshake_mode := .public_keys,
    mode_ephemeral := List.replicate 32 0xAB, mode_data := [] }

example : exampleRequest.WF := by
  unfold RequestHandshakeBegin.WF CryptoSpec.Defined; decide
example : RequestHandshakeBegin.read (Spec.request exampleRequest) = .ok exampleRequest :=
  (C03_request_canonical _ _).mpr ⟨by unfold RequestHandshakeBegin.WF CryptoSpec.Defined; decide, rfl⟩
example : ReplyHandshakeError.read [2, 0, 0, 0, 1, 0xC] = .ok ⟨⟨0, 1⟩, .no_prior_handshake_begin⟩ := by decide +kernel
example : SessionData.read [3, 0, 1, 0, 0, 0, 9, 1, 0x41, 0] = .ok ⟨⟨1, 9⟩, [0x41], []⟩ := by decide +kernel
example : SessionData.read [3, 0, 1, 0, 0, 0, 9, 1, 0x41, 0, 0] = .error .too_many_bytes := by decide +kernel
example : (⟨⟨1, 9⟩, [0x41], []⟩ : SessionData).WF := by unfold SessionData.WF; decide
example : (⟨⟨0, 1⟩, [1, 2], []⟩ : ReplyHandshakeBegin).WF := by unfold ReplyHandshakeBegin.WF; decide

/-! ## C05 — certificate structures -/

/-- Everything that is claimed of one structure: it is written as specified whenever it fits, its size
is exact, the serialization helper always fills its buffer, and `read_all` accepts exactly the
specified encodings of well-formed values. -/
def StructClaim {α : Type} (c : Codec α) (spec : α → Bytes) (wf : α → Prop) : Prop :=
  (∀ a cap, wf a → c.write a cap =
    if (spec a).length ≤ cap then .ok (spec a) else .error .insufficient_space) ∧
  (∀ a, wf a → c.size a = (spec a).length) ∧
  (∀ a, wf a → toAnyBuffer c a = .ok (spec a)) ∧
  (∀ bs a, c.readAll bs = .ok a ↔ wf a ∧ bs = spec a)

theorem structClaim_of_lawful {α : Type} {c : Codec α} {e w} (h : Lawful c e w) : StructClaim c e w :=
  ⟨fun a cap ha => by rw [h.write a ha]; rfl, h.size, fun a ha => toAnyBuffer_ok h a ha,
   fun _ a => ⟨readAll_canon h, fun hh => hh.2 ▸ readAll_ok h a hh.1⟩⟩

theorem C05_extension : StructClaim ExtensionEnvelope.codec Spec.extension
    (fun v => v.extension_body.length < 2 ^ 32) := structClaim_of_lawful Spec.extension_lawful

theorem C05_certificate_body : StructClaim CertificateBody.codec Spec.certificateBody
    (fun v => v.public_key_type ≠ .undefined ∧ v.public_key.length < 2 ^ 32 ∧ v.extensions.length ≤ 5 ∧
      ∀ x ∈ v.extensions, x.extension_body.length < 2 ^ 32) := structClaim_of_lawful Spec.certificateBody_lawful

theorem C05_envelope : StructClaim CertificateEnvelope.codec Spec.envelope
    (fun v => v.signature.length < 2 ^ 32 ∧ v.certificate_body.length < 2 ^ 32) :=
  structClaim_of_lawful Spec.envelope_lawful

theorem C05_chain : StructClaim CertificateChain.codec Spec.chain
    (fun v => v.length ≤ 6 ∧ ∀ x ∈ v, x.signature.length < 2 ^ 32 ∧ x.certificate_body.length < 2 ^ 32) :=
  structClaim_of_lawful Spec.chain_lawful

theorem C05_container : StructClaim ContainerFile.codec Spec.container
    (fun v => v.container_entry_type ≠ .undefined ∧ v.payload.length < 2 ^ 32) :=
  structClaim_of_lawful Spec.container_lawful

/-- A byte string that declares more than six certificates, whatever follows, is never accepted. -/
theorem C05_chain_capacity (count : UInt32) (rest : Bytes) (v : List CertificateEnvelope)
    (h : 6 < count.toNat) : CertificateChain.codec.readAll (Spec.vlength count.toNat ++ rest) ≠ .ok v := by
  intro hr
  obtain ⟨⟨h1, _⟩, h2⟩ := (C05_chain.2.2.2 _ _).mp hr
  have e : (UInt32.ofNat v.length).toNat = v.length := by simp; omega
  have := (C01_vlength_unique count (UInt32.ofNat v.length) rest (v.flatMap Spec.envelope) (by
    rw [e]; exact h2)).1
  rw [this, e] at h
  omega

/-- Likewise for more than five extensions in a certificate body. -/
theorem C05_extension_capacity (a b : UInt64) (level : UInt8) (t : PublicKeyType) (key : Bytes)
    (hk : key.length < 2 ^ 32)
    (count : UInt32) (rest : Bytes) (v : CertificateBody) (h : 5 < count.toNat) :
    CertificateBody.codec.readAll (Spec.u64 a ++ Spec.u64 b ++ [level] ++ [Spec.keyType t] ++ Spec.field key
      ++ Spec.vlength count.toNat ++ rest) ≠ .ok v := by
  intro hr
  obtain ⟨⟨h0, h1, h2, _⟩, h3⟩ := (C05_certificate_body.2.2.2 _ _).mp hr
  unfold Spec.certificateBody at h3
  rw [List.append_assoc, List.append_assoc] at h3
  have l8 : ∀ v : UInt64, (Spec.u64 v).length = 8 := fun _ => rfl
  rw [List.append_assoc _ (Spec.field v.public_key)] at h3
  have := List.append_inj h3 (by simp [l8])
  have h4 := this.2
  unfold Spec.field Spec.listOf at h4
  rw [List.append_assoc, List.append_assoc] at h4
  have ek : (UInt32.ofNat key.length).toNat = key.length := by simp; omega
  have ev : (UInt32.ofNat v.public_key.length).toNat = v.public_key.length := by simp; omega
  obtain ⟨k1, k2⟩ := C01_vlength_unique (UInt32.ofNat key.length) (UInt32.ofNat v.public_key.length) _ _ (by
    rw [ek, ev]; exact h4)
  have k3 : key.length = v.public_key.length := by rw [← ek, ← ev, k1]
  have h5 := (List.append_inj k2 k3).2
  have e : (UInt32.ofNat v.extensions.length).toNat = v.extensions.length := by simp; omega
  have := (C01_vlength_unique count (UInt32.ofNat v.extensions.length) _ _ (by rw [e]; exact h5)).1
  rw [this, e] at h
  omega

example : CertificateChain.codec.readAll (Spec.chain [⟨[1, 2], [3]⟩, ⟨[], [4]⟩]) =
    .ok [⟨[1, 2], [3]⟩, ⟨[], [4]⟩] := by decide +kernel
example : CertificateBody.codec.readAll (Spec.certificateBody ⟨1, 2, 3, .X25519, [9], [⟨7, [8]⟩]⟩) =
    .ok ⟨1, 2, 3, .X25519, [9], [⟨7, [8]⟩]⟩ := by decide +kernel

end SSP21
