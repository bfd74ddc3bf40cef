import Verif.Tool
import Verif.Props.Chain
/-
  Properties C43 and C45: what the tool `icftool` makes.
-/
namespace SSP21.Tool

/-! ## C43 -/

/-- The milliseconds of a number of days. -/
def Spec.millisOfDays (days : Nat) : Nat := days * 24 * 60 * 60 * 1000

theorem int32_ok (n : Int) (h : -2147483648 ≤ n ∧ n < 2147483648) : int32 n = .ok n := if_pos h
theorem int32_fault (n : Int) (h : 2147483648 ≤ n) : int32 n = .fault := if_neg (by omega)
theorem daysToTimes_eq (now : UInt64) (days : UInt16) : daysToTimes now days =
    (int32 (days.toNat * 86400)).bind fun s => (int32 (s * 1000)).bind fun m => .ok ⟨now, now + UInt64.ofInt m⟩ := by
  unfold daysToTimes
  generalize (days.toNat : Int) * 86400 = x
  rfl

/-- C43, for at most 24 days: the certificate is valid from now on for exactly that many days (if the clock is not
within 24 days of the end of the 64-bit range of times). -/
theorem C43_days_partial (now : UInt64) (days : UInt16) (h : days.toNat ≤ 24) (hn : now.toNat < 2 ^ 64 - 2 ^ 31) :
    ∃ t, daysToTimes now days = .ok t ∧ t.valid_after = now ∧
      t.valid_before.toNat = now.toNat + Spec.millisOfDays days.toNat := by
  rw [daysToTimes_eq, int32_ok _ (by omega), Outcome.bind, int32_ok _ (by omega), Outcome.bind]
  refine ⟨_, rfl, rfl, ?_⟩
  have hc : (UInt64.ofInt ((days.toNat : Int) * 86400 * 1000)).toNat = days.toNat * 86400 * 1000 := by
    simp only [UInt64.ofInt, UInt64.toNat_ofNat']
    omega
  simp only [UInt64.toNat_add, hc, Spec.millisOfDays]
  omega

/-- C43 is false from 25 days on: the computation is undefined behaviour (signed overflow) for every larger number. -/
theorem C43_overflow_violation (now : UInt64) (days : UInt16) : daysToTimes now days = .fault ↔ 25 ≤ days.toNat := by
  rw [daysToTimes_eq]
  by_cases h : 25 ≤ days.toNat
  · simp only [h, iff_true]
    by_cases hs : (days.toNat : Int) * 86400 < 2147483648
    · rw [int32_ok _ (by omega), Outcome.bind, int32_fault _ (by omega), Outcome.bind]
    · rw [int32_fault _ (by omega), Outcome.bind]
  · simp only [h, iff_false]
    rw [int32_ok _ (by omega), Outcome.bind, int32_ok _ (by omega), Outcome.bind]
    exact fun h => nomatch h

/-- What that means when the overflow wraps around: a certificate of 25 days ends, at every time after the end of
January 1970, before it begins; a year becomes 16 days and a half. -/
theorem C43_wrapping_violation (now : UInt64) (h : 2 ^ 31 ≤ now.toNat) (h' : now.toNat < 2 ^ 63) :
    (daysToTimesWrapping now 25).valid_before < (daysToTimesWrapping now 25).valid_after ∧
    (daysToTimesWrapping now 365).valid_before.toNat = now.toNat + 1471228928 := by
  have h1 : (UInt64.ofInt ((Int32.ofNat (25 : UInt16).toNat * 86400) * 1000).toInt).toNat = 2 ^ 64 - 2134967296 := by
    decide +kernel
  have h2 : (UInt64.ofInt ((Int32.ofNat (365 : UInt16).toNat * 86400) * 1000).toInt).toNat = 1471228928 := by
    decide +kernel
  constructor
  · simp only [daysToTimesWrapping, UInt64.lt_iff_toNat_lt, UInt64.toNat_add, h1]
    omega
  · simp only [daysToTimesWrapping, UInt64.toNat_add, h2]
    omega

/-- A certificate of 24 days made at a time in 2024. -/
example : daysToTimes 1710000000000 24 = .ok ⟨1710000000000, 1712073600000⟩ := by decide +kernel

/-! ## C45 -/

namespace Spec

/-- The type of the file that holds a public key. -/
def keyEntry : PublicKeyType → ContainerEntryType
  | .Ed25519 => .ed25519_public_key
  | .X25519 => .x25519_public_key
  | .undefined => .undefined

/-- The content of the file that holds a certificate chain. -/
def chainFile (certs : List CertificateEnvelope) : Bytes := SSP21.Spec.container ⟨.certificate_chain, SSP21.Spec.chain certs⟩

/-- What the certificate says. -/
def body (times : Times) (level : UInt8) (type : PublicKeyType) (key : Bytes) : CertificateBody :=
  ⟨times.valid_after, times.valid_before, level, type, key, []⟩

/-- The certificate, signed with a private key. -/
def signed (sign : Bytes → Bytes → Bytes) (b : CertificateBody) (priv : Bytes) : CertificateEnvelope :=
  ⟨sign (SSP21.Spec.certificateBody b) (priv.take 64), SSP21.Spec.certificateBody b⟩

end Spec

theorem outcome_bind_ok {α β : Type} (x : Outcome α) (f : α → Outcome β) (r : β) :
    (x >>= f) = .ok r ↔ ∃ a, x = .ok a ∧ f a = .ok r := by
  cases x <;> simp [bind, Outcome.bind]

theorem parseOrThrow_ok {α : Type} (c : Codec α) (data : Bytes) (a : α) :
    parseOrThrow c data = .ok a ↔ Codec.readAll c data = .ok a := by
  unfold parseOrThrow
  split <;> simp_all

theorem secureRead_ok (file r : Bytes) : secureRead file = .ok r ↔ r = file ∧ 0 < file.length ∧ file.length ≤ 4096 := by
  unfold secureRead
  split
  · simp; omega
  · split
    · simp; omega
    · simp [eq_comm]; omega

theorem readContainer_ok (file : Bytes) (c : ContainerFile) :
    (∃ d, secureRead file = .ok d ∧ parseOrThrow ContainerFile.codec d = .ok c) ↔
      (c.container_entry_type ≠ .undefined ∧ c.payload.length < 2 ^ 32) ∧ file = SSP21.Spec.container c ∧
        file.length ≤ 4096 := by
  simp only [secureRead_ok, parseOrThrow_ok]
  constructor
  · rintro ⟨d, ⟨rfl, h0, h1⟩, h2⟩
    obtain ⟨h3, h4⟩ := (C05_container.2.2.2 _ _).mp h2
    exact ⟨h3, h4, h1⟩
  · rintro ⟨h1, h2, h3⟩
    exact ⟨file, ⟨rfl, by rw [h2]; simp [SSP21.Spec.container], h3⟩, (C05_container.2.2.2 _ _).mpr ⟨h1, h2⟩⟩

theorem toBuffer_ok {α : Type} {c : Codec α} {spec : α → Bytes} {wf : α → Prop} (h : StructClaim c spec wf) (a : α)
    (ha : wf a) : toBuffer c a = .ok (spec a) := by
  unfold toBuffer
  rw [h.2.2.1 a ha]

theorem getPublicKeyType_ok (f : ContainerFile) (t : PublicKeyType) :
    getPublicKeyType f = .ok t ↔ t ≠ .undefined ∧ f.container_entry_type = Spec.keyEntry t ∧ f.payload.length = 32 := by
  unfold getPublicKeyType
  split
  · rename_i h
    rw [h]
    split
    · rename_i hl; simp [hl]
    · rename_i hl
      simp only [ne_eq, Decidable.not_not] at hl
      cases t <;> simp [Spec.keyEntry, hl]
  · rename_i h
    rw [h]
    split
    · rename_i hl; simp [hl]
    · rename_i hl
      simp only [ne_eq, Decidable.not_not] at hl
      cases t <;> simp [Spec.keyEntry, hl]
  · rename_i h1 h2
    simp only [reduceCtorEq, false_iff]
    rintro ⟨h3, h4, h5⟩
    cases t
    all_goals first | exact h1 h4 | exact h2 h4 | exact h3 rfl

theorem calcSignature_ok (caps : Caps) (sign : Bytes → Bytes → Bytes) (data sig : Bytes) (f : ContainerFile) :
    calcSignature caps sign data f = .ok sig ↔ f.container_entry_type = .ed25519_private_key ∧ caps.ed25519 = true ∧
      64 ≤ f.payload.length ∧ sig = sign data (f.payload.take 64) := by
  unfold calcSignature
  split
  · rename_i h
    simp only [h]
    cases caps.ed25519
    · simp
    · by_cases hl : f.payload.length < 64
      · simp [hl]; omega
      · simp [hl, eq_comm]; omega
  · rename_i h
    simp only [reduceCtorEq, false_iff]
    rintro ⟨h1, _⟩
    exact h h1

theorem bodyWF (times : Times) (level : UInt8) (t : PublicKeyType) (key : Bytes) (ht : t ≠ .undefined)
    (hk : key.length = 32) : (Spec.body times level t key).WF := by
  refine ⟨ht, ?_, ?_, ?_⟩ <;> simp [Spec.body, hk]

theorem bodyLength (times : Times) (level : UInt8) (t : PublicKeyType) (key : Bytes) (hk : key.length = 32) :
    (SSP21.Spec.certificateBody (Spec.body times level t key)).length = 52 := by
  simp [SSP21.Spec.certificateBody, Spec.body, SSP21.Spec.u64, SSP21.Spec.u32, SSP21.Spec.field, SSP21.Spec.vlength, SSP21.Spec.listOf,
    hk]

theorem vlength_le (n : Nat) (h : n < 128) : (SSP21.Spec.vlength n).length = 1 := by
  unfold SSP21.Spec.vlength
  rw [if_pos (by omega)]
  rfl

theorem chainLength (env : CertificateEnvelope) (h1 : env.signature.length = 64) (h2 : env.certificate_body.length = 52) :
    (SSP21.Spec.chain [env]).length = 119 := by
  simp only [SSP21.Spec.chain, SSP21.Spec.listOf, List.flatMap_cons, List.flatMap_nil, SSP21.Spec.envelope,
    SSP21.Spec.field, List.length_append, List.length_nil, h1, h2, List.length_cons]
  rw [vlength_le, vlength_le, vlength_le] <;> omega

theorem writeFile_ok (type : ContainerEntryType) (data : Bytes) (ht : type ≠ .undefined) (hd : data.length < 2 ^ 32) :
    writeFile type data = .ok (SSP21.Spec.container ⟨type, data⟩) := toBuffer_ok C05_container _ ⟨ht, hd⟩

/-- C45: the files of keys that the tool makes hold the keys that were generated, each under its own type: a shared
secret, or the private key in the first file and the public key in the second. Key pairs need support of Ed25519, even
those of X25519. -/
theorem C45_key_files (caps : Caps) (priv pub : Bytes) (hp : priv.length ≤ 64) (hq : pub.length ≤ 64) :
    genSharedSecret priv = .ok (SSP21.Spec.container ⟨.shared_secret, priv⟩) ∧
    (∀ files, genX25519 caps priv pub = .ok files ↔ caps.ed25519 = true ∧
      files = (SSP21.Spec.container ⟨.x25519_private_key, priv⟩, SSP21.Spec.container ⟨.x25519_public_key, pub⟩)) ∧
    (∀ files, genEd25519 caps priv pub = .ok files ↔ caps.ed25519 = true ∧
      files = (SSP21.Spec.container ⟨.ed25519_private_key, priv⟩, SSP21.Spec.container ⟨.ed25519_public_key, pub⟩)) := by
  have h : ∀ t, t ≠ ContainerEntryType.undefined → writeFile t priv = .ok (SSP21.Spec.container ⟨t, priv⟩) ∧
      writeFile t pub = .ok (SSP21.Spec.container ⟨t, pub⟩) :=
    fun t ht => ⟨writeFile_ok t priv ht (by omega), writeFile_ok t pub ht (by omega)⟩
  refine ⟨(h _ (by simp)).1, fun files => ?_, fun files => ?_⟩
  · unfold genX25519
    rw [(h .x25519_private_key (by simp)).1, (h .x25519_public_key (by simp)).2]
    cases caps.ed25519 <;> simp [bind, Outcome.bind, pure, eq_comm]
  · unfold genEd25519
    rw [(h .ed25519_private_key (by simp)).1, (h .ed25519_public_key (by simp)).2]
    cases caps.ed25519 <;> simp [bind, Outcome.bind, pure, eq_comm]

/-- C45: the tool makes a certificate exactly from the file of a 32-byte public key of a known type and the file of an
Ed25519 private key (of at least 64 bytes); the file it writes is the chain of one certificate that states the given
times and level and that key, signed with the first 64 bytes of the private key. -/
theorem C45_create (caps : Caps) (sign : Bytes → Bytes → Bytes) (hs : ∀ m k, (sign m k).length = 64)
    (pubFile privFile file : Bytes) (times : Times) (level : UInt8) :
    createCertificate caps sign pubFile privFile times level = .ok file ↔
      caps.ed25519 = true ∧ ∃ type key priv, type ≠ .undefined ∧ key.length = 32 ∧ 64 ≤ priv.length ∧
        privFile.length ≤ 4096 ∧
        pubFile = SSP21.Spec.container ⟨Spec.keyEntry type, key⟩ ∧
        privFile = SSP21.Spec.container ⟨.ed25519_private_key, priv⟩ ∧
        file = Spec.chainFile [Spec.signed sign (Spec.body times level type key) priv] := by
  have final : ∀ type key priv, type ≠ PublicKeyType.undefined → key.length = 32 →
      ∀ body, body = SSP21.Spec.certificateBody (Spec.body times level type key) →
      ((toBuffer CertificateChain.codec [⟨sign body (priv.take 64), body.take (body.length % 65536)⟩] >>=
        fun chain => writeFile .certificate_chain chain) = .ok file ↔
        file = Spec.chainFile [Spec.signed sign (Spec.body times level type key) priv]) := by
    intro type key priv ht hk body hb
    subst hb
    have hl := bodyLength times level type key hk
    rw [hl, List.take_of_length_le (l := SSP21.Spec.certificateBody _) (by rw [hl]; decide)]
    have hsig := hs (SSP21.Spec.certificateBody (Spec.body times level type key)) (priv.take 64)
    rw [toBuffer_ok C05_chain _ ⟨by simp, by
      intro x hx
      simp only [List.mem_singleton] at hx
      subst hx
      simp only [hl, hsig]
      decide⟩]
    simp only [bind, Outcome.bind, writeFile]
    rw [toBuffer_ok C05_container]
    · simp [Spec.chainFile, Spec.signed, eq_comm]
    · refine ⟨by simp, ?_⟩
      simp only
      rw [chainLength _ hsig hl]
      omega
  unfold createCertificate
  constructor
  · intro h
    obtain ⟨d1, h1, h⟩ := (outcome_bind_ok ..).mp h
    obtain ⟨priv, h2, h⟩ := (outcome_bind_ok ..).mp h
    obtain ⟨d2, h3, h⟩ := (outcome_bind_ok ..).mp h
    obtain ⟨pub, h4, h⟩ := (outcome_bind_ok ..).mp h
    obtain ⟨type, h5, h⟩ := (outcome_bind_ok ..).mp h
    obtain ⟨body, h6, h⟩ := (outcome_bind_ok ..).mp h
    obtain ⟨sig, h7, h⟩ := (outcome_bind_ok ..).mp h
    obtain ⟨a1, a2, a3⟩ := (readContainer_ok privFile priv).mp ⟨_, h1, h2⟩
    obtain ⟨b1, b2, b3⟩ := (readContainer_ok pubFile pub).mp ⟨_, h3, h4⟩
    obtain ⟨c1, c2, c3⟩ := (getPublicKeyType_ok ..).mp h5
    obtain ⟨d1, d2, d3, d4⟩ := (calcSignature_ok ..).mp h7
    have hb := toBuffer_ok C05_certificate_body _ (bodyWF times level type pub.payload c1 c3)
    have hbody : body = SSP21.Spec.certificateBody (Spec.body times level type pub.payload) := by
      have := h6.symm.trans hb
      simpa using this
    subst d4
    refine ⟨d2, type, pub.payload, priv.payload, c1, c3, d3, a3, by rw [b2, ← c2], by rw [a2, ← d1],
      (final type pub.payload priv.payload c1 c3 body hbody).mp h⟩
  · rintro ⟨hc, type, key, priv, ht, hk, hp, hl, rfl, rfl, rfl⟩
    have hpl : priv.length ≤ 4096 := by
      simp only [SSP21.Spec.container, SSP21.Spec.field, List.length_append] at hl
      omega
    have hke : Spec.keyEntry type ≠ .undefined := by cases type <;> simp_all [Spec.keyEntry]
    have hkl : (SSP21.Spec.container ⟨Spec.keyEntry type, key⟩).length ≤ 4096 := by
      simp only [SSP21.Spec.container, SSP21.Spec.field, List.length_append, hk]
      rw [vlength_le _ (by omega)]
      simp
    obtain ⟨d1, h1, h2⟩ := (readContainer_ok _ ⟨.ed25519_private_key, priv⟩).mpr
      ⟨⟨by simp, by simp only; omega⟩, rfl, hl⟩
    obtain ⟨d2, h3, h4⟩ := (readContainer_ok _ ⟨Spec.keyEntry type, key⟩).mpr
      ⟨⟨hke, by simp only; omega⟩, rfl, hkl⟩
    refine (outcome_bind_ok ..).mpr ⟨d1, h1, (outcome_bind_ok ..).mpr ⟨_, h2, (outcome_bind_ok ..).mpr ⟨d2, h3,
      (outcome_bind_ok ..).mpr ⟨_, h4, (outcome_bind_ok ..).mpr ⟨type, ?_, (outcome_bind_ok ..).mpr
        ⟨_, toBuffer_ok C05_certificate_body _ (bodyWF times level type key ht hk), (outcome_bind_ok ..).mpr
          ⟨_, ?_, (final type key priv ht hk _ rfl).mpr rfl⟩⟩⟩⟩⟩⟩⟩
    · exact (getPublicKeyType_ok ..).mpr ⟨ht, rfl, hk⟩
    · exact (calcSignature_ok ..).mpr ⟨rfl, hc, hp, rfl⟩

/-- The tool reads beyond the end of a private key that is too short: its length is not checked. -/
theorem C45_short_key_faults (caps : Caps) (hc : caps.ed25519 = true) (sign : Bytes → Bytes → Bytes) (type : PublicKeyType)
    (ht : type ≠ .undefined) (key priv : Bytes) (hk : key.length = 32) (hp : priv.length < 64) (times : Times)
    (level : UInt8) :
    createCertificate caps sign (SSP21.Spec.container ⟨Spec.keyEntry type, key⟩)
      (SSP21.Spec.container ⟨.ed25519_private_key, priv⟩) times level = .fault := by
  have hke : Spec.keyEntry type ≠ .undefined := by cases type <;> simp_all [Spec.keyEntry]
  have hkl : (SSP21.Spec.container ⟨Spec.keyEntry type, key⟩).length ≤ 4096 := by
    simp only [SSP21.Spec.container, SSP21.Spec.field, List.length_append, hk]
    rw [vlength_le _ (by omega)]
    simp
  have hpl : (SSP21.Spec.container ⟨.ed25519_private_key, priv⟩).length ≤ 4096 := by
    simp only [SSP21.Spec.container, SSP21.Spec.field, List.length_append, List.length_cons, List.length_nil]
    rw [vlength_le _ (by omega)]
    omega
  obtain ⟨d1, h1, h2⟩ := (readContainer_ok _ ⟨.ed25519_private_key, priv⟩).mpr ⟨⟨by simp, by simp only; omega⟩, rfl, hpl⟩
  obtain ⟨d2, h3, h4⟩ := (readContainer_ok _ ⟨Spec.keyEntry type, key⟩).mpr ⟨⟨hke, by simp only; omega⟩, rfl, hkl⟩
  have h5 := (getPublicKeyType_ok ⟨Spec.keyEntry type, key⟩ type).mpr ⟨ht, rfl, hk⟩
  have h6 := toBuffer_ok C05_certificate_body _ (bodyWF times level type key ht hk)
  unfold createCertificate
  simp only [bind, Outcome.bind, h1, h2, h3, h4, h5]
  rw [show (⟨times.valid_after, times.valid_before, level, type, key, []⟩ : CertificateBody) =
    Spec.body times level type key from rfl, h6]
  simp [calcSignature, hc, hp]

/-- The public and the private key of a signer belong together: what is signed with the one verifies with the other. -/
def KeyPair (b : Backend) (sign : Bytes → Bytes → Bytes) (pub priv : Bytes) : Prop :=
  ∀ m, b.verifyRaw m (sign m (priv.take 64)) pub = true

theorem issued (b : Backend) (sign : Bytes → Bytes → Bytes) (hs : ∀ m k, (sign m k).length = 64)
    (parent child : CertificateBody) (priv : Bytes) (hp : parent.public_key_type = .Ed25519)
    (hk : parent.public_key.length = 32) (hkp : KeyPair b sign parent.public_key priv) (hw : child.WF)
    (h1 : parent.valid_after ≤ child.valid_after) (h2 : child.valid_before ≤ parent.valid_before)
    (h3 : child.signing_level < parent.signing_level) :
    SSP21.Spec.Issued b parent (Spec.signed sign child priv) child := by
  refine ⟨hp, by omega, hs _ _, ?_, rfl, hw, h1, h2, h3⟩
  rw [List.take_of_length_le (by omega)]
  exact hkp _

theorem readChainFile (sign : Bytes → Bytes → Bytes) (hs : ∀ m k, (sign m k).length = 64) (body : CertificateBody)
    (priv : Bytes) (hl : (SSP21.Spec.certificateBody body).length = 52) :
    Codec.readAll ContainerFile.codec (Spec.chainFile [Spec.signed sign body priv]) =
      .ok ⟨.certificate_chain, SSP21.Spec.chain [Spec.signed sign body priv]⟩ ∧
    Codec.readAll CertificateChain.codec (SSP21.Spec.chain [Spec.signed sign body priv]) =
      .ok [Spec.signed sign body priv] := by
  have hsig := hs (SSP21.Spec.certificateBody body) (priv.take 64)
  constructor
  · refine (C05_container.2.2.2 _ _).mpr ⟨⟨by simp, ?_⟩, rfl⟩
    simp only
    rw [chainLength _ hsig hl]
    decide
  · refine (C05_chain.2.2.2 _ _).mpr ⟨⟨by simp, ?_⟩, rfl⟩
    intro x hx
    simp only [List.mem_singleton] at hx
    subst hx
    simp only [Spec.signed, hl, hsig]
    decide

/-- C45: a certificate of level 0 for an X25519 key that the tool made with the private key of an authority is accepted
by a station that has the (self-signed, or however signed) certificate that the tool made for the public key of that
authority as its anchor, if the level of the authority is above 0 and the times lie within those of the authority. -/
theorem C45_direct_accepted (b : Backend) (caps : Caps) (sign : Bytes → Bytes → Bytes) (hs : ∀ m k, (sign m k).length = 64)
    (caPub caPriv caPrivFile anyPrivFile key : Bytes) (hcaPub : caPub.length = 32) (hkey : key.length = 32)
    (hca : caPrivFile = SSP21.Spec.container ⟨.ed25519_private_key, caPriv⟩)
    (hpair : KeyPair b sign caPub caPriv) (anchorTimes times : Times) (anchorLevel : UInt8) (hl : 0 < anchorLevel)
    (ht1 : anchorTimes.valid_after ≤ times.valid_after) (ht2 : times.valid_before ≤ anchorTimes.valid_before)
    (anchorFile certFile : Bytes)
    (h1 : createCertificate caps sign (SSP21.Spec.container ⟨.ed25519_public_key, caPub⟩) anyPrivFile anchorTimes anchorLevel
      = .ok anchorFile)
    (h2 : createCertificate caps sign (SSP21.Spec.container ⟨.x25519_public_key, key⟩) caPrivFile times 0 = .ok certFile) :
    ∃ h, CertHandler.mkIndustrial b caps anchorFile certFile = some h ∧
      h.validate b caps .industrial_certificates h.data = .ok key := by
  have hw : ∀ t k, t ≠ PublicKeyType.undefined → k.length = 32 → ∀ tm lv, (Spec.body tm lv t k).WF :=
    fun t k ht hk tm lv => bodyWF tm lv t k ht hk
  obtain ⟨hc, t1, k1, p1, ht, hk, hp, _, e1, e2, e3⟩ := (C45_create caps sign hs _ _ _ _ _).mp h1
  obtain ⟨_, t2, k2, p2, ht', hk', hp', hl2, e1', e2', e3'⟩ := (C45_create caps sign hs _ _ _ _ _).mp h2
  have inj : ∀ (c c' : ContainerFile), c.container_entry_type ≠ .undefined → c.payload.length < 2 ^ 32 →
      SSP21.Spec.container c = SSP21.Spec.container c' → c'.container_entry_type ≠ .undefined → c'.payload.length < 2 ^ 32 →
      c = c' := by
    intro c c' hc1 hc2 he hc1' hc2'
    have r1 := (C05_container.2.2.2 (SSP21.Spec.container c) c).mpr ⟨⟨hc1, hc2⟩, rfl⟩
    have r2 := (C05_container.2.2.2 (SSP21.Spec.container c) c').mpr ⟨⟨hc1', hc2'⟩, he⟩
    rw [r1] at r2
    simpa using r2
  have ke : ∀ t, t ≠ PublicKeyType.undefined → Spec.keyEntry t ≠ .undefined := by
    intro t ht; cases t <;> simp_all [Spec.keyEntry]
  have i1 := inj _ _ (by simp) (by rw [hcaPub]; decide) e1 (ke _ ht) (by rw [hk]; decide)
  have i2 := inj _ _ (by simp) (by rw [hkey]; decide) e1' (ke _ ht') (by rw [hk']; decide)
  simp only [ContainerFile.mk.injEq] at i1 i2
  obtain ⟨i1, rfl⟩ := i1
  obtain ⟨i2, rfl⟩ := i2
  have ht1e : t1 = .Ed25519 := by
    cases t1
    all_goals first | rfl | exact nomatch i1
  have ht2e : t2 = .X25519 := by
    cases t2
    all_goals first | rfl | exact nomatch i2
  subst ht1e ht2e
  have small : ∀ t p, (SSP21.Spec.container ⟨t, p⟩).length ≤ 4096 → p.length < 2 ^ 32 := by
    intro t p hl
    simp only [SSP21.Spec.container, SSP21.Spec.field, List.length_append] at hl
    omega
  subst hca
  have i3 := inj _ _ (by simp) (small _ _ hl2) e2' (by simp) (small _ _ (e2' ▸ hl2))
  simp only [ContainerFile.mk.injEq, true_and] at i3
  subst i3
  have hi := issued b sign hs (Spec.body anchorTimes anchorLevel .Ed25519 caPub) (Spec.body times 0 .X25519 key) caPriv rfl
    hk hpair (hw _ _ ht' hk' _ _) ht1 ht2 hl
  have hv : Chain.verify b caps (Spec.body anchorTimes anchorLevel .Ed25519 caPub)
      [Spec.signed sign (Spec.body times 0 .X25519 key) caPriv] = .ok (Spec.body times 0 .X25519 key) :=
    (C28_accept_iff ..).mpr ⟨hc, by simp, rfl, rfl, [_], (chainOfTrust_cons ..).mpr ⟨hi, chainOfTrust_nil ..⟩, rfl⟩
  have ra : readAnchorCert anchorFile = some (Spec.body anchorTimes anchorLevel .Ed25519 caPub) := by
    obtain ⟨c1, c2⟩ := readChainFile sign hs _ p1 (bodyLength anchorTimes anchorLevel .Ed25519 caPub hk)
    have c3 := (C05_certificate_body.2.2.2 _ _).mpr ⟨hw .Ed25519 caPub ht hk anchorTimes anchorLevel, rfl⟩
    unfold readAnchorCert
    rw [e3, c1]
    simp only [ne_eq, not_true_eq_false, if_false, c2]
    simp only [Spec.signed, c3]
  have rp : verifyPresentedChain b caps (Spec.body anchorTimes anchorLevel .Ed25519 caPub) certFile =
      some (SSP21.Spec.chain [Spec.signed sign (Spec.body times 0 .X25519 key) caPriv]) := by
    obtain ⟨c1, c2⟩ := readChainFile sign hs _ caPriv (bodyLength times 0 .X25519 key hk')
    unfold verifyPresentedChain
    rw [e3', c1]
    simp only [ne_eq, not_true_eq_false, if_false, c2]
    rw [hv]
  obtain ⟨_, c2⟩ := readChainFile sign hs _ caPriv (bodyLength times 0 .X25519 key hk')
  have hm : CertHandler.mkIndustrial b caps anchorFile certFile = some (.industrial
      (Spec.body anchorTimes anchorLevel .Ed25519 caPub)
      (SSP21.Spec.chain [Spec.signed sign (Spec.body times 0 .X25519 key) caPriv])) := by
    unfold CertHandler.mkIndustrial
    rw [ra]
    simp only
    rw [rp]
  refine ⟨_, hm, ?_⟩
  simp only [CertHandler.validate, CertHandler.data, ne_eq, not_true_eq_false, if_false, c2]
  rw [hv]
  rfl

theorem expectCertificateChain_ok (f : ContainerFile) (certs : List CertificateEnvelope) :
    expectCertificateChain f = .ok certs ↔ f.container_entry_type = .certificate_chain ∧
      (certs.length ≤ 6 ∧ ∀ x ∈ certs, x.signature.length < 2 ^ 32 ∧ x.certificate_body.length < 2 ^ 32) ∧
      f.payload = SSP21.Spec.chain certs := by
  unfold expectCertificateChain
  split
  · rename_i h
    simp only [reduceCtorEq, false_iff]
    rintro ⟨h1, _⟩
    exact h h1
  · rename_i h
    rw [parseOrThrow_ok]
    constructor
    · intro hr
      exact ⟨by simpa using h, (C05_chain.2.2.2 _ _).mp hr⟩
    · rintro ⟨_, h⟩
      exact (C05_chain.2.2.2 _ _).mpr h

/-- The files that the tool takes for the chain `certs`. -/
structure Spec.ChainInput (file : Bytes) (certs : List CertificateEnvelope) : Prop where
  content : file = Spec.chainFile certs
  size : file.length ≤ 4096
  count : certs.length ≤ 6

theorem flatMap_le (e : CertificateEnvelope) (certs : List CertificateEnvelope) (h : e ∈ certs) :
    (SSP21.Spec.envelope e).length ≤ (certs.flatMap SSP21.Spec.envelope).length := by
  induction certs with
  | nil => cases h
  | cons c cs ih =>
    rw [List.flatMap_cons, List.length_append]
    rcases List.mem_cons.mp h with rfl | h
    · omega
    · have := ih h
      omega

theorem Spec.ChainInput.small {file : Bytes} {certs : List CertificateEnvelope} (h : Spec.ChainInput file certs) :
    (certs.flatMap SSP21.Spec.envelope).length ≤ 4096 ∧ (SSP21.Spec.chain certs).length ≤ 4096 ∧
    ∀ x ∈ certs, x.signature.length < 2 ^ 32 ∧ x.certificate_body.length < 2 ^ 32 := by
  have h1 := h.size
  rw [h.content] at h1
  simp only [Spec.chainFile, SSP21.Spec.container, SSP21.Spec.field, List.length_append] at h1
  have h2 : (certs.flatMap SSP21.Spec.envelope).length ≤ 4096 := by
    have h3 : (certs.flatMap SSP21.Spec.envelope).length ≤ (SSP21.Spec.chain certs).length := by
      simp only [SSP21.Spec.chain, SSP21.Spec.listOf, List.length_append]
      omega
    omega
  refine ⟨h2, by omega, fun x hx => ?_⟩
  have := flatMap_le x certs hx
  simp only [SSP21.Spec.envelope, SSP21.Spec.field, List.length_append] at this
  omega

theorem readChain_ok (file : Bytes) (certs : List CertificateEnvelope) :
    (∃ d, secureRead file = .ok d ∧ (parseOrThrow ContainerFile.codec d).bind expectCertificateChain = .ok certs) ↔
      Spec.ChainInput file certs := by
  constructor
  · rintro ⟨d, h1, h2⟩
    obtain ⟨c, h3, h4⟩ := (outcome_bind_ok ..).mp h2
    obtain ⟨a1, a2, a3⟩ := (readContainer_ok file c).mp ⟨d, h1, h3⟩
    obtain ⟨b1, b2, b3⟩ := (expectCertificateChain_ok ..).mp h4
    refine ⟨?_, a3, b2.1⟩
    rw [a2, Spec.chainFile, ← b1, ← b3]
  · intro h
    obtain ⟨s1, s2, s3⟩ := h.small
    obtain ⟨d, h1, h2⟩ := (readContainer_ok file ⟨.certificate_chain, SSP21.Spec.chain certs⟩).mpr
      ⟨⟨by simp, by simp only; omega⟩, h.content, h.size⟩
    exact ⟨d, h1, (outcome_bind_ok ..).mpr ⟨_, h2, (expectCertificateChain_ok ..).mpr ⟨rfl, ⟨h.count, s3⟩, rfl⟩⟩⟩

theorem verifyChain_ok (b : Backend) (caps : Caps) (parent : CertificateBody) (chain : List CertificateEnvelope) :
    verifyChain b caps parent chain = .ok () ↔ ∃ leaf, Chain.verify b caps parent chain = .ok leaf := by
  unfold verifyChain
  split <;> simp_all

/-- C45: the tool appends the certificate of a second file to the chain of a first one exactly if that certificate is
properly issued by the last one of the chain and is a final one (level 0, X25519 key); the file it writes is the chain
with that certificate at the end. -/
theorem C45_append (b : Backend) (caps : Caps) (file1 file2 file : Bytes) :
    appendChains b caps file1 file2 = .ok file ↔
      caps.ed25519 = true ∧ ∃ init last env parent leaf,
        Spec.ChainInput file1 (init ++ [last]) ∧ Spec.ChainInput file2 [env] ∧
        parent.WF ∧ last.certificate_body = SSP21.Spec.certificateBody parent ∧
        SSP21.Spec.Issued b parent env leaf ∧ leaf.signing_level = 0 ∧ leaf.public_key_type = .X25519 ∧
        init.length ≤ 4 ∧ file = Spec.chainFile (init ++ [last, env]) := by
  have write : ∀ (init : List CertificateEnvelope) (last env : CertificateEnvelope),
      Spec.ChainInput file1 (init ++ [last]) → Spec.ChainInput file2 [env] → init.length ≤ 4 →
      (toBuffer CertificateChain.codec (init ++ [last] ++ [env]) >>= fun chain => writeFile .certificate_chain chain) =
        .ok (Spec.chainFile (init ++ [last, env])) := by
    intro init last env h1 h2 hl
    obtain ⟨a1, _, a3⟩ := h1.small
    obtain ⟨b1, _, b3⟩ := h2.small
    rw [toBuffer_ok C05_chain _ ⟨by simp; omega, by
      intro x hx
      rcases List.mem_append.mp hx with hx | hx
      · exact a3 x hx
      · exact b3 x hx⟩]
    simp only [bind, Outcome.bind, writeFile]
    rw [toBuffer_ok C05_container]
    · simp [Spec.chainFile]
    · refine ⟨by simp, ?_⟩
      simp only [SSP21.Spec.chain, SSP21.Spec.listOf, List.flatMap_append, List.length_append] at a1 b1 ⊢
      rw [vlength_le _ (by simp; omega)]
      omega
  constructor
  · intro h
    unfold appendChains at h
    obtain ⟨d1, h1, h⟩ := (outcome_bind_ok ..).mp h
    obtain ⟨chain1, h2, h⟩ := (outcome_bind_ok ..).mp h
    obtain ⟨d2, h3, h⟩ := (outcome_bind_ok ..).mp h
    obtain ⟨chain2, h4, h⟩ := (outcome_bind_ok ..).mp h
    have i1 := (readChain_ok file1 chain1).mp ⟨_, h1, h2⟩
    have i2 := (readChain_ok file2 chain2).mp ⟨_, h3, h4⟩
    split at h
    · cases h
    rename_i last hlast
    split at h
    · cases h
    rename_i hlen
    obtain ⟨parent, h5, h⟩ := (outcome_bind_ok ..).mp h
    obtain ⟨_, h6, h⟩ := (outcome_bind_ok ..).mp h
    split at h
    · cases h
    rename_i hcap
    obtain ⟨leaf, hv⟩ := (verifyChain_ok ..).mp h6
    obtain ⟨c1, _, c3, c4, bodies, c5, c6⟩ := (C28_accept_iff ..).mp hv
    obtain ⟨init, rfl⟩ : ∃ init, chain1 = init ++ [last] := by
      obtain ⟨init, hi⟩ := List.getLast?_eq_some_iff.mp hlast
      exact ⟨init, hi⟩
    obtain ⟨env, rfl⟩ : ∃ env, chain2 = [env] := List.length_eq_one_iff.mp (by simpa using hlen)
    have hb : bodies = [leaf] := by
      have := c5.1
      obtain ⟨x, rfl⟩ : ∃ x, bodies = [x] := List.length_eq_one_iff.mp (by simpa using this)
      simpa using c6
    subst hb
    have hi := ((chainOfTrust_cons ..).mp c5).1
    obtain ⟨p1, p2⟩ := (C05_certificate_body.2.2.2 _ _).mp ((parseOrThrow_ok ..).mp h5)
    have hl : init.length ≤ 4 := by simp at hcap; omega
    have := (write init last env i1 i2 hl).symm.trans h
    exact ⟨c1, init, last, env, parent, leaf, i1, i2, p1, p2, hi, c3, c4, hl, by simpa using this.symm⟩
  · rintro ⟨hc, init, last, env, parent, leaf, i1, i2, p1, p2, hi, c3, c4, hl, rfl⟩
    obtain ⟨d1, h1, h2⟩ := (readChain_ok file1 _).mpr i1
    obtain ⟨d2, h3, h4⟩ := (readChain_ok file2 _).mpr i2
    have h5 := (parseOrThrow_ok ..).mpr ((C05_certificate_body.2.2.2 last.certificate_body parent).mpr ⟨p1, p2⟩)
    have hv : Chain.verify b caps parent [env] = .ok leaf :=
      (C28_accept_iff ..).mpr ⟨hc, by simp, c3, c4, [leaf], (chainOfTrust_cons ..).mpr ⟨hi, chainOfTrust_nil ..⟩, rfl⟩
    have h6 := (verifyChain_ok ..).mpr ⟨leaf, hv⟩
    unfold appendChains
    refine (outcome_bind_ok ..).mpr ⟨d1, h1, (outcome_bind_ok ..).mpr ⟨_, h2, (outcome_bind_ok ..).mpr ⟨d2, h3,
      (outcome_bind_ok ..).mpr ⟨_, h4, ?_⟩⟩⟩⟩
    simp only [List.getLast?_append, List.getLast?_singleton, Option.some_or, List.length_cons, List.length_nil, Nat.zero_add,
      ne_eq, not_true_eq_false, if_false]
    refine (outcome_bind_ok ..).mpr ⟨_, h5, (outcome_bind_ok ..).mpr ⟨_, h6, ?_⟩⟩
    rw [if_neg (by simp; omega)]
    exact write init last env i1 i2 hl

theorem chainOfTrust_snoc (b : Backend) (certs : List CertificateEnvelope) : ∀ (anchor parent leaf : CertificateBody)
    (bodies : List CertificateBody) (env : CertificateEnvelope), SSP21.Spec.ChainOfTrust b anchor certs bodies →
    bodies.getLast? = some parent → SSP21.Spec.Issued b parent env leaf →
    SSP21.Spec.ChainOfTrust b anchor (certs ++ [env]) (bodies ++ [leaf]) := by
  induction certs with
  | nil =>
    intro anchor parent leaf bodies env h hg hi
    have : bodies = [] := by have := h.1; simpa using this
    subst this
    cases hg
  | cons c cs ih =>
    intro anchor parent leaf bodies env h hg hi
    cases bodies with
    | nil => cases hg
    | cons x xs =>
      have h' := (chainOfTrust_cons ..).mp h
      refine (chainOfTrust_cons ..).mpr ⟨h'.1, ?_⟩
      cases xs with
      | nil =>
        simp only [List.getLast?_singleton, Option.some.injEq] at hg
        subst hg
        have : cs = [] := by have := h'.2.1; simpa using this.symm
        subst this
        exact (chainOfTrust_cons ..).mpr ⟨hi, chainOfTrust_nil ..⟩
      | cons y ys => exact ih x parent leaf (y :: ys) env h'.2 (by simpa using hg) hi

theorem issued_last (b : Backend) (certs : List CertificateEnvelope) : ∀ (anchor : CertificateBody) (last : CertificateEnvelope)
    (bodies : List CertificateBody), SSP21.Spec.ChainOfTrust b anchor (certs ++ [last]) bodies →
    ∃ body, bodies.getLast? = some body ∧ body.WF ∧ last.certificate_body = SSP21.Spec.certificateBody body := by
  induction certs with
  | nil =>
    intro anchor last bodies h
    cases bodies with
    | nil => have := h.1; simp at this
    | cons x xs =>
      have h' := (chainOfTrust_cons ..).mp h
      have : xs = [] := by have := h'.2.1; simpa using this
      subst this
      exact ⟨x, rfl, h'.1.wellFormed, h'.1.encoded⟩
  | cons c cs ih =>
    intro anchor last bodies h
    cases bodies with
    | nil => have := h.1; simp at this
    | cons x xs =>
      have h' := (chainOfTrust_cons ..).mp h
      obtain ⟨body, h1, h2⟩ := ih x last xs h'.2
      refine ⟨body, ?_, h2⟩
      rw [List.getLast?_cons, h1]
      rfl

/-- C45: if the chain in the first file is a chain of trust from an anchor (to an authority), then what the tool makes by
appending a certificate to it is a file that every station with that anchor accepts. -/
theorem C45_append_accepted (b : Backend) (caps : Caps) (file1 file2 file : Bytes)
    (h : appendChains b caps file1 file2 = .ok file) (anchor : CertificateBody) (certs1 : List CertificateEnvelope)
    (bodies : List CertificateBody) (hf : Spec.ChainInput file1 certs1) (ht : SSP21.Spec.ChainOfTrust b anchor certs1 bodies) :
    ∃ presented, verifyPresentedChain b caps anchor file = some presented ∧
      ∃ key, (CertHandler.industrial anchor presented).validate b caps .industrial_certificates presented = .ok key := by
  obtain ⟨hc, init, last, env, parent, leaf, i1, i2, p1, p2, hi, c3, c4, hl, rfl⟩ := (C45_append ..).mp h
  have hcerts : certs1 = init ++ [last] := by
    obtain ⟨d1, a1, a2⟩ := (readChain_ok ..).mpr hf
    obtain ⟨d2, b1, b2⟩ := (readChain_ok ..).mpr i1
    rw [a1] at b1
    cases b1
    rw [a2] at b2
    simpa using b2
  subst hcerts
  obtain ⟨body, q1, q2, q3⟩ := issued_last b init anchor last bodies ht
  have hbody : body = parent := by
    have r1 := (C05_certificate_body.2.2.2 last.certificate_body body).mpr ⟨q2, q3⟩
    have r2 := (C05_certificate_body.2.2.2 last.certificate_body parent).mpr ⟨p1, p2⟩
    rw [r1] at r2
    simpa using r2
  subst hbody
  have hv : Chain.verify b caps anchor (init ++ [last, env]) = .ok leaf := by
    refine (C28_accept_iff ..).mpr ⟨hc, by simp, c3, c4, bodies ++ [leaf], ?_, by simp⟩
    have := chainOfTrust_snoc b _ anchor body leaf bodies env ht q1 hi
    simpa using this
  obtain ⟨a1, _, a3⟩ := i1.small
  obtain ⟨b1, _, b3⟩ := i2.small
  have hw : (init ++ [last, env]).length ≤ 6 ∧
      ∀ x ∈ init ++ [last, env], x.signature.length < 2 ^ 32 ∧ x.certificate_body.length < 2 ^ 32 := by
    refine ⟨by simp; omega, ?_⟩
    intro x hx
    rw [show init ++ [last, env] = (init ++ [last]) ++ [env] by simp] at hx
    rcases List.mem_append.mp hx with hx | hx
    · exact a3 x hx
    · exact b3 x hx
  have r1 := (C05_chain.2.2.2 _ _).mpr ⟨hw, rfl⟩
  have r2 := (C05_container.2.2.2 (Spec.chainFile (init ++ [last, env]))
    ⟨.certificate_chain, SSP21.Spec.chain (init ++ [last, env])⟩).mpr ⟨⟨by simp, by
      simp only [SSP21.Spec.chain, SSP21.Spec.listOf, List.flatMap_append, List.length_append,
        show init ++ [last, env] = (init ++ [last]) ++ [env] by simp] at a1 b1 ⊢
      rw [vlength_le _ (by simp; omega)]
      omega⟩, rfl⟩
  have hp : verifyPresentedChain b caps anchor (Spec.chainFile (init ++ [last, env])) =
      some (SSP21.Spec.chain (init ++ [last, env])) := by
    unfold verifyPresentedChain
    rw [r2]
    simp only [ne_eq, not_true_eq_false, if_false]
    rw [r1]
    simp only
    rw [hv]
  refine ⟨_, hp, leaf.public_key, ?_⟩
  exact (C28_handler b caps .industrial_certificates _ leaf.public_key).1 anchor _ |>.mpr
    ⟨rfl, _, leaf, hw, rfl, hv, rfl⟩

/-- The certificate files that can be made with the tool alone. -/
inductive Made (b : Backend) (caps : Caps) (sign : Bytes → Bytes → Bytes) : Bytes → Prop
  | create {pubFile privFile file : Bytes} {times : Times} {level : UInt8} :
      createCertificate caps sign pubFile privFile times level = .ok file → Made b caps sign file
  | append {file1 file2 file : Bytes} : Made b caps sign file1 → Made b caps sign file2 →
      appendChains b caps file1 file2 = .ok file → Made b caps sign file

/-- A limitation of the tool: because what is appended must be a final certificate, no chain of more than two
certificates can be made with it, although chains of up to six are accepted. -/
theorem C45_at_most_two (b : Backend) (caps : Caps) (sign : Bytes → Bytes → Bytes) (hs : ∀ m k, (sign m k).length = 64)
    (file : Bytes) (h : Made b caps sign file) (certs : List CertificateEnvelope) (hf : Spec.ChainInput file certs) :
    certs.length ≤ 2 := by
  have inj : ∀ {f c1 c2}, Spec.ChainInput f c1 → Spec.ChainInput f c2 → c1 = c2 := by
    intro f c1 c2 h1 h2
    obtain ⟨d1, a1, a2⟩ := (readChain_ok ..).mpr h1
    obtain ⟨d2, b1, b2⟩ := (readChain_ok ..).mpr h2
    rw [a1] at b1
    cases b1
    rw [a2] at b2
    simpa using b2
  suffices hx : ∀ certs, Spec.ChainInput file certs → certs.length = 1 ∨ (certs.length = 2 ∧ ∀ last, certs.getLast? = some last →
      ∃ leaf, leaf.public_key_type = PublicKeyType.X25519 ∧ leaf.WF ∧
        last.certificate_body = SSP21.Spec.certificateBody leaf) by
    rcases hx certs hf with h | h <;> omega
  clear hf certs
  induction h with
  | create hc =>
    intro certs hf
    obtain ⟨_, t, k, p, _, hk, _, _, _, _, e⟩ := (C45_create caps sign hs _ _ _ _ _).mp hc
    have i : Spec.ChainInput _ _ := ⟨e, by
      rw [e]
      simp only [Spec.chainFile, SSP21.Spec.container, SSP21.Spec.field, List.length_append]
      rw [chainLength _ (hs _ _) (bodyLength _ _ _ _ hk)]
      simp [SSP21.Spec.vlength], by simp⟩
    rw [inj hf i]
    exact .inl rfl
  | append h1 h2 ha ih1 ih2 =>
    intro certs hf
    obtain ⟨hc, init, last, env, parent, leaf, i1, i2, p1, p2, hi, c3, c4, hl, rfl⟩ := (C45_append ..).mp ha
    have hcerts : certs = init ++ [last, env] := by
      have r := (C05_container.2.2.2 (Spec.chainFile certs) ⟨.certificate_chain, SSP21.Spec.chain certs⟩).mpr ⟨⟨by simp, by
        have := hf.small.2.1; simp only; omega⟩, rfl⟩
      obtain ⟨a1, _, a3⟩ := i1.small
      obtain ⟨b1, _, b3⟩ := i2.small
      have hw : (init ++ [last, env]).length ≤ 6 ∧
          ∀ x ∈ init ++ [last, env], x.signature.length < 2 ^ 32 ∧ x.certificate_body.length < 2 ^ 32 := by
        refine ⟨by simp; omega, ?_⟩
        intro x hx
        rw [show init ++ [last, env] = (init ++ [last]) ++ [env] by simp] at hx
        rcases List.mem_append.mp hx with hx | hx
        · exact a3 x hx
        · exact b3 x hx
      exact inj hf ⟨rfl, hf.size, hw.1⟩
    subst hcerts
    rcases ih1 _ i1 with h | ⟨h, hx⟩
    · right
      have : init = [] := by
        simp at h
        exact h
      subst this
      refine ⟨rfl, fun l hl => ?_⟩
      simp at hl
      subst hl
      exact ⟨leaf, c4, hi.wellFormed, hi.encoded⟩
    · exfalso
      obtain ⟨leaf', q1, q2, q3⟩ := hx last (by simp)
      have r1 := (C05_certificate_body.2.2.2 last.certificate_body leaf').mpr ⟨q2, q3⟩
      have r2 := (C05_certificate_body.2.2.2 last.certificate_body parent).mpr ⟨p1, p2⟩
      rw [r1] at r2
      simp at r2
      subst r2
      have := hi.authority
      rw [q1] at this
      cases this

/-! ### Examples (toy signatures) -/

namespace Example
open ChainExample

/-- A private key of 64 bytes: the public key, twice (toy signatures are made with the public key). -/
def priv (pub : Bytes) : Bytes := pub ++ pub
def toySign (m key : Bytes) : Bytes := ChainExample.sign m (key.take 32)
def pubFile (body : CertificateBody) : Bytes := SSP21.Spec.container ⟨Spec.keyEntry body.public_key_type, body.public_key⟩
def privFile (body : CertificateBody) : Bytes := SSP21.Spec.container ⟨.ed25519_private_key, priv body.public_key⟩
def make (body signer : CertificateBody) : Outcome Bytes :=
  createCertificate ChainExample.caps toySign (pubFile body) (privFile signer) ⟨body.valid_after, body.valid_before⟩
    body.signing_level
def file (o : Outcome Bytes) : Bytes := match o with | .ok f => f | _ => []

/-- Toy signatures have the length that the theorems require. -/
example (m k : Bytes) : (toySign m k).length = 64 := by
  simp [toySign, ChainExample.sign, Toy.pad]

/-- The keys of the anchor are a pair in the sense of C45_direct_accepted. -/
example : KeyPair Toy.backend toySign anchor.public_key (priv anchor.public_key) := by
  intro m
  have h : ∀ l k : Bytes, Toy.pad (Toy.pad l ++ k) = Toy.pad l := by
    intro l k
    have h1 : ∀ l, (Toy.pad l).length = 32 := Toy.pad_length
    rw [show Toy.pad (Toy.pad l ++ k) = ((Toy.pad l ++ k) ++ List.replicate 32 0).take 32 from rfl, List.append_assoc,
      List.take_append_of_le_length (by rw [h1]; decide), List.take_of_length_le (by rw [h1]; decide)]
  have h2 : (priv anchor.public_key).take 64 = priv anchor.public_key := rfl
  have h3 : (priv anchor.public_key).take 32 = anchor.public_key := rfl
  simp only [Toy.backend, toySign, h2, h3, ChainExample.sign, h, decide_true]

/-- The anchor, an intermediate certificate and a final one are made; the last two are put into a chain; a station can be
configured with the anchor and that chain. -/
example : (CertHandler.mkIndustrial Toy.backend ChainExample.caps (file (make anchor anchor))
    (file (appendChains Toy.backend ChainExample.caps (file (make mid anchor)) (file (make leaf mid))))).isSome = true := by
  decide +kernel
/-- A final certificate directly under the anchor, as in C45_direct_accepted. -/
example : (CertHandler.mkIndustrial Toy.backend ChainExample.caps (file (make anchor anchor))
    (file (make leaf anchor))).isSome = true := by decide +kernel
/-- An intermediate certificate cannot be appended (an anchor of level 3 would allow it). -/
example : appendChains Toy.backend ChainExample.caps (file (make { anchor with signing_level := 3 } anchor))
    (file (make mid anchor)) = .throw := by decide +kernel

end Example

end SSP21.Tool
