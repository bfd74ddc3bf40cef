import Verif.Chain
import Verif.Props.Codec
import Verif.Toy
/-
  Property C28: acceptance of certificate chains.
-/
namespace SSP21

namespace Spec

/-- `child` is the certificate in the envelope `env`, and it is properly issued by `parent`: the parent holds
an Ed25519 key, the 64-byte signature over the certificate's bytes verifies under that key, the bytes are the
encoding of `child`, the child is valid within the parent's validity interval, and its signing level is
smaller than the parent's. -/
structure Issued (b : Backend) (parent : CertificateBody) (env : CertificateEnvelope) (child : CertificateBody) :
    Prop where
  authority : parent.public_key_type = .Ed25519
  keyLength : 32 ≤ parent.public_key.length
  sigLength : env.signature.length = 64
  signed : b.verifyRaw env.certificate_body env.signature (parent.public_key.take 32) = true
  encoded : env.certificate_body = Spec.certificateBody child
  wellFormed : child.WF
  notBefore : parent.valid_after ≤ child.valid_after
  notAfter : child.valid_before ≤ parent.valid_before
  level : child.signing_level < parent.signing_level

/-- The envelopes hold the certificates `bodies`, each issued by its predecessor, the first one by the trust
anchor. -/
def ChainOfTrust (b : Backend) (anchor : CertificateBody) (certs : List CertificateEnvelope)
    (bodies : List CertificateBody) : Prop :=
  bodies.length = certs.length ∧
  ∀ (i : Nat) (env : CertificateEnvelope) (parent child : CertificateBody), certs[i]? = some env → (anchor :: bodies)[i]? = some parent → bodies[i]? = some child →
    Issued b parent env child

end Spec

theorem chainOfTrust_nil (b : Backend) (anchor : CertificateBody) : Spec.ChainOfTrust b anchor [] [] := by
  refine ⟨rfl, ?_⟩
  intro i env parent child h
  simp at h

theorem chainOfTrust_cons (b : Backend) (anchor : CertificateBody) (c : CertificateEnvelope)
    (cs : List CertificateEnvelope) (x : CertificateBody) (xs : List CertificateBody) :
    Spec.ChainOfTrust b anchor (c :: cs) (x :: xs) ↔
      Spec.Issued b anchor c x ∧ Spec.ChainOfTrust b x cs xs := by
  constructor
  · intro ⟨hl, h⟩
    refine ⟨h 0 c anchor x rfl rfl rfl, by simpa using hl, ?_⟩
    intro i env parent child h1 h2 h3
    exact h (i + 1) env parent child (by simpa using h1) (by simpa using h2) (by simpa using h3)
  · intro ⟨h0, hl, h⟩
    refine ⟨by simp [hl], ?_⟩
    intro i env parent child h1 h2 h3
    cases i with
    | zero =>
      simp at h1 h2 h3
      subst h1 h2 h3
      exact h0
    | succ i => exact h i env parent child (by simpa using h1) (by simpa using h2) (by simpa using h3)

theorem verifyPair_iff (b : Backend) (caps : Caps) (parent : CertificateBody) (env : CertificateEnvelope)
    (child : CertificateBody) :
    verifyPair b caps parent env = .ok child ↔ caps.ed25519 = true ∧ Spec.Issued b parent env child := by
  have hread := (C05_certificate_body).2.2.2 env.certificate_body child
  constructor
  · intro h
    unfold verifyPair tryGetDsaInfo at h
    split at h
    · cases h
    rename_i sigLen hd
    split at hd
    · rename_i ht
      split at hd
      · rename_i hc
        cases hd
        split at h
        · cases h
        rename_i hl
        simp only [ne_eq, Decidable.not_not] at hl
        split at h
        · cases h
        · cases h
        rename_i hv
        split at h
        · cases h
        rename_i body hr
        split at h
        · cases h
        rename_i h1
        split at h
        · cases h
        rename_i h2
        split at h
        · cases h
        rename_i h3
        cases h
        have hr' := hread.mp hr
        unfold Backend.verifyEd25519 at hv
        split at hv
        · cases hv
        rename_i hk
        simp only [not_or, Nat.not_lt] at hk
        simp only [Except.ok.injEq] at hv
        rw [List.take_of_length_le (by omega)] at hv
        exact ⟨hc, ht, hk.2, hl.symm, hv, hr'.2, hr'.1, UInt64.not_lt.mp h1, UInt64.not_lt.mp h2, UInt8.not_le.mp h3⟩
      · cases hd
    · cases hd
  · intro ⟨hc, hi⟩
    have hr := hread.mpr ⟨hi.wellFormed, hi.encoded⟩
    unfold verifyPair tryGetDsaInfo
    simp only [hi.authority, hc, if_true]
    rw [if_neg (by simp [hi.sigLength])]
    unfold Backend.verifyEd25519
    rw [if_neg (by have := hi.sigLength; have := hi.keyLength; omega),
      List.take_of_length_le (by have := hi.sigLength; omega), hi.signed]
    simp only [hr]
    rw [if_neg (UInt64.not_lt.mpr hi.notBefore), if_neg (UInt64.not_lt.mpr hi.notAfter),
      if_neg (UInt8.not_le.mpr hi.level)]

theorem verifyLoop_iff (b : Backend) (caps : Caps) (certs : List CertificateEnvelope) :
    ∀ (anchor last : CertificateBody), certs ≠ [] →
    (verifyLoop b caps anchor certs = .ok last ↔
      caps.ed25519 = true ∧ ∃ bodies, Spec.ChainOfTrust b anchor certs bodies ∧ bodies.getLast? = some last) := by
  induction certs with
  | nil => intro _ _ h; exact absurd rfl h
  | cons c cs ih =>
    intro anchor last _
    simp only [verifyLoop]
    constructor
    · intro h
      split at h
      · cases h
      rename_i child hp
      obtain ⟨hc, hi⟩ := (verifyPair_iff b caps anchor c child).mp hp
      refine ⟨hc, ?_⟩
      by_cases hcs : cs = []
      · subst hcs
        simp only [verifyLoop, Except.ok.injEq] at h
        subst h
        exact ⟨[child], (chainOfTrust_cons ..).mpr ⟨hi, chainOfTrust_nil ..⟩, rfl⟩
      · obtain ⟨_, bodies, h1, h2⟩ := (ih child last hcs).mp h
        refine ⟨child :: bodies, (chainOfTrust_cons ..).mpr ⟨hi, h1⟩, ?_⟩
        rw [List.getLast?_cons, h2]; rfl
    · intro ⟨hc, bodies, h1, h2⟩
      cases bodies with
      | nil => simp at h2
      | cons x xs =>
        rw [chainOfTrust_cons] at h1
        rw [(verifyPair_iff b caps anchor c x).mpr ⟨hc, h1.1⟩]
        by_cases hcs : cs = []
        · subst hcs
          have : xs = [] := by have := h1.2.1; simpa using this
          subst this
          simp at h2
          simp [verifyLoop, h2]
        · refine (ih x last hcs).mpr ⟨hc, xs, h1.2, ?_⟩
          have hx : xs ≠ [] := by
            intro h; have := h1.2.1; rw [h] at this; simp at this; exact hcs (List.length_eq_zero_iff.mp this.symm)
          rw [List.getLast?_cons] at h2
          cases hg : xs.getLast? with
          | none => simp at hg; exact absurd hg hx
          | some y => rw [hg] at h2; simpa using h2

/-! ## C28 -/

/-- A chain is accepted, with `leaf` as the certificate of the other party, exactly when it is a non-empty
unbroken chain of trust from the anchor to `leaf`, which is an end-entity certificate (level 0) for a key
agreement key. -/
theorem C28_accept_iff (b : Backend) (caps : Caps) (anchor : CertificateBody) (certs : List CertificateEnvelope)
    (leaf : CertificateBody) :
    Chain.verify b caps anchor certs = .ok leaf ↔
      caps.ed25519 = true ∧ certs ≠ [] ∧ leaf.signing_level = 0 ∧ leaf.public_key_type = .X25519 ∧
      ∃ bodies, Spec.ChainOfTrust b anchor certs bodies ∧ bodies.getLast? = some leaf := by
  unfold Chain.verify
  by_cases hn : certs = []
  · subst hn; simp
  rw [if_neg (by simpa using hn)]
  constructor
  · intro h
    split at h
    · cases h
    rename_i last hl
    split at h
    · cases h
    rename_i h0
    split at h
    · cases h
    rename_i hk
    cases h
    obtain ⟨hc, hb⟩ := (verifyLoop_iff b caps certs anchor leaf hn).mp hl
    refine ⟨hc, hn, by simpa using h0, ?_, hb⟩
    unfold isDhKey at hk
    split at hk
    · assumption
    · simp at hk
  · intro ⟨hc, _, h0, hk, hb⟩
    rw [(verifyLoop_iff b caps certs anchor leaf hn).mpr ⟨hc, hb⟩]
    simp [h0, isDhKey, hk]

theorem chain_bounds (b : Backend) (certs : List CertificateEnvelope) : ∀ (anchor leaf : CertificateBody)
    (bodies : List CertificateBody), Spec.ChainOfTrust b anchor certs bodies → bodies.getLast? = some leaf →
    anchor.valid_after ≤ leaf.valid_after ∧ leaf.valid_before ≤ anchor.valid_before ∧
    certs.length + leaf.signing_level.toNat ≤ anchor.signing_level.toNat := by
  induction certs with
  | nil => intro anchor leaf bodies ⟨hl, _⟩ hg; simp at hl; subst hl; simp at hg
  | cons c cs ih =>
    intro anchor leaf bodies hc hg
    cases bodies with
    | nil => simp at hg
    | cons x xs =>
      rw [chainOfTrust_cons] at hc
      have hlev := UInt8.lt_iff_toNat_lt.mp hc.1.level
      by_cases hx : xs = []
      · subst hx
        have : cs = [] := by have := hc.2.1; simpa using this.symm
        subst this
        simp at hg; subst hg
        refine ⟨hc.1.notBefore, hc.1.notAfter, ?_⟩
        simp; omega
      · have hg' : xs.getLast? = some leaf := by
          rw [List.getLast?_cons] at hg
          cases hy : xs.getLast? with
          | none => simp at hy; exact absurd hy hx
          | some y => rw [hy] at hg; simpa using hg
        obtain ⟨h1, h2, h3⟩ := ih x leaf xs hc.2 hg'
        refine ⟨UInt64.le_trans hc.1.notBefore h1, UInt64.le_trans h2 hc.1.notAfter, ?_⟩
        simp; omega

/-- Consequences for the accepted certificate: it was valid only within the anchor's validity interval, and
the chain is no longer than the anchor's signing level allows (so never longer than 255). -/
theorem C28_bounds (b : Backend) (caps : Caps) (anchor leaf : CertificateBody) (certs : List CertificateEnvelope)
    (h : Chain.verify b caps anchor certs = .ok leaf) :
    anchor.valid_after ≤ leaf.valid_after ∧ leaf.valid_before ≤ anchor.valid_before ∧
    certs.length ≤ anchor.signing_level.toNat := by
  obtain ⟨_, _, _, _, bodies, h1, h2⟩ := (C28_accept_iff ..).mp h
  obtain ⟨h3, h4, h5⟩ := chain_bounds b certs anchor leaf bodies h1 h2
  exact ⟨h3, h4, by omega⟩

/-- Every certificate an anchor vouches for is signed: changing the accepted certificates in any way requires
a signature that verifies, over the changed bytes, under the key of the preceding certificate; the first one
under the anchor's key. In particular a party without any signature valid under the anchor's key cannot
present an acceptable chain. -/
theorem C28_no_chain_without_anchor_signature (b : Backend) (caps : Caps) (anchor : CertificateBody)
    (hno : ∀ m sig, b.verifyRaw m sig (anchor.public_key.take 32) = false) (certs : List CertificateEnvelope)
    (leaf : CertificateBody) : Chain.verify b caps anchor certs ≠ .ok leaf := by
  intro h
  obtain ⟨_, hn, _, _, bodies, h1, h2⟩ := (C28_accept_iff ..).mp h
  cases certs with
  | nil => exact hn rfl
  | cons c cs =>
    cases bodies with
    | nil => simp at h2
    | cons x xs =>
      have := ((chainOfTrust_cons ..).mp h1).1.signed
      rw [hno] at this
      cases this

/-- The certificate handler accepts the data of a peer, and returns a key, exactly when the mode is the one it
implements and the data is the encoding of an acceptable chain whose last certificate holds that key; a
handler with a pre-shared key accepts only empty data and returns that key. -/
theorem C28_handler (b : Backend) (caps : Caps) (mode : HandshakeMode) (data key : Bytes) :
    (∀ anchor presented, (CertHandler.industrial anchor presented).validate b caps mode data = .ok key ↔
      mode = .industrial_certificates ∧ ∃ certs leaf,
        (certs.length ≤ 6 ∧ ∀ x ∈ certs, x.signature.length < 2 ^ 32 ∧ x.certificate_body.length < 2 ^ 32) ∧
        data = Spec.chain certs ∧ Chain.verify b caps anchor certs = .ok leaf ∧ leaf.public_key = key) ∧
    (∀ remote, (CertHandler.preshared remote).validate b caps mode data = .ok key ↔
      mode = .public_keys ∧ data = [] ∧ key = remote) := by
  constructor
  · intro anchor presented
    unfold CertHandler.validate
    constructor
    · intro h
      simp only at h
      split at h
      · cases h
      rename_i hm
      split at h
      · cases h
      rename_i chain hr
      split at h
      · cases h
      rename_i leaf hv
      cases h
      obtain ⟨hw, hd⟩ := ((C05_chain).2.2.2 data chain).mp hr
      exact ⟨by simpa using hm, chain, leaf, hw, hd, hv, rfl⟩
    · intro ⟨hm, certs, leaf, hw, hd, hv, hk⟩
      have hr := ((C05_chain).2.2.2 data certs).mpr ⟨hw, hd⟩
      simp only [hm, ne_eq, not_true_eq_false, if_false]
      rw [hr]
      simp only [hv, hk]
  · intro remote
    unfold CertHandler.validate
    by_cases hm : mode = .public_keys
    · by_cases hd : data = []
      · simp [hm, hd, eq_comm]
      · simp [hm, hd]
    · simp [hm]

/-- A handler built from files holds the one certificate of the anchor file as its anchor and presents to
others only a chain that it would accept itself. -/
theorem C28_own_chain_is_acceptable (b : Backend) (caps : Caps) (anchorFile chainFile : Bytes) (h : CertHandler)
    (hh : CertHandler.mkIndustrial b caps anchorFile chainFile = some h) :
    ∃ anchor key, h.mode = .industrial_certificates ∧ h.validate b caps .industrial_certificates h.data = .ok key ∧
      (∃ sig, anchorFile = Spec.container ⟨.certificate_chain, Spec.chain [⟨sig, Spec.certificateBody anchor⟩]⟩) ∧
      h = .industrial anchor h.data ∧ chainFile = Spec.container ⟨.certificate_chain, h.data⟩ := by
  unfold CertHandler.mkIndustrial at hh
  split at hh
  · cases hh
  rename_i anchor ha
  split at hh
  · cases hh
  rename_i p hp
  cases hh
  unfold verifyPresentedChain at hp
  split at hp
  · cases hp
  rename_i file hf
  split at hp
  · cases hp
  rename_i ht
  split at hp
  · cases hp
  rename_i chain hc
  split at hp
  · cases hp
  rename_i leaf hv
  cases hp
  have hfile := ((C05_container).2.2.2 chainFile file).mp hf
  have hch := ((C05_chain).2.2.2 file.payload chain).mp hc
  refine ⟨anchor, leaf.public_key, rfl, ?_, ?_, rfl, ?_⟩
  · exact (C28_handler b caps .industrial_certificates file.payload leaf.public_key).1 anchor file.payload |>.mpr
      ⟨rfl, chain, leaf, hch.1, hch.2, hv, rfl⟩
  · unfold readAnchorCert at ha
    split at ha
    · cases ha
    rename_i afile haf
    split at ha
    · cases ha
    rename_i hat
    split at ha
    · cases ha
    rename_i achain hac
    split at ha
    · rename_i env
      split at ha
      · cases ha
      rename_i body hb
      cases ha
      have h1 := ((C05_container).2.2.2 anchorFile afile).mp haf
      have h2 := ((C05_chain).2.2.2 afile.payload [env]).mp hac
      have h3 := ((C05_certificate_body).2.2.2 env.certificate_body anchor).mp hb
      refine ⟨env.signature, ?_⟩
      rw [h1.2, ← h3.2]
      congr 1
      have : afile.container_entry_type = .certificate_chain := by simpa using hat
      rw [← this, ← h2.2]
    · cases ha
  · rw [hfile.2]
    congr 1
    have : file.container_entry_type = .certificate_chain := by simpa using ht
    simp only [CertHandler.data]
    rw [← this]

/-- A finding: the length of a signer's key is never checked. If an authority issued a certificate with a
level above 0 and an Ed25519 key shorter than 32 bytes, a chain through it makes the verifier read beyond the
end of that key (`fault`), for every signature of 64 bytes. -/
theorem C28_short_authority_key_faults (b : Backend) (caps : Caps) (hc : caps.ed25519 = true)
    (anchor mid : CertificateBody) (env env' : CertificateEnvelope) (rest : List CertificateEnvelope)
    (hi : Spec.Issued b anchor env mid) (ht : mid.public_key_type = .Ed25519) (hk : mid.public_key.length < 32)
    (hs : env'.signature.length = 64) :
    Chain.verify b caps anchor (env :: env' :: rest) = .error .fault := by
  have h1 := (verifyPair_iff b caps anchor env mid).mpr ⟨hc, hi⟩
  have h2 : verifyPair b caps mid env' = .error .fault := by
    unfold verifyPair tryGetDsaInfo Backend.verifyEd25519
    simp [ht, hc, hs, hk]
  simp [Chain.verify, verifyLoop, h1, h2]

/-! ### A concrete chain of length two (toy signatures) that is accepted -/

namespace ChainExample

def anchor : CertificateBody := ⟨10, 100, 2, .Ed25519, List.replicate 32 1, []⟩
def mid : CertificateBody := ⟨20, 90, 1, .Ed25519, List.replicate 32 2, []⟩
def leaf : CertificateBody := ⟨20, 80, 0, .X25519, List.replicate 32 3, []⟩
/-- the toy signature of `m` under `key` -/
def sign (m key : Bytes) : Bytes :=
  Toy.pad (List.zipWith (· + ·) (Toy.pad m) (Toy.pad key)) ++ List.replicate 32 0
def issue (body : CertificateBody) (signer : CertificateBody) : CertificateEnvelope :=
  ⟨sign (Spec.certificateBody body) signer.public_key, Spec.certificateBody body⟩
def caps : Caps := ⟨true, true, true, true⟩

/-- The chain is accepted. -/
example : Chain.verify Toy.backend caps anchor [issue mid anchor, issue leaf mid] = .ok leaf := by decide +kernel
/-- Without the intermediate certificate it is not. -/
example : Chain.verify Toy.backend caps anchor [issue leaf mid] = .error (.err .authentication_error) := by
  decide +kernel
/-- An intermediate certificate is not acceptable as the last one. -/
example : Chain.verify Toy.backend caps anchor [issue mid anchor] = .error (.err .bad_certificate_chain) := by
  decide +kernel
/-- The accepted chain satisfies the specification. -/
example : ∃ bodies, Spec.ChainOfTrust Toy.backend anchor [issue mid anchor, issue leaf mid] bodies ∧
    bodies.getLast? = some leaf :=
  ((C28_accept_iff Toy.backend caps anchor _ leaf).mp (by decide +kernel)).2.2.2.2
/-- A certificate with a short authority key, as in C28_short_authority_key_faults. -/
example : Chain.verify Toy.backend caps anchor
    [issue { mid with public_key := [1, 2, 3] } anchor, issue leaf mid] = .error .fault := by decide +kernel
/-- A handler is built from files. -/
example : (CertHandler.mkIndustrial Toy.backend caps
    (Spec.container ⟨.certificate_chain, Spec.chain [⟨[], Spec.certificateBody anchor⟩]⟩)
    (Spec.container ⟨.certificate_chain, Spec.chain [issue mid anchor, issue leaf mid]⟩)).isSome = true := by
  decide +kernel

end ChainExample

end SSP21
