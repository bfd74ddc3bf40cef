import Verif.Props.Robust
/-
  Property C26: the responder's answers to handshake requests.
-/
namespace SSP21.Crypto

namespace Spec

/-- What is wrong with the algorithms a request asks for, and the code for it. -/
inductive AlgorithmFault (caps : Caps) (spec : CryptoSpec) : HandshakeError → Prop
  | hash : ¬ (spec.handshake_hash = .sha256 ∧ caps.sha256 = true) → AlgorithmFault caps spec .unsupported_handshake_hash
  | kdf : ¬ (spec.handshake_kdf = .hkdf_sha256 ∧ caps.sha256 = true) → AlgorithmFault caps spec .unsupported_handshake_kdf
  | nonceMode : ¬ (spec.session_nonce_mode = .strict_increment ∨ spec.session_nonce_mode = .greater_than_last_rx) →
      AlgorithmFault caps spec .unsupported_nonce_mode
  | sessionMode : ¬ (spec.session_crypto_mode = .hmac_sha256_16 ∧ caps.sha256 = true ∨
        spec.session_crypto_mode = .aes_256_gcm ∧ caps.aesGcm = true) →
      AlgorithmFault caps spec .unsupported_session_mode

/-- What is wrong with a certificate, and the code for it: the issuer holds no key for signatures or the signature
has the wrong length; the signature does not verify; the bytes are no certificate; the validity interval is not
contained in the issuer's or the level is not below the issuer's. -/
inductive LinkFault (b : Backend) (caps : Caps) (parent : CertificateBody) (env : CertificateEnvelope) :
    HandshakeError → Prop
  | issuer : ¬ (parent.public_key_type = .Ed25519 ∧ caps.ed25519 = true) → LinkFault b caps parent env .bad_certificate_chain
  | signatureLength : env.signature.length ≠ 64 → LinkFault b caps parent env .bad_certificate_chain
  | signature : b.verifyRaw env.certificate_body (env.signature.take 64) (parent.public_key.take 32) = false →
      LinkFault b caps parent env .authentication_error
  | format : (∀ body, body.WF → env.certificate_body ≠ Spec.certificateBody body) →
      LinkFault b caps parent env .bad_certificate_format
  | limits (body : CertificateBody) : body.WF → env.certificate_body = Spec.certificateBody body →
      ¬ (parent.valid_after ≤ body.valid_after ∧ body.valid_before ≤ parent.valid_before ∧
        body.signing_level < parent.signing_level) → LinkFault b caps parent env .bad_certificate_chain

/-- What is wrong with a chain of certificates: some certificate after a proper chain `good` is faulty; or there
is none, or the last one is no end-entity certificate for a key agreement key. -/
inductive ChainFault (b : Backend) (caps : Caps) (anchor : CertificateBody) (certs : List CertificateEnvelope) :
    HandshakeError → Prop
  | link (good : List CertificateEnvelope) (bodies : List CertificateBody) (env : CertificateEnvelope)
      (rest : List CertificateEnvelope) (e : HandshakeError) : certs = good ++ env :: rest →
      Spec.ChainOfTrust b anchor good bodies → LinkFault b caps ((anchor :: bodies).getLast (by simp)) env e →
      ChainFault b caps anchor certs e
  | empty : certs = [] → ChainFault b caps anchor certs .bad_certificate_chain
  | leaf (bodies : List CertificateBody) (last : CertificateBody) : Spec.ChainOfTrust b anchor certs bodies →
      bodies.getLast? = some last → ¬ (last.signing_level = 0 ∧ last.public_key_type = .X25519) →
      ChainFault b caps anchor certs .bad_certificate_chain

/-- What is wrong with a request `msg` (in the bytes `m`), and the code for it, for a responder that uses the
handshake `h`; `lookup` is the content of its key store. -/
inductive RequestFault (b : Backend) (caps : Caps) (h : ResponderHandshake) (lookup : UInt64 → Option Bytes)
    (m : Bytes) : HandshakeError → Prop
  | format : (∀ msg, RequestHandshakeBegin.read m ≠ .ok msg) → RequestFault b caps h lookup m .bad_message_format
  | version (msg : RequestHandshakeBegin) : RequestHandshakeBegin.read m = .ok msg →
      msg.version.major_version ≠ protocolVersion.major_version → RequestFault b caps h lookup m .unsupported_version
  | algorithms (msg : RequestHandshakeBegin) (e : HandshakeError) : RequestHandshakeBegin.read m = .ok msg →
      AlgorithmFault caps msg.spec e → RequestFault b caps h lookup m e
  /-- nonces and X25519 keys have 32 bytes; quantum key distribution uses no ephemeral -/
  | ephemeral (msg : RequestHandshakeBegin) : RequestHandshakeBegin.read m = .ok msg →
      msg.mode_ephemeral.length ≠ (match h with | .qkd => 0 | _ => 32) →
      RequestFault b caps h lookup m .bad_message_format
  /-- only quantum key distribution (the id of a key) and certificates use mode data -/
  | modeData (msg : RequestHandshakeBegin) : RequestHandshakeBegin.read m = .ok msg →
      (match h with
        | .sharedSecret _ => msg.mode_data ≠ []
        | .qkd => msg.mode_data.length ≠ 8
        | .publicKey _ (.preshared _) => msg.mode_data ≠ []
        | .publicKey _ (.industrial _ _) => False) → RequestFault b caps h lookup m .bad_message_format
  | ephemeralType (msg : RequestHandshakeBegin) (sp : Bytes) (certs : CertHandler) :
      RequestHandshakeBegin.read m = .ok msg → h = .publicKey sp certs →
      ¬ (msg.spec.handshake_ephemeral = .x25519 ∧ caps.x25519 = true) →
      RequestFault b caps h lookup m .unsupported_handshake_ephemeral
  | mode (msg : RequestHandshakeBegin) (sp : Bytes) (certs : CertHandler) :
      RequestHandshakeBegin.read m = .ok msg → h = .publicKey sp certs → msg.handshake_mode ≠ certs.mode →
      RequestFault b caps h lookup m .unsupported_handshake_mode
  | certificateFormat (msg : RequestHandshakeBegin) (sp : Bytes) (anchor : CertificateBody) (own : Bytes) :
      RequestHandshakeBegin.read m = .ok msg → h = .publicKey sp (.industrial anchor own) →
      (∀ certs : List CertificateEnvelope, (certs.length ≤ 6 ∧ ∀ x ∈ certs, x.signature.length < 2 ^ 32 ∧ x.certificate_body.length < 2 ^ 32) →
        msg.mode_data ≠ Spec.chain certs) →
      RequestFault b caps h lookup m .bad_certificate_format
  | certificates (msg : RequestHandshakeBegin) (sp : Bytes) (anchor : CertificateBody) (own : Bytes)
      (certs : List CertificateEnvelope) (e : HandshakeError) : RequestHandshakeBegin.read m = .ok msg →
      h = .publicKey sp (.industrial anchor own) →
      (certs.length ≤ 6 ∧ ∀ x ∈ certs, x.signature.length < 2 ^ 32 ∧ x.certificate_body.length < 2 ^ 32) →
      msg.mode_data = Spec.chain certs → ChainFault b caps anchor certs e → RequestFault b caps h lookup m e
  | unknownKey (msg : RequestHandshakeBegin) (id : UInt64) : RequestHandshakeBegin.read m = .ok msg → h = .qkd →
      msg.mode_data = be 8 id.toNat → lookup id = none → RequestFault b caps h lookup m .key_not_found

/-- From `s` to `s'` the responder has done nothing but send one message, the error reply with code `e`; nothing else
has changed. -/
def RepliedError (c : Cfg) (e : HandshakeError) (s s' : Layer) : Prop :=
  ∃ written, ReplyHandshakeError.read written = .ok ⟨protocolVersion, e⟩ ∧
    s' = { s with lowerReady := false, log := s.log ++ [.lowerTx (c.fw.wrap written) true] }

/-- From `s` to `s'` the responder has sent one message, `written`, before which a quantum key may have been used up
and new keys may have been put into the session being established; the established session is undisturbed. -/
def Replied (c : Cfg) (written : Bytes) (s s' : Layer) : Prop :=
  Undisturbed s s' ∧ ∃ before, s'.log = s.log ++ before ++ [.lowerTx (c.fw.wrap written) true] ∧
    ∀ o ∈ before, Internal o ∧ ∀ frame ok, o ≠ .lowerTx frame ok

end Spec

namespace RefusalProof

open SSP21.Crypto.Spec

theorem configure_fault {b : Backend} {caps : Caps} {spec : CryptoSpec} {e : HandshakeError}
    (h : CommonAlgorithms.configure b caps spec = .error e) : AlgorithmFault caps spec e := by
  obtain ⟨eph, hash, kdf, nm, sm⟩ := spec
  rcases caps with ⟨_ | _, x, ed, _ | _⟩ <;> cases hash <;> cases kdf <;> cases nm <;> cases sm <;>
    simp only [CommonAlgorithms.configure, HandshakeAlgorithms.configure, SessionAlgorithms.configure, Bool.not_true,
      Bool.not_false, if_true, Bool.false_eq_true, if_false, Except.error.injEq, reduceCtorEq] at h <;> cases h <;>
    first | exact .hash (by simp) | exact .kdf (by simp) | exact .nonceMode (by simp) | exact .sessionMode (by simp)

theorem configure_good {b : Backend} {caps : Caps} {spec : CryptoSpec} {a : CommonAlgorithms} {e : HandshakeError}
    (h : CommonAlgorithms.configure b caps spec = .ok a) : ¬ AlgorithmFault caps spec e := by
  obtain ⟨eph, hash, kdf, nm, sm⟩ := spec
  intro hf
  rcases caps with ⟨_ | _, x, ed, _ | _⟩ <;> cases hash <;> cases kdf <;> cases nm <;> cases sm <;>
    simp only [CommonAlgorithms.configure, HandshakeAlgorithms.configure, SessionAlgorithms.configure, Bool.not_true,
      Bool.not_false, if_true, Bool.false_eq_true, if_false, reduceCtorEq] at h <;>
    rcases hf with hn | hn | hn | hn <;> simp at hn

theorem verifyPair_fault_code {b : Backend} {caps : Caps} {parent : CertificateBody} {env : CertificateEnvelope}
    {e : HandshakeError} (h : verifyPair b caps parent env = .error (.err e)) : LinkFault b caps parent env e := by
  unfold verifyPair at h
  split at h
  · rename_i hn
    cases h
    refine .issuer ?_
    rintro ⟨h1, h2⟩
    simp [tryGetDsaInfo, h1, h2] at hn
  · rename_i n hn
    have hn64 : n = 64 := by
      unfold tryGetDsaInfo at hn
      split at hn
      · split at hn <;> simp_all
      · cases hn
    split at h
    · rename_i hl
      cases h
      exact .signatureLength (fun h => hl (by rw [h, hn64]))
    · split at h
      · rename_i f hv
        unfold Backend.verifyEd25519 at hv
        split at hv
        · cases hv; cases h
        · cases hv
      · rename_i hv
        cases h
        unfold Backend.verifyEd25519 at hv
        split at hv
        · cases hv
        · simp only [Except.ok.injEq] at hv
          exact .signature hv
      · rename_i hv
        have hread := (C05_certificate_body).2.2.2 env.certificate_body
        split at h
        · rename_i e' hr
          cases h
          refine .format ?_
          intro body hw hb
          rw [(hread body).mpr ⟨hw, hb⟩] at hr
          cases hr
        · rename_i body hr
          obtain ⟨hw, hb⟩ := (hread body).mp hr
          split at h
          · rename_i hx
            cases h
            refine .limits body hw hb (fun ⟨h1, _, _⟩ => ?_)
            rw [UInt64.le_iff_toNat_le] at h1
            rw [UInt64.lt_iff_toNat_lt] at hx
            omega
          · split at h
            · rename_i hx
              cases h
              refine .limits body hw hb (fun ⟨_, h1, _⟩ => ?_)
              rw [UInt64.le_iff_toNat_le] at h1
              rw [gt_iff_lt, UInt64.lt_iff_toNat_lt] at hx
              omega
            · split at h
              · rename_i hx
                cases h
                refine .limits body hw hb (fun ⟨_, _, h1⟩ => ?_)
                rw [UInt8.lt_iff_toNat_lt] at h1
                rw [ge_iff_le, UInt8.le_iff_toNat_le] at hx
                omega
              · cases h

theorem verifyLoop_fault_code {b : Backend} {caps : Caps} (certs : List CertificateEnvelope) :
    ∀ {parent : CertificateBody} {e : HandshakeError}, verifyLoop b caps parent certs = .error (.err e) →
      ∃ good bodies env rest, certs = good ++ env :: rest ∧ Spec.ChainOfTrust b parent good bodies ∧
        LinkFault b caps ((parent :: bodies).getLast (by simp)) env e := by
  induction certs with
  | nil => intro parent e h; simp [verifyLoop] at h
  | cons env rest ih =>
    intro parent e h
    unfold verifyLoop at h
    split at h
    · rename_i e' he
      cases h
      exact ⟨[], [], env, rest, rfl, chainOfTrust_nil b parent, verifyPair_fault_code he⟩
    · rename_i child hc
      obtain ⟨good, bodies, env', rest', h1, h2, h3⟩ := ih h
      refine ⟨env :: good, child :: bodies, env', rest', by rw [h1]; rfl, ?_, ?_⟩
      · exact (chainOfTrust_cons ..).mpr ⟨((verifyPair_iff ..).mp hc).2, h2⟩
      · rw [List.getLast_cons (by simp)]
        exact h3

theorem verify_fault_code {b : Backend} {caps : Caps} {anchor : CertificateBody} {certs : List CertificateEnvelope}
    {e : HandshakeError} (h : Chain.verify b caps anchor certs = .error (.err e)) : ChainFault b caps anchor certs e := by
  unfold Chain.verify at h
  split at h
  · rename_i h0
    cases h
    exact .empty (by simpa using h0)
  · rename_i h0
    have h0 : certs ≠ [] := by simpa using h0
    split at h
    · rename_i e' he
      cases h
      obtain ⟨good, bodies, env, rest, h1, h2, h3⟩ := verifyLoop_fault_code certs he
      exact .link good bodies env rest e h1 h2 h3
    · rename_i last hl
      obtain ⟨_, bodies, h1, h2⟩ := (verifyLoop_iff b caps certs anchor last h0).mp hl
      split at h
      · rename_i hx
        cases h
        exact .leaf bodies last h1 h2 (fun h => hx h.1)
      · split at h
        · rename_i hx
          cases h
          refine .leaf bodies last h1 h2 (fun h => ?_)
          simp [isDhKey, h.2] at hx
        · cases h

theorem verifyPair_good {b : Backend} {caps : Caps} {parent child : CertificateBody} {env : CertificateEnvelope}
    {e : HandshakeError} (h : verifyPair b caps parent env = .ok child) : ¬ LinkFault b caps parent env e := by
  obtain ⟨hc, hi⟩ := (verifyPair_iff ..).mp h
  intro hf
  cases hf with
  | issuer hn => exact hn ⟨hi.authority, hc⟩
  | signatureLength hn => exact hn hi.sigLength
  | signature hn =>
    rw [List.take_of_length_le (by rw [hi.sigLength]; omega), hi.signed] at hn
    cases hn
  | format hn => exact hn child hi.wellFormed hi.encoded
  | limits body hw hb hn =>
    have : body = child := by
      have h1 := ((C05_certificate_body).2.2.2 env.certificate_body body).mpr ⟨hw, hb⟩
      have h2 := ((C05_certificate_body).2.2.2 env.certificate_body child).mpr ⟨hi.wellFormed, hi.encoded⟩
      rw [h1] at h2
      cases h2
      rfl
    subst this
    exact hn ⟨hi.notBefore, hi.notAfter, hi.level⟩

theorem chain_unique {b : Backend} (certs : List CertificateEnvelope) : ∀ {anchor : CertificateBody}
    {xs ys : List CertificateBody}, Spec.ChainOfTrust b anchor certs xs → Spec.ChainOfTrust b anchor certs ys → xs = ys := by
  induction certs with
  | nil =>
    intro anchor xs ys hx hy
    have h1 := hx.1
    have h2 := hy.1
    simp only [List.length_nil, List.length_eq_zero_iff] at h1 h2
    rw [h1, h2]
  | cons env rest ih =>
    intro anchor xs ys hx hy
    cases xs with
    | nil => exact absurd hx.1 (by simp)
    | cons x xs =>
      cases ys with
      | nil => exact absurd hy.1 (by simp)
      | cons y ys =>
        obtain ⟨hx1, hx2⟩ := (chainOfTrust_cons ..).mp hx
        obtain ⟨hy1, hy2⟩ := (chainOfTrust_cons ..).mp hy
        have h1 := ((C05_certificate_body).2.2.2 env.certificate_body x).mpr ⟨hx1.wellFormed, hx1.encoded⟩
        have h2 := ((C05_certificate_body).2.2.2 env.certificate_body y).mpr ⟨hy1.wellFormed, hy1.encoded⟩
        rw [h1] at h2
        cases h2
        rw [ih hx2 hy2]

theorem verifyLoop_good {b : Backend} {caps : Caps} (good : List CertificateEnvelope) : ∀ {anchor last : CertificateBody}
    {bodies : List CertificateBody} {env : CertificateEnvelope} {rest : List CertificateEnvelope} {e : HandshakeError},
    verifyLoop b caps anchor (good ++ env :: rest) = .ok last → Spec.ChainOfTrust b anchor good bodies →
    ¬ LinkFault b caps ((anchor :: bodies).getLast (by simp)) env e := by
  induction good with
  | nil =>
    intro anchor last bodies env rest e h hb
    have h1 := hb.1
    simp only [List.length_nil, List.length_eq_zero_iff] at h1
    subst h1
    simp only [List.nil_append, verifyLoop] at h
    split at h
    · cases h
    · rename_i child hc
      exact verifyPair_good hc
  | cons x good ih =>
    intro anchor last bodies env rest e h hb
    cases bodies with
    | nil => exact absurd hb.1 (by simp)
    | cons body bodies =>
      obtain ⟨h1, h2⟩ := (chainOfTrust_cons ..).mp hb
      simp only [List.cons_append, verifyLoop] at h
      split at h
      · cases h
      · rename_i child hc
        have hi := ((verifyPair_iff ..).mp hc).2
        have k1 := ((C05_certificate_body).2.2.2 x.certificate_body body).mpr ⟨h1.wellFormed, h1.encoded⟩
        have k2 := ((C05_certificate_body).2.2.2 x.certificate_body child).mpr ⟨hi.wellFormed, hi.encoded⟩
        rw [k1] at k2
        cases k2
        rw [List.getLast_cons (by simp)]
        exact ih h h2

theorem verify_good {b : Backend} {caps : Caps} {anchor leaf : CertificateBody} {certs : List CertificateEnvelope}
    {e : HandshakeError} (h : Chain.verify b caps anchor certs = .ok leaf) : ¬ ChainFault b caps anchor certs e := by
  obtain ⟨hc, hn, h0, hk, bodies, hb, hl⟩ := (C28_accept_iff ..).mp h
  intro hf
  cases hf with
  | link good bodies' env rest e h1 h2 h3 =>
    subst h1
    exact verifyLoop_good good ((verifyLoop_iff b caps _ anchor leaf hn).mpr ⟨hc, bodies, hb, hl⟩) h2 h3
  | empty h => exact hn h
  | leaf bodies' last h1 h2 h3 =>
    have := chain_unique certs hb h1
    subst this
    rw [hl] at h2
    cases h2
    exact h3 ⟨h0, hk⟩

/-- What `process` does with a request of the right version: (1) it refuses it because of a fault, without any other
effect; (2) there is no fault but the reply cannot be built; (3) there is no fault and it replies. -/
def Verdict (b : Backend) (caps : Caps) (h : ResponderHandshake) (lookup : UInt64 → Option Bytes) (m : Bytes)
    (fw : FrameWriter) (session : Session) (st : Stats) (r : Session × Stats × Option (UInt64 × Bytes) × Except HsFail Bytes) : Prop :=
  match r.2.2.2 with
  | .error .fault => True
  | .error (.err e) => r.1 = session ∧ r.2.1 = st ∧
      (r.2.2.1 = none ∧ RequestFault b caps h lookup m e ∨
        e = .unknown ∧ ∀ e', ¬ RequestFault b caps h lookup m e')
  | .ok frame => (∀ e', ¬ RequestFault b caps h lookup m e') ∧ ∃ (reply : ReplyHandshakeBegin) (written : Bytes),
      reply.write fw.maxPayload.toNat = .ok written ∧ frame = fw.wrap written

theorem respond_verdict {b : Backend} {caps : Caps} {h : ResponderHandshake} {lookup : UInt64 → Option Bytes} {m : Bytes}
    {fw : FrameWriter} {session : Session} {st : Stats} (hno : ∀ e', ¬ RequestFault b caps h lookup m e')
    (a : CommonAlgorithms) (reply : ReplyHandshakeBegin) (ikm : Except HsFail (List Bytes)) (msg : RequestHandshakeBegin)
    (now : Int) (used : Option (UInt64 × Bytes)) (hikm : ∀ e, ikm = .error (.err e) → e = .unknown) :
    Verdict b caps h lookup m fw session st
      ((respond a reply ikm msg m now fw session st).1, (respond a reply ikm msg m now fw session st).2.1, used,
        (respond a reply ikm msg m now fw session st).2.2) := by
  unfold Verdict respond
  cases hw : reply.write fw.maxPayload.toNat with
  | error e => exact ⟨rfl, rfl, .inr ⟨rfl, hno⟩⟩
  | ok written =>
    cases ikm with
    | error e =>
      cases e with
      | fault => trivial
      | err e => exact ⟨rfl, rfl, .inr ⟨hikm e rfl, hno⟩⟩
    | ok ikm => exact ⟨hno, reply, written, hw, rfl⟩

theorem process_verdict {b : Backend} {caps : Caps} {h : ResponderHandshake} {lookup : UInt64 → Option Bytes} {rnd : Bytes}
    {msg : RequestHandshakeBegin} {m : Bytes} {now : Int} {fw : FrameWriter} {session : Session} {st : Stats}
    (hm : RequestHandshakeBegin.read m = .ok msg) (hver : msg.version.major_version = 0) :
    Verdict b caps h lookup m fw session st (h.process b caps lookup rnd msg m now fw session st) := by
  have hmsg : ∀ {msg'}, RequestHandshakeBegin.read m = .ok msg' → msg' = msg := by
    intro msg' h'
    rw [hm] at h'
    cases h'
    rfl
  unfold ResponderHandshake.process
  dsimp only
  cases h with
  | sharedSecret key =>
    dsimp only
    split
    · rename_i hl
      exact ⟨rfl, rfl, .inl ⟨rfl, .ephemeral msg hm hl⟩⟩
    · rename_i hl
      split
      · rename_i hd
        exact ⟨rfl, rfl, .inl ⟨rfl, .modeData msg hm hd⟩⟩
      · rename_i hd
        split
        · rename_i e he
          exact ⟨rfl, rfl, .inl ⟨rfl, .algorithms msg e hm (configure_fault he)⟩⟩
        · rename_i a ha
          refine respond_verdict ?_ _ _ _ _ _ _ (by simp)
          intro e' hf
          cases hf with
          | format h1 => exact h1 msg hm
          | version msg' h1 h2 => rw [hmsg h1] at h2; exact h2 hver
          | algorithms msg' h1 h2 h3 => rw [hmsg h2] at h3; exact configure_good ha h3
          | ephemeral msg' h1 h2 => rw [hmsg h1] at h2; exact hl h2
          | modeData msg' h1 h2 => rw [hmsg h1] at h2; exact hd h2
          | ephemeralType msg' sp certs h1 h2 h3 => cases h2
          | mode msg' sp certs h1 h2 h3 => cases h2
          | certificateFormat msg' sp anchor own h1 h2 h3 => cases h2
          | certificates msg' sp anchor own certs e h1 h2 h3 h4 => cases h2
          | unknownKey msg' id h1 h2 h3 h4 => cases h2
  | qkd =>
    dsimp only
    split
    · rename_i hl
      exact ⟨rfl, rfl, .inl ⟨rfl, .ephemeral msg hm (by simpa using hl)⟩⟩
    · rename_i hl
      split
      · rename_i e he
        exact ⟨rfl, rfl, .inl ⟨rfl, .algorithms msg e hm (configure_fault he)⟩⟩
      · rename_i a ha
        split
        · rename_i hd
          exact ⟨rfl, rfl, .inl ⟨rfl, .modeData msg hm hd⟩⟩
        · rename_i hd
          simp only [ne_eq, Decidable.not_not] at hd
          have hid : msg.mode_data = be 8 (UInt64.ofNat (beNat msg.mode_data)).toNat := by
            have := be_beNat msg.mode_data
            rw [hd] at this
            rw [UInt64.toNat_ofNat', Nat.mod_eq_of_lt, this]
            have := beNat_lt msg.mode_data
            rw [hd] at this
            simpa using this
          split
          · rename_i hk
            exact ⟨rfl, rfl, .inl ⟨rfl, .unknownKey msg _ hm rfl hid hk⟩⟩
          · rename_i key hk
            refine respond_verdict ?_ _ _ _ _ _ _ (by simp)
            intro e' hf
            cases hf with
            | format h1 => exact h1 msg hm
            | version msg' h1 h2 => rw [hmsg h1] at h2; exact h2 hver
            | algorithms msg' h1 h2 h3 => rw [hmsg h2] at h3; exact configure_good ha h3
            | ephemeral msg' h1 h2 =>
              rw [hmsg h1] at h2
              exact h2 (List.length_eq_zero_iff.mpr (by simpa using hl))
            | modeData msg' h1 h2 => rw [hmsg h1] at h2; exact h2 hd
            | ephemeralType msg' sp certs h1 h2 h3 => cases h2
            | mode msg' sp certs h1 h2 h3 => cases h2
            | certificateFormat msg' sp anchor own h1 h2 h3 => cases h2
            | certificates msg' sp anchor own certs e h1 h2 h3 h4 => cases h2
            | unknownKey msg' id h1 h2 h3 h4 =>
              rw [hmsg h1] at h3
              rw [h3, beNat_be, Nat.mod_eq_of_lt (by have := id.toNat_lt; simpa using this), UInt64.ofNat_toNat, h4] at hk
              cases hk
  | publicKey sp certs =>
    dsimp only
    split
    · rename_i e he
      exact ⟨rfl, rfl, .inl ⟨rfl, .algorithms msg e hm (configure_fault he)⟩⟩
    · rename_i a ha
      split
      · rename_i e he
        unfold dhConfigure at he
        split at he
        · rename_i ht
          split at he
          · rename_i hx
            cases he
            exact ⟨rfl, rfl, .inl ⟨rfl, .ephemeralType msg sp certs hm rfl (by simpa using fun _ => hx)⟩⟩
          · cases he
        · rename_i ht
          cases he
          exact ⟨rfl, rfl, .inl ⟨rfl, .ephemeralType msg sp certs hm rfl (fun h => ht h.1)⟩⟩
      · rename_i hdh
        have hdh : msg.spec.handshake_ephemeral = .x25519 ∧ caps.x25519 = true := by
          unfold dhConfigure at hdh
          split at hdh
          · rename_i ht
            split at hdh
            · cases hdh
            · rename_i hx
              exact ⟨ht, by simpa using hx⟩
          · cases hdh
        split
        · rename_i hl
          exact ⟨rfl, rfl, .inl ⟨rfl, .ephemeral msg hm hl⟩⟩
        · rename_i hl
          split
          · rename_i e he
            cases e with
            | fault => trivial
            | err e =>
              refine ⟨rfl, rfl, .inl ⟨rfl, ?_⟩⟩
              cases certs with
              | preshared key =>
                simp only [CertHandler.validate] at he
                split at he
                · rename_i hmode
                  cases he
                  exact .mode msg sp _ hm rfl hmode
                · split at he
                  · rename_i hd
                    cases he
                    exact .modeData msg hm hd
                  · cases he
              | industrial anchor own =>
                simp only [CertHandler.validate] at he
                split at he
                · rename_i hmode
                  cases he
                  exact .mode msg sp _ hm rfl hmode
                · split at he
                  · rename_i e' hr
                    cases he
                    refine .certificateFormat msg sp anchor own hm rfl ?_
                    intro cs hw hd
                    rw [((C05_chain).2.2.2 _ cs).mpr ⟨hw, hd⟩] at hr
                    cases hr
                  · rename_i chain hr
                    obtain ⟨hw, hd⟩ := ((C05_chain).2.2.2 _ chain).mp hr
                    split at he
                    · rename_i e' hv
                      cases he
                      exact .certificates msg sp anchor own chain e hm rfl hw hd (verify_fault_code hv)
                    · cases he
          · rename_i remote hv
            split
            · trivial
            · refine respond_verdict ?_ _ _ _ _ _ _ ?_
              · intro e' hf
                cases hf with
                | format h1 => exact h1 msg hm
                | version msg' h1 h2 => rw [hmsg h1] at h2; exact h2 hver
                | algorithms msg' h1 h2 h3 => rw [hmsg h2] at h3; exact configure_good ha h3
                | ephemeral msg' h1 h2 => rw [hmsg h1] at h2; exact hl h2
                | modeData msg' h1 h2 =>
                  rw [hmsg h1] at h2
                  cases certs with
                  | preshared key => exact h2 (((C28_handler ..).2 key).mp hv).2.1
                  | industrial anchor own => exact h2
                | ephemeralType msg' sp' certs' h1 h2 h3 => rw [hmsg h1] at h3; exact h3 hdh
                | mode msg' sp' certs' h1 h2 h3 =>
                  rw [hmsg h1] at h3
                  cases h2
                  cases certs with
                  | preshared key => exact h3 (((C28_handler ..).2 key).mp hv).1
                  | industrial anchor own => exact h3 (((C28_handler ..).1 anchor own).mp hv).1
                | certificateFormat msg' sp' anchor own h1 h2 h3 =>
                  rw [hmsg h1] at h3
                  cases h2
                  obtain ⟨_, cs, _, hw, hd, _⟩ := ((C28_handler ..).1 anchor own).mp hv
                  exact h3 cs hw hd
                | certificates msg' sp' anchor own cs e h1 h2 h3 h4 h5 =>
                  rw [hmsg h1] at h4
                  cases h2
                  obtain ⟨_, cs', leaf, hw, hd, hc, _⟩ := ((C28_handler ..).1 anchor own).mp hv
                  have k1 := ((C05_chain).2.2.2 _ cs).mpr ⟨h3, h4⟩
                  have k2 := ((C05_chain).2.2.2 _ cs').mpr ⟨hw, hd⟩
                  rw [k1] at k2
                  cases k2
                  exact verify_good hc h5
                | unknownKey msg' id h1 h2 h3 h4 => cases h2
              · intro e he
                split at he
                · cases he
                · cases he; rfl
                · cases he

theorem fault_defined {b : Backend} {caps : Caps} {h : ResponderHandshake} {lookup : UInt64 → Option Bytes} {m : Bytes}
    {e : HandshakeError} (hf : RequestFault b caps h lookup m e) : e ≠ .undefined := by
  cases hf with
  | algorithms msg e h1 h2 => cases h2 <;> simp
  | certificates msg sp anchor own cs e h1 h2 h3 h4 h5 =>
    cases h5 with
    | link good bodies env rest e h1 h2 h3 => cases h3 <;> simp
    | empty => simp
    | leaf => simp
  | _ => simp

theorem qt_errorReply {c : Cfg} {A : Fresh → Prop} {F : Prop} {e : HandshakeError} {Q : Unit → Layer → Prop} {s : Layer}
    (he : e ≠ .undefined) (hp : 6 ≤ c.fw.maxPayload.toNat) (hr : s.lowerReady = true)
    (h : ∀ written, ReplyHandshakeError.read written = .ok ⟨protocolVersion, e⟩ →
      Q () { s with lowerReady := false, log := s.log ++ [.lowerTx (c.fw.wrap written) true] }) :
    (replyWithHandshakeError c e).quietly A F Q s := by
  have hwf : (⟨protocolVersion, e⟩ : ReplyHandshakeError).WF := he
  have hw : ReplyHandshakeError.write ⟨protocolVersion, e⟩ c.fw.maxPayload.toNat = .ok (Spec.error ⟨protocolVersion, e⟩) := by
    rw [C02_error_write _ hwf, if_pos]
    have := C04_error_size _ hwf
    omega
  unfold replyWithHandshakeError
  simp only [FrameWriter.write, hw]
  simp only [qt_bind, qt_lowerStartTx, qt_pure]
  rw [hr]
  exact h _ (C02_error_roundtrip _ hwf _ _ hw)

end RefusalProof

open RefusalProof in
/-- C26. Let a responder, whose lower layer accepts transmissions and payloads of at least 6 bytes, process a message
`m` whose first byte says that it is a handshake request. Except when buffers that are too short for the backend are
involved (`BackendMisuse`), it answers with exactly one message:
* if anything is wrong with the request, the error reply with a code for something that is wrong with it. Apart from
  the transmission nothing changes, whatever the state of the responder was;
* otherwise either the reply to the request, or (if that could not be built or a key agreement failed in the backend)
  an error reply with the code `unknown`. The established session and the application are undisturbed. -/
theorem C26_responses (c : Cfg) (h : ResponderHandshake) (hrole : c.role = .responder h) (hp : 6 ≤ c.fw.maxPayload.toNat)
    (lookup : UInt64 → Option Bytes) (s : Layer) (hready : s.lowerReady = true) (m : Bytes) (hm : m.head? = some 0) :
    (process c m s).Quietly (fun f => f.ok ∧ f.lookup = lookup) (Spec.BackendMisuse c s m) (fun _ s' =>
      (∃ e, Spec.RequestFault c.backend c.caps h lookup m e ∧ Spec.RepliedError c e s s') ∨
      ((∀ e, ¬ Spec.RequestFault c.backend c.caps h lookup m e) ∧ ∃ written, Spec.Replied c written s s' ∧
        (ReplyHandshakeError.read written = .ok ⟨protocolVersion, .unknown⟩ ∨
          ∃ reply : ReplyHandshakeBegin, reply.write c.fw.maxPayload.toNat = .ok written))) := by
  cases m with
  | nil => cases hm
  | cons x rest =>
    simp only [List.head?_cons, Option.some.injEq] at hm
    subst hm
    change (process c _).quietly _ _ _ s
    unfold process
    simp only [qt_bind, qt_getTime]
    intro f0 _
    have hf : Function.fromType 0 = .request_handshake_begin := rfl
    have hs : supports c .request_handshake_begin = true := by simp [supports, hrole]
    simp only [hf, hs, Bool.not_true, Bool.false_eq_true, if_false, hrole]
    cases hread : RequestHandshakeBegin.read (0 :: rest) with
    | error e =>
      simp only [onParseError, hrole]
      refine qt_errorReply (by simp) hp hready ?_
      intro written hw
      exact .inl ⟨_, .format (by simp [hread]), written, hw, rfl⟩
    | ok msg =>
      simp only [onRequestBegin]
      simp only [qt_ite]
      refine ⟨fun hv => ?_, fun hv => ?_⟩
      · refine qt_errorReply (by simp) hp hready ?_
        intro written hw
        exact .inl ⟨_, .version msg hread hv, written, hw, rfl⟩
      · simp only [qt_bind, qt_ask, qt_get]
        rintro f ⟨_, rfl⟩
        have hver := process_verdict (b := c.backend) (caps := c.caps) (h := h) (lookup := f.lookup) (rnd := f.rnd)
          (now := f0.now) (fw := c.fw) (session := s.pending) (st := s.stats) hread (by simpa using hv)
        have hfault := RobustProof.process_fault (b := c.backend) (caps := c.caps) (h := h) (lookup := f.lookup) (rnd := f.rnd)
          (now := f0.now) (fw := c.fw) (session := s.pending) (st := s.stats) (m := 0 :: rest) (msg := msg)
        generalize h.process c.backend c.caps f.lookup f.rnd msg (0 :: rest) f0.now c.fw s.pending s.stats = r at *
        obtain ⟨session, st, used, res⟩ := r
        cases res with
        | error e =>
          cases e with
          | fault =>
            obtain ⟨sp, certs, h1, h2⟩ := hfault rfl
            simp only [qt_fault, Spec.BackendMisuse, hrole]
            exact ⟨msg, sp, certs, hread, h1, h2⟩
          | err e =>
            simp only [Verdict] at hver
            obtain ⟨rfl, rfl, hver⟩ := hver
            simp only [qt_bind, qt_modify]
            rcases hver with ⟨rfl, hver⟩ | ⟨rfl, hver⟩
            · refine qt_errorReply (fault_defined hver) hp hready ?_
              intro written hw
              exact .inl ⟨e, hver, written, hw, rfl⟩
            · cases used with
              | none =>
                refine qt_errorReply (by simp) hp hready ?_
                intro written hw
                refine .inr ⟨hver, written, ⟨⟨rfl, rfl, rfl, rfl, rfl, rfl, rfl, _, rfl, ?_⟩, [], by simp, by simp⟩, .inl hw⟩
                simp [Spec.Internal]
              | some id =>
                refine qt_errorReply (by simp) hp hready ?_
                intro written hw
                refine .inr ⟨hver, written, ⟨⟨rfl, rfl, rfl, rfl, rfl, rfl, rfl, _, by simp; rfl, ?_⟩, [.keyUsed id], by simp,
                  by simp [Spec.Internal]⟩, .inl hw⟩
                simp [Spec.Internal]
        | ok frame =>
          simp only [Verdict] at hver
          obtain ⟨hno, reply, written, hw, rfl⟩ := hver
          simp only [qt_bind, qt_modify]
          have key : ∀ s1 : Layer, s1.lowerReady = true → s1.active = s.active → s1.isOpen = s.isOpen →
              s1.upperOpen = s.upperOpen → s1.payloadLen = s.payloadLen → s1.rxFlag = s.rxFlag → s1.ini = s.ini →
              (∃ before, s1.log = s.log ++ before ∧ ∀ o ∈ before, Spec.Internal o ∧ ∀ frame ok, o ≠ .lowerTx frame ok) →
              (noteEstablished s.stats.numInit >>= fun _ => lowerStartTx (c.fw.wrap written) >>= fun _ => pure ()).quietly
                (fun g => g.ok ∧ g.lookup = f.lookup) (Spec.BackendMisuse c s (0 :: rest)) (fun _ s' =>
                  Spec.Replied c written s s') s1 := by
            intro s1 h1 h2 h3 h4 h5 h6 h7 ⟨before, h8, h9⟩
            have fin : ∀ (o : List Obs), (∀ x ∈ o, Spec.Internal x ∧ ∀ frame ok, x ≠ .lowerTx frame ok) →
                Spec.Replied c written s { s1 with log := s1.log ++ o ++ [.lowerTx (c.fw.wrap written) true], lowerReady := false } := by
              intro o ho
              refine ⟨⟨h2, h3, h4, h5, h6, by rw [h7], by rw [h7], before ++ o ++ [.lowerTx (c.fw.wrap written) true], by simp [h8], ?_⟩,
                before ++ o, by simp [h8], ?_⟩
              · intro x hx
                simp only [List.mem_append, List.mem_singleton] at hx
                rcases hx with (hx | hx) | rfl
                · exact (h9 x hx).1
                · exact (ho x hx).1
                · trivial
              · intro x hx
                rcases List.mem_append.mp hx with hx | hx
                · exact h9 x hx
                · exact ho x hx
            simp only [noteEstablished, qt_bind, qt_get, qt_ite, qt_note, qt_lowerStartTx, qt_pure, h1]
            refine ⟨fun _ => fin [.established _ _ _] ?_, fun _ => ?_⟩
            · simp [Spec.Internal]
            · have := fin [] (by simp)
              simpa using this
          cases used with
          | none =>
            simp only [qt_pure]
            exact M.quietly_mono (fun _ _ h1 => .inr ⟨hno, written, h1, .inr ⟨reply, hw⟩⟩) (key _ hready rfl rfl rfl rfl rfl rfl ⟨[], by simp, by simp⟩)
          | some id =>
            simp only [qt_note]
            exact M.quietly_mono (fun _ _ h1 => .inr ⟨hno, written, h1, .inr ⟨reply, hw⟩⟩) (key _ hready rfl rfl rfl rfl rfl rfl ⟨[.keyUsed id], by simp, by simp [Spec.Internal]⟩)

open RefusalProof in
/-- A session message with nonce zero (the authentication of a session) when no handshake has been begun is answered
with the error `no_prior_handshake_begin`, and nothing else changes. -/
theorem C26_no_prior_handshake (c : Cfg) (h : ResponderHandshake) (hrole : c.role = .responder h)
    (hp : 6 ≤ c.fw.maxPayload.toNat) (s : Layer) (hready : s.lowerReady = true) (hpend : s.pending.valid = false)
    (m : Bytes) (msg : SessionData) (hm : SessionData.read m = .ok msg) (hn : msg.metadata.nonce = 0) :
    (process c m s).Quietly (fun _ => True) False
      (fun _ s' => Spec.RepliedError c .no_prior_handshake_begin s s') := by
  cases m with
  | nil => cases hm
  | cons x rest =>
    have hx : x = 3 := by
      have := ((C03_session_data_canonical _ msg).mp hm).2
      simp only [Spec.sessionData] at this
      simpa using congrArg List.head? this
    subst hx
    change (process c _).quietly _ _ _ s
    unfold process
    simp only [qt_bind, qt_getTime]
    intro f0 _
    have hf : Function.fromType 3 = .session_data := rfl
    have hs : supports c .session_data = true := by simp [supports, hrole]
    simp only [hf, hs, Bool.not_true, Bool.false_eq_true, if_false, hrole, hm, onSessionMessage, hn, if_true, responderOnAuth]
    simp only [qt_bind, qt_get, hpend, Bool.not_false, if_true]
    exact qt_errorReply (by simp) hp hready fun written hw => ⟨written, hw, rfl⟩

namespace LayerExample
open Exec Spec

/-- In an established session of the responder (a reachable state): the theorem applies; a truncated request has a
fault, and the request of the example has none. -/
example : ∃ s, Observed res anyEnv s ∧ s.active.valid = true ∧ s.lowerReady = true ∧ 6 ≤ res.fw.maxPayload.toNat ∧
    (∃ e, RequestFault res.backend res.caps (.sharedSecret key) (fun _ => none) (request.take 40) e) ∧
    ¬ BackendMisuse res s (request.take 40) ∧ (request.take 40).head? = some 0 ∧
    (∀ e, ¬ RequestFault res.backend res.caps (.sharedSecret key) (fun _ => none) request e) := by
  obtain ⟨s, h1, h2⟩ := Exec.exists_of_map configured (c := res) (E := .tame) (h := hs) (script := resRead)
    (f := fun s => (s.active.valid, s.lowerReady)) (a := (true, true)) (by decide +kernel)
  rw [Prod.mk.injEq] at h2
  refine ⟨s, h1.any, h2.1, h2.2, by decide, ⟨_, .format ?_⟩, by simp [BackendMisuse, res], by decide +kernel, ?_⟩
  · have : (RequestHandshakeBegin.read (request.take 40)).toOption.isNone = true := by decide +kernel
    intro msg h
    rw [h] at this
    cases this
  · have h3 : ((RequestHandshakeBegin.read request).toOption.map (fun msg =>
        (msg.version.major_version.toNat, msg.mode_ephemeral.length, msg.mode_data.length,
          (CommonAlgorithms.configure res.backend res.caps msg.spec).toOption.isSome))) = some (0, 32, 0, true) := by
      decide +kernel
    intro e hf
    cases hr : RequestHandshakeBegin.read request with
    | error e => rw [hr] at h3; cases h3
    | ok msg =>
      have hmsg : ∀ {msg'}, RequestHandshakeBegin.read request = .ok msg' → msg' = msg := by
        intro msg' h'
        rw [hr] at h'
        cases h'
        rfl
      rw [hr] at h3
      simp only [Except.toOption, Option.map_some, Option.some.injEq, Prod.mk.injEq] at h3
      obtain ⟨k1, k2, k3, k4⟩ := h3
      cases hf with
      | format h => exact h msg hr
      | version msg' h h' => rw [hmsg h] at h'; exact h' (UInt16.toNat_inj.mp k1)
      | algorithms msg' e h h' =>
        rw [hmsg h] at h'
        cases ha : CommonAlgorithms.configure res.backend res.caps msg.spec with
        | error e => rw [ha] at k4; cases k4
        | ok a => exact RefusalProof.configure_good ha h'
      | ephemeral msg' h h' => rw [hmsg h] at h'; exact h' k2
      | modeData msg' h h' => rw [hmsg h] at h'; exact h' (List.length_eq_zero_iff.mp k3)
      | ephemeralType msg' sp certs h h' => cases h'
      | mode msg' sp certs h h' => cases h'
      | certificateFormat msg' sp anchor own h h' => cases h'
      | certificates msg' sp anchor own certs e h h' => cases h'
      | unknownKey msg' id h h' => cases h'

end LayerExample

end SSP21.Crypto
