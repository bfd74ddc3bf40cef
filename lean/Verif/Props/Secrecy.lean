import Verif.Exec
/-
  C64: what a station does depends on its secrets only through the primitives.
-/
namespace SSP21.Crypto

/-! ## Specification -/

namespace Spec

/-- Two session keys, each with the primitives it is used with, that make the same tags and ciphertexts and accept the same.
(The MAC is taken of 6 bytes of metadata, 2 bytes of length, and the data.) -/
structure KeySame (b b' : Backend) (k k' : Bytes) : Prop where
  length : k'.length = k.length
  mac : ∀ ad data, ad.length = 6 → (b'.hmac k' (macInput ad data)).take 16 = (b.hmac k (macInput ad data)).take 16
  encrypt : ∀ n ad text, b'.gcmSeal k' n ad text = b.gcmSeal k n ad text
  decrypt : ∀ n ad text tag, b'.gcmOpen k' n ad text tag = b.gcmOpen k n ad text tag

/-- The same for both keys of a session. -/
def KeysSame (b b' : Backend) (p p' : Bytes × Bytes) : Prop := KeySame b b' p.1 p'.1 ∧ KeySame b b' p.2 p'.2

/-- Two shared secrets from which such keys are derived, with the nonces of the two parties (32 bytes). -/
def SharedSame (b b' : Backend) (k k' : Bytes) : Prop := ∀ salt x y, x.length = 32 → y.length = 32 →
  KeysSame b b' (b.hkdf salt [k, x, y]) (b'.hkdf salt [k', x, y])

/-- Two quantum keys. -/
def QuantumSame (b b' : Backend) (q q' : Bytes) : Prop := ∀ salt, KeysSame b b' (b.hkdf salt [q]) (b'.hkdf salt [q'])

/-- Two pairs of a static and an ephemeral private key: the same ephemeral public key, and with the public keys of any other
party either the same error or secrets from which such keys are derived. -/
def PairSame (b b' : Backend) (sp sp' r r' : Bytes) : Prop :=
  b'.dhPublic r' = b.dhPublic r ∧ ∀ remote eph,
    match tripleDH b sp r remote eph, tripleDH b' sp' r' remote eph with
    | .ok (x, y, z), .ok (x', y', z') => ∀ salt, KeysSame b b' (b.hkdf salt [x, y, z]) (b'.hkdf salt [x', y', z']) ∧
        KeysSame b b' (b.hkdf salt [x, z, y]) (b'.hkdf salt [x', z', y'])
    | .error e, .error e' => e' = e
    | _, _ => False

/-- The long-term secret of a station. -/
inductive Secret
  | shared (key : Bytes)
  | quantum
  | pair (staticPriv : Bytes)

def secretOf (c : Cfg) (hs : InitiatorHandshake) : Secret :=
  match c.role with
  | .responder (.sharedSecret k) => .shared k
  | .responder .qkd => .quantum
  | .responder (.publicKey sp _) => .pair sp
  | .initiator _ _ =>
    match hs.mode with
    | .sharedSecret k _ => .shared k
    | .qkd _ => .quantum
    | .publicKey sp _ _ => .pair sp

def SecretSame (b b' : Backend) : Secret → Secret → Prop
  | .shared k, .shared k' => SharedSame b b' k k'
  | .quantum, .quantum => True
  | .pair _, .pair _ => True
  | _, _ => False

/-- Two answers of the environment that differ at most in secrets: quantum keys, or the random bytes of which an ephemeral
private key is made. (The random bytes of a handshake with a shared secret are not a secret: they are the nonce that is
sent.) -/
def Answers (b b' : Backend) (K K' : Secret) (f f' : Fresh) : Prop :=
  f'.now = f.now ∧ f'.scratch = f.scratch ∧
  match K, K' with
  | .shared _, .shared _ => f'.rnd = f.rnd
  | .quantum, .quantum =>
    (match f.record, f'.record with
      | none, none => True
      | some (id, q), some (id', q') => id' = id ∧ QuantumSame b b' q q'
      | _, _ => False) ∧
    ∀ id, match f.lookup id, f'.lookup id with
      | none, none => True
      | some q, some q' => QuantumSame b b' q q'
      | _, _ => False
  | .pair sp, .pair sp' => PairSame b b' sp sp' f.rnd f'.rnd
  | _, _ => False

/-- The roles are the same except for secrets. -/
def RoleSame : Role → Role → Prop
  | .initiator p l, .initiator p' l' => p' = p ∧ l' = l
  | .responder (.sharedSecret _), .responder (.sharedSecret _) => True
  | .responder .qkd, .responder .qkd => True
  | .responder (.publicKey _ certs), .responder (.publicKey _ certs') => certs' = certs
  | _, _ => False

/-- The handshake objects of new initiators are the same except for secrets. -/
def ModeSame : InitiatorMode → InitiatorMode → Prop
  | .sharedSecret _ n, .sharedSecret _ n' => n' = n
  | .qkd none, .qkd none => True
  | .publicKey _ certs _, .publicKey _ certs' _ => certs' = certs
  | _, _ => False

/-- Two stations that are configured alike but for their secrets, each with the primitives that it uses; the primitives that
are applied only to public data are the same. -/
structure Twins (c c' : Cfg) (hs hs' : InitiatorHandshake) : Prop where
  caps : c'.caps = c.caps
  fw : c'.fw = c.fw
  ttl : c'.ttlPadMs = c.ttlPadMs
  bufLen : c'.bufLen = c.bufLen
  viaStack : c'.viaStack = c.viaStack
  hash : c'.backend.hash = c.backend.hash
  verify : c'.backend.verifyRaw = c.backend.verifyRaw
  role : RoleSame c.role c'.role
  configured : hs.Configured c.backend c.caps
  configured' : hs'.Configured c'.backend c'.caps
  suite : hs'.suite = hs.suite
  time : hs'.timeRequestTx = hs.timeRequestTx
  hashed : hs'.handshakeHash = hs.handshakeHash
  mode : (∃ p l, c.role = .initiator p l) → ModeSame hs.mode hs'.mode
  secret : SecretSame c.backend c'.backend (secretOf c hs) (secretOf c' hs')

/-- Executions of the two stations side by side, with the same events, the same calls of the application, the same messages
received, and answers that differ at most in secrets. -/
inductive Together (c c' : Cfg) (hs hs' : InitiatorHandshake) : Config → Config → Prop
  | init : Together c c' hs hs' ⟨.env (Layer.new c hs), []⟩ ⟨.env (Layer.new c' hs'), []⟩
  | event {s s' : Layer} (e : Event) : Together c c' hs hs' ⟨.env s, []⟩ ⟨.env s', []⟩ → e.enabled s → e.enabled s' →
      Together c c' hs hs' ⟨.code (e.run c s), []⟩ ⟨.code (e.run c' s'), []⟩
  | api {s s' : Layer} {st st' : List (Layer → Run Unit)} (a : Api) : Together c c' hs hs' ⟨.env s, st⟩ ⟨.env s', st'⟩ →
      Together c c' hs hs' ⟨.code (a.run c s), st⟩ ⟨.code (a.run c' s'), st'⟩
  | ret {s s' : Layer} {k k' : Layer → Run Unit} {st st' : List (Layer → Run Unit)} :
      Together c c' hs hs' ⟨.env s, k :: st⟩ ⟨.env s', k' :: st'⟩ → Together c c' hs hs' ⟨.code (k s), st⟩ ⟨.code (k' s'), st'⟩
  | done {s s' : Layer} {st st' : List (Layer → Run Unit)} :
      Together c c' hs hs' ⟨.code (.done () s), st⟩ ⟨.code (.done () s'), st'⟩ → Together c c' hs hs' ⟨.env s, st⟩ ⟨.env s', st'⟩
  | up {cb cb' : UpCall} {s s' : Layer} {k k' : Layer → Run Unit} {st st' : List (Layer → Run Unit)} :
      Together c c' hs hs' ⟨.code (.up cb s k), st⟩ ⟨.code (.up cb' s' k'), st'⟩ →
      Together c c' hs hs' ⟨.env s, k :: st⟩ ⟨.env s', k' :: st'⟩
  | ask {k k' : Fresh → Run Unit} {st st' : List (Layer → Run Unit)} (f f' : Fresh) : f.ok → f'.ok →
      Answers c.backend c'.backend (secretOf c hs) (secretOf c' hs') f f' →
      Together c c' hs hs' ⟨.code (.ask k), st⟩ ⟨.code (.ask k'), st'⟩ → Together c c' hs hs' ⟨.code (k f), st⟩ ⟨.code (k' f'), st'⟩
  | recv {s s' : Layer} {k k' : Bytes → Run Unit} {st st' : List (Layer → Run Unit)} (m : Bytes) :
      Together c c' hs hs' ⟨.code (.recv s k), st⟩ ⟨.code (.recv s' k'), st'⟩ → Together c c' hs hs' ⟨.code (k m), st⟩ ⟨.code (k' m), st'⟩
  | loop {s s' : Layer} {k k' : Layer → Run Unit} {st st' : List (Layer → Run Unit)} :
      Together c c' hs hs' ⟨.code (.loop s k), st⟩ ⟨.code (.loop s' k'), st'⟩ →
      Together c c' hs hs' ⟨.code ((tryReadOne c s).bind (fun again t => if again then .loop t k else k t)), st⟩
        ⟨.code ((tryReadOne c' s').bind (fun again t => if again then .loop t k' else k' t)), st'⟩

/-- What can be seen: everything in the log but the two ghosts that record keys. -/
def visible (log : List Obs) : List Obs := log.filter fun o => match o with | .established .. => false | .keyUsed _ => false | _ => true

/-- From outside the layers look the same: messages received and sent, callbacks, results of calls, statistics, readiness,
the payload that can be read. -/
structure Indistinguishable (s s' : Layer) : Prop where
  log : visible s'.log = visible s.log
  stats : s'.stats = s.stats
  isOpen : s'.isOpen = s.isOpen
  upperOpen : s'.upperOpen = s.upperOpen
  ready : isTxReady s' = isTxReady s
  payload : s'.payload = s.payload

end Spec

open Spec

namespace SecrecyProof

/-! ### Functions -/

theorem verify_same {b b' : Backend} (h : b'.verifyRaw = b.verifyRaw) (x : CertHandler) (caps : Caps) (mode : HandshakeMode) (data : Bytes) :
    x.validate b' caps mode data = x.validate b caps mode data := by
  have e1 : b'.verifyEd25519 = b.verifyEd25519 := by
    funext a s p
    simp only [Backend.verifyEd25519, h]
  have e2 : ∀ p q, verifyPair b' caps p q = verifyPair b caps p q := fun p q => by simp only [verifyPair, e1]
  have e3 : ∀ l p, verifyLoop b' caps p l = verifyLoop b caps p l := by
    intro l
    induction l with
    | nil => exact fun _ => rfl
    | cons q l ih =>
      intro p
      simp only [verifyLoop, e2]
      cases verifyPair b caps p q with
      | error => rfl
      | ok => exact ih _
  cases x <;> simp only [CertHandler.validate, Chain.verify, e3]

/-- Two sessions that behave alike. -/
structure SessionSame (s s' : Session) : Prop where
  valid : s'.valid = s.valid
  fw : s'.frameWriter = s.frameWriter
  ttl : s'.ttlPadMs = s.ttlPadMs
  rx : s'.rxNonce = s.rxNonce
  tx : s'.txNonce = s.txNonce
  param : s'.param = s.param
  verify : s'.algorithms.verifyNonce = s.algorithms.verifyNonce
  read : s.valid = true → ∀ msg n, s'.algorithms.mode.read s'.keys.rxKey msg n = s.algorithms.mode.read s.keys.rxKey msg n
  write : s.valid = true → ∀ md clear n, s'.algorithms.mode.write s'.keys.txKey md clear n = s.algorithms.mode.write s.keys.txKey md clear n

theorem SessionSame.reset {s s' : Session} (h : SessionSame s s') : SessionSame s.reset s'.reset :=
  ⟨rfl, h.fw, h.ttl, h.rx, h.tx, h.param, h.verify, nofun, nofun⟩

theorem SessionSame.validateWith {s s' : Session} (h : SessionSame s s') (st : Stats) (msg : SessionData) (now : Int) (n : Nat)
    (v : UInt16 → UInt16 → Bool) :
    SessionSame (s.validateWith st msg now n v).1 (s'.validateWith st msg now n v).1 ∧
      (s'.validateWith st msg now n v).2 = (s.validateWith st msg now n v).2 := by
  unfold Session.validateWith
  rw [h.valid]
  cases hv : s.valid with
  | false => exact ⟨h, rfl⟩
  | true =>
    simp only [Bool.not_true, Bool.false_eq_true, if_false]
    rw [h.read hv, h.param, h.rx]
    cases s.algorithms.mode.read s.keys.rxKey msg n with
    | error e => exact ⟨h, rfl⟩
    | ok p =>
      simp only
      by_cases c1 : now < s.param.sessionStart
      · simp only [c1, if_true]; exact ⟨h, trivial⟩
      by_cases c2 : now - s.param.sessionStart > s.param.maxSessionTime
      · simp only [c1, c2, if_true, if_false]; exact ⟨h, trivial⟩
      by_cases c3 : now - s.param.sessionStart > ms msg.metadata.valid_until_ms
      · simp only [c1, c2, c3, if_true, if_false]; exact ⟨h, trivial⟩
      by_cases c4 : msg.metadata.nonce > s.param.maxNonce
      · simp only [c1, c2, c3, c4, if_true, if_false]; exact ⟨h, trivial⟩
      simp only [c1, c2, c3, c4, if_false]
      cases v s.rxNonce msg.metadata.nonce with
      | false => exact ⟨h, rfl⟩
      | true =>
        simp only [Bool.not_true, Bool.false_eq_true, if_false]
        exact ⟨⟨rfl, h.fw, h.ttl, rfl, h.tx, rfl, h.verify, fun _ => h.read hv, fun _ => h.write hv⟩, trivial⟩

theorem SessionSame.validateAuth {s s' : Session} (h : SessionSame s s') (st : Stats) (msg : SessionData) (now : Int) (n : Nat) :
    SessionSame (s.validateAuth st msg now n).1 (s'.validateAuth st msg now n).1 ∧
      (s'.validateAuth st msg now n).2 = (s.validateAuth st msg now n).2 := h.validateWith st msg now n _

theorem SessionSame.validateData {s s' : Session} (h : SessionSame s s') (st : Stats) (msg : SessionData) (now : Int) (n : Nat) :
    SessionSame (s.validateData st msg now n).1 (s'.validateData st msg now n).1 ∧
      (s'.validateData st msg now n).2 = (s.validateData st msg now n).2 := by
  unfold Session.validateData
  rw [h.verify]
  obtain ⟨h1, h2⟩ := h.validateWith st msg now n s.algorithms.verifyNonce
  revert h1 h2
  generalize s.validateWith st msg now n s.algorithms.verifyNonce = r
  generalize s'.validateWith st msg now n s.algorithms.verifyNonce = r'
  obtain ⟨t, u, o⟩ := r
  obtain ⟨t', u', o'⟩ := r'
  intro h1 h2
  cases h2
  cases o with
  | error e => exact ⟨h1, rfl⟩
  | ok p =>
    simp only
    split
    · exact ⟨h1, rfl⟩
    · exact ⟨h1, rfl⟩

theorem SessionSame.format {s s' : Session} (h : SessionSame s s') (now : Int) (clear : Bytes) :
    SessionSame (s.formatNoNonceCheck now clear).1 (s'.formatNoNonceCheck now clear).1 ∧
      (s'.formatNoNonceCheck now clear).2 = (s.formatNoNonceCheck now clear).2 := by
  unfold Session.formatNoNonceCheck Session.encryptBufferLen
  rw [h.valid]
  cases hv : s.valid with
  | false => exact ⟨h, rfl⟩
  | true =>
    simp only [Bool.not_true, Bool.false_eq_true, if_false]
    rw [h.param, h.ttl, h.fw, h.tx]
    simp only [h.write hv]
    by_cases c1 : now < s.param.sessionStart
    · simp only [c1, if_true]; exact ⟨h, trivial⟩
    by_cases c2 : now - s.param.sessionStart > s.param.maxSessionTime
    · simp only [c1, c2, if_true, if_false]; exact ⟨h, trivial⟩
    by_cases c3 : s.param.maxSessionTime - (now - s.param.sessionStart) < ms s.ttlPadMs
    · simp only [c1, c2, c3, if_true, if_false]; exact ⟨h, trivial⟩
    simp only [c1, c2, c3, if_false]
    split
    · exact ⟨h, rfl⟩
    · split
      · exact ⟨h, rfl⟩
      · exact ⟨⟨rfl, rfl, rfl, h.rx, rfl, rfl, h.verify, fun _ => h.read hv, fun _ => h.write hv⟩, rfl⟩

theorem SessionSame.formatAuth {s s' : Session} (h : SessionSame s s') (now : Int) (clear : Bytes) :
    SessionSame (s.formatAuth now clear).1 (s'.formatAuth now clear).1 ∧ (s'.formatAuth now clear).2 = (s.formatAuth now clear).2 := by
  unfold Session.formatAuth
  rw [h.tx]
  split
  · exact ⟨h, rfl⟩
  · exact h.format now clear

theorem SessionSame.formatData {s s' : Session} (h : SessionSame s s') (now : Int) (clear : Bytes) :
    SessionSame (s.formatData now clear).1 (s'.formatData now clear).1 ∧ (s'.formatData now clear).2 = (s.formatData now clear).2 := by
  unfold Session.formatData
  rw [h.tx, h.param]
  split
  · exact ⟨h, rfl⟩
  · exact h.format now clear

theorem metadata_length (m : AuthMetadata) : (metadataBytes m).length = 6 := by
  simp [metadataBytes]

/-- Session algorithms of the same configuration. -/
structure AlgSame (b b' : Backend) (a a' : SessionAlgorithms) : Prop where
  verify : a'.verifyNonce = a.verifyNonce
  read : ∀ k k', KeySame b b' k k' → ∀ msg n, a'.mode.read k' msg n = a.mode.read k msg n
  write : ∀ k k', KeySame b b' k k' → ∀ md clear n, a'.mode.write k' md clear n = a.mode.write k md clear n

theorem hmac_same {b b' : Backend} (f : UInt16 → UInt16 → Bool) :
    AlgSame b b' ⟨f, .hmacSha256Trunc16 b⟩ ⟨f, .hmacSha256Trunc16 b'⟩ := by
  refine ⟨rfl, fun k k' h msg n => ?_, fun k k' h md clear n => ?_⟩
  · simp only [SessionMode.read, SessionMode.hmacSha256Trunc16, aeadMacDecrypt, h.length, h.mac _ _ (metadata_length _)]
  · simp only [SessionMode.write, SessionMode.hmacSha256Trunc16, aeadMacEncrypt, h.length, h.mac _ _ (metadata_length _)]

theorem gcm_same {b b' : Backend} (f : UInt16 → UInt16 → Bool) : AlgSame b b' ⟨f, .aes256Gcm b⟩ ⟨f, .aes256Gcm b'⟩ := by
  refine ⟨rfl, fun k k' h msg n => ?_, fun k k' h md clear n => ?_⟩
  · simp only [SessionMode.read, SessionMode.aes256Gcm, gcmDecrypt, h.length, h.decrypt]
  · simp only [SessionMode.write, SessionMode.aes256Gcm, gcmEncrypt, h.length, h.encrypt]

/-- The same configuration is possible or impossible with both. -/
theorem configure_same (b b' : Backend) (caps : Caps) (spec : CryptoSpec) :
    (∃ e, CommonAlgorithms.configure b caps spec = .error e ∧ CommonAlgorithms.configure b' caps spec = .error e) ∨
    ∃ a a', CommonAlgorithms.configure b caps spec = .ok a ∧ CommonAlgorithms.configure b' caps spec = .ok a' ∧
      a.handshake = ⟨b.hash, b.hkdf⟩ ∧ a'.handshake = ⟨b'.hash, b'.hkdf⟩ ∧ AlgSame b b' a.session a'.session := by
  unfold CommonAlgorithms.configure HandshakeAlgorithms.configure SessionAlgorithms.configure
  cases spec.handshake_hash <;> cases spec.handshake_kdf <;> cases caps.sha256 <;> cases spec.session_nonce_mode <;> cases spec.session_crypto_mode <;>
    cases caps.aesGcm <;>
    first
    | exact .inl ⟨_, rfl, rfl⟩
    | exact .inr ⟨_, _, rfl, rfl, rfl, rfl, hmac_same _⟩
    | exact .inr ⟨_, _, rfl, rfl, rfl, rfl, gcm_same _⟩

theorem SessionSame.initialize {b b' : Backend} {s s' : Session} (h : SessionSame s s') {a a' : SessionAlgorithms} (ha : AlgSame b b' a a')
    (st : Stats) (p : SessionParam) {k k' : SessionKeys} (hr : KeySame b b' k.rxKey k'.rxKey) (ht : KeySame b b' k.txKey k'.txKey) :
    SessionSame (s.initialize st a p k).1 (s'.initialize st a' p k').1 ∧ (s'.initialize st a' p k').2 = (s.initialize st a p k).2 := by
  have e : k'.valid = k.valid := by simp only [SessionKeys.valid, hr.length, ht.length]
  unfold Session.initialize
  rw [e]
  cases k.valid with
  | false => exact ⟨h, rfl⟩
  | true => exact ⟨⟨rfl, h.fw, h.ttl, rfl, rfl, rfl, ha.verify, fun _ => ha.read _ _ hr, fun _ => ha.write _ _ ht⟩, rfl⟩


/-! ### Handshakes -/

theorem respond_same {b b' : Backend} {a a' : CommonAlgorithms} (hb : b'.hash = b.hash) (h1 : a.handshake = ⟨b.hash, b.hkdf⟩)
    (h1' : a'.handshake = ⟨b'.hash, b'.hkdf⟩) (ha : AlgSame b b' a.session a'.session) (reply : ReplyHandshakeBegin)
    {ikm ikm' : Except HsFail (List Bytes)}
    (hi : match ikm, ikm' with
      | .ok l, .ok l' => ∀ salt, KeysSame b b' (b.hkdf salt l) (b'.hkdf salt l')
      | .error e, .error e' => e' = e
      | _, _ => False)
    (msg : RequestHandshakeBegin) (raw : Bytes) (now : Int) (fw : FrameWriter) {s s' : Session} (h : SessionSame s s') (st : Stats) :
    SessionSame (respond a reply ikm msg raw now fw s st).1 (respond a' reply ikm' msg raw now fw s' st).1 ∧
      (respond a' reply ikm' msg raw now fw s' st).2 = (respond a reply ikm msg raw now fw s st).2 := by
  unfold respond
  cases reply.write fw.maxPayload.toNat with
  | error e => exact ⟨h, rfl⟩
  | ok w =>
    simp only [h1, h1', hb]
    cases ikm with
    | error e =>
      cases ikm' with
      | error e' => cases hi; exact ⟨h, rfl⟩
      | ok l => exact hi.elim
    | ok l =>
      cases ikm' with
      | error e' => exact hi.elim
      | ok l' =>
        obtain ⟨k1, k2⟩ := hi (handshakeHasher b.hash raw w)
        obtain ⟨i1, i2⟩ := h.initialize ha st ⟨now, msg.constraints.max_nonce, ms msg.constraints.max_session_duration⟩
          (k := ⟨(b.hkdf (handshakeHasher b.hash raw w) l).1, (b.hkdf (handshakeHasher b.hash raw w) l).2⟩)
          (k' := ⟨(b'.hkdf (handshakeHasher b.hash raw w) l').1, (b'.hkdf (handshakeHasher b.hash raw w) l').2⟩) k1 k2
        refine ⟨i1, ?_⟩
        simp only [i2]

variable {c c' : Cfg} {hs hs' : InitiatorHandshake}

/-- Both stations are initiators, or both are responders. -/
theorem role_cases (T : Twins c c' hs hs') : (∃ p l, c.role = .initiator p l ∧ c'.role = .initiator p l) ∨
    ∃ h h', c.role = .responder h ∧ c'.role = .responder h' := by
  have := T.role
  revert this
  cases c.role with
  | initiator p l =>
    cases c'.role with
    | initiator p' l' => rintro ⟨rfl, rfl⟩; exact .inl ⟨p', l', rfl, rfl⟩
    | responder h => exact False.elim
  | responder h =>
    cases c'.role with
    | initiator p' l' => intro hf; cases h <;> exact hf.elim
    | responder h' => exact fun _ => .inr ⟨h, h', rfl, rfl⟩

/-- Both record a quantum key, or none of them does. -/
def UsedSame (u u' : Option (UInt64 × Bytes)) : Prop := u'.isSome = u.isSome

theorem process_same (T : Twins c c' hs hs') {h h' : ResponderHandshake} (e : c.role = .responder h) (e' : c'.role = .responder h')
    {f f' : Fresh} (hf : f.ok) (hA : Answers c.backend c'.backend (secretOf c hs) (secretOf c' hs') f f') (msg : RequestHandshakeBegin) (raw : Bytes)
    (now : Int) {s s' : Session} (hS : SessionSame s s') (st : Stats) :
    SessionSame (h.process c.backend c.caps f.lookup f.rnd msg raw now c.fw s st).1
      (h'.process c'.backend c'.caps f'.lookup f'.rnd msg raw now c'.fw s' st).1 ∧
    (h'.process c'.backend c'.caps f'.lookup f'.rnd msg raw now c'.fw s' st).2.1 =
      (h.process c.backend c.caps f.lookup f.rnd msg raw now c.fw s st).2.1 ∧
    UsedSame (h.process c.backend c.caps f.lookup f.rnd msg raw now c.fw s st).2.2.1
      (h'.process c'.backend c'.caps f'.lookup f'.rnd msg raw now c'.fw s' st).2.2.1 ∧
    (h'.process c'.backend c'.caps f'.lookup f'.rnd msg raw now c'.fw s' st).2.2.2 =
      (h.process c.backend c.caps f.lookup f.rnd msg raw now c.fw s st).2.2.2 := by
  have hr := T.role
  have hK := T.secret
  obtain ⟨-, -, hA⟩ := hA
  rw [T.caps, T.fw]
  simp only [secretOf, e, e'] at hr hK hA
  unfold ResponderHandshake.process
  have hc := configure_same c.backend c'.backend c.caps msg.spec
  cases h with
  | sharedSecret k =>
    cases h' with
    | sharedSecret k' =>
      have hA : f'.rnd = f.rnd := hA
      have hK : SharedSame c.backend c'.backend k k' := hK
      simp only
      split
      · exact ⟨hS, rfl, rfl, rfl⟩
      rename_i hl
      split
      · exact ⟨hS, rfl, rfl, rfl⟩
      rcases hc with ⟨x, c1, c2⟩ | ⟨a, a', c1, c2, c3, c4, c5⟩
      · simp only [c1, c2]; exact ⟨hS, trivial, rfl, trivial⟩
      simp only [c1, c2, hA]
      obtain ⟨r1, r2⟩ := respond_same T.hash c3 c4 c5 ⟨protocolVersion, f.rnd, []⟩ (ikm := .ok [k, msg.mode_ephemeral, f.rnd])
        (ikm' := .ok [k', msg.mode_ephemeral, f.rnd]) (fun salt => hK salt _ _ (Decidable.not_not.mp hl) hf) msg raw now c.fw hS st
      exact ⟨r1, congrArg Prod.fst r2, rfl, congrArg Prod.snd r2⟩
    | qkd => exact hr.elim
    | publicKey sp' certs' => exact hr.elim
  | qkd =>
    cases h' with
    | sharedSecret k' => exact hr.elim
    | qkd =>
      simp only
      split
      · exact ⟨hS, rfl, rfl, rfl⟩
      rcases hc with ⟨x, c1, c2⟩ | ⟨a, a', c1, c2, c3, c4, c5⟩
      · simp only [c1, c2]; exact ⟨hS, trivial, rfl, trivial⟩
      simp only [c1, c2]
      split
      · exact ⟨hS, rfl, rfl, rfl⟩
      have hq := hA.2 (UInt64.ofNat (beNat msg.mode_data))
      cases hl : f.lookup (UInt64.ofNat (beNat msg.mode_data)) with
      | none =>
        cases hl' : f'.lookup (UInt64.ofNat (beNat msg.mode_data)) with
        | none => exact ⟨hS, rfl, rfl, rfl⟩
        | some q' => rw [hl, hl'] at hq; exact hq.elim
      | some q =>
        cases hl' : f'.lookup (UInt64.ofNat (beNat msg.mode_data)) with
        | none => rw [hl, hl'] at hq; exact hq.elim
        | some q' =>
          rw [hl, hl'] at hq
          have hq : QuantumSame c.backend c'.backend q q' := hq
          obtain ⟨r1, r2⟩ := respond_same T.hash c3 c4 c5 ⟨protocolVersion, [], []⟩ (ikm := .ok [q])
            (ikm' := .ok [q']) hq msg raw now c.fw hS st
          dsimp only
          exact ⟨r1, congrArg Prod.fst r2, rfl, congrArg Prod.snd r2⟩
    | publicKey sp' certs' => exact hr.elim
  | publicKey sp certs =>
    cases h' with
    | sharedSecret k' => exact hr.elim
    | qkd => exact hr.elim
    | publicKey sp' certs' =>
      have hr : certs' = certs := hr
      subst hr
      simp only
      rcases hc with ⟨x, c1, c2⟩ | ⟨a, a', c1, c2, c3, c4, c5⟩
      · simp only [c1, c2]; exact ⟨hS, trivial, rfl, trivial⟩
      simp only [c1, c2, verify_same T.verify]
      split
      · exact ⟨hS, rfl, rfl, rfl⟩
      split
      · exact ⟨hS, rfl, rfl, rfl⟩
      split
      · exact ⟨hS, rfl, rfl, rfl⟩
      rename_i remote _
      split
      · exact ⟨hS, rfl, rfl, rfl⟩
      have hA : PairSame c.backend c'.backend sp sp' f.rnd f'.rnd := hA
      obtain ⟨p1, p2⟩ := hA
      have p2 := p2 remote msg.mode_ephemeral
      simp only [Backend.genKeyPair, p1]
      have hi : match (match tripleDH c.backend sp f.rnd remote msg.mode_ephemeral with
            | .error .memory_fault => .error .fault
            | .error _ => .error (.err .unknown)
            | .ok (dh1, dh2, dh3) => .ok [dh1, dh2, dh3] : Except HsFail (List Bytes)),
          (match tripleDH c'.backend sp' f'.rnd remote msg.mode_ephemeral with
            | .error .memory_fault => .error .fault
            | .error _ => .error (.err .unknown)
            | .ok (dh1, dh2, dh3) => .ok [dh1, dh2, dh3] : Except HsFail (List Bytes)) with
        | .ok l, .ok l' => ∀ salt, KeysSame c.backend c'.backend (c.backend.hkdf salt l) (c'.backend.hkdf salt l')
        | .error e, .error e' => e' = e
        | _, _ => False := by
        revert p2
        cases tripleDH c.backend sp f.rnd remote msg.mode_ephemeral with
        | error x =>
          cases tripleDH c'.backend sp' f'.rnd remote msg.mode_ephemeral with
          | error x' => intro p2; cases p2; cases x <;> rfl
          | ok y => exact fun p2 => p2.elim
        | ok x =>
          cases tripleDH c'.backend sp' f'.rnd remote msg.mode_ephemeral with
          | error x' => exact fun p2 => p2.elim
          | ok y => exact fun p2 salt => (p2 salt).1
      obtain ⟨r1, r2⟩ := respond_same T.hash c3 c4 c5 ⟨protocolVersion, c.backend.dhPublic f.rnd, certs'.data⟩ hi msg raw now c.fw hS st
      exact ⟨r1, congrArg Prod.fst r2, rfl, congrArg Prod.snd r2⟩

/-- Two handshake objects with the secrets `K` and `K'`. -/
structure HandSame (c c' : Cfg) (K K' : Secret) (h h' : InitiatorHandshake) : Prop where
  suite : h'.suite = h.suite
  time : h'.timeRequestTx = h.timeRequestTx
  hashed : h'.handshakeHash = h.handshakeHash
  configured : h.Configured c.backend c.caps
  configured' : h'.Configured c'.backend c'.caps
  mode : match K, K', h.mode, h'.mode with
    | .shared k, .shared k', .sharedSecret x n, .sharedSecret x' n' => x = k ∧ x' = k' ∧ n' = n
    | .quantum, .quantum, .qkd none, .qkd none => True
    | .quantum, .quantum, .qkd (some q), .qkd (some q') => QuantumSame c.backend c'.backend q q'
    | .pair sp, .pair sp', .publicKey x certs _, .publicKey x' certs' _ => x = sp ∧ x' = sp' ∧ certs' = certs
    | _, _, _, _ => False

/-- Their ephemeral keys belong together, the nonce has 32 bytes. -/
def EphSame (c c' : Cfg) (h h' : InitiatorHandshake) : Prop :=
  match h.mode, h'.mode with
  | .publicKey sp _ e, .publicKey sp' _ e' => PairSame c.backend c'.backend sp sp' e.priv e'.priv
  | .sharedSecret _ n, .sharedSecret _ _ => n.length = 32
  | _, _ => True

theorem HandSame.algorithms {K K' : Secret} {h h' : InitiatorHandshake} (T : Twins c c' hs hs') (H : HandSame c c' K K' h h') :
    h.algorithms.handshake = ⟨c.backend.hash, c.backend.hkdf⟩ ∧ h'.algorithms.handshake = ⟨c.backend.hash, c'.backend.hkdf⟩ ∧
      AlgSame c.backend c'.backend h.algorithms.session h'.algorithms.session := by
  have h1 := H.configured
  have h2 := H.configured'
  unfold InitiatorHandshake.Configured at h1 h2
  rw [T.caps, H.suite] at h2
  rcases configure_same c.backend c'.backend c.caps h.suite with ⟨e, c1, -⟩ | ⟨a, a', c1, c2, c3, c4, c5⟩
  · rw [h1] at c1; cases c1
  · rw [h1] at c1
    rw [h2] at c2
    cases c1
    cases c2
    exact ⟨c3, by rw [c4, T.hash], c5⟩

theorem finish_same (T : Twins c c' hs hs') {K K' : Secret} {h h' : InitiatorHandshake} (H : HandSame c c' K K' h h') {l l' : List Bytes}
    (hl : ∀ salt, KeysSame c.backend c'.backend (c.backend.hkdf salt l) (c'.backend.hkdf salt l')) (limits : SessionLimits) (now : Int)
    {s s' : Session} (hS : SessionSame s s') (st : Stats) :
    SessionSame (h.finishSession l limits now s st).1 (h'.finishSession l' limits now s' st).1 ∧
      (h'.finishSession l' limits now s' st).2 = (h.finishSession l limits now s st).2 := by
  obtain ⟨a1, a2, a3⟩ := H.algorithms T
  unfold InitiatorHandshake.finishSession
  rw [a1, a2, H.time, H.hashed]
  simp only
  obtain ⟨k1, k2⟩ := hl h.handshakeHash
  split
  · exact ⟨hS, rfl⟩
  obtain ⟨i1, i2⟩ := hS.initialize a3 st
    ⟨now - (now - h.timeRequestTx).tdiv 2, limits.maxNonce, ms limits.maxSessionTimeMs⟩
    (k := ⟨(c.backend.hkdf h.handshakeHash l).2, (c.backend.hkdf h.handshakeHash l).1⟩)
    (k' := ⟨(c'.backend.hkdf h.handshakeHash l').2, (c'.backend.hkdf h.handshakeHash l').1⟩) k2 k1
  revert i1 i2
  generalize s.initialize st h.algorithms.session _ _ = r
  generalize s'.initialize st h'.algorithms.session _ _ = r'
  obtain ⟨t, u, o⟩ := r
  obtain ⟨t', u', o'⟩ := r'
  intro i1 i2
  cases i2
  cases o <;> exact ⟨i1, rfl⟩

theorem HandSame.mix (T : Twins c c' hs hs') {K K' : Secret} {h h' : InitiatorHandshake} (H : HandSame c c' K K' h h') (raw : Bytes) :
    HandSame c c' K K' (h.mix raw) (h'.mix raw) := by
  obtain ⟨a1, a2, -⟩ := H.algorithms T
  exact ⟨H.suite, H.time, by simp only [InitiatorHandshake.mix, a1, a2, H.hashed], H.configured, H.configured', H.mode⟩

theorem initializeSession_same (T : Twins c c' hs hs') {h h' : InitiatorHandshake}
    (hK : SecretSame c.backend c'.backend (secretOf c hs) (secretOf c' hs'))
    (H : HandSame c c' (secretOf c hs) (secretOf c' hs') h h') (hE : EphSame c c' h h') (msg : ReplyHandshakeBegin) (raw : Bytes)
    (limits : SessionLimits) (now : Int) {s s' : Session} (hS : SessionSame s s') (st : Stats) :
    HandSame c c' (secretOf c hs) (secretOf c' hs') (h.initializeSession c.backend c.caps msg raw limits now s st).1
      (h'.initializeSession c'.backend c'.caps msg raw limits now s' st).1 ∧
    EphSame c c' (h.initializeSession c.backend c.caps msg raw limits now s st).1
      (h'.initializeSession c'.backend c'.caps msg raw limits now s' st).1 ∧
    SessionSame (h.initializeSession c.backend c.caps msg raw limits now s st).2.1
      (h'.initializeSession c'.backend c'.caps msg raw limits now s' st).2.1 ∧
    (h'.initializeSession c'.backend c'.caps msg raw limits now s' st).2.2 =
      (h.initializeSession c.backend c.caps msg raw limits now s st).2.2 := by
  have hM := H.mode
  have Hm := H.mix T raw
  have Em : EphSame c c' (h.mix raw) (h'.mix raw) := hE
  revert hM hK Hm hE Em H
  generalize secretOf c hs = K
  generalize secretOf c' hs' = K'
  intro hK H hE hM Hm Em
  unfold InitiatorHandshake.initializeSession
  split at hM
  · rename_i k k' x n x' n' em em'
    obtain ⟨rfl, rfl, rfl⟩ := hM
    have hn : n'.length = 32 := by
      have := hE
      unfold EphSame at this
      rw [em, em'] at this
      exact this
    rw [em, em']
    simp only
    split
    · exact ⟨H, hE, hS, rfl⟩
    rename_i hl
    split
    · exact ⟨H, hE, hS, rfl⟩
    have := finish_same T Hm (l := [x, n', msg.mode_ephemeral]) (l' := [x', n', msg.mode_ephemeral])
      (fun salt => hK salt _ _ hn (Decidable.not_not.mp hl)) limits now hS st
    exact ⟨Hm, Em, this⟩
  · rename_i em em'
    rw [em, em']
    exact ⟨H, hE, hS, rfl⟩
  · rename_i q q' em em'
    rw [em, em']
    simp only
    split
    · exact ⟨H, hE, hS, rfl⟩
    split
    · exact ⟨H, hE, hS, rfl⟩
    exact ⟨Hm, Em, finish_same T Hm (l := [q]) (l' := [q']) hM limits now hS st⟩
  · rename_i sp sp' x certs eph x' certs' eph' em em'
    obtain ⟨rfl, rfl, rfl⟩ := hM
    have hP : PairSame c.backend c'.backend x x' eph.priv eph'.priv := by
      have := hE
      unfold EphSame at this
      rw [em, em'] at this
      exact this
    rw [em, em', T.caps]
    simp only [verify_same T.verify]
    cases certs'.validate c.backend c.caps certs'.mode msg.mode_data with
    | error e => cases e <;> exact ⟨H, hE, hS, rfl⟩
    | ok remote =>
      simp only
      have p2 := hP.2 remote msg.mode_ephemeral
      revert p2
      cases tripleDH c.backend x eph.priv remote msg.mode_ephemeral with
      | error y =>
        cases tripleDH c'.backend x' eph'.priv remote msg.mode_ephemeral with
        | error y' => intro p2; cases p2; cases y <;> exact ⟨Hm, Em, hS, rfl⟩
        | ok y' => exact fun p2 => p2.elim
      | ok y =>
        cases tripleDH c'.backend x' eph'.priv remote msg.mode_ephemeral with
        | error y' => exact fun p2 => p2.elim
        | ok y' => exact fun p2 => ⟨Hm, Em, finish_same T Hm (fun salt => (p2 salt).2) limits now hS st⟩
  · exact hM.elim

theorem initializeNew_same (T : Twins c c' hs hs') {h h' : InitiatorHandshake} (H : HandSame c c' (secretOf c hs) (secretOf c' hs') h h')
    {f f' : Fresh} (hf : f.ok) (hA : Answers c.backend c'.backend (secretOf c hs) (secretOf c' hs') f f') :
    HandSame c c' (secretOf c hs) (secretOf c' hs') (h.initializeNew c.backend f.rnd f.record).1 (h'.initializeNew c'.backend f'.rnd f'.record).1 ∧
    EphSame c c' (h.initializeNew c.backend f.rnd f.record).1 (h'.initializeNew c'.backend f'.rnd f'.record).1 ∧
    (h'.initializeNew c'.backend f'.rnd f'.record).2 = (h.initializeNew c.backend f.rnd f.record).2 ∧
    UsedSame (h.usedRecord f.record) (h'.usedRecord f'.record) := by
  have hM := H.mode
  obtain ⟨-, -, hA⟩ := hA
  revert hM hA H
  generalize secretOf c hs = K
  generalize secretOf c' hs' = K'
  intro H hM hA
  unfold InitiatorHandshake.initializeNew InitiatorHandshake.usedRecord
  split at hM
  · rename_i k k' x n x' n' em em'
    obtain ⟨rfl, rfl, rfl⟩ := hM
    have hA : f'.rnd = f.rnd := hA
    rw [em, em', hA]
    exact ⟨⟨H.suite, H.time, H.hashed, H.configured, H.configured', ⟨rfl, rfl, rfl⟩⟩, hf, rfl, rfl⟩
  · rename_i em em'
    rw [em, em']
    have hA := hA.1
    revert hA
    cases f.record with
    | none =>
      cases f'.record with
      | none => exact fun _ => ⟨⟨H.suite, H.time, H.hashed, H.configured, H.configured', trivial⟩, trivial, rfl, rfl⟩
      | some r => exact fun hA => hA.elim
    | some r =>
      cases f'.record with
      | none => exact fun hA => hA.elim
      | some r' =>
        obtain ⟨id, q⟩ := r
        obtain ⟨id', q'⟩ := r'
        rintro ⟨rfl, hq⟩
        exact ⟨⟨H.suite, H.time, H.hashed, H.configured, H.configured', hq⟩, trivial, rfl, rfl⟩
  · rename_i em em'
    rw [em, em']
    have hA := hA.1
    revert hA
    cases f.record with
    | none =>
      cases f'.record with
      | none => exact fun _ => ⟨⟨H.suite, H.time, H.hashed, H.configured, H.configured', trivial⟩, trivial, rfl, rfl⟩
      | some r => exact fun hA => hA.elim
    | some r =>
      cases f'.record with
      | none => exact fun hA => hA.elim
      | some r' =>
        obtain ⟨id, q⟩ := r
        obtain ⟨id', q'⟩ := r'
        rintro ⟨rfl, hq⟩
        exact ⟨⟨H.suite, H.time, H.hashed, H.configured, H.configured', hq⟩, trivial, rfl, rfl⟩
  · rename_i sp sp' x certs eph x' certs' eph' em em'
    obtain ⟨rfl, rfl, rfl⟩ := hM
    have hA : PairSame c.backend c'.backend x x' f.rnd f'.rnd := hA
    rw [em, em']
    exact ⟨⟨H.suite, H.time, H.hashed, H.configured, H.configured', ⟨rfl, rfl, rfl⟩⟩, hA, by simp only [Backend.genKeyPair, hA.1], rfl⟩
  · exact hM.elim

theorem handshakeMode_same {K K' : Secret} {h h' : InitiatorHandshake} (H : HandSame c c' K K' h h') : h'.handshakeMode = h.handshakeMode := by
  have hM := H.mode
  unfold InitiatorHandshake.handshakeMode
  split at hM
  · rename_i em em'; rw [em, em']
  · rename_i em em'; rw [em, em']
  · rename_i em em'; rw [em, em']
  · rename_i em em'; rw [em, em', hM.2.2]
  · exact hM.elim

theorem HandSame.finalize (T : Twins c c' hs hs') {K K' : Secret} {h h' : InitiatorHandshake} (H : HandSame c c' K K' h h') (w : Bytes)
    (now : Int) : HandSame c c' K K' (h.finalizeRequestTx w now) (h'.finalizeRequestTx w now) := by
  obtain ⟨a1, a2, -⟩ := H.algorithms T
  exact ⟨H.suite, rfl, by simp only [InitiatorHandshake.finalizeRequestTx, a1, a2], H.configured, H.configured', H.mode⟩


/-! ### Layers -/

theorem visible_append (a b : List Obs) : visible (a ++ b) = visible a ++ visible b := by
  simp [visible, List.filter_append]

/-- Two layers that look alike and will go on to do so. -/
structure Sim (c c' : Cfg) (hs hs' : InitiatorHandshake) (s s' : Layer) : Prop where
  isOpen : s'.isOpen = s.isOpen
  upperOpen : s'.upperOpen = s.upperOpen
  rxFlag : s'.rxFlag = s.rxFlag
  lowerReady : s'.lowerReady = s.lowerReady
  active : SessionSame s.active s'.active
  pending : SessionSame s.pending s'.pending
  stats : s'.stats = s.stats
  tx : s'.tx = s.tx
  buf : s'.buf = s.buf
  payloadLen : s'.payloadLen = s.payloadLen
  hst : s'.ini.hs = s.ini.hs
  respTimer : s'.ini.respTimer = s.ini.respTimer
  sessTimer : s'.ini.sessTimer = s.ini.sessTimer
  orphans : s'.ini.orphans = s.ini.orphans
  required : s'.ini.required = s.ini.required
  hand : ∀ p l, c.role = .initiator p l → HandSame c c' (secretOf c hs) (secretOf c' hs') s.ini.handshake s'.ini.handshake
  eph : ∀ p l, c.role = .initiator p l → s.ini.hs = .waitForBeginReply → EphSame c c' s.ini.handshake s'.ini.handshake
  inAuth : s'.inAuth = s.inAuth
  log : visible s'.log = visible s.log

variable {α β : Type}

/-- Two computations that do the same, as far as can be seen, with answers that belong together. -/
def alike (A : Fresh → Fresh → Prop) (S : Layer → Layer → Prop) (Q : α → α → Layer → Layer → Prop) : Run α → Run α → Prop
  | .done a s, r' => match r' with | .done a' s' => Q a a' s s' | _ => False
  | .up cb s k, r' => match r' with | .up cb' s' k' => cb' = cb ∧ S s s' ∧ ∀ t t', S t t' → alike A S Q (k t) (k' t') | _ => False
  | .ask k, r' => match r' with | .ask k' => ∀ f f', f.ok → f'.ok → A f f' → alike A S Q (k f) (k' f') | _ => False
  | .recv s k, r' => match r' with | .recv s' k' => S s s' ∧ ∀ m, alike A S Q (k m) (k' m) | _ => False
  | .loop s k, r' => match r' with | .loop s' k' => S s s' ∧ ∀ t t', S t t' → alike A S Q (k t) (k' t') | _ => False
  | .fault, r' => match r' with | .fault => True | _ => False

theorem alike_bind {A : Fresh → Fresh → Prop} {S : Layer → Layer → Prop} {Q : α → α → Layer → Layer → Prop} {R : β → β → Layer → Layer → Prop}
    {f f' : α → Layer → Run β} (r r' : Run α) (hr : alike A S Q r r')
    (hf : ∀ a a' s s', Q a a' s s' → alike A S R (f a s) (f' a' s')) : alike A S R (r.bind f) (r'.bind f') := by
  induction r generalizing r' with
  | done a s =>
    cases r' with
    | done a' s' => exact hf _ _ _ _ hr
    | _ => exact hr.elim
  | up cb s k ih =>
    cases r' with
    | up cb' s' k' => exact ⟨hr.1, hr.2.1, fun t t' ht => ih t _ (hr.2.2 t t' ht)⟩
    | _ => exact hr.elim
  | ask k ih =>
    cases r' with
    | ask k' => exact fun g g' h1 h2 h3 => ih g _ (hr g g' h1 h2 h3)
    | _ => exact hr.elim
  | recv s k ih =>
    cases r' with
    | recv s' k' => exact ⟨hr.1, fun m => ih m _ (hr.2 m)⟩
    | _ => exact hr.elim
  | loop s k ih =>
    cases r' with
    | loop s' k' => exact ⟨hr.1, fun t t' ht => ih t _ (hr.2 t t' ht)⟩
    | _ => exact hr.elim
  | fault =>
    cases r' with
    | fault => trivial
    | _ => exact hr.elim

/-- The same for functions, from two states that look alike to two states that look alike. -/
def At (c c' : Cfg) (hs hs' : InitiatorHandshake) (s s' : Layer) (m m' : M α) : Prop :=
  alike (Answers c.backend c'.backend (secretOf c hs) (secretOf c' hs')) (Sim c c' hs hs')
    (fun a a' t t' => a' = a ∧ Sim c c' hs hs' t t') (m s) (m' s')

/-- With another postcondition. -/
def AtQ (c c' : Cfg) (hs hs' : InitiatorHandshake) (Q : α → α → Layer → Layer → Prop) (s s' : Layer) (m m' : M α) : Prop :=
  alike (Answers c.backend c'.backend (secretOf c hs) (secretOf c' hs')) (Sim c c' hs hs') Q (m s) (m' s')

def Alike (c c' : Cfg) (hs hs' : InitiatorHandshake) (m m' : M α) : Prop := ∀ s s', Sim c c' hs hs' s s' → At c c' hs hs' s s' m m'

section
variable {s s' : Layer}

theorem At.bind {m m' : M α} {f f' : α → M β} (hm : At c c' hs hs' s s' m m') (hf : ∀ a, Alike c c' hs hs' (f a) (f' a)) :
    At c c' hs hs' s s' (m >>= f) (m' >>= f') :=
  alike_bind _ _ hm fun a a' t t' h => by obtain ⟨rfl, h⟩ := h; exact hf _ t t' h

theorem AtQ.bind {Q : α → α → Layer → Layer → Prop} {R : β → β → Layer → Layer → Prop} {m m' : M α} {f f' : α → M β}
    (hm : AtQ c c' hs hs' Q s s' m m') (hf : ∀ a a' t t', Q a a' t t' → AtQ c c' hs hs' R t t' (f a) (f' a')) :
    AtQ c c' hs hs' R s s' (m >>= f) (m' >>= f') := alike_bind _ _ hm hf

theorem AtQ.read {Q : α → α → Layer → Layer → Prop} {f f' : Layer → M α} (h : AtQ c c' hs hs' Q s s' (f s) (f' s')) :
    AtQ c c' hs hs' Q s s' (Crypto.get >>= f) (Crypto.get >>= f') := h

theorem AtQ.answer {Q : α → α → Layer → Layer → Prop} {f f' : Fresh → M α}
    (h : ∀ x x', x.ok → Answers c.backend c'.backend (secretOf c hs) (secretOf c' hs') x x' → AtQ c c' hs hs' Q s s' (f x) (f' x')) :
    AtQ c c' hs hs' Q s s' (Crypto.ask >>= f) (Crypto.ask >>= f') := fun x x' hf _ hx => h x x' hf hx

theorem Alike.bind {m m' : M α} {f f' : α → M β} (hm : Alike c c' hs hs' m m') (hf : ∀ a, Alike c c' hs hs' (f a) (f' a)) :
    Alike c c' hs hs' (m >>= f) (m' >>= f') := fun s s' h => (hm s s' h).bind hf

theorem Alike.pure (a : α) : Alike c c' hs hs' (Pure.pure a : M α) (Pure.pure a) := fun _ _ h => ⟨rfl, h⟩
theorem Alike.fault : Alike c c' hs hs' (Crypto.fault : M α) Crypto.fault := fun _ _ _ => trivial

/-- After reading the state it is known. -/
theorem Alike.read {f f' : Layer → M α} (h : ∀ s s', Sim c c' hs hs' s s' → At c c' hs hs' s s' (f s) (f' s')) :
    Alike c c' hs hs' (Crypto.get >>= f) (Crypto.get >>= f') := h

theorem At.read {f f' : Layer → M α} (h : At c c' hs hs' s s' (f s) (f' s')) :
    At c c' hs hs' s s' (Crypto.get >>= f) (Crypto.get >>= f') := h

/-- An answer. -/
theorem Alike.answer {f f' : Fresh → M α}
    (h : ∀ x x', x.ok → Answers c.backend c'.backend (secretOf c hs) (secretOf c' hs') x x' → Alike c c' hs hs' (f x) (f' x')) :
    Alike c c' hs hs' (Crypto.ask >>= f) (Crypto.ask >>= f') := fun s s' hS x x' hf _ hx => h x x' hf hx s s' hS

theorem Alike.rawRecv : Alike c c' hs hs' Crypto.rawRecv Crypto.rawRecv := fun _ _ h => ⟨h, fun _ => ⟨rfl, h⟩⟩
theorem Alike.tryRead : Alike c c' hs hs' Crypto.tryRead Crypto.tryRead := fun _ _ h => ⟨h, fun _ _ h => ⟨rfl, h⟩⟩

theorem Alike.modify {f f' : Layer → Layer} (h : ∀ s s', Sim c c' hs hs' s s' → Sim c c' hs hs' (f s) (f' s')) :
    Alike c c' hs hs' (Crypto.modify f) (Crypto.modify f') := fun s s' hS => ⟨rfl, h s s' hS⟩

theorem Alike.note (o : Obs) : Alike c c' hs hs' (Crypto.note o) (Crypto.note o) :=
  Alike.modify fun s s' h => { h with log := by rw [visible_append, visible_append, h.log] }

theorem Alike.hidden {o o' : Obs} (ho : visible [o] = []) (ho' : visible [o'] = []) : Alike c c' hs hs' (Crypto.note o) (Crypto.note o') :=
  Alike.modify fun s s' h => { h with log := by rw [visible_append, visible_append, h.log, ho, ho'] }

theorem Alike.act (a a' : Act) : Alike c c' hs hs' (Crypto.act a) (Crypto.act a') := Alike.modify fun s s' h => { h with }

theorem Alike.upcall (cb : UpCall) : Alike c c' hs hs' (Crypto.upcall cb) (Crypto.upcall cb) :=
  (Alike.note _).bind fun _ _ _ h => ⟨rfl, h, fun _ _ h => ⟨rfl, h⟩⟩

theorem Alike.ite {p : Prop} [Decidable p] {a b a' b' : M α} (ha : Alike c c' hs hs' a a') (hb : Alike c c' hs hs' b b') :
    Alike c c' hs hs' (if p then a else b) (if p then a' else b') := by
  split
  · exact ha
  · exact hb
end

theorem upperOnOpen : Alike c c' hs hs' Crypto.upperOnOpen Crypto.upperOnOpen := by
  unfold Crypto.upperOnOpen
  refine .read fun s s' h => ?_
  rw [h.upperOpen]
  exact Alike.ite (.pure _) (.bind (.modify fun _ _ h => by exact { h with upperOpen := rfl }) fun _ => .upcall _) s s' h

theorem upperOnClose : Alike c c' hs hs' Crypto.upperOnClose Crypto.upperOnClose := by
  unfold Crypto.upperOnClose
  refine .read fun s s' h => ?_
  rw [h.upperOpen]
  exact Alike.ite (.bind (.modify fun _ _ h => by exact { h with upperOpen := rfl }) fun _ => .upcall _) (.pure _) s s' h

theorem upperOnTxReady : Alike c c' hs hs' Crypto.upperOnTxReady Crypto.upperOnTxReady := by
  unfold Crypto.upperOnTxReady
  refine .read fun s s' h => ?_
  rw [h.upperOpen]
  exact Alike.ite (.upcall _) (.pure _) s s' h

theorem upperOnRxReady : Alike c c' hs hs' Crypto.upperOnRxReady Crypto.upperOnRxReady := by
  unfold Crypto.upperOnRxReady
  refine .read fun s s' h => ?_
  rw [h.upperOpen]
  exact Alike.ite (.upcall _) (.pure _) s s' h

theorem lowerStartTx (frame : Bytes) : Alike c c' hs hs' (Crypto.lowerStartTx frame) (Crypto.lowerStartTx frame) := by
  unfold Crypto.lowerStartTx
  refine .read fun s s' h => ?_
  simp only [h.lowerReady]
  exact Alike.bind (.note _) (fun _ => .bind (.modify fun _ _ h => by exact { h with lowerReady := rfl }) fun _ => .pure _) s s' h

theorem lowerStartRx : Alike c c' hs hs' Crypto.lowerStartRx Crypto.lowerStartRx := by
  unfold Crypto.lowerStartRx
  refine .bind .rawRecv fun m => .answer fun x x' _ hx => ?_
  rw [hx.2.1]
  exact .bind (.modify fun _ _ h => { h with buf := rfl }) fun _ => .ite (.pure _) (.bind (.note _) fun _ => .pure _)

theorem getTime : Alike c c' hs hs' Crypto.getTime Crypto.getTime := by
  unfold Crypto.getTime
  refine .answer fun x x' _ hx => ?_
  rw [hx.1]
  exact .pure _

theorem startTimer (k : TimerKind) : Alike c c' hs hs' (Crypto.startTimer k) (Crypto.startTimer k) :=
  .modify fun _ _ h => { h with respTimer := rfl, orphans := by simp only [h.respTimer, h.orphans] }
theorem startSessionTimer (t : Int) : Alike c c' hs hs' (Crypto.startSessionTimer t) (Crypto.startSessionTimer t) :=
  .modify fun _ _ h => { h with sessTimer := rfl, orphans := by simp only [h.sessTimer, h.orphans] }
theorem cancelTimer : Alike c c' hs hs' Crypto.cancelTimer Crypto.cancelTimer := .modify fun _ _ h => { h with respTimer := rfl }
theorem cancelSessionTimer : Alike c c' hs hs' Crypto.cancelSessionTimer Crypto.cancelSessionTimer := .modify fun _ _ h => { h with sessTimer := rfl }
theorem require : Alike c c' hs hs' (modifyIni fun i => { i with required := true }) (modifyIni fun i => { i with required := true }) :=
  .modify fun _ _ h => { h with required := rfl }
theorem setState {st : HState} (hst : st ≠ .waitForBeginReply) : Alike c c' hs hs' (Crypto.setState st) (Crypto.setState st) :=
  .modify fun _ _ h => { h with hst := rfl, eph := fun _ _ _ e => absurd e hst }
/-- The state stays as it is. -/
theorem keepState {s s' : Layer} (h : Sim c c' hs hs' s s') {st : HState} (e : s.ini.hs = st) :
    At c c' hs hs' s s' (Crypto.setState st) (Crypto.setState st) := by
  subst e
  exact ⟨rfl, { h with hst := rfl }⟩

theorem noteKey {u u' : Option (UInt64 × Bytes)} (h : UsedSame u u') : Alike c c' hs hs' (Crypto.noteKey u) (Crypto.noteKey u') := by
  cases u with
  | none =>
    cases u' with
    | none => exact .pure _
    | some r => cases h
  | some r =>
    cases u' with
    | none => cases h
    | some r => exact .hidden rfl rfl

theorem sim_handshake {s s' : Layer} (h : Sim c c' hs hs' s s') {x x' : InitiatorHandshake}
    (hx : HandSame c c' (secretOf c hs) (secretOf c' hs') x x') (hE : EphSame c c' x x') :
    Sim c c' hs hs' { s with ini := { s.ini with handshake := x } } { s' with ini := { s'.ini with handshake := x' } } :=
  { h with hand := fun _ _ _ => hx, eph := fun _ _ _ _ => hE }

/-- What is known when the request has been sent: the ephemeral keys belong together. -/
def Sent (c c' : Cfg) (hs hs' : InitiatorHandshake) (st st' : HState) (s s' : Layer) : Prop :=
  st' = st ∧ Sim c c' hs hs' s s' ∧ (st = .waitForBeginReply → EphSame c c' s.ini.handshake s'.ini.handshake)

theorem idleOnHandshakeRequired (T : Twins c c' hs hs') {p : Params} {l : SessionLimits} (e : c.role = .initiator p l) (now : Int) {s s' : Layer}
    (h : Sim c c' hs hs' s s') :
    AtQ c c' hs hs' (Sent c c' hs hs') s s' (Crypto.idleOnHandshakeRequired c l now) (Crypto.idleOnHandshakeRequired c' l now) := by
  unfold Crypto.idleOnHandshakeRequired
  refine .read ?_
  rw [h.lowerReady]
  split
  · exact ⟨rfl, { h with required := rfl }, nofun⟩
  refine .answer fun f f' hf hA => .read (.read ?_)
  obtain ⟨n1, n2, n3, n4⟩ := initializeNew_same T (h.hand p l e) hf hA
  revert n1 n2 n3 n4
  generalize s.ini.handshake.initializeNew c.backend f.rnd f.record = q
  generalize s'.ini.handshake.initializeNew c'.backend f'.rnd f'.record = q'
  obtain ⟨x, r⟩ := q
  obtain ⟨x', r'⟩ := q'
  generalize s.ini.handshake.usedRecord f.record = u
  generalize s'.ini.handshake.usedRecord f'.record = u'
  intro n1 n2 n3 n4
  dsimp only at n1 n2 n3 ⊢
  cases n3
  have hm : (x'.buildRequest l) = (x.buildRequest l) := by
    funext a b
    simp only [InitiatorHandshake.buildRequest, handshakeMode_same n1, n1.suite]
  have key : ∀ t t', Sim c c' hs hs' t t' → AtQ c c' hs hs' (Sent c c' hs hs') t t'
      (match r with
        | none => do Crypto.startTimer .retry; pure .waitForRetry
        | some (ephemeral, data) =>
          match (x.buildRequest l ephemeral data).write c.fw.maxPayload.toNat with
          | .error _ => pure .badConfiguration
          | .ok written => do
            modifyIni fun i => { i with handshake := x.finalizeRequestTx written now }
            let _ ← Crypto.lowerStartTx (c.fw.wrap written)
            Crypto.startTimer .response
            pure .waitForBeginReply)
      (match r with
        | none => do Crypto.startTimer .retry; pure .waitForRetry
        | some (ephemeral, data) =>
          match (x'.buildRequest l ephemeral data).write c'.fw.maxPayload.toNat with
          | .error _ => pure .badConfiguration
          | .ok written => do
            modifyIni fun i => { i with handshake := x'.finalizeRequestTx written now }
            let _ ← Crypto.lowerStartTx (c'.fw.wrap written)
            Crypto.startTimer .response
            pure .waitForBeginReply) := by
    intro t t' ht
    rw [hm, T.fw]
    cases r with
    | none => exact AtQ.bind (Q := fun _ _ t t' => Sim c c' hs hs' t t') (startTimer _ t t' ht).2 fun _ _ t t' ht => ⟨rfl, ht, nofun⟩
    | some r =>
      obtain ⟨a, d⟩ := r
      dsimp only
      cases (x.buildRequest l a d).write c.fw.maxPayload.toNat with
      | error _ => exact ⟨rfl, ht, nofun⟩
      | ok w =>
        refine ⟨rfl, ?_, fun _ => n2⟩
        have h1 := sim_handshake ht (n1.finalize T w now) (show EphSame c c' (x.finalizeRequestTx w now) (x'.finalizeRequestTx w now) from n2)
        have h2 := (lowerStartTx (c.fw.wrap w) _ _ h1).2
        exact (startTimer .response _ _ h2).2
  exact AtQ.bind (Q := fun _ _ t t' => Sim c c' hs hs' t t') (sim_handshake h n1 n2) fun _ _ t t' ht =>
    AtQ.bind (Q := fun a a' t t' => a' = a ∧ Sim c c' hs hs' t t') (noteKey n4 t t' ht) fun _ _ t t' ht => key t t' ht.2

theorem onHandshakeRequired (T : Twins c c' hs hs') {p : Params} {l : SessionLimits} (e : c.role = .initiator p l) :
    Alike c c' hs hs' (Crypto.onHandshakeRequired c l) (Crypto.onHandshakeRequired c' l) := by
  unfold Crypto.onHandshakeRequired
  refine .bind getTime fun now => .read fun s s' h => ?_
  dsimp only
  rw [h.hst]
  split
  · refine AtQ.bind (idleOnHandshakeRequired T e now h) fun st st' t t' ht => ?_
    obtain ⟨rfl, h1, h2⟩ := ht
    exact ⟨rfl, { h1 with hst := rfl, eph := fun _ _ _ => h2 }⟩
  · exact ⟨rfl, { h with required := rfl, hst := rfl }⟩

theorem supports_same (T : Twins c c' hs hs') (f : Function) : supports c' f = supports c f := by
  rcases role_cases T with ⟨p, l, e, e'⟩ | ⟨h, h', e, e'⟩ <;> unfold supports <;> rw [e, e'] <;> cases f <;> rfl

theorem onSessionNonceChange (T : Twins c c' hs hs') (r t : UInt16) :
    Alike c c' hs hs' (Crypto.onSessionNonceChange c r t) (Crypto.onSessionNonceChange c' r t) := by
  unfold Crypto.onSessionNonceChange
  rcases role_cases T with ⟨p, l, e, e'⟩ | ⟨h, h', e, e'⟩ <;> rw [e, e']
  · exact .ite (.bind cancelSessionTimer fun _ => onHandshakeRequired T e) (.pure _)
  · exact .pure _

theorem onPreTxReady (T : Twins c c' hs hs') : Alike c c' hs hs' (Crypto.onPreTxReady c) (Crypto.onPreTxReady c') := by
  unfold Crypto.onPreTxReady
  rcases role_cases T with ⟨p, l, e, e'⟩ | ⟨h, h', e, e'⟩ <;> rw [e, e']
  · refine .read fun s s' h => ?_
    rw [h.required]
    exact Alike.ite (onHandshakeRequired T e) (.pure _) s s' h
  · exact .pure _

theorem resetStateOnClose (T : Twins c c' hs hs') : Alike c c' hs hs' (Crypto.resetStateOnClose c) (Crypto.resetStateOnClose c') := by
  unfold Crypto.resetStateOnClose
  rcases role_cases T with ⟨p, l, e, e'⟩ | ⟨h, h', e, e'⟩ <;> rw [e, e']
  · exact .modify fun _ _ h => { h with hst := rfl, respTimer := rfl, sessTimer := rfl, required := rfl, eph := nofun }
  · exact .modify fun _ _ h => { h with active := h.active.reset, pending := h.pending.reset }

theorem replyWithHandshakeError (T : Twins c c' hs hs') (x : HandshakeError) :
    Alike c c' hs hs' (Crypto.replyWithHandshakeError c x) (Crypto.replyWithHandshakeError c' x) := by
  unfold Crypto.replyWithHandshakeError
  rw [T.fw]
  split
  · exact .pure _
  · exact .bind (lowerStartTx _) fun _ => .pure _

theorem onParseError (T : Twins c c' hs hs') (f : Function) : Alike c c' hs hs' (Crypto.onParseError c f) (Crypto.onParseError c' f) := by
  unfold Crypto.onParseError
  rcases role_cases T with ⟨p, l, e, e'⟩ | ⟨h, h', e, e'⟩ <;> rw [e, e']
  · exact .pure _
  · cases f
    case request_handshake_begin => exact replyWithHandshakeError T _
    all_goals exact .pure _

theorem validatePendingAuth (T : Twins c c' hs hs') (m : SessionData) (now : Int) :
    Alike c c' hs hs' (Crypto.validatePendingAuth c m now) (Crypto.validatePendingAuth c' m now) := by
  unfold Crypto.validatePendingAuth
  refine .answer fun f f' _ hA => .read fun s s' h => ?_
  obtain ⟨v1, v2⟩ := h.pending.validateAuth s.stats m now c.bufLen
  dsimp only
  rw [h.stats, T.bufLen, v2, hA.2.1]
  exact Alike.bind (.modify fun t t' ht => by exact { ht with pending := v1, stats := rfl, buf := by dsimp only; rw [ht.buf] })
    (fun _ => .bind (.act _ _) fun _ => .pure _) s s' h

theorem validateActiveData (T : Twins c c' hs hs') (m : SessionData) (now : Int) :
    Alike c c' hs hs' (Crypto.validateActiveData c m now) (Crypto.validateActiveData c' m now) := by
  unfold Crypto.validateActiveData
  refine .answer fun f f' _ hA => .read fun s s' h => ?_
  obtain ⟨v1, v2⟩ := h.active.validateData s.stats m now c.bufLen
  dsimp only
  rw [h.stats, T.bufLen, v2, hA.2.1]
  exact Alike.bind (.modify fun t t' ht => by exact { ht with active := v1, stats := rfl, buf := by dsimp only; rw [ht.buf] })
    (fun _ => .bind (.act _ _) fun _ => .pure _) s s' h

theorem activatePending : Alike c c' hs hs' Crypto.activatePending Crypto.activatePending :=
  .modify fun _ _ h => { h with active := h.pending, pending := h.active.reset }
theorem resetBoth : Alike c c' hs hs' Crypto.resetBoth Crypto.resetBoth :=
  .modify fun _ _ h => { h with active := h.active.reset, pending := h.pending.reset }

theorem transmitSessionAuth (onPending : Bool) : Alike c c' hs hs' (Crypto.transmitSessionAuth onPending) (Crypto.transmitSessionAuth onPending) := by
  unfold Crypto.transmitSessionAuth
  refine .bind getTime fun now => .read fun s s' h => ?_
  have hx : SessionSame (if onPending then s.pending else s.active) (if onPending then s'.pending else s'.active) := by
    cases onPending
    · exact h.active
    · exact h.pending
  obtain ⟨v1, v2⟩ := hx.formatAuth now s.tx.remainder
  dsimp only
  rw [h.tx, v2]
  refine Alike.bind (.modify fun t t' ht => ?_) (fun _ => ?_) s s' h
  · cases onPending
    · exact { ht with active := v1 }
    · exact { ht with pending := v1 }
  · split
    · exact .bind (.act _ _) fun _ => .pure _
    · refine .bind (.act _ _) fun _ => .ite (.bind (.modify fun t t' ht => ?_) fun _ => lowerStartTx _) (lowerStartTx _)
      exact { ht with tx := by dsimp only; rw [ht.tx] }

theorem checkTransmit (T : Twins c c' hs hs') : Alike c c' hs hs' (Crypto.checkTransmit c) (Crypto.checkTransmit c') := by
  unfold Crypto.checkTransmit
  refine .read fun s s' h => ?_
  have e : canTransmit s' = canTransmit s := by simp only [canTransmit, h.active.valid, h.lowerReady, h.tx]
  rw [e]
  refine Alike.ite (.pure _) (.bind getTime fun now => .read fun s s' h => ?_) s s' h
  obtain ⟨v1, v2⟩ := h.active.formatData now s.tx.remainder
  dsimp only
  rw [h.tx, v2]
  refine Alike.bind (.modify fun t t' ht => by exact { ht with active := v1 }) (fun _ => ?_) s s' h
  split
  · refine .bind (.modify fun t t' ht => ?_) fun _ => .bind (.act _ _) fun _ => upperOnClose
    exact { ht with active := ht.active.reset }
  · refine .bind (.act _ _) fun _ => .bind (.modify fun t t' ht => ?_) fun _ => .bind (lowerStartTx _) fun _ => .read fun t t' ht => ?_
    · exact { ht with tx := by dsimp only; rw [ht.tx] }
    · rw [ht.active.rx, ht.active.tx]
      exact onSessionNonceChange T _ _ t t' ht

theorem noteEstablished (n : Nat) : Alike c c' hs hs' (Crypto.noteEstablished n) (Crypto.noteEstablished n) := by
  unfold Crypto.noteEstablished
  refine .read fun s s' h => ?_
  rw [h.stats]
  exact Alike.ite (.hidden rfl rfl) (.pure _) s s' h

theorem retry : Alike c c' hs hs' (do Crypto.startTimer .retry; Crypto.setState .waitForRetry) (do Crypto.startTimer .retry; Crypto.setState .waitForRetry) :=
  .bind (startTimer _) fun _ => setState nofun

/-- The timer is cancelled, the rest of the state is known. -/
theorem sim_cancel {s s' : Layer} (h : Sim c c' hs hs' s s') :
    Sim c c' hs hs' { s with ini := { s.ini with respTimer := none } } { s' with ini := { s'.ini with respTimer := none } } :=
  { h with respTimer := rfl }

theorem secrets (T : Twins c c' hs hs') : SecretSame c.backend c'.backend (secretOf c hs) (secretOf c' hs') := T.secret

theorem onReplyBegin (T : Twins c c' hs hs') {p : Params} {l : SessionLimits} (e : c.role = .initiator p l) (msg : ReplyHandshakeBegin) (raw : Bytes)
    (now : Int) : Alike c c' hs hs' (Crypto.onReplyBegin c l msg raw now) (Crypto.onReplyBegin c' l msg raw now) := by
  unfold Crypto.onReplyBegin
  refine .read fun s s' h => ?_
  rw [h.hst]
  cases hst : s.ini.hs
  case waitForBeginReply =>
    refine AtQ.bind (Q := fun _ _ t t' => Sim c c' hs hs' t t' ∧ t.ini.hs = .waitForBeginReply) ⟨sim_cancel h, hst⟩ fun _ _ t t' ht => ?_
    obtain ⟨h, hst⟩ := ht
    refine AtQ.read ?_
    obtain ⟨i1, i2, i3, i4⟩ := initializeSession_same T T.secret (h.hand p l e) (h.eph p l e hst) msg raw l now h.pending t.stats
    dsimp only
    rw [h.stats]
    revert i1 i2 i3 i4
    generalize t.ini.handshake.initializeSession c.backend c.caps msg raw l now t.pending t.stats = r
    generalize t'.ini.handshake.initializeSession c'.backend c'.caps msg raw l now t'.pending t.stats = r'
    obtain ⟨x, sx, st, o⟩ := r
    obtain ⟨x', sx', st', o'⟩ := r'
    intro i1 i2 i3 i4
    cases i4
    have hm : Alike c c' hs hs' (Crypto.modify fun s => { s with ini := { s.ini with handshake := x }, pending := sx, stats := st })
        (Crypto.modify fun s => { s with ini := { s.ini with handshake := x' }, pending := sx', stats := st }) := .modify fun u u' hu => by
      exact { sim_handshake hu i1 i2 with pending := i3, stats := rfl }
    cases o with
    | fault => trivial
    | refused => exact Alike.bind hm (fun _ => retry) t t' h
    | ok =>
      refine Alike.bind hm (fun _ => .bind (noteEstablished _) fun _ => .bind (transmitSessionAuth true) fun ok => ?_) t t' h
      exact .ite retry (.bind (startTimer _) fun _ => setState nofun)
  all_goals exact keepState h hst

theorem onReplyError : Alike c c' hs hs' Crypto.onReplyError Crypto.onReplyError := by
  unfold Crypto.onReplyError
  refine .read fun s s' h => ?_
  rw [h.hst]
  cases hst : s.ini.hs
  case waitForBeginReply => exact Alike.bind cancelTimer (fun _ => retry) s s' h
  case waitForAuthReply => exact Alike.bind cancelTimer (fun _ => retry) s s' h
  all_goals exact keepState h hst

theorem deliver (payload : Bytes) : Alike c c' hs hs'
    (if payload.length ≠ 0 then do Crypto.modify fun s => { s with payloadLen := payload.length }; Crypto.upperOnRxReady else Pure.pure PUnit.unit)
    (if payload.length ≠ 0 then do Crypto.modify fun s => { s with payloadLen := payload.length }; Crypto.upperOnRxReady else Pure.pure PUnit.unit) :=
  .ite (.bind (.modify fun _ _ h => by exact { h with payloadLen := rfl }) fun _ => upperOnRxReady) (.pure _)

theorem initiatorOnAuth (T : Twins c c' hs hs') (p : Params) (msg : SessionData) (now : Int) :
    Alike c c' hs hs' (Crypto.initiatorOnAuth c p msg now) (Crypto.initiatorOnAuth c' p msg now) := by
  unfold Crypto.initiatorOnAuth
  refine .read fun s s' h => ?_
  rw [h.hst]
  cases hst : s.ini.hs
  case waitForAuthReply =>
    refine Alike.bind cancelTimer (fun _ => .bind (validatePendingAuth T msg now) fun r => ?_) s s' h
    cases r with
    | error x => exact retry
    | ok payload =>
      dsimp only
      refine .bind activatePending fun _ => .bind (.modify fun _ _ h => by exact { h with required := rfl }) fun _ => .read fun t t' ht => ?_
      rw [ht.active.param]
      refine Alike.bind (startSessionTimer _) (fun _ => .bind (.modify fun _ _ h => by exact { h with inAuth := rfl }) fun _ =>
        .bind upperOnOpen fun _ => ?_) t t' ht
      have hend : Alike c c' hs hs' (do Crypto.modify fun s => { s with inAuth := false }; Crypto.setState .idle)
          (do Crypto.modify fun s => { s with inAuth := false }; Crypto.setState .idle) :=
        .bind (.modify fun _ _ h => by exact { h with inAuth := rfl }) fun _ => setState nofun
      exact .ite (.bind (.modify fun _ _ h => by exact { h with payloadLen := rfl }) fun _ => .bind upperOnRxReady fun _ => hend) hend
  all_goals exact keepState h hst

theorem responderOnAuth (T : Twins c c' hs hs') (msg : SessionData) (now : Int) :
    Alike c c' hs hs' (Crypto.responderOnAuth c msg now) (Crypto.responderOnAuth c' msg now) := by
  unfold Crypto.responderOnAuth
  refine .read fun s s' h => ?_
  rw [h.pending.valid]
  refine Alike.ite (replyWithHandshakeError T _) (.bind (validatePendingAuth T msg now) fun r => ?_) s s' h
  cases r with
  | error x => exact .pure _
  | ok payload =>
    dsimp only
    exact .bind activatePending fun _ => .bind (transmitSessionAuth false) fun ok => .ite (.pure _) (.bind upperOnOpen fun _ => deliver payload)

theorem onRequestBegin (T : Twins c c' hs hs') {h h' : ResponderHandshake} (e : c.role = .responder h) (e' : c'.role = .responder h')
    (msg : RequestHandshakeBegin) (raw : Bytes) (now : Int) :
    Alike c c' hs hs' (Crypto.onRequestBegin c h msg raw now) (Crypto.onRequestBegin c' h' msg raw now) := by
  unfold Crypto.onRequestBegin
  refine .ite (replyWithHandshakeError T _) (.answer fun f f' hf hA => .read fun s s' hS => ?_)
  obtain ⟨i1, i2, i3, i4⟩ := process_same T e e' hf hA msg raw now hS.pending s.stats
  dsimp only
  rw [hS.stats]
  revert i1 i2 i3 i4
  generalize h.process c.backend c.caps f.lookup f.rnd msg raw now c.fw s.pending s.stats = r
  generalize h'.process c'.backend c'.caps f'.lookup f'.rnd msg raw now c'.fw s'.pending s.stats = r'
  obtain ⟨sx, st, u, o⟩ := r
  obtain ⟨sx', st', u', o'⟩ := r'
  intro i1 i2 i3 i4
  cases i2
  cases i4
  have hm : Alike c c' hs hs' (Crypto.modify fun s => { s with pending := sx, stats := st })
      (Crypto.modify fun s => { s with pending := sx', stats := st }) := .modify fun u u' hu => by
    exact { hu with pending := i1, stats := rfl }
  cases o with
  | error x =>
    cases x with
    | fault => trivial
    | err x =>
      have X := replyWithHandshakeError T x
      refine Alike.bind hm (fun _ => ?_) s s' hS
      cases u <;> cases u' <;> first | cases i3; done | exact .bind (.hidden rfl rfl) fun _ => X | exact .bind (.pure _) fun _ => X | exact X
  | ok frame =>
    have X : Alike c c' hs hs' (do Crypto.noteEstablished s.stats.numInit; let _ ← Crypto.lowerStartTx frame; Pure.pure ())
        (do Crypto.noteEstablished s.stats.numInit; let _ ← Crypto.lowerStartTx frame; Pure.pure ()) :=
      .bind (noteEstablished _) fun _ => .bind (lowerStartTx frame) fun _ => .pure _
    refine Alike.bind hm (fun _ => ?_) s s' hS
    cases u <;> cases u' <;> first | cases i3; done | exact .bind (.hidden rfl rfl) fun _ => X | exact .bind (.pure _) fun _ => X | exact X

theorem onSessionData (T : Twins c c' hs hs') (msg : SessionData) (now : Int) :
    Alike c c' hs hs' (Crypto.onSessionData c msg now) (Crypto.onSessionData c' msg now) := by
  unfold Crypto.onSessionData
  refine .bind (validateActiveData T msg now) fun r => ?_
  cases r with
  | error x => exact .pure _
  | ok payload =>
    dsimp only
    refine .bind (.modify fun _ _ h => by exact { h with payloadLen := rfl }) fun _ => .read fun t t' ht => ?_
    rw [ht.active.rx, ht.active.tx]
    exact Alike.bind (onSessionNonceChange T _ _) (fun _ => upperOnRxReady) t t' ht

theorem onSessionMessage (T : Twins c c' hs hs') (msg : SessionData) (now : Int) :
    Alike c c' hs hs' (Crypto.onSessionMessage c msg now) (Crypto.onSessionMessage c' msg now) := by
  unfold Crypto.onSessionMessage
  refine .ite ?_ (onSessionData T msg now)
  rcases role_cases T with ⟨p, l, e, e'⟩ | ⟨h, h', e, e'⟩ <;> rw [e, e']
  · exact initiatorOnAuth T p msg now
  · exact responderOnAuth T msg now

theorem process (T : Twins c c' hs hs') (m : Bytes) : Alike c c' hs hs' (Crypto.process c m) (Crypto.process c' m) := by
  unfold Crypto.process
  refine .bind getTime fun now => ?_
  cases m with
  | nil => exact .pure _
  | cons raw rest =>
    dsimp only
    rw [supports_same T]
    refine .ite (.pure _) ?_
    cases Function.fromType raw
    case request_handshake_begin =>
      dsimp only
      cases RequestHandshakeBegin.read (raw :: rest) with
      | error _ => exact onParseError T _
      | ok msg =>
        rcases role_cases T with ⟨p, l, e, e'⟩ | ⟨h, h', e, e'⟩ <;> rw [e, e']
        · exact .pure _
        · exact onRequestBegin T e e' msg _ now
    case reply_handshake_begin =>
      dsimp only
      cases ReplyHandshakeBegin.read (raw :: rest) with
      | error _ => exact onParseError T _
      | ok msg =>
        rcases role_cases T with ⟨p, l, e, e'⟩ | ⟨h, h', e, e'⟩ <;> rw [e, e']
        · exact onReplyBegin T e msg _ now
        · exact .pure _
    case reply_handshake_error =>
      dsimp only
      cases ReplyHandshakeError.read (raw :: rest) with
      | error _ => exact onParseError T _
      | ok msg =>
        rcases role_cases T with ⟨p, l, e, e'⟩ | ⟨h, h', e, e'⟩ <;> rw [e, e']
        · exact onReplyError
        · exact .pure _
    case session_data =>
      dsimp only
      cases SessionData.read (raw :: rest) with
      | error _ => exact onParseError T _
      | ok msg => exact onSessionMessage T msg now
    case undefined => exact .pure _

theorem tryReadOne (T : Twins c c' hs hs') : Alike c c' hs hs' (Crypto.tryReadOne c) (Crypto.tryReadOne c') := by
  unfold Crypto.tryReadOne
  refine .read fun s s' h => ?_
  rw [h.lowerReady, h.payloadLen]
  exact Alike.ite (.pure _) (.bind lowerStartRx fun m => .ite (.pure _) (.bind (process T m) fun _ => .pure _)) s s' h

theorem startTx (T : Twins c c' hs hs') (d : Bytes) : Alike c c' hs hs' (Crypto.startTx c d) (Crypto.startTx c' d) := by
  unfold Crypto.startTx
  refine .read fun s s' h => ?_
  have e : isTxReady s' = isTxReady s := by simp only [isTxReady, h.isOpen, h.upperOpen, h.tx]
  dsimp only
  rw [e]
  refine Alike.bind (.note _) (fun _ => .ite (.bind (.modify fun t t' ht => ?_) fun _ => checkTransmit T) (.pure _)) s s' h
  exact { ht with tx := by dsimp only; rw [ht.tx] }

theorem startRx : Alike c c' hs hs' Crypto.startRx Crypto.startRx := by
  unfold Crypto.startRx
  refine .bind (.note _) fun _ => .read fun s s' h => ?_
  rw [h.rxFlag]
  have hend : Alike c c' hs hs' (Crypto.get >>= fun s => if s.payloadLen = 0 then do Crypto.tryRead; Crypto.note (.startRx [])
        else do Crypto.note (.startRx s.payload); Crypto.modify fun s => { s with rxFlag := true })
      (Crypto.get >>= fun s => if s.payloadLen = 0 then do Crypto.tryRead; Crypto.note (.startRx [])
        else do Crypto.note (.startRx s.payload); Crypto.modify fun s => { s with rxFlag := true }) := by
    refine .read fun t t' ht => ?_
    have e : t'.payload = t.payload := by simp only [Layer.payload, ht.buf, ht.payloadLen]
    rw [e, ht.payloadLen]
    exact Alike.ite (.bind .tryRead fun _ => .note _) (.bind (.note _) fun _ => .modify fun _ _ h => by exact { h with rxFlag := rfl }) t t' ht
  exact Alike.ite (.bind (.modify fun _ _ h => by exact { h with payloadLen := rfl, rxFlag := rfl }) fun _ => hend) hend s s' h

theorem onLowerOpen (T : Twins c c' hs hs') : Alike c c' hs hs' (Crypto.onLowerOpen c) (Crypto.onLowerOpen c') := by
  unfold Crypto.onLowerOpen
  refine .read fun s s' h => ?_
  rw [h.isOpen]
  refine Alike.ite (.pure _) (.bind (.modify fun _ _ h => by exact { h with isOpen := rfl }) fun _ => .bind (.note _) fun _ => ?_) s s' h
  rcases role_cases T with ⟨p, l, e, e'⟩ | ⟨h, h', e, e'⟩ <;> rw [e, e']
  · exact onHandshakeRequired T e
  · exact .pure _

theorem onLowerClose (T : Twins c c' hs hs') : Alike c c' hs hs' (Crypto.onLowerClose c) (Crypto.onLowerClose c') := by
  unfold Crypto.onLowerClose
  refine .read fun s s' h => ?_
  rw [h.isOpen]
  refine Alike.ite (.bind (.modify fun _ _ h => by exact { h with isOpen := rfl }) fun _ => .bind (.note _) fun _ =>
    .bind (resetStateOnClose T) fun _ => .bind resetBoth fun _ => .bind (.modify fun _ _ h => by exact { h with payloadLen := rfl }) fun _ =>
    .bind upperOnClose fun _ => .bind (.modify fun t t' ht => ?_) fun _ => .bind (.act _ _) fun _ => .modify fun t t' ht => ?_) (.pure _) s s' h
  · exact { ht with tx := by dsimp only; rw [ht.tx] }
  · exact { ht with rxFlag := by dsimp only; rw [ht.rxFlag, T.viaStack] }

theorem onLowerRxReady : Alike c c' hs hs' Crypto.onLowerRxReady Crypto.onLowerRxReady := by
  unfold Crypto.onLowerRxReady
  refine .read fun s s' h => ?_
  rw [h.isOpen]
  exact Alike.ite .tryRead (.pure _) s s' h

theorem onLowerTxReady (T : Twins c c' hs hs') : Alike c c' hs hs' (Crypto.onLowerTxReady c) (Crypto.onLowerTxReady c') := by
  unfold Crypto.onLowerTxReady
  refine .read fun s s' h => ?_
  rw [h.isOpen]
  refine Alike.ite (.read fun t t' ht => ?_) (.pure _) s s' h
  dsimp only
  rw [ht.tx]
  exact Alike.bind (.modify fun _ _ h => by exact { h with tx := rfl }) (fun _ => .bind (onPreTxReady T) fun _ =>
    .ite (.bind upperOnTxReady fun _ => .bind .tryRead fun _ => checkTransmit T)
      (.bind .tryRead fun _ => checkTransmit T)) t t' ht

theorem onResponseTimeout : Alike c c' hs hs' Crypto.onResponseTimeout Crypto.onResponseTimeout := by
  unfold Crypto.onResponseTimeout
  refine .read fun s s' h => ?_
  rw [h.hst]
  cases hst : s.ini.hs
  case waitForBeginReply => exact retry s s' h
  case waitForAuthReply => exact retry s s' h
  all_goals exact keepState h hst

theorem onRetryTimeout (T : Twins c c' hs hs') {p : Params} {l : SessionLimits} (e : c.role = .initiator p l) :
    Alike c c' hs hs' (Crypto.onRetryTimeout c l) (Crypto.onRetryTimeout c' l) := by
  unfold Crypto.onRetryTimeout
  refine .read fun s s' h => ?_
  rw [h.hst]
  cases hst : s.ini.hs
  case waitForRetry =>
    dsimp only
    exact Alike.bind (setState (st := .idle) nofun) (fun _ => onHandshakeRequired T e) s s' h
  all_goals exact (keepState h hst).bind fun _ => onHandshakeRequired T e

theorem onExpiry (T : Twins c c' hs hs') (x : Expiry) : Alike c c' hs hs' (Crypto.onExpiry c x) (Crypto.onExpiry c' x) := by
  unfold Crypto.onExpiry
  rcases role_cases T with ⟨p, l, e, e'⟩ | ⟨h, h', e, e'⟩ <;> rw [e, e']
  · have ho : Alike c c' hs hs' (modifyIni fun i => { i with orphans := i.orphans - 1 }) (modifyIni fun i => { i with orphans := i.orphans - 1 }) :=
      .modify fun t t' ht => { ht with orphans := by dsimp only; rw [ht.orphans] }
    cases x
    · exact .bind cancelTimer fun _ => onResponseTimeout
    · exact .bind cancelTimer fun _ => onRetryTimeout T e
    · exact .bind cancelSessionTimer fun _ => onHandshakeRequired T e
    · exact .bind ho fun _ => onResponseTimeout
    · exact .bind ho fun _ => onRetryTimeout T e
    · exact .bind ho fun _ => onHandshakeRequired T e
  · exact .pure _

theorem api (T : Twins c c' hs hs') (a : Api) : Alike c c' hs hs' (a.run c) (a.run c') := by
  cases a with
  | startTx d => exact startTx T d
  | startRx => exact startRx

theorem ready (r : Bool) : Alike c c' hs hs' (Crypto.modify fun s => { s with lowerReady := r }) (Crypto.modify fun s => { s with lowerReady := r }) :=
  .modify fun _ _ h => { h with lowerReady := rfl }

theorem event (T : Twins c c' hs hs') (e : Event) : Alike c c' hs hs' (e.run c) (e.run c') := by
  cases e with
  | lowerOpen r =>
    unfold Event.run
    refine .read fun s s' h => ?_
    rw [h.isOpen]
    exact Alike.ite (onLowerOpen T) (.bind (.note _) fun _ => .bind (ready r) fun _ => onLowerOpen T) s s' h
  | lowerClose r => exact .bind (.note _) fun _ => .bind (ready r) fun _ => onLowerClose T
  | lowerTxReady => exact .bind (.note _) fun _ => .bind (ready true) fun _ => onLowerTxReady T
  | lowerRxReady => exact onLowerRxReady
  | expiry x => exact onExpiry T x

/-! ### Executions -/

/-- The functions that the two applications have interrupted. -/
inductive StackSame (c c' : Cfg) (hs hs' : InitiatorHandshake) : List (Layer → Run Unit) → List (Layer → Run Unit) → Prop
  | nil : StackSame c c' hs hs' [] []
  | cons {k k' : Layer → Run Unit} {st st' : List (Layer → Run Unit)} : Alike c c' hs hs' (α := Unit) k k' → StackSame c c' hs hs' st st' →
      StackSame c c' hs hs' (k :: st) (k' :: st')

theorem StackSame.length {st st' : List (Layer → Run Unit)} (h : StackSame c c' hs hs' st st') : st'.length = st.length := by
  induction h with
  | nil => rfl
  | cons _ _ ih => simp only [List.length_cons, ih]

/-- Computations that do the same as far as can be seen. -/
def RunSame (c c' : Cfg) (hs hs' : InitiatorHandshake) (r r' : Run Unit) : Prop :=
  alike (Answers c.backend c'.backend (secretOf c hs) (secretOf c' hs')) (Sim c c' hs hs') (fun a a' t t' => a' = a ∧ Sim c c' hs hs' t t') r r'

structure ConfSame (c c' : Cfg) (hs hs' : InitiatorHandshake) (x x' : Config) : Prop where
  ctl : match x.ctl, x'.ctl with
    | .env s, .env s' => Sim c c' hs hs' s s'
    | .code r, .code r' => RunSame c c' hs hs' r r'
    | _, _ => False
  stack : StackSame c c' hs hs' x.stack x'.stack

theorem init_same (T : Twins c c' hs hs') : Sim c c' hs hs' (Layer.new c hs) (Layer.new c' hs') := by
  have hn : SessionSame (Session.new c.backend c.fw c.ttlPadMs) (Session.new c'.backend c'.fw c'.ttlPadMs) :=
    ⟨rfl, T.fw, T.ttl, rfl, rfl, rfl, rfl, nofun, nofun⟩
  refine ⟨rfl, rfl, rfl, rfl, hn, hn, rfl, rfl, rfl, rfl, rfl, rfl, rfl, rfl, rfl, fun p l e => ?_, nofun, rfl, rfl⟩
  refine ⟨T.suite, T.time, T.hashed, T.configured, T.configured', ?_⟩
  have hM := T.mode ⟨p, l, e⟩
  have e' : ∃ p l, c'.role = .initiator p l := by
    rcases role_cases T with ⟨p, l, _, e'⟩ | ⟨h, h', e1, _⟩
    · exact ⟨p, l, e'⟩
    · rw [e] at e1; cases e1
  obtain ⟨p', l', e'⟩ := e'
  unfold secretOf
  rw [e, e']
  show match (match hs.mode with | .sharedSecret k _ => Secret.shared k | .qkd _ => .quantum | .publicKey sp _ _ => .pair sp),
      (match hs'.mode with | .sharedSecret k _ => Secret.shared k | .qkd _ => .quantum | .publicKey sp _ _ => .pair sp), hs.mode, hs'.mode with
    | .shared k, .shared k', .sharedSecret x n, .sharedSecret x' n' => x = k ∧ x' = k' ∧ n' = n
    | .quantum, .quantum, .qkd none, .qkd none => True
    | .quantum, .quantum, .qkd (some q), .qkd (some q') => QuantumSame c.backend c'.backend q q'
    | .pair sp, .pair sp', .publicKey x certs _, .publicKey x' certs' _ => x = sp ∧ x' = sp' ∧ certs' = certs
    | _, _, _, _ => False
  revert hM
  cases hs.mode with
  | sharedSecret k n =>
    cases hs'.mode with
    | sharedSecret k' n' => exact fun hM => ⟨rfl, rfl, hM⟩
    | qkd q => exact False.elim
    | publicKey sp' certs' e' => exact False.elim
  | qkd q =>
    cases q with
    | some q => exact False.elim
    | none =>
      cases hs'.mode with
      | sharedSecret k' n' => exact False.elim
      | qkd q =>
        cases q with
        | none => exact fun _ => trivial
        | some q => exact False.elim
      | publicKey sp' certs' e' => exact False.elim
  | publicKey sp certs e =>
    cases hs'.mode with
    | sharedSecret k' n' => exact False.elim
    | qkd q => cases q <;> exact False.elim
    | publicKey sp' certs' e' => exact fun hM => ⟨rfl, rfl, hM⟩

theorem together_same (T : Twins c c' hs hs') {x x' : Config} (h : Together c c' hs hs' x x') : ConfSame c c' hs hs' x x' := by
  induction h with
  | init => exact ⟨init_same T, .nil⟩
  | event e _ _ _ ih => exact ⟨event T e _ _ ih.ctl, .nil⟩
  | api a _ ih => exact ⟨api T a _ _ ih.ctl, ih.stack⟩
  | ret _ ih =>
    obtain ⟨i1, i2⟩ := ih
    cases i2 with
    | cons hk hst => exact ⟨hk _ _ i1, hst⟩
  | done _ ih => exact ⟨ih.ctl.2, ih.stack⟩
  | up _ ih => exact ⟨ih.ctl.2.1, .cons ih.ctl.2.2 ih.stack⟩
  | ask f f' h1 h2 h3 _ ih => exact ⟨ih.ctl f f' h1 h2 h3, ih.stack⟩
  | recv m _ ih => exact ⟨ih.ctl.2 m, ih.stack⟩
  | loop _ ih =>
    refine ⟨alike_bind _ _ (tryReadOne T _ _ ih.ctl.1) fun a a' t t' ht => ?_, ih.stack⟩
    obtain ⟨rfl, ht⟩ := ht
    cases a' with
    | true => exact ⟨ht, ih.ctl.2⟩
    | false => exact ih.ctl.2 t t' ht

theorem Sim.indistinguishable {s s' : Layer} (h : Sim c c' hs hs' s s') : Indistinguishable s s' where
  log := h.log
  stats := h.stats
  isOpen := h.isOpen
  upperOpen := h.upperOpen
  ready := by simp only [isTxReady, h.isOpen, h.upperOpen, h.tx]
  payload := by simp only [Layer.payload, h.buf, h.payloadLen]

theorem enabled_same {s s' : Layer} (h : Sim c c' hs hs' s s') {e : Event} (he : e.enabled s) : e.enabled s' := by
  cases e with
  | expiry x => cases x <;> simp only [Event.enabled, h.respTimer, h.sessTimer, h.orphans] at he ⊢ <;> exact he
  | _ => trivial

end SecrecyProof

/-! ## Theorems -/

/-- **C64.** When the two stations are given the same input, nothing distinguishes them: they hand control back at the same
points, with the same messages sent, the same callbacks, the same results of calls, the same statistics. -/
theorem C64_same {c c' : Cfg} {hs hs' : InitiatorHandshake} (T : Twins c c' hs hs') {x x' : Config} (h : Together c c' hs hs' x x') :
    (∀ s st, x = ⟨.env s, st⟩ → ∃ s' st', x' = ⟨.env s', st'⟩ ∧ st'.length = st.length ∧ Indistinguishable s s') ∧
    (∀ s' st', x' = ⟨.env s', st'⟩ → ∃ s st, x = ⟨.env s, st⟩) ∧
    ((∃ st, x = ⟨.code .fault, st⟩) ↔ ∃ st', x' = ⟨.code .fault, st'⟩) := by
  obtain ⟨h1, h2⟩ := SecrecyProof.together_same T h
  obtain ⟨ctl, st⟩ := x
  obtain ⟨ctl', st'⟩ := x'
  cases ctl with
  | env s =>
    cases ctl' with
    | env s' =>
      refine ⟨fun _ _ e => ?_, fun _ _ _ => ⟨s, st, rfl⟩, ⟨?_, ?_⟩⟩
      · cases e; exact ⟨s', st', rfl, h2.length, h1.indistinguishable⟩
      · rintro ⟨_, e⟩; cases e
      · rintro ⟨_, e⟩; cases e
    | code r => exact h1.elim
  | code r =>
    cases ctl' with
    | env s' => exact h1.elim
    | code r' =>
      refine ⟨fun _ _ e => (by cases e), fun _ _ e => (by cases e), ⟨?_, ?_⟩⟩
      · rintro ⟨_, e⟩
        cases e
        cases r' with
        | fault => exact ⟨_, rfl⟩
        | _ => exact h1.elim
      · rintro ⟨_, e⟩
        cases e
        cases r with
        | fault => exact ⟨_, rfl⟩
        | _ => exact h1.elim

/-- Every step of the one station can be followed by the other, if each answer that the first one may get has a
counterpart. -/
theorem C64_follows {c c' : Cfg} {hs hs' : InitiatorHandshake} (T : Twins c c' hs hs')
    (hA : ∀ f : Fresh, f.ok → ∃ f' : Fresh, f'.ok ∧ Answers c.backend c'.backend (secretOf c hs) (secretOf c' hs') f f')
    {x x' y : Config} (h : Together c c' hs hs' x x') (hst : Step c anyEnv x y) : ∃ y', Step c' anyEnv x' y' ∧ Together c c' hs hs' y y' := by
  obtain ⟨h1, h2⟩ := SecrecyProof.together_same T h
  obtain ⟨ctl', st'⟩ := x'
  cases hst with
  | event e s he =>
    cases ctl' with
    | code r => exact h1.elim
    | env s' =>
      cases h2
      have he' := SecrecyProof.enabled_same h1 he
      exact ⟨_, .event e s' he', .event e h he he'⟩
  | api a s =>
    cases ctl' with
    | code r => exact h1.elim
    | env s' => cases h2; exact ⟨_, .api a s', .api a h⟩
  | nestedApi a s k st _ =>
    cases ctl' with
    | code r => exact h1.elim
    | env s' => cases h2; exact ⟨_, .nestedApi a s' _ _ trivial, .api a h⟩
  | ret s k st =>
    cases ctl' with
    | code r => exact h1.elim
    | env s' => cases h2; exact ⟨_, .ret s' _ _, .ret h⟩
  | done s st =>
    cases ctl' with
    | env s' => exact h1.elim
    | code r =>
      cases r with
      | done a s' => exact ⟨_, .done s' _, .done h⟩
      | _ => exact h1.elim
  | up cb s k st =>
    cases ctl' with
    | env s' => exact h1.elim
    | code r =>
      cases r with
      | up cb' s' k' => exact ⟨_, .up cb' s' k' _, .up h⟩
      | _ => exact h1.elim
  | ask f k st hf =>
    cases ctl' with
    | env s' => exact h1.elim
    | code r =>
      cases r with
      | ask k' =>
        obtain ⟨f', hf', ha⟩ := hA f hf
        exact ⟨_, .ask f' k' _ hf', .ask f f' hf hf' ha h⟩
      | _ => exact h1.elim
  | recv m s k st _ =>
    cases ctl' with
    | env s' => exact h1.elim
    | code r =>
      cases r with
      | recv s' k' => exact ⟨_, .recv m s' k' _ trivial, .recv m h⟩
      | _ => exact h1.elim
  | loop s k st =>
    cases ctl' with
    | env s' => exact h1.elim
    | code r =>
      cases r with
      | loop s' k' => exact ⟨_, .loop s' k' _, .loop h⟩
      | _ => exact h1.elim

namespace Spec

/-- Any environment, and an initiator that is created with the given handshake object. -/
def startedWith (hs : InitiatorHandshake) : Env := { anyEnv with config := (· = hs) }

end Spec

/-- **C64.** Whatever a station can be seen to do, it can be seen to do with the other secrets too. -/
theorem C64_possible {c c' : Cfg} {hs hs' : InitiatorHandshake} (T : Twins c c' hs hs')
    (hA : ∀ f : Fresh, f.ok → ∃ f' : Fresh, f'.ok ∧ Answers c.backend c'.backend (secretOf c hs) (secretOf c' hs') f f') {s : Layer}
    (h : Quiet c (startedWith hs) s) : ∃ s', Quiet c' (startedWith hs') s' ∧ Indistinguishable s s' := by
  have key : ∀ x, Reachable c (startedWith hs) x → ∃ x', Reachable c' (startedWith hs') x' ∧ Together c c' hs hs' x x' := by
    intro x hx
    induction hx with
    | init handshake _ he =>
      have he : handshake = hs := he
      subst he
      exact ⟨_, .init hs' T.configured' rfl, .init⟩
    | @step x y _ hst ih =>
      obtain ⟨x', hr, ht⟩ := ih
      have hst' : Step c anyEnv x y := by
        cases hst
        all_goals first | exact .event _ _ ‹_› | exact .api _ _ | exact .nestedApi _ _ _ _ trivial | exact .ret _ _ _ | exact .done _ _ |
          exact .up _ _ _ _ | exact .ask _ _ _ ‹_› | exact .recv _ _ _ _ trivial | exact .loop _ _ _
      obtain ⟨y', hy, ht⟩ := C64_follows T hA ht hst'
      have hy' : Step c' (startedWith hs') x' y' := by
        cases hy
        all_goals first | exact .event _ _ ‹_› | exact .api _ _ | exact .nestedApi _ _ _ _ trivial | exact .ret _ _ _ | exact .done _ _ |
          exact .up _ _ _ _ | exact .ask _ _ _ ‹_› | exact .recv _ _ _ _ trivial | exact .loop _ _ _
      exact ⟨y', hr.step hy', ht⟩
  obtain ⟨x', hr, ht⟩ := key _ h
  obtain ⟨s', st', e, hl, hi⟩ := (C64_same T ht).1 _ _ rfl
  subst e
  cases st' with
  | nil => exact ⟨s', hr, hi⟩
  | cons k st => cases hl

/-- For stations with a shared secret no hypothesis about the environment is needed. -/
theorem C64_shared_secret {c c' : Cfg} {hs hs' : InitiatorHandshake} (T : Twins c c' hs hs') {k : Bytes} (hk : secretOf c hs = .shared k)
    {s : Layer} (h : Quiet c (startedWith hs) s) : ∃ s', Quiet c' (startedWith hs') s' ∧ Indistinguishable s s' := by
  refine C64_possible T (fun f hf => ⟨f, hf, rfl, rfl, ?_⟩) h
  have hs2 := T.secret
  revert hs2
  rw [hk]
  cases secretOf c' hs' with
  | shared k' => exact fun _ => rfl
  | _ => exact False.elim

end SSP21.Crypto
