import Verif.Props.Open
import Verif.Props.ConfigFile
import Verif.Props.OneUse
import Verif.Props.Streams
/-
  Property C52: when an initiator and a responder have completed a handshake with each other, they have the same keys,
  algorithms and limits. Both are complete layers, in any execution of their own; the only assumptions are that their
  credentials match and that the request and the reply of this handshake arrived as they were sent.
-/
namespace SSP21.Crypto

namespace Spec

/-- A handshake request, by its function code. -/
def IsRequest (m : Bytes) : Prop := m.head? = some 0

/-- `m` is the last handshake request that was handed to the layer below. -/
def LastRequestSent (fw : FrameWriter) (log : List Obs) (m : Bytes) : Prop :=
  IsRequest m ∧ m.length ≤ fw.maxPayload.toNat ∧ ∃ before after ready, log = before ++ .lowerTx (fw.wrap m) ready :: after ∧
    ∀ m' ready', IsRequest m' → Obs.lowerTx (fw.wrap m') ready' ∉ after

/-- `m` is the last message that was read from the layer below. -/
def LastRead (log : List Obs) (m : Bytes) : Prop :=
  ∃ before after, log = before ++ .recv m :: after ∧ ∀ m', Obs.recv m' ∉ after

/-- Different messages are sent in different frames. -/
def Faithful (fw : FrameWriter) : Prop :=
  ∀ m m', m.length ≤ fw.maxPayload.toNat → m'.length ≤ fw.maxPayload.toNat → fw.wrap m = fw.wrap m' → m = m'

/-- The credentials of an initiator and a responder match: the same shared secret; or quantum keys; or each validates what
the other presents, and obtains the public key that belongs to the private key of the other. -/
inductive Credentials (b : Backend) (caps caps' : Caps) : InitiatorHandshake → ResponderHandshake → Prop
  | sharedSecret (suite : CryptoSpec) (key : Bytes) (h : InitiatorHandshake) :
      InitiatorHandshake.mkSharedSecret b caps suite key = some h → Credentials b caps caps' h (.sharedSecret key)
  | qkd (suite : CryptoSpec) (h : InitiatorHandshake) :
      InitiatorHandshake.mkQkd b caps suite = some h → Credentials b caps caps' h .qkd
  | publicKey (suite : CryptoSpec) (static static' : Bytes) (certs certs' : CertHandler) (h : InitiatorHandshake) :
      InitiatorHandshake.mkPublicKey b caps suite static certs = some h →
      certs.validate b caps certs.mode certs'.data = .ok (b.dhPublic static') →
      certs'.validate b caps' certs.mode certs.data = .ok (b.dhPublic static) →
      Credentials b caps caps' h (.publicKey static' certs')

/-- The two stores of quantum keys deliver the same key under the same id. -/
def SameQuantumKeys (log log' : List Obs) : Prop :=
  ∀ id key key', Obs.keyUsed (id, key) ∈ log → Obs.keyUsed (id, key') ∈ log' → key' = key

/-- An initiator and a responder that can talk to each other: the same cryptographic primitives, matching credentials,
frame writers that do not confuse messages. -/
structure Peers (c c' : Cfg) (E : Env) (limits : SessionLimits) : Prop where
  lawful : c.backend.Lawful
  backend : c'.backend = c.backend
  initiator : ∃ params, c.role = .initiator params limits
  responder : ∃ rh, c'.role = .responder rh ∧ (∀ h, E.config h → Credentials c.backend c.caps c'.caps h rh) ∧
    Faithful c.fw ∧ Faithful c'.fw

/-- The handshake took place between the two: the initiator, whose observations before it installed keys are `pre`, and the
responder, whose observations before and after it installed keys are `pre'` and `post'`. What the responder read last is the
last request of the initiator; what the initiator read last is what the responder then sent. -/
structure Exchanged (c c' : Cfg) (pre pre' post' : List Obs) : Prop where
  request : ∃ m, LastRequestSent c.fw pre m ∧ LastRead pre' m
  reply : ∃ m ready, post'.head? = some (.lowerTx (c'.fw.wrap m) ready) ∧ m.length ≤ c'.fw.maxPayload.toNat ∧ LastRead pre m
  quantum : SameQuantumKeys pre pre'

/-- The number of times that keys were installed. -/
def installations (log : List Obs) : Nat :=
  (log.filter fun o => match o with | .established _ _ _ => true | _ => false).length

/-- Session `n` of the initiator and session `n'` of the responder were made by a handshake between the two. -/
def SameHandshake (c c' : Cfg) (s s' : Layer) (n n' : Nat) : Prop :=
  ∃ pre k a p post pre' k' a' p' post', s.log = pre ++ .established k a p :: post ∧ installations pre = n ∧
    s'.log = pre' ++ .established k' a' p' :: post' ∧ installations pre' = n' ∧ Exchanged c c' pre pre' post'

end Spec

/-! ### Codecs -/

theorem andThen_ok {w1 w2 : Nat → Except FormatError Bytes} {cap : Nat} {r : Bytes} (h : andThen w1 w2 cap = .ok r) :
    ∃ a b, w1 cap = .ok a ∧ w2 (cap - a.length) = .ok b ∧ r = a ++ b := by
  unfold andThen at h
  split at h
  · cases h
  · rename_i a ha
    split at h
    · cases h
    · rename_i b hb
      cases h
      exact ⟨a, b, ha, hb, rfl⟩

theorem emit_ok {bs r : Bytes} {cap : Nat} (h : emit bs cap = .ok r) : bs.length ≤ cap ∧ r = bs := by
  unfold emit at h
  split at h
  · cases h; exact ⟨by assumption, rfl⟩
  · cases h

theorem seqByte_fits {d r : Bytes} {cap : Nat} (h : Codec.seqByte.write d cap = .ok r) : d.length ≤ cap := by
  obtain ⟨a, b, h1, h2, h3⟩ := andThen_ok (show andThen _ _ cap = _ from h)
  have := (emit_ok h2).1
  omega

theorem seqByte2_fits {d d' r : Bytes} {cap : Nat} (h : (Codec.pair Codec.seqByte Codec.seqByte).write (d, d') cap = .ok r) :
    d.length ≤ cap ∧ d'.length ≤ cap := by
  obtain ⟨a, b, h1, h2, h3⟩ := andThen_ok (show andThen _ _ cap = _ from h)
  have h4 : d.length ≤ cap := seqByte_fits h1
  have h5 : d'.length ≤ cap - a.length := seqByte_fits h2
  omega

theorem request_fits {m : RequestHandshakeBegin} {r : Bytes} {cap : Nat} (h : RequestHandshakeBegin.write m cap = .ok r) :
    m.mode_ephemeral.length ≤ cap ∧ m.mode_data.length ≤ cap := by
  obtain ⟨_, _, _, h, _⟩ := andThen_ok (show andThen _ _ cap = _ from h)
  obtain ⟨_, _, _, h, _⟩ := andThen_ok (show andThen _ _ _ = _ from h)
  obtain ⟨_, _, _, h, _⟩ := andThen_ok (show andThen _ _ _ = _ from h)
  obtain ⟨_, _, _, h, _⟩ := andThen_ok (show andThen _ _ _ = _ from h)
  obtain ⟨_, _, _, h, _⟩ := andThen_ok (show andThen _ _ _ = _ from h)
  have := seqByte2_fits h
  exact ⟨by omega, by omega⟩

theorem reply_fits {m : ReplyHandshakeBegin} {r : Bytes} {cap : Nat} (h : ReplyHandshakeBegin.write m cap = .ok r) :
    m.mode_ephemeral.length ≤ cap ∧ m.mode_data.length ≤ cap := by
  obtain ⟨_, _, _, h, _⟩ := andThen_ok (show andThen _ _ cap = _ from h)
  obtain ⟨_, _, _, h, _⟩ := andThen_ok (show andThen _ _ _ = _ from h)
  have := seqByte2_fits h
  exact ⟨by omega, by omega⟩

theorem data_fits {m : SessionData} {r : Bytes} {cap : Nat} (h : SessionData.write m cap = .ok r) :
    m.user_data.length ≤ cap ∧ m.auth_tag.length ≤ cap := by
  obtain ⟨_, _, _, h, _⟩ := andThen_ok (show andThen _ _ cap = _ from h)
  obtain ⟨_, _, _, h, _⟩ := andThen_ok (show andThen _ _ _ = _ from h)
  have := seqByte2_fits h
  exact ⟨by omega, by omega⟩

theorem reply_written {m : ReplyHandshakeBegin} {r : Bytes} {n : UInt16} (h : ReplyHandshakeBegin.write m n.toNat = .ok r) :
    ReplyHandshakeBegin.read r = .ok m ∧ r.length ≤ n.toNat := by
  have hf := reply_fits h
  have hn := n.toNat_lt
  have hwf : m.WF := ⟨by omega, by omega⟩
  refine ⟨C02_reply_roundtrip m hwf _ _ h, ?_⟩
  rw [C02_reply_write m hwf] at h
  split at h
  · cases h; assumption
  · cases h

theorem request_written {m : RequestHandshakeBegin} {r : Bytes} {n : UInt16} (h : RequestHandshakeBegin.write m n.toNat = .ok r)
    (hs : m.spec.Defined) (hm : m.handshake_mode ≠ .undefined) :
    RequestHandshakeBegin.read r = .ok m ∧ r.length ≤ n.toNat ∧ Spec.IsRequest r := by
  have hf := request_fits h
  have hn := n.toNat_lt
  have hwf : m.WF := ⟨hs, hm, by omega, by omega⟩
  have hr := C02_request_roundtrip m hwf _ _ h
  refine ⟨hr, ?_, (C03_function_code r).1 m hr⟩
  rw [C02_request_write m hwf] at h
  split at h
  · cases h; assumption
  · cases h

theorem data_written {m : SessionData} {r : Bytes} {n : UInt16} (h : SessionData.write m n.toNat = .ok r) :
    SessionData.read r = .ok m ∧ r.length ≤ n.toNat := by
  have hf := data_fits h
  have hn := n.toNat_lt
  have hwf : m.WF := ⟨by omega, by omega⟩
  refine ⟨C02_session_data_roundtrip m hwf _ _ h, ?_⟩
  rw [C02_session_data_write m hwf] at h
  split at h
  · cases h; assumption
  · cases h

/-! ### Lists -/

/-- The last element with a property is unique. -/
theorem last_unique {α : Type} {l1 l2 m1 m2 : List α} {x y : α} (P : α → Prop) (h : l1 ++ x :: l2 = m1 ++ y :: m2)
    (hx : P x) (hy : P y) (h2 : ∀ z ∈ l2, ¬ P z) (hm2 : ∀ z ∈ m2, ¬ P z) : l1 = m1 ∧ x = y ∧ l2 = m2 := by
  rw [List.append_eq_append_iff] at h
  rcases h with ⟨z, rfl, hz⟩ | ⟨z, rfl, hz⟩
  · cases z with
    | nil => simp at hz; simpa using hz
    | cons w z =>
      simp only [List.cons_append, List.cons.injEq] at hz
      exact absurd hy (h2 y (by rw [hz.2]; simp))
  · cases z with
    | nil => simp at hz; simp; exact ⟨hz.1.symm, hz.2.symm⟩
    | cons w z =>
      simp only [List.cons_append, List.cons.injEq] at hz
      exact absurd hx (hm2 x (by rw [hz.2]; simp))

theorem lastRead_unique {log : List Obs} {m : Bytes} (h : Spec.LastRead log m) {l1 l2 : List Obs} {m' : Bytes}
    (hl : log = l1 ++ .recv m' :: l2) (h2 : ∀ x, Obs.recv x ∉ l2) : m = m' := by
  obtain ⟨b, a, rfl, ha⟩ := h
  have := last_unique (fun o => ∃ x, o = Obs.recv x) hl ⟨_, rfl⟩ ⟨_, rfl⟩ (fun z hz ⟨x, hx⟩ => ha x (hx ▸ hz))
    (fun z hz ⟨x, hx⟩ => h2 x (hx ▸ hz))
  exact Obs.recv.inj this.2.1

theorem request_unique {c : Cfg} (hf : Spec.Faithful c.fw) {log : List Obs} {m : Bytes} (h : Spec.LastRequestSent c.fw log m)
    {l1 l2 : List Obs} {request : Bytes} {ready : Bool} (hl : log = l1 ++ .lowerTx (c.fw.wrap request) ready :: l2)
    (hr : Spec.IsRequest request) (hn : request.length ≤ c.fw.maxPayload.toNat)
    (h2 : ∀ frame ready, Obs.lowerTx frame ready ∈ l2 → Spec.SessionFrame c frame) : m = request := by
  obtain ⟨h3, h4, b, a, r, rfl, ha⟩ := h
  have := last_unique (fun o => ∃ x r, Spec.IsRequest x ∧ x.length ≤ c.fw.maxPayload.toNat ∧ o = Obs.lowerTx (c.fw.wrap x) r)
    hl ⟨_, _, h3, h4, rfl⟩ ⟨_, _, hr, hn, rfl⟩ (fun z hz ⟨x, r, hx, _, he⟩ => ha x r hx (he ▸ hz)) ?_
  · exact hf _ _ h4 hn (Obs.lowerTx.inj this.2.1).1
  · rintro z hz ⟨x, r, hx, hxn, rfl⟩
    obtain ⟨d, w, hw, he⟩ := h2 _ _ hz
    obtain ⟨e1, e2⟩ := data_written hw
    have := hf _ _ hxn e2 he
    subst this
    have := (C03_function_code x).2.2.2 d e1
    rw [Spec.IsRequest, this] at hx
    cases hx

/-! ### Agreement -/

theorem suite_determines {b : Backend} {suite : CryptoSpec} {a a' : SessionAlgorithms} (h : SSP21.Spec.SuiteOf b suite a)
    (h' : SSP21.Spec.SuiteOf b suite a') (hs : a.Standard b) (hs' : a'.Standard b) : a' = a := by
  have hm : a'.mode = a.mode := by
    rcases h.2 with ⟨g1, g2⟩ | ⟨g1, g2⟩ <;> rcases h'.2 with ⟨g3, g4⟩ | ⟨g3, g4⟩
    · rw [g2, g4]
    · rw [g1] at g3; cases g3
    · rw [g1] at g3; cases g3
    · rw [g2, g4]
  have hv : a'.verifyNonce = a.verifyNonce := by
    have key : a'.verifyNonce 0 2 = true ↔ a.verifyNonce 0 2 = true := (h'.1 0 2).trans (h.1 0 2).symm
    rcases hs.1 with g | g <;> rcases hs'.1 with g' | g' <;> rw [g, g'] at key ⊢ <;> exact absurd key (by decide)
  cases a; cases a'
  simp_all

theorem dh_comm {b : Backend} (hb : b.Lawful) (x y : Bytes) : b.dh x (b.dhPublic y) = b.dh y (b.dhPublic x) := by
  unfold Backend.dh
  rw [hb.dhPublic_length, hb.dhPublic_length, List.take_of_length_le (by rw [hb.dhPublic_length]; omega),
    List.take_of_length_le (by rw [hb.dhPublic_length]; omega), hb.dh_comm x y]

theorem be8_inj {x y : UInt64} (h : be 8 x.toNat = be 8 y.toNat) : x = y := by
  have h2 : beNat (be 8 x.toNat) = beNat (be 8 y.toNat) := by rw [h]
  have hx := x.toNat_lt
  have hy := y.toNat_lt
  rw [beNat_be, beNat_be, Nat.mod_eq_of_lt (by omega), Nat.mod_eq_of_lt (by omega)] at h2
  exact UInt64.toNat_inj.mp h2

/-- What the request says about the mode of the handshake. -/
def Presented (b : Backend) (used : Option (UInt64 × Bytes)) (msg : RequestHandshakeBegin) : InitiatorMode → InitiatorMode → Prop
  | .sharedSecret key _, .sharedSecret key' nonce => key' = key ∧ msg.mode_ephemeral = nonce
  | .qkd _, .qkd key => ∃ id key', used = some (id, key') ∧ key = some key' ∧ msg.mode_data = be 8 id.toNat
  | .publicKey sp certs _, .publicKey sp' certs' eph => sp' = sp ∧ certs' = certs ∧
    msg.mode_ephemeral = b.dhPublic eph.priv ∧ msg.mode_data = certs.data ∧ msg.handshake_mode = certs.mode
  | _, _ => False

/-- The request of an initiator that its constructor made. -/
theorem request_made {c : Cfg} {caps' : Caps} {limits : SessionLimits} {h0 : InitiatorHandshake} {rh : ResponderHandshake}
    (hc : Spec.Credentials c.backend c.caps caps' h0 rh) {mode : InitiatorMode} {used : Option (UInt64 × Bytes)} {request : Bytes}
    (hr : Spec.RequestOf c limits h0 mode used request) :
    ∃ msg, RequestHandshakeBegin.read request = .ok msg ∧ request.length ≤ c.fw.maxPayload.toNat ∧ Spec.IsRequest request ∧
      msg.spec = h0.suite ∧ msg.version = protocolVersion ∧ msg.constraints = ⟨limits.maxNonce, limits.maxSessionTimeMs⟩ ∧
      Presented c.backend used msg h0.mode mode := by
  obtain ⟨h, h', rnd, record, eph, data, ⟨-, s2, s3⟩, -, r3, r4, r5, r6⟩ := hr
  have def' : h0.suite.Defined := by
    cases hc with
    | sharedSecret suite key _ hm =>
      unfold InitiatorHandshake.mkSharedSecret at hm
      split at hm
      · cases hm
      rename_i a hc
      cases hm
      obtain ⟨-, -, -, c3, c4, c5, c6⟩ := configure_ok hc
      exact ⟨nofun, c3, c4, c5, c6⟩
    | qkd suite _ hm =>
      unfold InitiatorHandshake.mkQkd at hm
      split at hm
      · cases hm
      rename_i a hc
      cases hm
      obtain ⟨-, -, -, c3, c4, c5, c6⟩ := configure_ok hc
      exact ⟨nofun, c3, c4, c5, c6⟩
    | publicKey suite sp sp' certs certs' _ hm _ _ =>
      unfold InitiatorHandshake.mkPublicKey at hm
      split at hm
      · cases hm
      rename_i a hc
      split at hm
      · cases hm
      rename_i hd
      split at hm
      · cases hm
        obtain ⟨-, -, -, c3, c4, c5, c6⟩ := configure_ok hc
        refine ⟨?_, c3, c4, c5, c6⟩
        intro hu
        rw [hu] at hd
        cases hx : c.caps.x25519 <;> simp [dhConfigure, hx] at hd
      · cases hm
  have hsuite : h'.suite = h.suite := by
    have := SameConfiguration.initializeNew h c.backend rnd record
    rw [r3] at this
    exact this.2.1
  have hmode : (h'.buildRequest limits eph data).handshake_mode ≠ .undefined := by
    show h'.handshakeMode ≠ _
    unfold InitiatorHandshake.handshakeMode
    split
    · nofun
    · nofun
    · rename_i certs _ _
      cases certs <;> nofun
  obtain ⟨q1, q2, q3⟩ := request_written r5 (by show h'.suite.Defined; rw [hsuite, s2]; exact def') hmode
  refine ⟨_, q1, q2, q3, by show h'.suite = _; rw [hsuite, s2], rfl, rfl, ?_⟩
  unfold InitiatorHandshake.initializeNew at r3
  cases hm0 : h0.mode <;> cases hm : h.mode <;> rw [hm0, hm] at s3 <;> simp only at s3 <;>
    simp only [hm] at r3
  · cases r3
    subst r4
    exact ⟨s3, rfl⟩
  · cases hrec : record with
    | none => rw [hrec] at r3; cases r3
    | some r =>
      obtain ⟨id, key⟩ := r
      rw [hrec] at r3
      cases r3
      subst r4
      simp only [hrec, Option.map_some] at r6
      exact ⟨id, key, r6.1, rfl, rfl⟩
  · cases r3
    subst r4
    obtain ⟨rfl, rfl⟩ := s3
    exact ⟨rfl, rfl, rfl, rfl, rfl⟩

/-- Request and reply as they were sent: both sides have the same secret. -/
theorem secrets_agree {b : Backend} (hb : b.Lawful) {caps caps' : Caps} {h0 : InitiatorHandshake} {rh : ResponderHandshake}
    (hc : Spec.Credentials b caps caps' h0 rh) {mode : InitiatorMode} {used used' : Option (UInt64 × Bytes)}
    {msg : RequestHandshakeBegin}
    (hm : Presented b used msg h0.mode mode)
    {rnd : Bytes} {lookup : UInt64 → Option Bytes} {secret secret' : Bytes}
    (hI : SSP21.Spec.InitiatorSecret b caps mode (SSP21.Spec.replyOf b rh rnd) secret)
    (hR : SSP21.Spec.ResponderSecret b caps' rh lookup rnd msg used' secret')
    (hq : ∀ id key key', used = some (id, key) → used' = some (id, key') → key' = key) : secret' = secret := by
  cases hc with
  | sharedSecret suite key _ hmk =>
    unfold InitiatorHandshake.mkSharedSecret at hmk
    split at hmk
    · cases hmk
    cases hmk
    cases mode <;> simp only [Presented] at hm
    obtain ⟨rfl, hm⟩ := hm
    obtain ⟨-, -, rfl⟩ := hR
    obtain ⟨-, rfl⟩ := hI
    rw [hm]
    rfl
  | qkd suite _ hmk =>
    unfold InitiatorHandshake.mkQkd at hmk
    split at hmk
    · cases hmk
    cases hmk
    cases mode <;> simp only [Presented] at hm
    obtain ⟨id, key', h1, rfl, h2⟩ := hm
    obtain ⟨id', h3, h4, -⟩ := hR
    cases hI
    rw [h2] at h4
    have := be8_inj h4
    subst this
    exact hq _ _ _ h1 h3
  | publicKey suite sp sp' certs certs' _ hmk hv hv' =>
    unfold InitiatorHandshake.mkPublicKey at hmk
    split at hmk
    · cases hmk
    split at hmk
    · cases hmk
    split at hmk
    · cases hmk
      cases mode <;> simp only [Presented] at hm
      obtain ⟨rfl, rfl, m1, m2, m3⟩ := hm
      obtain ⟨rs, ee, se, es, i1, i2, i3, i4, rfl⟩ := hI
      obtain ⟨-, rs', ee', es', se', j1, j2, j3, j4, rfl⟩ := hR
      rw [m2, m3, hv'] at j1
      simp only [SSP21.Spec.replyOf] at i1 i2 i3
      rw [hv] at i1
      cases i1
      cases j1
      rw [m1, dh_comm hb, i2] at j2
      rw [dh_comm hb, i3] at j3
      rw [m1, dh_comm hb, i4] at j4
      cases j2
      cases j3
      cases j4
      rfl
    · cases hmk

/-- Key agreement between two layers. -/
theorem C52_key_agreement (c c' : Cfg) (E E' : Env) (limits : SessionLimits) (hp : Spec.Peers c c' E limits)
    (s s' : Layer) (h : Observed c E s) (h' : Observed c' E' s')
    (pre post pre' post' : List Obs) (k k' : SessionKeys) (a a' : SessionAlgorithms) (p p' : SessionParam)
    (hlog : s.log = pre ++ .established k a p :: post) (hlog' : s'.log = pre' ++ .established k' a' p' :: post')
    (hx : Spec.Exchanged c c' pre pre' post') :
    k'.rxKey = k.txKey ∧ k'.txKey = k.rxKey ∧ a' = a ∧ (∃ h, E.config h ∧ SSP21.Spec.SuiteOf c.backend h.suite a) ∧
    (p.maxNonce = limits.maxNonce ∧ p'.maxNonce = limits.maxNonce) ∧
    (p.maxSessionTime = limits.maxSessionTimeMs.toNat * 1000000 ∧
     p'.maxSessionTime = limits.maxSessionTimeMs.toNat * 1000000) := by
  obtain ⟨hb, hbb, ⟨params, hrole⟩, rh, hrole', hcred, hf, hf'⟩ := hp
  obtain ⟨hreq, hrep, hq⟩ := hx
  obtain ⟨hstd, he⟩ := C29_keys_from_handshake c E hb s h pre post k a p hlog
  obtain ⟨hstd', he'⟩ := C29_keys_from_handshake c' E' (hbb ▸ hb) s' h' pre' post' k' a' p' hlog'
  rw [hrole] at he
  rw [hrole', hbb] at he'
  rw [hbb] at hstd'
  obtain ⟨l1, l2, request, reply, rmsg, h0, mode, used, secret, e1, -, -, e4, e5, e6, e7, e8, e9, e10, e11, e12, -⟩ := he
  obtain ⟨before, request', msg, used', lookup, rnd, secret', reply', rest', f1, f2, -, -, f5, f6, f7, f8, f9, f10, f11⟩ := he'
  obtain ⟨msg', g1, g2, g3, g4, -, g5, g6⟩ := request_made (hcred h0 e5) e6
  -- the request
  obtain ⟨m, hm1, hm2⟩ := hreq
  have hr1 : m = request := by
    refine request_unique hf hm1 (l1 := l1 ++ keyObs used) (l2 := l2 ++ [.recv reply]) (ready := true) (by rw [e1]; simp) g3 g2 ?_
    intro frame ready hx
    exact e12 frame ready (by simpa using hx)
  have hr2 : m = request' := lastRead_unique hm2 f1 (by cases used' <;> simp [keyObs])
  subst hr1
  subst hr2
  rw [g1] at f2
  cases f2
  -- the reply
  obtain ⟨m2, ready, hn1, hn2, hn3⟩ := hrep
  have hr3 : m2 = reply := lastRead_unique hn3 (l1 := l1 ++ keyObs used ++ .lowerTx (c.fw.wrap m) true :: l2) (l2 := [])
    (by rw [e1]) (by simp)
  obtain ⟨w1, w2⟩ := reply_written f11
  have hr4 : m2 = reply' := by
    rw [f7] at hn1
    simp only [List.head?_cons, Option.some.injEq, Obs.lowerTx.injEq] at hn1
    exact hf' _ _ hn2 w2 hn1.1.symm
  subst hr3
  subst hr4
  rw [w1] at e4
  cases e4
  have hsec : secret' = secret := by
    refine secrets_agree hb (hcred h0 e5) g6 e8 f6 ?_
    intro id key key' hu hu'
    refine hq id key key' ?_ ?_
    · rw [e1, hu]; simp [keyObs]
    · rw [f1, hu']; simp [keyObs]
  subst hsec
  rw [g4] at f5
  rw [g5] at f9 f10
  refine ⟨by rw [e9, f8], by rw [e9, f8], suite_determines e7 f5 hstd hstd', ⟨h0, e5, e7⟩, ⟨e10, f9⟩, ?_, ?_⟩
  · rw [e11]; rfl
  · rw [f10]; rfl

/-! ### Sessions -/

theorem installations_snoc (l : List Obs) (o : Obs) : Spec.installations (l ++ [o]) =
    Spec.installations l + (match o with | .established _ _ _ => 1 | _ => 0) := by
  unfold Spec.installations
  rw [List.filter_append, List.length_append]
  cases o <;> rfl

/-- The sessions are numbered in the order in which they were installed. -/
theorem installed_events (h : List Spec.Ev) :
    (Spec.viewOf h).count = Spec.installations (Spec.observations h) ∧
    ∀ pre k a p post, Spec.observations h = pre ++ .established k a p :: post →
      (Spec.installations pre, SEvent.initialized a p k) ∈ (Spec.viewOf h).events := by
  have key : ∀ (n : Nat) (h : List Spec.Ev), h.length = n → (Spec.viewOf h).count = Spec.installations (Spec.observations h) ∧
      ∀ pre k a p post, Spec.observations h = pre ++ .established k a p :: post →
        (Spec.installations pre, SEvent.initialized a p k) ∈ (Spec.viewOf h).events := by
    intro n
    induction n with
    | zero =>
      intro h hn
      rw [List.length_eq_zero_iff.mp hn]
      exact ⟨rfl, fun pre k a p post he => by simp [Spec.observations] at he⟩
    | succ n ih =>
      intro h hn
      obtain ⟨h0, e, rfl⟩ : ∃ h0 e, h = h0 ++ [e] := by
        rcases List.eq_nil_or_concat h with rfl | ⟨h0, e, rfl⟩
        · cases hn
        · exact ⟨h0, e, by simp⟩
      obtain ⟨i1, i2⟩ := ih h0 (by simpa using hn)
      have hobs : Spec.observations (h0 ++ [e]) = Spec.observations h0 ++ (Spec.Ev.observation e).toList := by
        unfold Spec.observations
        rw [List.filterMap_append]
        cases e <;> rfl
      have grow : ∀ x ∈ (Spec.viewOf h0).events, x ∈ (Spec.viewOf (h0 ++ [e])).events := by
        intro x hx
        rw [RefineProof.viewOf_snoc]
        have add : ∀ (v : Spec.View) (n : Option Nat) (e : SEvent), x ∈ v.events → x ∈ (v.add n e).events := by
          intro v n e hv
          cases n <;> simp [Spec.View.add, hv]
        unfold Spec.View.step
        repeat' split
        all_goals first
          | exact hx
          | exact add _ _ _ hx
          | exact List.mem_append_left _ hx
      have quiet : (∀ k a p, e ≠ .obs (.established k a p)) → (Spec.viewOf (h0 ++ [e])).count = (Spec.viewOf h0).count := by
        intro hne
        rw [RefineProof.viewOf_snoc]
        have add : ∀ (v : Spec.View) (n : Option Nat) (e : SEvent), (v.add n e).count = v.count := by
          intro v n e
          cases n <;> rfl
        unfold Spec.View.step
        repeat' split
        all_goals first
          | rfl
          | exact add _ _ _
          | exact absurd rfl (hne _ _ _)
      rw [hobs]
      by_cases hne : ∃ k a p, e = .obs (.established k a p)
      · obtain ⟨k, a, p, rfl⟩ := hne
        show _ = Spec.installations (_ ++ [_]) ∧ ∀ pre k' a' p' post, _ ++ [_] = _ → _
        rw [installations_snoc, RefineProof.viewOf_snoc]
        refine ⟨by rw [← i1]; rfl, ?_⟩
        intro pre k' a' p' post he
        rcases List.eq_nil_or_concat post with rfl | ⟨post, o, rfl⟩
        · have := List.append_inj' he rfl
          simp only [List.cons.injEq, and_true, Obs.established.injEq] at this
          obtain ⟨rfl, rfl, rfl, rfl⟩ := this
          rw [← i1]
          exact List.mem_append_right _ (by simp)
        · rw [← RefineProof.viewOf_snoc]
          refine grow _ (i2 pre k' a' p' post ?_)
          have : Spec.observations h0 ++ [Obs.established k a p] = (pre ++ .established k' a' p' :: post) ++ [o] := by
            rw [he]; simp
          exact (List.append_inj' this rfl).1
      · have hne' : ∀ k a p, e ≠ .obs (.established k a p) := fun k a p he => hne ⟨k, a, p, he⟩
        rw [quiet hne']
        cases e with
        | act x => exact ⟨by rw [i1]; simp [Spec.Ev.observation], fun pre k a p post he => grow _ (i2 pre k a p post (by simpa [Spec.Ev.observation] using he))⟩
        | obs o =>
          show _ = Spec.installations (_ ++ [_]) ∧ ∀ pre k' a' p' post, _ ++ [_] = _ → _
          rw [installations_snoc]
          refine ⟨?_, ?_⟩
          · rw [i1]
            cases o <;> first | rfl | exact absurd rfl (hne' _ _ _)
          · intro pre k' a' p' post he
            rcases List.eq_nil_or_concat post with rfl | ⟨post, o', rfl⟩
            · have := List.append_inj' he rfl
              simp only [List.cons.injEq, and_true] at this
              exact absurd (by rw [this.2]) (hne' k' a' p')
            · refine grow _ (i2 pre k' a' p' post ?_)
              have : Spec.observations h0 ++ [o] = (pre ++ .established k' a' p' :: post) ++ [o'] := by
                rw [he]; simp
              exact (List.append_inj' this rfl).1
  exact key h.length h rfl

theorem installed_session {c : Cfg} {E : Env} {s : Layer} (h : Observed c E s) {pre post : List Obs} {k : SessionKeys}
    {a : SessionAlgorithms} {p : SessionParam} (hl : s.log = pre ++ .established k a p :: post) :
    ∃ es, (Spec.view s).session (Spec.installations pre) = .initialized a p k :: es := by
  have hm := (installed_events (Spec.history s)).2 pre k a p post (by rw [observations_history]; exact hl)
  have hn := layer_events h _ hm
  obtain ⟨a', p', k', es, h1, h2, -⟩ := layer_session h hn
  have : SEvent.initialized a p k ∈ (Spec.view s).session (Spec.installations pre) :=
    List.mem_filterMap.mpr ⟨_, hm, by simp⟩
  rw [h1] at this
  rcases List.mem_cons.mp this with he | he
  · cases he
    exact ⟨es, h1⟩
  · exact absurd (h2 _ he) (by simp [SEvent.isInit])

/-- The sessions that a handshake between two layers makes are two ends of one channel, in both directions. -/
theorem C52_sessions (c c' : Cfg) (E E' : Env) (limits : SessionLimits) (hp : Spec.Peers c c' E limits)
    (s s' : Layer) (h : Observed c E s) (h' : Observed c' E' s') (n n' : Nat) (hx : Spec.SameHandshake c c' s s' n n') :
    ∃ h0, E.config h0 ∧
      (NoForgery ((Spec.view s).session n) ((Spec.view s').session n') → Spec.SharedKeys c.backend h0.suite s s' n n') ∧
      (NoForgery ((Spec.view s').session n') ((Spec.view s).session n) → Spec.SharedKeys c'.backend h0.suite s' s n' n) := by
  obtain ⟨pre, k, a, p, post, pre', k', a', p', post', h1, rfl, h2, rfl, hx⟩ := hx
  obtain ⟨k1, k2, k3, ⟨h0, k4, k5⟩, -⟩ := C52_key_agreement c c' E E' limits hp s s' h h' pre post pre' post' k k' a a' p p' h1 h2 hx
  obtain ⟨es, he⟩ := installed_session h h1
  obtain ⟨es', he'⟩ := installed_session h' h2
  subst k3
  refine ⟨h0, k4, fun hf => ⟨⟨_, _, _, _, _, _, _, _, he, he', k1, k5, k5⟩, hf⟩, fun hf => ⟨⟨_, _, _, _, _, _, _, _, he', he, k2.symm, ?_, ?_⟩, hf⟩⟩
  · rw [hp.backend]; exact k5
  · rw [hp.backend]; exact k5

/-- End to end, from the initiator to the responder: the data that the application of the responder has received is a
prefix of the data that the application of the initiator has handed over. The first session of both was made by a
handshake between the two, no session message was forged, the initiator is configured with strict nonces. (The other
hypotheses are those of `C44_end_to_end`.) -/
theorem C52_to_responder (c c' : Cfg) (E E' : Env) (limits : SessionLimits) (hp : Spec.Peers c c' E limits)
    (hstrict : ∀ h, E.config h → h.suite.session_nonce_mode = .strict_increment) (hE' : Spec.ReadsInOrder c' E')
    (s s' : Layer) (h : Observed c E s) (h' : Observed c' E' s') (h1 : (Spec.view s).count = 1) (h1' : (Spec.view s').count = 1)
    (hx : Spec.SameHandshake c c' s s' 0 0)
    (hf : NoForgery ((Spec.view s).session 0) ((Spec.view s').session 0))
    (hc : Obs.lowerClose ∉ s.log) (hl : Spec.Ev.act (.notSent false) ∉ Spec.history s') (hv : Spec.Unstale c' s'.log) :
    (s'.log.filterMap Spec.givenData).flatten <+: (s.log.filterMap Spec.takenData).flatten := by
  obtain ⟨h0, e1, e2, -⟩ := C52_sessions c c' E E' limits hp s s' h h' 0 0 hx
  exact C44_end_to_end c c' E E' hE' hp.lawful hp.backend s s' h h' h1 h1' _ (e2 hf) (hstrict h0 e1) hc (fun _ => hl) hv

/-- The same from the responder to the initiator. -/
theorem C52_to_initiator (c c' : Cfg) (E E' : Env) (limits : SessionLimits) (hp : Spec.Peers c c' E limits)
    (hstrict : ∀ h, E.config h → h.suite.session_nonce_mode = .strict_increment) (hE : Spec.ReadsInOrder c E)
    (s s' : Layer) (h : Observed c E s) (h' : Observed c' E' s') (h1 : (Spec.view s).count = 1) (h1' : (Spec.view s').count = 1)
    (hx : Spec.SameHandshake c c' s s' 0 0)
    (hf : NoForgery ((Spec.view s').session 0) ((Spec.view s).session 0))
    (hc : Obs.lowerClose ∉ s'.log) (hv : Spec.Unstale c s.log) :
    (s.log.filterMap Spec.givenData).flatten <+: (s'.log.filterMap Spec.takenData).flatten := by
  obtain ⟨h0, e1, -, e2⟩ := C52_sessions c c' E E' limits hp s s' h h' 0 0 hx
  exact C44_end_to_end c' c E' E hE (hp.backend ▸ hp.lawful) hp.backend.symm s' s h' h h1' h1 _ (e2 hf) (hstrict h0 e1) hc
    (by obtain ⟨-, -, ⟨params, hr⟩, -⟩ := hp; rintro ⟨_, hr'⟩; rw [hr] at hr'; cases hr') hv

/-- To the responder, when everything has arrived: the initiator has nothing left to send, the responder has authenticated
its peer and as many messages as the initiator has made, nothing is unread, and the layers below have not been closed. Then
the application of the responder has received exactly what the application of the initiator has handed over. -/
theorem C52_everything_to_responder (c c' : Cfg) (E E' : Env) (limits : SessionLimits) (hp : Spec.Peers c c' E limits)
    (hstrict : ∀ h, E.config h → h.suite.session_nonce_mode = .strict_increment) (hE' : Spec.ReadsInOrder c' E')
    (s s' : Layer) (h : Observed c E s) (h' : Observed c' E' s') (h1 : (Spec.view s).count = 1) (h1' : (Spec.view s').count = 1)
    (hx : Spec.SameHandshake c c' s s' 0 0)
    (hf : NoForgery ((Spec.view s).session 0) ((Spec.view s').session 0))
    (hc : Obs.lowerClose ∉ s.log) (hl : Spec.Ev.act (.notSent false) ∉ Spec.history s')
    (hauth : authNonces ((Spec.view s').session 0) ≠ [])
    (hall : ((Spec.view s).sentIn 0).length ≤ 1 + (consumedNonces ((Spec.view s').session 0)).length)
    (ho : (Spec.view s).outstanding = []) (hu : (Spec.view s').unread = none) (hc' : Spec.Ev.obs .lowerClose ∉ Spec.history s') :
    (s'.log.filterMap Spec.givenData).flatten = (s.log.filterMap Spec.takenData).flatten := by
  obtain ⟨h0, e1, e2, -⟩ := C52_sessions c c' E E' limits hp s s' h h' 0 0 hx
  exact C44_end_to_end_complete c c' E E' hE' hp.lawful hp.backend s s' h h' h1 h1' _ (e2 hf) (hstrict h0 e1) hc (fun _ => hl)
    hauth hall ho hu hc'

/-- The same from the responder to the initiator. -/
theorem C52_everything_to_initiator (c c' : Cfg) (E E' : Env) (limits : SessionLimits) (hp : Spec.Peers c c' E limits)
    (hstrict : ∀ h, E.config h → h.suite.session_nonce_mode = .strict_increment) (hE : Spec.ReadsInOrder c E)
    (s s' : Layer) (h : Observed c E s) (h' : Observed c' E' s') (h1 : (Spec.view s).count = 1) (h1' : (Spec.view s').count = 1)
    (hx : Spec.SameHandshake c c' s s' 0 0)
    (hf : NoForgery ((Spec.view s').session 0) ((Spec.view s).session 0)) (hc : Obs.lowerClose ∉ s'.log)
    (hauth : authNonces ((Spec.view s).session 0) ≠ [])
    (hall : ((Spec.view s').sentIn 0).length ≤ 1 + (consumedNonces ((Spec.view s).session 0)).length)
    (ho : (Spec.view s').outstanding = []) (hu : (Spec.view s).unread = none) (hc' : Spec.Ev.obs .lowerClose ∉ Spec.history s) :
    (s.log.filterMap Spec.givenData).flatten = (s'.log.filterMap Spec.takenData).flatten := by
  obtain ⟨h0, e1, -, e2⟩ := C52_sessions c c' E E' limits hp s s' h h' 0 0 hx
  exact C44_end_to_end_complete c' c E' E hE (hp.backend ▸ hp.lawful) hp.backend.symm s' s h' h h1' h1 _ (e2 hf) (hstrict h0 e1) hc
    (by obtain ⟨-, -, ⟨params, hr⟩, -⟩ := hp; rintro ⟨_, hr'⟩; rw [hr] at hr'; cases hr') hauth hall ho hu hc'

/-! ### The frame writers -/

/-- The frame writers of the product do not confuse messages. -/
theorem C52_writers_faithful (addresses : Option Link.Addresses) : Spec.Faithful (Config.frameWriter addresses) := by
  intro m m' h h' he
  cases addresses with
  | none => exact he
  | some a =>
    have h1 : m.length ≤ 4092 := h
    have h2 : m'.length ≤ 4092 := h'
    have he : (Config.linkWriter a).wrap m = (Config.linkWriter a).wrap m' := he
    rw [Config.linkWriter_wrap a m h1, Config.linkWriter_wrap a m' h2] at he
    have hl : Link.limit 4092 = 4092 := by decide
    obtain ⟨p, e1, e2⟩ := Link.C08_frame_round_trip (Link.Reach.new (m := 4092)) a.destination a.source m [] (by rw [hl]; exact h1)
    obtain ⟨p', f1, f2⟩ := Link.C08_frame_round_trip (Link.Reach.new (m := 4092)) a.destination a.source m' [] (by rw [hl]; exact h2)
    rw [he, f1] at e1
    cases e1
    rw [f2] at e2
    cases e2
    rfl

/-! ### Concrete executions -/

namespace LayerExample
open Exec

/-- Where keys were installed: the observations before and after. -/
def atKeys : List Obs → Option (List Obs × SessionKeys × SessionAlgorithms × SessionParam × List Obs)
  | [] => none
  | .established k a p :: post => some ([], k, a, p, post)
  | o :: log => (atKeys log).map fun x => (o :: x.1, x.2)

theorem atKeys_split {log : List Obs} {x : List Obs × SessionKeys × SessionAlgorithms × SessionParam × List Obs}
    (h : atKeys log = some x) : log = x.1 ++ .established x.2.1 x.2.2.1 x.2.2.2.1 :: x.2.2.2.2 ∧ Spec.installations x.1 = 0 := by
  induction log generalizing x with
  | nil => cases h
  | cons o log ih =>
    unfold atKeys at h
    split at h
    · cases h
    · rename_i heq
      cases heq
      cases h
      exact ⟨rfl, rfl⟩
    · rename_i hne heq
      cases heq
      obtain ⟨y, hy, rfl⟩ := Option.map_eq_some_iff.mp h
      obtain ⟨e1, e2⟩ := ih hy
      refine ⟨by rw [e1]; rfl, ?_⟩
      cases o <;> first | exact e2 | exact (hne _ _ _ rfl).elim

/-- The last message read, and the last request sent (frames are messages here). -/
def lastReceived (log : List Obs) : Option Bytes :=
  (log.filterMap fun o => match o with | .recv m => some m | _ => none).getLast?
def requestsSent (log : List Obs) : List Bytes :=
  log.filterMap fun o => match o with | .lowerTx m _ => if m.head? = some 0 then some m else none | _ => none

theorem last_split {α β : Type} (f : α → Option β) : ∀ {l : List α} {y : β}, (l.filterMap f).getLast? = some y →
    ∃ l1 x l2, l = l1 ++ x :: l2 ∧ f x = some y ∧ ∀ z ∈ l2, f z = none := by
  intro l
  induction l with
  | nil => intro y h; cases h
  | cons a l ih =>
    intro y h
    by_cases hl : l.filterMap f = []
    · have hn := List.filterMap_eq_nil_iff.mp hl
      cases ha : f a with
      | none => rw [List.filterMap_cons_none ha, hl] at h; cases h
      | some b =>
        rw [List.filterMap_cons_some ha, hl] at h
        cases h
        exact ⟨[], a, l, rfl, ha, hn⟩
    · have : (l.filterMap f).getLast? = some y := by
        cases ha : f a with
        | none => rwa [List.filterMap_cons_none ha] at h
        | some b =>
          rw [List.filterMap_cons_some ha] at h
          cases hf : l.filterMap f with
          | nil => exact absurd hf hl
          | cons d e => rw [hf] at h; simpa using h
      obtain ⟨l1, x, l2, h1, h2, h3⟩ := ih this
      exact ⟨a :: l1, x, l2, by rw [h1]; rfl, h2, h3⟩

theorem lastRead_of {log : List Obs} {m : Bytes} (h : lastReceived log = some m) : Spec.LastRead log m := by
  obtain ⟨l1, x, l2, h1, h2, h3⟩ := last_split _ h
  cases x with
  | recv m' => cases h2; exact ⟨l1, l2, h1, fun m' hm => by have := h3 _ hm; cases this⟩
  | _ => cases h2

theorem lastRequest_of {fw : FrameWriter} (hw : fw.wrap = id) {log : List Obs} {m : Bytes} (h : (requestsSent log).getLast? = some m)
    (hn : m.length ≤ fw.maxPayload.toNat) : Spec.LastRequestSent fw log m := by
  obtain ⟨l1, x, l2, h1, h2, h3⟩ := last_split _ h
  cases x with
  | lowerTx m' r =>
    simp only at h2
    split at h2
    · cases h2
      refine ⟨by assumption, hn, l1, l2, r, by rw [h1, hw]; rfl, fun m' r' hm' hx => ?_⟩
      rw [hw] at hx
      have := h3 _ hx
      simp only [id_eq] at this
      rw [if_pos (show m'.head? = some 0 from hm')] at this
      cases this
    · cases h2
  | _ => cases h2

/-- The last request in `log`, and what was read last. -/
def summary (s : Layer) : Option (Option Bytes × Option Bytes × Option Bytes × List (UInt64 × Bytes)) :=
  (atKeys s.log).map fun x => ((requestsSent x.1).getLast?, lastReceived x.1,
    x.2.2.2.2.head?.bind (fun o => match o with | .lowerTx f _ => some f | _ => none),
    x.1.filterMap fun o => match o with | .keyUsed r => some r | _ => none)

theorem exchanged_of {c c' : Cfg} (hw : c.fw.wrap = id) (hw' : c'.fw.wrap = id) {s s' : Layer} {m m2 : Bytes}
    {used used' : List (UInt64 × Bytes)} {x y : Option Bytes}
    (h : summary s = some (some m, some m2, x, used)) (h' : summary s' = some (y, some m, some m2, used'))
    (hn : m.length ≤ c.fw.maxPayload.toNat) (hn2 : m2.length ≤ c'.fw.maxPayload.toNat)
    (hq : ∀ r ∈ used, ∀ r' ∈ used', r.1 = r'.1 → r' = r) : Spec.SameHandshake c c' s s' 0 0 := by
  obtain ⟨a, ha, hs⟩ := Option.map_eq_some_iff.mp h
  obtain ⟨a', ha', hs'⟩ := Option.map_eq_some_iff.mp h'
  simp only [Prod.mk.injEq] at hs hs'
  obtain ⟨e1, e2⟩ := atKeys_split ha
  obtain ⟨e1', e2'⟩ := atKeys_split ha'
  refine ⟨_, _, _, _, _, _, _, _, _, _, e1, e2, e1', e2', ⟨m, lastRequest_of hw hs.1 hn, lastRead_of hs'.2.1⟩, ?_, ?_⟩
  · obtain ⟨o, ho, hm⟩ := Option.bind_eq_some_iff.mp hs'.2.2.1
    cases o with
    | lowerTx f r => cases hm; exact ⟨m2, r, by rw [ho, hw']; rfl, hn2, lastRead_of hs.2.1⟩
    | _ => cases hm
  · intro id key key' hk hk'
    have h1 : (id, key) ∈ used := by rw [← hs.2.2.2]; exact List.mem_filterMap.mpr ⟨_, hk, rfl⟩
    have h2 : (id, key') ∈ used' := by rw [← hs'.2.2.2]; exact List.mem_filterMap.mpr ⟨_, hk', rfl⟩
    have := hq _ h1 _ h2 rfl
    cases this
    rfl

theorem peers : Spec.Peers ini res (EnvB.tame.only (· = hs)) limits where
  lawful := Toy.strong_lawful
  backend := rfl
  initiator := ⟨_, rfl⟩
  responder := ⟨_, rfl, fun h he => he ▸ .sharedSecret suite key hs made, C52_writers_faithful none, C52_writers_faithful none⟩

set_option maxRecDepth 1000000 in
/-- Shared secrets: the initiator has handed over [1, 2, 3], the responder has received it. (The example beside
`C44_end_to_end_complete` has the same executions; it shows the other hypotheses of `C52_to_responder`.) -/
example : ∃ s s', Observed ini (EnvB.tame.only (· = hs)) s ∧ Observed res EnvB.tame.env s' ∧
    Spec.Peers ini res (EnvB.tame.only (· = hs)) limits ∧ Spec.SameHandshake ini res s s' 0 0 ∧
    s.log.filterMap Spec.takenData = [[1, 2, 3]] ∧ s'.log.filterMap Spec.givenData = [[1, 2, 3]] := by
  obtain ⟨s, h1, h2⟩ := Exec.exists_only configured (c := ini) (E := .tame) (h := hs) (script := iniData)
    (f := fun s => (summary s, s.log.filterMap Spec.takenData))
    (a := (some (some request, some reply, (summary ((final ini .tame hs iniData).getD (Layer.new ini hs))).bind (·.2.2.1), []), [[1, 2, 3]])) rfl
  obtain ⟨s', h1', h2'⟩ := Exec.exists_of_map configured (c := res) (E := .tame) (h := hs) (script := resRead)
    (f := fun s => (summary s, s.log.filterMap Spec.givenData))
    (a := (some (none, some request, some reply, []), [[1, 2, 3]])) rfl
  simp only [Prod.mk.injEq] at h2 h2'
  exact ⟨s, s', h1.observed, h1'.observed, peers,
    exchanged_of rfl rfl h2.1 h2'.1 (by decide +kernel) (by decide +kernel) (by simp), h2.2, h2'.2⟩

theorem qmade : InitiatorHandshake.mkQkd Toy.strong caps qsuite = some qhs := rfl

theorem qpeers : Spec.Peers ini qres (EnvB.tame.only (· = qhs)) limits where
  lawful := Toy.strong_lawful
  backend := rfl
  initiator := ⟨_, rfl⟩
  responder := ⟨_, rfl, fun h he => he ▸ .qkd qsuite qhs qmade, C52_writers_faithful none, C52_writers_faithful none⟩

set_option maxRecDepth 1000000 in
/-- Quantum keys. -/
example : ∃ s s', Observed ini (EnvB.tame.only (· = qhs)) s ∧ Observed qres EnvB.tame.env s' ∧
    Spec.Peers ini qres (EnvB.tame.only (· = qhs)) limits ∧ Spec.SameHandshake ini qres s s' 0 0 := by
  obtain ⟨s, h1, h2⟩ := Exec.exists_only qconfigured (c := ini) (E := .tame) (h := qhs) (script := q3)
    (f := summary)
    (a := (some (some (lastTx (final ini .tame qhs q1)), some (lastTx (final qres .tame qhs r1)),
      (summary ((final ini .tame qhs q3).getD (Layer.new ini qhs))).bind (·.2.2.1), [(1, List.replicate 32 1)]))) rfl
  obtain ⟨s', h1', h2'⟩ := Exec.exists_of_map qconfigured (c := qres) (E := .tame) (h := qhs) (script := r2)
    (f := summary)
    (a := (some (none, some (lastTx (final ini .tame qhs q1)), some (lastTx (final qres .tame qhs r1)), [(1, List.replicate 32 1)]))) rfl
  exact ⟨s, s', h1.observed, h1'.observed, qpeers,
    exchanged_of rfl rfl h2 h2' (by decide +kernel) (by decide +kernel) (by simp)⟩

end LayerExample

end SSP21.Crypto
