import Verif.Handshake
import Verif.Props.Chain
import Verif.Props.Transfer
/-
  Properties C24 (both sides derive the same keys) and C25 (the keys are bound to the transcript).
-/
namespace SSP21

/-! ## C24 — agreement -/

namespace Spec

/-- The two ends of one association: what one sends with, the other receives with; same algorithms, those of the
configured suite; the limits of the request; nothing sent or received yet. -/
structure Agree (b : Backend) (suite : CryptoSpec) (limits : SessionLimits) (i r : Session) : Prop where
  validI : i.valid = true
  validR : r.valid = true
  toResponder : i.keys.txKey = r.keys.rxKey
  toInitiator : i.keys.rxKey = r.keys.txKey
  keyLengths : i.keys.txKey.length = 32 ∧ i.keys.rxKey.length = 32
  algorithms : i.algorithms = r.algorithms
  standard : i.algorithms.Standard b
  configured : SuiteOf b suite i.algorithms
  maxNonce : i.param.maxNonce = limits.maxNonce ∧ r.param.maxNonce = limits.maxNonce
  maxTime : i.param.maxSessionTime = limits.maxSessionTimeMs.toNat * 1000000 ∧
    r.param.maxSessionTime = limits.maxSessionTimeMs.toNat * 1000000
  fresh : i.txNonce = 0 ∧ i.rxNonce = 0 ∧ r.txNonce = 0 ∧ r.rxNonce = 0

/-- The responder parses and processes the bytes `reqBytes` of the request at time `now1` and answers with a
frame; the initiator, which had noted the request at time `t0`, parses and processes the bytes in that frame
at time `now2`; both succeed and end with the sessions `sI'`, `sR'`. -/
def Exchange (b : Backend) (caps : Caps) (ih : InitiatorHandshake) (rh : ResponderHandshake)
    (limits : SessionLimits) (reqBytes : Bytes) (lookup : UInt64 → Option Bytes) (rndR : Bytes)
    (t0 now1 now2 : Int) (fwR : FrameWriter) (sI sR : Session) (stI stR : Stats) (sI' sR' : Session) : Prop :=
  ∃ msg reply replyBytes stR' stI' ih' consumed,
    RequestHandshakeBegin.read reqBytes = .ok msg ∧
    rh.process b caps lookup rndR msg reqBytes now1 fwR sR stR = (sR', stR', consumed, .ok (fwR.wrap replyBytes)) ∧
    ReplyHandshakeBegin.read replyBytes = .ok reply ∧
    (ih.finalizeRequestTx reqBytes t0).initializeSession b caps reply replyBytes limits now2 sI stI =
      (ih', sI', stI', .ok)

/-- The same with the two steps apart: the responder answers the request, whatever its session object holds; and the
initiator, whatever its session object holds and whenever it reads the answer, accepts it. Both sessions agree. -/
def Answered (b : Backend) (caps : Caps) (suite : CryptoSpec) (ih : InitiatorHandshake) (rh : ResponderHandshake)
    (limits : SessionLimits) (reqBytes : Bytes) (lookup : UInt64 → Option Bytes) (rndR : Bytes)
    (t0 now1 : Int) (fwR : FrameWriter) (sR : Session) (stR : Stats) : Prop :=
  ∃ msg reply replyBytes sR' stR' consumed,
    RequestHandshakeBegin.read reqBytes = .ok msg ∧ msg.version = protocolVersion ∧
    rh.process b caps lookup rndR msg reqBytes now1 fwR sR stR = (sR', stR', consumed, .ok (fwR.wrap replyBytes)) ∧
    ReplyHandshakeBegin.read replyBytes = .ok reply ∧ sR'.param.sessionStart = now1 ∧
    sR'.frameWriter = sR.frameWriter ∧ sR'.ttlPadMs = sR.ttlPadMs ∧
    ∀ now2 sI stI, t0 ≤ now2 → ∃ ih' sI' stI',
      (ih.finalizeRequestTx reqBytes t0).initializeSession b caps reply replyBytes limits now2 sI stI = (ih', sI', stI', .ok) ∧
      Agree b suite limits sI' sR' ∧ t0 ≤ sI'.param.sessionStart ∧ sI'.param.sessionStart ≤ now2 ∧
      sI'.frameWriter = sI.frameWriter ∧ sI'.ttlPadMs = sI.ttlPadMs

end Spec

theorem Spec.Answered.exchange {b : Backend} {caps : Caps} {suite : CryptoSpec} {ih : InitiatorHandshake} {rh : ResponderHandshake}
    {limits : SessionLimits} {reqBytes : Bytes} {lookup : UInt64 → Option Bytes} {rndR : Bytes}
    {t0 now1 : Int} {fwR : FrameWriter} {sR : Session} {stR : Stats}
    (h : Spec.Answered b caps suite ih rh limits reqBytes lookup rndR t0 now1 fwR sR stR) (now2 : Int) (ht : t0 ≤ now2)
    (sI : Session) (stI : Stats) :
    ∃ sI' sR', Spec.Exchange b caps ih rh limits reqBytes lookup rndR t0 now1 now2 fwR sI sR stI stR sI' sR' ∧
      Spec.Agree b suite limits sI' sR' ∧ sR'.param.sessionStart = now1 ∧
      t0 ≤ sI'.param.sessionStart ∧ sI'.param.sessionStart ≤ now2 := by
  obtain ⟨msg, reply, replyBytes, sR', stR', consumed, h1, -, h3, h4, h5, -, -, h8⟩ := h
  obtain ⟨ih', sI', stI', g1, g2, g3, g4, -⟩ := h8 now2 sI stI ht
  exact ⟨sI', sR', ⟨msg, reply, replyBytes, stR', stI', ih', consumed, h1, h3, h4, g1⟩, g2, h5, g3, g4⟩

theorem configure_ok {b : Backend} {caps : Caps} {spec : CryptoSpec} {a : CommonAlgorithms}
    (h : CommonAlgorithms.configure b caps spec = .ok a) :
    a.handshake = ⟨b.hash, b.hkdf⟩ ∧ a.session.Standard b ∧ Spec.SuiteOf b spec a.session ∧ spec.handshake_hash ≠ .undefined ∧
    spec.handshake_kdf ≠ .undefined ∧ spec.session_nonce_mode ≠ .undefined ∧ spec.session_crypto_mode ≠ .undefined := by
  obtain ⟨e, h1, h2, h3, h4⟩ := spec
  unfold CommonAlgorithms.configure HandshakeAlgorithms.configure SessionAlgorithms.configure at h
  cases h1 <;> cases h2 <;> cases h3 <;> cases h4 <;> cases hs : caps.sha256 <;> cases hg : caps.aesGcm <;>
    simp [hs, hg] at h <;>
    (subst h; simp [SessionAlgorithms.Standard, Spec.SuiteOf, Spec.NonceRule, strict_iff, greater_iff])

theorem configure_ephemeral (b : Backend) (caps : Caps) (spec : CryptoSpec) (e : HandshakeEphemeral) :
    CommonAlgorithms.configure b caps { spec with handshake_ephemeral := e } =
      CommonAlgorithms.configure b caps spec := rfl

theorem respond_ok (a : CommonAlgorithms) (b : Backend) (hb : b.Lawful) (ha : a.handshake = ⟨b.hash, b.hkdf⟩)
    (reply : ReplyHandshakeBegin) (hw : reply.WF) (ikm : List Bytes) (msg : RequestHandshakeBegin) (msgBytes : Bytes)
    (now : Int) (fw : FrameWriter) (hcap : (Spec.reply reply).length ≤ fw.maxPayload.toNat) (s : Session) (st : Stats) :
    respond a reply (.ok ikm) msg msgBytes now fw s st =
      ({ s with
          rxNonce := 0, txNonce := 0, algorithms := a.session, valid := true
          param := ⟨now, msg.constraints.max_nonce, ms msg.constraints.max_session_duration⟩
          keys := ⟨(b.hkdf (b.hash (b.hash msgBytes ++ Spec.reply reply)) ikm).1,
                   (b.hkdf (b.hash (b.hash msgBytes ++ Spec.reply reply)) ikm).2⟩ },
       { st with numInit := st.numInit + 1 }, .ok (fw.wrap (Spec.reply reply))) := by
  unfold respond
  rw [C02_reply_write reply hw, if_pos hcap]
  simp only [ha, handshakeHasher, Session.initialize, SessionKeys.valid, Backend.hkdf, hb.hmac_length]
  simp

theorem finishSession_ok (h : InitiatorHandshake) (b : Backend) (hb : b.Lawful)
    (ha : h.algorithms.handshake = ⟨b.hash, b.hkdf⟩) (ikm : List Bytes) (limits : SessionLimits) (now : Int)
    (ht : h.timeRequestTx ≤ now) (s : Session) (st : Stats) :
    h.finishSession ikm limits now s st =
      ({ s with
          rxNonce := 0, txNonce := 0, algorithms := h.algorithms.session, valid := true
          param := ⟨now - (now - h.timeRequestTx).tdiv 2, limits.maxNonce, ms limits.maxSessionTimeMs⟩
          keys := ⟨(b.hkdf h.handshakeHash ikm).2, (b.hkdf h.handshakeHash ikm).1⟩ },
       { st with numInit := st.numInit + 1 }, .ok) := by
  unfold InitiatorHandshake.finishSession
  simp only [ha]
  rw [if_neg (by omega)]
  simp [Session.initialize, SessionKeys.valid, Backend.hkdf, hb.hmac_length]

/-- The part common to the three modes. -/
theorem exchange_core (b : Backend) (hb : b.Lawful) (caps : Caps) (ih : InitiatorHandshake) (rh : ResponderHandshake)
    (limits : SessionLimits) (reqBytes : Bytes) (lookup : UInt64 → Option Bytes) (rndR : Bytes)
    (t0 now1 : Int) (fwR : FrameWriter) (sR : Session) (stR : Stats)
    (msg : RequestHandshakeBegin) (reply : ReplyHandshakeBegin) (ikm : List Bytes) (consumed : Option (UInt64 × Bytes))
    (c1 : ih.algorithms.handshake = ⟨b.hash, b.hkdf⟩) (c2 : ih.algorithms.session.Standard b) (suite : CryptoSpec)
    (c2' : Spec.SuiteOf b suite ih.algorithms.session)
    (hmsg : RequestHandshakeBegin.read reqBytes = .ok msg)
    (hver : msg.version = protocolVersion) (hcons : msg.constraints = ⟨limits.maxNonce, limits.maxSessionTimeMs⟩)
    (hrw : reply.WF) (hcap : (Spec.reply reply).length ≤ fwR.maxPayload.toNat)
    (hproc : rh.process b caps lookup rndR msg reqBytes now1 fwR sR stR =
      ((respond ih.algorithms reply (.ok ikm) msg reqBytes now1 fwR sR stR).1,
       (respond ih.algorithms reply (.ok ikm) msg reqBytes now1 fwR sR stR).2.1, consumed,
       (respond ih.algorithms reply (.ok ikm) msg reqBytes now1 fwR sR stR).2.2))
    (hinit : ∀ now2 sI stI, (ih.finalizeRequestTx reqBytes t0).initializeSession b caps reply (Spec.reply reply) limits now2 sI stI =
      ((ih.finalizeRequestTx reqBytes t0).mix (Spec.reply reply),
       ((ih.finalizeRequestTx reqBytes t0).mix (Spec.reply reply)).finishSession ikm limits now2 sI stI)) :
    Spec.Answered b caps suite ih rh limits reqBytes lookup rndR t0 now1 fwR sR stR := by
  rw [respond_ok ih.algorithms b hb c1 reply hrw ikm msg reqBytes now1 fwR hcap sR stR] at hproc
  refine ⟨msg, reply, Spec.reply reply, _, _, consumed, hmsg, hver, hproc, (C03_reply_canonical _ _).mpr ⟨hrw, rfl⟩, rfl, rfl, rfl,
    fun now2 sI stI ht => ?_⟩
  have hinit := hinit now2 sI stI
  rw [finishSession_ok _ b hb (by exact c1) ikm limits now2 (by exact ht)] at hinit
  refine ⟨_, _, _, hinit, ?_⟩
  have h1 : (now2 - t0).tdiv 2 ≤ now2 - t0 := by rw [Int.tdiv_eq_ediv_of_nonneg (by omega)]; omega
  have h2 : 0 ≤ (now2 - t0).tdiv 2 := Int.tdiv_nonneg (by omega) (by omega)
  refine ⟨⟨rfl, rfl, ?_, ?_, ?_, rfl, c2, c2', ⟨rfl, ?_⟩, ⟨rfl, ?_⟩, ⟨rfl, rfl, rfl, rfl⟩⟩, ?_, ?_, rfl, rfl⟩
  · simp [c1, InitiatorHandshake.mix, InitiatorHandshake.finalizeRequestTx]
  · simp [c1, InitiatorHandshake.mix, InitiatorHandshake.finalizeRequestTx]
  · simp [Backend.hkdf, hb.hmac_length]
  · simp [hcons]
  · simp [hcons, ms]
  · show t0 ≤ now2 - (now2 - t0).tdiv 2; omega
  · show now2 - (now2 - t0).tdiv 2 ≤ now2; omega

/-- The exchange, with the two steps apart. -/
theorem answered_shared_secret (b : Backend) (hb : b.Lawful) (caps : Caps) (suite : CryptoSpec) (key : Bytes)
    (ih ih1 : InitiatorHandshake) (hmk : InitiatorHandshake.mkSharedSecret b caps suite key = some ih)
    (rndI rndR : Bytes) (hI : rndI.length = 32) (hR : rndR.length = 32) (record : Option (UInt64 × Bytes))
    (eph data : Bytes) (hinit : ih.initializeNew b rndI record = (ih1, some (eph, data)))
    (limits : SessionLimits) (cap : Nat) (reqBytes : Bytes)
    (hw : (ih1.buildRequest limits eph data).write cap = .ok reqBytes)
    (lookup : UInt64 → Option Bytes) (t0 now1 : Int)
    (fwR : FrameWriter) (hcap : 39 ≤ fwR.maxPayload.toNat) (sR : Session) (stR : Stats) :
    Spec.Answered b caps suite ih1 (.sharedSecret key) limits reqBytes lookup rndR t0 now1 fwR sR stR := by
  unfold InitiatorHandshake.mkSharedSecret at hmk
  split at hmk
  · cases hmk
  rename_i a hc
  cases hmk
  simp only [InitiatorHandshake.initializeNew, Prod.mk.injEq, Option.some.injEq] at hinit
  obtain ⟨rfl, rfl, rfl⟩ := hinit
  obtain ⟨c1, c2, c2', c3, c4, c5, c6⟩ := configure_ok hc
  have hwf : (InitiatorHandshake.buildRequest ⟨.sharedSecret key rndI, { suite with handshake_ephemeral := .nonce }, a, 0, []⟩
      limits rndI []).WF := by
    refine ⟨⟨?_, c3, c4, c5, c6⟩, ?_, ?_, ?_⟩ <;> simp [InitiatorHandshake.buildRequest, InitiatorHandshake.handshakeMode, hI]
  have hrw : (⟨protocolVersion, rndR, []⟩ : ReplyHandshakeBegin).WF := by
    refine ⟨?_, ?_⟩ <;> simp [hR]
  have hlen : (Spec.reply ⟨protocolVersion, rndR, []⟩).length ≤ fwR.maxPayload.toNat := by
    have : (Spec.reply ⟨protocolVersion, rndR, []⟩).length = 39 := by
      simp [Spec.reply, Spec.field, Spec.vlength, hR, Spec.u16]
    omega
  have hread := C02_request_roundtrip _ hwf cap reqBytes hw
  refine exchange_core b hb caps _ _ limits reqBytes lookup rndR t0 now1 fwR sR stR _
    ⟨protocolVersion, rndR, []⟩ [key, rndI, rndR] none c1 c2 suite c2' hread rfl rfl hrw hlen ?_ ?_
  · unfold ResponderHandshake.process
    simp only [InitiatorHandshake.buildRequest, hI, configure_ephemeral, hc, ne_eq, not_true_eq_false, if_false]
  · intro now2 sI stI
    unfold InitiatorHandshake.initializeSession
    simp only [InitiatorHandshake.finalizeRequestTx, InitiatorHandshake.mix, hR, ne_eq, not_true_eq_false, if_false]

/-- Shared-secret mode: an exchange between two stations that hold the same secret always completes, and both
ends agree. -/
theorem C24_shared_secret (b : Backend) (hb : b.Lawful) (caps : Caps) (suite : CryptoSpec) (key : Bytes)
    (ih ih1 : InitiatorHandshake) (hmk : InitiatorHandshake.mkSharedSecret b caps suite key = some ih)
    (rndI rndR : Bytes) (hI : rndI.length = 32) (hR : rndR.length = 32) (record : Option (UInt64 × Bytes))
    (eph data : Bytes) (hinit : ih.initializeNew b rndI record = (ih1, some (eph, data)))
    (limits : SessionLimits) (cap : Nat) (reqBytes : Bytes)
    (hw : (ih1.buildRequest limits eph data).write cap = .ok reqBytes)
    (lookup : UInt64 → Option Bytes) (t0 now1 now2 : Int) (ht : t0 ≤ now2)
    (fwR : FrameWriter) (hcap : 39 ≤ fwR.maxPayload.toNat) (sI sR : Session) (stI stR : Stats) :
    ∃ sI' sR', Spec.Exchange b caps ih1 (.sharedSecret key) limits reqBytes lookup rndR t0 now1 now2 fwR
        sI sR stI stR sI' sR' ∧
      Spec.Agree b suite limits sI' sR' ∧ sR'.param.sessionStart = now1 ∧
      t0 ≤ sI'.param.sessionStart ∧ sI'.param.sessionStart ≤ now2 :=
  (answered_shared_secret b hb caps suite key ih ih1 hmk rndI rndR hI hR record eph data hinit limits cap reqBytes hw lookup t0 now1 fwR hcap sR stR).exchange now2 ht sI stI

/-- The exchange, with the two steps apart. -/
theorem answered_qkd (b : Backend) (hb : b.Lawful) (caps : Caps) (suite : CryptoSpec)
    (ih ih1 : InitiatorHandshake) (hmk : InitiatorHandshake.mkQkd b caps suite = some ih)
    (rndI rndR : Bytes) (id : UInt64) (key : Bytes)
    (eph data : Bytes) (hinit : ih.initializeNew b rndI (some (id, key)) = (ih1, some (eph, data)))
    (limits : SessionLimits) (cap : Nat) (reqBytes : Bytes)
    (hw : (ih1.buildRequest limits eph data).write cap = .ok reqBytes)
    (lookup : UInt64 → Option Bytes) (hlook : lookup id = some key) (t0 now1 : Int)
    (fwR : FrameWriter) (hcap : 7 ≤ fwR.maxPayload.toNat) (sR : Session) (stR : Stats) :
    Spec.Answered b caps suite ih1 .qkd limits reqBytes lookup rndR t0 now1 fwR sR stR := by
  unfold InitiatorHandshake.mkQkd at hmk
  split at hmk
  · cases hmk
  rename_i a hc
  cases hmk
  simp only [InitiatorHandshake.initializeNew, Prod.mk.injEq, Option.some.injEq] at hinit
  obtain ⟨rfl, rfl, rfl⟩ := hinit
  obtain ⟨c1, c2, c2', c3, c4, c5, c6⟩ := configure_ok hc
  have hb8 : (be 8 id.toNat).length = 8 := by simp [be_length]
  have hwf : (InitiatorHandshake.buildRequest ⟨.qkd (some key), { suite with handshake_ephemeral := .none }, a, 0, []⟩
      limits [] (be 8 id.toNat)).WF := by
    refine ⟨⟨?_, c3, c4, c5, c6⟩, ?_, ?_, ?_⟩ <;>
      simp [InitiatorHandshake.buildRequest, InitiatorHandshake.handshakeMode, hb8]
  have hrw : (⟨protocolVersion, [], []⟩ : ReplyHandshakeBegin).WF := by
    refine ⟨?_, ?_⟩ <;> simp
  have hlen : (Spec.reply ⟨protocolVersion, [], []⟩).length ≤ fwR.maxPayload.toNat := by
    have : (Spec.reply ⟨protocolVersion, [], []⟩).length = 7 := by
      simp [Spec.reply, Spec.field, Spec.vlength, Spec.u16]
    omega
  have hread := C02_request_roundtrip _ hwf cap reqBytes hw
  refine exchange_core b hb caps _ _ limits reqBytes lookup rndR t0 now1 fwR sR stR _
    ⟨protocolVersion, [], []⟩ [key] (some (id, key)) c1 c2 suite c2' hread rfl rfl hrw hlen ?_ ?_
  · unfold ResponderHandshake.process
    have hid : UInt64.ofNat (beNat (be 8 id.toNat)) = id := by
      rw [beNat_be, Nat.mod_eq_of_lt id.toNat_lt, UInt64.ofNat_toNat]
    simp only [InitiatorHandshake.buildRequest, configure_ephemeral, hc, ne_eq, not_true_eq_false, if_false,
      hb8, hid, hlook]
  · intro now2 sI stI
    unfold InitiatorHandshake.initializeSession
    simp only [InitiatorHandshake.finalizeRequestTx, InitiatorHandshake.mix, ne_eq, not_true_eq_false, if_false]

/-- QKD mode: the responder's store still holds the key that the initiator's source delivered, under the same
id. The exchange completes and both ends agree; the responder asks its store for exactly that id. -/
theorem C24_qkd (b : Backend) (hb : b.Lawful) (caps : Caps) (suite : CryptoSpec)
    (ih ih1 : InitiatorHandshake) (hmk : InitiatorHandshake.mkQkd b caps suite = some ih)
    (rndI rndR : Bytes) (id : UInt64) (key : Bytes)
    (eph data : Bytes) (hinit : ih.initializeNew b rndI (some (id, key)) = (ih1, some (eph, data)))
    (limits : SessionLimits) (cap : Nat) (reqBytes : Bytes)
    (hw : (ih1.buildRequest limits eph data).write cap = .ok reqBytes)
    (lookup : UInt64 → Option Bytes) (hlook : lookup id = some key) (t0 now1 now2 : Int) (ht : t0 ≤ now2)
    (fwR : FrameWriter) (hcap : 7 ≤ fwR.maxPayload.toNat) (sI sR : Session) (stI stR : Stats) :
    ∃ sI' sR', Spec.Exchange b caps ih1 .qkd limits reqBytes lookup rndR t0 now1 now2 fwR
        sI sR stI stR sI' sR' ∧
      Spec.Agree b suite limits sI' sR' ∧ sR'.param.sessionStart = now1 ∧
      t0 ≤ sI'.param.sessionStart ∧ sI'.param.sessionStart ≤ now2 :=
  (answered_qkd b hb caps suite ih ih1 hmk rndI rndR id key eph data hinit limits cap reqBytes hw lookup hlook t0 now1 fwR hcap sR stR).exchange now2 ht sI stI

theorem dh_honest (b : Backend) (hb : b.Lawful) (x y r : Bytes) (h : b.dhRaw x (b.dhPublic y) = some r) :
    b.dh x (b.dhPublic y) = .ok r ∧ b.dh y (b.dhPublic x) = .ok r := by
  unfold Backend.dh
  have h' := h
  rw [hb.dh_comm] at h'
  rw [if_neg (by rw [hb.dhPublic_length]; omega), if_neg (by rw [hb.dhPublic_length]; omega),
    List.take_of_length_le (by rw [hb.dhPublic_length]; omega), List.take_of_length_le (by rw [hb.dhPublic_length]; omega),
    h, h']
  exact ⟨rfl, rfl⟩

/-- The exchange, with the two steps apart. -/
theorem answered_public_key (b : Backend) (hb : b.Lawful) (caps : Caps) (suite : CryptoSpec)
    (spI spR : Bytes) (certsI certsR : CertHandler)
    (hvI : certsI.validate b caps certsI.mode certsR.data = .ok (b.dhPublic spR))
    (hvR : certsR.validate b caps certsI.mode certsI.data = .ok (b.dhPublic spI))
    (hlI : certsI.data.length < 2 ^ 32) (hlR : certsR.data.length < 2 ^ 32)
    (ih ih1 : InitiatorHandshake) (hmk : InitiatorHandshake.mkPublicKey b caps suite spI certsI = some ih)
    (rndI rndR : Bytes) (record : Option (UInt64 × Bytes))
    (hd1 : (b.dhRaw rndI (b.dhPublic rndR)).isSome) (hd2 : (b.dhRaw rndI (b.dhPublic spR)).isSome)
    (hd3 : (b.dhRaw spI (b.dhPublic rndR)).isSome)
    (eph data : Bytes) (hinit : ih.initializeNew b rndI record = (ih1, some (eph, data)))
    (limits : SessionLimits) (cap : Nat) (reqBytes : Bytes)
    (hw : (ih1.buildRequest limits eph data).write cap = .ok reqBytes)
    (lookup : UInt64 → Option Bytes) (t0 now1 : Int)
    (fwR : FrameWriter) (hcap : 43 + certsR.data.length ≤ fwR.maxPayload.toNat) (sR : Session) (stR : Stats) :
    Spec.Answered b caps suite ih1 (.publicKey spR certsR) limits reqBytes lookup rndR t0 now1 fwR sR stR := by
  unfold InitiatorHandshake.mkPublicKey at hmk
  split at hmk
  · cases hmk
  rename_i a hc
  split at hmk
  · cases hmk
  rename_i hdh
  split at hmk
  case isFalse => cases hmk
  rename_i hed
  cases hmk
  simp only [InitiatorHandshake.initializeNew, Prod.mk.injEq, Option.some.injEq] at hinit
  obtain ⟨rfl, rfl, rfl⟩ := hinit
  obtain ⟨c1, c2, c2', c3, c4, c5, c6⟩ := configure_ok hc
  have he : suite.handshake_ephemeral ≠ .undefined := by
    intro h; rw [h] at hdh; simp [dhConfigure] at hdh
  have hpl := hb.dhPublic_length rndI
  have hwf : (InitiatorHandshake.buildRequest ⟨.publicKey spI certsI (b.genKeyPair rndI), suite, a, 0, []⟩
      limits (b.genKeyPair rndI).pub certsI.data).WF := by
    refine ⟨⟨he, c3, c4, c5, c6⟩, ?_, ?_, hlI⟩
    · cases certsI <;> simp [InitiatorHandshake.buildRequest, InitiatorHandshake.handshakeMode, CertHandler.mode]
    · simp [InitiatorHandshake.buildRequest, Backend.genKeyPair, hpl]
  have hrw : (⟨protocolVersion, b.dhPublic rndR, certsR.data⟩ : ReplyHandshakeBegin).WF :=
    ⟨by simp [hb.dhPublic_length], hlR⟩
  have hlen : (Spec.reply ⟨protocolVersion, b.dhPublic rndR, certsR.data⟩).length ≤ fwR.maxPayload.toNat := by
    have hv : (Spec.vlength certsR.data.length).length ≤ 5 := by
      have := C01_vlength_size (UInt32.ofNat certsR.data.length)
      have e : (UInt32.ofNat certsR.data.length).toNat = certsR.data.length := by simp; omega
      rw [e] at this
      omega
    simp only [Spec.reply, Spec.field, Spec.u16, List.length_append, List.length_cons, List.length_nil,
      hb.dhPublic_length]
    have : (Spec.vlength 32).length = 1 := by decide +kernel
    omega
  have hread := C02_request_roundtrip _ hwf cap reqBytes hw
  obtain ⟨r1, hr1⟩ := Option.isSome_iff_exists.mp hd1
  obtain ⟨r2, hr2⟩ := Option.isSome_iff_exists.mp hd2
  obtain ⟨r3, hr3⟩ := Option.isSome_iff_exists.mp hd3
  obtain ⟨i1, j1⟩ := dh_honest b hb _ _ _ hr1
  obtain ⟨i2, j2⟩ := dh_honest b hb _ _ _ hr2
  obtain ⟨i3, j3⟩ := dh_honest b hb _ _ _ hr3
  refine exchange_core b hb caps _ _ limits reqBytes lookup rndR t0 now1 fwR sR stR _
    ⟨protocolVersion, b.dhPublic rndR, certsR.data⟩ [r1, r3, r2] none c1 c2 suite c2' hread rfl rfl hrw hlen ?_ ?_
  · unfold ResponderHandshake.process
    simp only [InitiatorHandshake.buildRequest, hc, hdh, Backend.genKeyPair, hpl, ne_eq, not_true_eq_false, if_false,
      InitiatorHandshake.handshakeMode, hvR, hed, tripleDH, j1, j2, j3, Bool.not_true, Bool.false_eq_true]
  · intro now2 sI stI
    unfold InitiatorHandshake.initializeSession
    simp only [InitiatorHandshake.finalizeRequestTx, InitiatorHandshake.mix, ne_eq, not_true_eq_false, if_false,
      hvI, tripleDH, Backend.genKeyPair, i1, i2, i3]

/-- Public-key modes: each side accepts the other's certificate data as proof of the other's public key (for
pre-shared keys see C24_preshared). The exchange completes and both ends agree, provided that the three key
agreements do not fail (X25519 fails only for low-order points). -/
theorem C24_public_key (b : Backend) (hb : b.Lawful) (caps : Caps) (suite : CryptoSpec)
    (spI spR : Bytes) (certsI certsR : CertHandler)
    (hvI : certsI.validate b caps certsI.mode certsR.data = .ok (b.dhPublic spR))
    (hvR : certsR.validate b caps certsI.mode certsI.data = .ok (b.dhPublic spI))
    (hlI : certsI.data.length < 2 ^ 32) (hlR : certsR.data.length < 2 ^ 32)
    (ih ih1 : InitiatorHandshake) (hmk : InitiatorHandshake.mkPublicKey b caps suite spI certsI = some ih)
    (rndI rndR : Bytes) (record : Option (UInt64 × Bytes))
    (hd1 : (b.dhRaw rndI (b.dhPublic rndR)).isSome) (hd2 : (b.dhRaw rndI (b.dhPublic spR)).isSome)
    (hd3 : (b.dhRaw spI (b.dhPublic rndR)).isSome)
    (eph data : Bytes) (hinit : ih.initializeNew b rndI record = (ih1, some (eph, data)))
    (limits : SessionLimits) (cap : Nat) (reqBytes : Bytes)
    (hw : (ih1.buildRequest limits eph data).write cap = .ok reqBytes)
    (lookup : UInt64 → Option Bytes) (t0 now1 now2 : Int) (ht : t0 ≤ now2)
    (fwR : FrameWriter) (hcap : 43 + certsR.data.length ≤ fwR.maxPayload.toNat) (sI sR : Session) (stI stR : Stats) :
    ∃ sI' sR', Spec.Exchange b caps ih1 (.publicKey spR certsR) limits reqBytes lookup rndR t0 now1 now2 fwR
        sI sR stI stR sI' sR' ∧
      Spec.Agree b suite limits sI' sR' ∧ sR'.param.sessionStart = now1 ∧
      t0 ≤ sI'.param.sessionStart ∧ sI'.param.sessionStart ≤ now2 :=
  (answered_public_key b hb caps suite spI spR certsI certsR hvI hvR hlI hlR ih ih1 hmk rndI rndR record hd1 hd2 hd3 eph data hinit limits cap reqBytes hw lookup t0 now1 fwR hcap sR stR).exchange now2 ht sI stI

/-- With pre-shared public keys nothing needs to be assumed about certificates. -/
theorem C24_preshared (b : Backend) (hb : b.Lawful) (caps : Caps) (suite : CryptoSpec) (spI spR : Bytes)
    (ih ih1 : InitiatorHandshake)
    (hmk : InitiatorHandshake.mkPublicKey b caps suite spI (.preshared (b.dhPublic spR)) = some ih)
    (rndI rndR : Bytes) (record : Option (UInt64 × Bytes))
    (hd1 : (b.dhRaw rndI (b.dhPublic rndR)).isSome) (hd2 : (b.dhRaw rndI (b.dhPublic spR)).isSome)
    (hd3 : (b.dhRaw spI (b.dhPublic rndR)).isSome)
    (eph data : Bytes) (hinit : ih.initializeNew b rndI record = (ih1, some (eph, data)))
    (limits : SessionLimits) (cap : Nat) (reqBytes : Bytes)
    (hw : (ih1.buildRequest limits eph data).write cap = .ok reqBytes)
    (lookup : UInt64 → Option Bytes) (t0 now1 now2 : Int) (ht : t0 ≤ now2)
    (fwR : FrameWriter) (hcap : 43 ≤ fwR.maxPayload.toNat) (sI sR : Session) (stI stR : Stats) :
    ∃ sI' sR', Spec.Exchange b caps ih1 (.publicKey spR (.preshared (b.dhPublic spI))) limits reqBytes lookup rndR
        t0 now1 now2 fwR sI sR stI stR sI' sR' ∧
      Spec.Agree b suite limits sI' sR' ∧ sR'.param.sessionStart = now1 ∧
      t0 ≤ sI'.param.sessionStart ∧ sI'.param.sessionStart ≤ now2 :=
  C24_public_key b hb caps suite spI spR _ _ (by simp [CertHandler.validate, CertHandler.mode, CertHandler.data])
    (by simp [CertHandler.validate, CertHandler.mode, CertHandler.data]) (by simp [CertHandler.data])
    (by simp [CertHandler.data]) ih ih1 hmk rndI rndR record hd1 hd2 hd3 eph data hinit limits cap reqBytes hw lookup
    t0 now1 now2 ht fwR (by simpa [CertHandler.data] using hcap) sI sR stI stR

/-! ## C25 — binding -/

namespace Spec

/-- Two different inputs with the same image. -/
def Collides {α β : Type} (f : α → β) (x y : α) : Prop := x ≠ y ∧ f x = f y

/-- The salt: hash of (hash of the request) and the reply. -/
def salt (b : Backend) (request reply : Bytes) : Bytes := b.hash (b.hash request ++ reply)

/-- The two keys derived from a salt and a secret (RFC 5869 with an empty info and two 32-byte blocks). -/
def derive (b : Backend) (salt secret : Bytes) : Bytes × Bytes :=
  let prk := b.hmac salt secret
  (b.hmac prk [1], b.hmac prk (b.hmac prk [1] ++ [2]))

/-- One of the four evaluations of the primitives made by one side collides with the corresponding evaluation
made by the other side. (The inputs are explicit: this is not the mere existence of collisions.) -/
def TranscriptCollision (b : Backend) (q₁ r₁ s₁ q₂ r₂ s₂ : Bytes) : Prop :=
  Collides b.hash q₁ q₂ ∨
  Collides b.hash (b.hash q₁ ++ r₁) (b.hash q₂ ++ r₂) ∨
  Collides (fun p : Bytes × Bytes => b.hmac p.1 p.2) (salt b q₁ r₁, s₁) (salt b q₂ r₂, s₂) ∨
  Collides (fun k => b.hmac k [1]) (b.hmac (salt b q₁ r₁) s₁) (b.hmac (salt b q₂ r₂) s₂)

end Spec

theorem hkdf_eq (b : Backend) (salt : Bytes) (ikm : List Bytes) : b.hkdf salt ikm = Spec.derive b salt ikm.flatten := rfl

theorem finishSession_keys (h : InitiatorHandshake) (b : Backend) (caps : Caps) (hc : h.Configured b caps)
    (ikm : List Bytes) (limits : SessionLimits) (now : Int) (s s' : Session) (st st' : Stats)
    (hf : h.finishSession ikm limits now s st = (s', st', .ok)) :
    s'.keys.txKey = (Spec.derive b h.handshakeHash ikm.flatten).1 ∧
    s'.keys.rxKey = (Spec.derive b h.handshakeHash ikm.flatten).2 ∧ s'.valid = true := by
  have hs := hc
  have c1 := (configure_ok hs).1
  unfold InitiatorHandshake.finishSession at hf
  simp only [c1] at hf
  split at hf
  · cases hf
  split at hf
  · rename_i hi
    cases hf
    unfold Session.initialize at hi
    split at hi
    · cases hi
    · cases hi; exact ⟨rfl, rfl, rfl⟩
  · cases hf

/-- What the initiator derives: from a secret, and from exactly the request bytes it sent and the reply bytes
it received. In shared-secret mode the secret is the pre-shared key and the two nonces. -/
theorem C25_initiator_keys (b : Backend) (caps : Caps) (ih ih' : InitiatorHandshake) (hc : ih.Configured b caps)
    (req rep : Bytes) (reply : ReplyHandshakeBegin) (limits : SessionLimits) (t0 now : Int) (s s' : Session) (st st' : Stats)
    (h : (ih.finalizeRequestTx req t0).initializeSession b caps reply rep limits now s st = (ih', s', st', .ok)) :
    ∃ secret, s'.keys.txKey = (Spec.derive b (Spec.salt b req rep) secret).1 ∧
      s'.keys.rxKey = (Spec.derive b (Spec.salt b req rep) secret).2 ∧
      (∀ key nonce, ih.mode = .sharedSecret key nonce →
        secret = key ++ nonce ++ reply.mode_ephemeral ∧ reply.mode_ephemeral.length = 32) ∧
      (∀ key, ih.mode = .qkd (some key) → secret = key) := by
  have hmix : ((ih.finalizeRequestTx req t0).mix rep).handshakeHash = Spec.salt b req rep := by
    have hs := hc
    simp [InitiatorHandshake.finalizeRequestTx, InitiatorHandshake.mix, (configure_ok hs).1, Spec.salt]
  have hcm : ((ih.finalizeRequestTx req t0).mix rep).Configured b caps := hc
  have hmode : (ih.finalizeRequestTx req t0).mode = ih.mode := rfl
  unfold InitiatorHandshake.initializeSession at h
  rw [hmode] at h
  split at h
  · rename_i key nonce hm
    split at h
    · cases h
    rename_i hl
    split at h
    · cases h
    simp only [Prod.mk.injEq] at h
    obtain ⟨k1, k2, _⟩ := finishSession_keys _ b caps hcm _ _ _ _ _ _ _ h.2
    rw [hmix] at k1 k2
    refine ⟨_, k1, k2, ?_, ?_⟩
    · intro key' nonce' h'; rw [hm] at h'; cases h'; exact ⟨by simp, by simpa using hl⟩
    · intro key' h'; rw [hm] at h'; cases h'
  · cases h
  · rename_i key hm
    split at h
    · cases h
    split at h
    · cases h
    simp only [Prod.mk.injEq] at h
    obtain ⟨k1, k2, _⟩ := finishSession_keys _ b caps hcm _ _ _ _ _ _ _ h.2
    rw [hmix] at k1 k2
    refine ⟨_, k1, k2, ?_, ?_⟩
    · intro key' nonce' h'; rw [hm] at h'; cases h'
    · intro key' h'; rw [hm] at h'; cases h'; simp
  · rename_i sp certs eph hm
    split at h
    · cases h
    · cases h
    rename_i remote hv
    simp only at h
    split at h
    · cases h
    · cases h
    · rename_i dh1 dh2 dh3 htd
      simp only [Prod.mk.injEq] at h
      obtain ⟨k1, k2, _⟩ := finishSession_keys _ b caps hcm _ _ _ _ _ _ _ h.2
      rw [hmix] at k1 k2
      refine ⟨_, k1, k2, ?_, ?_⟩
      · intro key' nonce' h'; rw [hm] at h'; cases h'
      · intro key' h'; rw [hm] at h'; cases h'

theorem respond_keys (a : CommonAlgorithms) (b : Backend) (hb : b.Lawful) (ha : a.handshake = ⟨b.hash, b.hkdf⟩)
    (reply : ReplyHandshakeBegin) (ikm : Except HsFail (List Bytes)) (msg : RequestHandshakeBegin) (msgBytes : Bytes)
    (now : Int) (fw : FrameWriter) (s s' : Session) (st st' : Stats) (frame : Bytes)
    (h : respond a reply ikm msg msgBytes now fw s st = (s', st', .ok frame)) :
    ∃ x written, ikm = .ok x ∧ reply.write fw.maxPayload.toNat = .ok written ∧ frame = fw.wrap written ∧
      s'.keys.rxKey = (Spec.derive b (Spec.salt b msgBytes written) x.flatten).1 ∧
      s'.keys.txKey = (Spec.derive b (Spec.salt b msgBytes written) x.flatten).2 ∧ s'.valid = true := by
  unfold respond at h
  split at h
  · cases h
  rename_i written hw
  split at h
  · cases h
  rename_i x
  refine ⟨x, written, rfl, hw, ?_⟩
  simp only [ha, handshakeHasher, Session.initialize, SessionKeys.valid, Backend.hkdf, hb.hmac_length] at h
  simp only [beq_self_eq_true, Bool.and_self, Bool.not_true, Bool.false_eq_true, if_false] at h
  cases h
  exact ⟨rfl, rfl, rfl, rfl⟩

/-- What the responder derives: from a secret, and from exactly the request bytes it received and the reply
bytes in the frame it sends. -/
theorem C25_responder_keys (b : Backend) (hb : b.Lawful) (caps : Caps) (rh : ResponderHandshake)
    (lookup : UInt64 → Option Bytes) (rnd : Bytes) (msg : RequestHandshakeBegin) (req : Bytes) (now : Int)
    (fw : FrameWriter) (s s' : Session) (st st' : Stats) (consumed : Option (UInt64 × Bytes)) (frame : Bytes)
    (h : rh.process b caps lookup rnd msg req now fw s st = (s', st', consumed, .ok frame)) :
    ∃ rep secret, frame = fw.wrap rep ∧
      s'.keys.rxKey = (Spec.derive b (Spec.salt b req rep) secret).1 ∧
      s'.keys.txKey = (Spec.derive b (Spec.salt b req rep) secret).2 ∧
      (∀ key, rh = .sharedSecret key → secret = key ++ msg.mode_ephemeral ++ rnd ∧ msg.mode_ephemeral.length = 32) ∧
      (rh = .qkd → ∃ id, consumed = some (id, secret) ∧ lookup id = some secret) := by
  unfold ResponderHandshake.process at h
  cases rh with
  | sharedSecret key =>
    simp only at h
    split at h
    · cases h
    rename_i hl
    split at h
    · cases h
    split at h
    · cases h
    rename_i a hc
    simp only [Prod.mk.injEq] at h
    obtain ⟨x, written, h1, h2, h3, h4, h5, h6⟩ := respond_keys a b hb (configure_ok hc).1 _ _ _ _ _ _ _ _ _ _ _
      (show _ = (s', st', Except.ok frame) from Prod.ext h.1 (Prod.ext h.2.1 h.2.2.2))
    cases h1
    refine ⟨written, _, h3, h4, h5, ?_, nofun⟩
    intro k hk; cases hk; exact ⟨by simp, by simpa using hl⟩
  | qkd =>
    simp only at h
    split at h
    · cases h
    split at h
    · cases h
    rename_i a hc
    split at h
    · cases h
    split at h
    · cases h
    rename_i key hk
    simp only [Prod.mk.injEq] at h
    obtain ⟨x, written, h1, h2, h3, h4, h5, h6⟩ := respond_keys a b hb (configure_ok hc).1 _ _ _ _ _ _ _ _ _ _ _
      (show _ = (s', st', Except.ok frame) from Prod.ext h.1 (Prod.ext h.2.1 h.2.2.2))
    cases h1
    refine ⟨written, _, h3, h4, h5, nofun, ?_⟩
    intro _
    exact ⟨_, by simpa using h.2.2.1.symm, by simpa using hk⟩
  | publicKey sp certs =>
    simp only at h
    split at h
    · cases h
    rename_i a hc
    split at h
    · cases h
    split at h
    · cases h
    split at h
    · cases h
    split at h
    · cases h
    simp only [Prod.mk.injEq] at h
    obtain ⟨x, written, h1, h2, h3, h4, h5, h6⟩ := respond_keys a b hb (configure_ok hc).1 _ _ _ _ _ _ _ _ _ _ _
      (show _ = (s', st', Except.ok frame) from Prod.ext h.1 (Prod.ext h.2.1 h.2.2.2))
    exact ⟨written, _, h3, h4, h5, nofun, nofun⟩

/-- The derivation is injective up to explicit collisions. -/
theorem C25_derivation_binds (b : Backend) (hb : b.Lawful) (q₁ r₁ s₁ q₂ r₂ s₂ : Bytes)
    (h : (Spec.derive b (Spec.salt b q₁ r₁) s₁).1 = (Spec.derive b (Spec.salt b q₂ r₂) s₂).1) :
    (q₁ = q₂ ∧ r₁ = r₂ ∧ s₁ = s₂) ∨ Spec.TranscriptCollision b q₁ r₁ s₁ q₂ r₂ s₂ := by
  unfold Spec.TranscriptCollision Spec.Collides
  by_cases h1 : b.hmac (Spec.salt b q₁ r₁) s₁ = b.hmac (Spec.salt b q₂ r₂) s₂
  · by_cases h2 : (Spec.salt b q₁ r₁, s₁) = (Spec.salt b q₂ r₂, s₂)
    · simp only [Prod.mk.injEq] at h2
      by_cases h3 : b.hash q₁ ++ r₁ = b.hash q₂ ++ r₂
      · have := List.append_inj h3 (by rw [hb.hash_length, hb.hash_length])
        by_cases h4 : q₁ = q₂
        · exact .inl ⟨h4, this.2, h2.2⟩
        · exact .inr (.inl ⟨h4, this.1⟩)
      · exact .inr (.inr (.inl ⟨h3, h2.1⟩))
    · exact .inr (.inr (.inr (.inl ⟨h2, h1⟩)))
  · exact .inr (.inr (.inr (.inr ⟨h1, h⟩)))

/-- Whenever an initiator's transmit key equals a responder's receive key — the condition for anything the
one sends to be accepted by the other — both have seen the same request and the same reply, byte for byte,
and used the same secret, unless a primitive collided on the very values computed. -/
theorem C25_keys_bind_transcript (b : Backend) (hb : b.Lawful) (caps : Caps)
    (ih ih' : InitiatorHandshake) (hc : ih.Configured b caps)
    (reqI repI : Bytes) (reply : ReplyHandshakeBegin) (limits : SessionLimits) (t0 nowI : Int) (sI sI' : Session)
    (stI stI' : Stats)
    (hI : (ih.finalizeRequestTx reqI t0).initializeSession b caps reply repI limits nowI sI stI = (ih', sI', stI', .ok))
    (rh : ResponderHandshake) (lookup : UInt64 → Option Bytes) (rnd : Bytes) (msg : RequestHandshakeBegin)
    (reqR : Bytes) (nowR : Int) (fw : FrameWriter) (sR sR' : Session) (stR stR' : Stats) (consumed : Option (UInt64 × Bytes))
    (frame : Bytes) (hR : rh.process b caps lookup rnd msg reqR nowR fw sR stR = (sR', stR', consumed, .ok frame))
    (hkey : sI'.keys.txKey = sR'.keys.rxKey) :
    ∃ repR secretI secretR, frame = fw.wrap repR ∧
      ((reqI = reqR ∧ repI = repR ∧ secretI = secretR) ∨
       Spec.TranscriptCollision b reqI repI secretI reqR repR secretR) ∧
      (∀ key nonce, ih.mode = .sharedSecret key nonce → secretI = key ++ nonce ++ reply.mode_ephemeral) ∧
      (∀ key, rh = .sharedSecret key → secretR = key ++ msg.mode_ephemeral ++ rnd) := by
  obtain ⟨x, i1, i2, i3, i4⟩ := C25_initiator_keys b caps ih ih' hc reqI repI reply limits t0 nowI sI sI' stI stI' hI
  obtain ⟨repR, y, r0, r1, r2, r3, r4⟩ := C25_responder_keys b hb caps rh lookup rnd msg reqR nowR fw sR sR' stR stR'
    consumed frame hR
  refine ⟨repR, x, y, r0, ?_, fun k n h => (i3 k n h).1, fun k h => (r3 k h).1⟩
  exact C25_derivation_binds b hb _ _ _ _ _ _ (by rw [← i1, ← r1, hkey])

/-- In shared-secret mode: matching session keys mean that both hold the same pre-shared key (of 32 bytes each),
or a primitive collided on the very values computed. -/
theorem C25_shared_secret_required (b : Backend) (hb : b.Lawful) (caps : Caps)
    (ih ih' : InitiatorHandshake) (hc : ih.Configured b caps) (keyI nonce keyR : Bytes)
    (hm : ih.mode = .sharedSecret keyI nonce) (hlI : keyI.length = 32) (hlR : keyR.length = 32)
    (reqI repI : Bytes) (reply : ReplyHandshakeBegin) (limits : SessionLimits) (t0 nowI : Int) (sI sI' : Session)
    (stI stI' : Stats)
    (hI : (ih.finalizeRequestTx reqI t0).initializeSession b caps reply repI limits nowI sI stI = (ih', sI', stI', .ok))
    (lookup : UInt64 → Option Bytes) (rnd : Bytes) (msg : RequestHandshakeBegin)
    (reqR : Bytes) (nowR : Int) (fw : FrameWriter) (sR sR' : Session) (stR stR' : Stats) (consumed : Option (UInt64 × Bytes))
    (frame : Bytes)
    (hR : (ResponderHandshake.sharedSecret keyR).process b caps lookup rnd msg reqR nowR fw sR stR =
      (sR', stR', consumed, .ok frame))
    (hkey : sI'.keys.txKey = sR'.keys.rxKey) :
    keyI = keyR ∨ ∃ repR, Spec.TranscriptCollision b reqI repI (keyI ++ nonce ++ reply.mode_ephemeral)
      reqR repR (keyR ++ msg.mode_ephemeral ++ rnd) := by
  obtain ⟨repR, x, y, h0, h1, h2, h3⟩ := C25_keys_bind_transcript b hb caps ih ih' hc reqI repI reply limits t0 nowI
    sI sI' stI stI' hI _ lookup rnd msg reqR nowR fw sR sR' stR stR' consumed frame hR hkey
  have hx := h2 _ _ hm
  have hy := h3 _ rfl
  subst hx hy
  rcases h1 with ⟨_, _, h⟩ | h
  · left
    rw [List.append_assoc, List.append_assoc] at h
    exact (List.append_inj h (by omega)).1
  · exact .inr ⟨repR, h⟩

/-! ### Concrete runs with the toy backend -/

namespace HandshakeExample

def caps : Caps := ⟨true, true, true, true⟩
def suite : CryptoSpec := ⟨.x25519, .sha256, .hkdf_sha256, .strict_increment, .aes_256_gcm⟩
def limits : SessionLimits := ⟨1000, 60000⟩
def fw : FrameWriter := ⟨4092, fun x => 5 :: x⟩
def rndI : Bytes := List.replicate 32 9
def rndR : Bytes := List.replicate 32 8
def key : Bytes := List.replicate 32 7

def ih : InitiatorHandshake :=
  ⟨.sharedSecret key (List.replicate 32 0), { suite with handshake_ephemeral := .nonce },
    ⟨⟨Toy.backend.hash, Toy.backend.hkdf⟩, ⟨verifyStrictIncrement, .aes256Gcm Toy.backend⟩⟩, 0, []⟩
def ih1 : InitiatorHandshake := { ih with mode := .sharedSecret key rndI }

theorem made : InitiatorHandshake.mkSharedSecret Toy.backend caps suite key = some ih := rfl

/-- The hypotheses of C24_shared_secret are met, and so is its conclusion. -/
example : ∃ sI' sR', Spec.Exchange Toy.backend caps ih1 (.sharedSecret key) limits
      (Spec.request (ih1.buildRequest limits rndI [])) (fun _ => none) rndR 100 150 200 fw
      (Session.new Toy.backend fw 0) (Session.new Toy.backend fw 0) {} {} sI' sR' ∧
    Spec.Agree Toy.backend suite limits sI' sR' ∧ sR'.param.sessionStart = 150 ∧
      100 ≤ sI'.param.sessionStart ∧ sI'.param.sessionStart ≤ 200 :=
  C24_shared_secret Toy.backend Toy.lawful caps suite key ih ih1 made rndI rndR rfl rfl none rndI [] rfl limits 4092
    _ (by rw [C02_request_write _ (by
        refine ⟨⟨?_, ?_, ?_, ?_, ?_⟩, ?_, ?_, ?_⟩ <;> first | decide +kernel | (intro h; cases h))]; decide +kernel)
    _ 100 150 200 (by decide) fw (by decide) _ _ _ _

end HandshakeExample

/-- Sessions that agree are counterparts, in both directions, in the sense of the transfer theorems (C23, C44). -/
theorem C24_agree_counterpart (b : Backend) (suite : CryptoSpec) (limits : SessionLimits) (i r : Session)
    (h : Spec.Agree b suite limits i r) :
    Counterpart i r ∧ Counterpart r i :=
  ⟨⟨h.validR, h.toResponder.symm, by rw [h.algorithms], by rw [h.maxNonce.1, h.maxNonce.2]; omega⟩,
   ⟨h.validI, h.toInitiator, by rw [h.algorithms], by rw [h.maxNonce.1, h.maxNonce.2]; omega⟩⟩

end SSP21
