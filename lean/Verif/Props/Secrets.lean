import Verif.Props.Handshake
/-
  Property C25, continued: which secret goes into the session keys in each handshake mode, and everything else
  that a completed handshake determines.
-/
namespace SSP21

namespace Spec

/-- The secret of the initiator: pre-shared key and both nonces; the quantum key; or the three Diffie-Hellman
results (ephemeral-ephemeral, own static with remote ephemeral, own ephemeral with remote static), where the
remote static key was validated by the certificate handler. -/
def InitiatorSecret (b : Backend) (caps : Caps) (mode : InitiatorMode) (reply : ReplyHandshakeBegin)
    (secret : Bytes) : Prop :=
  match mode with
  | .sharedSecret key nonce => reply.mode_ephemeral.length = 32 ∧ secret = key ++ nonce ++ reply.mode_ephemeral
  | .qkd key => key = some secret
  | .publicKey staticPriv certs ephemeral => ∃ remoteStatic ee se es,
      certs.validate b caps certs.mode reply.mode_data = .ok remoteStatic ∧
      b.dh ephemeral.priv reply.mode_ephemeral = .ok ee ∧
      b.dh staticPriv reply.mode_ephemeral = .ok se ∧
      b.dh ephemeral.priv remoteStatic = .ok es ∧ secret = ee ++ se ++ es

/-- The secret of the responder; `rnd` is its own nonce, or its ephemeral private key. -/
def ResponderSecret (b : Backend) (caps : Caps) (mode : ResponderHandshake) (lookup : UInt64 → Option Bytes)
    (rnd : Bytes) (request : RequestHandshakeBegin) (consumed : Option (UInt64 × Bytes)) (secret : Bytes) : Prop :=
  match mode with
  | .sharedSecret key => consumed = none ∧ request.mode_ephemeral.length = 32 ∧
      secret = key ++ request.mode_ephemeral ++ rnd
  | .qkd => ∃ id, consumed = some (id, secret) ∧ request.mode_data = be 8 id.toNat ∧ lookup id = some secret
  | .publicKey staticPriv certs => consumed = none ∧ ∃ remoteStatic ee es se,
      certs.validate b caps request.handshake_mode request.mode_data = .ok remoteStatic ∧
      b.dh rnd request.mode_ephemeral = .ok ee ∧
      b.dh rnd remoteStatic = .ok es ∧
      b.dh staticPriv request.mode_ephemeral = .ok se ∧ secret = ee ++ es ++ se

/-- The reply of the responder: its nonce, nothing, or its ephemeral public key and its certificates. -/
def replyOf (b : Backend) (mode : ResponderHandshake) (rnd : Bytes) : ReplyHandshakeBegin :=
  match mode with
  | .sharedSecret _ => ⟨protocolVersion, rnd, []⟩
  | .qkd => ⟨protocolVersion, [], []⟩
  | .publicKey _ certs => ⟨protocolVersion, b.dhPublic rnd, certs.data⟩

end Spec

theorem tripleDH_ok {b : Backend} {sp ep rs re d1 d2 d3 : Bytes} (h : tripleDH b sp ep rs re = .ok (d1, d2, d3)) :
    b.dh ep re = .ok d1 ∧ b.dh ep rs = .ok d2 ∧ b.dh sp re = .ok d3 := by
  unfold tripleDH at h
  split at h
  · cases h
  rename_i x hx
  split at h
  · cases h
  rename_i y hy
  split at h
  · cases h
  rename_i z hz
  cases h
  exact ⟨hx, hy, hz⟩

theorem finishSession_cases (h : InitiatorHandshake) (b : Backend) (caps : Caps) (hc : h.Configured b caps)
    (ikm : List Bytes) (limits : SessionLimits) (now : Int) (s : Session) (st : Stats) :
    (h.finishSession ikm limits now s st = (s, st, .refused)) ∨
    (h.timeRequestTx ≤ now ∧ (Spec.derive b h.handshakeHash ikm.flatten).1.length = 32 ∧
      (Spec.derive b h.handshakeHash ikm.flatten).2.length = 32 ∧
      h.finishSession ikm limits now s st =
      ({ s with
          rxNonce := 0, txNonce := 0, algorithms := h.algorithms.session, valid := true
          param := ⟨now - (now - h.timeRequestTx).tdiv 2, limits.maxNonce, ms limits.maxSessionTimeMs⟩
          keys := ⟨(Spec.derive b h.handshakeHash ikm.flatten).2, (Spec.derive b h.handshakeHash ikm.flatten).1⟩ },
        { st with numInit := st.numInit + 1 }, .ok)) := by
  have hs := hc
  have c1 := (configure_ok hs).1
  unfold InitiatorHandshake.finishSession
  simp only [c1, hkdf_eq]
  by_cases ht : now < h.timeRequestTx
  · left; simp [ht]
  · simp only [ht, if_false]
    unfold Session.initialize
    cases hk : (SessionKeys.valid ⟨(Spec.derive b h.handshakeHash ikm.flatten).2,
      (Spec.derive b h.handshakeHash ikm.flatten).1⟩) with
    | false => left; simp
    | true =>
      right
      simp only [SessionKeys.valid, Bool.and_eq_true, beq_iff_eq] at hk
      exact ⟨by omega, hk.2, hk.1, by simp⟩

/-- A handshake reply either leaves the session alone or installs keys derived from the request sent, the reply
received, and the secret of the mode, with the agreed limits. The session starts between the transmission of
the request and the reception of the reply. -/
theorem C25_initiator_session (b : Backend) (caps : Caps) (ih : InitiatorHandshake) (hc : ih.Configured b caps)
    (req rep : Bytes) (reply : ReplyHandshakeBegin) (limits : SessionLimits) (t0 now : Int) (s : Session) (st : Stats)
    (ih' : InitiatorHandshake) (s' : Session) (st' : Stats) (out : InitOutcome)
    (h : (ih.finalizeRequestTx req t0).initializeSession b caps reply rep limits now s st = (ih', s', st', out)) :
    ih'.Configured b caps ∧
    (out ≠ .ok → s' = s ∧ st' = st) ∧
    (out = .ok → ∃ secret start, Spec.InitiatorSecret b caps ih.mode reply secret ∧
      t0 ≤ start ∧ start ≤ now ∧
      s' = { s with
        rxNonce := 0, txNonce := 0, valid := true, algorithms := ih.algorithms.session
        param := ⟨start, limits.maxNonce, ms limits.maxSessionTimeMs⟩
        keys := ⟨(Spec.derive b (Spec.salt b req rep) secret).2, (Spec.derive b (Spec.salt b req rep) secret).1⟩ } ∧
      s'.keys.rxKey.length = 32 ∧ s'.keys.txKey.length = 32 ∧
      st' = { st with numInit := st.numInit + 1 }) := by
  have hmix : ((ih.finalizeRequestTx req t0).mix rep).handshakeHash = Spec.salt b req rep := by
    have hs := hc
    simp [InitiatorHandshake.finalizeRequestTx, InitiatorHandshake.mix, (configure_ok hs).1, Spec.salt]
  have hcm : ((ih.finalizeRequestTx req t0).mix rep).Configured b caps := hc
  have hcf : (ih.finalizeRequestTx req t0).Configured b caps := hc
  have hmode : (ih.finalizeRequestTx req t0).mode = ih.mode := rfl
  have htime : ((ih.finalizeRequestTx req t0).mix rep).timeRequestTx = t0 := rfl
  have halg : ((ih.finalizeRequestTx req t0).mix rep).algorithms = ih.algorithms := rfl
  have hhalf : t0 ≤ now → t0 ≤ now - (now - t0).tdiv 2 ∧ now - (now - t0).tdiv 2 ≤ now := by
    intro ht
    rw [Int.tdiv_eq_ediv_of_nonneg (by omega)]
    omega
  have fin : ∀ ikm, (s', st', out) = ((ih.finalizeRequestTx req t0).mix rep).finishSession ikm limits now s st →
      Spec.InitiatorSecret b caps ih.mode reply ikm.flatten →
      (out ≠ .ok → s' = s ∧ st' = st) ∧
      (out = .ok → ∃ secret start, Spec.InitiatorSecret b caps ih.mode reply secret ∧
        t0 ≤ start ∧ start ≤ now ∧
        s' = { s with
          rxNonce := 0, txNonce := 0, valid := true, algorithms := ih.algorithms.session
          param := ⟨start, limits.maxNonce, ms limits.maxSessionTimeMs⟩
          keys := ⟨(Spec.derive b (Spec.salt b req rep) secret).2, (Spec.derive b (Spec.salt b req rep) secret).1⟩ } ∧
        s'.keys.rxKey.length = 32 ∧ s'.keys.txKey.length = 32 ∧
        st' = { st with numInit := st.numInit + 1 }) := by
    intro ikm he hsec
    rcases finishSession_cases _ b caps hcm ikm limits now s st with hr | ⟨ht, hl1, hl2, hr⟩
    · rw [hr] at he
      cases he
      exact ⟨fun _ => ⟨rfl, rfl⟩, fun h => by cases h⟩
    · rw [hr, hmix, htime, halg] at he
      rw [hmix] at hl1 hl2
      rw [htime] at ht
      cases he
      refine ⟨fun h => absurd rfl h, fun _ => ⟨ikm.flatten, _, hsec, (hhalf ht).1, (hhalf ht).2, rfl, hl2, hl1, rfl⟩⟩
  unfold InitiatorHandshake.initializeSession at h
  rw [hmode] at h
  have triv : (ih', s', st', out) = (ih.finalizeRequestTx req t0, s, st, .refused) ∨
      (ih', s', st', out) = (ih.finalizeRequestTx req t0, s, st, .fault) ∨
      (ih', s', st', out) = ((ih.finalizeRequestTx req t0).mix rep, s, st, .refused) ∨
      (ih', s', st', out) = ((ih.finalizeRequestTx req t0).mix rep, s, st, .fault) →
      ih'.Configured b caps ∧ (out ≠ .ok → s' = s ∧ st' = st) ∧ out ≠ .ok := by
    rintro (h | h | h | h) <;> cases h <;>
      first
      | exact ⟨hcf, fun _ => ⟨rfl, rfl⟩, nofun⟩
      | exact ⟨hcm, fun _ => ⟨rfl, rfl⟩, nofun⟩
  have triv' : ∀ {C : Prop}, _ → ih'.Configured b caps ∧ (out ≠ .ok → s' = s ∧ st' = st) ∧ (out = .ok → C) :=
    fun h => ⟨(triv h).1, (triv h).2.1, fun h' => absurd h' (triv h).2.2⟩
  split at h
  · rename_i key nonce hm
    split at h
    · exact triv' (.inl h.symm)
    rename_i hl
    split at h
    · exact triv' (.inl h.symm)
    simp only [Prod.mk.injEq] at h
    refine ⟨h.1 ▸ hcm, fin _ (by rw [h.2]) ?_⟩
    rw [hm]
    exact ⟨by simpa using hl, by simp⟩
  · exact triv' (.inl h.symm)
  · rename_i key hm
    split at h
    · exact triv' (.inl h.symm)
    split at h
    · exact triv' (.inl h.symm)
    simp only [Prod.mk.injEq] at h
    refine ⟨h.1 ▸ hcm, fin _ (by rw [h.2]) ?_⟩
    rw [hm]
    simp [Spec.InitiatorSecret]
  · rename_i sp certs eph hm
    split at h
    · exact triv' (.inr (.inl h.symm))
    · exact triv' (.inl h.symm)
    rename_i remote hv
    simp only at h
    split at h
    · exact triv' (.inr (.inr (.inr h.symm)))
    · exact triv' (.inr (.inr (.inl h.symm)))
    · rename_i dh1 dh2 dh3 htd
      simp only [Prod.mk.injEq] at h
      refine ⟨h.1 ▸ hcm, fin _ (by rw [h.2]) ?_⟩
      rw [hm]
      obtain ⟨h1, h2, h3⟩ := tripleDH_ok htd
      exact ⟨remote, dh1, dh3, dh2, hv, h1, h3, h2, by simp⟩

theorem respond_cases (a : CommonAlgorithms) (b : Backend) (ha : a.handshake = ⟨b.hash, b.hkdf⟩)
    (reply : ReplyHandshakeBegin) (ikm : Except HsFail (List Bytes)) (msg : RequestHandshakeBegin) (msgBytes : Bytes)
    (now : Int) (fw : FrameWriter) (s : Session) (st : Stats) :
    (∃ e, respond a reply ikm msg msgBytes now fw s st = (s, st, .error e) ∧
      (e = .err .unknown ∨ ikm = .error e)) ∨
    ∃ x written, ikm = .ok x ∧ reply.write fw.maxPayload.toNat = .ok written ∧
      (respond a reply ikm msg msgBytes now fw s st).2.2 = .ok (fw.wrap written) ∧
      (((respond a reply ikm msg msgBytes now fw s st).1 = s ∧
        (respond a reply ikm msg msgBytes now fw s st).2.1 = st ∧ ¬ b.Lawful) ∨
       ((respond a reply ikm msg msgBytes now fw s st).1 = { s with
          rxNonce := 0, txNonce := 0, valid := true, algorithms := a.session
          param := ⟨now, msg.constraints.max_nonce, ms msg.constraints.max_session_duration⟩
          keys := ⟨(Spec.derive b (Spec.salt b msgBytes written) x.flatten).1,
            (Spec.derive b (Spec.salt b msgBytes written) x.flatten).2⟩ } ∧
        (Spec.derive b (Spec.salt b msgBytes written) x.flatten).1.length = 32 ∧
        (Spec.derive b (Spec.salt b msgBytes written) x.flatten).2.length = 32 ∧
        (respond a reply ikm msg msgBytes now fw s st).2.1 = { st with numInit := st.numInit + 1 })) := by
  unfold respond
  cases hw : reply.write fw.maxPayload.toNat with
  | error e => left; exact ⟨_, rfl, .inl rfl⟩
  | ok written =>
    cases ikm with
    | error e => left; exact ⟨e, rfl, .inr rfl⟩
    | ok x =>
      right
      refine ⟨x, written, rfl, rfl, rfl, ?_⟩
      simp only [ha, handshakeHasher, hkdf_eq, Session.initialize, Spec.salt]
      cases hk : (SessionKeys.valid ⟨(Spec.derive b (b.hash (b.hash msgBytes ++ written)) x.flatten).1,
          (Spec.derive b (b.hash (b.hash msgBytes ++ written)) x.flatten).2⟩) with
      | false =>
        left
        refine ⟨by simp, by simp, ?_⟩
        intro hb
        simp [SessionKeys.valid, Spec.derive, hb.hmac_length] at hk
      | true =>
        right
        simp only [SessionKeys.valid, Bool.and_eq_true, beq_iff_eq] at hk
        simp [hk]

/-- A handshake request either leaves the pending session alone or installs keys derived from the request
received, the reply sent, and the secret of the mode, with the limits in the request. -/
theorem C25_responder_session (b : Backend) (caps : Caps) (rh : ResponderHandshake)
    (lookup : UInt64 → Option Bytes) (rnd : Bytes) (msg : RequestHandshakeBegin) (req : Bytes) (now : Int)
    (fw : FrameWriter) (s s' : Session) (st st' : Stats) (consumed : Option (UInt64 × Bytes)) (r : Except HsFail Bytes)
    (h : rh.process b caps lookup rnd msg req now fw s st = (s', st', consumed, r)) :
    (∀ e, r = .error e → s' = s ∧ st' = st) ∧
    (∀ frame, r = .ok frame → ∃ rep secret algorithms, ReplyHandshakeBegin.write (Spec.replyOf b rh rnd) fw.maxPayload.toNat = .ok rep ∧
      frame = fw.wrap rep ∧
      Spec.ResponderSecret b caps rh lookup rnd msg consumed secret ∧
      CommonAlgorithms.configure b caps msg.spec = .ok algorithms ∧
      ((s' = s ∧ st' = st ∧ ¬ b.Lawful) ∨
       (s' = { s with
          rxNonce := 0, txNonce := 0, valid := true, algorithms := algorithms.session
          param := ⟨now, msg.constraints.max_nonce, ms msg.constraints.max_session_duration⟩
          keys := ⟨(Spec.derive b (Spec.salt b req rep) secret).1, (Spec.derive b (Spec.salt b req rep) secret).2⟩ } ∧
        s'.keys.rxKey.length = 32 ∧ s'.keys.txKey.length = 32 ∧
        st' = { st with numInit := st.numInit + 1 }))) := by
  have triv : ∀ e, (s', st', consumed, r) = (s, st, none, .error e) →
      (∀ e, r = .error e → s' = s ∧ st' = st) ∧ (∀ frame, r ≠ .ok frame) := by
    intro e he
    cases he
    exact ⟨fun _ _ => ⟨rfl, rfl⟩, nofun⟩
  have triv' : ∀ {C : Bytes → Prop} (e : HsFail), (s', st', consumed, r) = (s, st, none, .error e) →
      (∀ e, r = .error e → s' = s ∧ st' = st) ∧ (∀ frame, r = .ok frame → C frame) :=
    fun e h => ⟨(triv e h).1, fun fr h' => absurd h' ((triv e h).2 fr)⟩
  have fin : ∀ a reply ikm k, reply = Spec.replyOf b rh rnd → CommonAlgorithms.configure b caps msg.spec = .ok a →
      (s', st', consumed, r) = ((respond a reply ikm msg req now fw s st).1,
        (respond a reply ikm msg req now fw s st).2.1, k, (respond a reply ikm msg req now fw s st).2.2) →
      (∀ x, ikm = .ok x → Spec.ResponderSecret b caps rh lookup rnd msg consumed x.flatten) →
      (∀ e, r = .error e → s' = s ∧ st' = st) ∧
      (∀ frame, r = .ok frame → ∃ rep secret algorithms, ReplyHandshakeBegin.write (Spec.replyOf b rh rnd) fw.maxPayload.toNat = .ok rep ∧
        frame = fw.wrap rep ∧
        Spec.ResponderSecret b caps rh lookup rnd msg consumed secret ∧
        CommonAlgorithms.configure b caps msg.spec = .ok algorithms ∧
        ((s' = s ∧ st' = st ∧ ¬ b.Lawful) ∨
         (s' = { s with
            rxNonce := 0, txNonce := 0, valid := true, algorithms := algorithms.session
            param := ⟨now, msg.constraints.max_nonce, ms msg.constraints.max_session_duration⟩
            keys := ⟨(Spec.derive b (Spec.salt b req rep) secret).1, (Spec.derive b (Spec.salt b req rep) secret).2⟩ } ∧
          s'.keys.rxKey.length = 32 ∧ s'.keys.txKey.length = 32 ∧
          st' = { st with numInit := st.numInit + 1 }))) := by
    intro a reply ikm k hrep hc he hsec
    subst hrep
    rcases respond_cases a b (configure_ok hc).1 _ ikm msg req now fw s st with ⟨e, hr, _⟩ | ⟨x, written, hx, hw, hr, hd⟩
    · rw [hr] at he
      cases he
      exact ⟨fun _ _ => ⟨rfl, rfl⟩, nofun⟩
    · rw [hr] at he
      simp only [Prod.mk.injEq] at he
      obtain ⟨e1, e2, e3, e4⟩ := he
      rw [← e1, ← e2] at hd
      refine ⟨fun e h' => absurd (e4.symm.trans h') nofun, fun frame h' => ?_⟩
      rw [e4] at h'
      cases h'
      refine ⟨written, x.flatten, a, hw, rfl, hsec x hx, hc, ?_⟩
      rcases hd with hd | ⟨h1, h2, h3, h4⟩
      · exact .inl hd
      · exact .inr ⟨h1, by rw [h1]; exact h2, by rw [h1]; exact h3, h4⟩
  unfold ResponderHandshake.process at h
  cases rh with
  | sharedSecret key =>
    simp only at h
    split at h
    · exact triv' _ h.symm
    rename_i hl
    split at h
    · exact triv' _ h.symm
    split at h
    · exact triv' _ h.symm
    rename_i a hc
    refine fin a _ _ none rfl hc h.symm ?_
    intro x hx
    cases hx
    refine ⟨?_, by simpa using hl, by simp⟩
    cases h; rfl
  | qkd =>
    simp only at h
    split at h
    · exact triv' _ h.symm
    split at h
    · exact triv' _ h.symm
    rename_i a hc
    split at h
    · exact triv' _ h.symm
    rename_i hlen
    split at h
    · exact triv' _ h.symm
    rename_i key hk
    refine fin a _ _ _ rfl hc h.symm ?_
    intro x hx
    cases hx
    refine ⟨UInt64.ofNat (beNat msg.mode_data), by cases h; simp, ?_, by simpa using hk⟩
    have hlt := beNat_lt msg.mode_data
    have hlen' : msg.mode_data.length = 8 := by simpa using hlen
    rw [hlen'] at hlt
    have : (UInt64.ofNat (beNat msg.mode_data)).toNat = beNat msg.mode_data := by
      simp only [UInt64.toNat_ofNat']
      exact Nat.mod_eq_of_lt (by simpa using hlt)
    rw [this, ← hlen', be_beNat]
  | publicKey sp certs =>
    simp only at h
    split at h
    · exact triv' _ h.symm
    rename_i a hc
    split at h
    · exact triv' _ h.symm
    split at h
    · exact triv' _ h.symm
    split at h
    · exact triv' _ h.symm
    rename_i remote hv
    split at h
    · exact triv' _ h.symm
    refine fin a _ _ none rfl hc h.symm ?_
    intro x hx
    split at hx
    · cases hx
    · cases hx
    · rename_i d1 d2 d3 htd
      cases hx
      obtain ⟨h1, h2, h3⟩ := tripleDH_ok htd
      exact ⟨by cases h; rfl, remote, d1, d2, d3, hv, h1, h2, h3, by simp⟩

theorem dh_length {b : Backend} (hb : b.Lawful) {x p r : Bytes} (h : b.dh x p = .ok r) : r.length = 32 := by
  unfold Backend.dh at h
  split at h
  · cases h
  split at h
  · cases h
  · rename_i hr
    cases h
    exact hb.dh_length _ _ _ hr

/-- In the public-key modes: if the initiator's transmit key equals the responder's receive key, then the three
Diffie-Hellman results agree pairwise: the one with both ephemeral keys, the one involving the initiator's static
private key and the one involving the responder's static private key; or a primitive collided on the very values
computed. -/
theorem C25_public_key_agreement (b : Backend) (hb : b.Lawful) (caps : Caps)
    (ih ih' : InitiatorHandshake) (hc : ih.Configured b caps) (spI : Bytes) (certsI : CertHandler) (eph : KeyPair)
    (hm : ih.mode = .publicKey spI certsI eph)
    (reqI repI : Bytes) (reply : ReplyHandshakeBegin) (limits : SessionLimits) (t0 nowI : Int) (sI sI' : Session)
    (stI stI' : Stats)
    (hI : (ih.finalizeRequestTx reqI t0).initializeSession b caps reply repI limits nowI sI stI = (ih', sI', stI', .ok))
    (spR : Bytes) (certsR : CertHandler) (lookup : UInt64 → Option Bytes) (rnd : Bytes) (msg : RequestHandshakeBegin)
    (reqR : Bytes) (nowR : Int) (fw : FrameWriter) (sR sR' : Session) (stR stR' : Stats) (consumed : Option (UInt64 × Bytes))
    (frame : Bytes)
    (hR : (ResponderHandshake.publicKey spR certsR).process b caps lookup rnd msg reqR nowR fw sR stR =
      (sR', stR', consumed, .ok frame))
    (hkey : sI'.keys.txKey = sR'.keys.rxKey) :
    ∃ repR secretI secretR remoteR remoteI, frame = fw.wrap repR ∧
      certsI.validate b caps certsI.mode reply.mode_data = .ok remoteR ∧
      certsR.validate b caps msg.handshake_mode msg.mode_data = .ok remoteI ∧
      (Spec.TranscriptCollision b reqI repI secretI reqR repR secretR ∨
       (reqI = reqR ∧ repI = repR ∧
        b.dh eph.priv reply.mode_ephemeral = b.dh rnd msg.mode_ephemeral ∧
        b.dh spI reply.mode_ephemeral = b.dh rnd remoteI ∧
        b.dh eph.priv remoteR = b.dh spR msg.mode_ephemeral)) := by
  obtain ⟨_, _, hok⟩ := C25_initiator_session b caps ih hc reqI repI reply limits t0 nowI sI stI _ _ _ _ hI
  obtain ⟨secretI, start, hsI, _, _, hs', _⟩ := hok rfl
  obtain ⟨_, hokR⟩ := C25_responder_session b caps _ lookup rnd msg reqR nowR fw sR sR' stR stR' consumed _ hR
  obtain ⟨repR, secretR, a, _, hf, hsR, _, hd⟩ := hokR frame rfl
  rw [hm] at hsI
  obtain ⟨remoteR, ee, se, es, v1, i1, i2, i3, i4⟩ := hsI
  obtain ⟨_, remoteI, ee', es', se', v2, r1, r2, r3, r4⟩ := hsR
  refine ⟨repR, secretI, secretR, remoteR, remoteI, hf, v1, v2, ?_⟩
  rcases hd with ⟨_, _, hl⟩ | ⟨hsR', _⟩
  · exact absurd hb hl
  rw [hs', hsR'] at hkey
  rcases C25_derivation_binds b hb _ _ _ _ _ _ hkey with ⟨h1, h2, h3⟩ | h
  · right
    refine ⟨h1, h2, ?_⟩
    rw [i4, r4] at h3
    have l1 := dh_length hb i1
    have l2 := dh_length hb i2
    have l1' := dh_length hb r1
    have l2' := dh_length hb r2
    have h4 := List.append_inj h3 (by simp [l1, l2, l1', l2'])
    have h5 := List.append_inj h4.1 (by omega)
    rw [i1, i2, i3, r1, r2, r3, h5.1, h5.2, h4.2]
    exact ⟨rfl, rfl, rfl⟩
  · exact .inl h

/-! ### A public-key handshake with the toy backend -/

namespace SecretsExample
open HandshakeExample

def privI : Bytes := List.replicate 32 1
def privR : Bytes := List.replicate 32 2
def certsI : CertHandler := .preshared (Toy.backend.dhPublic privR)
def certsR : CertHandler := .preshared (Toy.backend.dhPublic privI)
def eph : KeyPair := Toy.backend.genKeyPair rndI
def pk : InitiatorHandshake :=
  ⟨.publicKey privI certsI eph, suite, ⟨⟨Toy.backend.hash, Toy.backend.hkdf⟩, ⟨verifyStrictIncrement, .aes256Gcm Toy.backend⟩⟩, 0, []⟩
def req : RequestHandshakeBegin := pk.buildRequest limits eph.pub []
def reqBytes : Bytes := Spec.request req
def rep : ReplyHandshakeBegin := ⟨protocolVersion, Toy.backend.dhPublic rndR, []⟩
def repBytes : Bytes := Spec.reply rep

/-- The hypotheses of `C25_public_key_agreement` are met: both sides complete the handshake and the keys fit. -/
example :
    ((pk.finalizeRequestTx reqBytes 100).initializeSession Toy.backend caps rep repBytes limits 200
      (Session.new Toy.backend fw 0) {}).2.2.2 = .ok ∧
    ((ResponderHandshake.publicKey privR certsR).process Toy.backend caps (fun _ => none) rndR req reqBytes 150 fw
      (Session.new Toy.backend fw 0) {}).2.2.2 = .ok (fw.wrap repBytes) ∧
    ((pk.finalizeRequestTx reqBytes 100).initializeSession Toy.backend caps rep repBytes limits 200
      (Session.new Toy.backend fw 0) {}).2.1.keys.txKey =
    ((ResponderHandshake.publicKey privR certsR).process Toy.backend caps (fun _ => none) rndR req reqBytes 150 fw
      (Session.new Toy.backend fw 0) {}).1.keys.rxKey := by
  refine ⟨?_, ?_, ?_⟩
  · decide +kernel
  · rfl
  · decide +kernel

example : pk.Configured Toy.backend caps := rfl

end SecretsExample

end SSP21
