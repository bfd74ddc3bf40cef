import Verif.Props.Agreement
import Verif.Props.Refusal
import Verif.Props.LowerTx
/-
  C51: whatever a layer transmits is a well-formed message of its role.
-/
namespace SSP21.Crypto

namespace Spec

/-- The handshake of an initiator was made by one of the three constructors that the product has. -/
inductive Made (b : Backend) (caps : Caps) : InitiatorHandshake → Prop
  | sharedSecret (suite : CryptoSpec) (key : Bytes) (h : InitiatorHandshake) :
      InitiatorHandshake.mkSharedSecret b caps suite key = some h → Made b caps h
  | qkd (suite : CryptoSpec) (h : InitiatorHandshake) : InitiatorHandshake.mkQkd b caps suite = some h → Made b caps h
  | publicKey (suite : CryptoSpec) (static : Bytes) (certs : CertHandler) (h : InitiatorHandshake) :
      InitiatorHandshake.mkPublicKey b caps suite static certs = some h → Made b caps h

/-- What the request says about the mode: 32 random bytes, or the id of a quantum key, or the public part of an ephemeral key
with the certificates. -/
def ModeFields (b : Backend) (h : InitiatorHandshake) (q : RequestHandshakeBegin) : Prop :=
  match h.mode with
  | .sharedSecret _ _ => q.handshake_mode = .shared_secret ∧ q.mode_ephemeral.length = 32 ∧ q.mode_data = []
  | .qkd _ => q.handshake_mode = .quantum_key_distribution ∧ q.mode_ephemeral = [] ∧ ∃ id : UInt64, q.mode_data = be 8 id.toNat
  | .publicKey _ certs _ => q.handshake_mode = certs.mode ∧ q.mode_data = certs.data ∧
      ∃ rnd : Bytes, rnd.length = 32 ∧ q.mode_ephemeral = b.dhPublic rnd

/-- The messages that a layer may send: session messages; requests of an initiator, which state its protocol version, suite,
limits and mode; replies of a responder, and errors, which state a defined reason. -/
inductive Message (c : Cfg) (E : Env) (m : Bytes) : Prop
  | session (d : SessionData) : SessionData.read m = .ok d → Message c E m
  | request (params : Params) (limits : SessionLimits) (q : RequestHandshakeBegin) (h : InitiatorHandshake) :
      c.role = .initiator params limits → RequestHandshakeBegin.read m = .ok q → E.config h → q.version = ⟨0, 1⟩ →
      q.spec = h.suite → q.spec.Defined → q.constraints = ⟨limits.maxNonce, limits.maxSessionTimeMs⟩ →
      ModeFields c.backend h q → Message c E m
  | reply (rh : ResponderHandshake) (r : ReplyHandshakeBegin) (rnd : Bytes) : c.role = .responder rh →
      ReplyHandshakeBegin.read m = .ok r → r.version = ⟨0, 1⟩ → rnd.length = 32 → r = SSP21.Spec.replyOf c.backend rh rnd →
      Message c E m
  | error (rh : ResponderHandshake) (e : HandshakeError) : c.role = .responder rh →
      ReplyHandshakeError.read m = .ok ⟨⟨0, 1⟩, e⟩ → e ≠ .undefined → Message c E m

end Spec

namespace FramesProof

theorem made_defined {b : Backend} {caps : Caps} {h : InitiatorHandshake} (hm : Spec.Made b caps h) : h.suite.Defined := by
  cases hm with
  | sharedSecret suite key _ hm =>
    unfold InitiatorHandshake.mkSharedSecret at hm
    split at hm
    · cases hm
    rename_i a hc
    cases hm
    obtain ⟨-, -, -, c3, c4, c5, c6⟩ := configure_ok hc
    exact ⟨nofun, c3, c4, c5, c6⟩
  | qkd suite _ hm =>
    unfold InitiatorHandshake.mkQkd at hm
    split at hm
    · cases hm
    rename_i a hc
    cases hm
    obtain ⟨-, -, -, c3, c4, c5, c6⟩ := configure_ok hc
    exact ⟨nofun, c3, c4, c5, c6⟩
  | publicKey suite sp certs _ hm =>
    unfold InitiatorHandshake.mkPublicKey at hm
    split at hm
    · cases hm
    rename_i a hc
    split at hm
    · cases hm
    rename_i hd
    split at hm
    · cases hm
      obtain ⟨-, -, -, c3, c4, c5, c6⟩ := configure_ok hc
      refine ⟨?_, c3, c4, c5, c6⟩
      intro hu
      rw [hu] at hd
      cases hx : caps.x25519 <;> simp [dhConfigure, hx] at hd
    · cases hm

theorem error_written {e : HandshakeError} {r : Bytes} {n : UInt16} (he : e ≠ .undefined)
    (h : ReplyHandshakeError.write ⟨⟨0, 1⟩, e⟩ n.toNat = .ok r) : ReplyHandshakeError.read r = .ok ⟨⟨0, 1⟩, e⟩ ∧ r.length ≤ n.toNat := by
  refine ⟨C02_error_roundtrip ⟨⟨0, 1⟩, e⟩ he _ _ h, ?_⟩
  rw [C02_error_write ⟨⟨0, 1⟩, e⟩ he] at h
  split at h
  · cases h; assumption
  · cases h

/-- A good frame. -/
def Good (c : Cfg) (E : Env) (f : Bytes) : Prop := ∃ m, f = c.fw.wrap m ∧ m.length ≤ c.fw.maxPayload.toNat ∧ Spec.Message c E m

/-- The invariant. -/
def Inv (c : Cfg) (E : Env) (s : Layer) : Prop := ∀ f r, Obs.lowerTx f r ∈ s.log → Good c E f

theorem Inv.quiet {c : Cfg} {E : Env} {s t : Layer} (h : Inv c E s) (extra : List Obs) (hl : t.log = s.log ++ extra)
    (hq : ∀ f r, Obs.lowerTx f r ∈ extra → Good c E f) : Inv c E t := by
  intro f r hm
  rw [hl] at hm
  rcases List.mem_append.mp hm with hm | hm
  · exact h f r hm
  · exact hq f r hm

theorem Inv.of_eq {c : Cfg} {E : Env} {s t : Layer} (h : Inv c E s) (hl : t.log = s.log) : Inv c E t := by
  unfold Inv; rw [hl]; exact h

theorem Inv.sent {c : Cfg} {E : Env} {s : Layer} (h : Inv c E s) {f : Bytes} (hf : Good c E f) : Inv c E (s.sent f) :=
  h.quiet [.lowerTx f s.lowerReady] rfl (by
    intro f' r hm
    cases List.mem_singleton.mp hm
    exact hf)

theorem Inv.note {c : Cfg} {E : Env} {s : Layer} (h : Inv c E s) {o : Obs} (ho : ∀ f r, Obs.lowerTx f r ≠ o := by nofun) :
    Inv c E (s.noted o) :=
  h.quiet [o] rfl (by
    intro f r hm
    exact absurd (List.mem_singleton.mp hm) (ho f r))

theorem Inv.rx {c : Cfg} {E : Env} {s : Layer} (h : Inv c E s) : Inv c E s.rxNotified := by
  unfold Layer.rxNotified
  split
  · exact h.note
  · exact h

theorem session_good {c : Cfg} {E : Env} {f : Bytes} (h : Spec.SessionFrame c f) : Good c E f := by
  obtain ⟨d, w, h1, h2⟩ := h
  obtain ⟨h3, h4⟩ := data_written h1
  exact ⟨w, h2, h4, .session d h3⟩

theorem error_good {c : Cfg} {E : Env} {rh : ResponderHandshake} (hr : c.role = .responder rh) {e : HandshakeError} {f : Bytes}
    (he : e ≠ .undefined) (h : c.fw.write (ReplyHandshakeError.write ⟨protocolVersion, e⟩) = .ok f) : Good c E f := by
  unfold FrameWriter.write at h
  split at h
  · cases h
  · rename_i w hw
    cases h
    obtain ⟨h1, h2⟩ := error_written he hw
    exact ⟨w, rfl, h2, .error rh e hr h1 he⟩

theorem certMode_defined (certs : CertHandler) : certs.mode ≠ .undefined := by cases certs <;> nofun

theorem request_good {c : Cfg} {E : Env} (hE : ∀ h, E.config h → Spec.Made c.backend c.caps h) {params : Params}
    {limits : SessionLimits} (hr : c.role = .initiator params limits) {h : InitiatorHandshake} (ho : OpenProof.Own c E h)
    {rnd : Bytes} {record : Option (UInt64 × Bytes)} (hrnd : rnd.length = 32) {eph data w : Bytes}
    (hn : (h.initializeNew c.backend rnd record).2 = some (eph, data))
    (hw : ((h.initializeNew c.backend rnd record).1.buildRequest limits eph data).write c.fw.maxPayload.toNat = .ok w) :
    Good c E (c.fw.wrap w) := by
  obtain ⟨h0, hc, -, -, hs, hm⟩ := ho
  have hd := made_defined (hE h0 hc)
  have hsuite : (h.initializeNew c.backend rnd record).1.suite = h.suite :=
    (SameConfiguration.initializeNew h c.backend rnd record).2.1
  have key : Spec.ModeFields c.backend h0 ((h.initializeNew c.backend rnd record).1.buildRequest limits eph data) ∧
      (h.initializeNew c.backend rnd record).1.handshakeMode ≠ .undefined := by
    unfold InitiatorHandshake.initializeNew at hn ⊢
    unfold Spec.ModeFields InitiatorHandshake.buildRequest InitiatorHandshake.handshakeMode
    cases e0 : h0.mode <;> cases e1 : h.mode <;> simp only [e0, e1] at hm hn ⊢
    · cases hn
      exact ⟨⟨trivial, hrnd, rfl⟩, nofun⟩
    · cases hr' : record with
      | none => simp [hr'] at hn
      | some x =>
        rw [hr'] at hn
        cases hn
        exact ⟨⟨rfl, rfl, x.1, rfl⟩, nofun⟩
    · cases hn
      obtain ⟨rfl, rfl⟩ := hm
      refine ⟨⟨rfl, rfl, rnd, hrnd, rfl⟩, ?_⟩
      exact certMode_defined _
  obtain ⟨q1, q2, q3⟩ := request_written hw (by show (h.initializeNew c.backend rnd record).1.suite.Defined; rw [hsuite, hs]; exact hd) key.2
  exact ⟨w, rfl, q2, .request params limits _ h0 hr q1 hc rfl (hsuite.trans hs)
    (by show (h.initializeNew c.backend rnd record).1.suite.Defined; rw [hsuite, hs]; exact hd) rfl key.1⟩

theorem Inv.keys {c : Cfg} {E : Env} {s t : Layer} (h : Inv c E s) {o : Option (UInt64 × Bytes)} (hl : t.log = s.log ++ keyObs o) :
    Inv c E t := h.quiet _ hl fun f r hm => absurd hm (OpenProof.keyObs_no_tx o f r)

theorem Inv.hsReq {c : Cfg} {E : Env} (hE : ∀ h, E.config h → Spec.Made c.backend c.caps h) {params : Params}
    {limits : SessionLimits} (hr : c.role = .initiator params limits) {s t : Layer} (ho : OpenProof.Own c E s.ini.handshake)
    (h : Inv c E s) (hq : HsReq c limits s t) : Inv c E t := by
  cases hq with
  | deferred => exact h.of_eq rfl
  | noKey => exact h.of_eq rfl
  | badConfig f => exact h.keys (o := s.ini.handshake.usedRecord f.record) rfl
  | sent _ f _ _ _ hf _ _ hn hw =>
    have h' : Inv c E { s with log := s.log ++ keyObs (s.ini.handshake.usedRecord f.record) } := h.keys rfl
    exact (h'.sent (request_good hE hr ho hf hn hw)).of_eq rfl

theorem atomic (c : Cfg) (E : Env) (hE : ∀ h, E.config h → Spec.Made c.backend c.caps h) :
    Atomic c E (OpenProof.Inv c E) (Inv c E) (fun _ => True) (fun _ _ => True) (fun _ _ => True) := by
  refine ⟨fun _ => trivial, fun _ _ _ _ _ => trivial, fun _ _ _ _ _ => trivial, fun _ _ _ => trivial,
    fun _ _ _ _ => ⟨fun _ _ => trivial, fun _ _ _ => trivial⟩, ?init, ?tx, ?rx, ?tail, fun _ _ _ _ _ _ => trivial, ?top, ?closing, ?closed⟩
  case tx =>
    intro s s' hp _ h ha
    refine ⟨?_, trivial⟩
    cases ha with
    | nonceTrigger params limits s' hr _ hq => exact Inv.hsReq hE hr (by exact hp.own) (by exact h.of_eq rfl) hq
    | startTxRefused d _ => exact h.note
    | startTxAccepted d _ => exact (h.note (o := .startTx d true)).of_eq rfl
    | dataSent now out hc hout =>
      exact Inv.sent (by exact h.of_eq rfl) (session_good (OpenProof.sessionFrame_data hp.fwa hout))
    | dataFailed now e hc _ =>
      exact h.quiet _ (by simp; rfl) (by intro f r; split <;> simp)
  case rx =>
    intro s s' hp hp' h ha
    refine ⟨?_, trivial⟩
    have hrecv : ∀ m w, Inv c E (s.received m w) := fun m w => h.quiet [_] rfl (by simp)
    have hup : ∀ (s : Layer), Inv c E s → ∀ b, Inv c E (Layer.keyNoted s b) := by
      intro s h b
      cases b with
      | none => exact h
      | some id => exact h.note
    have hest : ∀ (s : Layer), Inv c E s → ∀ n, Inv c E (Layer.establishedIf s n) := by
      intro s h n
      unfold Layer.establishedIf
      split
      · exact h.note
      · exact h
    have hopen : ∀ (s : Layer), Inv c E s → Inv c E s.opening := by
      intro s h
      unfold Layer.opening
      split
      · exact h
      · exact Inv.note (by exact h.of_eq rfl)
    cases ha with
    | ignored m w _ => exact hrecv m w
    | errorReply m w hh e frame hr hrole hf he => exact (hrecv m w).sent (error_good hrole he hf)
    | requestRefused m w hh msg now f e hr hrole _ hread herr s1 h1 _ h2 hver =>
      have hi : Inv c E s1 := by subst h1; exact hup _ (by exact (hrecv m w).of_eq rfl) _
      have he : e ≠ .undefined := by
        have hv := RefusalProof.process_verdict (b := c.backend) (caps := c.caps) (h := hh) (lookup := f.lookup) (rnd := f.rnd)
          (now := now) (fw := c.fw) (session := s.pending) (st := s.stats) hread hver
        generalize hh.process c.backend c.caps f.lookup f.rnd msg m now c.fw s.pending s.stats = r at *
        obtain ⟨session, st, used, res⟩ := r
        cases (show res = _ from herr)
        simp only [RefusalProof.Verdict] at hv
        rcases hv.2.2 with ⟨-, hv⟩ | ⟨rfl, -⟩
        · exact RefusalProof.fault_defined hv
        · nofun
      rcases h2 with rfl | ⟨fr, hfr, rfl⟩
      · exact hi
      · exact hi.sent (error_good hrole he hfr)
    | requestAccepted m w hh msg now f frame hr hrole hf hm hver hok s1 h1 =>
      rcases hproc : hh.process c.backend c.caps f.lookup f.rnd msg m now c.fw s.pending s.stats with
        ⟨s'', st'', used, res⟩
      rw [hproc] at hok h1
      simp only at hok h1
      obtain ⟨_, hyes⟩ := C25_responder_session _ _ _ _ _ _ _ _ _ _ _ _ _ _ _ hproc
      obtain ⟨rep, secret, alg, g1, g2, g3, g4, g5⟩ := hyes frame hok
      obtain ⟨g6, g7⟩ := reply_written g1
      subst h1
      refine Inv.sent (hest _ (hup _ (by exact (hrecv m w).of_eq rfl) _) _) ⟨rep, g2, g7, .reply hh _ f.rnd hrole g6 ?_ hf rfl⟩
      cases hh <;> rfl
    | replyRefused m w params limits msg now _ _ _ _ _ _ h1 =>
      subst h1
      exact (hrecv m w).of_eq rfl
    | replyAuthFailed m w params limits msg now now' e _ _ _ _ _ s1 h1 _ _ h2 =>
      have : Inv c E s1 := by subst h1; exact hest _ (by exact (hrecv m w).of_eq rfl) _
      subst h2
      exact this.of_eq (by simp)
    | replyAccepted m w params limits msg now now' out hr _ _ _ _ s1 h1 hout s2 h2 _ h3 =>
      have hi : Inv c E s1 := by subst h1; exact hest _ (by exact (hrecv m w).of_eq rfl) _
      have hfw : s1.pending.frameWriter = c.fw := by
        have := hp'.fwp
        rw [h3, h2] at this
        simp only [sent_pending, authTaken_pending, authFormatted_pending, if_true] at this
        rw [← this]
        exact (same_formatAuth s1.pending now' s1.tx.remainder).1.2.symm
      have : Inv c E s2 := by
        subst h2
        exact Inv.sent (by exact hi.of_eq (by simp)) (session_good (OpenProof.sessionFrame_auth hfw hout))
      subst h3
      exact this.of_eq rfl
    | replyError m w params limits _ _ _ => exact (hrecv m w).of_eq rfl
    | initAuthRefused m w params limits msg now scratch e _ _ _ _ _ _ _ h1 => subst h1; exact (hrecv m w).of_eq rfl
    | initAuthOk m w params limits msg now scratch payload =>
      unfold Layer.initAuthOk
      exact hopen _ (by exact (hrecv m w).of_eq rfl)
    | respAuthRefused m w => exact (hrecv m w).of_eq rfl
    | respAuthFailed m w hh msg now now' scratch payload e _ _ _ _ _ _ s1 h1 =>
      have hi : Inv c E s1 := by subst h1; exact (hrecv m w).of_eq rfl
      exact hi.of_eq (by simp)
    | respAuthOk m w hh msg now now' scratch payload out hr _ _ _ _ _ s1 h1 hout =>
      have hi : Inv c E s1 := by subst h1; exact (hrecv m w).of_eq rfl
      have hfw : s1.active.frameWriter = c.fw := by
        subst h1
        exact (same_validateAuth s.pending s.stats msg now c.bufLen).1.2.trans hp.fwp
      exact hopen _ (Inv.sent (by exact hi.of_eq (by simp)) (session_good (OpenProof.sessionFrame_auth hfw hout)))
    | dataRefused m w => exact (hrecv m w).of_eq rfl
    | dataOk m w => exact (hrecv m w).of_eq rfl
    | readEmpty => exact h.of_eq rfl
    | discarded => exact h.quiet [.rxCall] rfl (by simp)
    | asked => exact h.note
    | readNothing => exact h.note
    | readData => exact h.quiet [.rxCall, .startRx s.payload] (by simp [Layer.noted]) (by simp)
  case tail =>
    intro o s s' _ _ _ _ h ha
    refine ⟨?_, trivial⟩
    cases ha with
    | initAuthPayload => exact Inv.rx (by exact h.of_eq rfl)
    | dataNotified => exact h.rx
    | initAuthEnd => exact h.of_eq rfl
    | respAuthPayload => exact Inv.rx (by exact h.of_eq rfl)
  case top =>
    intro s s' hp _ h _ ha
    refine ⟨?_, trivial⟩
    cases ha with
    | ready b => exact (h.note (o := .lowerReady b)).of_eq rfl
    | openedResponder => exact Inv.note (by exact h.of_eq rfl)
    | openedInitiator params limits _ hr _ hq =>
      exact Inv.hsReq hE hr (by exact hp.own) (by exact h.quiet [.lowerOpen] rfl (by simp)) hq
    | txComplete => exact h.of_eq rfl
    | preTxReady params limits _ hr _ _ hq => exact h.hsReq hE hr hp.own hq
    | txNotified => exact h.quiet _ (txNotified_log s) (by intro f r; split <;> simp)
    | responseTimeout => exact h.of_eq rfl
    | retryTimeout params limits _ hr _ i hi hq => exact Inv.hsReq hE hr (by subst hi; exact hp.own) (by exact h.of_eq rfl) hq
    | sessionTimeout params limits _ hr _ hq => exact Inv.hsReq hE hr (by exact hp.own) (by exact h.of_eq rfl) hq
    | orphanResponse => exact h.of_eq rfl
    | orphanRetry params limits _ hr _ i hi hq => exact Inv.hsReq hE hr (by subst hi; exact hp.own) (by exact h.of_eq rfl) hq
    | orphanSession params limits _ hr _ hq => exact Inv.hsReq hE hr (by exact hp.own) (by exact h.of_eq rfl) hq
  case closing =>
    intro s _ _ h _ _
    exact h.quiet _ (lowerClosing_log s c) (by intro f r; split <;> simp)
  case closed => exact fun _ s _ _ _ _ _ _ h _ => ⟨h.of_eq rfl, trivial⟩
  case init => exact fun hh _ _ => ⟨fun f r h => by simp [Layer.new] at h, trivial⟩

end FramesProof

/-- **Everything that a layer transmits is a well-formed message of its role**, in a frame, within the size that the layer
below permits: a session message; from an initiator also a request, with the protocol version 0.1, its own suite (all parts of
it defined), limits and mode; from a responder also the reply of its mode or an error with a defined reason. So a peer that
reads it is never left with a message that cannot be parsed. -/
theorem C51_well_formed (c : Cfg) (E : Env) (hE : ∀ h, E.config h → Spec.Made c.backend c.caps h) (s : Layer)
    (h : Observed c E s) (frame : Bytes) (ready : Bool) (hm : Obs.lowerTx frame ready ∈ s.log) :
    ∃ m, frame = c.fw.wrap m ∧ m.length ≤ c.fw.maxPayload.toNat ∧ Spec.Message c E m :=
  (((FramesProof.atomic c E hE).proof (OpenProof.atomic c E)).observed h).2 frame ready hm

/-- So the messages of an initiator are those that a responder reads, and the other way round, by their first byte. -/
theorem C51_functions (c : Cfg) (E : Env) (hE : ∀ h, E.config h → Spec.Made c.backend c.caps h) (s : Layer)
    (h : Observed c E s) (frame : Bytes) (ready : Bool) (hm : Obs.lowerTx frame ready ∈ s.log) :
    ∃ m code, frame = c.fw.wrap m ∧ m.head? = some code ∧
      match c.role with
      | .initiator _ _ => code = 0 ∨ code = 3
      | .responder _ => code = 1 ∨ code = 2 ∨ code = 3 := by
  obtain ⟨m, h1, -, h2⟩ := C51_well_formed c E hE s h frame ready hm
  obtain ⟨f1, f2, f3, f4⟩ := C03_function_code m
  cases h2 with
  | session d hd =>
    refine ⟨m, _, h1, f4 _ hd, ?_⟩
    split <;> simp
  | request params limits q h0 hr hq => exact ⟨m, _, h1, f1 _ hq, by rw [hr]; simp⟩
  | reply rh r rnd hr hq => exact ⟨m, _, h1, f2 _ hq, by rw [hr]; simp⟩
  | error rh e hr hq => exact ⟨m, _, h1, f3 _ hq, by rw [hr]; simp⟩

namespace LayerExample

/-- An initiator and a responder that transmit: a request, two session messages; a reply, two session messages. -/
example : (∀ h, (EnvB.tame.only (· = hs)).config h → Spec.Made ini.backend ini.caps h) ∧
    (∃ s, Observed ini (EnvB.tame.only (· = hs)) s ∧ (s.log.filter Spec.isTx).length = 3) ∧
    ∃ s, Observed res EnvB.tame.env s ∧ (s.log.filter Spec.isTx).length = 2 := by
  refine ⟨?_, ?_, ?_⟩
  · rintro h rfl
    exact .sharedSecret suite key _ rfl
  · obtain ⟨s, h1, h2⟩ := Exec.exists_only configured (c := ini) (E := .tame) (h := hs) (script := iniData)
      (f := fun s => (s.log.filter Spec.isTx).length) (a := 3) (by decide +kernel)
    exact ⟨s, h1.observed, h2⟩
  · obtain ⟨s, h1, h2⟩ := Exec.exists_of_map configured (c := res) (E := .tame) (h := hs) (script := resAuth)
      (f := fun s => (s.log.filter Spec.isTx).length) (a := 2) (by decide +kernel)
    exact ⟨s, h1.observed, h2⟩

end LayerExample

end SSP21.Crypto
