import Verif.Machine
/-
  The functions of the crypto layer, cut into the segments between two transfers of control to the
  environment. Each constructor of `Atom` / `TopAtom` is one segment: when it can happen and the state after
  it. `AtomicW.proof` shows that every function of the layer is a sequence of such segments, so that a
  property preserved by each of them holds in every execution. (Nothing here is trusted: the relations are
  only used through that theorem.)
-/
namespace SSP21.Crypto

/-- The layer reads a message. -/
def Receives (E : Env) (s : Layer) (m : Bytes) : Prop :=
  s.lowerReady = true ∧ s.payloadLen = 0 ∧ m ≠ [] ∧ E.recv s m

/-- An observation is appended. -/
def Layer.noted (s : Layer) (o : Obs) : Layer := { s with log := s.log ++ [o] }
/-- The application calls `start_rx` and is given data. -/
abbrev Layer.reading (s : Layer) : Layer := { (s.noted .rxCall).noted (.startRx s.payload) with rxFlag := true }
/-- A message has been read from the layer below; the memory payload slices point into now contains `w`. -/
def Layer.received (s : Layer) (m w : Bytes) : Layer := { s with buf := w, log := s.log ++ [.recv m] }
/-- A frame is handed to the lower layer. -/
def Layer.sent (s : Layer) (frame : Bytes) : Layer :=
  { s with log := s.log ++ [.lowerTx frame s.lowerReady], lowerReady := false }
/-- A timer is started. -/
def Ini.start (i : Ini) (kind : TimerKind) : Ini :=
  { i with orphans := if i.respTimer.isSome then i.orphans + 1 else i.orphans, respTimer := some kind }
/-- The session timer is started. -/
def Ini.startSess (i : Ini) (t : Int) : Ini :=
  { i with orphans := if i.sessTimer.isSome then i.orphans + 1 else i.orphans, sessTimer := some t }

/-- The observation that a key was taken from the store. -/
def keyObs : Option (UInt64 × Bytes) → List Obs
  | some id => [.keyUsed id]
  | none => []

/-- Outcomes of `onHandshakeRequired`. -/
inductive HsReq (c : Cfg) (limits : SessionLimits) (s : Layer) : Layer → Prop
  | deferred : s.ini.hs ≠ .idle ∨ s.lowerReady = false →
      HsReq c limits s { s with ini := { s.ini with required := true } }
  | noKey (f : Fresh) : f.ok → s.ini.hs = .idle → s.lowerReady = true →
      (s.ini.handshake.initializeNew c.backend f.rnd f.record).2 = none →
      HsReq c limits s { s with ini := { ({ s.ini with
        handshake := (s.ini.handshake.initializeNew c.backend f.rnd f.record).1 } : Ini).start .retry with
          hs := .waitForRetry } }
  | badConfig (f : Fresh) (eph data : Bytes) (e : FormatError) : f.ok → s.ini.hs = .idle → s.lowerReady = true →
      (s.ini.handshake.initializeNew c.backend f.rnd f.record).2 = some (eph, data) →
      ((s.ini.handshake.initializeNew c.backend f.rnd f.record).1.buildRequest limits eph data).write
        c.fw.maxPayload.toNat = .error e →
      HsReq c limits s { s with log := s.log ++ keyObs (s.ini.handshake.usedRecord f.record), ini := { s.ini with
        handshake := (s.ini.handshake.initializeNew c.backend f.rnd f.record).1, hs := .badConfiguration } }
  | sent (now : Int) (f : Fresh) (eph data written : Bytes) : f.ok → s.ini.hs = .idle → s.lowerReady = true →
      (s.ini.handshake.initializeNew c.backend f.rnd f.record).2 = some (eph, data) →
      ((s.ini.handshake.initializeNew c.backend f.rnd f.record).1.buildRequest limits eph data).write
        c.fw.maxPayload.toNat = .ok written →
      HsReq c limits s { ({ s with log := s.log ++ keyObs (s.ini.handshake.usedRecord f.record) } : Layer).sent (c.fw.wrap written) with ini := { ({ s.ini with
        handshake := (s.ini.handshake.initializeNew c.backend f.rnd f.record).1.finalizeRequestTx written now
          } : Ini).start .response with hs := .waitForBeginReply } }

/-- The state after the handshake put keys in the pending session (ghost note). -/
def Layer.establishedIf (s : Layer) (before : Nat) : Layer :=
  if s.stats.numInit ≠ before then
    s.noted (.established s.pending.keys s.pending.algorithms s.pending.param)
  else s

/-- The state after a key was taken from the store (ghost note). -/
def Layer.keyNoted (s : Layer) : Option (UInt64 × Bytes) → Layer
  | some id => s.noted (.keyUsed id)
  | none => s

/-- The state before the callback of `upperOnOpen`. -/
def Layer.opening (s : Layer) : Layer :=
  if s.upperOpen then s else ({ s with upperOpen := true } : Layer).noted (.up .opened)

/-- The state before the callback of `upperOnClose`. -/
def Layer.closing (s : Layer) : Layer :=
  if s.upperOpen then ({ s with upperOpen := false } : Layer).noted (.up .closed) else s

/-- The state before the callback of `upperOnRxReady`. -/
def Layer.rxNotified (s : Layer) : Layer := if s.upperOpen then s.noted (.up .rxReady) else s
/-- The state before the callback of `upperOnTxReady`. -/
def Layer.txNotified (s : Layer) : Layer := if s.upperOpen then s.noted (.up .txReady) else s

/-- The state after validation of a session auth message against the pending session. -/
def Layer.authValidated (c : Cfg) (s : Layer) (msg : SessionData) (now : Int) (scratch : Bytes) : Layer :=
  let r := s.pending.validateAuth s.stats msg now c.bufLen
  { s with pending := r.1, stats := r.2.1, buf := bufferAfter s.buf scratch r.2.2,
           acts := s.acts ++ [(s.log.length, .checked true msg r.2.2)] }

/-- The state after validation of session data against the active session. -/
def Layer.dataValidated (c : Cfg) (s : Layer) (msg : SessionData) (now : Int) (scratch : Bytes) : Layer :=
  let r := s.active.validateData s.stats msg now c.bufLen
  { s with active := r.1, stats := r.2.1, buf := bufferAfter s.buf scratch r.2.2,
           acts := s.acts ++ [(s.log.length, .checked false msg r.2.2)] }

/-- The state after `activate_pending`. -/
def Layer.activated (s : Layer) : Layer := { s with active := s.pending, pending := s.active.reset }

/-- What a formatted session auth message, or the failure to make one, is recorded as. -/
def authAct (onPending : Bool) (clear rest : Bytes) : Except Err Formatted → Act
  | .ok out => .sent onPending out clear rest
  | .error _ => .notSent onPending

/-- The state after `transmit_session_auth` formatted a message in the pending session. -/
def Layer.authFormatted (s : Layer) (onPending : Bool) (now : Int) : Layer :=
  let r := (if onPending then s.pending else s.active).formatAuth now s.tx.remainder
  let acts := s.acts ++ [(s.log.length, authAct onPending s.tx.remainder r.2.1 r.2.2)]
  if onPending then { s with pending := r.1, acts := acts } else { s with active := r.1, acts := acts }

/-- The data taken for a session auth message is accounted for. -/
def Layer.authTaken (s : Layer) (remainder rest : Bytes) : Layer :=
  if remainder ≠ [] then { s with tx := s.tx.beginTransmit rest } else s

/-- The state in which `WaitForAuthReply::on_auth_message` opens the application. -/
def Layer.initAuthOk (c : Cfg) (s : Layer) (params : Params) (msg : SessionData) (now : Int) (scratch : Bytes) :
    Layer :=
  let s1 := (Layer.authValidated c { s with ini := { s.ini with respTimer := none } } msg now scratch).activated
  let t := s1.active.param.sessionStart + ms params.sessionTimeTriggerMs
  ({ s1 with ini := ({ s1.ini with required := false } : Ini).startSess t, inAuth := true } : Layer).opening

/-- Outcomes of `onSessionNonceChange`. -/
def NonceChange (c : Cfg) (s s' : Layer) : Prop :=
  (s' = s ∧ ∀ params limits, c.role = .initiator params limits →
    ¬ max s.active.txNonce s.active.rxNonce ≥ params.nonceTrigger) ∨
  ∃ params limits, c.role = .initiator params limits ∧
    max s.active.txNonce s.active.rxNonce ≥ params.nonceTrigger ∧
    HsReq c limits { s with ini := { s.ini with sessTimer := none } } s'

/-- The segments of `start_tx_from_upper` and of the transmission of user data. -/
inductive TxAtom (c : Cfg) (s : Layer) : Layer → Prop
  /-- A nonce has reached the trigger. -/
  | nonceTrigger (params : Params) (limits : SessionLimits) (s' : Layer) : c.role = .initiator params limits →
      max s.active.txNonce s.active.rxNonce ≥ params.nonceTrigger →
      HsReq c limits { s with ini := { s.ini with sessTimer := none } } s' → TxAtom c s s'
  /-- The application is refused a transmission. -/
  | startTxRefused (data : Bytes) : isTxReady s = false → TxAtom c s (s.noted (.startTx data false))
  /-- The application starts a transmission. -/
  | startTxAccepted (data : Bytes) : isTxReady s = true →
      TxAtom c s ({ s.noted (.startTx data true) with tx := TxState.initialize s.tx data } : Layer)
  /-- A data message is sent. -/
  | dataSent (now : Int) (out : Formatted) : canTransmit s = true →
      (s.active.formatData now s.tx.remainder).2.2 = .ok out →
      TxAtom c s (({ s with
        active := (s.active.formatData now s.tx.remainder).1
        acts := s.acts ++ [(s.log.length, .sent false out s.tx.remainder (s.active.formatData now s.tx.remainder).2.1)]
        tx := s.tx.beginTransmit (s.active.formatData now s.tx.remainder).2.1 } : Layer).sent out.frame)
  /-- A data message cannot be formatted: the session is dropped. -/
  | dataFailed (now : Int) (e : Err) : canTransmit s = true →
      (s.active.formatData now s.tx.remainder).2.2 = .error e →
      TxAtom c s ({ s with
        active := (s.active.formatData now s.tx.remainder).1.reset
        acts := s.acts ++ [(s.log.length, .dropped)] } : Layer).closing

/-- What one call of the functions above does between two transfers of control: after a data message the nonces
are compared with the trigger at once. -/
inductive TxStep (c : Cfg) (s : Layer) : Layer → Prop
  | startTxRefused (data : Bytes) : isTxReady s = false → TxStep c s (s.noted (.startTx data false))
  | startTxAccepted (data : Bytes) : isTxReady s = true →
      TxStep c s ({ s.noted (.startTx data true) with tx := TxState.initialize s.tx data } : Layer)
  | dataSent (now : Int) (out : Formatted) (s' : Layer) : canTransmit s = true →
      (s.active.formatData now s.tx.remainder).2.2 = .ok out →
      NonceChange c (({ s with
        active := (s.active.formatData now s.tx.remainder).1
        acts := s.acts ++ [(s.log.length, .sent false out s.tx.remainder (s.active.formatData now s.tx.remainder).2.1)]
        tx := s.tx.beginTransmit (s.active.formatData now s.tx.remainder).2.1 } : Layer).sent out.frame) s' →
      TxStep c s s'
  | dataFailed (now : Int) (e : Err) : canTransmit s = true →
      (s.active.formatData now s.tx.remainder).2.2 = .error e →
      TxStep c s ({ s with
        active := (s.active.formatData now s.tx.remainder).1.reset
        acts := s.acts ++ [(s.log.length, .dropped)] } : Layer).closing

/-- The segments of `start_rx_from_upper` and of the receive loop. -/
inductive RxAtom (c : Cfg) (E : Env) (s : Layer) : Layer → Prop
  /-- A message is received that needs no reaction. -/
  | ignored (m w : Bytes) : Receives E s m → RxAtom c E s (s.received m w)
  /-- The responder answers with an error. -/
  | errorReply (m w : Bytes) (h : ResponderHandshake) (e : HandshakeError) (frame : Bytes) :
      Receives E s m → c.role = .responder h →
      c.fw.write (ReplyHandshakeError.write ⟨protocolVersion, e⟩) = .ok frame → e ≠ .undefined →
      RxAtom c E s ((s.received m w).sent frame)
  /-- The responder refuses a request. -/
  | requestRefused (m w : Bytes) (h : ResponderHandshake) (msg : RequestHandshakeBegin) (now : Int) (f : Fresh)
      (e : HandshakeError) : Receives E s m → c.role = .responder h → f.ok →
      RequestHandshakeBegin.read m = .ok msg →
      (h.process c.backend c.caps f.lookup f.rnd msg m now c.fw s.pending s.stats).2.2.2 = .error (.err e) →
      ∀ s1, s1 = (let r := h.process c.backend c.caps f.lookup f.rnd msg m now c.fw s.pending s.stats
        (({ s.received m w with pending := r.1, stats := r.2.1 } : Layer).keyNoted r.2.2.1)) →
      ∀ s2, (s2 = s1 ∨ ∃ frame, c.fw.write (ReplyHandshakeError.write ⟨protocolVersion, e⟩) = .ok frame ∧
        s2 = s1.sent frame) → msg.version.major_version = 0 → RxAtom c E s s2
  /-- The responder accepts a request. -/
  | requestAccepted (m w : Bytes) (h : ResponderHandshake) (msg : RequestHandshakeBegin) (now : Int) (f : Fresh)
      (frame : Bytes) : Receives E s m → c.role = .responder h → f.ok →
      RequestHandshakeBegin.read m = .ok msg → msg.version.major_version = 0 →
      (h.process c.backend c.caps f.lookup f.rnd msg m now c.fw s.pending s.stats).2.2.2 = .ok frame →
      ∀ s1, s1 = (let r := h.process c.backend c.caps f.lookup f.rnd msg m now c.fw s.pending s.stats
        (((({ s.received m w with pending := r.1, stats := r.2.1 } : Layer).keyNoted r.2.2.1).establishedIf
          s.stats.numInit).sent frame)) → RxAtom c E s s1
  /-- The initiator refuses a reply. -/
  | replyRefused (m w : Bytes) (params : Params) (limits : SessionLimits) (msg : ReplyHandshakeBegin) (now : Int) :
      Receives E s m → c.role = .initiator params limits →
      ReplyHandshakeBegin.read m = .ok msg → s.ini.hs = .waitForBeginReply →
      (s.ini.handshake.initializeSession c.backend c.caps msg m limits now s.pending s.stats).2.2.2 = .refused →
      ∀ s1, s1 = (let r := s.ini.handshake.initializeSession c.backend c.caps msg m limits now s.pending s.stats
        { s.received m w with
          ini := { ({ s.ini with respTimer := none, handshake := r.1 } : Ini).start .retry with
            hs := .waitForRetry }, pending := r.2.1, stats := r.2.2.1 }) → RxAtom c E s s1
  /-- The initiator accepts a reply but cannot format the session auth message. -/
  | replyAuthFailed (m w : Bytes) (params : Params) (limits : SessionLimits) (msg : ReplyHandshakeBegin)
      (now : Int) (now' : Int) (e : Err) :
      Receives E s m → c.role = .initiator params limits →
      ReplyHandshakeBegin.read m = .ok msg → s.ini.hs = .waitForBeginReply →
      (s.ini.handshake.initializeSession c.backend c.caps msg m limits now s.pending s.stats).2.2.2 = .ok →
      ∀ s1, s1 = (let r := s.ini.handshake.initializeSession c.backend c.caps msg m limits now s.pending s.stats
        ({ s.received m w with
          ini := ({ s.ini with respTimer := none, handshake := r.1 } : Ini),
          pending := r.2.1, stats := r.2.2.1 } : Layer).establishedIf s.stats.numInit) →
      (s1.pending.formatAuth now' s1.tx.remainder).2.2 = .error e →
      ∀ s2, s2 = { s1.authFormatted true now' with
        ini := { s1.ini.start .retry with hs := .waitForRetry } } → RxAtom c E s s2
  /-- The initiator accepts a reply and sends its session auth message. -/
  | replyAccepted (m w : Bytes) (params : Params) (limits : SessionLimits) (msg : ReplyHandshakeBegin)
      (now : Int) (now' : Int) (out : Formatted) :
      Receives E s m → c.role = .initiator params limits →
      ReplyHandshakeBegin.read m = .ok msg → s.ini.hs = .waitForBeginReply →
      (s.ini.handshake.initializeSession c.backend c.caps msg m limits now s.pending s.stats).2.2.2 = .ok →
      ∀ s1, s1 = (let r := s.ini.handshake.initializeSession c.backend c.caps msg m limits now s.pending s.stats
        ({ s.received m w with
          ini := ({ s.ini with respTimer := none, handshake := r.1 } : Ini),
          pending := r.2.1, stats := r.2.2.1 } : Layer).establishedIf s.stats.numInit) →
      (s1.pending.formatAuth now' s1.tx.remainder).2.2 = .ok out →
      ∀ s2, s2 = ((s1.authFormatted true now').authTaken s1.tx.remainder
          (s1.pending.formatAuth now' s1.tx.remainder).2.1).sent out.frame →
      ∀ s3, s3 = { s2 with ini := { s2.ini.start .response with hs := .waitForAuthReply } } → RxAtom c E s s3
  /-- The initiator receives an error while waiting for a reply. -/
  | replyError (m w : Bytes) (params : Params) (limits : SessionLimits) :
      Receives E s m → c.role = .initiator params limits →
      s.ini.hs = .waitForBeginReply ∨ s.ini.hs = .waitForAuthReply →
      RxAtom c E s { s.received m w with
        ini := { ({ s.ini with respTimer := none } : Ini).start .retry with hs := .waitForRetry } }
  /-- The initiator refuses a session auth message. -/
  | initAuthRefused (m w : Bytes) (params : Params) (limits : SessionLimits) (msg : SessionData) (now : Int)
      (scratch : Bytes) (e : Err) :
      Receives E s m → c.role = .initiator params limits →
      SessionData.read m = .ok msg → msg.metadata.nonce = 0 → s.ini.hs = .waitForAuthReply →
      (s.pending.validateAuth s.stats msg now c.bufLen).2.2 = .error e →
      ∀ s1, s1 = (let s0 := (s.received m w).authValidated c msg now scratch
        { s0 with ini := { ({ s0.ini with respTimer := none } : Ini).start .retry with hs := .waitForRetry } }) →
      RxAtom c E s s1
  /-- The initiator accepts a session auth message and opens the application. -/
  | initAuthOk (m w : Bytes) (params : Params) (limits : SessionLimits) (msg : SessionData) (now : Int)
      (scratch payload : Bytes) :
      Receives E s m → c.role = .initiator params limits →
      SessionData.read m = .ok msg → msg.metadata.nonce = 0 → s.ini.hs = .waitForAuthReply →
      (s.pending.validateAuth s.stats msg now c.bufLen).2.2 = .ok payload →
      RxAtom c E s ((s.received m w).initAuthOk c params msg now scratch)
  /-- The responder refuses a session auth message. -/
  | respAuthRefused (m w : Bytes) (h : ResponderHandshake) (msg : SessionData) (now : Int) (scratch : Bytes)
      (e : Err) : Receives E s m → c.role = .responder h →
      SessionData.read m = .ok msg → msg.metadata.nonce = 0 → s.pending.valid = true →
      (s.pending.validateAuth s.stats msg now c.bufLen).2.2 = .error e →
      RxAtom c E s ((s.received m w).authValidated c msg now scratch)
  /-- The responder accepts a session auth message but cannot format its own. -/
  | respAuthFailed (m w : Bytes) (h : ResponderHandshake) (msg : SessionData) (now now' : Int)
      (scratch payload : Bytes) (e : Err) : Receives E s m →
      c.role = .responder h → SessionData.read m = .ok msg → msg.metadata.nonce = 0 → s.pending.valid = true →
      (s.pending.validateAuth s.stats msg now c.bufLen).2.2 = .ok payload →
      ∀ s1, s1 = ((s.received m w).authValidated c msg now scratch).activated →
      (s1.active.formatAuth now' s1.tx.remainder).2.2 = .error e → RxAtom c E s (s1.authFormatted false now')
  /-- The responder accepts a session auth message, sends its own and opens the application. -/
  | respAuthOk (m w : Bytes) (h : ResponderHandshake) (msg : SessionData) (now now' : Int)
      (scratch payload : Bytes) (out : Formatted) : Receives E s m →
      c.role = .responder h → SessionData.read m = .ok msg → msg.metadata.nonce = 0 → s.pending.valid = true →
      (s.pending.validateAuth s.stats msg now c.bufLen).2.2 = .ok payload →
      ∀ s1, s1 = ((s.received m w).authValidated c msg now scratch).activated →
      (s1.active.formatAuth now' s1.tx.remainder).2.2 = .ok out →
      RxAtom c E s ((((s1.authFormatted false now').authTaken s1.tx.remainder
        (s1.active.formatAuth now' s1.tx.remainder).2.1).sent out.frame).opening)
  /-- Session data is refused. -/
  | dataRefused (m w : Bytes) (msg : SessionData) (now : Int) (scratch : Bytes) (e : Err) :
      Receives E s m → SessionData.read m = .ok msg → msg.metadata.nonce ≠ 0 →
      (s.active.validateData s.stats msg now c.bufLen).2.2 = .error e →
      RxAtom c E s ((s.received m w).dataValidated c msg now scratch)
  /-- Session data is accepted. -/
  | dataOk (m w : Bytes) (msg : SessionData) (now : Int) (scratch payload : Bytes) :
      Receives E s m → SessionData.read m = .ok msg → msg.metadata.nonce ≠ 0 →
      (s.active.validateData s.stats msg now c.bufLen).2.2 = .ok payload →
      RxAtom c E s { (s.received m w).dataValidated c msg now scratch with payloadLen := payload.length }
  /-- There is nothing to read from the layer below. -/
  | readEmpty (w : Bytes) : s.lowerReady = true → s.payloadLen = 0 → RxAtom c E s { s with buf := w }
  /-- The application calls again: it has consumed what it read. -/
  | discarded : s.rxFlag = true → RxAtom c E s { s.noted .rxCall with payloadLen := 0, rxFlag := false }
  /-- The application calls and there is no data. -/
  | asked : s.rxFlag = false → s.payloadLen = 0 → RxAtom c E s (s.noted .rxCall)
  /-- The application is given nothing. -/
  | readNothing : RxAtom c E s (s.noted (.startRx []))
  /-- The application calls and is given data. -/
  | readData : s.payloadLen ≠ 0 → s.rxFlag = false →
      RxAtom c E s s.reading

/-- The segments of the functions that accept a session auth message after the application was told that the
session is open. `o` is the state in which the message was read, `s` the one in which the segment starts. -/
inductive RxTail (c : Cfg) (E : Env) (R : Layer → Layer → Prop) (o s : Layer) : Layer → Prop
  /-- The initiator makes the payload of the message available. -/
  | initAuthPayload (s0 : Layer) (m w : Bytes) (params : Params) (limits : SessionLimits) (msg : SessionData)
      (now : Int) (scratch payload : Bytes) :
      Receives E o m → c.role = .initiator params limits →
      SessionData.read m = .ok msg → msg.metadata.nonce = 0 → o.ini.hs = .waitForAuthReply →
      (o.pending.validateAuth o.stats msg now c.bufLen).2.2 = .ok payload →
      s0 = (o.received m w).initAuthOk c params msg now scratch → R s0 s → payload ≠ [] →
      RxTail c E R o s (({ s with payloadLen := payload.length } : Layer).rxNotified)
  /-- ... and finishes. -/
  | initAuthEnd (s0 : Layer) (m w : Bytes) (params : Params) (limits : SessionLimits) (msg : SessionData)
      (now : Int) (scratch payload : Bytes) :
      Receives E o m → c.role = .initiator params limits →
      SessionData.read m = .ok msg → msg.metadata.nonce = 0 → o.ini.hs = .waitForAuthReply →
      (o.pending.validateAuth o.stats msg now c.bufLen).2.2 = .ok payload →
      s0 = (o.received m w).initAuthOk c params msg now scratch →
      (payload = [] ∧ R s0 s ∨ ∃ s1, R s0 s1 ∧ payload ≠ [] ∧
        R (({ s1 with payloadLen := payload.length } : Layer).rxNotified) s) →
      RxTail c E R o s { s with inAuth := false, ini := { s.ini with hs := .idle } }
  /-- The application is told about the payload of a data message. -/
  | dataNotified (s1 : Layer) (m w : Bytes) (msg : SessionData) (now : Int) (scratch payload : Bytes) :
      Receives E o m → SessionData.read m = .ok msg → msg.metadata.nonce ≠ 0 →
      (o.active.validateData o.stats msg now c.bufLen).2.2 = .ok payload → payload ≠ [] →
      s1 = { (o.received m w).dataValidated c msg now scratch with payloadLen := payload.length } →
      NonceChange c s1 s → RxTail c E R o s s.rxNotified
  /-- The responder makes the payload of the message available. -/
  | respAuthPayload (s0 s1 : Layer) (m w : Bytes) (h : ResponderHandshake) (msg : SessionData) (now now' : Int)
      (scratch payload : Bytes) (out : Formatted) : Receives E o m →
      c.role = .responder h → SessionData.read m = .ok msg → msg.metadata.nonce = 0 → o.pending.valid = true →
      (o.pending.validateAuth o.stats msg now c.bufLen).2.2 = .ok payload →
      s1 = ((o.received m w).authValidated c msg now scratch).activated →
      (s1.active.formatAuth now' s1.tx.remainder).2.2 = .ok out →
      s0 = (((s1.authFormatted false now').authTaken s1.tx.remainder
        (s1.active.formatAuth now' s1.tx.remainder).2.1).sent out.frame).opening → R s0 s → payload ≠ [] →
      RxTail c E R o s (({ s with payloadLen := payload.length } : Layer).rxNotified)

/-- The responder has accepted a session auth message without user data, sent its own and opened the application. -/
def RespOpened (c : Cfg) (E : Env) (o s0 : Layer) : Prop :=
  ∃ (s1 : Layer) (m w : Bytes) (h : ResponderHandshake) (msg : SessionData) (now now' : Int) (scratch : Bytes)
    (out : Formatted), Receives E o m ∧ c.role = .responder h ∧ SessionData.read m = .ok msg ∧ msg.metadata.nonce = 0 ∧
    o.pending.valid = true ∧ (o.pending.validateAuth o.stats msg now c.bufLen).2.2 = .ok [] ∧
    s1 = ((o.received m w).authValidated c msg now scratch).activated ∧
    (s1.active.formatAuth now' s1.tx.remainder).2.2 = .ok out ∧
    s0 = (((s1.authFormatted false now').authTaken s1.tx.remainder
      (s1.active.formatAuth now' s1.tx.remainder).2.1).sent out.frame).opening

/-- The readiness of the layer below changes. -/
def Layer.readied (s : Layer) (b : Bool) : Layer := { s.noted (.lowerReady b) with lowerReady := b }

/-- The state after the first part of `onLowerClose`. -/
def Layer.lowerClosing (c : Cfg) (s : Layer) : Layer :=
  let s1 : Layer := ({ s with isOpen := false } : Layer).noted .lowerClose
  let s2 : Layer := match c.role with
    | .initiator _ _ =>
      { s1 with ini := { s1.ini with hs := .idle, respTimer := none, sessTimer := none, required := false } }
    | .responder _ => s1
  ({ s2 with active := s2.active.reset, pending := s2.pending.reset, payloadLen := 0 } : Layer).closing

/-- The state after the last part of `onLowerClose`. -/
def Layer.closedDown (c : Cfg) (s : Layer) : Layer :=
  { s with tx := s.tx.reset, rxFlag := c.viaStack && s.rxFlag, acts := s.acts ++ [(s.log.length, .discarded)] }

/-- The segments of the functions triggered by the layer below and by timers, other than a close. -/
inductive TopAtom (c : Cfg) (s : Layer) : Layer → Prop
  | ready (b : Bool) : TopAtom c s { s.noted (.lowerReady b) with lowerReady := b }
  | openedResponder (h : ResponderHandshake) : c.role = .responder h → s.isOpen = false →
      TopAtom c s (({ s with isOpen := true } : Layer).noted .lowerOpen)
  | openedInitiator (params : Params) (limits : SessionLimits) (s' : Layer) : c.role = .initiator params limits →
      s.isOpen = false → HsReq c limits (({ s with isOpen := true } : Layer).noted .lowerOpen) s' →
      TopAtom c s s'
  | txComplete : s.isOpen = true → TopAtom c s { s with tx := s.tx.onTxComplete.1 }
  | preTxReady (params : Params) (limits : SessionLimits) (s' : Layer) : c.role = .initiator params limits →
      s.ini.required = true → s.isOpen = true → HsReq c limits s s' → TopAtom c s s'
  | txNotified : s.tx.isIdle = true → TopAtom c s s.txNotified
  | responseTimeout (params : Params) (limits : SessionLimits) : c.role = .initiator params limits →
      s.ini.respTimer = some .response → ∀ i : Ini, i = { s.ini with respTimer := none } →
      ∀ i', i' = (if i.hs = .waitForBeginReply ∨ i.hs = .waitForAuthReply then
        { i.start .retry with hs := .waitForRetry } else i) → TopAtom c s { s with ini := i' }
  | retryTimeout (params : Params) (limits : SessionLimits) (s' : Layer) : c.role = .initiator params limits →
      s.ini.respTimer = some .retry → ∀ i : Ini, i = { s.ini with respTimer := none } →
      HsReq c limits { s with ini := { i with hs := if i.hs = .waitForRetry then .idle else i.hs } } s' →
      TopAtom c s s'
  | sessionTimeout (params : Params) (limits : SessionLimits) (s' : Layer) : c.role = .initiator params limits →
      s.ini.sessTimer.isSome → HsReq c limits { s with ini := { s.ini with sessTimer := none } } s' →
      TopAtom c s s'
  | orphanResponse (params : Params) (limits : SessionLimits) : c.role = .initiator params limits →
      0 < s.ini.orphans → ∀ i : Ini, i = { s.ini with orphans := s.ini.orphans - 1 } →
      ∀ i', i' = (if i.hs = .waitForBeginReply ∨ i.hs = .waitForAuthReply then
        { i.start .retry with hs := .waitForRetry } else i) → TopAtom c s { s with ini := i' }
  | orphanRetry (params : Params) (limits : SessionLimits) (s' : Layer) : c.role = .initiator params limits →
      0 < s.ini.orphans → ∀ i : Ini, i = { s.ini with orphans := s.ini.orphans - 1 } →
      HsReq c limits { s with ini := { i with hs := if i.hs = .waitForRetry then .idle else i.hs } } s' →
      TopAtom c s s'
  | orphanSession (params : Params) (limits : SessionLimits) (s' : Layer) : c.role = .initiator params limits →
      0 < s.ini.orphans → HsReq c limits { s with ini := { s.ini with orphans := s.ini.orphans - 1 } } s' →
      TopAtom c s s'

/-- What happens at a tx-ready notification before the application is told. -/
inductive TxReadyStep (c : Cfg) (s : Layer) : Layer → Prop
  | attempt (params : Params) (limits : SessionLimits) (s' : Layer) : c.role = .initiator params limits →
      s.ini.required = true →
      HsReq c limits { s.readied true with tx := s.tx.onTxComplete.1 } s' → TxReadyStep c s s'
  | idle : (∀ params limits, c.role = .initiator params limits → s.ini.required = false) →
      TxReadyStep c s { s.readied true with tx := s.tx.onTxComplete.1 }

/-! ### Every function is a sequence of segments -/

section
variable {c : Cfg} {E : Env} {I : Layer → Prop} {R L : Layer → Layer → Prop}

theorem wp_noteKey (o : Option (UInt64 × Bytes)) (Q : Unit → Layer → Prop) (s : Layer) :
    M.wp E I R L (noteKey o) Q s ↔ Q () { s with log := s.log ++ keyObs o } := by
  cases o with
  | some id => exact Iff.rfl
  | none =>
    show Q () s ↔ _
    simp [keyObs]

theorem usedRecord_none {h : InitiatorHandshake} {b : Backend} {rnd : Bytes} {record : Option (UInt64 × Bytes)}
    (hn : (h.initializeNew b rnd record).2 = none) : h.usedRecord record = none := by
  unfold InitiatorHandshake.initializeNew at hn
  unfold InitiatorHandshake.usedRecord
  cases hm : h.mode <;> simp only [hm] at hn ⊢
  cases record with
  | none => rfl
  | some r => simp at hn

theorem wp_onHandshakeRequired {limits : SessionLimits} {Q : Unit → Layer → Prop} {s : Layer}
    (h : ∀ s', HsReq c limits s s' → Q () s') : M.wp E I R L (onHandshakeRequired c limits) Q s := by
  unfold onHandshakeRequired
  simp only [wp_bind, wp_getTime, wp_get]
  intro f hf
  split
  · rename_i hi
    unfold idleOnHandshakeRequired
    simp only [wp_bind, wp_get, wp_ite, setState, wp_modifyIni, wp_pure, wp_ask, wp_noteKey]
    refine ⟨fun hr => ?_, fun hr f' hf' => ?_⟩
    · have := h _ (.deferred (.inr (by simpa using hr)))
      simpa [hi] using this
    · have hr' : s.lowerReady = true := by simpa using hr
      split
      · rename_i hn
        simp only [startTimer, wp_modifyIni, wp_bind, wp_pure]
        simp only [usedRecord_none hn, keyObs, List.append_nil]
        exact h _ (.noKey f' hf' hi hr' hn)
      · rename_i eph data hn
        split
        · rename_i e he
          exact h _ (.badConfig f' eph data e hf' hi hr' hn he)
        · rename_i w hw
          simp only [wp_bind, wp_modifyIni, wp_lowerStartTx, startTimer, wp_pure]
          exact h _ (.sent f.now f' eph data w hf' hi hr' hn hw)
  · rename_i hi
    simp only [wp_bind, wp_modifyIni, setState]
    exact h _ (.deferred (.inl hi))

theorem HsReq.isOpen {limits : SessionLimits} {s s' : Layer} (h : HsReq c limits s s') : s'.isOpen = s.isOpen := by
  cases h <;> rfl
theorem HsReq.upperOpen {limits : SessionLimits} {s s' : Layer} (h : HsReq c limits s s') : s'.upperOpen = s.upperOpen := by
  cases h <;> rfl
theorem HsReq.rxFlag {limits : SessionLimits} {s s' : Layer} (h : HsReq c limits s s') : s'.rxFlag = s.rxFlag := by
  cases h <;> rfl
theorem HsReq.active {limits : SessionLimits} {s s' : Layer} (h : HsReq c limits s s') : s'.active = s.active := by
  cases h <;> rfl
theorem HsReq.pending {limits : SessionLimits} {s s' : Layer} (h : HsReq c limits s s') : s'.pending = s.pending := by
  cases h <;> rfl
theorem HsReq.stats {limits : SessionLimits} {s s' : Layer} (h : HsReq c limits s s') : s'.stats = s.stats := by
  cases h <;> rfl
theorem HsReq.tx {limits : SessionLimits} {s s' : Layer} (h : HsReq c limits s s') : s'.tx = s.tx := by
  cases h <;> rfl
theorem HsReq.buf {limits : SessionLimits} {s s' : Layer} (h : HsReq c limits s s') : s'.buf = s.buf := by
  cases h <;> rfl
theorem HsReq.payloadLen {limits : SessionLimits} {s s' : Layer} (h : HsReq c limits s s') : s'.payloadLen = s.payloadLen := by
  cases h <;> rfl
theorem HsReq.inAuth {limits : SessionLimits} {s s' : Layer} (h : HsReq c limits s s') : s'.inAuth = s.inAuth := by
  cases h <;> rfl
theorem NonceChange.isOpen {s s' : Layer} (h : NonceChange c s s') : s'.isOpen = s.isOpen := by
  rcases h with ⟨rfl, _⟩ | ⟨_, _, _, _, h⟩
  · rfl
  · exact h.isOpen
theorem NonceChange.upperOpen {s s' : Layer} (h : NonceChange c s s') : s'.upperOpen = s.upperOpen := by
  rcases h with ⟨rfl, _⟩ | ⟨_, _, _, _, h⟩
  · rfl
  · exact h.upperOpen
theorem NonceChange.rxFlag {s s' : Layer} (h : NonceChange c s s') : s'.rxFlag = s.rxFlag := by
  rcases h with ⟨rfl, _⟩ | ⟨_, _, _, _, h⟩
  · rfl
  · exact h.rxFlag
theorem NonceChange.active {s s' : Layer} (h : NonceChange c s s') : s'.active = s.active := by
  rcases h with ⟨rfl, _⟩ | ⟨_, _, _, _, h⟩
  · rfl
  · exact h.active
theorem NonceChange.pending {s s' : Layer} (h : NonceChange c s s') : s'.pending = s.pending := by
  rcases h with ⟨rfl, _⟩ | ⟨_, _, _, _, h⟩
  · rfl
  · exact h.pending
theorem NonceChange.stats {s s' : Layer} (h : NonceChange c s s') : s'.stats = s.stats := by
  rcases h with ⟨rfl, _⟩ | ⟨_, _, _, _, h⟩
  · rfl
  · exact h.stats
theorem NonceChange.tx {s s' : Layer} (h : NonceChange c s s') : s'.tx = s.tx := by
  rcases h with ⟨rfl, _⟩ | ⟨_, _, _, _, h⟩
  · rfl
  · exact h.tx
theorem NonceChange.buf {s s' : Layer} (h : NonceChange c s s') : s'.buf = s.buf := by
  rcases h with ⟨rfl, _⟩ | ⟨_, _, _, _, h⟩
  · rfl
  · exact h.buf
theorem NonceChange.payloadLen {s s' : Layer} (h : NonceChange c s s') : s'.payloadLen = s.payloadLen := by
  rcases h with ⟨rfl, _⟩ | ⟨_, _, _, _, h⟩
  · rfl
  · exact h.payloadLen
theorem NonceChange.inAuth {s s' : Layer} (h : NonceChange c s s') : s'.inAuth = s.inAuth := by
  rcases h with ⟨rfl, _⟩ | ⟨_, _, _, _, h⟩
  · rfl
  · exact h.inAuth
/-- A handshake attempt is visible below at most as one frame, after which the layer below is busy. -/
theorem HsReq.log {limits : SessionLimits} {s s' : Layer} (h : HsReq c limits s s') :
    (∃ o, s'.log = s.log ++ keyObs o) ∧ s'.lowerReady = s.lowerReady ∨
      s.lowerReady = true ∧ s'.lowerReady = false ∧ ∃ o f, s'.log = s.log ++ (keyObs o ++ [.lowerTx f true]) := by
  cases h with
  | sent _ f _ _ w _ _ hr _ _ =>
    right
    exact ⟨hr, rfl, s.ini.handshake.usedRecord f.record, _, by show (s.log ++ _) ++ [.lowerTx _ s.lowerReady] = _; rw [hr, List.append_assoc]⟩
  | badConfig f => left; exact ⟨⟨_, rfl⟩, rfl⟩
  | _ => left; exact ⟨⟨none, (List.append_nil _).symm⟩, rfl⟩
theorem NonceChange.log {s s' : Layer} (h : NonceChange c s s') :
    (∃ o, s'.log = s.log ++ keyObs o) ∧ s'.lowerReady = s.lowerReady ∨
      s.lowerReady = true ∧ s'.lowerReady = false ∧ ∃ o f, s'.log = s.log ++ (keyObs o ++ [.lowerTx f true]) := by
  rcases h with ⟨rfl, _⟩ | ⟨_, _, _, _, h⟩
  · exact .inl ⟨⟨none, (List.append_nil _).symm⟩, rfl⟩
  · exact h.log

theorem wp_nonceChange {Q : Unit → Layer → Prop} {s : Layer} (h : ∀ s', NonceChange c s s' → Q () s') :
    M.wp E I R L (onSessionNonceChange c s.active.rxNonce s.active.txNonce) Q s := by
  unfold onSessionNonceChange
  split
  · rename_i params limits hrole
    simp only [wp_ite, wp_bind, cancelSessionTimer, wp_modifyIni, wp_pure]
    refine ⟨fun ht => ?_, fun hn => h s (.inl ⟨rfl, fun p l hr' => by rw [hrole] at hr'; cases hr'; exact hn⟩)⟩
    exact wp_onHandshakeRequired fun s' hs' => h s' (.inr ⟨params, limits, hrole, ht, hs'⟩)
  · rename_i hr
    exact h s (.inl ⟨rfl, fun p l hr' => by rw [hr] at hr'; cases hr'⟩)

variable (refl : ∀ s, R s s) (trans : ∀ s t u, R s t → R t u → R s u)
  (tx : ∀ s s', I s → TxStep c s s' → I s' ∧ R s s')

section callbacks
include refl

theorem wp_upperOnClose {Q : Unit → Layer → Prop} {s : Layer} (hi : I s.closing)
    (h : ∀ s', I s' → R s.closing s' → Q () s') : M.wp E I R L upperOnClose Q s := by
  unfold Layer.closing at *
  simp only [upperOnClose, wp_bind, wp_modify, wp_get, wp_ite, wp_pure, wp_upcall]
  by_cases ho : s.upperOpen
  · simp only [ho, if_true, Layer.noted] at hi h
    simp only [ho, not_true_eq_false, false_implies, true_implies, and_true]
    exact ⟨hi, h⟩
  · simp only [ho, if_false, Bool.false_eq_true] at hi h
    simp only [ho, Bool.false_eq_true, not_false_eq_true, false_implies, true_implies, true_and]
    exact h s hi (refl s)

theorem wp_upperOnOpen {Q : Unit → Layer → Prop} {s : Layer} (hi : I s.opening)
    (h : ∀ s', I s' → R s.opening s' → Q () s') : M.wp E I R L upperOnOpen Q s := by
  unfold Layer.opening at *
  simp only [upperOnOpen, wp_bind, wp_modify, wp_get, wp_ite, wp_pure, wp_upcall]
  by_cases ho : s.upperOpen
  · simp only [ho, if_true] at hi h
    simp only [ho, not_true_eq_false, false_implies, true_implies, and_true]
    exact h s hi (refl s)
  · simp only [ho, if_false, Layer.noted, Bool.false_eq_true] at hi h
    simp only [ho, Bool.false_eq_true, not_false_eq_true, false_implies, true_implies, true_and]
    exact ⟨hi, h⟩

theorem wp_upperOnRxReady {Q : Unit → Layer → Prop} {s : Layer} (hi : I s.rxNotified)
    (h : ∀ s', I s' → R s.rxNotified s' → Q () s') : M.wp E I R L upperOnRxReady Q s := by
  unfold Layer.rxNotified at *
  simp only [upperOnRxReady, wp_bind, wp_get, wp_ite, wp_pure, wp_upcall]
  by_cases ho : s.upperOpen
  · simp only [ho, if_true, Layer.noted] at hi h
    simp only [ho, not_true_eq_false, false_implies, true_implies, and_true]
    exact ⟨hi, h⟩
  · simp only [ho, if_false, Bool.false_eq_true] at hi h
    simp only [ho, Bool.false_eq_true, not_false_eq_true, false_implies, true_implies, true_and]
    exact h s hi (refl s)

theorem wp_upperOnTxReady {Q : Unit → Layer → Prop} {s : Layer} (hi : I s.txNotified)
    (h : ∀ s', I s' → R s.txNotified s' → Q () s') : M.wp E I R L upperOnTxReady Q s := by
  unfold Layer.txNotified at *
  simp only [upperOnTxReady, wp_bind, wp_get, wp_ite, wp_pure, wp_upcall]
  by_cases ho : s.upperOpen
  · simp only [ho, if_true, Layer.noted] at hi h
    simp only [ho, not_true_eq_false, false_implies, true_implies, and_true]
    exact ⟨hi, h⟩
  · simp only [ho, if_false, Bool.false_eq_true] at hi h
    simp only [ho, Bool.false_eq_true, not_false_eq_true, false_implies, true_implies, true_and]
    exact h s hi (refl s)

end callbacks

include refl trans tx in
theorem wp_checkTransmit {s : Layer} (hi : I s) :
    M.wp E I R L (checkTransmit c) (fun _ s' => I s' ∧ R s s') s := by
  unfold checkTransmit
  simp only [wp_bind, wp_get, wp_ite, wp_pure, wp_getTime, wp_modify]
  refine ⟨fun _ => ⟨hi, refl s⟩, fun hc f hf => ?_⟩
  have hc' : canTransmit s = true := by simpa using hc
  split
  · rename_i e he
    have h1 := tx s _ hi (.dataFailed f.now e hc' he)
    simp only [wp_bind, wp_modify, wp_act]
    exact wp_upperOnClose refl h1.1 fun s' hi' hr => ⟨hi', trans _ _ _ h1.2 hr⟩
  · rename_i out ho
    simp only [wp_bind, wp_modify, wp_lowerStartTx, wp_get, wp_act]
    refine wp_nonceChange (s := (({ s with
        active := (s.active.formatData f.now s.tx.remainder).1
        acts := s.acts ++ [(s.log.length, .sent false out s.tx.remainder (s.active.formatData f.now s.tx.remainder).2.1)]
        tx := s.tx.beginTransmit (s.active.formatData f.now s.tx.remainder).2.1 } : Layer).sent out.frame))
      ?_
    intro s' hs'
    exact tx s s' hi (.dataSent f.now out s' hc' ho hs')

include refl trans tx in
theorem wp_startTx {data : Bytes} {s : Layer} (hi : I s) :
    M.wp E I R L (startTx c data) (fun _ s' => I s' ∧ R s s') s := by
  unfold startTx
  simp only [wp_bind, wp_get, wp_note, wp_ite, wp_pure, wp_modify]
  refine ⟨fun hr => ?_, fun hr => ?_⟩
  · have h1 := tx s _ hi (.startTxAccepted data hr)
    rw [hr]
    exact M.wp_mono (fun _ _ h => ⟨h.1, trans _ _ _ h1.2 h.2⟩) (wp_checkTransmit refl trans tx h1.1)
  · have hr' : isTxReady s = false := by simpa using hr
    rw [hr']
    exact tx s _ hi (.startTxRefused data hr')

variable (transL : ∀ s t u, L s t → L t u → L s u) (sub : ∀ s t, L s s → R s t → L s t) (reflL : ∀ s t, L s t → L t t)
  (rx : ∀ s s', I s → L s s → RxAtom c E s s' → (s'.payloadLen = 0 ∨ s'.payloadLen = s.payloadLen) →
    I s' ∧ (s'.inAuth = s.inAuth → (s'.lowerReady = s.lowerReady ∨ s'.stats.numSuccess = s.stats.numSuccess) → L s s'))
  (respEnd : ∀ o s0 s, I o → L o o → I s → RespOpened c E o s0 → R s0 s → L o s)
  (data : ∀ s m w msg now scratch payload s', I s → L s s → Receives E s m → SessionData.read m = .ok msg →
    msg.metadata.nonce ≠ 0 → (s.active.validateData s.stats msg now c.bufLen).2.2 = .ok payload → payload ≠ [] →
    NonceChange c { (s.received m w).dataValidated c msg now scratch with payloadLen := payload.length } s' → I s')
  (tail : ∀ o s s', I o → L o o → I s → RxTail c E R o s s' →
    I s' ∧ ((s'.inAuth = false ∨ s'.inAuth = o.inAuth ∨ ∃ h, c.role = .responder h) → L o s'))

theorem inAuth_opening (s : Layer) : s.opening.inAuth = s.inAuth := by unfold Layer.opening; split <;> rfl
theorem inAuth_keyNoted (s : Layer) (o : Option (UInt64 × Bytes)) : (s.keyNoted o).inAuth = s.inAuth := by cases o <;> rfl
theorem inAuth_establishedIf (s : Layer) (n : Nat) : (s.establishedIf n).inAuth = s.inAuth := by
  unfold Layer.establishedIf; split <;> rfl
theorem inAuth_authFormatted (s : Layer) (b : Bool) (t : Int) : (s.authFormatted b t).inAuth = s.inAuth := by
  unfold Layer.authFormatted; cases b <;> rfl
theorem inAuth_authTaken (s : Layer) (x y : Bytes) : (s.authTaken x y).inAuth = s.inAuth := by
  unfold Layer.authTaken; split <;> rfl
theorem payloadLen_opening (s : Layer) : s.opening.payloadLen = s.payloadLen := by unfold Layer.opening; split <;> rfl
theorem payloadLen_keyNoted (s : Layer) (o : Option (UInt64 × Bytes)) : (s.keyNoted o).payloadLen = s.payloadLen := by cases o <;> rfl
theorem payloadLen_establishedIf (s : Layer) (n : Nat) : (s.establishedIf n).payloadLen = s.payloadLen := by
  unfold Layer.establishedIf; split <;> rfl
theorem payloadLen_authFormatted (s : Layer) (b : Bool) (t : Int) : (s.authFormatted b t).payloadLen = s.payloadLen := by
  unfold Layer.authFormatted; cases b <;> rfl
theorem payloadLen_authTaken (s : Layer) (x y : Bytes) : (s.authTaken x y).payloadLen = s.payloadLen := by
  unfold Layer.authTaken; split <;> rfl

theorem stats_keyNoted (s : Layer) (o : Option (UInt64 × Bytes)) : (s.keyNoted o).stats = s.stats := by cases o <;> rfl
theorem stats_establishedIf (s : Layer) (n : Nat) : (s.establishedIf n).stats = s.stats := by
  unfold Layer.establishedIf; split <;> rfl
theorem stats_authFormatted (s : Layer) (b : Bool) (t : Int) : (s.authFormatted b t).stats = s.stats := by
  unfold Layer.authFormatted; cases b <;> rfl
theorem stats_authTaken (s : Layer) (x y : Bytes) : (s.authTaken x y).stats = s.stats := by
  unfold Layer.authTaken; split <;> rfl
theorem lowerReady_authFormatted (s : Layer) (b : Bool) (t : Int) : (s.authFormatted b t).lowerReady = s.lowerReady := by
  unfold Layer.authFormatted; cases b <;> rfl
theorem lowerReady_establishedIf (s : Layer) (n : Nat) : (s.establishedIf n).lowerReady = s.lowerReady := by
  unfold Layer.establishedIf; split <;> rfl

theorem initialize_numSuccess (s : Session) (st : Stats) (a : SessionAlgorithms) (p : SessionParam) (k : SessionKeys) :
    (s.initialize st a p k).2.1.numSuccess = st.numSuccess := by
  unfold Session.initialize; split <;> rfl

theorem respond_numSuccess (a : CommonAlgorithms) (reply : ReplyHandshakeBegin) (ikm : Except HsFail (List Bytes))
    (msg : RequestHandshakeBegin) (raw : Bytes) (now : Int) (fw : FrameWriter) (s : Session) (st : Stats) :
    (respond a reply ikm msg raw now fw s st).2.1.numSuccess = st.numSuccess := by
  unfold respond
  split
  · rfl
  · simp only
    split
    · rfl
    · exact initialize_numSuccess ..

theorem process_numSuccess (h : ResponderHandshake) (b : Backend) (caps : Caps) (lookup : UInt64 → Option Bytes)
    (rnd : Bytes) (msg : RequestHandshakeBegin) (raw : Bytes) (now : Int) (fw : FrameWriter) (s : Session) (st : Stats) :
    (h.process b caps lookup rnd msg raw now fw s st).2.1.numSuccess = st.numSuccess := by
  unfold ResponderHandshake.process
  simp only
  repeat' split
  all_goals first | rfl | exact respond_numSuccess ..

theorem finishSession_numSuccess (h : InitiatorHandshake) (ikm : List Bytes) (limits : SessionLimits) (now : Int)
    (s : Session) (st : Stats) : (h.finishSession ikm limits now s st).2.1.numSuccess = st.numSuccess := by
  unfold InitiatorHandshake.finishSession
  simp only
  split
  · rfl
  · have := initialize_numSuccess s st h.algorithms.session
      ⟨now - (now - h.timeRequestTx).tdiv 2, limits.maxNonce, ms limits.maxSessionTimeMs⟩
      ⟨(h.algorithms.handshake.kdf h.handshakeHash ikm).2, (h.algorithms.handshake.kdf h.handshakeHash ikm).1⟩
    split <;> rename_i h1 <;> rw [h1] at this <;> exact this

theorem initializeSession_numSuccess (h : InitiatorHandshake) (b : Backend) (caps : Caps) (msg : ReplyHandshakeBegin)
    (raw : Bytes) (limits : SessionLimits) (now : Int) (s : Session) (st : Stats) :
    (h.initializeSession b caps msg raw limits now s st).2.2.1.numSuccess = st.numSuccess := by
  unfold InitiatorHandshake.initializeSession
  repeat' split
  all_goals first | rfl | exact finishSession_numSuccess ..

include rx in
/-- A segment that does not enter or leave the callbacks of `on_auth_message`. -/
theorem rxL {s s' : Layer} (hi : I s) (hll : L s s) (ha : RxAtom c E s s') (h : s'.inAuth = s.inAuth)
    (hp : s'.payloadLen = s.payloadLen)
    (hk : s'.lowerReady = s.lowerReady ∨ s'.stats.numSuccess = s.stats.numSuccess := by exact .inl rfl) : I s' ∧ L s s' :=
  ⟨(rx s s' hi hll ha (.inr hp)).1, (rx s s' hi hll ha (.inr hp)).2 h hk⟩

/-- `I` holds and everything since `s` is in `L`. -/
abbrev Post (I : Layer → Prop) (L : Layer → Layer → Prop) {α : Type} (s : Layer) : α → Layer → Prop :=
  fun _ s' => I s' ∧ L s s'

include rx in
theorem wp_errorReply {s : Layer} (hi : I s) (hll : L s s) {m : Bytes} (w : Bytes) (h1 : Receives E s m) {h : ResponderHandshake} (h4 : c.role = .responder h) (e : HandshakeError)
    (he : e ≠ .undefined := by simp) :
    M.wp E I R L (replyWithHandshakeError c e) (Post I L s) (s.received m w) := by
  unfold replyWithHandshakeError
  split
  · exact rxL rx hi hll (.ignored m w h1) rfl rfl
  · rename_i frame hf
    simp only [wp_bind, wp_lowerStartTx, wp_pure]
    exact rxL rx hi hll (.errorReply m w h e frame h1 h4 hf he) rfl rfl (.inr rfl)

include rx in
theorem wp_onRequestBegin {s : Layer} (hi : I s) (hll : L s s) {m : Bytes} (w : Bytes) (h1 : Receives E s m) {h : ResponderHandshake} (h4 : c.role = .responder h) {msg : RequestHandshakeBegin}
    (h5 : RequestHandshakeBegin.read m = .ok msg) (now : Int) :
    M.wp E I R L (onRequestBegin c h msg m now) (Post I L s) (s.received m w) := by
  unfold onRequestBegin
  simp only [wp_ite]
  refine ⟨fun _ => wp_errorReply rx hi hll w h1 h4 _, fun hv => ?_⟩
  simp only [wp_bind, wp_ask, wp_get]
  intro f hf
  have hq : (s.received m w).pending = s.pending ∧ (s.received m w).stats = s.stats := ⟨rfl, rfl⟩
  rw [hq.1, hq.2]
  split
  · trivial
  · rename_i e he
    simp only [wp_bind, wp_modify]
    have key := fun s2 hx => rxL rx (s' := s2) hi hll (.requestRefused m w h msg now f e h1 h4 hf h5 he _ rfl s2 hx (by simpa using hv)) (by
      rcases hx with rfl | ⟨frame, _, rfl⟩ <;> exact inAuth_keyNoted _ _) (by
      rcases hx with rfl | ⟨frame, _, rfl⟩ <;> exact payloadLen_keyNoted _ _) (.inr (by
      have hst := process_numSuccess h c.backend c.caps f.lookup f.rnd msg m now c.fw s.pending s.stats
      rcases hx with rfl | ⟨frame, _, rfl⟩ <;> exact (congrArg Stats.numSuccess (stats_keyNoted _ _)).trans hst))
    have key1 := key _ (.inl rfl)
    have key2 := fun frame hfr => key _ (.inr ⟨frame, hfr, rfl⟩)
    simp only [Layer.keyNoted] at key1 key2
    cases hk : (h.process c.backend c.caps f.lookup f.rnd msg m now c.fw s.pending s.stats).2.2.1 with
    | some id =>
      simp only [hk] at key1 key2
      simp only [wp_note]
      unfold replyWithHandshakeError
      split
      · exact key1
      · rename_i frame hfr
        simp only [wp_bind, wp_lowerStartTx, wp_pure]
        exact key2 frame hfr
    | none =>
      simp only [hk] at key1 key2
      simp only [wp_pure]
      unfold replyWithHandshakeError
      split
      · exact key1
      · rename_i frame hfr
        simp only [wp_bind, wp_lowerStartTx, wp_pure]
        exact key2 frame hfr
  · rename_i frame he
    simp only [wp_bind, wp_modify]
    have key := rxL rx hi hll (.requestAccepted m w h msg now f frame h1 h4 hf h5 (by simpa using hv) he _ rfl)
      ((inAuth_establishedIf _ _).trans (inAuth_keyNoted _ _)) ((payloadLen_establishedIf _ _).trans (payloadLen_keyNoted _ _))
      (.inr ((congrArg Stats.numSuccess ((stats_establishedIf _ _).trans (stats_keyNoted _ _))).trans (process_numSuccess ..)))
    simp only [Layer.keyNoted, Layer.establishedIf] at key
    cases hk : (h.process c.backend c.caps f.lookup f.rnd msg m now c.fw s.pending s.stats).2.2.1 with
    | some id =>
      simp only [hk] at key
      simp only [noteEstablished, wp_bind, wp_note, wp_lowerStartTx, wp_pure, wp_get, wp_ite]
      split at key
      · rename_i hn
        exact ⟨fun _ => key, fun h => absurd hn h⟩
      · rename_i hn
        exact ⟨fun h => absurd h hn, fun _ => key⟩
    | none =>
      simp only [hk] at key
      simp only [noteEstablished, wp_bind, wp_note, wp_lowerStartTx, wp_pure, wp_get, wp_ite]
      split at key
      · rename_i hn
        exact ⟨fun _ => key, fun h => absurd hn h⟩
      · rename_i hn
        exact ⟨fun h => absurd h hn, fun _ => key⟩

include rx in
theorem wp_setStateSame {s : Layer} (hi : I s) (hll : L s s) {m : Bytes} (w : Bytes) (h1 : Receives E s m) : M.wp E I R L (setState s.ini.hs) (Post I L s) (s.received m w) :=
  rxL rx hi hll (.ignored m w h1) rfl rfl

theorem wp_noteEstablished {Q : Unit → Layer → Prop} {s : Layer} {n : Nat} (h : Q () (s.establishedIf n)) :
    M.wp E I R L (noteEstablished n) Q s := by
  unfold Layer.establishedIf at h
  simp only [noteEstablished, wp_bind, wp_note, wp_pure, wp_get, wp_ite]
  split at h
  · rename_i hn
    exact ⟨fun _ => h, fun h => absurd hn h⟩
  · rename_i hn
    exact ⟨fun h => absurd h hn, fun _ => h⟩

theorem wp_transmitSessionAuth {Q : Bool → Layer → Prop} {s : Layer} {b : Bool}
    (herr : ∀ now e, ((if b then s.pending else s.active).formatAuth now s.tx.remainder).2.2 = .error e →
      Q false (s.authFormatted b now))
    (hok : ∀ now out, ((if b then s.pending else s.active).formatAuth now s.tx.remainder).2.2 = .ok out →
      Q s.lowerReady (((s.authFormatted b now).authTaken s.tx.remainder
        ((if b then s.pending else s.active).formatAuth now s.tx.remainder).2.1).sent out.frame)) :
    M.wp E I R L (transmitSessionAuth b) Q s := by
  unfold transmitSessionAuth
  simp only [wp_bind, wp_getTime, wp_get, wp_modify]
  intro f hf
  split
  · rename_i e he
    have := herr f.now e he
    simp only [wp_bind, wp_act, wp_pure]
    unfold Layer.authFormatted at this
    dsimp only at this
    rw [he] at this
    cases b <;> exact this
  · rename_i out ho
    have := hok f.now out ho
    unfold Layer.authTaken Layer.authFormatted at this
    dsimp only at this
    rw [ho] at this
    simp only [wp_ite, wp_bind, wp_modify, wp_lowerStartTx, wp_pure, wp_act]
    cases b
    · split at this
      · rename_i hn
        exact ⟨fun _ => this, fun h => absurd hn h⟩
      · rename_i hn
        exact ⟨fun h => absurd h hn, fun _ => this⟩
    · split at this
      · rename_i hn
        exact ⟨fun _ => this, fun h => absurd hn h⟩
      · rename_i hn
        exact ⟨fun h => absurd h hn, fun _ => this⟩

include rx in
theorem wp_onReplyBegin {s : Layer} (hi : I s) (hll : L s s) {m : Bytes} (w : Bytes) (h1 : Receives E s m) {params : Params} {limits : SessionLimits} (h4 : c.role = .initiator params limits)
    {msg : ReplyHandshakeBegin} (h5 : ReplyHandshakeBegin.read m = .ok msg) (now : Int) :
    M.wp E I R L (onReplyBegin c limits msg m now) (Post I L s) (s.received m w) := by
  unfold onReplyBegin
  simp only [wp_bind, wp_get]
  split
  · rename_i hs
    simp only [cancelTimer, wp_bind, wp_modifyIni, wp_get]
    split
    · trivial
    · rename_i hr
      simp only [wp_bind, wp_modify, startTimer, setState, wp_modifyIni]
      exact rxL rx hi hll (.replyRefused m w params limits msg now h1 h4 h5 hs hr _ rfl) rfl rfl
    · rename_i hr
      simp only [wp_bind, wp_modify]
      apply wp_noteEstablished
      simp only [wp_ite, startTimer, setState, wp_modifyIni, wp_bind]
      have hl : ∀ (t : Layer) n, (t.establishedIf n).lowerReady = t.lowerReady := by
        intro t n; unfold Layer.establishedIf; split <;> rfl
      apply wp_transmitSessionAuth
      · intro now' e he
        refine ⟨fun _ => ?_, fun h => by simp at h⟩
        exact rxL rx hi hll (.replyAuthFailed m w params limits msg now now' e h1 h4 h5 hs hr _ rfl he _ rfl) ((inAuth_authFormatted _ _ _).trans (inAuth_establishedIf _ _)) ((payloadLen_authFormatted _ _ _).trans (payloadLen_establishedIf _ _))
          (.inl ((lowerReady_authFormatted _ _ _).trans (lowerReady_establishedIf _ _)))
      · intro now' out ho
        refine ⟨fun h => ?_, fun _ => ?_⟩
        · rw [hl] at h
          change (!s.lowerReady) = true at h
          simp [h1.1] at h
        · exact rxL rx hi hll (.replyAccepted m w params limits msg now now' out h1 h4 h5 hs hr _ rfl ho _ rfl _ rfl) ((inAuth_authTaken _ _ _).trans ((inAuth_authFormatted _ _ _).trans (inAuth_establishedIf _ _))) ((payloadLen_authTaken _ _ _).trans ((payloadLen_authFormatted _ _ _).trans (payloadLen_establishedIf _ _)))
            (.inr ((congrArg Stats.numSuccess ((stats_authTaken _ _ _).trans ((stats_authFormatted _ _ _).trans (stats_establishedIf _ _)))).trans (initializeSession_numSuccess ..)))
  · exact wp_setStateSame rx hi hll w h1

include rx in
theorem wp_onReplyError {s : Layer} (hi : I s) (hll : L s s) {m : Bytes} (w : Bytes) (h1 : Receives E s m) {params : Params} {limits : SessionLimits} (h4 : c.role = .initiator params limits) :
    M.wp E I R L onReplyError (Post I L s) (s.received m w) := by
  unfold onReplyError
  simp only [wp_bind, wp_get]
  split
  · rename_i hs
    exact rxL rx hi hll (.replyError m w params limits h1 h4 (.inl hs)) rfl rfl
  · rename_i hs
    exact rxL rx hi hll (.replyError m w params limits h1 h4 (.inr hs)) rfl rfl
  · exact wp_setStateSame rx hi hll w h1

include refl rx tail in
theorem wp_initiatorOnAuth {s : Layer} (hi : I s) (hll : L s s) {m : Bytes} (w : Bytes) (h1 : Receives E s m) {params : Params} {limits : SessionLimits} (h4 : c.role = .initiator params limits)
    {msg : SessionData} (h5 : SessionData.read m = .ok msg) (h6 : msg.metadata.nonce = 0) (now : Int) :
    M.wp E I R L (initiatorOnAuth c params msg now) (Post I L s) (s.received m w) := by
  unfold initiatorOnAuth
  simp only [wp_bind, wp_get]
  split
  · rename_i hs
    simp only [validatePendingAuth, cancelTimer, wp_bind, wp_modifyIni, wp_get, wp_ask, wp_modify, wp_pure]
    intro f hf
    split
    · rename_i e he
      simp only [startTimer, setState, wp_bind, wp_modifyIni]
      exact rxL rx hi hll (.initAuthRefused m w params limits msg now f.scratch e h1 h4 h5 h6 hs he _ rfl) rfl rfl
    · rename_i payload hp
      simp only [wp_bind, activatePending, wp_modify, wp_modifyIni, wp_get, startSessionTimer]
      have ha := rx s _ hi hll (.initAuthOk m w params limits msg now f.scratch payload h1 h4 h5 h6 hs hp) (.inr (payloadLen_opening _))
      apply wp_upperOnOpen refl
      · exact ha.1
      intro s' hi' hr'
      simp only [wp_ite, wp_bind, wp_modify, wp_pure, setState, wp_modifyIni]
      have fin : ∀ t, I t → (payload = [] ∧ R ((s.received m w).initAuthOk c params msg now f.scratch) t ∨
            ∃ s1, R ((s.received m w).initAuthOk c params msg now f.scratch) s1 ∧ payload ≠ [] ∧
              R (({ s1 with payloadLen := payload.length } : Layer).rxNotified) t) →
          I { t with inAuth := false, ini := { t.ini with hs := .idle } } ∧
          L s { t with inAuth := false, ini := { t.ini with hs := .idle } } :=
        fun t ht hrt =>
          have := tail s t _ hi hll ht (.initAuthEnd _ m w params limits msg now f.scratch payload h1 h4 h5 h6 hs hp rfl hrt)
          ⟨this.1, this.2 (.inl rfl)⟩
      refine ⟨fun hn => ?_, fun hn => ?_⟩
      · have hne : payload ≠ [] := by simpa using hn
        have hpay := tail s s' _ hi hll hi' (.initAuthPayload _ m w params limits msg now f.scratch payload h1 h4 h5 h6 hs
          hp rfl hr' hne)
        apply wp_upperOnRxReady refl
        · exact hpay.1
        intro s'' hi'' hr''
        exact fin s'' hi'' (.inr ⟨s', hr', hne, hr''⟩)
      · exact fin s' hi' (.inl ⟨by simpa using hn, hr'⟩)
  · exact wp_setStateSame rx hi hll w h1

include refl transL sub reflL rx respEnd tail in
theorem wp_responderOnAuth {s : Layer} (hi : I s) (hll : L s s) {m : Bytes} (w : Bytes) (h1 : Receives E s m) {h : ResponderHandshake} (h4 : c.role = .responder h)
    {msg : SessionData} (h5 : SessionData.read m = .ok msg) (h6 : msg.metadata.nonce = 0) (now : Int) :
    M.wp E I R L (responderOnAuth c msg now) (Post I L s) (s.received m w) := by
  unfold responderOnAuth
  simp only [wp_bind, wp_get, wp_ite]
  refine ⟨fun _ => wp_errorReply rx hi hll w h1 h4 _, fun hv => ?_⟩
  have hv' : s.pending.valid = true := by simpa [Layer.received] using hv
  simp only [validatePendingAuth, wp_bind, wp_get, wp_ask, wp_modify, wp_pure]
  intro f hf
  split
  · rename_i e he
    exact rxL rx hi hll (.respAuthRefused m w h msg now f.scratch e h1 h4 h5 h6 hv' he) rfl rfl
  · rename_i payload hp
    simp only [wp_bind, activatePending, wp_modify, wp_ite, wp_pure]
    apply wp_transmitSessionAuth
    · intro now' e he
      refine ⟨fun _ => ?_, fun h => by simp at h⟩
      exact rxL rx hi hll (.respAuthFailed m w h msg now now' f.scratch payload e h1 h4 h5 h6 hv' hp _ rfl he) (inAuth_authFormatted _ _ _) (payloadLen_authFormatted _ _ _)
    · intro now' out ho
      refine ⟨fun h => ?_, fun _ => ?_⟩
      · change (!s.lowerReady) = true at h
        simp [h1.1] at h
      · have ha := rx s _ hi hll (.respAuthOk m w h msg now now' f.scratch payload out h1 h4 h5 h6 hv' hp _ rfl ho) (.inr ((payloadLen_opening _).trans ((payloadLen_authTaken _ _ _).trans (payloadLen_authFormatted _ _ _))))
        apply wp_upperOnOpen refl
        · exact ha.1
        intro s' hi' hr'
        refine ⟨fun hn => ?_, fun hn => ⟨hi', ?_⟩⟩
        rotate_left
        · have hz : payload = [] := by simpa using hn
          subst hz
          exact respEnd s _ s' hi hll hi' ⟨_, m, w, h, msg, now, now', f.scratch, out, h1, h4, h5, h6, hv', hp, rfl, ho, rfl⟩ hr'
        have hpay := tail s s' _ hi hll hi' (.respAuthPayload _ _ m w h msg now now' f.scratch payload out h1 h4 h5 h6
          hv' hp rfl ho rfl hr' (by simpa using hn))
        apply wp_upperOnRxReady refl
        · exact hpay.1
        intro s'' hi'' hr''
        exact ⟨hi'', transL _ _ _ (hpay.2 (.inr (.inr ⟨h, h4⟩))) (sub _ _ (reflL _ _ (hpay.2 (.inr (.inr ⟨h, h4⟩)))) hr'')⟩

include refl transL sub reflL rx respEnd data tail in
theorem wp_onSessionData {s : Layer} (hi : I s) (hll : L s s) {m : Bytes} (w : Bytes) (h1 : Receives E s m) {msg : SessionData} (h5 : SessionData.read m = .ok msg) (h6 : msg.metadata.nonce ≠ 0)
    (now : Int) : M.wp E I R L (onSessionData c msg now) (Post I L s) (s.received m w) := by
  unfold onSessionData
  simp only [validateActiveData, wp_bind, wp_get, wp_ask, wp_modify, wp_pure]
  intro f hf
  split
  · rename_i e he
    exact rxL rx hi hll (.dataRefused m w msg now f.scratch e h1 h5 h6 he) rfl rfl
  · rename_i payload hp
    simp only [wp_bind, wp_modify, wp_get]
    have hne : payload ≠ [] := by
      intro h0
      subst h0
      unfold Session.validateData at hp
      split at hp
      · simp at hp
      · split at hp
        · simp at hp
        · simp at hp
          contradiction
    apply wp_nonceChange (s := { (s.received m w).dataValidated c msg now f.scratch with
        payloadLen := payload.length })
    intro t hnc
    have ht : I t := data s m w msg now f.scratch payload t hi hll h1 h5 h6 hp hne hnc
    have hn := tail s t _ hi hll ht (.dataNotified _ m w msg now f.scratch payload h1 h5 h6 hp hne rfl hnc)
    apply wp_upperOnRxReady refl hn.1
    intro s'' hi'' hr''
    have hL := hn.2 (.inr (.inl (by
      have := hnc.inAuth
      unfold Layer.rxNotified
      split <;> exact this)))
    exact ⟨hi'', transL _ _ _ hL (sub _ _ (reflL _ _ hL) hr'')⟩

include refl transL sub reflL rx respEnd data tail in
theorem wp_process {s : Layer} (hi : I s) (hll : L s s) {m : Bytes} (w : Bytes) (h1 : Receives E s m) : M.wp E I R L (process c m) (Post I L s) (s.received m w) := by
  have hign := rxL rx hi hll (.ignored m w h1) rfl rfl
  have hperr : ∀ f, M.wp E I R L (onParseError c f) (Post I L s) (s.received m w) := by
    intro f
    unfold onParseError
    split
    · rename_i h hr
      exact wp_errorReply rx hi hll w h1 hr _
    · exact hign
  unfold process
  simp only [wp_bind, wp_getTime]
  intro f hf
  split
  · exact hign
  · simp only [wp_ite, wp_pure]
    refine ⟨fun _ => hign, fun _ => ?_⟩
    split
    · split
      · exact hperr _
      · rename_i msg hm
        split
        · rename_i h hr
          exact wp_onRequestBegin rx hi hll w h1 hr hm _
        · exact hign
    · split
      · exact hperr _
      · rename_i msg hm
        split
        · rename_i params limits hr
          exact wp_onReplyBegin rx hi hll w h1 hr hm _
        · exact hign
    · split
      · exact hperr _
      · split
        · rename_i params limits hr
          exact wp_onReplyError rx hi hll w h1 hr
        · exact hign
    · split
      · exact hperr _
      · rename_i msg hm
        unfold onSessionMessage
        simp only [wp_ite]
        refine ⟨fun hn => ?_, fun hn => wp_onSessionData refl transL sub reflL rx respEnd data tail hi hll w h1 hm hn _⟩
        split
        · rename_i params limits hr
          exact wp_initiatorOnAuth refl rx tail hi hll w h1 hr hm hn _
        · rename_i h hr
          exact wp_responderOnAuth refl transL sub reflL rx respEnd tail hi hll w h1 hr hm hn _
    · exact hign

include refl transL sub reflL rx respEnd data tail in
theorem wp_tryReadOne {s : Layer} (hi : I s) (hll : L s s) : M.wp E I R L (tryReadOne c) (Post I L s) s := by
  have hr : L s s := hll
  unfold tryReadOne
  simp only [wp_bind, wp_get, wp_ite, wp_pure, wp_lowerStartRx]
  refine ⟨fun _ => ⟨hi, hr⟩, fun hc => ?_⟩
  simp only [ne_eq, decide_not, Bool.or_eq_true, Bool.not_eq_eq_eq_not, Bool.not_true, decide_eq_false_iff_not,
    not_or, Bool.not_eq_false, Decidable.not_not] at hc
  refine ⟨fun _ f _ => ⟨fun _ => rxL rx hi hll (.readEmpty _ hc.1 hc.2) rfl rfl, fun h => absurd trivial h⟩, fun m h0 hm f hf => ?_⟩
  refine ⟨fun h => absurd h hm, fun _ => ?_⟩
  exact wp_process refl transL sub reflL rx respEnd data tail hi hll f.scratch ⟨hc.1, hc.2, hm, h0⟩

include refl transL sub reflL rx in
theorem wp_startRx {s : Layer} (hi : I s) (hll : L s s) : M.wp E I R L startRx (Post I L s) s := by
  have fin : ∀ t, I t → L s t →
      M.wp E I R L (do tryRead; note (.startRx [])) (Post I L s) t := by
    intro t ht hl
    simp only [wp_bind, wp_tryRead, wp_note]
    refine ⟨ht, reflL _ _ hl, fun s' hi' hl' => ?_⟩
    have := rxL rx hi' (reflL _ _ hl') .readNothing rfl rfl
    exact ⟨this.1, transL _ _ _ hl (transL _ _ _ hl' this.2)⟩
  unfold startRx
  simp only [wp_bind, wp_get, wp_note]
  rw [wp_ite]
  refine ⟨fun hf => ?_, fun hf => ?_⟩
  · have h0 := rx s _ hi hll (.discarded hf) (.inl rfl)
    have : _ ∧ _ := ⟨h0.1, h0.2 rfl (.inl rfl)⟩
    simp only [wp_bind, wp_modify, wp_get]
    rw [wp_ite]
    exact ⟨fun _ => fin _ this.1 this.2, fun h => absurd trivial h⟩
  · have hf' : s.rxFlag = false := by simpa using hf
    simp only [wp_bind, wp_pure, wp_get]
    rw [wp_ite]
    refine ⟨fun hp => ?_, fun hp => ?_⟩
    · have := rxL rx hi hll (.asked hf' hp) rfl rfl
      exact fin _ this.1 this.2
    · simp only [wp_bind, wp_note, wp_modify]
      exact rxL rx hi hll (.readData hp hf') rfl rfl

/-- A call that finds data. -/
theorem wp_reading {s : Layer} {Q : Unit → Layer → Prop} (hp : s.payloadLen ≠ 0) (hf : s.rxFlag = false)
    (h : Q () s.reading) : M.wp E I R L startRx Q s := by
  unfold startRx
  simp only [wp_bind, wp_get, wp_note]
  rw [wp_ite]
  refine ⟨fun h' => absurd (show s.rxFlag = true from h') (by simp [hf]), fun _ => ?_⟩
  simp only [wp_bind, wp_pure, wp_get]
  rw [wp_ite]
  exact ⟨fun h' => absurd h' hp, fun _ => h⟩

theorem wp_onResponseTimeout {Q : Unit → Layer → Prop} {s : Layer}
    (h : Q () { s with ini := if s.ini.hs = .waitForBeginReply ∨ s.ini.hs = .waitForAuthReply then
        { s.ini.start .retry with hs := .waitForRetry } else s.ini }) :
    M.wp E I R L onResponseTimeout Q s := by
  unfold onResponseTimeout
  simp only [wp_bind, wp_get]
  split <;> rename_i hs
  · rw [if_pos (.inl hs)] at h
    exact h
  · rw [if_pos (.inr hs)] at h
    exact h
  · rename_i hs1
    rw [if_neg (fun h => h.elim hs1 hs)] at h
    exact h

theorem wp_onRetryTimeout {limits : SessionLimits} {Q : Unit → Layer → Prop} {s : Layer}
    (h : ∀ s', HsReq c limits { s with ini := { s.ini with
      hs := if s.ini.hs = .waitForRetry then .idle else s.ini.hs } } s' → Q () s') :
    M.wp E I R L (onRetryTimeout c limits) Q s := by
  unfold onRetryTimeout
  simp only [wp_bind, wp_get]
  split <;> rename_i hs
  · rw [if_pos hs] at h
    simp only [wp_bind, setState, wp_modifyIni]
    exact wp_onHandshakeRequired h
  · rw [if_neg hs] at h
    simp only [wp_bind, setState, wp_modifyIni]
    exact wp_onHandshakeRequired h

variable {J : Layer → Prop} (stay : ∀ s t, I s → J s → L s t → J t) (start : ∀ s, I s → J s → L s s)
  (top : ∀ s s', I s → J s → TopAtom c s s' → (s'.lowerReady = true → s.lowerReady = true) → I s' ∧ J s')
  (ready : ∀ s b, I s → J s → s.isOpen = false → I (s.readied b) ∧ J (s.readied b))
  (txReady : ∀ s s', I s → J s → s.isOpen = true → TxReadyStep c s s' → I s' ∧ J s')
  (closing : ∀ s b, I s → J s → s.isOpen = true → I ((s.readied b).lowerClosing c))
  (closed : ∀ s0 b s, I s0 → J s0 → s0.isOpen = true → I s → R ((s0.readied b).lowerClosing c) s →
    I (s.closedDown c) ∧ J (s.closedDown c))

theorem HsReq.lowerReady_le {limits : SessionLimits} {s s' : Layer} (h : HsReq c limits s s') :
    s'.lowerReady = true → s.lowerReady = true := by
  rcases h.log with ⟨_, h⟩ | ⟨h, _, _⟩
  · rw [h]; exact id
  · exact fun _ => h

include refl trans tx sub stay start top ready txReady closing closed in
theorem wp_event (e : Event) {s : Layer} (he : e.enabled s) (hi : I s) (hj : J s) :
    M.wp E I R L (e.run c) (fun _ s' => I s' ∧ J s') s := by
  cases e with
  | lowerOpen b =>
    simp only [Event.run, onLowerOpen, wp_bind, wp_get]
    rw [wp_ite]
    refine ⟨fun ho => ?_, fun ho => ?_⟩
    · simp only [wp_pure, wp_bind, wp_get]
      rw [wp_ite]
      exact ⟨fun _ => ⟨hi, hj⟩, fun h => absurd ho h⟩
    have ho' : s.isOpen = false := by simpa using ho
    have h0 := ready s b hi hj ho'
    simp only [wp_bind, wp_note, wp_modify, wp_get]
    rw [wp_ite]
    refine ⟨fun h => absurd h ho, fun _ => ?_⟩
    simp only [wp_bind, wp_note, wp_modify]
    split
    · rename_i params limits hr
      exact wp_onHandshakeRequired fun s' hs' => top _ s' h0.1 h0.2
        (.openedInitiator params limits s' hr ho' hs') hs'.lowerReady_le
    · rename_i h hr
      exact top _ _ h0.1 h0.2 (.openedResponder h hr ho') id
  | lowerClose b =>
    simp only [Event.run, onLowerClose, wp_bind, wp_modify, wp_get, wp_ite, wp_pure, wp_note]
    refine ⟨fun ho => ?_, fun ho => ready s b hi hj (by simpa using ho)⟩
    have h1 := closing _ b hi hj ho
    have fin : ∀ (t : Layer), t.closing = Layer.lowerClosing c (s.readied b) →
        M.wp E I R L upperOnClose (fun _ s' => I (s'.closedDown c) ∧ J (s'.closedDown c)) t := by
      intro t ht
      apply wp_upperOnClose refl
      · rw [ht]; exact h1
      · intro s' hi' hr'
        rw [ht] at hr'
        exact closed s b s' hi hj ho hi' hr'
    unfold resetStateOnClose
    split
    · rename_i params limits hr
      simp only [wp_modifyIni, resetBoth, wp_modify]
      apply fin
      unfold Layer.lowerClosing
      rw [hr]
      rfl
    · rename_i h hr
      simp only [resetBoth, wp_modify]
      apply fin
      unfold Layer.lowerClosing
      rw [hr]
      rfl
  | lowerTxReady =>
    simp only [Event.run, onLowerTxReady, wp_bind, wp_note, wp_modify, wp_get, wp_ite, wp_pure]
    refine ⟨fun ho => ?_, fun ho => ready s true hi hj (by simpa using ho)⟩
    have ho' : s.isOpen = true := ho
    have fin : ∀ t, I t → J t → M.wp E I R L tryRead (fun _ s' => M.wp E I R L (checkTransmit c) (fun _ s' => I s' ∧ J s') s') t := by
      intro t ht htj
      simp only [wp_tryRead]
      refine ⟨ht, start _ ht htj, fun s' hi' hl' => ?_⟩
      have hj' := stay _ _ ht htj hl'
      exact M.wp_mono (fun _ _ h => ⟨h.1, stay _ _ hi' hj' (sub _ _ (start _ hi' hj') h.2)⟩)
        (wp_checkTransmit refl trans tx hi')
    have hidle : s.tx.onTxComplete.2 = true → s.tx.onTxComplete.1.isIdle = true := by
      unfold TxState.onTxComplete TxState.isIdle
      split <;> simp
    have fin2 : ∀ t, I t → J t → ∀ b : Bool, (b = true → t.tx.isIdle = true) →
        (b = true → M.wp E I R L upperOnTxReady (fun _ s' => M.wp E I R L tryRead (fun _ s' => M.wp E I R L (checkTransmit c) (fun _ s' => I s' ∧ J s') s') s') t) ∧
        (¬ b = true → M.wp E I R L tryRead (fun _ s' => M.wp E I R L (checkTransmit c) (fun _ s' => I s' ∧ J s') s') t) := by
      intro t ht htj b hb
      refine ⟨fun hb' => ?_, fun _ => fin t ht htj⟩
      have h2 := top t _ ht htj (.txNotified (hb hb')) (by unfold Layer.txNotified; split <;> exact id)
      apply wp_upperOnTxReady refl h2.1
      exact fun s' hi' hr' => fin s' hi' (stay _ _ h2.1 h2.2 (sub _ _ (start _ h2.1 h2.2) hr'))
    unfold onPreTxReady
    split
    · rename_i params limits hr
      simp only [wp_bind, wp_get, wp_ite, wp_pure]
      refine ⟨fun hq => ?_, fun hq => ?_⟩
      · apply wp_onHandshakeRequired
        intro s' hs'
        have h2 := txReady s s' hi hj ho' (.attempt params limits s' hr hq hs')
        exact fin2 _ h2.1 h2.2 _ (fun hb => by rw [hs'.tx]; exact hidle hb)
      · have h2 := txReady s _ hi hj ho' (.idle fun _ _ _ => by simpa using hq)
        exact fin2 _ h2.1 h2.2 _ hidle
    · rename_i h hr
      have h2 := txReady s _ hi hj ho' (.idle fun _ _ hr' => by rw [hr] at hr'; cases hr')
      exact fin2 _ h2.1 h2.2 _ hidle
  | lowerRxReady =>
    simp only [Event.run, onLowerRxReady, wp_bind, wp_get, wp_ite, wp_pure, wp_tryRead]
    exact ⟨fun _ => ⟨hi, start _ hi hj, fun s' hi' hl' => ⟨hi', stay _ _ hi hj hl'⟩⟩, fun _ => ⟨hi, hj⟩⟩
  | expiry e =>
    simp only [Event.run, onExpiry]
    split
    · exact ⟨hi, hj⟩
    · rename_i params limits hr
      cases e with
      | response =>
        simp only [wp_bind, wp_modifyIni]
        exact wp_onResponseTimeout (top s _ hi hj (.responseTimeout params limits hr he _ rfl _ rfl) id)
      | retry =>
        simp only [wp_bind, wp_modifyIni]
        exact wp_onRetryTimeout fun s' hs' => top s s' hi hj (.retryTimeout params limits s' hr he _ rfl hs') hs'.lowerReady_le
      | session =>
        simp only [wp_bind, wp_modifyIni]
        exact wp_onHandshakeRequired fun s' hs' => top s s' hi hj (.sessionTimeout params limits s' hr he hs') hs'.lowerReady_le
      | orphanResponse =>
        simp only [wp_bind, wp_modifyIni]
        exact wp_onResponseTimeout (top s _ hi hj (.orphanResponse params limits hr he _ rfl _ rfl) id)
      | orphanRetry =>
        simp only [wp_bind, wp_modifyIni]
        exact wp_onRetryTimeout fun s' hs' => top s s' hi hj (.orphanRetry params limits s' hr he _ rfl hs') hs'.lowerReady_le
      | orphanSession =>
        simp only [wp_bind, wp_modifyIni]
        exact wp_onHandshakeRequired fun s' hs' => top s s' hi hj (.orphanSession params limits s' hr he hs') hs'.lowerReady_le

end

/-- The obligations for an invariant, segment by segment. `P` are facts already known to hold at the same
places as `I`; `J` holds moreover when no function of the layer is active; `R` bounds what the application can
do in a callback, `L` what the receive loop can do (if the application reads in callbacks while there is nothing to read, `R` includes `L`). -/
structure Atomic (c : Cfg) (E : Env) (P I J : Layer → Prop) (R L : Layer → Layer → Prop) : Prop where
  refl : ∀ s, R s s
  trans : ∀ s t u, R s t → R t u → R s u
  transL : ∀ s t u, L s t → L t u → L s u
  sub : ∀ s t, R s t → L s t
  nested : ∀ s, E.nested s .startRx → P s → I s → (s.payloadLen ≠ 0 → s.rxFlag = false → R s s.reading) ∧
    (s.payloadLen = 0 ∨ s.rxFlag = true → ∀ t, L s t → R s t)
  init : ∀ h, h.Configured c.backend c.caps → E.config h → I (Layer.new c h) ∧ J (Layer.new c h)
  tx : ∀ s s', P s → P s' → I s → TxAtom c s s' → I s' ∧ R s s'
  rx : ∀ s s', P s → P s' → I s → RxAtom c E s s' → I s' ∧ L s s'
  tail : ∀ o s s', P o → P s → P s' → I o → I s → RxTail c E R o s s' → I s' ∧ L o s'
  stay : ∀ s t, P s → I s → J s → L s t → J t
  top : ∀ s s', P s → P s' → I s → J s → TopAtom c s s' → I s' ∧ J s'
  closing : ∀ s, P s → P (s.lowerClosing c) → I s → J s → s.isOpen = true → I (s.lowerClosing c)
  closed : ∀ s0 s, P s0 → P s → P (s.closedDown c) → I s0 → J s0 → s0.isOpen = true →
    I s → R (s0.lowerClosing c) s →
    I (s.closedDown c) ∧ J (s.closedDown c)

/-- The obligations for an invariant that needs nothing else. -/
abbrev Atomic1 (c : Cfg) (E : Env) (I : Layer → Prop) : Prop :=
  Atomic c E (fun _ => True) I (fun _ => True) (fun _ _ => True) (fun _ _ => True)

theorem RxTail.mono {c : Cfg} {E : Env} {R R' : Layer → Layer → Prop} (h : ∀ s t, R s t → R' s t) {o s s' : Layer}
    (ht : RxTail c E R o s s') : RxTail c E R' o s s' := by
  cases ht with
  | initAuthPayload s0 m w params limits msg now scratch payload a1 a2 a3 a4 a5 a6 a7 a8 a9 =>
    exact .initAuthPayload s0 m w params limits msg now scratch payload a1 a2 a3 a4 a5 a6 a7 (h _ _ a8) a9
  | initAuthEnd s0 m w params limits msg now scratch payload a1 a2 a3 a4 a5 a6 a7 a8 =>
    refine .initAuthEnd s0 m w params limits msg now scratch payload a1 a2 a3 a4 a5 a6 a7 ?_
    rcases a8 with ⟨b1, b2⟩ | ⟨s1, b1, b2, b3⟩
    · exact .inl ⟨b1, h _ _ b2⟩
    · exact .inr ⟨s1, h _ _ b1, b2, h _ _ b3⟩
  | dataNotified s1 m w msg now scratch payload a1 a2 a3 a4 a5 a6 a7 =>
    exact .dataNotified s1 m w msg now scratch payload a1 a2 a3 a4 a5 a6 a7
  | respAuthPayload s0 s1 m w hh msg now now' scratch payload out a1 a2 a3 a4 a5 a6 a7 a8 a9 a10 a11 =>
    exact .respAuthPayload s0 s1 m w hh msg now now' scratch payload out a1 a2 a3 a4 a5 a6 a7 a8 a9 (h _ _ a10) a11

/-- Weaker obligations, in which segments that follow each other without a transfer of control are taken together
(`TxStep`, `data`, `txReady`, `closing`), and the segment which enters the callbacks of
`WaitForAuthReply::on_auth_message` need not be in `L` (what is in `L` is the whole function, see `tail`). -/
structure AtomicW (c : Cfg) (E : Env) (P I J : Layer → Prop) (R L : Layer → Layer → Prop) : Prop where
  refl : ∀ s, R s s
  trans : ∀ s t u, R s t → R t u → R s u
  transL : ∀ s t u, L s t → L t u → L s u
  sub : ∀ s t, L s s → R s t → L s t
  reflL : ∀ s t, L s t → L t t
  start : ∀ s, P s → I s → J s → L s s
  read : ∀ s, E.nested s .startRx → P s → P s.reading → I s → s.payloadLen ≠ 0 → s.rxFlag = false → I s.reading ∧ R s s.reading
  nested : ∀ s t, E.nested s .startRx → P s → I s → s.payloadLen = 0 ∨ s.rxFlag = true → L s s ∧ (L s t → R s t)
  init : ∀ h, h.Configured c.backend c.caps → E.config h → I (Layer.new c h) ∧ J (Layer.new c h)
  tx : ∀ s s', P s → P s' → I s → TxStep c s s' → I s' ∧ R s s'
  rx : ∀ s s', P s → P s' → I s → L s s → RxAtom c E s s' → (s'.payloadLen = 0 ∨ s'.payloadLen = s.payloadLen) →
    I s' ∧ (s'.inAuth = s.inAuth → (s'.lowerReady = s.lowerReady ∨ s'.stats.numSuccess = s.stats.numSuccess) → L s s')
  respEnd : ∀ o s0 s, P o → P s → I o → L o o → I s → RespOpened c E o s0 → R s0 s → L o s
  data : ∀ s m w msg now scratch payload s', P s → P s' → I s → L s s → Receives E s m → SessionData.read m = .ok msg →
    msg.metadata.nonce ≠ 0 → (s.active.validateData s.stats msg now c.bufLen).2.2 = .ok payload → payload ≠ [] →
    NonceChange c { (s.received m w).dataValidated c msg now scratch with payloadLen := payload.length } s' → I s'
  tail : ∀ o s s', P o → P s → P s' → I o → L o o → I s → RxTail c E R o s s' →
    I s' ∧ ((s'.inAuth = false ∨ s'.inAuth = o.inAuth ∨ ∃ h, c.role = .responder h) → L o s')
  stay : ∀ s t, P s → I s → J s → L s t → J t
  top : ∀ s s', P s → P s' → I s → J s → TopAtom c s s' → (s'.lowerReady = true → s.lowerReady = true) → I s' ∧ J s'
  ready : ∀ s b, P s → P (s.readied b) → I s → J s → s.isOpen = false → I (s.readied b) ∧ J (s.readied b)
  txReady : ∀ s s', P s → P s' → I s → J s → s.isOpen = true → TxReadyStep c s s' → I s' ∧ J s'
  closing : ∀ s b, P s → P ((s.readied b).lowerClosing c) → I s → J s → s.isOpen = true →
    I ((s.readied b).lowerClosing c)
  closed : ∀ s0 b s, P s0 → P s → P (s.closedDown c) → I s0 → J s0 → s0.isOpen = true →
    I s → R ((s0.readied b).lowerClosing c) s →
    I (s.closedDown c) ∧ J (s.closedDown c)

theorem Atomic.weak {c : Cfg} {E : Env} {P I J : Layer → Prop} {R L : Layer → Layer → Prop}
    (a : Atomic c E P I J R L) (p : Atomic1 c E P) : AtomicW c E P I J R L := by
  have nonce : ∀ s s', P s → I s → NonceChange c s s' → I s' ∧ R s s' := by
    intro s s' hp h ha
    rcases ha with ⟨rfl, _⟩ | ⟨params, limits, hr, ht, hq⟩
    · exact ⟨h, a.refl _⟩
    · have ha := TxAtom.nonceTrigger params limits s' hr ht hq
      exact a.tx _ _ hp (p.tx _ _ trivial trivial hp ha).1 h ha
  have rdy : ∀ s b, P s → I s → J s → P (s.readied b) ∧ I (s.readied b) ∧ J (s.readied b) := by
    intro s b hp h hj
    have h1 := (p.top s (s.readied b) trivial trivial hp trivial (.ready b)).1
    exact ⟨h1, a.top s _ hp h1 h hj (.ready b)⟩
  exact {
    refl := a.refl
    trans := a.trans
    transL := a.transL
    sub := fun s t _ h => a.sub s t h
    reflL := fun _ t _ => a.sub t t (a.refl t)
    start := fun s _ _ _ => a.sub s s (a.refl s)
    read := fun s hn hp hp' hi h1 h2 => ⟨(a.rx s _ hp hp' hi (.readData h1 h2)).1, (a.nested s hn hp hi).1 h1 h2⟩
    nested := fun s t hn hp hi h => ⟨a.sub s s (a.refl s), (a.nested s hn hp hi).2 h t⟩
    init := a.init
    tx := by
      intro s s' hp hp' h ha
      cases ha with
      | startTxRefused data hr => exact a.tx _ _ hp hp' h (.startTxRefused data hr)
      | startTxAccepted data hr => exact a.tx _ _ hp hp' h (.startTxAccepted data hr)
      | dataFailed now e hc he => exact a.tx _ _ hp hp' h (.dataFailed now e hc he)
      | dataSent now out _ hc he hn =>
        have ha := TxAtom.dataSent (c := c) now out hc he
        have h0 := (p.tx _ _ trivial trivial hp ha).1
        have h1 := a.tx _ _ hp h0 h ha
        have h2 := nonce _ _ h0 h1.1 hn
        exact ⟨h2.1, a.trans _ _ _ h1.2 h2.2⟩
    rx := fun s s' h1 h2 h3 _ h4 _ => ⟨(a.rx s s' h1 h2 h3 h4).1, fun _ _ => (a.rx s s' h1 h2 h3 h4).2⟩
    respEnd := by
      intro o s0 s hp hp' h _ hs hr hR
      obtain ⟨s1, m, w, hh, msg, now, now', scratch, out, h1, h2, h3, h4, h5, h6, h7, h8, h9⟩ := hr
      have ha := RxAtom.respAuthOk (c := c) m w hh msg now now' scratch [] out h1 h2 h3 h4 h5 h6 s1 h7 h8
      rw [← h9] at ha
      have h0 := (p.rx _ _ trivial trivial hp ha).1
      exact a.transL _ _ _ (a.rx _ _ hp h0 h ha).2 (a.sub _ _ hR)
    data := by
      intro s m w msg now scratch payload s' hp hp' h _ h1 h2 h3 h4 _ hn
      have ha := RxAtom.dataOk (c := c) m w msg now scratch payload h1 h2 h3 h4
      have h0 := (p.rx _ _ trivial trivial hp ha).1
      exact (nonce _ _ h0 (a.rx _ _ hp h0 h ha).1 hn).1
    tail := fun o s s' h1 h2 h3 h4 _ h5 h6 => ⟨(a.tail o s s' h1 h2 h3 h4 h5 h6).1, fun _ => (a.tail o s s' h1 h2 h3 h4 h5 h6).2⟩
    stay := a.stay
    top := fun s s' h1 h2 h3 h4 h5 _ => a.top s s' h1 h2 h3 h4 h5
    ready := fun s b h1 _ h3 h4 _ => (rdy s b h1 h3 h4).2
    txReady := by
      intro s s' hp hp' h hj ho hs
      obtain ⟨p1, i1, j1⟩ := rdy s true hp h hj
      have ht : TopAtom c (s.readied true) { s.readied true with tx := s.tx.onTxComplete.1 } := .txComplete ho
      have p2 := (p.top _ _ trivial trivial p1 trivial ht).1
      have h2 := a.top _ _ p1 p2 i1 j1 ht
      cases hs with
      | idle _ => exact h2
      | attempt params limits _ hr hq hs =>
        exact a.top _ _ p2 hp' h2.1 h2.2 (.preTxReady params limits s' hr hq ho hs)
    closing := by
      intro s b hp hp' h hj ho
      obtain ⟨p1, i1, j1⟩ := rdy s b hp h hj
      exact a.closing _ p1 hp' i1 j1 ho
    closed := by
      intro s0 b s hp hp' hp'' h hj ho hi hr
      obtain ⟨p1, i1, j1⟩ := rdy s0 b hp h hj
      exact a.closed _ s p1 hp' hp'' i1 j1 ho hi hr }

theorem Atomic1.trivial (c : Cfg) (E : Env) : Atomic1 c E (fun _ => True) := by
  constructor <;> intros <;> first | exact ⟨True.intro, True.intro⟩ | exact ⟨fun _ _ => True.intro, fun _ _ _ => True.intro⟩ | exact True.intro

/-- Two invariants. -/
theorem Atomic1.and {c : Cfg} {E : Env} {I I' : Layer → Prop} (a : Atomic1 c E I) (b : Atomic1 c E I') :
    Atomic1 c E (fun s => I s ∧ I' s) where
  refl := fun _ => True.intro
  trans := fun _ _ _ _ _ => True.intro
  transL := fun _ _ _ _ _ => True.intro
  sub := fun _ _ _ => True.intro
  nested := fun _ _ _ _ => ⟨fun _ _ => True.intro, fun _ _ _ => True.intro⟩
  init := fun h h1 h2 => ⟨⟨(a.init h h1 h2).1, (b.init h h1 h2).1⟩, True.intro⟩
  tx := fun s s' _ _ h h1 => ⟨⟨(a.tx s s' True.intro True.intro h.1 h1).1, (b.tx s s' True.intro True.intro h.2 h1).1⟩, True.intro⟩
  rx := fun s s' _ _ h h1 => ⟨⟨(a.rx s s' True.intro True.intro h.1 h1).1, (b.rx s s' True.intro True.intro h.2 h1).1⟩, True.intro⟩
  tail := fun o s s' _ _ _ h h' h1 => ⟨⟨(a.tail o s s' True.intro True.intro True.intro h.1 h'.1 h1).1,
    (b.tail o s s' True.intro True.intro True.intro h.2 h'.2 h1).1⟩, True.intro⟩
  stay := fun _ _ _ _ _ _ => True.intro
  top := fun s s' _ _ h _ h1 => ⟨⟨(a.top s s' True.intro True.intro h.1 True.intro h1).1,
    (b.top s s' True.intro True.intro h.2 True.intro h1).1⟩, True.intro⟩
  closing := fun s _ _ h _ h1 => ⟨a.closing s True.intro True.intro h.1 True.intro h1,
    b.closing s True.intro True.intro h.2 True.intro h1⟩
  closed := fun s0 s _ _ _ h _ h1 h' _ => ⟨⟨(a.closed s0 s True.intro True.intro True.intro h.1 True.intro h1 h'.1 True.intro).1,
    (b.closed s0 s True.intro True.intro True.intro h.2 True.intro h1 h'.2 True.intro).1⟩, True.intro⟩

/-- An invariant preserved by all segments holds in every execution. -/
theorem AtomicW.proof {c : Cfg} {E : Env} {P I J : Layer → Prop} {R L : Layer → Layer → Prop}
    (a : AtomicW c E P I J R L) (p1 : Atomic1 c E P) : Proof c E (fun s => P s ∧ I s) J R L := by
  have p := p1.weak (.trivial c E)
  have tx : ∀ s s', P s ∧ I s → TxStep c s s' → (P s' ∧ I s') ∧ R s s' := by
    intro s s' h ha
    have h1 := (p.tx s s' True.intro True.intro h.1 ha).1
    have h2 := a.tx s s' h.1 h1 h.2 ha
    exact ⟨⟨h1, h2.1⟩, h2.2⟩
  have rx : ∀ s s', P s ∧ I s → L s s → RxAtom c E s s' → (s'.payloadLen = 0 ∨ s'.payloadLen = s.payloadLen) →
      (P s' ∧ I s') ∧ (s'.inAuth = s.inAuth → (s'.lowerReady = s.lowerReady ∨ s'.stats.numSuccess = s.stats.numSuccess) → L s s') := by
    intro s s' h hll ha hl
    have h1 := (p.rx s s' True.intro True.intro h.1 True.intro ha hl).1
    have h2 := a.rx s s' h.1 h1 h.2 hll ha hl
    exact ⟨⟨h1, h2.1⟩, h2.2⟩
  have respEnd : ∀ o s0 s, P o ∧ I o → L o o → P s ∧ I s → RespOpened c E o s0 → R s0 s → L o s :=
    fun o s0 s h hl h' hr hR => a.respEnd o s0 s h.1 h'.1 h.2 hl h'.2 hr hR
  have data : ∀ s m w msg now scratch payload s', P s ∧ I s → L s s → Receives E s m → SessionData.read m = .ok msg →
      msg.metadata.nonce ≠ 0 → (s.active.validateData s.stats msg now c.bufLen).2.2 = .ok payload → payload ≠ [] →
      NonceChange c { (s.received m w).dataValidated c msg now scratch with payloadLen := payload.length } s' →
      P s' ∧ I s' := by
    intro s m w msg now scratch payload s' h hll h1 h2 h3 h4 h5 h6
    have hp := p.data s m w msg now scratch payload s' True.intro True.intro h.1 True.intro h1 h2 h3 h4 h5 h6
    exact ⟨hp, a.data s m w msg now scratch payload s' h.1 hp h.2 hll h1 h2 h3 h4 h5 h6⟩
  have tail : ∀ o s s', P o ∧ I o → L o o → P s ∧ I s → RxTail c E R o s s' → (P s' ∧ I s') ∧
      ((s'.inAuth = false ∨ s'.inAuth = o.inAuth ∨ ∃ h, c.role = .responder h) → L o s') := by
    intro o s s' ho hll h ha
    have h1 := (p.tail o s s' True.intro True.intro True.intro ho.1 True.intro h.1 (ha.mono fun _ _ _ => True.intro)).1
    have h2 := a.tail o s s' ho.1 h.1 h1 ho.2 hll h.2 ha
    exact ⟨⟨h1, h2.1⟩, h2.2⟩
  exact {
    refl := a.refl
    trans := a.trans
    transL := a.transL
    reflL := a.reflL
    init := fun h hc he => ⟨⟨(p.init h hc he).1, (a.init h hc he).1⟩, (a.init h hc he).2⟩
    body := fun s hi hll => wp_tryReadOne a.refl a.transL a.sub a.reflL rx respEnd data tail hi hll
    nestedApi := by
      intro ap s ha hi
      cases ap with
      | startTx d => exact wp_startTx a.refl a.trans tx hi
      | startRx =>
        by_cases hc : s.payloadLen ≠ 0 ∧ s.rxFlag = false
        · have h1 := (p1.rx s _ True.intro True.intro hi.1 (.readData hc.1 hc.2)).1
          have h2 := a.read s ha hi.1 h1 hi.2 hc.1 hc.2
          exact wp_reading hc.1 hc.2 ⟨⟨h1, h2.1⟩, h2.2⟩
        · have hc' : s.payloadLen = 0 ∨ s.rxFlag = true := by
            by_cases h : s.payloadLen = 0
            · exact .inl h
            · exact .inr (by simpa [h] using hc)
          exact M.wp_mono (fun _ _ h => ⟨h.1, (a.nested s _ ha hi.1 hi.2 hc').2 h.2⟩)
            (wp_startRx a.refl a.transL a.sub a.reflL rx hi (a.nested s s ha hi.1 hi.2 hc').1)
    api := by
      intro ap s hi hj
      cases ap with
      | startTx d =>
        exact M.wp_mono (fun _ _ h => ⟨h.1, a.stay _ _ hi.1 hi.2 hj (a.sub _ _ (a.start _ hi.1 hi.2 hj) h.2)⟩) (wp_startTx a.refl a.trans tx hi)
      | startRx =>
        exact M.wp_mono (fun _ _ h => ⟨h.1, a.stay _ _ hi.1 hi.2 hj h.2⟩) 
          (wp_startRx a.refl a.transL a.sub a.reflL rx hi (a.start _ hi.1 hi.2 hj))
    event := by
      intro e s he hi hj
      refine wp_event a.refl a.trans tx a.sub (fun s t h => a.stay s t h.1 h.2) (fun s h => a.start s h.1 h.2) ?_ ?_ ?_ ?_ ?_ e he hi hj
      · intro s s' h hj ha hl
        have h1 := (p.top s s' True.intro True.intro h.1 True.intro ha hl).1
        have h2 := a.top s s' h.1 h1 h.2 hj ha hl
        exact ⟨⟨h1, h2.1⟩, h2.2⟩
      · intro s b h hj ho
        have h1 := (p.ready s b True.intro True.intro h.1 True.intro ho).1
        have h2 := a.ready s b h.1 h1 h.2 hj ho
        exact ⟨⟨h1, h2.1⟩, h2.2⟩
      · intro s s' h hj ho ha
        have h1 := (p.txReady s s' True.intro True.intro h.1 True.intro ho ha).1
        have h2 := a.txReady s s' h.1 h1 h.2 hj ho ha
        exact ⟨⟨h1, h2.1⟩, h2.2⟩
      · intro s b h hj ho
        have h1 := p.closing s b True.intro True.intro h.1 True.intro ho
        exact ⟨h1, a.closing s b h.1 h1 h.2 hj ho⟩
      · intro s0 b s h0 hj0 ho h hr
        have h1 := (p.closed s0 b s True.intro True.intro True.intro h0.1 True.intro ho h.1 True.intro).1
        have h2 := a.closed s0 b s h0.1 h.1 h1 h0.2 hj0 ho h.2 hr
        exact ⟨⟨h1, h2.1⟩, h2.2⟩ }

/-- An invariant preserved by all segments holds in every execution. -/
theorem Atomic.proof {c : Cfg} {E : Env} {P I J : Layer → Prop} {R L : Layer → Layer → Prop}
    (a : Atomic c E P I J R L) (p : Atomic1 c E P) : Proof c E (fun s => P s ∧ I s) J R L := (a.weak p).proof p

/-- An invariant that needs nothing else holds in every observed state. -/
theorem Atomic1.observed {c : Cfg} {E : Env} {I : Layer → Prop} (a : Atomic1 c E I) {s : Layer}
    (h : Observed c E s) : I s := ((a.proof (.trivial c E)).observed h).2

end SSP21.Crypto
