import Verif.TxState
import Verif.Handshake
/-
  `CryptoLayer`, `Initiator` and `Responder`: the state machine between the lower layer (link or raw bytes)
  and the application ("upper layer").

  Re-entrancy. The layer calls the application in the middle of its functions, and the application may call
  back into the layer from inside such a callback, to any depth. The functions of the layer are therefore
  written in a resumption monad: a `Run` either is finished or waits for the environment in one of four
  ways, and Verif/Machine.lean defines the small-step executions in which the application, the lower layer,
  the clock, the random generator and the key store do whatever they like at those points.

  Simplifications, for the whole file. Logging is left out. `buf` stands for the memory that payload
  slices point into (`payload_buffer` when the session mode decrypts, the message buffer of the layer below when
  it only authenticates); a slice is represented by its length (`payloadLen`), so that overwriting the memory
  is visible through an old slice. A received
  message is a value; the code does not use it (nor slices into it) after a call that can invalidate it. The
  data the application asks to transmit is a value: the application keeps it unchanged as ILowerLayer.h:45-46
  asks for.
-/
namespace SSP21.Crypto

/-- The notifications of `IUpperLayer`, cpp/libs/ssp21/include/ssp21/stack/IUpperLayer.h:26-84. -/
inductive UpCall
  | opened | closed | txReady | rxReady
  deriving DecidableEq, Repr

/-- What an observer sees (ghost; newest last in `Layer.log`). `established` marks the moment a handshake
installs keys in a session, `keyUsed` that a quantum key (id and key)
was taken from the key store, `rxCall` a call of `start_rx_from_upper` and `startRx` its result, `lowerOpen` /
`lowerClose` are notifications received from the layer below, `lowerReady` is a change of its readiness to
transmit. -/
inductive Obs
  | recv (message : Bytes)
  | lowerTx (frame : Bytes) (ready : Bool)
  | up (cb : UpCall)
  | established (keys : SessionKeys) (algorithms : SessionAlgorithms) (param : SessionParam)
  | startTx (data : Bytes) (accepted : Bool)
  | rxCall
  | startRx (data : Bytes)
  | keyUsed (record : UInt64 × Bytes)
  | lowerReady (ready : Bool)
  | lowerOpen
  | lowerClose

/-- What the layer does with its two sessions (ghost, in `Layer.acts`; not visible from outside). `pending` says
which of the two: the pending or the active one. `sent`: `format_session_auth` / `format_session_data` made a message
out of the first part of `clear` and left `rest`. `notSent`: `format_session_auth` failed. `dropped`:
`format_session_data` failed and the active session is reset. `checked`: the result of `validate_session_auth` /
`validate_session_data`; a session auth message that is accepted makes the pending session the active one.
`discarded`: data the application asked to transmit is forgotten because the layer below has closed. -/
inductive Act
  | sent (pending : Bool) (out : Formatted) (clear rest : Bytes)
  | notSent (pending : Bool)
  | dropped
  | checked (pending : Bool) (msg : SessionData) (result : Except Err Bytes)
  | discarded

/-- `IHandshakeState::Enum`, cpp/libs/ssp21/src/crypto/Initiator.h:30-36. -/
inductive HState
  | idle | waitForBeginReply | waitForAuthReply | waitForRetry | badConfiguration
  deriving DecidableEq, Repr

/-- What `response_and_retry_timer` (Initiator.h:119) is running for. -/
inductive TimerKind
  | response | retry
  deriving DecidableEq, Repr

/-- The mutable members of `Initiator`, cpp/libs/ssp21/src/crypto/Initiator.h:116-122. A timer that runs is
`some`; `sessTimer` holds its absolute expiration time. Assigning a new timer to a member does not cancel the
old one (exe4cpp::Timer is a handle), which would still expire: `orphans` counts such timers. -/
structure Ini where
  hs : HState
  handshake : InitiatorHandshake
  respTimer : Option TimerKind
  sessTimer : Option Int
  orphans : Nat
  required : Bool

/-- `InitiatorConfig::Params`, cpp/libs/ssp21/include/ssp21/crypto/CryptoLayerConfig.h:43-55, without the two
timeouts: a running timer may expire at any moment. -/
structure Params where
  sessionTimeTriggerMs : UInt32
  nonceTrigger : UInt16

/-- Which of the two subclasses of `CryptoLayer` the object is, with its constant members (Initiator.h:113-117,
Responder.h:26; the objects implementing `IResponderHandshake` have no mutable state). -/
inductive Role
  | initiator (params : Params) (limits : SessionLimits)
  | responder (handshake : ResponderHandshake)

/-- Constants of the object: backend, frame writer and buffer size (CryptoLayer.h:99-107,
CryptoLayerConfig.h:11-26). `viaStack`: the application uses the layer through an `IStack` made by the factory
(cpp/libs/ssp21/src/stack/LinkCryptoStack.h:13-68), not directly. -/
structure Cfg where
  backend : Backend
  caps : Caps
  fw : FrameWriter
  ttlPadMs : UInt32
  bufLen : Nat
  role : Role
  viaStack : Bool

/-- The mutable state of a `CryptoLayer` (cpp/libs/ssp21/src/crypto/CryptoLayer.h:101-111): `isOpen` is its own
`IUpperLayer::is_open_flag`, `rxFlag` the `ILowerLayer::upper_is_processing_rx_data` of the object on which the
application calls `start_rx_from_upper` (the layer itself, or the `AbstractStack` in front of it, which calls
`start_rx_from_upper_impl` and `discard_rx_data` of the layer, LinkCryptoStack.h:34-42), `upperOpen` the
`is_open_flag` of the application, `lowerReady` what `is_tx_ready()` of the layer below returns, `payload_data`
is the slice of the first `payloadLen` bytes of the buffer. `ini` is meaningless for a responder. `log`, `acts` and
`inAuth` are ghosts: what has been observed so far, what was done with the sessions (each with the number of
observations before it), and whether the callbacks of `WaitForAuthReply::on_auth_message` are active. -/
structure Layer where
  isOpen : Bool
  upperOpen : Bool
  rxFlag : Bool
  lowerReady : Bool
  active : Session
  pending : Session
  stats : Stats
  tx : TxState
  buf : Bytes
  payloadLen : Nat
  ini : Ini
  inAuth : Bool
  log : List Obs
  acts : List (Nat × Act)

/-- `payload_data`, CryptoLayer.h:108. -/
def Layer.payload (s : Layer) : Bytes := s.buf.take s.payloadLen

/-- What the environment supplies when asked: the time, random bytes, the result of `consume_key` and of
`find_and_consume_key`, and what a failed decryption or a reception leaves in the buffer. -/
structure Fresh where
  now : Int
  rnd : Bytes
  record : Option (UInt64 × Bytes)
  lookup : UInt64 → Option Bytes
  scratch : Bytes

/-- A computation of the layer, suspended at its next interaction:
`up` a callback into the application, `ask` a query to executor / random generator / key store, `recv` a call
of `lower->start_rx_from_upper()`, `loop` the loop `while (try_read_one_from_lower());`, `fault` undefined
behaviour inside the backend (see `HsFail.fault`). -/
inductive Run (α : Type) : Type
  | done (a : α) (s : Layer)
  | up (cb : UpCall) (s : Layer) (k : Layer → Run α)
  | ask (k : Fresh → Run α)
  | recv (s : Layer) (k : Bytes → Run α)
  | loop (s : Layer) (k : Layer → Run α)
  | fault

/-- Sequencing. -/
def Run.bind {α β : Type} : Run α → (α → Layer → Run β) → Run β
  | .done a s, f => f a s
  | .up cb s k, f => .up cb s (fun s' => (k s').bind f)
  | .ask k, f => .ask (fun x => (k x).bind f)
  | .recv s k, f => .recv s (fun m => (k m).bind f)
  | .loop s k, f => .loop s (fun s' => (k s').bind f)
  | .fault, _ => .fault

/-- State-passing computations. -/
def M (α : Type) : Type := Layer → Run α

instance : Monad M where
  pure a := fun s => .done a s
  bind m f := fun s => (m s).bind (fun a s' => f a s')

/-- Read the state. -/
def get : M Layer := fun s => .done s s
/-- Change the state. -/
def modify (f : Layer → Layer) : M Unit := fun s => .done () (f s)
/-- Query the environment. -/
def ask : M Fresh := fun s => .ask (fun f => .done f s)
/-- Undefined behaviour. -/
def fault {α : Type} : M α := fun _ => .fault
/-- Call `start_rx_from_upper` of the layer below. -/
def rawRecv : M Bytes := fun s => .recv s (fun m => .done m s)
/-- Append to the log. -/
def note (o : Obs) : M Unit := modify fun s => { s with log := s.log ++ [o] }
/-- Ghost: append to the acts. -/
def act (a : Act) : M Unit := modify fun s => { s with acts := s.acts ++ [(s.log.length, a)] }
/-- Change the members of the initiator. -/
def modifyIni (f : Ini → Ini) : M Unit := modify fun s => { s with ini := f s.ini }

/-- Call a function of the application. -/
def upcall (cb : UpCall) : M Unit := do
  note (.up cb)
  fun s => .up cb s (fun s' => .done () s')

/-- `upper->on_lower_open()`, IUpperLayer.h:26-35. -/
def upperOnOpen : M Unit := do
  if (← get).upperOpen then pure ()
  else
    modify fun s => { s with upperOpen := true }
    upcall .opened

/-- `upper->on_lower_close()`, IUpperLayer.h:43-52. -/
def upperOnClose : M Unit := do
  if (← get).upperOpen then
    modify fun s => { s with upperOpen := false }
    upcall .closed
  else pure ()

/-- `upper->on_lower_tx_ready()`, IUpperLayer.h:60-68. -/
def upperOnTxReady : M Unit := do
  if (← get).upperOpen then upcall .txReady else pure ()

/-- `upper->on_lower_rx_ready()`, IUpperLayer.h:76-84. -/
def upperOnRxReady : M Unit := do
  if (← get).upperOpen then upcall .rxReady else pure ()

/-- `lower->start_tx_from_upper(frame)`: succeeds if and only if the lower layer is ready
(cpp/libs/ssp21/include/ssp21/stack/ILowerLayer.h:22-38); completion is reported later. -/
def lowerStartTx (frame : Bytes) : M Bool := do
  let ready := (← get).lowerReady
  note (.lowerTx frame ready)
  modify fun s => { s with lowerReady := false }
  pure ready

/-- `lower->start_rx_from_upper()`, ILowerLayer.h:40-63. The memory a payload slice points into may be
overwritten by this call: with the MAC session modes the slice points into the received message
(MacAdapters.h:82-83), which belongs to the layer below. -/
def lowerStartRx : M Bytes := do
  let m ← rawRecv
  let f ← ask
  modify fun s => { s with buf := f.scratch }
  if m = [] then pure m
  else
    note (.recv m)
    pure m

/-- `executor->get_time()`. -/
def getTime : M Int := do pure (← ask).now

/-! ### Initiator: timers and requests -/

/-- `start_response_timer` and `start_retry_timer`, cpp/libs/ssp21/src/crypto/Initiator.cpp:69-86. -/
def startTimer (kind : TimerKind) : M Unit := modifyIni fun i =>
  { i with orphans := if i.respTimer.isSome then i.orphans + 1 else i.orphans, respTimer := some kind }

/-- `start_session_timer`, Initiator.cpp:88-95. -/
def startSessionTimer (at_ : Int) : M Unit := modifyIni fun i =>
  { i with orphans := if i.sessTimer.isSome then i.orphans + 1 else i.orphans, sessTimer := some at_ }

/-- `response_and_retry_timer.cancel()`. -/
def cancelTimer : M Unit := modifyIni fun i => { i with respTimer := none }
/-- `session_timeout_timer.cancel()`. -/
def cancelSessionTimer : M Unit := modifyIni fun i => { i with sessTimer := none }
/-- `handshake_state = ...`. -/
def setState (h : HState) : M Unit := modifyIni fun i => { i with hs := h }

/-- Ghost: record that a quantum key was taken from the key store. -/
def noteKey : Option (UInt64 × Bytes) → M Unit
  | some id => note (.keyUsed id)
  | none => pure ()

/-- `Idle::on_handshake_required`, cpp/libs/ssp21/src/crypto/InitiatorHandshakeStates.cpp:14-61: the next
state. (`finalize_request_tx` is given the written message.) -/
def idleOnHandshakeRequired (c : Cfg) (limits : SessionLimits) (now : Int) : M HState := do
  if !(← get).lowerReady then
    modifyIni fun i => { i with required := true }
    pure .idle
  else
    let f ← ask
    let used := (← get).ini.handshake.usedRecord f.record
    let (h, r) := (← get).ini.handshake.initializeNew c.backend f.rnd f.record
    modifyIni fun i => { i with handshake := h }
    noteKey used
    match r with
    | none =>
      startTimer .retry
      pure .waitForRetry
    | some (ephemeral, data) =>
      match (h.buildRequest limits ephemeral data).write c.fw.maxPayload.toNat with
      | .error _ => pure .badConfiguration
      | .ok written =>
        modifyIni fun i => { i with handshake := h.finalizeRequestTx written now }
        let _ ← lowerStartTx (c.fw.wrap written)
        startTimer .response
        pure .waitForBeginReply

/-- `Initiator::on_handshake_required`, Initiator.cpp:97-100; the states other than `Idle` inherit
Initiator.h:44-48. -/
def onHandshakeRequired (c : Cfg) (limits : SessionLimits) : M Unit := do
  let now ← getTime
  let st := (← get).ini.hs
  match st with
  | .idle =>
    let h ← idleOnHandshakeRequired c limits now
    setState h
  | st =>
    modifyIni fun i => { i with required := true }
    setState st

/-! ### Virtual functions of `CryptoLayer` that do not call the application -/

/-- `supports`, Initiator.cpp:115-125, Responder.cpp:42-51. -/
def supports (c : Cfg) (f : Function) : Bool :=
  match c.role, f with
  | .initiator _ _, .reply_handshake_begin => true
  | .initiator _ _, .reply_handshake_error => true
  | .initiator _ _, .session_data => true
  | .responder _, .request_handshake_begin => true
  | .responder _, .session_data => true
  | _, _ => false

/-- `on_session_nonce_change`, Initiator.cpp:127-133; nothing for the responder (CryptoLayer.h:80). -/
def onSessionNonceChange (c : Cfg) (rxNonce txNonce : UInt16) : M Unit :=
  match c.role with
  | .initiator params limits =>
    if max txNonce rxNonce ≥ params.nonceTrigger then do
      cancelSessionTimer
      onHandshakeRequired c limits
    else pure ()
  | .responder _ => pure ()

/-- `on_pre_tx_ready`, Initiator.cpp:135-140; nothing for the responder (CryptoLayer.h:77). -/
def onPreTxReady (c : Cfg) : M Unit :=
  match c.role with
  | .initiator _ limits => do
    if (← get).ini.required then onHandshakeRequired c limits else pure ()
  | .responder _ => pure ()

/-- `reset_state_on_close_from_lower`, Initiator.cpp:107-113, Responder.cpp:37-40. -/
def resetStateOnClose (c : Cfg) : M Unit :=
  match c.role with
  | .initiator _ _ => modifyIni fun i =>
      { i with hs := .idle, respTimer := none, sessTimer := none, required := false }
  | .responder _ => modify fun s => { s with active := s.active.reset, pending := s.pending.reset }

/-- `Responder::reply_with_handshake_error`, Responder.cpp:26-35. -/
def replyWithHandshakeError (c : Cfg) (e : HandshakeError) : M Unit :=
  match c.fw.write (ReplyHandshakeError.write ⟨protocolVersion, e⟩) with
  | .error _ => pure ()
  | .ok frame => do
    let _ ← lowerStartTx frame
    pure ()

/-- `on_parse_error`, Responder.cpp:53-62; nothing for the initiator (CryptoLayer.h:74). -/
def onParseError (c : Cfg) (f : Function) : M Unit :=
  match c.role, f with
  | .responder _, .request_handshake_begin => replyWithHandshakeError c .bad_message_format
  | _, _ => pure ()

/-! ### Sessions -/

/-- The effect of a validation on the payload buffer: the plain text is at its start if there is one; after a
failure its contents are arbitrary. -/
def bufferAfter (old scratch : Bytes) : Except Err Bytes → Bytes
  | .ok p => p ++ old.drop p.length
  | .error _ => scratch

/-- `sessions.pending->validate_session_auth(msg, now, payload_buffer, ec)`. -/
def validatePendingAuth (c : Cfg) (msg : SessionData) (now : Int) : M (Except Err Bytes) := do
  let f ← ask
  let s ← get
  let r := s.pending.validateAuth s.stats msg now c.bufLen
  modify fun s => { s with pending := r.1, stats := r.2.1, buf := bufferAfter s.buf f.scratch r.2.2 }
  act (.checked true msg r.2.2)
  pure r.2.2

/-- `sessions.active->validate_session_data(msg, now, payload_buffer, ec)`. -/
def validateActiveData (c : Cfg) (msg : SessionData) (now : Int) : M (Except Err Bytes) := do
  let f ← ask
  let s ← get
  let r := s.active.validateData s.stats msg now c.bufLen
  modify fun s => { s with active := r.1, stats := r.2.1, buf := bufferAfter s.buf f.scratch r.2.2 }
  act (.checked false msg r.2.2)
  pure r.2.2

/-- `Sessions::activate_pending`, cpp/libs/ssp21/src/crypto/Sessions.cpp:21-25. -/
def activatePending : M Unit := modify fun s => { s with active := s.pending, pending := s.active.reset }

/-- `Sessions::reset_both`, Sessions.cpp:11-19. -/
def resetBoth : M Unit := modify fun s => { s with active := s.active.reset, pending := s.pending.reset }

/-- `CryptoLayer::transmit_session_auth` on the pending session (initiator) or on the active session
(responder), CryptoLayer.cpp:214-234. -/
def transmitSessionAuth (onPending : Bool) : M Bool := do
  let now ← getTime
  let s ← get
  let remainder := s.tx.remainder
  let r := (if onPending then s.pending else s.active).formatAuth now remainder
  modify fun s => if onPending then { s with pending := r.1 } else { s with active := r.1 }
  match r.2.2 with
  | .error _ =>
    act (.notSent onPending)
    pure false
  | .ok frame =>
    act (.sent onPending frame remainder r.2.1)
    if remainder ≠ [] then modify fun s => { s with tx := s.tx.beginTransmit r.2.1 } else pure ()
    lowerStartTx frame.frame

/-- `can_transmit_session_data`, CryptoLayer.h:122-131. -/
def canTransmit (s : Layer) : Bool := s.active.valid && s.lowerReady && s.tx.isReadyTx

/-- `CryptoLayer::check_transmit`, CryptoLayer.cpp:186-212. -/
def checkTransmit (c : Cfg) : M Unit := do
  if !canTransmit (← get) then pure ()
  else
    let now ← getTime
    let s ← get
    let r := s.active.formatData now s.tx.remainder
    modify fun s => { s with active := r.1 }
    match r.2.2 with
    | .error _ =>
      modify fun s => { s with active := s.active.reset }
      act .dropped
      upperOnClose
    | .ok frame =>
      act (.sent false frame s.tx.remainder r.2.1)
      modify fun s => { s with tx := s.tx.beginTransmit r.2.1 }
      let _ ← lowerStartTx frame.frame
      let s ← get
      onSessionNonceChange c s.active.rxNonce s.active.txNonce

/-! ### Messages -/

/-- Ghost: record that a handshake has put keys into the pending session. -/
def noteEstablished (before : Nat) : M Unit := do
  let s ← get
  if s.stats.numInit ≠ before then note (.established s.pending.keys s.pending.algorithms s.pending.param)
  else pure ()

/-- `Initiator::on_message(ReplyHandshakeBegin)`, Initiator.cpp:142-145 with
`WaitForBeginReply::on_reply_message`, InitiatorHandshakeStates.cpp:65-82; the other states ignore the message
(Initiator.cpp:34-38). -/
def onReplyBegin (c : Cfg) (limits : SessionLimits) (msg : ReplyHandshakeBegin) (raw : Bytes) (now : Int) :
    M Unit := do
  match (← get).ini.hs with
  | .waitForBeginReply =>
    cancelTimer
    let s ← get
    let r := s.ini.handshake.initializeSession c.backend c.caps msg raw limits now s.pending s.stats
    match r.2.2.2 with
    | .fault => fault
    | .refused =>
      modify fun s => { s with ini := { s.ini with handshake := r.1 }, pending := r.2.1, stats := r.2.2.1 }
      startTimer .retry
      setState .waitForRetry
    | .ok =>
      modify fun s => { s with ini := { s.ini with handshake := r.1 }, pending := r.2.1, stats := r.2.2.1 }
      noteEstablished s.stats.numInit
      if !(← transmitSessionAuth true) then
        startTimer .retry
        setState .waitForRetry
      else
        startTimer .response
        setState .waitForAuthReply
  | st => setState st

/-- `Initiator::on_message(ReplyHandshakeError)`, Initiator.cpp:147-150, with
InitiatorHandshakeStates.cpp:84-90 and 135-141; the other states ignore the message (Initiator.cpp:40-44). -/
def onReplyError : M Unit := do
  match (← get).ini.hs with
  | .waitForBeginReply | .waitForAuthReply =>
    cancelTimer
    startTimer .retry
    setState .waitForRetry
  | st => setState st

/-- `Initiator::on_auth_session`, Initiator.cpp:152-155 with `WaitForAuthReply::on_auth_message`,
InitiatorHandshakeStates.cpp:101-133; the other states ignore the message (Initiator.cpp:46-50). The local
variable `payload` is a slice: its length is kept, its contents are those of the buffer when it is used. -/
def initiatorOnAuth (c : Cfg) (params : Params) (msg : SessionData) (now : Int) : M Unit := do
  match (← get).ini.hs with
  | .waitForAuthReply =>
    cancelTimer
    match ← validatePendingAuth c msg now with
    | .error _ =>
      startTimer .retry
      setState .waitForRetry
    | .ok payload =>
      activatePending
      modifyIni fun i => { i with required := false }
      startSessionTimer ((← get).active.param.sessionStart + ms params.sessionTimeTriggerMs)
      modify fun s => { s with inAuth := true }
      upperOnOpen
      if payload.length ≠ 0 then
        modify fun s => { s with payloadLen := payload.length }
        upperOnRxReady
      modify fun s => { s with inAuth := false }
      setState .idle
  | st => setState st

/-- `Responder::on_auth_session`, Responder.cpp:83-111. -/
def responderOnAuth (c : Cfg) (msg : SessionData) (now : Int) : M Unit := do
  if !(← get).pending.valid then replyWithHandshakeError c .no_prior_handshake_begin
  else
    match ← validatePendingAuth c msg now with
    | .error _ => pure ()
    | .ok payload =>
      activatePending
      if !(← transmitSessionAuth false) then pure ()
      else
        upperOnOpen
        if payload.length ≠ 0 then
          modify fun s => { s with payloadLen := payload.length }
          upperOnRxReady

/-- `Responder::on_message(RequestHandshakeBegin)`, Responder.cpp:64-81 (the major version of the protocol is
0, Constants.h:13). -/
def onRequestBegin (c : Cfg) (h : ResponderHandshake) (msg : RequestHandshakeBegin) (raw : Bytes) (now : Int) :
    M Unit := do
  if msg.version.major_version ≠ 0 then replyWithHandshakeError c .unsupported_version
  else
    let f ← ask
    let s ← get
    let r := h.process c.backend c.caps f.lookup f.rnd msg raw now c.fw s.pending s.stats
    match r.2.2.2 with
    | .error .fault => fault
    | .error (.err e) =>
      modify fun s => { s with pending := r.1, stats := r.2.1 }
      match r.2.2.1 with
      | some id => note (.keyUsed id)
      | none => pure ()
      replyWithHandshakeError c e
    | .ok frame =>
      modify fun s => { s with pending := r.1, stats := r.2.1 }
      match r.2.2.1 with
      | some id => note (.keyUsed id)
      | none => pure ()
      noteEstablished s.stats.numInit
      let _ ← lowerStartTx frame
      pure ()

/-- `CryptoLayer::on_session_data`, CryptoLayer.cpp:246-261. -/
def onSessionData (c : Cfg) (msg : SessionData) (now : Int) : M Unit := do
  match ← validateActiveData c msg now with
  | .error _ => pure ()
  | .ok payload =>
    modify fun s => { s with payloadLen := payload.length }
    let s ← get
    onSessionNonceChange c s.active.rxNonce s.active.txNonce
    upperOnRxReady

/-- `CryptoLayer::on_message(SessionData)`, CryptoLayer.cpp:236-244. -/
def onSessionMessage (c : Cfg) (msg : SessionData) (now : Int) : M Unit :=
  if msg.metadata.nonce = 0 then
    match c.role with
    | .initiator params _ => initiatorOnAuth c params msg now
    | .responder _ => responderOnAuth c msg now
  else onSessionData c msg now

/-- `CryptoLayer::process` and `handle_message`, CryptoLayer.cpp:151-184 and 63-84. The virtual functions for
messages that the subclass does not support are never called. -/
def process (c : Cfg) (message : Bytes) : M Unit := do
  let now ← getTime
  match message with
  | [] => pure ()
  | raw :: _ =>
    let function := Function.fromType raw
    if !supports c function then pure ()
    else match function with
    | .request_handshake_begin =>
      match RequestHandshakeBegin.read message with
      | .error _ => onParseError c function
      | .ok msg =>
        match c.role with
        | .responder h => onRequestBegin c h msg message now
        | .initiator _ _ => pure ()
    | .reply_handshake_begin =>
      match ReplyHandshakeBegin.read message with
      | .error _ => onParseError c function
      | .ok msg =>
        match c.role with
        | .initiator _ limits => onReplyBegin c limits msg message now
        | .responder _ => pure ()
    | .reply_handshake_error =>
      match ReplyHandshakeError.read message with
      | .error _ => onParseError c function
      | .ok _ =>
        match c.role with
        | .initiator _ _ => onReplyError
        | .responder _ => pure ()
    | .session_data =>
      match SessionData.read message with
      | .error _ => onParseError c function
      | .ok msg => onSessionMessage c msg now
    | .undefined => pure ()

/-- `CryptoLayer::try_read_one_from_lower`, CryptoLayer.cpp:130-149: whether to go on. -/
def tryReadOne (c : Cfg) : M Bool := do
  let s ← get
  if !s.lowerReady || s.payloadLen ≠ 0 then pure false
  else
    let m ← lowerStartRx
    if m = [] then pure false
    else
      process c m
      pure true

/-- `CryptoLayer::try_read_from_lower`, CryptoLayer.cpp:124-128. -/
def tryRead : M Unit := fun s => .loop s (fun s' => .done () s')

/-! ### Entry points -/

/-- `CryptoLayer::is_tx_ready`, CryptoLayer.cpp:52-61. -/
def isTxReady (s : Layer) : Bool := s.isOpen && s.upperOpen && s.tx.isIdle

/-- `CryptoLayer::start_tx_from_upper`, CryptoLayer.cpp:31-40. -/
def startTx (c : Cfg) (data : Bytes) : M Unit := do
  let ready := isTxReady (← get)
  note (.startTx data ready)
  if ready then
    modify fun s => { s with tx := s.tx.initialize data }
    checkTransmit c
  else pure ()

/-- `ILowerLayer::start_rx_from_upper`, ILowerLayer.h:49-63, with `discard_rx_data` and
`start_rx_from_upper_impl`, CryptoLayer.cpp:26-29 and 42-50. -/
def startRx : M Unit := do
  note .rxCall
  if (← get).rxFlag then modify fun s => { s with payloadLen := 0, rxFlag := false } else pure ()
  let s ← get
  if s.payloadLen = 0 then
    tryRead
    note (.startRx [])
  else
    note (.startRx s.payload)
    modify fun s => { s with rxFlag := true }

/-- `IUpperLayer::on_lower_open` of the layer, IUpperLayer.h:26-35, with `Initiator::on_lower_open_impl`,
Initiator.cpp:102-105, and `Responder::on_lower_open_impl`, Responder.h:30. -/
def onLowerOpen (c : Cfg) : M Unit := do
  if (← get).isOpen then pure ()
  else
    modify fun s => { s with isOpen := true }
    note .lowerOpen
    match c.role with
    | .initiator _ limits => onHandshakeRequired c limits
    | .responder _ => pure ()

/-- `on_lower_close` of the layer, IUpperLayer.h:43-52 and CryptoLayer.cpp:86-96. `reset_this_lower_layer` resets
the flag of the layer itself; the flag of an `AbstractStack` keeps its value (LinkCryptoStack.h:50-53). -/
def onLowerClose (c : Cfg) : M Unit := do
  if (← get).isOpen then
    modify fun s => { s with isOpen := false }
    note .lowerClose
    resetStateOnClose c
    resetBoth
    modify fun s => { s with payloadLen := 0 }
    upperOnClose
    modify fun s => { s with tx := s.tx.reset }
    act .discarded
    modify fun s => { s with rxFlag := c.viaStack && s.rxFlag }
  else pure ()

/-- `on_lower_rx_ready` of the layer, IUpperLayer.h:76-84 and CryptoLayer.cpp:98-101. -/
def onLowerRxReady : M Unit := do
  if (← get).isOpen then tryRead else pure ()

/-- `on_lower_tx_ready` of the layer, IUpperLayer.h:60-68 and CryptoLayer.cpp:103-122. -/
def onLowerTxReady (c : Cfg) : M Unit := do
  if (← get).isOpen then
    let r := (← get).tx.onTxComplete
    modify fun s => { s with tx := r.1 }
    onPreTxReady c
    if r.2 then upperOnTxReady else pure ()
    tryRead
    checkTransmit c
  else pure ()

/-- The response timer expires: Initiator.cpp:69-76 with InitiatorHandshakeStates.cpp:92-97 and 143-148; the
other states ignore it (Initiator.cpp:52-56). -/
def onResponseTimeout : M Unit := do
  match (← get).ini.hs with
  | .waitForBeginReply | .waitForAuthReply =>
    startTimer .retry
    setState .waitForRetry
  | st => setState st

/-- The retry timer expires: Initiator.cpp:78-86 with InitiatorHandshakeStates.cpp:152-155; the other states
ignore it (Initiator.cpp:58-62). -/
def onRetryTimeout (c : Cfg) (limits : SessionLimits) : M Unit := do
  match (← get).ini.hs with
  | .waitForRetry => setState .idle
  | st => setState st
  onHandshakeRequired c limits

/-- A timer of the initiator expires; the responder has none. A timer that no member refers to any more
(`orphans`) may also expire: Initiator.cpp:69-95. -/
inductive Expiry
  | response | retry | session | orphanResponse | orphanRetry | orphanSession
  deriving DecidableEq, Repr

/-- The expiry of a timer: it is no longer running when its action is executed. -/
def onExpiry (c : Cfg) (e : Expiry) : M Unit :=
  match c.role with
  | .responder _ => pure ()
  | .initiator _ limits =>
    match e with
    | .response => do
      modifyIni fun i => { i with respTimer := none }
      onResponseTimeout
    | .retry => do
      modifyIni fun i => { i with respTimer := none }
      onRetryTimeout c limits
    | .session => do
      modifyIni fun i => { i with sessTimer := none }
      onHandshakeRequired c limits
    | .orphanResponse => do
      modifyIni fun i => { i with orphans := i.orphans - 1 }
      onResponseTimeout
    | .orphanRetry => do
      modifyIni fun i => { i with orphans := i.orphans - 1 }
      onRetryTimeout c limits
    | .orphanSession => do
      modifyIni fun i => { i with orphans := i.orphans - 1 }
      onHandshakeRequired c limits

/-- The constructors: CryptoLayer.cpp:11-24, Initiator.cpp:13-32, Responder.cpp:10-24, Sessions.cpp:4-9. -/
def Layer.new (c : Cfg) (handshake : InitiatorHandshake) : Layer where
  isOpen := false
  upperOpen := false
  rxFlag := false
  lowerReady := false
  active := .new c.backend c.fw c.ttlPadMs
  pending := .new c.backend c.fw c.ttlPadMs
  stats := {}
  tx := {}
  buf := []
  payloadLen := 0
  ini := ⟨.idle, handshake, none, none, 0, false⟩
  inAuth := false
  log := []
  acts := []

end SSP21.Crypto
