import Verif.Segments
import Verif.Machine
/-
  No code: what the layer records as quantum keys taken from the key store (`keyUsed`) is what the key store has answered,
  at most one key per query.
-/
namespace SSP21.Crypto

/-- The quantum keys (id and key) that the layer has taken from the key store. -/
def keysTaken (log : List Obs) : List (UInt64 × Bytes) := log.filterMap fun o => match o with | .keyUsed r => some r | _ => none

theorem keysTaken_append (a b : List Obs) : keysTaken (a ++ b) = keysTaken a ++ keysTaken b := by
  simp [keysTaken, List.filterMap_append]

/-- What can be taken from an answer of the key store. -/
def Fresh.Gives (f : Fresh) (l : List (UInt64 × Bytes)) : Prop :=
  l = [] ∨ (∃ r, f.record = some r ∧ l = [r]) ∨ ∃ id key, f.lookup id = some key ∧ l = [(id, key)]

/-- The computation goes on from a state in which `base` has been taken, and each answer of the key store is taken at
most once. -/
def Run.keyed {α : Type} (base : List (UInt64 × Bytes)) : Run α → Prop
  | .done _ s => keysTaken s.log = base
  | .up _ s k => keysTaken s.log = base ∧ ∀ s', (k s').keyed (keysTaken s'.log)
  | .ask k => ∀ f, ∃ l, f.Gives l ∧ (k f).keyed (base ++ l)
  | .recv s k => keysTaken s.log = base ∧ ∀ m, (k m).keyed base
  | .loop s k => keysTaken s.log = base ∧ ∀ s', (k s').keyed (keysTaken s'.log)
  | .fault => True

theorem Run.keyed_bind {α β : Type} {base : List (UInt64 × Bytes)} {r : Run α} {f : α → Layer → Run β} (hr : r.keyed base)
    (hf : ∀ a t, (f a t).keyed (keysTaken t.log)) : (r.bind f).keyed base := by
  induction r generalizing base with
  | done a u =>
    have hr : keysTaken u.log = base := hr
    rw [← hr]
    exact hf a u
  | up cb u k ih => exact ⟨hr.1, fun s' => ih s' (hr.2 s')⟩
  | ask k ih =>
    intro x
    obtain ⟨l, h1, h2⟩ := hr x
    exact ⟨l, h1, ih x h2⟩
  | recv u k ih => exact ⟨hr.1, fun m => ih m (hr.2 m)⟩
  | loop u k ih => exact ⟨hr.1, fun s' => ih s' (hr.2 s')⟩
  | fault => trivial

/-- The same for a function of the layer. -/
def M.Keyed {α : Type} (m : M α) : Prop := ∀ s, (m s).keyed (keysTaken s.log)

namespace Keyed
variable {α β : Type}

theorem bind {m : M α} {f : α → M β} (hm : m.Keyed) (hf : ∀ a, (f a).Keyed) : (m >>= f).Keyed :=
  fun s => Run.keyed_bind (hm s) fun a t => hf a t

theorem pure (a : α) : (Pure.pure a : M α).Keyed := fun _ => rfl
theorem get : Crypto.get.Keyed := fun _ => rfl
theorem ask : Crypto.ask.Keyed := fun s _ => ⟨[], .inl rfl, by simp [Run.keyed]⟩
theorem fault : (Crypto.fault : M α).Keyed := fun _ => trivial
theorem rawRecv : Crypto.rawRecv.Keyed := fun _ => ⟨rfl, fun _ => rfl⟩
theorem note {o : Obs} (h : ∀ r, o ≠ .keyUsed r) : (Crypto.note o).Keyed := by
  intro s
  show keysTaken (s.log ++ [o]) = keysTaken s.log
  rw [keysTaken_append]
  cases o <;> simp [keysTaken]
  rename_i r
  exact h r rfl
theorem modify {f : Layer → Layer} (h : ∀ s, (f s).log = s.log) : (Crypto.modify f).Keyed := fun s => by
  show keysTaken (f s).log = keysTaken s.log
  rw [h]
theorem act (a : Act) : (Crypto.act a).Keyed := fun _ => rfl
theorem modifyIni (f : Ini → Ini) : (Crypto.modifyIni f).Keyed := fun _ => rfl
theorem upcall (cb : UpCall) : (Crypto.upcall cb).Keyed := by
  intro s
  refine ⟨?_, fun s' => rfl⟩
  show keysTaken (s.log ++ [.up cb]) = keysTaken s.log
  rw [keysTaken_append]
  simp [keysTaken]
theorem tryRead : Crypto.tryRead.Keyed := fun _ => ⟨rfl, fun _ => rfl⟩
theorem ite {p : Prop} [Decidable p] {a b : M α} (ha : a.Keyed) (hb : b.Keyed) : (if p then a else b).Keyed := by
  split
  · exact ha
  · exact hb

end Keyed

/-- A step of the proof that a function takes no key, or takes keys by functions for which this has been proved. -/
macro "keyed_step" : tactic => `(tactic| first
  | with_reducible exact Keyed.pure _
  | with_reducible exact Keyed.get
  | with_reducible exact Keyed.ask
  | with_reducible exact Keyed.fault
  | with_reducible exact Keyed.rawRecv
  | (with_reducible refine Keyed.note ?_) <;> (intro _ h; cases h)
  | with_reducible exact Keyed.act _
  | with_reducible exact Keyed.modifyIni _
  | with_reducible exact Keyed.upcall _
  | with_reducible exact Keyed.tryRead
  | with_reducible refine Keyed.bind ?_ (fun _ => ?_)
  | with_reducible refine Keyed.ite ?_ ?_
  | (with_reducible refine Keyed.modify ?_) <;> (intro _; first | rfl | (split <;> rfl))
  | assumption
  | dsimp only)

namespace Keyed

theorem upperOnOpen : Crypto.upperOnOpen.Keyed := by unfold Crypto.upperOnOpen; repeat keyed_step
theorem upperOnClose : Crypto.upperOnClose.Keyed := by unfold Crypto.upperOnClose; repeat keyed_step
theorem upperOnTxReady : Crypto.upperOnTxReady.Keyed := by unfold Crypto.upperOnTxReady; repeat keyed_step
theorem upperOnRxReady : Crypto.upperOnRxReady.Keyed := by unfold Crypto.upperOnRxReady; repeat keyed_step
theorem lowerStartTx (f : Bytes) : (Crypto.lowerStartTx f).Keyed := by unfold Crypto.lowerStartTx; repeat keyed_step
theorem lowerStartRx : Crypto.lowerStartRx.Keyed := by unfold Crypto.lowerStartRx; repeat keyed_step
theorem getTime : Crypto.getTime.Keyed := by unfold Crypto.getTime; repeat keyed_step
theorem startTimer (k : TimerKind) : (Crypto.startTimer k).Keyed := Keyed.modifyIni _
theorem startSessionTimer (t : Int) : (Crypto.startSessionTimer t).Keyed := Keyed.modifyIni _
theorem cancelTimer : Crypto.cancelTimer.Keyed := Keyed.modifyIni _
theorem cancelSessionTimer : Crypto.cancelSessionTimer.Keyed := Keyed.modifyIni _
theorem setState (h : HState) : (Crypto.setState h).Keyed := Keyed.modifyIni _

theorem keysTaken_snoc (l : List Obs) (r : UInt64 × Bytes) : keysTaken (l ++ [.keyUsed r]) = keysTaken l ++ [r] := by
  rw [keysTaken_append]
  rfl

/-- A function that takes `u`. -/
def Owes (u : Option (UInt64 × Bytes)) (m : M α) : Prop := ∀ s, (m s).keyed (keysTaken s.log ++ u.toList)

theorem Owes.quietIni {u : Option (UInt64 × Bytes)} {f : Ini → Ini} {m : M α} (hm : Owes u m) :
    Owes u (Crypto.modifyIni f >>= fun _ => m) := fun s => hm { s with ini := f s.ini }

theorem Owes.quiet {u : Option (UInt64 × Bytes)} {f : Layer → Layer} {m : M α} (hf : ∀ s, (f s).log = s.log) (hm : Owes u m) :
    Owes u (Crypto.modify f >>= fun _ => m) := by
  intro s
  have := hm (f s)
  rw [hf] at this
  exact this

theorem Owes.pay {u : Option (UInt64 × Bytes)} {m : M α} (hm : m.Keyed) : Owes u (noteKey u >>= fun _ => m) := by
  intro s
  cases u with
  | none =>
    show Run.keyed (keysTaken s.log ++ []) (m s)
    rw [List.append_nil]
    exact hm s
  | some r =>
    have := hm { s with log := s.log ++ [.keyUsed r] }
    rw [keysTaken_snoc] at this
    exact this

theorem usedRecord_gives (h : InitiatorHandshake) (f : Fresh) : f.Gives (h.usedRecord f.record).toList := by
  unfold InitiatorHandshake.usedRecord
  split
  · cases hr : f.record with
    | none => exact .inl rfl
    | some r => exact .inr (.inl ⟨r, hr, rfl⟩)
  · exact .inl rfl

theorem idleOnHandshakeRequired (c : Cfg) (limits : SessionLimits) (now : Int) :
    (Crypto.idleOnHandshakeRequired c limits now).Keyed := by
  have h2 := startTimer
  have h3 := lowerStartTx
  unfold Crypto.idleOnHandshakeRequired
  refine bind get fun s0 => ite (bind (modifyIni _) fun _ => pure _) ?_
  intro s f
  refine ⟨_, usedRecord_gives s.ini.handshake f, ?_⟩
  dsimp only [Run.bind, Crypto.get, Bind.bind]
  generalize s.ini.handshake.initializeNew c.backend f.rnd f.record = q
  obtain ⟨h, r⟩ := q
  refine Owes.quietIni (u := s.ini.handshake.usedRecord f.record) (Owes.pay ?_) s
  repeat (first | keyed_step | exact h2 _ | exact h3 _ | split)

theorem onHandshakeRequired (c : Cfg) (limits : SessionLimits) : (Crypto.onHandshakeRequired c limits).Keyed := by
  unfold Crypto.onHandshakeRequired
  repeat (first | keyed_step | exact getTime | with_reducible apply idleOnHandshakeRequired | exact setState _ | split)
theorem process_gives (h : ResponderHandshake) (b : Backend) (caps : Caps) (f : Fresh) (rnd : Bytes) (msg : RequestHandshakeBegin)
    (raw : Bytes) (now : Int) (fw : FrameWriter) (p : SSP21.Session) (st : Stats) :
    f.Gives (h.process b caps f.lookup rnd msg raw now fw p st).2.2.1.toList := by
  unfold ResponderHandshake.process
  cases hl : f.lookup (UInt64.ofNat (beNat msg.mode_data)) <;> simp only [hl] <;> repeat' (first | split | exact .inl rfl)
  exact .inr (.inr ⟨_, _, hl, rfl⟩)
theorem noteEstablished (n : Nat) : (Crypto.noteEstablished n).Keyed := by
  unfold Crypto.noteEstablished; repeat keyed_step
theorem replyWithHandshakeError (c : Cfg) (e : HandshakeError) : (Crypto.replyWithHandshakeError c e).Keyed := by
  unfold Crypto.replyWithHandshakeError
  repeat (first | keyed_step | exact lowerStartTx _ | split)
theorem onRequestBegin (c : Cfg) (h : ResponderHandshake) (m : RequestHandshakeBegin) (raw : Bytes) (now : Int) :
    (Crypto.onRequestBegin c h m raw now).Keyed := by
  unfold Crypto.onRequestBegin
  refine ite (replyWithHandshakeError _ _) ?_
  intro s f
  have hg := process_gives h c.backend c.caps f f.rnd m raw now c.fw s.pending s.stats
  refine ⟨_, hg, ?_⟩
  dsimp only [Run.bind, Crypto.get, Bind.bind]
  generalize h.process c.backend c.caps f.lookup f.rnd m raw now c.fw s.pending s.stats = q
  obtain ⟨p, st, u, r⟩ := q
  cases r with
  | error e =>
    cases e with
    | fault => trivial
    | err e =>
      cases u with
      | none =>
        rw [show ((p, st, (none : Option (UInt64 × Bytes)), (Except.error (HsFail.err e) : Except HsFail Bytes)).2.2.1.toList) = [] from rfl, List.append_nil]
        exact replyWithHandshakeError c e { s with pending := p, stats := st }
      | some r =>
        have := replyWithHandshakeError c e { s with pending := p, stats := st, log := s.log ++ [.keyUsed r] }
        rw [keysTaken_snoc] at this
        exact this
  | ok frame =>
    have hm : (Crypto.noteEstablished s.stats.numInit >>= fun _ => Crypto.lowerStartTx frame >>= fun _ => (Pure.pure () : M Unit)).Keyed :=
      bind (noteEstablished _) fun _ => bind (lowerStartTx _) fun _ => pure _
    cases u with
    | none =>
      rw [show ((p, st, (none : Option (UInt64 × Bytes)), (Except.ok frame : Except HsFail Bytes)).2.2.1.toList) = [] from rfl, List.append_nil]
      exact hm { s with pending := p, stats := st }
    | some r =>
      have := hm { s with pending := p, stats := st, log := s.log ++ [.keyUsed r] }
      rw [keysTaken_snoc] at this
      exact this
theorem onSessionNonceChange (c : Cfg) (a b : UInt16) : (Crypto.onSessionNonceChange c a b).Keyed := by
  unfold Crypto.onSessionNonceChange
  repeat (first | keyed_step | exact cancelSessionTimer | with_reducible apply onHandshakeRequired | split)
theorem onPreTxReady (c : Cfg) : (Crypto.onPreTxReady c).Keyed := by
  unfold Crypto.onPreTxReady
  repeat (first | keyed_step | with_reducible apply onHandshakeRequired | split)
theorem resetStateOnClose (c : Cfg) : (Crypto.resetStateOnClose c).Keyed := by
  unfold Crypto.resetStateOnClose
  repeat (first | keyed_step | split)
theorem onParseError (c : Cfg) (f : Function) : (Crypto.onParseError c f).Keyed := by
  unfold Crypto.onParseError
  repeat (first | keyed_step | with_reducible apply replyWithHandshakeError | split)
theorem validatePendingAuth (c : Cfg) (m : SessionData) (now : Int) : (Crypto.validatePendingAuth c m now).Keyed := by
  unfold Crypto.validatePendingAuth
  repeat keyed_step
theorem validateActiveData (c : Cfg) (m : SessionData) (now : Int) : (Crypto.validateActiveData c m now).Keyed := by
  unfold Crypto.validateActiveData
  repeat keyed_step
theorem activatePending : Crypto.activatePending.Keyed := Keyed.modify fun _ => rfl
theorem resetBoth : Crypto.resetBoth.Keyed := Keyed.modify fun _ => rfl
theorem transmitSessionAuth (b : Bool) : (Crypto.transmitSessionAuth b).Keyed := by
  unfold Crypto.transmitSessionAuth
  repeat (first | keyed_step | exact getTime | exact lowerStartTx _ | split)
theorem checkTransmit (c : Cfg) : (Crypto.checkTransmit c).Keyed := by
  unfold Crypto.checkTransmit
  repeat (first | keyed_step | exact getTime | exact lowerStartTx _ | exact upperOnClose | with_reducible apply onSessionNonceChange | split)
theorem onReplyBegin (c : Cfg) (limits : SessionLimits) (m : ReplyHandshakeBegin) (raw : Bytes) (now : Int) :
    (Crypto.onReplyBegin c limits m raw now).Keyed := by
  unfold Crypto.onReplyBegin
  repeat (first | keyed_step | exact cancelTimer | exact startTimer _ | exact setState _ | exact noteEstablished _ |
    exact transmitSessionAuth _ | split)
theorem onReplyError : Crypto.onReplyError.Keyed := by
  unfold Crypto.onReplyError
  repeat (first | keyed_step | exact cancelTimer | exact startTimer _ | exact setState _ | split)
theorem initiatorOnAuth (c : Cfg) (p : Params) (m : SessionData) (now : Int) : (Crypto.initiatorOnAuth c p m now).Keyed := by
  unfold Crypto.initiatorOnAuth
  repeat (first | keyed_step | exact cancelTimer | exact startTimer _ | exact setState _ | with_reducible apply validatePendingAuth |
    exact activatePending | exact startSessionTimer _ | exact upperOnOpen | exact upperOnRxReady | split)
theorem responderOnAuth (c : Cfg) (m : SessionData) (now : Int) : (Crypto.responderOnAuth c m now).Keyed := by
  unfold Crypto.responderOnAuth
  repeat (first | keyed_step | with_reducible apply replyWithHandshakeError | with_reducible apply validatePendingAuth |
    exact activatePending | exact transmitSessionAuth _ | exact upperOnOpen | exact upperOnRxReady | split)
theorem onSessionData (c : Cfg) (m : SessionData) (now : Int) : (Crypto.onSessionData c m now).Keyed := by
  unfold Crypto.onSessionData
  repeat (first | keyed_step | with_reducible apply validateActiveData | with_reducible apply onSessionNonceChange | exact upperOnRxReady | split)
theorem onSessionMessage (c : Cfg) (m : SessionData) (now : Int) : (Crypto.onSessionMessage c m now).Keyed := by
  unfold Crypto.onSessionMessage
  repeat (first | keyed_step | with_reducible apply initiatorOnAuth | with_reducible apply responderOnAuth | with_reducible apply onSessionData | split)
theorem process (c : Cfg) (m : Bytes) : (Crypto.process c m).Keyed := by
  unfold Crypto.process
  repeat (first | keyed_step | exact getTime | with_reducible apply onParseError | with_reducible apply onRequestBegin | with_reducible apply onReplyBegin |
    exact onReplyError | with_reducible apply onSessionMessage | split)
theorem tryReadOne (c : Cfg) : (Crypto.tryReadOne c).Keyed := by
  unfold Crypto.tryReadOne
  repeat (first | keyed_step | exact lowerStartRx | with_reducible apply process | split)
theorem onLowerClose (c : Cfg) : (Crypto.onLowerClose c).Keyed := by
  unfold Crypto.onLowerClose
  repeat (first | keyed_step | exact resetStateOnClose c | exact resetBoth | exact upperOnClose | split)
theorem onLowerRxReady : Crypto.onLowerRxReady.Keyed := by
  unfold Crypto.onLowerRxReady
  repeat (first | keyed_step | split)
theorem onLowerTxReady (c : Cfg) : (Crypto.onLowerTxReady c).Keyed := by
  unfold Crypto.onLowerTxReady
  repeat (first | keyed_step | exact onPreTxReady c | exact upperOnTxReady | exact checkTransmit c | split)
theorem onResponseTimeout : Crypto.onResponseTimeout.Keyed := by
  unfold Crypto.onResponseTimeout
  repeat (first | keyed_step | exact startTimer _ | exact setState _ | split)
theorem onRetryTimeout (c : Cfg) (limits : SessionLimits) : (Crypto.onRetryTimeout c limits).Keyed := by
  unfold Crypto.onRetryTimeout
  repeat (first | keyed_step | exact setState _ | with_reducible apply onHandshakeRequired | split)
theorem onExpiry (c : Cfg) (e : Expiry) : (Crypto.onExpiry c e).Keyed := by
  unfold Crypto.onExpiry
  repeat (first | keyed_step | exact onResponseTimeout | with_reducible apply onRetryTimeout | with_reducible apply onHandshakeRequired | split)

theorem startTx (c : Cfg) (d : Bytes) : (Crypto.startTx c d).Keyed := by
  unfold Crypto.startTx
  repeat (first | keyed_step | exact checkTransmit c)
theorem startRx : Crypto.startRx.Keyed := by
  unfold Crypto.startRx
  repeat keyed_step
theorem onLowerOpen (c : Cfg) : (Crypto.onLowerOpen c).Keyed := by
  unfold Crypto.onLowerOpen
  repeat (first | keyed_step | with_reducible apply onHandshakeRequired | split)
theorem api (c : Cfg) (a : Api) : (a.run c).Keyed := by
  cases a with
  | startTx d => exact startTx c d
  | startRx => exact startRx
theorem event (c : Cfg) (e : Event) : (e.run c).Keyed := by
  cases e <;> simp only [Event.run] <;>
    repeat (first | keyed_step | exact onLowerOpen c | exact onLowerClose c | exact onLowerTxReady c | exact onLowerRxReady | exact onExpiry c _)

end Keyed

/-- A configuration of an execution in which `base` has been taken from the key store. -/
structure Config.Keyed (base : List (UInt64 × Bytes)) (x : Config) : Prop where
  ctl : match x.ctl with | .env s => keysTaken s.log = base | .code r => r.keyed base
  stack : ∀ k ∈ x.stack, ∀ s, (k s).keyed (keysTaken s.log)

/-- A step takes at most one of the answers it was given. -/
theorem Config.Keyed.step {c : Cfg} {E : Env} {x y : Config} {base : List (UInt64 × Bytes)} (h : x.Keyed base) (hs : Step c E x y) :
    (y.Keyed base ∧ ∀ k st, x ≠ ⟨.code (.ask k), st⟩) ∨
      ∃ k st f l, x = ⟨.code (.ask k), st⟩ ∧ y = ⟨.code (k f), st⟩ ∧ f.Gives l ∧ y.Keyed (base ++ l) := by
  obtain ⟨h1, h2⟩ := h
  cases hs with
  | event e s _ =>
    have h1 : keysTaken s.log = base := h1
    exact .inl ⟨⟨h1 ▸ Keyed.event c e s, h2⟩, by rintro _ _ ⟨⟩⟩
  | api a s =>
    have h1 : keysTaken s.log = base := h1
    exact .inl ⟨⟨h1 ▸ Keyed.api c a s, h2⟩, by rintro _ _ ⟨⟩⟩
  | nestedApi a s k st _ =>
    have h1 : keysTaken s.log = base := h1
    exact .inl ⟨⟨h1 ▸ Keyed.api c a s, h2⟩, by rintro _ _ ⟨⟩⟩
  | ret s k st =>
    have h1 : keysTaken s.log = base := h1
    exact .inl ⟨⟨h1 ▸ h2 k (by simp) s, fun k' hk => h2 k' (by simp at hk ⊢; exact .inr hk)⟩, by rintro _ _ ⟨⟩⟩
  | done s st => exact .inl ⟨⟨h1, h2⟩, by rintro _ _ ⟨⟩⟩
  | up cb s k st =>
    refine .inl ⟨⟨h1.1, fun k' hk => ?_⟩, by rintro _ _ ⟨⟩⟩
    rcases List.mem_cons.mp hk with rfl | hk
    · exact h1.2
    · exact h2 k' hk
  | ask f k st _ =>
    obtain ⟨l, hg, hk⟩ := h1 f
    exact .inr ⟨k, st, f, l, rfl, rfl, hg, hk, h2⟩
  | recv m s k st _ => exact .inl ⟨⟨h1.2 m, h2⟩, by rintro _ _ ⟨⟩⟩
  | loop s k st =>
    refine .inl ⟨⟨?_, h2⟩, by rintro _ _ ⟨⟩⟩
    have h1' : keysTaken s.log = base := h1.1
    show Run.keyed base _
    rw [← h1']
    refine Run.keyed_bind (Keyed.tryReadOne c s) fun a t => ?_
    cases a with
    | true => exact ⟨rfl, h1.2⟩
    | false => exact h1.2 t

end SSP21.Crypto
