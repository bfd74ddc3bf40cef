import Verif.CryptoLayer
/-
  What the functions of the layer append to the log between two transfers of control. Every function of the layer but
  `start_rx_from_upper` and `start_tx_from_upper` appends observations of the layer's own activity only, and each
  callback is recorded right before it is made.
-/
namespace SSP21.Crypto

/-- The log has grown by observations that satisfy `N`. -/
def Ext (N : Obs → Prop) (s t : Layer) : Prop := ∃ extra, t.log = s.log ++ extra ∧ ∀ o ∈ extra, N o

theorem Ext.refl {N : Obs → Prop} (s : Layer) : Ext N s s := ⟨[], by simp, by simp⟩

theorem Ext.of_eq {N : Obs → Prop} {s t : Layer} (h : t.log = s.log) : Ext N s t := ⟨[], by simp [h], by simp⟩

theorem Ext.trans {N : Obs → Prop} {s t u : Layer} (h : Ext N s t) (h' : Ext N t u) : Ext N s u := by
  obtain ⟨x, h1, h2⟩ := h
  obtain ⟨y, h3, h4⟩ := h'
  refine ⟨x ++ y, by rw [h3, h1, List.append_assoc], fun o ho => ?_⟩
  rcases List.mem_append.1 ho with ho | ho
  · exact h2 o ho
  · exact h4 o ho

/-- Between two transfers of control, beginning in the state `s0`, the log grows by observations that satisfy `N`; if
control is transferred by a callback, this is recorded at the end of the log. -/
def Run.seg {α : Type} (N : Obs → Prop) : Run α → Layer → Prop
  | .done _ s, s0 => Ext N s0 s
  | .up cb s k, s0 => (∃ extra, s.log = s0.log ++ extra ++ [.up cb] ∧ ∀ o ∈ extra, N o) ∧ ∀ s', (k s').seg N s'
  | .ask k, s0 => ∀ f, (k f).seg N s0
  | .recv s k, s0 => Ext N s0 s ∧ ∀ m, (k m).seg N s
  | .loop s k, s0 => Ext N s0 s ∧ ∀ s', (k s').seg N s'
  | .fault, _ => True

theorem Run.seg_mono {α : Type} {N : Obs → Prop} {r : Run α} {s t : Layer} (h : Ext N s t) (hr : r.seg N t) : r.seg N s := by
  induction r with
  | done a u => exact h.trans hr
  | up cb u k ih =>
    obtain ⟨⟨x, h1, h2⟩, h3⟩ := hr
    obtain ⟨y, h4, h5⟩ := h
    refine ⟨⟨y ++ x, by rw [h1, h4]; simp, fun o ho => ?_⟩, h3⟩
    rcases List.mem_append.1 ho with ho | ho
    · exact h5 o ho
    · exact h2 o ho
  | ask k ih => exact fun f => ih f (hr f)
  | recv u k ih => exact ⟨h.trans hr.1, hr.2⟩
  | loop u k ih => exact ⟨h.trans hr.1, hr.2⟩
  | fault => trivial

theorem Run.seg_bind {α β : Type} {N : Obs → Prop} {r : Run α} {f : α → Layer → Run β} {s : Layer} (hr : r.seg N s)
    (hf : ∀ a t, (f a t).seg N t) : (r.bind f).seg N s := by
  induction r generalizing s with
  | done a u => exact Run.seg_mono hr (hf a u)
  | up cb u k ih => exact ⟨hr.1, fun s' => ih s' (hr.2 s')⟩
  | ask k ih => exact fun x => ih x (hr x)
  | recv u k ih => exact ⟨hr.1, fun m => ih m (hr.2 m)⟩
  | loop u k ih => exact ⟨hr.1, fun s' => ih s' (hr.2 s')⟩
  | fault => trivial

/-- The same for a function of the layer. -/
def M.Seg {α : Type} (N : Obs → Prop) (m : M α) : Prop := ∀ s, (m s).seg N s

namespace Seg
variable {α β : Type} {N : Obs → Prop}

theorem bind {m : M α} {f : α → M β} (hm : m.Seg N) (hf : ∀ a, (f a).Seg N) : (m >>= f).Seg N :=
  fun s => Run.seg_bind (hm s) fun a t => hf a t

theorem pure (a : α) : (Pure.pure a : M α).Seg N := fun s => Ext.refl s
theorem get : Crypto.get.Seg N := fun s => Ext.refl s
theorem ask : Crypto.ask.Seg N := fun s _ => Ext.refl s
theorem fault : (Crypto.fault : M α).Seg N := fun _ => trivial
theorem rawRecv : Crypto.rawRecv.Seg N := fun s => ⟨Ext.refl s, fun _ => Ext.refl s⟩
theorem note {o : Obs} (h : N o) : (Crypto.note o).Seg N := fun s => ⟨[o], rfl, by simpa using h⟩
theorem modify {f : Layer → Layer} (h : ∀ s, (f s).log = s.log) : (Crypto.modify f).Seg N := fun s => Ext.of_eq (h s)
theorem act (a : Act) : (Crypto.act a).Seg N := fun _ => Ext.of_eq rfl
theorem modifyIni (f : Ini → Ini) : (Crypto.modifyIni f).Seg N := fun _ => Ext.of_eq rfl
theorem upcall (cb : UpCall) : (Crypto.upcall cb).Seg N := fun _ => ⟨⟨[], by simp, by simp⟩, fun s' => Ext.refl s'⟩
theorem tryRead : Crypto.tryRead.Seg N := fun s => ⟨Ext.refl s, fun s' => Ext.refl s'⟩
theorem ite {p : Prop} [Decidable p] {a b : M α} (ha : a.Seg N) (hb : b.Seg N) : (if p then a else b).Seg N := by
  split
  · exact ha
  · exact hb

end Seg

/-- The layer's own activity: everything but the calls of the application, callbacks, and the opening of the layer
below. -/
def Own : Obs → Prop
  | .up _ => False
  | .startTx _ _ => False
  | .startRx d => d = []
  | .rxCall => False
  | .lowerOpen => False
  | _ => True

/-- A step of the proof that a function does its own activity only. -/
macro "seg_step" : tactic => `(tactic| first
  | with_reducible exact Seg.pure _
  | with_reducible exact Seg.get
  | with_reducible exact Seg.ask
  | with_reducible exact Seg.fault
  | with_reducible exact Seg.rawRecv
  | (with_reducible refine Seg.note ?_) <;> first | exact trivial | rfl
  | with_reducible exact Seg.act _
  | with_reducible exact Seg.modifyIni _
  | with_reducible exact Seg.upcall _
  | with_reducible exact Seg.tryRead
  | with_reducible refine Seg.bind ?_ (fun _ => ?_)
  | with_reducible refine Seg.ite ?_ ?_
  | (with_reducible refine Seg.modify ?_) <;> (intro _; first | rfl | (split <;> rfl))
  | assumption
  | dsimp only)

namespace Seg

theorem upperOnOpen : Crypto.upperOnOpen.Seg Crypto.Own := by unfold Crypto.upperOnOpen; repeat seg_step
theorem upperOnClose : Crypto.upperOnClose.Seg Crypto.Own := by unfold Crypto.upperOnClose; repeat seg_step
theorem upperOnTxReady : Crypto.upperOnTxReady.Seg Crypto.Own := by unfold Crypto.upperOnTxReady; repeat seg_step
theorem upperOnRxReady : Crypto.upperOnRxReady.Seg Crypto.Own := by unfold Crypto.upperOnRxReady; repeat seg_step
theorem lowerStartTx (f : Bytes) : (Crypto.lowerStartTx f).Seg Crypto.Own := by unfold Crypto.lowerStartTx; repeat seg_step
theorem lowerStartRx : Crypto.lowerStartRx.Seg Crypto.Own := by unfold Crypto.lowerStartRx; repeat seg_step
theorem getTime : Crypto.getTime.Seg Crypto.Own := by unfold Crypto.getTime; repeat seg_step
theorem startTimer (k : TimerKind) : (Crypto.startTimer k).Seg Crypto.Own := Seg.modifyIni _
theorem startSessionTimer (t : Int) : (Crypto.startSessionTimer t).Seg Crypto.Own := Seg.modifyIni _
theorem cancelTimer : Crypto.cancelTimer.Seg Crypto.Own := Seg.modifyIni _
theorem cancelSessionTimer : Crypto.cancelSessionTimer.Seg Crypto.Own := Seg.modifyIni _
theorem setState (h : HState) : (Crypto.setState h).Seg Crypto.Own := Seg.modifyIni _
theorem noteKey (o : Option (UInt64 × Bytes)) : (Crypto.noteKey o).Seg Crypto.Own := by
  unfold Crypto.noteKey; split <;> repeat seg_step
theorem idleOnHandshakeRequired (c : Cfg) (limits : SessionLimits) (now : Int) :
    (Crypto.idleOnHandshakeRequired c limits now).Seg Crypto.Own := by
  have h1 := noteKey
  have h2 := startTimer
  have h3 := lowerStartTx
  unfold Crypto.idleOnHandshakeRequired
  repeat (first | seg_step | exact h1 _ | exact h2 _ | exact h3 _ | split)
theorem onHandshakeRequired (c : Cfg) (limits : SessionLimits) : (Crypto.onHandshakeRequired c limits).Seg Crypto.Own := by
  unfold Crypto.onHandshakeRequired
  repeat (first | seg_step | exact getTime | with_reducible apply idleOnHandshakeRequired | exact setState _ | split)
theorem onSessionNonceChange (c : Cfg) (a b : UInt16) : (Crypto.onSessionNonceChange c a b).Seg Crypto.Own := by
  unfold Crypto.onSessionNonceChange
  repeat (first | seg_step | exact cancelSessionTimer | with_reducible apply onHandshakeRequired | split)
theorem onPreTxReady (c : Cfg) : (Crypto.onPreTxReady c).Seg Crypto.Own := by
  unfold Crypto.onPreTxReady
  repeat (first | seg_step | with_reducible apply onHandshakeRequired | split)
theorem resetStateOnClose (c : Cfg) : (Crypto.resetStateOnClose c).Seg Crypto.Own := by
  unfold Crypto.resetStateOnClose
  repeat (first | seg_step | split)
theorem replyWithHandshakeError (c : Cfg) (e : HandshakeError) : (Crypto.replyWithHandshakeError c e).Seg Crypto.Own := by
  unfold Crypto.replyWithHandshakeError
  repeat (first | seg_step | exact lowerStartTx _ | split)
theorem onParseError (c : Cfg) (f : Function) : (Crypto.onParseError c f).Seg Crypto.Own := by
  unfold Crypto.onParseError
  repeat (first | seg_step | with_reducible apply replyWithHandshakeError | split)
theorem validatePendingAuth (c : Cfg) (m : SessionData) (now : Int) : (Crypto.validatePendingAuth c m now).Seg Crypto.Own := by
  unfold Crypto.validatePendingAuth
  repeat seg_step
theorem validateActiveData (c : Cfg) (m : SessionData) (now : Int) : (Crypto.validateActiveData c m now).Seg Crypto.Own := by
  unfold Crypto.validateActiveData
  repeat seg_step
theorem activatePending : Crypto.activatePending.Seg Crypto.Own := Seg.modify fun _ => rfl
theorem resetBoth : Crypto.resetBoth.Seg Crypto.Own := Seg.modify fun _ => rfl
theorem transmitSessionAuth (b : Bool) : (Crypto.transmitSessionAuth b).Seg Crypto.Own := by
  unfold Crypto.transmitSessionAuth
  repeat (first | seg_step | exact getTime | exact lowerStartTx _ | split)
theorem checkTransmit (c : Cfg) : (Crypto.checkTransmit c).Seg Crypto.Own := by
  unfold Crypto.checkTransmit
  repeat (first | seg_step | exact getTime | exact lowerStartTx _ | exact upperOnClose | with_reducible apply onSessionNonceChange | split)
theorem noteEstablished (n : Nat) : (Crypto.noteEstablished n).Seg Crypto.Own := by
  unfold Crypto.noteEstablished
  repeat (first | seg_step | split)
theorem onReplyBegin (c : Cfg) (limits : SessionLimits) (m : ReplyHandshakeBegin) (raw : Bytes) (now : Int) :
    (Crypto.onReplyBegin c limits m raw now).Seg Crypto.Own := by
  unfold Crypto.onReplyBegin
  repeat (first | seg_step | exact cancelTimer | exact startTimer _ | exact setState _ | exact noteEstablished _ |
    exact transmitSessionAuth _ | split)
theorem onReplyError : Crypto.onReplyError.Seg Crypto.Own := by
  unfold Crypto.onReplyError
  repeat (first | seg_step | exact cancelTimer | exact startTimer _ | exact setState _ | split)
theorem initiatorOnAuth (c : Cfg) (p : Params) (m : SessionData) (now : Int) : (Crypto.initiatorOnAuth c p m now).Seg Crypto.Own := by
  unfold Crypto.initiatorOnAuth
  repeat (first | seg_step | exact cancelTimer | exact startTimer _ | exact setState _ | with_reducible apply validatePendingAuth |
    exact activatePending | exact startSessionTimer _ | exact upperOnOpen | exact upperOnRxReady | split)
theorem responderOnAuth (c : Cfg) (m : SessionData) (now : Int) : (Crypto.responderOnAuth c m now).Seg Crypto.Own := by
  unfold Crypto.responderOnAuth
  repeat (first | seg_step | with_reducible apply replyWithHandshakeError | with_reducible apply validatePendingAuth |
    exact activatePending | exact transmitSessionAuth _ | exact upperOnOpen | exact upperOnRxReady | split)
theorem onRequestBegin (c : Cfg) (h : ResponderHandshake) (m : RequestHandshakeBegin) (raw : Bytes) (now : Int) :
    (Crypto.onRequestBegin c h m raw now).Seg Crypto.Own := by
  unfold Crypto.onRequestBegin
  repeat (first | seg_step | with_reducible apply replyWithHandshakeError | exact noteEstablished _ | exact lowerStartTx _ | split)
theorem onSessionData (c : Cfg) (m : SessionData) (now : Int) : (Crypto.onSessionData c m now).Seg Crypto.Own := by
  unfold Crypto.onSessionData
  repeat (first | seg_step | with_reducible apply validateActiveData | with_reducible apply onSessionNonceChange | exact upperOnRxReady | split)
theorem onSessionMessage (c : Cfg) (m : SessionData) (now : Int) : (Crypto.onSessionMessage c m now).Seg Crypto.Own := by
  unfold Crypto.onSessionMessage
  repeat (first | seg_step | with_reducible apply initiatorOnAuth | with_reducible apply responderOnAuth | with_reducible apply onSessionData | split)
theorem process (c : Cfg) (m : Bytes) : (Crypto.process c m).Seg Crypto.Own := by
  unfold Crypto.process
  repeat (first | seg_step | exact getTime | with_reducible apply onParseError | with_reducible apply onRequestBegin | with_reducible apply onReplyBegin |
    exact onReplyError | with_reducible apply onSessionMessage | split)
theorem tryReadOne (c : Cfg) : (Crypto.tryReadOne c).Seg Crypto.Own := by
  unfold Crypto.tryReadOne
  repeat (first | seg_step | exact lowerStartRx | with_reducible apply process | split)
theorem onLowerClose (c : Cfg) : (Crypto.onLowerClose c).Seg Crypto.Own := by
  unfold Crypto.onLowerClose
  repeat (first | seg_step | exact resetStateOnClose c | exact resetBoth | exact upperOnClose | split)
theorem onLowerRxReady : Crypto.onLowerRxReady.Seg Crypto.Own := by
  unfold Crypto.onLowerRxReady
  repeat (first | seg_step | split)
theorem onLowerTxReady (c : Cfg) : (Crypto.onLowerTxReady c).Seg Crypto.Own := by
  unfold Crypto.onLowerTxReady
  repeat (first | seg_step | exact onPreTxReady c | exact upperOnTxReady | exact checkTransmit c | split)
theorem onResponseTimeout : Crypto.onResponseTimeout.Seg Crypto.Own := by
  unfold Crypto.onResponseTimeout
  repeat (first | seg_step | exact startTimer _ | exact setState _ | split)
theorem onRetryTimeout (c : Cfg) (limits : SessionLimits) : (Crypto.onRetryTimeout c limits).Seg Crypto.Own := by
  unfold Crypto.onRetryTimeout
  repeat (first | seg_step | exact setState _ | with_reducible apply onHandshakeRequired | split)
theorem onExpiry (c : Cfg) (e : Expiry) : (Crypto.onExpiry c e).Seg Crypto.Own := by
  unfold Crypto.onExpiry
  repeat (first | seg_step | exact onResponseTimeout | with_reducible apply onRetryTimeout | with_reducible apply onHandshakeRequired | split)

end Seg
end SSP21.Crypto
