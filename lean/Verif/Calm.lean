import Verif.Segments
import Verif.Spec.Reception
/-
  No code: a proof rule for what is true after the receive loop, in executions with an observer of the layer below.
-/
namespace SSP21.Crypto

/-- If the observer believes that there is a message to read, then there is a reason why the layer does not read. -/
def Blocked (s : Layer) (b : Bool) : Prop := s.isOpen = true → b = true → s.lowerReady = false ∨ s.payloadLen ≠ 0

/-- What a function may do: if `q`, it does not remove a reason for not reading. -/
structure Calm (q : Bool) (s : Layer) (b : Bool) (s' : Layer) (b' : Bool) : Prop where
  isOpen : s'.isOpen = s.isOpen
  due : b' = true → b = true
  kept : q = true → Blocked s b → Blocked s' b'

theorem Calm.refl (q : Bool) (s : Layer) (b : Bool) : Calm q s b s b := ⟨rfl, id, fun _ => id⟩

theorem Calm.trans {q : Bool} {s t u : Layer} {a b d : Bool} (h : Calm q s a t b) (h' : Calm q t b u d) : Calm q s a u d :=
  ⟨h'.isOpen.trans h.isOpen, fun x => h.due (h'.due x), fun hq x => h'.kept hq (h.kept hq x)⟩

/-- The computation ends, with what the observer believes by then, in a state satisfying `Q`: the application does, in
callbacks, only what `Calm true` allows, and the receive loop ends only when there is nothing to read or a reason for not
reading. -/
def Run.calm {α : Type} (Q : Bool → α → Layer → Prop) (b : Bool) : Run α → Prop
  | .done a s => Q b a s
  | .up _ s k => ∀ s' b', Calm true s b s' b' → (k s').calm Q b'
  | .ask k => ∀ f, (k f).calm Q b
  | .recv _ k => ∀ m, (k m).calm Q (b && !m.isEmpty)
  | .loop s k => ∀ s' b', Calm false s b s' b' → Blocked s' b' → (k s').calm Q b'
  | .fault => True

theorem Run.calm_bind {α β : Type} {Q : Bool → β → Layer → Prop} (r : Run α) (f : α → Layer → Run β) (b : Bool) :
    (r.bind f).calm Q b ↔ r.calm (fun b' a s => (f a s).calm Q b') b := by
  induction r generalizing b with
  | done a s => exact Iff.rfl
  | up cb s k ih => exact forall_congr' fun s' => forall_congr' fun b' => imp_congr Iff.rfl (ih s' b')
  | ask k ih => exact forall_congr' fun x => ih x b
  | recv s k ih => exact forall_congr' fun m => ih m _
  | loop s k ih => exact forall_congr' fun s' => forall_congr' fun b' => imp_congr Iff.rfl (imp_congr Iff.rfl (ih s' b'))
  | fault => exact Iff.rfl

theorem Run.calm_mono {α : Type} {Q Q' : Bool → α → Layer → Prop} (r : Run α) (h : ∀ b a s, Q b a s → Q' b a s) (b : Bool) :
    r.calm Q b → r.calm Q' b := by
  induction r generalizing b with
  | done a s => exact h b a s
  | up cb s k ih => exact fun hw s' b' hr => ih s' b' (hw s' b' hr)
  | ask k ih => exact fun hw f => ih f b (hw f)
  | recv s k ih => exact fun hw m => ih m _ (hw m)
  | loop s k ih => exact fun hw s' b' hr hb => ih s' b' (hw s' b' hr hb)
  | fault => exact fun _ => trivial

/-- A function of the layer does only what `Calm q` allows. -/
def M.Calm {α : Type} (q : Bool) (m : M α) : Prop :=
  ∀ s b, (m s).calm (fun b' _ s' => Crypto.Calm q s b s' b') b

namespace Calmly
variable {α β : Type} {q : Bool}

theorem bind {m : M α} {f : α → M β} (hm : m.Calm q) (hf : ∀ a, (f a).Calm q) : (m >>= f).Calm q := by
  intro s b
  refine (Run.calm_bind _ _ _).mpr (Run.calm_mono _ ?_ _ (hm s b))
  intro b' a s' h
  exact Run.calm_mono _ (fun _ _ _ h' => h.trans h') _ (hf a s' b')

theorem pure (a : α) : (Pure.pure a : M α).Calm q := fun _ _ => .refl ..
theorem get : Crypto.get.Calm q := fun _ _ => .refl ..
theorem ask : Crypto.ask.Calm q := fun _ _ _ => .refl ..
theorem fault : (Crypto.fault : M α).Calm q := fun _ _ => trivial
theorem modify {f : Layer → Layer} (h : ∀ s, (f s).isOpen = s.isOpen) (h' : q = true → ∀ s, (f s).payloadLen = s.payloadLen ∧ ((f s).lowerReady = true → s.lowerReady = true)) :
    (Crypto.modify f).Calm q := by
  intro s b
  refine ⟨h s, id, fun hq hb h1 h2 => ?_⟩
  rw [h s] at h1
  obtain ⟨h3, h4⟩ := h' hq s
  rw [h3]
  rcases hb h1 h2 with hb | hb
  · left
    by_contra hc
    have := h4 (by simpa using hc)
    rw [hb] at this
    cases this
  · exact .inr hb
theorem same {f : Layer → Layer} (h : ∀ s, (f s).isOpen = s.isOpen) (h' : ∀ s, (f s).payloadLen = s.payloadLen)
    (h'' : ∀ s, (f s).lowerReady = s.lowerReady) : (Crypto.modify f).Calm q :=
  modify h fun _ s => ⟨h' s, by rw [h'' s]; exact id⟩
theorem note (o : Obs) : (Crypto.note o).Calm q := same (fun _ => rfl) (fun _ => rfl) (fun _ => rfl)
theorem act (a : Act) : (Crypto.act a).Calm q := same (fun _ => rfl) (fun _ => rfl) (fun _ => rfl)
theorem modifyIni (f : Ini → Ini) : (Crypto.modifyIni f).Calm q := same (fun _ => rfl) (fun _ => rfl) (fun _ => rfl)
theorem up (cb : UpCall) : Crypto.M.Calm q (fun s => .up cb s (fun s' => .done () s')) := by
  intro s b s' b' h
  exact ⟨h.isOpen, h.due, fun _ => h.kept rfl⟩
theorem upcall (cb : UpCall) : (Crypto.upcall cb).Calm q := bind (note _) fun _ => up cb
theorem tryRead : Crypto.tryRead.Calm q := by
  intro s b s' b' h hb
  exact ⟨h.isOpen, h.due, fun _ _ => hb⟩
theorem rawRecv : Crypto.rawRecv.Calm q := by
  intro s b m
  refine ⟨rfl, fun h => ?_, fun _ hb h1 h2 => hb h1 ?_⟩ <;> simp_all
theorem ite {p : Prop} [Decidable p] {a b : M α} (ha : a.Calm q) (hb : b.Calm q) : (if p then a else b).Calm q := by
  split
  · exact ha
  · exact hb

end Calmly

/-- A step of the proof that a function is calm. -/
macro "calm_step" : tactic => `(tactic| first
  | with_reducible exact Calmly.pure _
  | with_reducible exact Calmly.get
  | with_reducible exact Calmly.ask
  | with_reducible exact Calmly.fault
  | with_reducible exact Calmly.rawRecv
  | with_reducible exact Calmly.note _
  | with_reducible exact Calmly.act _
  | with_reducible exact Calmly.modifyIni _
  | with_reducible exact Calmly.upcall _
  | with_reducible exact Calmly.tryRead
  | with_reducible refine Calmly.bind ?_ (fun _ => ?_)
  | with_reducible refine Calmly.ite ?_ ?_
  | (with_reducible refine Calmly.same ?_ ?_ ?_) <;> (intro _; first | done | rfl | (split <;> rfl))
  | (with_reducible refine Calmly.modify ?_ ?_) <;> (intro _; first | done | rfl | (split <;> rfl) | (intro _; simp; done) | contradiction)
  | assumption
  | dsimp only)

namespace Calmly
variable {q : Bool}

theorem upperOnOpen : Crypto.upperOnOpen.Calm q := by unfold Crypto.upperOnOpen; repeat calm_step
theorem upperOnClose : Crypto.upperOnClose.Calm q := by unfold Crypto.upperOnClose; repeat calm_step
theorem upperOnTxReady : Crypto.upperOnTxReady.Calm q := by unfold Crypto.upperOnTxReady; repeat calm_step
theorem upperOnRxReady : Crypto.upperOnRxReady.Calm q := by unfold Crypto.upperOnRxReady; repeat calm_step
theorem lowerStartTx (f : Bytes) : (Crypto.lowerStartTx f).Calm q := by unfold Crypto.lowerStartTx; repeat calm_step
theorem lowerStartRx : Crypto.lowerStartRx.Calm q := by unfold Crypto.lowerStartRx; repeat calm_step
theorem getTime : Crypto.getTime.Calm q := by unfold Crypto.getTime; repeat calm_step
theorem startTimer (k : TimerKind) : (Crypto.startTimer k).Calm q := modifyIni _
theorem startSessionTimer (t : Int) : (Crypto.startSessionTimer t).Calm q := modifyIni _
theorem cancelTimer : Crypto.cancelTimer.Calm q := modifyIni _
theorem cancelSessionTimer : Crypto.cancelSessionTimer.Calm q := modifyIni _
theorem setState (h : HState) : (Crypto.setState h).Calm q := modifyIni _
theorem noteKey (u : Option (UInt64 × Bytes)) : (Crypto.noteKey u).Calm q := by cases u <;> simp only [Crypto.noteKey] <;> calm_step

theorem idleOnHandshakeRequired (c : Cfg) (limits : SessionLimits) (now : Int) : (Crypto.idleOnHandshakeRequired c limits now).Calm q := by
  unfold Crypto.idleOnHandshakeRequired
  repeat (first | calm_step | exact startTimer _ | exact lowerStartTx _ | exact noteKey _ | split)
theorem onHandshakeRequired (c : Cfg) (limits : SessionLimits) : (Crypto.onHandshakeRequired c limits).Calm q := by
  unfold Crypto.onHandshakeRequired
  repeat (first | calm_step | exact getTime | with_reducible apply idleOnHandshakeRequired | exact setState _ | split)
theorem noteEstablished (n : Nat) : (Crypto.noteEstablished n).Calm q := by unfold Crypto.noteEstablished; repeat calm_step
theorem replyWithHandshakeError (c : Cfg) (e : HandshakeError) : (Crypto.replyWithHandshakeError c e).Calm q := by
  unfold Crypto.replyWithHandshakeError
  repeat (first | calm_step | exact lowerStartTx _ | split)
theorem onRequestBegin (c : Cfg) (h : ResponderHandshake) (m : RequestHandshakeBegin) (raw : Bytes) (now : Int) :
    (Crypto.onRequestBegin c h m raw now).Calm q := by
  unfold Crypto.onRequestBegin
  repeat (first | calm_step | with_reducible apply replyWithHandshakeError | exact noteEstablished _ | exact lowerStartTx _ | split)
theorem onSessionNonceChange (c : Cfg) (a b : UInt16) : (Crypto.onSessionNonceChange c a b).Calm q := by
  unfold Crypto.onSessionNonceChange
  repeat (first | calm_step | exact cancelSessionTimer | with_reducible apply onHandshakeRequired | split)
theorem onPreTxReady (c : Cfg) : (Crypto.onPreTxReady c).Calm q := by
  unfold Crypto.onPreTxReady
  repeat (first | calm_step | with_reducible apply onHandshakeRequired | split)
theorem resetStateOnClose (c : Cfg) : (Crypto.resetStateOnClose c).Calm q := by
  unfold Crypto.resetStateOnClose
  repeat (first | calm_step | split)
theorem onParseError (c : Cfg) (f : Function) : (Crypto.onParseError c f).Calm q := by
  unfold Crypto.onParseError
  repeat (first | calm_step | with_reducible apply replyWithHandshakeError | split)
theorem validatePendingAuth (c : Cfg) (m : SessionData) (now : Int) : (Crypto.validatePendingAuth c m now).Calm q := by
  unfold Crypto.validatePendingAuth
  repeat calm_step
theorem validateActiveData (c : Cfg) (m : SessionData) (now : Int) : (Crypto.validateActiveData c m now).Calm q := by
  unfold Crypto.validateActiveData
  repeat calm_step
theorem activatePending : Crypto.activatePending.Calm q := same (fun _ => rfl) (fun _ => rfl) (fun _ => rfl)
theorem resetBoth : Crypto.resetBoth.Calm q := same (fun _ => rfl) (fun _ => rfl) (fun _ => rfl)
theorem transmitSessionAuth (b : Bool) : (Crypto.transmitSessionAuth b).Calm q := by
  unfold Crypto.transmitSessionAuth
  repeat (first | calm_step | exact getTime | exact lowerStartTx _ | split)
theorem checkTransmit (c : Cfg) : (Crypto.checkTransmit c).Calm q := by
  unfold Crypto.checkTransmit
  repeat (first | calm_step | exact getTime | exact lowerStartTx _ | exact upperOnClose | with_reducible apply onSessionNonceChange | split)
theorem onReplyBegin (c : Cfg) (limits : SessionLimits) (m : ReplyHandshakeBegin) (raw : Bytes) (now : Int) :
    (Crypto.onReplyBegin c limits m raw now).Calm q := by
  unfold Crypto.onReplyBegin
  repeat (first | calm_step | exact cancelTimer | exact startTimer _ | exact setState _ | exact noteEstablished _ |
    exact transmitSessionAuth _ | split)
theorem onReplyError : Crypto.onReplyError.Calm q := by
  unfold Crypto.onReplyError
  repeat (first | calm_step | exact cancelTimer | exact startTimer _ | exact setState _ | split)
theorem initiatorOnAuth (c : Cfg) (p : Params) (m : SessionData) (now : Int) : (Crypto.initiatorOnAuth c p m now).Calm false := by
  unfold Crypto.initiatorOnAuth
  repeat (first | calm_step | exact cancelTimer | exact startTimer _ | exact setState _ | with_reducible apply validatePendingAuth |
    exact activatePending | exact startSessionTimer _ | exact upperOnOpen | exact upperOnRxReady | split)
theorem responderOnAuth (c : Cfg) (m : SessionData) (now : Int) : (Crypto.responderOnAuth c m now).Calm false := by
  unfold Crypto.responderOnAuth
  repeat (first | calm_step | with_reducible apply replyWithHandshakeError | with_reducible apply validatePendingAuth |
    exact activatePending | exact transmitSessionAuth _ | exact upperOnOpen | exact upperOnRxReady | split)
theorem onSessionData (c : Cfg) (m : SessionData) (now : Int) : (Crypto.onSessionData c m now).Calm false := by
  unfold Crypto.onSessionData
  repeat (first | calm_step | with_reducible apply validateActiveData | with_reducible apply onSessionNonceChange | exact upperOnRxReady | split)
theorem onSessionMessage (c : Cfg) (m : SessionData) (now : Int) : (Crypto.onSessionMessage c m now).Calm false := by
  unfold Crypto.onSessionMessage
  repeat (first | calm_step | with_reducible apply initiatorOnAuth | with_reducible apply responderOnAuth | with_reducible apply onSessionData | split)
theorem process (c : Cfg) (m : Bytes) : (Crypto.process c m).Calm false := by
  unfold Crypto.process
  repeat (first | calm_step | exact getTime | with_reducible apply onParseError | with_reducible apply onRequestBegin | with_reducible apply onReplyBegin |
    exact onReplyError | with_reducible apply onSessionMessage | split)

theorem lowerStartRx_due (s : Layer) (b : Bool) :
    (Crypto.lowerStartRx s).calm (fun b' m s' => s'.isOpen = s.isOpen ∧ b' = (b && !m.isEmpty)) b := by
  intro m f
  by_cases hm : m = []
  · subst hm
    exact ⟨rfl, rfl⟩
  · show Run.calm _ _ ((if m = [] then (Pure.pure m : M Bytes) else (Crypto.note (.recv m) >>= fun _ => Pure.pure m)) { s with buf := f.scratch })
    rw [if_neg hm]
    exact ⟨rfl, rfl⟩

/-- One iteration of the receive loop: if it is the last one, there is nothing to read or a reason for not reading. -/
theorem tryReadOne (c : Cfg) (s : Layer) (b : Bool) :
    (Crypto.tryReadOne c s).calm (fun b' again s' => Crypto.Calm false s b s' b' ∧ (again = false → Blocked s' b')) b := by
  unfold Crypto.tryReadOne
  show ((if (!s.lowerReady || decide (s.payloadLen ≠ 0)) = true then _ else _ : M Bool) s).calm _ b
  split
  · rename_i hc
    refine ⟨.refl .., fun _ _ _ => ?_⟩
    simpa using hc
  · refine (Run.calm_bind _ _ _).mpr (Run.calm_mono _ ?_ _ (lowerStartRx_due s b))
    rintro b' m s' ⟨h1, rfl⟩
    by_cases hm : m = []
    · subst hm
      exact ⟨⟨h1, by simp, by simp⟩, fun _ _ h => by simp at h⟩
    · have hb : (b && !m.isEmpty) = b := by cases m <;> simp_all
      rw [hb]
      simp only [hm, if_false]
      refine (Run.calm_bind _ _ _).mpr (Run.calm_mono _ ?_ _ (process c m _ b))
      intro b' _ s' h
      exact ⟨⟨h.isOpen.trans h1, h.due, fun h => by cases h⟩, fun h => by cases h⟩

theorem startTx (c : Cfg) (d : Bytes) : (Crypto.startTx c d).Calm q := by
  unfold Crypto.startTx
  repeat (first | calm_step | exact checkTransmit c)
theorem onResponseTimeout : Crypto.onResponseTimeout.Calm q := by
  unfold Crypto.onResponseTimeout
  repeat (first | calm_step | exact startTimer _ | exact setState _ | split)
theorem onRetryTimeout (c : Cfg) (limits : SessionLimits) : (Crypto.onRetryTimeout c limits).Calm q := by
  unfold Crypto.onRetryTimeout
  repeat (first | calm_step | exact setState _ | with_reducible apply onHandshakeRequired | split)
theorem onExpiry (c : Cfg) (e : Expiry) : (Crypto.onExpiry c e).Calm q := by
  unfold Crypto.onExpiry
  repeat (first | calm_step | exact onResponseTimeout | with_reducible apply onRetryTimeout | with_reducible apply onHandshakeRequired | split)

theorem startRx : Crypto.startRx.Calm q := by
  unfold Crypto.startRx
  refine bind (note _) fun _ => ?_
  have read : ∀ (s t : Layer) (b : Bool), t.isOpen = s.isOpen →
      ((Crypto.tryRead >>= fun _ => Crypto.note (.startRx [])) t).calm (fun b' _ s' => Crypto.Calm q s b s' b') b := by
    intro s t b h s' b' h1 h2
    exact ⟨h1.isOpen.trans h, h1.due, fun _ _ => h2⟩
  intro s b
  by_cases hf : s.rxFlag = true
  · show ((if s.rxFlag = true then _ else _ : M Unit) s).calm _ b
    rw [if_pos hf]
    exact read s _ b rfl
  · show ((if s.rxFlag = true then _ else _ : M Unit) s).calm _ b
    rw [if_neg hf]
    show ((if s.payloadLen = 0 then _ else _ : M Unit) s).calm _ b
    split
    · exact read s s b rfl
    · exact ⟨rfl, id, fun _ h => h⟩

/-- Calls of the application keep the reasons for not reading. -/
theorem api (c : Cfg) (a : Api) : (a.run c).Calm q := by
  cases a with
  | startTx d => exact startTx c d
  | startRx => exact startRx

/-- A notification of the layer below or a timer: when it has been handled, there is nothing to read or a reason for not
reading. -/
theorem event (c : Cfg) (e : Event) (s : Layer) (b : Bool) (ho : Spec.belowOpen s.log = s.isOpen) (h : Blocked s b) :
    (e.run c s).calm (fun b' _ s' => Blocked s' b') (e.due s b) := by
  cases e with
  | lowerOpen ready =>
    by_cases hs : s.isOpen = true
    · have hb : (b && Spec.belowOpen s.log) = b := by simp [ho, hs]
      show Run.calm _ (b && Spec.belowOpen s.log) ((if s.isOpen = true then _ else _ : M Unit) s)
      rw [hb, if_pos hs]
      show ((if s.isOpen = true then _ else _ : M Unit) s).calm _ b
      rw [if_pos hs]
      exact h
    · have hb : (b && Spec.belowOpen s.log) = false := by simp [ho, hs]
      show Run.calm _ (b && Spec.belowOpen s.log) ((if s.isOpen = true then _ else _ : M Unit) s)
      rw [hb, if_neg hs]
      show ((if s.isOpen = true then _ else _ : M Unit) _).calm _ false
      rw [if_neg hs]
      have hm : (match c.role with
        | .initiator _ limits => Crypto.onHandshakeRequired c limits
        | .responder _ => Pure.pure () : M Unit).Calm true := by
        split
        · exact onHandshakeRequired _ _
        · exact pure _
      refine Run.calm_mono _ (fun b' _ s' h1 _ h2 => ?_) _ (hm _ false)
      exact absurd (h1.due h2) (by simp)
  | lowerClose ready =>
    show ((if s.isOpen = true then _ else _ : M Unit) _).calm _ b
    split
    · have hm : (Crypto.resetStateOnClose c >>= fun _ => Crypto.resetBoth >>= fun _ =>
          (Crypto.modify fun s => { s with payloadLen := 0 }) >>= fun _ => Crypto.upperOnClose >>= fun _ =>
          (Crypto.modify fun s => { s with tx := s.tx.reset }) >>= fun _ => Crypto.act .discarded >>= fun _ =>
          Crypto.modify fun s => { s with rxFlag := c.viaStack && s.rxFlag }).Calm false := by
        repeat (first | calm_step | exact resetStateOnClose c | exact resetBoth | exact upperOnClose)
      refine Run.calm_mono _ (fun b' _ s' h1 h2 => ?_) _ (hm _ b)
      rw [h1.isOpen] at h2
      cases h2
    · rename_i hs
      exact fun h1 => absurd h1 hs
  | lowerTxReady =>
    show ((if s.isOpen = true then _ else _ : M Unit) _).calm _ b
    split
    · have fin : ∀ t b, ((Crypto.tryRead >>= fun _ => Crypto.checkTransmit c) t).calm (fun b' _ s' => Blocked s' b') b := by
        intro t b s' b' _ h2
        exact Run.calm_mono _ (fun _ _ _ h1 => h1.kept rfl h2) _ (checkTransmit c s' b')
      have fin' : ∀ (m : M Unit) (k : Unit → M Unit), m.Calm false → (∀ a t b, (k a t).calm (fun b' _ s' => Blocked s' b') b) →
          ∀ t b, ((m >>= k) t).calm (fun b' _ s' => Blocked s' b') b := by
        intro m k hm hk t b
        exact (Run.calm_bind _ _ _).mpr (Run.calm_mono _ (fun b' a s' _ => hk a s' b') _ (hm t b))
      refine fin' (Crypto.onPreTxReady c) _ (onPreTxReady c) (fun _ t b => ?_) _ _
      show ((if s.tx.onTxComplete.2 = true then _ else _ : M Unit) t).calm _ b
      split
      · exact fin' _ _ upperOnTxReady (fun _ => fin) t b
      · exact fin t b
    · rename_i hs
      exact fun h1 => absurd h1 hs
  | lowerRxReady =>
    show ((if s.isOpen = true then _ else _ : M Unit) s).calm _ true
    split
    · exact fun s' b' _ h2 => h2
    · rename_i hs
      exact fun h1 => absurd h1 hs
  | expiry e => exact Run.calm_mono _ (fun _ _ _ h1 => h1.kept rfl h) _ (onExpiry c e s b)

end Calmly

/-- What a function must establish when it returns: `sB`, `bB` is the situation in which the environment called it. -/
def CalmEnd (sB : Layer) (bB : Bool) (st : List (Layer → Run Unit)) (s : Layer) (b : Bool) : Prop :=
  (st ≠ [] → Calm true sB bB s b) ∧ (st = [] → Blocked s b)

/-- The interrupted functions cope with what is going on. -/
def CalmStack (s : Layer) (b : Bool) : List (Layer → Run Unit) → Prop
  | [] => True
  | k :: st => ∃ s0 b0 sB bB, Calm true s0 b0 s b ∧
      (∀ s' b', Calm true s0 b0 s' b' → (k s').calm (fun b'' _ s'' => CalmEnd sB bB st s'' b'') b') ∧ CalmStack sB bB st

theorem CalmStack.mono {s s' : Layer} {b b' : Bool} {st} (h : CalmStack s b st) (hr : Calm true s b s' b') : CalmStack s' b' st := by
  cases st with
  | nil => trivial
  | cons k st =>
    obtain ⟨s0, b0, sB, bB, h1, h2, h3⟩ := h
    exact ⟨s0, b0, sB, bB, h1.trans hr, h2, h3⟩

/-- The invariant of configurations. -/
def CalmCfg (x : Config × Bool) : Prop :=
  match x.1.ctl with
  | .env s => (x.1.stack = [] → Blocked s x.2) ∧ CalmStack s x.2 x.1.stack
  | .code r => ∃ sB bB, r.calm (fun b _ s => CalmEnd sB bB x.1.stack s b) x.2 ∧ CalmStack sB bB x.1.stack

theorem CalmCfg.step {c : Cfg} {E : Env} {x y : Config × Bool} (h : WatchedStep c E x y) (hx : CalmCfg x)
    (ho : ∀ s, x.1 = ⟨.env s, []⟩ → Spec.belowOpen s.log = s.isOpen) : CalmCfg y := by
  cases h with
  | event e s b he =>
    exact ⟨s, b, Run.calm_mono _ (fun _ _ _ h => ⟨fun h' => absurd rfl h', fun _ => h⟩) _
      (Calmly.event c e s b (ho s rfl) (hx.1 rfl)), trivial⟩
  | api a s b =>
    exact ⟨s, b, Run.calm_mono _ (fun _ _ _ h => ⟨fun h' => absurd rfl h', fun _ => h.kept rfl (hx.1 rfl)⟩) _
      (Calmly.api c a s b), trivial⟩
  | nestedApi a s k st b _ =>
    exact ⟨s, b, Run.calm_mono _ (fun _ _ _ h => ⟨fun _ => h, fun h' => by cases h'⟩) _ (Calmly.api c a s b), hx.2⟩
  | ret s k st b =>
    obtain ⟨_, s0, b0, sB, bB, h1, h2, h3⟩ := hx
    exact ⟨sB, bB, h2 s b h1, h3⟩
  | done s st b =>
    obtain ⟨sB, bB, h1, h2⟩ := hx
    refine ⟨h1.2, ?_⟩
    cases st with
    | nil => trivial
    | cons k st => exact h2.mono (h1.1 (by simp))
  | up cb s k st b =>
    obtain ⟨sB, bB, h1, h2⟩ := hx
    exact ⟨fun h => (by cases h), s, b, sB, bB, .refl .., h1, h2⟩
  | ask f k st b _ =>
    obtain ⟨sB, bB, h1, h2⟩ := hx
    exact ⟨sB, bB, h1 f, h2⟩
  | recv m s k st b _ =>
    obtain ⟨sB, bB, h1, h2⟩ := hx
    exact ⟨sB, bB, h1 m, h2⟩
  | loop s k st b =>
    obtain ⟨sB, bB, h1, h2⟩ := hx
    refine ⟨sB, bB, (Run.calm_bind _ _ _).mpr (Run.calm_mono _ ?_ _ (Calmly.tryReadOne c s b)), h2⟩
    rintro b' again s' ⟨h3, h4⟩
    cases again with
    | false => exact h1 s' b' h3 (h4 rfl)
    | true => exact fun s'' b'' h5 h6 => h1 s'' b'' (h3.trans h5) h6

theorem Watched.calm {c : Cfg} {E : Env} {x : Config × Bool} (h : Watched c E x)
    (ho : ∀ s, Observed c E s → Spec.belowOpen s.log = s.isOpen) : CalmCfg x := by
  induction h with
  | init hs _ _ => exact ⟨fun _ h => (by cases h), trivial⟩
  | @step x y hx hs ih => exact ih.step hs fun s he => ho s (.inl ⟨[], he ▸ hx.reachable⟩)

end SSP21.Crypto
