import Verif.Quietly
import Verif.Props.Close
import Verif.Props.Delivery
/-
  Properties C34 (the initiator never gets stuck) and C35 (renegotiation), for applications that read from inside
  callbacks only at once when they are told that there is data. (With other reads both fail, see `C34_nested_stall`.)
-/
namespace SSP21.Crypto

namespace Spec

/-- The nonce of one of the directions has reached the trigger. -/
def TriggerReached (params : Params) (a : Session) : Prop :=
  params.nonceTrigger ≤ a.txNonce ∨ params.nonceTrigger ≤ a.rxNonce

/-- The peer sends no authenticated data messages (nonce other than 0) without user data. -/
def NoEmptyData (c : Cfg) (E : Env) : Prop :=
  ∀ s m msg, E.recv s m → SessionData.read m = .ok msg → msg.metadata.nonce ≠ 0 →
    s.active.algorithms.mode.read s.active.keys.rxKey msg c.bufLen ≠ .ok []

/-- What will make an open initiator act again: the answer of the peer or the timer for it, the retry timer, the session
timer, or the layer below when it can transmit again. In the state `badConfiguration` nothing does. -/
inductive Driven (s : Layer) : Prop
  | reply : s.ini.hs = .waitForBeginReply ∨ s.ini.hs = .waitForAuthReply → s.ini.respTimer = some .response → Driven s
  | retry : s.ini.hs = .waitForRetry → s.ini.respTimer = some .retry → Driven s
  | session : s.ini.hs = .idle → s.ini.required = false → s.ini.sessTimer.isSome → Driven s
  | lowerBusy : s.ini.hs = .idle → s.ini.required = true → s.lowerReady = false → Driven s
  | badConfiguration : s.ini.hs = .badConfiguration → Driven s

/-- `s'` is the result of an attempt to begin a handshake in state `s`: a request was handed to the layer below, which
was ready, and the initiator waits for the reply; or there is no quantum key and it will retry; or no request fits into
a message of the layer below; or the layer below is busy and the attempt is postponed. -/
inductive Attempt (c : Cfg) (limits : SessionLimits) (s s' : Layer) : Prop
  | sent (used : Option (UInt64 × Bytes)) (msg : RequestHandshakeBegin) (written : Bytes) :
      s.lowerReady = true → msg.constraints = ⟨limits.maxNonce, limits.maxSessionTimeMs⟩ →
      msg.write c.fw.maxPayload.toNat = .ok written →
      s'.log = s.log ++ (used.map Obs.keyUsed).toList ++ [.lowerTx (c.fw.wrap written) true] →
      s'.ini.hs = .waitForBeginReply → s'.ini.respTimer = some .response → Attempt c limits s s'
  | noKey (key : Option Bytes) : s.ini.handshake.mode = .qkd key → s'.log = s.log →
      s'.ini.hs = .waitForRetry → s'.ini.respTimer = some .retry → Attempt c limits s s'
  | badConfiguration (used : Option (UInt64 × Bytes)) (msg : RequestHandshakeBegin) (e : FormatError) :
      msg.constraints = ⟨limits.maxNonce, limits.maxSessionTimeMs⟩ → msg.write c.fw.maxPayload.toNat = .error e →
      s'.log = s.log ++ (used.map Obs.keyUsed).toList → s'.ini.hs = .badConfiguration → Attempt c limits s s'
  | postponed : s.lowerReady = false → s'.log = s.log → s'.lowerReady = false → s'.ini.hs = .idle →
      s'.ini.required = true → Attempt c limits s s'

/-- The application notices nothing: its session and what it may do with it are the same. -/
structure Unnoticed (s s' : Layer) : Prop where
  isOpen : s'.isOpen = s.isOpen
  upperOpen : s'.upperOpen = s.upperOpen
  active : s'.active = s.active
  tx : s'.tx = s.tx
  payload : s'.payload = s.payload

end Spec

namespace LivenessProof
open SSP21.Crypto.Spec OpenProof

theorem trigger_iff (params : Params) (a : Session) :
    max a.txNonce a.rxNonce ≥ params.nonceTrigger ↔ TriggerReached params a := by
  unfold TriggerReached
  show params.nonceTrigger ≤ max a.txNonce a.rxNonce ↔ _
  have hm : max a.txNonce a.rxNonce = if a.txNonce ≤ a.rxNonce then a.rxNonce else a.txNonce := rfl
  rw [hm]
  simp only [UInt16.le_iff_toNat_le]
  split <;> omega

/-- Which timer runs in a state. -/
def timerOf : HState → Option TimerKind
  | .waitForBeginReply | .waitForAuthReply => some .response
  | .waitForRetry => some .retry
  | .idle | .badConfiguration => none

structure Good (c : Cfg) (E : Env) (params : Params) (s : Layer) : Prop where
  timer : s.ini.respTimer = timerOf s.ini.hs
  orphans : s.ini.orphans = 0
  busy : s.ini.hs ≠ .idle → s.ini.sessTimer = none
  closed : s.isOpen = false → s.ini.hs = .idle ∧ s.ini.required = false ∧ s.ini.sessTimer = none ∧ s.active.valid = false
  idle : s.isOpen = true → s.ini.hs = .idle →
    (s.ini.required = true ∧ s.ini.sessTimer = none ∧ s.lowerReady = false) ∨
    (s.ini.required = false ∧ s.ini.sessTimer.isSome)
  time : ∀ t, s.ini.sessTimer = some t → t = s.active.param.sessionStart + ms params.sessionTimeTriggerMs
  pend : s.pending.valid = true → s.pending.txNonce.toNat ≤ 1 ∧ s.pending.rxNonce = 0
  trig : NoEmptyData c E → 2 ≤ params.nonceTrigger.toNat → s.active.valid = true → TriggerReached params s.active →
    s.ini.hs ≠ .idle ∨ s.ini.required = true

def Inv (c : Cfg) (E : Env) (params : Params) (s : Layer) : Prop := s.inAuth = false → Good c E params s

def J (s : Layer) : Prop := s.inAuth = false

/-- What the application can do in a callback. -/
structure Rel (params : Params) (s t : Layer) : Prop where
  inAuth : t.inAuth = s.inAuth
  isOpen : t.isOpen = s.isOpen
  pending : t.pending = s.pending
  param : t.active.param = s.active.param
  ready : t.lowerReady = true → s.lowerReady = true
  ini : t.ini = s.ini ∧ (t.active.valid = true → TriggerReached params t.active →
      s.active.valid = true ∧ TriggerReached params s.active) ∨
    t.ini = { s.ini with required := true, sessTimer := none } ∧ t.lowerReady = false

def RelL (s t : Layer) : Prop := s.inAuth = false ∧ t.inAuth = false

theorem Rel.refl (params : Params) (s : Layer) : Rel params s s := ⟨rfl, rfl, rfl, rfl, id, .inl ⟨rfl, fun h h' => ⟨h, h'⟩⟩⟩

theorem Rel.trans {params : Params} {s t u : Layer} (h : Rel params s t) (h' : Rel params t u) : Rel params s u := by
  refine ⟨h'.1.trans h.1, h'.2.trans h.2, h'.3.trans h.3, h'.4.trans h.4, fun x => h.5 (h'.5 x), ?_⟩
  rcases h.6 with ⟨a1, a2⟩ | ⟨a1, a2⟩ <;> rcases h'.6 with ⟨b1, b2⟩ | ⟨b1, b2⟩
  · exact .inl ⟨b1.trans a1, fun x y => a2 (b2 x y).1 (b2 x y).2⟩
  · rw [a1] at b1
    exact .inr ⟨b1, b2⟩
  · refine .inr ⟨b1.trans a1, ?_⟩
    cases hu : u.lowerReady with
    | false => rfl
    | true => rw [h'.5 hu] at a2; cases a2
  · rw [a1] at b1
    exact .inr ⟨b1, b2⟩

section
variable {c : Cfg} {E : Env} {params : Params} {limits : SessionLimits}

theorem Good.congr {s t : Layer} (h : Good c E params s) (h1 : t.isOpen = s.isOpen) (h2 : t.active = s.active)
    (h3 : t.pending = s.pending) (h4 : t.ini = s.ini) (h5 : t.lowerReady = true → s.lowerReady = true) :
    Good c E params t := by
  obtain ⟨g1, g2, g3, g4, g5, g6, g7, g8⟩ := h
  refine ⟨by rw [h4]; exact g1, by rw [h4]; exact g2, by rw [h4]; exact g3, by rw [h1, h4, h2]; exact g4, ?_,
    by rw [h4, h2]; exact g6, by rw [h3]; exact g7, by rw [h4, h2]; exact g8⟩
  intro ho hi
  rw [h1] at ho
  rw [h4] at hi ⊢
  rcases g5 ho hi with ⟨a, b, d⟩ | h
  · refine .inl ⟨a, b, ?_⟩
    cases hl : t.lowerReady with
    | false => rfl
    | true => rw [h5 hl] at d; cases d
  · exact .inr h

/-- The state in which a handshake is demanded. -/
structure Pre (s : Layer) : Prop where
  timer : s.ini.respTimer = timerOf s.ini.hs
  orphans : s.ini.orphans = 0
  sess : s.ini.sessTimer = none
  isOpen : s.isOpen = true
  pend : s.pending.valid = true → s.pending.txNonce.toNat ≤ 1 ∧ s.pending.rxNonce = 0

theorem Pre.hsReq {s t : Layer} (hq : HsReq c limits s t) (h : Pre s) : Good c E params t := by
  obtain ⟨h1, h2, h3, h4, h5⟩ := h
  have hp : t.pending.valid = true → t.pending.txNonce.toNat ≤ 1 ∧ t.pending.rxNonce = 0 := by
    rw [hq.pending]; exact h5
  have ho : ¬ t.isOpen = false := by rw [hq.isOpen, h4]; simp
  cases hq with
  | deferred hd =>
    refine ⟨h1, h2, fun _ => h3, fun h => absurd h ho, fun _ hi => .inl ⟨rfl, h3, ?_⟩, ?_, hp, fun _ _ _ _ => .inr rfl⟩
    · exact hd.resolve_left (fun hn => hn hi)
    · intro t ht; simp [h3] at ht
  | noKey f hf hi hr hn =>
    simp only [hi, timerOf] at h1
    refine ⟨rfl, by simp [Ini.start, h1, h2], fun _ => h3, fun h => absurd h ho, fun _ hi => by simp at hi, ?_, hp,
      fun _ _ _ _ => .inl (by simp)⟩
    intro t ht; simp [Ini.start, h3] at ht
  | badConfig f eph data e hf hi hr hn he =>
    simp only [hi, timerOf] at h1
    refine ⟨h1, h2, fun _ => h3, fun h => absurd h ho, fun _ hi => by simp at hi, ?_, hp, fun _ _ _ _ => .inl (by simp)⟩
    intro t ht; simp [h3] at ht
  | sent now f eph data w hf hi hr hn he =>
    simp only [hi, timerOf] at h1
    refine ⟨rfl, by simp [Ini.start, h1, h2], fun _ => h3, fun h => absurd h ho, fun _ hi => by simp at hi, ?_, hp,
      fun _ _ _ _ => .inl (by simp)⟩
    intro t ht; simp [Ini.start, h3] at ht

theorem Good.isOpen_of_busy {s : Layer} (h : Good c E params s) (hs : s.ini.hs ≠ .idle) : s.isOpen = true := by
  cases ho : s.isOpen with
  | true => rfl
  | false => exact absurd (h.closed ho).1 hs

/-- Demanding a handshake in a good state in which the session timer is stopped. -/
theorem Good.pre {s : Layer} (h : Good c E params s) (ho : s.isOpen = true) :
    Pre { s with ini := { s.ini with sessTimer := none } } := ⟨h.timer, h.orphans, rfl, ho, h.pend⟩

theorem Good.pre_required {s : Layer} (h : Good c E params s) (ho : s.isOpen = true) (hr : s.ini.required = true) :
    Pre s := by
  refine ⟨h.timer, h.orphans, ?_, ho, h.pend⟩
  by_cases hi : s.ini.hs = .idle
  · rcases h.idle ho hi with h | h
    · exact h.2.1
    · rw [hr] at h; cases h.1
  · exact h.busy hi

/-! ### Nonces -/

theorem fresh_not_triggered {a : Session} (h : a.txNonce.toNat ≤ 1 ∧ a.rxNonce = 0) (ht : 2 ≤ params.nonceTrigger.toNat) :
    ¬ TriggerReached params a := by
  unfold TriggerReached
  simp only [UInt16.le_iff_toNat_le, h.2]
  have : (0 : UInt16).toNat = 0 := rfl
  omega

def Fresh1 (p : Session) : Prop := p.valid = true → p.txNonce.toNat ≤ 1 ∧ p.rxNonce = 0

theorem fresh_initializeSession {p : Session} (hp : Fresh1 p) (h : InitiatorHandshake) (b : Backend) (caps : Caps)
    (msg : ReplyHandshakeBegin) (m : Bytes) (limits : SessionLimits) (now : Int) (st : Stats) :
    Fresh1 (h.initializeSession b caps msg m limits now p st).2.1 := by
  have fin : ∀ (h : InitiatorHandshake) ikm, Fresh1 (h.finishSession ikm limits now p st).1 := by
    intro h ikm
    unfold InitiatorHandshake.finishSession Session.initialize
    dsimp only
    split
    · exact hp
    · split <;> rename_i he <;> split at he <;> cases he
      · intro _; exact ⟨Nat.zero_le 1, rfl⟩
      · exact hp
  unfold InitiatorHandshake.initializeSession
  dsimp only
  repeat' split
  all_goals first | exact hp | exact fin _ _

theorem fresh_formatAuth {p : Session} (hp : Fresh1 p) (now : Int) (clear : Bytes) :
    Fresh1 (p.formatAuth now clear).1 := by
  unfold Session.formatAuth
  split
  · exact hp
  · rename_i hz
    have hz : p.txNonce = 0 := by simpa using hz
    rcases format_cases p now clear with ⟨r, e, h⟩ | ⟨f, n, h, _⟩ <;> rw [h]
    · exact hp
    · intro hv
      exact ⟨by show (p.txNonce + 1).toNat ≤ 1; rw [hz]; decide, (hp hv).2⟩

theorem fresh_validateAuth {p : Session} (hp : Fresh1 p) (st : Stats) (msg : SessionData) (now : Int) (d : Nat)
    (hn : msg.metadata.nonce = 0) : Fresh1 (p.validateAuth st msg now d).1 := by
  unfold Session.validateAuth
  rcases validateWith_cases p st msg now d equalToZero with ⟨st', e, h, _⟩ | ⟨st', q, h, _⟩ <;> rw [h]
  · exact hp
  · intro hv
    exact ⟨(hp hv).1, hn⟩

/-! ### The segments -/

theorem TxStep.rel (hrole : c.role = .initiator params limits) {s t : Layer} (h : TxStep c s t) : Rel params s t := by
  cases h with
  | startTxRefused data hr => exact ⟨rfl, rfl, rfl, rfl, id, .inl ⟨rfl, fun h h' => ⟨h, h'⟩⟩⟩
  | startTxAccepted data hr => exact ⟨rfl, rfl, rfl, rfl, id, .inl ⟨rfl, fun h h' => ⟨h, h'⟩⟩⟩
  | dataFailed now e hc he =>
    refine ⟨by simp, by simp, by simp, by simpa [Session.reset] using (same_formatData s.active now s.tx.remainder).2.2.2, by simp, .inl ⟨by simp, ?_⟩⟩
    intro hv
    simp [Session.reset] at hv
  | dataSent now out _ hc he hn =>
    have hp := (same_formatData s.active now s.tx.remainder).2.2.2
    rcases hn with ⟨rfl, hn⟩ | ⟨params', limits', hr', ht, hq⟩
    · refine ⟨rfl, rfl, rfl, hp, fun h => by simp at h, .inl ⟨rfl, fun _ htr => ?_⟩⟩
      exact absurd ((trigger_iff params _).mpr htr) (hn params limits hrole)
    · have hd := hq
      cases hq with
      | deferred _ => exact ⟨rfl, rfl, rfl, hp, fun h => by simp at h, .inr ⟨rfl, rfl⟩⟩
      | noKey _ _ _ hl => simp at hl
      | badConfig _ _ _ _ _ _ hl => simp at hl
      | sent _ _ _ _ _ _ _ hl => simp at hl

theorem Good.tx (hrole : c.role = .initiator params limits) {s t : Layer} (h : Good c E params s) (ha : TxStep c s t) :
    Good c E params t := by
  have hr := TxStep.rel hrole ha
  obtain ⟨r1, r2, r3, r4, r5, r6⟩ := hr
  rcases r6 with ⟨hi, ht⟩ | ⟨hi, hl⟩
  · refine ⟨by rw [hi]; exact h.timer, by rw [hi]; exact h.orphans, by rw [hi]; exact h.busy, ?_, ?_,
      by rw [hi, r4]; exact h.time, by rw [r3]; exact h.pend, ?_⟩
    · intro ho
      rw [r2] at ho
      have hc := h.closed ho
      refine ⟨by rw [hi]; exact hc.1, by rw [hi]; exact hc.2.1, by rw [hi]; exact hc.2.2.1, ?_⟩
      have hnc : canTransmit s = false := by unfold canTransmit; rw [hc.2.2.2]; rfl
      cases ha with
      | startTxRefused data hr => exact hc.2.2.2
      | startTxAccepted data hr => exact hc.2.2.2
      | dataFailed now e hc' he => simp [Session.reset]
      | dataSent now out _ hc' he hn => rw [hnc] at hc'; cases hc'
    · intro ho hs
      rw [r2] at ho
      rw [hi] at hs ⊢
      rcases h.idle ho hs with ⟨a, b, d⟩ | h
      · refine .inl ⟨a, b, ?_⟩
        cases hl : t.lowerReady with
        | false => rfl
        | true => rw [r5 hl] at d; cases d
      · exact .inr h
    · intro hE h2 hv htr
      rw [hi]
      exact h.trig hE h2 (ht hv htr).1 (ht hv htr).2
  · have ho : t.isOpen = true := by
      rw [r2]
      cases ho : s.isOpen with
      | true => rfl
      | false =>
        have hc := h.closed ho
        have hnc : canTransmit s = false := by unfold canTransmit; rw [hc.2.2.2]; rfl
        exfalso
        cases ha with
        | startTxRefused data hr =>
          have := congrArg Ini.required hi
          simp [hc.2.1] at this
        | startTxAccepted data hr =>
          have := congrArg Ini.required hi
          simp [hc.2.1] at this
        | dataFailed now e hc' he => rw [hnc] at hc'; cases hc'
        | dataSent now out _ hc' he hn => rw [hnc] at hc'; cases hc'
    refine ⟨by rw [hi]; exact h.timer, by rw [hi]; exact h.orphans, by rw [hi]; exact fun _ => rfl,
      (fun hx => by rw [ho] at hx; cases hx), fun _ _ => .inl ⟨by rw [hi], by rw [hi], hl⟩,
      (by rw [hi]; intro t ht; simp at ht), by rw [r3]; exact h.pend, fun _ _ _ _ => .inr (by rw [hi])⟩

/-- The state when a handshake attempt has failed. -/
theorem Good.retry {s t : Layer} (h : Good c E params s) (hs : s.ini.hs = .waitForBeginReply ∨ s.ini.hs = .waitForAuthReply)
    (h1 : t.isOpen = s.isOpen) (h2 : t.ini.orphans = 0) (h3 : t.ini.sessTimer = s.ini.sessTimer)
    (h4 : t.ini.respTimer = some .retry) (h5 : t.ini.hs = .waitForRetry) (h6 : Fresh1 t.pending) : Good c E params t := by
  have hb : s.ini.hs ≠ .idle := by rcases hs with h | h <;> rw [h] <;> simp
  have ho := h.isOpen_of_busy hb
  refine ⟨by rw [h4, h5]; rfl, h2, fun _ => by rw [h3]; exact h.busy hb, (fun hx => by rw [h1, ho] at hx; cases hx),
    (fun _ hi => by rw [h5] at hi; cases hi), ?_, h6, fun _ _ _ _ => .inl (by rw [h5]; simp)⟩
  intro t ht
  rw [h3, h.busy hb] at ht
  cases ht

theorem Good.rx (hrole : c.role = .initiator params limits) {s t : Layer} (h : Good c E params s) (ha : RxAtom c E s t)
    (hp : t.payloadLen = 0 ∨ t.payloadLen = s.payloadLen) (hn : t.inAuth = s.inAuth) (hna : s.inAuth = false) :
    Good c E params t := by
  have no : ∀ hh, ¬ c.role = .responder hh := by intro hh hx; rw [hrole] at hx; cases hx
  cases ha with
  | ignored m w hr => exact h.congr rfl rfl rfl rfl id
  | errorReply m w hh e frame hr hx => exact absurd hx (no _)
  | requestRefused m w hh msg now f e hr hx => exact absurd hx (no _)
  | requestAccepted m w hh msg now f frame hr hx => exact absurd hx (no _)
  | replyRefused m w params' limits' msg now hr hx hm hs hi _ hs1 =>
    subst hs1
    exact h.retry (.inl hs) rfl h.orphans rfl rfl rfl (fresh_initializeSession h.pend _ _ _ _ _ _ _ _)
  | replyAuthFailed m w params' limits' msg now now' e hr hx hm hs hi _ hs1 he _ hs2 =>
    subst hs2 hs1
    refine h.retry (.inl hs) (by simp) ?_ (by simp [Ini.start]) rfl rfl ?_
    · simp [Ini.start, h.orphans]
    · simp only [authFormatted_pending, establishedIf_pending]
      exact fresh_formatAuth (fresh_initializeSession h.pend _ _ _ _ _ _ _ _) _ _
  | replyAccepted m w params' limits' msg now now' out hr hx hm hs hi _ hs1 ho _ hs2 _ hs3 =>
    have hb : s.ini.hs ≠ .idle := by rw [hs]; simp
    have hop := h.isOpen_of_busy hb
    subst hs3 hs2 hs1
    refine ⟨rfl, by simp [Ini.start, h.orphans], fun _ => by simp [Ini.start, h.busy hb], ?_, fun _ hi => by simp at hi, ?_, ?_,
      fun _ _ _ _ => .inl (by simp)⟩
    · intro hx; simp [hop] at hx
    · intro t ht; simp [Ini.start, h.busy hb] at ht
    · simp only [sent_pending, authTaken_pending, authFormatted_pending, establishedIf_pending]
      exact fresh_formatAuth (fresh_initializeSession h.pend _ _ _ _ _ _ _ _) _ _
  | replyError m w params' limits' hr hx hs =>
    exact h.retry hs rfl (by simp [Ini.start, h.orphans]) rfl rfl rfl h.pend
  | initAuthRefused m w params' limits' msg now scratch e hr hx hm hz hs he _ hs1 =>
    subst hs1
    refine h.retry (.inr hs) (by simp) (by simp [Ini.start, h.orphans]) (by simp [Ini.start]) rfl rfl ?_
    simp only [authValidated_pending, received_pending, received_stats]
    exact fresh_validateAuth h.pend _ _ _ _ hz
  | initAuthOk m w params' limits' msg now scratch payload => simp [hna] at hn
  | respAuthRefused m w hh msg now scratch e hr hx => exact absurd hx (no _)
  | respAuthFailed m w hh msg now now' scratch payload e hr hx => exact absurd hx (no _)
  | respAuthOk m w hh msg now now' scratch payload out hr hx => exact absurd hx (no _)
  | dataRefused m w msg now scratch e hr hm hz he =>
    have hsame := same_validateData s.active s.stats msg now c.bufLen
    have hc : Good c E params { s with active := (s.active.validateData s.stats msg now c.bufLen).1 } := by
      refine ⟨h.timer, h.orphans, h.busy, ?_, h.idle, ?_, h.pend, ?_⟩
      · intro ho
        exact ⟨(h.closed ho).1, (h.closed ho).2.1, (h.closed ho).2.2.1, by rw [hsame.1.1]; exact (h.closed ho).2.2.2⟩
      · rw [hsame.2.2.2]; exact h.time
      · intro hE h2 hv htr
        rcases validateData_cases s.active s.stats msg now c.bufLen with ⟨st', e', hd, _⟩ | ⟨st', p, r, hd, hr', _, hrd, _⟩
        · rw [hd] at hv htr
          exact h.trig hE h2 hv htr
        · rw [hd] at he
          have hpe : p = [] := by
            by_cases hpe : p = []
            · exact hpe
            · rw [if_neg hpe] at hr'
              rw [hr'] at he
              cases he
          subst hpe
          exact absurd hrd (hE s m msg hr.2.2.2 hm hz)
    exact hc.congr (by simp) (by simp) (by simp) (by simp) (by simp)
  | dataOk m w msg now scratch payload hr hm hz hok =>
    exfalso
    have hne : payload ≠ [] := by
      rintro rfl
      rcases validateData_cases s.active s.stats msg now c.bufLen with ⟨st', e', hd, _⟩ | ⟨st', p, r, hd, hr', _⟩
      · rw [hd] at hok; cases hok
      · rw [hd] at hok
        subst hr'
        by_cases hpe : p = []
        · simp [hpe] at hok
        · simp [hpe] at hok
    have : payload.length ≠ 0 := by simpa using hne
    rcases hp with hp | hp
    · exact this hp
    · exact this (hp.trans hr.2.1)
  | readEmpty w => exact h.congr rfl rfl rfl rfl id
  | discarded => exact h.congr rfl rfl rfl rfl id
  | asked => exact h.congr rfl rfl rfl rfl id
  | readNothing => exact h.congr rfl rfl rfl rfl id
  | readData => exact h.congr rfl rfl rfl rfl id

/-- Nested reads only when there is something to read. -/
def Avail (E : Env) : Prop := ∀ s, E.nested s .startRx → s.payloadLen ≠ 0 ∧ s.rxFlag = false

theorem atomic (hE : Avail E) (hrole : c.role = .initiator params limits) :
    AtomicW c E (fun _ => True) (Inv c E params) J (Rel params) RelL := by
  have no : ∀ hh, ¬ c.role = .responder hh := by intro hh hx; rw [hrole] at hx; cases hx
  refine ⟨Rel.refl params, fun _ _ _ => .trans, fun _ _ _ h h' => ⟨h.1, h'.2⟩, fun _ _ h h' => ⟨h.1, h'.inAuth.trans h.1⟩,
    fun _ _ h => ⟨h.2, h.2⟩, fun _ _ _ h => ⟨h, h⟩, ?read, ?nested, ?init, ?tx, ?rx, ?respEnd, ?data, ?tail, fun _ _ _ _ _ h => h.2,
    ?top, ?ready, ?txReady, ?closing, ?closed⟩
  case read =>
    intro s _ _ _ h _ _
    exact ⟨fun hn => (h hn).congr rfl rfl rfl rfl id, rfl, rfl, rfl, rfl, id, .inl ⟨rfl, fun h h' => ⟨h, h'⟩⟩⟩
  case nested =>
    intro s t hn _ _ hc
    obtain ⟨h1, h2⟩ := hE s hn
    rcases hc with hc | hc
    · exact absurd hc h1
    · rw [h2] at hc; cases hc
  case init =>
    intro h _ _
    refine ⟨fun _ => ⟨rfl, rfl, fun _ => rfl, fun _ => ⟨rfl, rfl, rfl, rfl⟩, ?_, ?_, ?_, ?_⟩, rfl⟩
    · intro ho; cases ho
    · intro t ht; cases ht
    · intro hv; cases hv
    · intro _ _ hv; cases hv
  case tx =>
    intro s s' _ _ h ha
    have hr := TxStep.rel hrole ha
    exact ⟨fun hn => Good.tx hrole (h (hr.inAuth ▸ hn)) ha, hr⟩
  case rx =>
    intro s s' _ _ h hl ha hp
    refine ⟨fun hn => ?_, fun hn _ => ⟨hl.1, hn.trans hl.1⟩⟩
    exact Good.rx hrole (h hl.1) ha hp (hn.trans hl.1.symm) hl.1
  case respEnd =>
    rintro o s0 s _ _ _ _ _ ⟨_, _, _, hh, _, _, _, _, _, _, hx, _⟩ _
    exact absurd hx (no _)
  case data =>
    intro s m w msg now scratch payload s' _ _ h hl hr hm hz hok hne hn
    intro _
    have hg := h hl.1
    have hsame := same_validateData s.active s.stats msg now c.bufLen
    have hv := CloseProof.validateData_valid hok
    have ho : s.isOpen = true := by
      cases ho : s.isOpen with
      | true => rfl
      | false => rw [(hg.closed ho).2.2.2] at hv; cases hv
    rcases hn with ⟨rfl, hn⟩ | ⟨params', limits', hr', ht, hq⟩
    · refine ⟨hg.timer, hg.orphans, hg.busy, fun hx => by simp [ho] at hx, hg.idle, ?_, hg.pend, ?_⟩
      · intro t ht
        have := hg.time t ht
        simp only [dataValidated_active, received_active, received_stats, hsame.2.2.2]
        exact this
      · intro _ _ _ htr
        exact absurd ((trigger_iff params _).mpr htr) (hn params limits hrole)
    · exact Pre.hsReq hq ⟨hg.timer, hg.orphans, rfl, ho, hg.pend⟩
  case tail =>
    intro o s s' _ _ _ ho hl hs ht
    have hgo := ho hl.1
    refine ⟨?_, fun hx => ⟨hl.1, ?_⟩⟩
    · cases ht with
      | initAuthPayload s0 m w params' limits' msg now scratch payload a1 a2 a3 a4 a5 a6 a7 a8 a9 =>
        intro hn
        simp only [rxNotified_inAuth] at hn
        rw [a8.inAuth, a7] at hn
        simp at hn
      | initAuthEnd s0 m w params' limits' msg now scratch payload a1 a2 a3 a4 a5 a6 a7 a8 =>
        intro _
        rw [hrole] at a2
        cases a2
        have hr : Rel params s0 s := by
          rcases a8 with ⟨_, hr⟩ | ⟨s1, hr, _, hr'⟩
          · exact hr
          · refine hr.trans (.trans ?_ hr')
            exact ⟨by simp, by simp, by simp, by simp, by simp, .inl ⟨by simp, by simpa using fun h h' => ⟨h, h'⟩⟩⟩
        have hb : o.ini.hs ≠ .idle := by rw [a5]; simp
        have hop := hgo.isOpen_of_busy hb
        have h0 : s0.ini = ({ o.ini with
            respTimer := none
            required := false
            sessTimer := some ((o.pending.validateAuth o.stats msg now c.bufLen).1.param.sessionStart +
              ms params.sessionTimeTriggerMs) } : Ini) := by
          rw [a7]; simp [Ini.startSess, hgo.busy hb]
        have hact : s0.active = (o.pending.validateAuth o.stats msg now c.bufLen).1 := by rw [a7]; simp
        have hpend : s0.pending = o.active.reset := by rw [a7]; simp
        have hopen : s.isOpen = true := by rw [hr.isOpen, a7]; simpa using hop
        have hfr := fresh_validateAuth hgo.pend o.stats msg now c.bufLen a4
        have hvp : Fresh1 s.pending := by
          rw [hr.pending, hpend]; intro hv; simp [Session.reset] at hv
        rcases hr.ini with ⟨hi, htr⟩ | ⟨hi, hlr⟩
        · rw [h0] at hi
          refine ⟨by simp [hi, timerOf], by simp [hi, hgo.orphans], fun hx => absurd rfl hx, fun hx => by simp [hopen] at hx,
            fun _ _ => .inr ⟨by simp [hi], by simp [hi]⟩, ?_, hvp, ?_⟩
          · intro t ht
            simp only [hi, Option.some.injEq] at ht
            rw [← ht, ← hact, ← hr.param]
          · intro _ h2 hv htr'
            have := htr hv htr'
            rw [hact] at this
            exact absurd this.2 (fresh_not_triggered (hfr this.1) h2)
        · rw [h0] at hi
          refine ⟨by simp [hi, timerOf], by simp [hi, hgo.orphans], fun hx => absurd rfl hx, fun hx => by simp [hopen] at hx,
            fun _ _ => .inl ⟨by simp [hi], by simp [hi], hlr⟩, ?_, hvp, fun _ _ _ _ => .inr (by simp [hi])⟩
          intro t ht
          simp [hi] at ht
      | dataNotified s1 m w msg now scratch payload a1 a2 a3 a4 a5 a6 a7 =>
        intro hn
        exact (hs (by simpa using hn)).congr (by simp) (by simp) (by simp) (by simp) (by simp)
      | respAuthPayload s0 s1 m w hh msg now now' scratch payload out a1 a2 => exact absurd a2 (no _)
    · rcases hx with hx | hx | ⟨hh, hx⟩
      · exact hx
      · exact hx.trans hl.1
      · exact absurd hx (no _)
  case top =>
    intro s s' _ _ h hj ha hle
    have hg := h hj
    suffices hs : Good c E params s' ∧ s'.inAuth = false from ⟨fun _ => hs.1, hs.2⟩
    cases ha with
    | ready b => exact ⟨hg.congr rfl rfl rfl rfl hle, hj⟩
    | openedResponder hh hx => exact absurd hx (no _)
    | openedInitiator params' limits' _ hx ho hq =>
      have hc := hg.closed ho
      refine ⟨Pre.hsReq hq ⟨hg.timer, hg.orphans, hc.2.2.1, rfl, hg.pend⟩, ?_⟩
      rw [hq.inAuth]; exact hj
    | txComplete ho => exact ⟨hg.congr rfl rfl rfl rfl id, hj⟩
    | preTxReady params' limits' _ hx hr ho hq =>
      exact ⟨Pre.hsReq hq (hg.pre_required ho hr), by rw [hq.inAuth]; exact hj⟩
    | txNotified => exact ⟨hg.congr (by simp) (by simp) (by simp) (by simp) (by simp), by rw [txNotified_inAuth]; exact hj⟩
    | responseTimeout params' limits' hx ht i hi i' hi' =>
      subst hi
      have hs : s.ini.hs = .waitForBeginReply ∨ s.ini.hs = .waitForAuthReply := by
        have := hg.timer
        rw [ht] at this
        revert this
        cases s.ini.hs <;> simp [timerOf]
      rw [if_pos hs] at hi'
      subst hi'
      exact ⟨hg.retry hs rfl (by simp [Ini.start, hg.orphans]) rfl rfl rfl hg.pend, hj⟩
    | retryTimeout params' limits' _ hx ht i hi hq =>
      subst hi
      have hs : s.ini.hs = .waitForRetry := by
        have := hg.timer
        rw [ht] at this
        revert this
        cases s.ini.hs <;> simp [timerOf]
      have hb : s.ini.hs ≠ .idle := by rw [hs]; simp
      refine ⟨Pre.hsReq hq ⟨by simp [hs, timerOf], hg.orphans, hg.busy hb, hg.isOpen_of_busy hb, hg.pend⟩, ?_⟩
      rw [hq.inAuth]; exact hj
    | sessionTimeout params' limits' _ hx ht hq =>
      have ho : s.isOpen = true := by
        cases ho : s.isOpen with
        | true => rfl
        | false => rw [(hg.closed ho).2.2.1] at ht; simp at ht
      exact ⟨Pre.hsReq hq (hg.pre ho), by rw [hq.inAuth]; exact hj⟩
    | orphanResponse params' limits' hx ht => rw [hg.orphans] at ht; cases ht
    | orphanRetry params' limits' _ hx ht => rw [hg.orphans] at ht; cases ht
    | orphanSession params' limits' _ hx ht => rw [hg.orphans] at ht; cases ht
  case ready =>
    intro s b _ _ h hj ho
    have hg := h hj
    refine ⟨fun _ => ?_, hj⟩
    exact ⟨hg.timer, hg.orphans, hg.busy, hg.closed, fun ho' => (by rw [show s.isOpen = true from ho'] at ho; cases ho), hg.time, hg.pend, hg.trig⟩
  case txReady =>
    intro s s' _ _ h hj ho ha
    have hg := h hj
    suffices hs : Good c E params s' ∧ s'.inAuth = false from ⟨fun _ => hs.1, hs.2⟩
    cases ha with
    | attempt params' limits' _ hx hr hq =>
      have hp := hg.pre_required ho hr
      exact ⟨Pre.hsReq hq ⟨hp.timer, hp.orphans, hp.sess, hp.isOpen, hp.pend⟩, by rw [hq.inAuth]; exact hj⟩
    | idle hr =>
      have hr := hr params limits hrole
      refine ⟨⟨hg.timer, hg.orphans, hg.busy, hg.closed, ?_, hg.time, hg.pend, hg.trig⟩, hj⟩
      intro ho hi
      rcases hg.idle ho hi with hx | hx
      · rw [hr] at hx; cases hx.1
      · exact .inr hx
  case closing =>
    intro s b _ _ h hj ho
    have hg := h hj
    intro _
    refine ⟨by simp [hrole, timerOf], ?_, by simp [hrole], fun _ => by simp [hrole, Session.reset], by simp, by simp [hrole],
      by simp [Session.reset], by simp [Session.reset]⟩
    simp [hrole, Layer.readied, hg.orphans]
  case closed =>
    intro s0 b s _ _ _ h0 hj0 ho h hr
    have hn : s.inAuth = false := by rw [hr.inAuth, lowerClosing_inAuth]; exact hj0
    exact ⟨fun _ => (h hn).congr rfl rfl rfl rfl id, hn⟩

theorem quiet (hE : Spec.ReadsAtOnce c E) (hrole : c.role = .initiator params limits) {s : Layer} (h : Quiet c E s) :
    Good c E params s := by
  let E' : Env := { E with nested := fun s a => E.nested s a ∧ (a = .startRx → s.payloadLen ≠ 0 ∧ s.rxFlag = false) }
  have h' : Quiet c E' s := Reachable.restrict (E := E) (E' := E') (fun _ h => h)
    (fun s a ho hn => ⟨hn, fun ha => available_of_readsAtOnce hE ho (ha ▸ hn)⟩) (fun _ _ h => h) h
  have hE' : Avail E' := fun s hn => hn.2 rfl
  have := ((atomic hE' hrole).proof (.trivial c E')).quiet h'
  have hg := this.1.2 this.2
  exact ⟨hg.timer, hg.orphans, hg.busy, hg.closed, hg.idle, hg.time, hg.pend, hg.trig⟩

theorem qt_noteKey (o : Option (UInt64 × Bytes)) {A : Fresh → Prop} {F : Prop} (Q : Unit → Layer → Prop) (s : Layer) :
    (noteKey o).quietly A F Q s ↔ Q () { s with log := s.log ++ keyObs o } := by
  cases o with
  | some id => exact Iff.rfl
  | none =>
    show Q () s ↔ _
    simp [keyObs]

theorem qt_onHandshakeRequired {F : Prop} {Q : Unit → Layer → Prop} {s : Layer}
    (h : ∀ s', HsReq c limits s s' → Q () s') : (onHandshakeRequired c limits).quietly Fresh.ok F Q s := by
  unfold onHandshakeRequired
  simp only [qt_bind, qt_getTime, qt_get]
  intro f hf
  split
  · rename_i hi
    unfold idleOnHandshakeRequired
    simp only [qt_bind, qt_get, qt_ite, setState, qt_modifyIni, qt_pure, qt_ask, qt_noteKey]
    refine ⟨fun hr => ?_, fun hr f' hf' => ?_⟩
    · have := h _ (.deferred (.inr (by simpa using hr)))
      simpa [hi] using this
    · have hr' : s.lowerReady = true := by simpa using hr
      split
      · rename_i hn
        simp only [startTimer, qt_modifyIni, qt_bind, qt_pure]
        simp only [usedRecord_none hn, keyObs, List.append_nil]
        exact h _ (.noKey f' hf' hi hr' hn)
      · rename_i eph data hn
        split
        · rename_i e he
          exact h _ (.badConfig f' eph data e hf' hi hr' hn he)
        · rename_i w hw
          simp only [qt_bind, qt_modifyIni, qt_lowerStartTx, startTimer, qt_pure]
          exact h _ (.sent f.now f' eph data w hf' hi hr' hn hw)
  · rename_i hi
    simp only [qt_bind, qt_modifyIni, setState]
    exact h _ (.deferred (.inl hi))

theorem keyObs_eq (o : Option (UInt64 × Bytes)) : keyObs o = (o.map Obs.keyUsed).toList := by cases o <;> rfl

/-- A demand in the idle state is an attempt. -/
theorem _root_.SSP21.Crypto.HsReq.attempt {s t u : Layer} (h : HsReq c limits t u) (hi : t.ini.hs = .idle) (h1 : t.log = s.log)
    (h2 : t.lowerReady = s.lowerReady) (h3 : t.ini.handshake = s.ini.handshake) : Attempt c limits s u := by
  cases h with
  | deferred hd =>
    have hl : t.lowerReady = false := hd.resolve_left (fun h => h hi)
    exact .postponed (h2 ▸ hl) h1 hl hi rfl
  | noKey f hf _ hr hn =>
    rw [h3] at hn
    unfold InitiatorHandshake.initializeNew at hn
    split at hn
    · cases hn
    · rename_i key hm
      exact .noKey key hm h1 rfl rfl
    · cases hn
  | badConfig f eph data e hf _ hr hn he =>
    refine .badConfiguration (t.ini.handshake.usedRecord f.record) _ e rfl he ?_ rfl
    rw [← keyObs_eq, ← h1]
  | sent now f eph data w hf _ hr hn hw =>
    refine .sent (t.ini.handshake.usedRecord f.record) _ w (h2 ▸ hr) rfl hw ?_ rfl rfl
    rw [← keyObs_eq, ← h1, ← hr]
    rfl

theorem _root_.SSP21.Crypto.HsReq.unnoticed {s t u : Layer} (h : HsReq c limits t u) (h1 : t.isOpen = s.isOpen)
    (h2 : t.upperOpen = s.upperOpen) (h3 : t.active = s.active) (h4 : t.tx = s.tx) (h5 : t.payload = s.payload) :
    Unnoticed s u := by
  refine ⟨h.isOpen.trans h1, h.upperOpen.trans h2, h.active.trans h3, h.tx.trans h4, ?_⟩
  unfold Layer.payload
  rw [h.buf, h.payloadLen]
  exact h5

end

end LivenessProof

section
open Spec LivenessProof
variable {c : Cfg} {E : Env} {params : Params} {limits : SessionLimits}

/-- C34. Whenever no function of the layer is active, something is under way that will make an open initiator act, and
no other timer than the one for its state is running. -/
theorem C34_never_stuck (hE : Spec.ReadsAtOnce c E) (hrole : c.role = .initiator params limits) {s : Layer} (h : Quiet c E s)
    (ho : s.isOpen = true) : Driven s ∧ s.ini.orphans = 0 ∧
      (s.ini.respTimer.isSome → s.ini.sessTimer = none) := by
  have hg := LivenessProof.quiet hE hrole h
  refine ⟨?_, hg.orphans, ?_⟩
  · have ht := hg.timer
    cases hs : s.ini.hs <;> rw [hs] at ht <;> simp only [timerOf] at ht
    · rcases hg.idle ho hs with ⟨h1, _, h2⟩ | ⟨h1, h2⟩
      · exact .lowerBusy hs h1 h2
      · exact .session hs h1 h2
    · exact .reply (.inl hs) ht
    · exact .reply (.inr hs) ht
    · exact .retry hs ht
    · exact .badConfiguration hs
  · intro hx
    apply hg.busy
    intro hi
    rw [hg.timer, hi] at hx
    cases hx

/-- C34. The expiry of the retry timer leads to an attempt to begin a handshake; until the attempt is made neither the
application nor the layer below has control. -/
theorem C34_retry (hE : Spec.ReadsAtOnce c E) (hrole : c.role = .initiator params limits) {s : Layer} (h : Quiet c E s)
    (ht : (Event.expiry .retry).enabled s) :
    ((Event.expiry .retry).run c s).Quietly Fresh.ok False fun _ s' => Attempt c limits s s' ∧ Unnoticed s s' := by
  have hg := LivenessProof.quiet hE hrole h
  have hs : s.ini.hs = .waitForRetry := by
    have := hg.timer
    rw [show s.ini.respTimer = some .retry from ht] at this
    revert this
    cases s.ini.hs <;> simp [timerOf]
  show (onExpiry c .retry).quietly Fresh.ok False _ s
  unfold onExpiry onRetryTimeout
  rw [hrole]
  simp only [qt_bind, qt_modifyIni, qt_get, hs, setState]
  apply qt_onHandshakeRequired
  intro s' hq
  exact ⟨hq.attempt rfl rfl rfl rfl, hq.unnoticed rfl rfl rfl rfl rfl⟩

/-- C34, C35. The expiry of the session timer leads to an attempt to begin a handshake. -/
theorem C34_session (hE : Spec.ReadsAtOnce c E) (hrole : c.role = .initiator params limits) {s : Layer} (h : Quiet c E s)
    (ht : (Event.expiry .session).enabled s) :
    ((Event.expiry .session).run c s).Quietly Fresh.ok False fun _ s' => Attempt c limits s s' ∧ Unnoticed s s' := by
  have hg := LivenessProof.quiet hE hrole h
  have hs : s.ini.hs = .idle := by
    by_cases hs : s.ini.hs = .idle
    · exact hs
    · have ht : s.ini.sessTimer.isSome := ht
      rw [hg.busy hs] at ht
      cases ht
  show (onExpiry c .session).quietly Fresh.ok False _ s
  unfold onExpiry
  rw [hrole]
  simp only [qt_bind, qt_modifyIni]
  apply qt_onHandshakeRequired
  intro s' hq
  exact ⟨hq.attempt hs rfl rfl rfl, hq.unnoticed rfl rfl rfl rfl rfl⟩

/-- C34. When the reply does not arrive in time the initiator waits for the retry timer, which it starts. -/
theorem C34_response (hE : Spec.ReadsAtOnce c E) (hrole : c.role = .initiator params limits) {s : Layer} (h : Quiet c E s)
    (ht : (Event.expiry .response).enabled s) :
    ((Event.expiry .response).run c s).Quietly Fresh.ok False fun _ s' =>
      s'.ini.hs = .waitForRetry ∧ s'.ini.respTimer = some .retry ∧ s'.log = s.log ∧ Unnoticed s s' := by
  have hg := LivenessProof.quiet hE hrole h
  have hs : s.ini.hs = .waitForBeginReply ∨ s.ini.hs = .waitForAuthReply := by
    have := hg.timer
    rw [show s.ini.respTimer = some .response from ht] at this
    revert this
    cases s.ini.hs <;> simp [timerOf]
  show (onExpiry c .response).quietly Fresh.ok False _ s
  unfold onExpiry onResponseTimeout
  rw [hrole]
  rcases hs with hs | hs <;>
    simp only [qt_bind, qt_modifyIni, qt_get, hs, startTimer, setState, true_and] <;> exact ⟨rfl, rfl, rfl, rfl, rfl⟩

/-- C34. When an error is the answer, the initiator waits for the retry timer, which it starts; it transmits nothing. -/
theorem C34_error_reply (hrole : c.role = .initiator params limits) {s : Layer}
    (hs : s.ini.hs = .waitForBeginReply ∨ s.ini.hs = .waitForAuthReply) {m : Bytes} {e : ReplyHandshakeError}
    (hm : ReplyHandshakeError.read m = .ok e) :
    (process c m).quietly Fresh.ok False (fun _ s' =>
      s'.ini.hs = .waitForRetry ∧ s'.ini.respTimer = some .retry ∧ s'.log = s.log ∧ Unnoticed s s') s := by
  have h0 := (C03_function_code m).2.2.1 e hm
  cases m with
  | nil => cases h0
  | cons x xs =>
    cases h0
    unfold process
    simp only [qt_bind, qt_getTime]
    intro f hf
    rw [show Function.fromType 2 = .reply_handshake_error from rfl]
    simp only [supports, hrole, hm, Bool.not_true, Bool.false_eq_true, if_false]
    unfold onReplyError
    rcases hs with hs | hs <;>
      simp only [qt_bind, qt_modifyIni, qt_get, hs, startTimer, cancelTimer, setState, true_and] <;> exact ⟨rfl, rfl, rfl, rfl, rfl⟩

/-- C34. When the layer below can transmit again, an initiator that waits for it begins a handshake before anything else
happens. -/
theorem C34_txReady (hrole : c.role = .initiator params limits) {s : Layer}
    (ho : s.isOpen = true) (hi : s.ini.hs = .idle) (hr : s.ini.required = true) :
    ∃ r k, Event.lowerTxReady.run c s = Run.bind (α := Unit) r k ∧
      r.Quietly Fresh.ok False fun _ s' => Attempt c limits (s.readied true) s' ∧ s'.active = s.active ∧
        s'.upperOpen = s.upperOpen ∧ (s'.ini.hs ≠ .idle) := by
  refine ⟨(onHandshakeRequired c limits) { s.readied true with tx := s.tx.onTxComplete.1 },
    fun _ s' => ((do
      if s.tx.onTxComplete.2 then upperOnTxReady else pure ()
      tryRead
      checkTransmit c : M Unit) s'), ?_, ?_⟩
  · show (onLowerTxReady c) (s.readied true) = _
    obtain ⟨isOpen, upperOpen, rxFlag, lowerReady, active, pending, stats, tx, buf, payloadLen,
      ⟨hs, handshake, respTimer, sessTimer, orphans, required⟩, inAuth, log⟩ := s
    cases ho
    cases hr
    unfold onLowerTxReady onPreTxReady
    rw [hrole]
    rfl
  · refine qt_onHandshakeRequired fun s' hq => ?_
    refine ⟨hq.attempt hi rfl rfl rfl, hq.active, hq.upperOpen, ?_⟩
    cases hq with
    | deferred hd => rcases hd with hd | hd
                     · exact absurd hi hd
                     · cases hd
    | noKey => simp
    | badConfig => simp
    | sent => simp

/-- C35. Provided the trigger is at least 2 and the peer sends no empty data messages: when the nonce of either
direction has reached the trigger, a handshake is under way, or will be begun as soon as the layer below can transmit. -/
theorem C35_nonce_trigger (hE : Spec.ReadsAtOnce c E) (hrole : c.role = .initiator params limits) (hd : NoEmptyData c E)
    (h2 : 2 ≤ params.nonceTrigger.toNat) {s : Layer} (h : Quiet c E s) (hv : s.active.valid = true)
    (ht : TriggerReached params s.active) :
    s.ini.hs ≠ .idle ∨ s.ini.required = true ∧ s.lowerReady = false := by
  have hg := LivenessProof.quiet hE hrole h
  by_cases hi : s.ini.hs = .idle
  · have ho : s.isOpen = true := by
      cases ho : s.isOpen with
      | true => rfl
      | false => rw [(hg.closed ho).2.2.2] at hv; cases hv
    rcases hg.idle ho hi with h | h
    · exact .inr ⟨h.1, h.2.2⟩
    · rcases hg.trig hd h2 hv ht with hx | hx
      · exact absurd hi hx
      · rw [h.1] at hx; cases hx
  · exact .inl hi

/-- C35. An idle initiator that is not waiting for the layer below has its session timer running, and the timer is set
to the start of the session plus the configured time. -/
theorem C35_session_timer (hE : Spec.ReadsAtOnce c E) (hrole : c.role = .initiator params limits) {s : Layer} (h : Quiet c E s)
    (ho : s.isOpen = true) (hi : s.ini.hs = .idle) (hr : s.ini.required = false) :
    s.ini.sessTimer = some (s.active.param.sessionStart + ms params.sessionTimeTriggerMs) := by
  have hg := LivenessProof.quiet hE hrole h
  rcases hg.idle ho hi with h | h
  · rw [hr] at h; cases h.1
  · obtain ⟨t, ht⟩ := Option.isSome_iff_exists.1 h.2
    rw [ht, hg.time t ht]

end

namespace LayerExample
open Exec Spec
set_option synthInstance.maxSize 2000

set_option maxRecDepth 1000000 in
/-- An initiator that waits for a reply, and an error message. -/
example : ∃ s m e, Quiet ini EnvB.tame.env s ∧ s.ini.hs = .waitForBeginReply ∧ ReplyHandshakeError.read m = .ok e := by
  obtain ⟨s, h1, h2⟩ := Exec.exists_of_map configured (c := ini) (E := .tame) (h := hs) (script := iniRequest)
    (f := fun s => s.ini.hs) (a := .waitForBeginReply) rfl
  exact ⟨s, Spec.error ⟨protocolVersion, .bad_message_format⟩, _, h1, h2, (C03_error_canonical _ _).mpr ⟨by simp [ReplyHandshakeError.WF], rfl⟩⟩

/-- An initiator waiting for a reply, an idle one with a session, one that has to renegotiate as soon as the layer below
is ready, and one waiting for the retry timer. -/
def driven (s : Layer) : HState × Option TimerKind × Bool × Bool × Bool × Bool :=
  (s.ini.hs, s.ini.respTimer, s.ini.sessTimer.isSome, s.ini.required, s.lowerReady, s.active.valid)

example : ∃ s, Quiet ini EnvB.tame.env s ∧ s.isOpen = true ∧
    driven s = (.waitForBeginReply, some .response, false, false, false, false) := by
  obtain ⟨s, h1, h2⟩ := Exec.exists_of_map configured (c := ini) (E := .tame) (h := hs) (script := iniRequest)
    (f := fun s => (s.isOpen, driven s)) (a := (true, .waitForBeginReply, some .response, false, false, false, false))
    (by decide +kernel)
  rw [Prod.mk.injEq] at h2
  exact ⟨s, h1, h2⟩

example : ∃ s, Quiet ini EnvB.tame.env s ∧ s.isOpen = true ∧ driven s = (.idle, none, true, false, true, true) := by
  obtain ⟨s, h1, h2⟩ := Exec.exists_of_map configured (c := ini) (E := .tame) (h := hs) (script := iniOpen)
    (f := fun s => (s.isOpen, driven s)) (a := (true, .idle, none, true, false, true, true)) (by decide +kernel)
  rw [Prod.mk.injEq] at h2
  exact ⟨s, h1, h2⟩

/-- The retry timer. -/
example : ∃ s, Quiet ini EnvB.tame.env s ∧ (Event.expiry .retry).enabled s := by
  obtain ⟨s, h1, h2⟩ := Exec.exists_of_map configured (c := ini) (E := .tame) (h := hs)
    (script := iniRequest ++ [.event (.expiry .response)])
    (f := fun s => s.ini.respTimer) (a := some .retry) (by decide +kernel)
  exact ⟨s, h1, h2⟩

/-- The session timer. -/
example : ∃ s, Quiet ini EnvB.tame.env s ∧ (Event.expiry .session).enabled s := by
  obtain ⟨s, h1, h2⟩ := Exec.exists_of_map configured (c := ini) (E := .tame) (h := hs)
    (script := iniOpen) (f := fun s => s.ini.sessTimer.isSome) (a := true) (by decide +kernel)
  exact ⟨s, h1, h2⟩

/-- The application sends twice: the next nonce is 3, the trigger. -/
def iniTriggered : List Choice := iniData ++ [.event .lowerTxReady, .ret, .recv [], ans 12, .api (.startTx [4]), ans 12, ans 12]

/-- An initiator whose nonce has reached the trigger, in an environment without empty data messages. -/
def noEmpty : EnvB := ⟨fun _ a => match a with | .startRx => false | _ => true, fun s m => (s.isOpen || m.isEmpty) &&
  match SessionData.read m with
  | .error _ => true
  | .ok msg => msg.metadata.nonce == 0 ||
    match s.active.algorithms.mode.read s.active.keys.rxKey msg ini.bufLen with | .ok [] => false | _ => true⟩

theorem noEmpty_noNestedRx : noEmpty.env.NoNestedRx := by
  intro s h
  simp [EnvB.env, noEmpty] at h

theorem noEmpty_spec : NoEmptyData ini noEmpty.env := by
  intro s m msg h hm hn hx
  simp [EnvB.env, noEmpty, hm, hn, hx] at h

example : ∃ s, Quiet ini noEmpty.env s ∧ s.active.valid = true ∧ TriggerReached params s.active ∧
    s.ini.hs = .idle ∧ s.ini.required = true := by
  obtain ⟨s, h1, h2⟩ := Exec.exists_of_map configured (c := ini) (E := noEmpty) (h := hs) (script := iniTriggered)
    (f := fun s => (s.active.valid, s.active.txNonce, s.ini.hs, s.ini.required)) (a := (true, 3, .idle, true))
    (by decide +kernel)
  simp only [Prod.mk.injEq] at h2
  exact ⟨s, h1, h2.1, .inl (by rw [h2.2.1]; decide), h2.2.2⟩

/-- ... and it sends its request when the layer below is ready. -/
example : ∃ s, Quiet ini noEmpty.env s ∧ driven s = (.waitForBeginReply, some .response, false, true, false, true) := by
  obtain ⟨s, h1, h2⟩ := Exec.exists_of_map configured (c := ini) (E := noEmpty) (h := hs)
    (script := iniTriggered ++ [.event .lowerTxReady, ans 13, ans 13, .ret])
    (f := driven) (a := (.waitForBeginReply, some .response, false, true, false, true))
    (by decide +kernel)
  exact ⟨s, h1, h2⟩

/-! ### The restrictions are needed -/

/-- The trigger is 2; the responder sends two data messages after its session auth message. -/
def ini2 : Cfg := { ini with role := .initiator ⟨30000, 2⟩ limits }
def resDataA : List Choice := resAuth ++ [.api (.startTx [1]), .event .lowerTxReady, .recv [], ans 10, ans 10]
def dataA : Bytes := lastTx (final res .tame hs resDataA)
def resDataB : List Choice := resDataA ++ [.event .lowerTxReady, .ret, .recv [], ans 11, .api (.startTx [2]), ans 11]
def dataB : Bytes := lastTx (final res .tame hs resDataB)
/-- The application of the initiator reads both from inside the callback "opened". -/
def iniStall : List Choice := iniAuth ++ [.event .lowerTxReady, .recv auth2, ans 12, ans 12, ans 12,
  .api .startRx, .recv dataA, ans 12, ans 12, ans 12, .ret, .api .startRx,
  .api .startRx, .recv dataB, ans 12, ans 12, ans 12, ans 12, .ret, .ret]

/-- The application reads from inside callbacks at once when it is told that there is data, before the first close. The
proxy does that. -/
def atOnce : EnvB := ⟨fun s a => match a with
    | .startRx => (match s.log.getLast? with | some (.up .rxReady) => true | _ => false) &&
        s.log.all fun | .lowerClose => false | _ => true
    | _ => true, EnvB.tame.recv⟩

theorem atOnce_reads (c : Cfg) : ReadsAtOnce c atOnce.env := by
  intro s h
  simp only [EnvB.env, atOnce, Bool.and_eq_true] at h
  obtain ⟨h1, h2⟩ := h
  refine ⟨?_, .inr fun hm => ?_⟩
  · split at h1
    · assumption
    · cases h1
  · have := List.all_eq_true.mp h2 _ hm
    cases this

/-- The initiator of the example, used through an `IStack`. -/
def iniStack : Cfg := { ini with viaStack := true }
def iniAtOnce : List Choice := iniOpen ++ [.event .lowerRxReady, .recv dataA, ans 12, ans 12, ans 12, .api .startRx, .ret]

/-- The initiator receives data, and its application reads it from inside the callback. The theorems apply. -/
example : ∃ s, Quiet iniStack atOnce.env s ∧ ReadsAtOnce iniStack atOnce.env ∧ s.isOpen = true ∧
    (s.log.map tag).drop 10 = [0, 5, 13, 8] ∧ given s = [[1]] ∧ driven s = (.idle, none, true, false, true, true) := by
  obtain ⟨s, h1, h2⟩ := Exec.exists_of_map (configured : hs.Configured iniStack.backend iniStack.caps) (c := iniStack)
    (E := atOnce) (h := hs) (script := iniAtOnce) (f := fun s => (s.isOpen, (s.log.map tag).drop 10, given s, driven s))
    (a := (true, [0, 5, 13, 8], [[1]], .idle, none, true, false, true, true)) (by decide +kernel)
  simp only [Prod.mk.injEq] at h2
  exact ⟨s, h1, atOnce_reads _, h2.1, h2.2.1, h2.2.2.1, by simpa only [driven, Prod.mk.injEq] using h2.2.2.2⟩

/-- C34 and C35 fail for applications that read from inside "opened": the initiator must renegotiate, but it waits for
an event that nothing announces: the layer below is ready, and no timer runs. -/
theorem C34_nested_stall : ∃ c s params limits, c.role = .initiator params limits ∧ Quiet c EnvB.any.env s ∧
    s.isOpen = true ∧ s.ini.hs = .idle ∧ s.ini.required = true ∧ s.lowerReady = true ∧ s.ini.respTimer = none ∧
    s.ini.sessTimer = none ∧ s.ini.orphans = 0 ∧ ¬ Driven s := by
  obtain ⟨s, h1, h2⟩ := Exec.exists_of_map (configured : hs.Configured ini2.backend ini2.caps) (c := ini2) (E := .any)
    (h := hs) (script := iniStall)
    (f := fun s => (s.isOpen, s.ini.hs, s.ini.required, s.lowerReady, s.ini.respTimer, s.ini.sessTimer, s.ini.orphans))
    (a := (true, .idle, true, true, none, none, 0)) (by decide +kernel)
  simp only [Prod.mk.injEq] at h2
  obtain ⟨a1, a2, a3, a4, a5, a6, a7⟩ := h2
  refine ⟨ini2, s, ⟨30000, 2⟩, limits, rfl, h1, a1, a2, a3, a4, a5, a6, a7, ?_⟩
  intro h
  cases h with
  | reply _ h => rw [a5] at h; cases h
  | retry _ h => rw [a5] at h; cases h
  | session _ _ h => rw [a6] at h; cases h
  | lowerBusy _ _ h => rw [a4] at h; cases h
  | badConfiguration h => rw [a2] at h; cases h

/-- An empty data message with the given nonce, sealed with the keys of the responder of `resAuth`. -/
def emptyMsg (n : Nat) : Bytes :=
  match final res .tame hs resAuth with
  | none => []
  | some s =>
    match ({ s.active with txNonce := UInt16.ofNat n }.formatData 10 []).2.2 with
    | .ok f => f.frame
    | .error _ => []

def iniEmpty : List Choice := iniOpen ++ [.event .lowerRxReady, .recv (emptyMsg 1), ans 10, ans 10, ans 10,
  .recv (emptyMsg 2), ans 10, ans 10, ans 10, .recv (emptyMsg 3), ans 10, ans 10, ans 10, .recv [], ans 10]

/-- C35 fails with a peer that sends authentic data messages without user data: they use up the nonces of the session
without triggering a renegotiation. -/
theorem C35_empty_data_violation : ∃ s, Quiet ini EnvB.tame.env s ∧ s.active.valid = true ∧
    TriggerReached params s.active ∧ s.ini.hs = .idle ∧ s.ini.required = false := by
  obtain ⟨s, h1, h2⟩ := Exec.exists_of_map configured (c := ini) (E := .tame) (h := hs) (script := iniEmpty)
    (f := fun s => (s.active.valid, s.active.rxNonce, s.ini.hs, s.ini.required)) (a := (true, 3, .idle, false))
    (by decide +kernel)
  simp only [Prod.mk.injEq] at h2
  exact ⟨s, h1, h2.1, .inr (by rw [h2.2.1]; decide), h2.2.2⟩

/-- The nonce limit (2) is below the trigger (10). -/
def ini3 : Cfg := { ini with role := .initiator ⟨30000, 10⟩ ⟨2, 60000⟩ }
def request3L := lastTx (final ini3 .tame hs iniRequest)
def resReply3L : List Choice := [.event (.lowerOpen true), .event .lowerRxReady, .recv request3L, ans 6, ans 6 8, ans 6 8]
def reply3L : Bytes := lastTx (final res .tame hs resReply3L)
def iniAuth3L : List Choice := iniRequest ++ [.event .lowerTxReady, .recv reply3L, ans 7, ans 7, ans 7]
def auth13L : Bytes := lastTx (final ini3 .tame hs iniAuth3L)
def resAuth3L : List Choice := resReply3L ++ [.event .lowerTxReady, .recv auth13L, ans 8, ans 8, ans 8, ans 8, .ret]
def auth23L : Bytes := lastTx (final res .tame hs resAuth3L)
def iniOpen3L : List Choice := iniAuth3L ++ [.event .lowerTxReady, .recv auth23L, ans 9, ans 9, ans 9, .ret, .recv [], ans 9]
/-- The second message of the application cannot be sent any more: the session is dropped. -/
def iniFailed : List Choice := iniOpen3L ++ [.api (.startTx [1, 2, 3]), ans 10, .event .lowerTxReady, .ret, .recv [],
  ans 10, .api (.startTx [4, 5, 6]), ans 10, .ret]

/-- "Idle with a running session timer" does not mean that there is a session: after a failed transmission the session
is gone and the application is closed, but the initiator waits for the session timer before it tries again. -/
theorem C34_idle_without_session : ∃ c s params limits, c.role = .initiator params limits ∧ Quiet c EnvB.tame.env s ∧
    s.isOpen = true ∧ s.ini.hs = .idle ∧ s.ini.required = false ∧ s.lowerReady = true ∧ s.active.valid = false ∧
    s.upperOpen = false := by
  obtain ⟨s, h1, h2⟩ := Exec.exists_of_map (configured : hs.Configured ini3.backend ini3.caps) (c := ini3) (E := .tame)
    (h := hs) (script := iniFailed)
    (f := fun s => (s.isOpen, s.ini.hs, s.ini.required, s.lowerReady, s.active.valid, s.upperOpen))
    (a := (true, .idle, false, true, false, false)) (by decide +kernel)
  simp only [Prod.mk.injEq] at h2
  exact ⟨ini3, s, ⟨30000, 10⟩, ⟨2, 60000⟩, rfl, h1, h2⟩

end LayerExample

end SSP21.Crypto
