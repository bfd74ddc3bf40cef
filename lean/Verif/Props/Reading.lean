import Verif.Props.Delivery
import Verif.Props.LayerSessions
/-
  Properties C33 and C44 for a whole layer: what the application is given is what arrived in the sessions of the
  layer, in the order in which it arrived, every payload at most once and none skipped.
-/
namespace SSP21.Crypto
open Spec

namespace ReadingProof
open RefineProof

/-- Elements of a history that do not concern received data. -/
def calm : Ev → Bool
  | .obs .lowerClose => false
  | .obs (.startRx d) => d.isEmpty
  | .act (.checked _ _ (.ok _)) => false
  | .act (.notSent false) => false
  | _ => true

theorem add_unread (v : View) (n : Option Nat) (e : SEvent) : (v.add n e).unread = v.unread := by cases n <;> rfl

theorem calm_step {e : Ev} (h : calm e = true) (v : View) : (v.step e).unread = v.unread := by
  cases e with
  | obs o =>
    cases o with
    | startTx d b => cases b <;> rfl
    | startRx d =>
      have : d = [] := by simpa [calm] using h
      simp [View.step, this]
    | lowerClose => cases h
    | _ => rfl
  | act a =>
    cases a with
    | notSent p => cases p <;> first | rfl | cases h
    | checked p msg r =>
      cases r with
      | ok x => cases h
      | error e => cases p <;> exact add_unread ..
    | sent p out clear rest => exact add_unread ..
    | _ => rfl

/-- Positions of acts. -/
def Pos (s : Layer) : Prop := ∀ x ∈ s.acts, x.1 ≤ s.log.length

/-- Only calm elements are added to the history. -/
def Calm (s t : Layer) : Prop := Pos s → Pos t ∧ ∃ ext, history t = history s ++ ext ∧ ∀ e ∈ ext, calm e = true

theorem Calm.same {s t : Layer} (hl : t.log = s.log) (ha : t.acts = s.acts) : Calm s t := by
  intro h
  refine ⟨by unfold Pos; rw [hl, ha]; exact h, [], ?_, by simp⟩
  unfold history; rw [hl, ha]; simp

theorem Calm.trans {s t u : Layer} (h : Calm s t) (h' : Calm t u) : Calm s u := by
  intro hp
  obtain ⟨p1, x, h1, h2⟩ := h hp
  obtain ⟨p2, y, h3, h4⟩ := h' p1
  refine ⟨p2, x ++ y, by rw [h3, h1]; simp, ?_⟩
  intro e he
  rcases List.mem_append.mp he with he | he
  · exact h2 e he
  · exact h4 e he

theorem Calm.obs {s t : Layer} (o : Obs) (ho : calm (.obs o) = true) (hl : t.log = s.log ++ [o]) (ha : t.acts = s.acts) :
    Calm s t := by
  intro h
  refine ⟨?_, [.obs o], history_obs h hl ha, by simpa using ho⟩
  unfold Pos
  rw [hl, ha, List.length_append]
  exact fun x hx => Nat.le_add_right_of_le (h x hx)

theorem Calm.act {s t : Layer} (a : Act) (ho : calm (.act a) = true) (hl : t.log = s.log)
    (ha : t.acts = s.acts ++ [(s.log.length, a)]) : Calm s t := by
  intro h
  refine ⟨?_, [.act a], history_act hl ha, by simpa using ho⟩
  unfold Pos
  rw [hl, ha]
  intro x hx
  rcases List.mem_append.mp hx with hx | hx
  · exact h x hx
  · rw [List.mem_singleton.mp hx]; exact Nat.le_refl _

theorem calm_received (s : Layer) (m w : Bytes) : Calm s (s.received m w) := .obs (.recv m) rfl rfl rfl
theorem calm_sent (s : Layer) (f : Bytes) : Calm s (s.sent f) := .obs (.lowerTx f s.lowerReady) rfl rfl rfl
theorem calm_opening (s : Layer) : Calm s s.opening := by
  unfold Layer.opening; split
  · exact .same rfl rfl
  · exact .obs (.up .opened) rfl rfl rfl
theorem calm_closing (s : Layer) : Calm s s.closing := by
  unfold Layer.closing; split
  · exact .obs (.up .closed) rfl rfl rfl
  · exact .same rfl rfl
theorem calm_rx (s : Layer) : Calm s s.rxNotified := by
  unfold Layer.rxNotified; split
  · exact .obs (.up .rxReady) rfl rfl rfl
  · exact .same rfl rfl
theorem calm_tx (s : Layer) : Calm s s.txNotified := by
  unfold Layer.txNotified; split
  · exact .obs (.up .txReady) rfl rfl rfl
  · exact .same rfl rfl
theorem calm_key (s : Layer) (o : Option (UInt64 × Bytes)) {t : Layer} (hl : t.log = s.log ++ keyObs o) (ha : t.acts = s.acts) :
    Calm s t := by
  cases o with
  | none => exact .same (by simpa [keyObs] using hl) ha
  | some id => exact .obs (.keyUsed id) rfl hl ha
theorem calm_est (s : Layer) (n : Nat) : Calm s (s.establishedIf n) := by
  unfold Layer.establishedIf; split
  · exact .obs (.established _ _ _) rfl rfl rfl
  · exact .same rfl rfl

theorem calm_hsReq {c : Cfg} {limits : SessionLimits} {s t : Layer} (h : HsReq c limits s t) : Calm s t := by
  cases h with
  | deferred _ => exact .same rfl rfl
  | noKey f _ _ _ _ => exact .same rfl rfl
  | badConfig f eph data e _ _ _ _ _ => exact calm_key s _ rfl rfl
  | sent now f eph data written _ _ _ _ hw =>
    refine Calm.trans (t := { s with log := s.log ++ keyObs (s.ini.handshake.usedRecord f.record) })
      (calm_key s _ rfl rfl) ?_
    exact .obs (.lowerTx (c.fw.wrap written) s.lowerReady) rfl rfl rfl

theorem calm_nonce {c : Cfg} {s t : Layer} (h : NonceChange c s t) : Calm s t := by
  rcases h with ⟨rfl, _⟩ | ⟨_, _, _, _, h⟩
  · exact .same rfl rfl
  · have := calm_hsReq h
    exact Calm.trans (.same rfl rfl) this

theorem calm_txStep {c : Cfg} {s t : Layer} (h : TxStep c s t) : Calm s t := by
  cases h with
  | startTxRefused d _ => exact .obs (.startTx d false) rfl rfl rfl
  | startTxAccepted d _ => exact .obs (.startTx d true) rfl rfl rfl
  | dataSent now out s' _ _ hn =>
    refine Calm.trans (Calm.trans (t := { s with
        active := (s.active.formatData now s.tx.remainder).1
        acts := s.acts ++ [(s.log.length, .sent false out s.tx.remainder (s.active.formatData now s.tx.remainder).2.1)]
        tx := s.tx.beginTransmit (s.active.formatData now s.tx.remainder).2.1 }) ?_ (calm_sent _ out.frame)) (calm_nonce hn)
    exact .act (.sent false out _ _) rfl rfl rfl
  | dataFailed now e _ _ =>
    refine Calm.trans (t := { s with
        active := (s.active.formatData now s.tx.remainder).1.reset
        acts := s.acts ++ [(s.log.length, .dropped)] }) ?_ (calm_closing _)
    exact .act .dropped rfl rfl rfl

/-- Received data and what tells about it are left alone. -/
structure Same (s t : Layer) : Prop where
  calm : Calm s t
  len : t.payloadLen = s.payloadLen
  buf : t.buf = s.buf
  flag : t.rxFlag = s.rxFlag

theorem Same.trans {s t u : Layer} (h : Same s t) (h' : Same t u) : Same s u :=
  ⟨h.calm.trans h'.calm, h'.len.trans h.len, h'.buf.trans h.buf, h'.flag.trans h.flag⟩

theorem same_hsReq {c : Cfg} {limits : SessionLimits} {s t : Layer} (h : HsReq c limits s t) : Same s t :=
  ⟨calm_hsReq h, h.payloadLen, h.buf, h.rxFlag⟩

theorem same_nonce {c : Cfg} {s t : Layer} (h : NonceChange c s t) : Same s t :=
  ⟨calm_nonce h, h.payloadLen, h.buf, h.rxFlag⟩

theorem same_txStep {c : Cfg} {s t : Layer} (h : TxStep c s t) : Same s t := by
  refine ⟨calm_txStep h, ?_, ?_, ?_⟩ <;> cases h with
  | dataSent now out s' _ _ hn => simp [hn.payloadLen, hn.buf, hn.rxFlag]
  | _ => simp

theorem inAuth_txStep {c : Cfg} {s t : Layer} (h : TxStep c s t) : t.inAuth = s.inAuth := by
  cases h with
  | dataSent now out s' _ _ hn => rw [hn.inAuth]; rfl
  | dataFailed => unfold Layer.closing; split <;> rfl
  | _ => rfl

/-- Data given to the application is what arrived last; nothing arrives before that is given. A responder that cannot
answer a session auth message finds that out at once. -/
def Fine (c : Cfg) (pre : List Ev) : Ev → Prop
  | .obs (.startRx d) => d ≠ [] → ∃ n, (viewOf pre).unread = some (n, d)
  | .act (.checked p _ (.ok _)) => ((viewOf pre).owner p).isSome ∧ (SSP21.Crypto.Spec.Unstale c (observations pre) → (viewOf pre).unread = none)
  | .act (.notSent false) => ∃ msg p, pre.getLast? = some (.act (.checked true msg (.ok p)))
  | _ => True

theorem fine_calm {c : Cfg} {e : Ev} (h : calm e = true) (pre : List Ev) : Fine c pre e := by
  unfold Fine
  split
  · rename_i d
    intro hd
    exact absurd (by simpa [calm] using h) hd
  · cases h
  · cases h
  · trivial

/-- Unread data can be read. -/
def Strict (c : Cfg) (s : Layer) : Prop :=
  Unstale c s.log → (view s).unread ≠ none → s.payloadLen ≠ 0 ∧ s.rxFlag = false

structure K (c : Cfg) (s : Layer) : Prop where
  hist : ∀ pre e post, history s = pre ++ e :: post → Fine c pre e
  here : s.payloadLen ≠ 0 → s.rxFlag = false → ∃ n, (view s).unread = some (n, s.payload)
  resp : (∃ h, c.role = .responder h) → s.lowerReady = true → Strict c s

theorem viewOf_append (h ext : List Ev) : viewOf (h ++ ext) = ext.foldl View.step (viewOf h) := by
  simp [viewOf]

theorem unread_calm (ext : List Ev) (v : View) (h : ∀ e ∈ ext, calm e = true) : (ext.foldl View.step v).unread = v.unread := by
  induction ext generalizing v with
  | nil => rfl
  | cons e ext ih =>
    rw [List.foldl_cons, ih _ (fun e he => h e (by simp [he])), calm_step (h e (by simp))]

theorem hist_calm {c : Cfg} (ext : List Ev) : ∀ (h : List Ev), (∀ e ∈ ext, calm e = true) →
    (∀ pre e post, h = pre ++ e :: post → Fine c pre e) → ∀ pre e post, h ++ ext = pre ++ e :: post → Fine c pre e := by
  induction ext with
  | nil => intro h _ hh; simpa using hh
  | cons e ext ih =>
    intro h hc hh
    have := ih (h ++ [e]) (fun e he => hc e (by simp [he])) (every_snoc hh (fine_calm (hc e (by simp)) h))
    simpa using this

theorem Calm.unread {s t : Layer} (h : Calm s t) (hp : Pos s) : (view t).unread = (view s).unread := by
  obtain ⟨_, ext, h1, h2⟩ := h hp
  unfold view
  rw [h1, viewOf_append, unread_calm _ _ h2]

theorem Calm.hist {c : Cfg} {s t : Layer} (h : Calm s t) (hp : Pos s)
    (hh : ∀ pre e post, history s = pre ++ e :: post → Fine c pre e) :
    ∀ pre e post, history t = pre ++ e :: post → Fine c pre e := by
  obtain ⟨_, ext, h1, h2⟩ := h hp
  rw [h1]
  exact hist_calm ext _ h2 hh

theorem observations_append (h ext : List Ev) : observations (h ++ ext) = observations h ++ observations ext := by
  simp [observations]

theorem Calm.log {s t : Layer} (h : Calm s t) (hp : Pos s) : ∃ ext, t.log = s.log ++ ext := by
  obtain ⟨_, ext, h1, _⟩ := h hp
  exact ⟨observations ext, by rw [← observations_history, h1, observations_append, observations_history]⟩

theorem Calm.kept {c : Cfg} {s t : Layer} (h : Calm s t) (hp : Pos s) (hu : Unstale c t.log) : Unstale c s.log := by
  obtain ⟨ext, he⟩ := h.log hp
  rw [he] at hu
  exact hu.of_append

theorem Same.strict {c : Cfg} {s t : Layer} (h : Same s t) (hp : Pos s) (hs : Strict c s) : Strict c t := by
  unfold Strict
  rw [h.calm.unread hp, h.len, h.flag]
  exact fun hu => hs (h.calm.kept hp hu)

theorem Same.K {c : Cfg} {s t : Layer} (h : Same s t) (hp : Pos s) (hk : K c s)
    (hr : t.lowerReady = true → s.lowerReady = true ∨ Strict c s) : K c t where
  hist := h.calm.hist hp hk.hist
  here := by
    have : t.payload = s.payload := by simp [Layer.payload, h.len, h.buf]
    rw [h.calm.unread hp, h.len, h.flag, this]
    exact hk.here
  resp := fun h1 h2 => h.strict hp ((hr h2).elim (hk.resp h1) id)

/-- There is nothing to read and nothing unread has changed. -/
theorem K.empty {c : Cfg} {s t : Layer} (hk : K c s) (h : Calm s t) (hp : Pos s) (h0 : t.payloadLen = 0)
    (hr : (∃ h, c.role = .responder h) → t.lowerReady = true → Unstale c s.log → (view s).unread = none) : K c t where
  hist := h.hist hp hk.hist
  here := fun h1 => absurd h0 h1
  resp := by
    intro h1 h2 hv hu
    rw [h.unread hp] at hu
    exact absurd (hr h1 h2 (h.kept hp hv)) hu

/-- What the application can do in a callback. -/
structure Rel (c : Cfg) (q : Prop) (s t : Layer) : Prop where
  base : DeliveryProof.Rel c q s t
  keep : RefineProof.Keep s t
  unread : q ∨ s.lowerReady = false → s.payloadLen = 0 → (view t).unread = (view s).unread
  strict : Strict c s → Strict c t
  inAuth : (∃ params limits, c.role = .initiator params limits) → t.inAuth = s.inAuth

/-- What the receive loop can do. -/
structure RelL (c : Cfg) (s t : Layer) : Prop where
  base : DeliveryProof.Rel c False s t
  keep : RefineProof.Keep s t
  unread : s.lowerReady = false → s.payloadLen = 0 → (view t).unread = (view s).unread
  strict : Strict c s → Strict c t
  before : (∃ params limits, c.role = .initiator params limits) → Strict c s ∧ s.inAuth = false
  after : (∃ params limits, c.role = .initiator params limits) → t.inAuth = false

theorem still_len {s t : Layer} (h : DeliveryProof.Still s t) (h0 : s.payloadLen = 0) : t.payloadLen = 0 := by
  obtain ⟨_, _, _, _, h⟩ := h
  exact (h h0).1

theorem still_flag {s t : Layer} (h : DeliveryProof.Still s t) (h0 : s.payloadLen = 0) (h1 : s.rxFlag = false) :
    t.rxFlag = false := by
  obtain ⟨_, _, _, _, h⟩ := h
  exact (h h0).2.1 h1

theorem Rel.trans {c : Cfg} {q : Prop} {s t u : Layer} (h : Rel c q s t) (h' : Rel c q t u) : Rel c q s u where
  base := h.base.trans h'.base
  keep := h.keep.trans h'.keep
  unread := fun a b => (h'.unread (a.imp id h.base.busy) (still_len (h.base.still a) b)).trans (h.unread a b)
  strict := fun a => h'.strict (h.strict a)
  inAuth := fun a => (h'.inAuth a).trans (h.inAuth a)

theorem RelL.trans {c : Cfg} {s t u : Layer} (h : RelL c s t) (h' : RelL c t u) : RelL c s u where
  base := h.base.trans h'.base
  keep := h.keep.trans h'.keep
  unread := fun a b => (h'.unread (h.base.busy a) (still_len (h.base.still (.inr a)) b)).trans (h.unread a b)
  strict := fun a => h'.strict (h.strict a)
  before := h.before
  after := h'.after

/-- The state after an authentic message. -/
theorem unread_arrived {n : Option Nat} {p : Bytes} (h : n.isSome = true) (hp : p ≠ []) :
    ∃ m, arrived n p = some (m, p) := by
  obtain ⟨m, rfl⟩ := Option.isSome_iff_exists.mp h
  exact ⟨m, by simp [arrived, hp]⟩

theorem arrived_nil (n : Option Nat) : arrived n [] = none := by cases n <;> simp [arrived]

/-- A message is accepted. -/
theorem checked_hist {c : Cfg} {s t : Layer} {p : Bool} {msg : SessionData} {payload : Bytes} (hk : K c s)
    (hl : t.log = s.log) (ha : t.acts = s.acts ++ [(s.log.length, .checked p msg (.ok payload))])
    (ho : ((view s).owner p).isSome) (hu : Unstale c s.log → (view s).unread = none) :
    (∀ pre e post, history t = pre ++ e :: post → Fine c pre e) ∧
      (view t).unread = arrived ((view s).owner p) payload := by
  constructor
  · rw [history_act hl ha]
    exact every_snoc hk.hist ⟨ho, fun h => hu (by rwa [observations_history] at h)⟩
  · rw [view_act hl ha]
    cases p <;> rfl

/-- A data message is accepted. -/
theorem dataK {c : Cfg} {E : Env} {s : Layer} (hd : DeliveryProof.Inv c s) (hi : RefineProof.Inv c s) (hk : K c s)
    (hs : Unstale c s.log → (view s).unread = none) {m w : Bytes} {msg : SessionData} {now : Int} {scratch payload : Bytes}
    (hr : Receives E s m) (hm : SessionData.read m = .ok msg)
    (hv : (s.active.validateData s.stats msg now c.bufLen).2.2 = .ok payload) :
    K c { (s.received m w).dataValidated c msg now scratch with payloadLen := payload.length } ∧
    Strict c { (s.received m w).dataValidated c msg now scratch with payloadLen := payload.length } ∧
    Pos { (s.received m w).dataValidated c msg now scratch with payloadLen := payload.length } := by
  obtain ⟨h1, h2, -⟩ := authentic_data hm hv
  have hc := calm_received s m w
  have hpos := (hc hi.pos).1
  have hkr : K c (s.received m w) := ⟨hc.hist hi.pos hk.hist, fun h => absurd hr.2.1 h, fun a b c' d => by
    rw [hc.unread hi.pos] at d; exact absurd (hs (hc.kept hi.pos c')) d⟩
  have hsome : ((view (s.received m w)).owner false).isSome = true := by
    rw [(hi.received m w).good.owner_valid false]; exact h1
  obtain ⟨g1, g2⟩ := checked_hist (s := s.received m w)
    (t := { (s.received m w).dataValidated c msg now scratch with payloadLen := payload.length }) (p := false) (msg := msg)
    (payload := payload) hkr rfl (by simp [hv]) hsome (by rw [hc.unread hi.pos]; exact fun hu => hs (hc.kept hi.pos hu))
  obtain ⟨n, hn⟩ := unread_arrived hsome h2
  have hf := hd.noFlag hr.2.1 (DeliveryProof.not_dead_active h1)
  have hst : Strict c { (s.received m w).dataValidated c msg now scratch with payloadLen := payload.length } :=
    fun hv _ => ⟨by simpa using h2, hf hv.of_append⟩
  refine ⟨⟨g1, fun _ _ => ⟨n, ?_⟩, fun _ _ => hst⟩, hst, ?_⟩
  · rw [g2, hn]
    congr 2
    simp only [Layer.payload, Layer.dataValidated, received_active, received_stats, received_buf]
    rw [hv]
    exact (DeliveryProof.take_bufferAfter ..).symm
  · intro x hx
    have hx : x ∈ s.acts ++ [((s.received m w).log.length, _)] := hx
    rcases List.mem_append.mp hx with hx | hx
    · exact hpos x hx
    · rw [List.mem_singleton.mp hx]; exact Nat.le_refl _

/-- A session auth message is accepted. -/
theorem authK {c : Cfg} {s t : Layer} (hi : RefineProof.Inv c s) (hk : K c s)
    (hs : Unstale c s.log → (view s).unread = none) {m w : Bytes} {msg : SessionData} {now : Int} {payload : Bytes}
    (h0 : s.payloadLen = 0) (hv : (s.pending.validateAuth s.stats msg now c.bufLen).2.2 = .ok payload)
    (hl : t.log = (s.received m w).log)
    (ha : t.acts = (s.received m w).acts ++ [((s.received m w).log.length, .checked true msg (.ok payload))]) :
    (∀ pre e post, history t = pre ++ e :: post → Fine c pre e) ∧ Pos t ∧
      ∃ n, (view t).unread = if payload = [] then none else some (n, payload) := by
  have hc := calm_received s m w
  have hpos := (hc hi.pos).1
  have hkr : K c (s.received m w) := ⟨hc.hist hi.pos hk.hist, fun h => absurd h0 h, fun a b c' d => by
    rw [hc.unread hi.pos] at d; exact absurd (hs (hc.kept hi.pos c')) d⟩
  have hsome : ((view (s.received m w)).owner true).isSome = true := by
    rw [(hi.received m w).good.owner_valid true]
    exact (does_validateAuth s.pending s.stats msg now c.bufLen).2 _ hv
  obtain ⟨g1, g2⟩ := checked_hist (s := s.received m w) (t := t) (p := true) (msg := msg)
    (payload := payload) hkr hl ha hsome (by rw [hc.unread hi.pos]; exact fun hu => hs (hc.kept hi.pos hu))
  refine ⟨g1, ?_, ?_⟩
  · intro x hx
    rw [ha] at hx
    rw [hl]
    rcases List.mem_append.mp hx with hx | hx
    · exact hpos x hx
    · rw [List.mem_singleton.mp hx]; exact Nat.le_refl _
  · by_cases hp : payload = []
    · subst hp
      exact ⟨0, by rw [g2, arrived_nil]; simp⟩
    · obtain ⟨n, hn⟩ := unread_arrived hsome hp
      exact ⟨n, by rw [g2, hn, if_neg hp]⟩

theorem validateAuth_success {S : Session} {st : Stats} {msg : SessionData} {now : Int} {d : Nat} {p : Bytes}
    (h : (S.validateAuth st msg now d).2.2 = .ok p) : (S.validateAuth st msg now d).2.1.numSuccess ≠ st.numSuccess := by
  unfold Session.validateAuth Session.validateWith at *
  repeat' split at h
  all_goals first | cases h | skip
  all_goals simp_all [-Int.not_lt, -Int.not_le, -UInt16.not_lt]

/-- The messages that bring no data. -/
theorem calm_rxAtom {c : Cfg} {E : Env} {s s' : Layer} (h : RxAtom c E s s') :
    (∃ m, Receives E s m) ∧ s'.payloadLen = s.payloadLen ∧ s'.rxFlag = s.rxFlag ∧ s'.inAuth = s.inAuth ∧ Calm s s' ∨
    (∃ m w params limits msg now scratch payload, Receives E s m ∧ c.role = .initiator params limits ∧
      SessionData.read m = .ok msg ∧ (s.pending.validateAuth s.stats msg now c.bufLen).2.2 = .ok payload ∧
      s' = (s.received m w).initAuthOk c params msg now scratch) ∨
    (∃ m w hh msg now now' scratch payload e s1, Receives E s m ∧ c.role = .responder hh ∧
      SessionData.read m = .ok msg ∧ (s.pending.validateAuth s.stats msg now c.bufLen).2.2 = .ok payload ∧
      s1 = ((s.received m w).authValidated c msg now scratch).activated ∧
      (s1.active.formatAuth now' s1.tx.remainder).2.2 = .error e ∧ s' = s1.authFormatted false now') ∨
    (∃ m w hh msg now now' scratch payload out s1, Receives E s m ∧ c.role = .responder hh ∧
      SessionData.read m = .ok msg ∧ (s.pending.validateAuth s.stats msg now c.bufLen).2.2 = .ok payload ∧
      s1 = ((s.received m w).authValidated c msg now scratch).activated ∧
      (s1.active.formatAuth now' s1.tx.remainder).2.2 = .ok out ∧ s' = (((s1.authFormatted false now').authTaken s1.tx.remainder
        (s1.active.formatAuth now' s1.tx.remainder).2.1).sent out.frame).opening) ∨
    (∃ m w msg now scratch payload, Receives E s m ∧ SessionData.read m = .ok msg ∧
      (s.active.validateData s.stats msg now c.bufLen).2.2 = .ok payload ∧
      s' = { (s.received m w).dataValidated c msg now scratch with payloadLen := payload.length }) ∨
    (∃ w, s.lowerReady = true ∧ s.payloadLen = 0 ∧ s' = { s with buf := w }) ∨
    (s.rxFlag = true ∧ s' = { s.noted .rxCall with payloadLen := 0, rxFlag := false }) ∨
    (s.rxFlag = false ∧ s.payloadLen = 0 ∧ s' = s.noted .rxCall) ∨
    s' = s.noted (.startRx []) ∨
    (s.payloadLen ≠ 0 ∧ s.rxFlag = false ∧ s' = { (s.noted .rxCall).noted (.startRx s.payload) with rxFlag := true }) := by
  cases h with
  | ignored m w hr => exact .inl ⟨⟨m, hr⟩, rfl, rfl, rfl, calm_received s m w⟩
  | errorReply m w hh e frame hr => exact .inl ⟨⟨m, hr⟩, rfl, rfl, rfl, (calm_received s m w).trans (calm_sent _ frame)⟩
  | requestRefused m w hh msg now f e hr hrole _ _ he s1 h1 _ h2 =>
    have hc : Calm s s1 := by
      refine (calm_received s m w).trans (calm_key _ (hh.process c.backend c.caps f.lookup f.rnd msg m now c.fw s.pending s.stats).2.2.1 ?_ ?_) <;>
        subst h1 <;> simp
    rcases h2 with rfl | ⟨fr, _, rfl⟩
    · exact .inl ⟨⟨m, hr⟩, by simp [h1], by simp [h1], by simp [h1], hc⟩
    · exact .inl ⟨⟨m, hr⟩, by simp [h1], by simp [h1], by simp [h1], hc.trans (calm_sent _ fr)⟩
  | requestAccepted m w hh msg now f frame hr _ _ _ _ _ _ h1 =>
    refine .inl ⟨⟨m, hr⟩, by simp [h1], by simp [h1], by simp [h1], ?_⟩
    rw [h1]
    refine Calm.trans (Calm.trans ?_ (calm_est _ _)) (calm_sent _ frame)
    refine (calm_received s m w).trans (calm_key _ (hh.process c.backend c.caps f.lookup f.rnd msg m now c.fw s.pending s.stats).2.2.1 ?_ ?_) <;> simp
  | replyRefused m w params limits msg now hr hrole _ hw _ _ h1 =>
    subst h1
    exact .inl ⟨⟨m, hr⟩, rfl, rfl, rfl, (calm_received s m w).trans (.same rfl rfl)⟩
  | replyAuthFailed m w params limits msg now now' e hr hrole _ hw _ s1 h1 he _ h2 =>
    refine .inl ⟨⟨m, hr⟩, by simp [h2, h1], by simp [h2, h1], by simp [h2, h1], ?_⟩
    subst h2
    have h3 : Calm s s1 := by
      rw [h1]
      refine (calm_received s m w).trans (Calm.trans ?_ (calm_est _ _))
      exact .same rfl rfl
    refine h3.trans (.act (.notSent true) rfl (by simp) ?_)
    simp [he, authAct]
  | replyAccepted m w params limits msg now now' out hr hrole _ hw _ s1 h1 he s2 h2 _ h3 =>
    refine .inl ⟨⟨m, hr⟩, by simp [h3, h2, h1], by simp [h3, h2, h1], by simp [h3, h2, h1], ?_⟩
    have h4 : Calm s s1 := by
      rw [h1]
      refine (calm_received s m w).trans (Calm.trans ?_ (calm_est _ _))
      exact .same rfl rfl
    have h5 : Calm s1 s2 := by
      rw [h2]
      refine Calm.trans ?_ (calm_sent _ out.frame)
      refine .act (.sent true out s1.tx.remainder (s1.pending.formatAuth now' s1.tx.remainder).2.1) rfl (by simp) ?_
      simp [he, authAct]
    subst h3
    exact (h4.trans h5).trans (.same rfl rfl)
  | replyError m w params limits hr hrole hw => exact .inl ⟨⟨m, hr⟩, rfl, rfl, rfl, (calm_received s m w).trans (.same rfl rfl)⟩
  | initAuthRefused m w params limits msg now scratch e hr hrole _ _ hw he _ h1 =>
    subst h1
    refine .inl ⟨⟨m, hr⟩, rfl, rfl, rfl, (calm_received s m w).trans (.act (.checked true msg (.error e)) rfl rfl ?_)⟩
    simp [he]
  | initAuthOk m w params limits msg now scratch payload hr hrole hm _ hw hv =>
    exact .inr (.inl ⟨m, w, params, limits, msg, now, scratch, payload, hr, hrole, hm, hv, rfl⟩)
  | respAuthRefused m w hh msg now scratch e hr hrole _ _ hv he =>
    refine .inl ⟨⟨m, hr⟩, rfl, rfl, rfl, (calm_received s m w).trans (.act (.checked true msg (.error e)) rfl rfl ?_)⟩
    simp [he]
  | respAuthFailed m w hh msg now now' scratch payload e hr hrole hm _ hv hok s1 h1 he =>
    exact .inr (.inr (.inl ⟨m, w, hh, msg, now, now', scratch, payload, e, s1, hr, hrole, hm, hok, h1, he, rfl⟩))
  | respAuthOk m w hh msg now now' scratch payload out hr hrole hm _ hv hok s1 h1 ho =>
    exact .inr (.inr (.inr (.inl ⟨m, w, hh, msg, now, now', scratch, payload, out, s1, hr, hrole, hm, hok, h1, ho, rfl⟩)))
  | dataRefused m w msg now scratch e hr hm hn he =>
    refine .inl ⟨⟨m, hr⟩, rfl, rfl, rfl, (calm_received s m w).trans (.act (.checked false msg (.error e)) rfl rfl ?_)⟩
    simp [he]
  | dataOk m w msg now scratch payload hr hm hn hv =>
    exact .inr (.inr (.inr (.inr (.inl ⟨m, w, msg, now, scratch, payload, hr, hm, hv, rfl⟩))))
  | readEmpty w hr hp => exact .inr (.inr (.inr (.inr (.inr (.inl ⟨w, hr, hp, rfl⟩)))))
  | discarded hf => exact .inr (.inr (.inr (.inr (.inr (.inr (.inl ⟨hf, rfl⟩))))))
  | asked hf hp => exact .inr (.inr (.inr (.inr (.inr (.inr (.inr (.inl ⟨hf, hp, rfl⟩)))))))
  | readNothing => exact .inr (.inr (.inr (.inr (.inr (.inr (.inr (.inr (.inl rfl))))))))
  | readData hp hf => exact .inr (.inr (.inr (.inr (.inr (.inr (.inr (.inr (.inr ⟨hp, hf, rfl⟩))))))))

/-- The invariant. -/
def Inv (c : Cfg) (s : Layer) : Prop := DeliveryProof.Inv c s ∧ RefineProof.Inv c s ∧ K c s

/-- When no function of the layer is active. -/
def J (c : Cfg) (s : Layer) : Prop := DeliveryProof.J c s ∧ RefineProof.J s ∧ Strict c s ∧
  ((∃ params limits, c.role = .initiator params limits) → s.inAuth = false)

theorem not_both {c : Cfg} {params : Params} {limits : SessionLimits} (h : c.role = .initiator params limits) :
    ¬ ∃ r, c.role = .responder r := by
  rintro ⟨r, hr⟩
  rw [h] at hr
  cases hr

theorem role_cases (c : Cfg) : (∃ params limits, c.role = .initiator params limits) ∨ ∃ r, c.role = .responder r := by
  cases h : c.role with
  | initiator params limits => exact .inl ⟨_, _, rfl⟩
  | responder r => exact .inr ⟨_, rfl⟩

/-- When a message is read nothing is unread. -/
theorem none_unread {c : Cfg} {s : Layer} (hk : K c s) (hl : RelL c s s) (hr : s.lowerReady = true) (h0 : s.payloadLen = 0)
    (hv : Unstale c s.log) : (view s).unread = none := by
  by_contra hu
  rcases role_cases c with h | h
  · exact ((hl.before h).1 hv hu).1 h0
  · exact (hk.resp h hr hv hu).1 h0

/-- The application is given data. -/
theorem readK {c : Cfg} {s : Layer} (hd : DeliveryProof.Inv c s) (hf : RefineProof.Inv c s) (hk : K c s)
    (h0 : s.payloadLen ≠ 0) (hx : s.rxFlag = false) : K c s.reading ∧ Strict c s.reading ∧ (view s.reading).unread = none := by
  obtain ⟨n, hn⟩ := hk.here h0 hx
  have hc : Calm s (s.noted .rxCall) := .obs .rxCall rfl rfl rfl
  have hpos := (hc hf.pos).1
  have hne := hd.full h0
  have hu1 : (view (s.noted .rxCall)).unread = some (n, s.payload) := (hc.unread hf.pos).trans hn
  have hv : view s.reading = (view (s.noted .rxCall)).step (.obs (.startRx s.payload)) := view_obs hpos rfl rfl
  have hu : (view s.reading).unread = none := by
    rw [hv]
    simp [View.step, hne, hu1]
  have hst : Strict c s.reading := fun _ h => absurd hu h
  have hh : history s.reading = history (s.noted .rxCall) ++ [.obs (.startRx s.payload)] := history_obs hpos rfl rfl
  refine ⟨⟨?_, fun _ h => (by cases h), fun _ _ => hst⟩, hst, hu⟩
  rw [hh]
  exact every_snoc (hc.hist hf.pos hk.hist) fun _ => ⟨n, hu1⟩

theorem rx_case {c : Cfg} {E : Env} {s s' : Layer} (hi : Inv c s) (hl : RelL c s s) (ha : RxAtom c E s s')
    (hp : s'.payloadLen = 0 ∨ s'.payloadLen = s.payloadLen) (hrel : DeliveryProof.Rel c False s s') (hkeep : RefineProof.Keep s s') :
    K c s' ∧ (s'.inAuth = s.inAuth → (s'.lowerReady = s.lowerReady ∨ s'.stats.numSuccess = s.stats.numSuccess) → RelL c s s') := by
  obtain ⟨hd, hf, hk⟩ := hi
  have mk : ∀ (_ : s.lowerReady = false → s.payloadLen = 0 → (view s').unread = (view s).unread)
      (_ : Strict c s → Strict c s'), s'.inAuth = s.inAuth → RelL c s s' := fun h1 h2 h3 =>
    ⟨hrel, hkeep, h1, h2, hl.before, fun h => h3.trans (hl.before h).2⟩
  have busy : ∀ {P : Prop}, s.lowerReady = true → s.lowerReady = false → P := by
    intro P h1 h2; rw [h1] at h2; cases h2
  rcases calm_rxAtom ha with ⟨⟨m, hr⟩, h1, h2, h3, h4⟩ | ⟨m, w, params, limits, msg, now, scratch, payload, hr, hrole, hm, hv, rfl⟩ |
    ⟨m, w, hh, msg, now, now', scratch, payload, e, s1, hr, hrole, hm, hv, h1, he, rfl⟩ |
    ⟨m, w, hh, msg, now, now', scratch, payload, out, s1, hr, hrole, hm, hv, h1, he, rfl⟩ |
    ⟨m, w, msg, now, scratch, payload, hr, hm, hv, rfl⟩ | ⟨w, hr, h0, rfl⟩ | ⟨hx, rfl⟩ | ⟨hx, h0, rfl⟩ | rfl | ⟨h0, hx, rfl⟩
  · refine ⟨hk.empty h4 hf.pos (h1.trans hr.2.1) (fun _ _ hv => none_unread hk hl hr.1 hr.2.1 hv), fun _ _ => mk (busy hr.1) ?_ h3⟩
    intro hs
    unfold Strict
    rw [h4.unread hf.pos, h1, h2]
    exact fun hu => hs (h4.kept hf.pos hu)
  · obtain ⟨g1, g2, n, g3⟩ := authK (m := m) (w := w) (t := (Layer.authValidated c { s.received m w with ini := { s.ini with respTimer := none } } msg now scratch).activated)
      hf hk (none_unread hk hl hr.1 hr.2.1) hr.2.1 hv rfl (by simp [hv])
    have hc : Calm (Layer.authValidated c { s.received m w with ini := { s.ini with respTimer := none } } msg now scratch).activated
        ((s.received m w).initAuthOk c params msg now scratch) := by
      unfold Layer.initAuthOk
      refine Calm.trans ?_ (calm_opening _)
      exact .same rfl rfl
    refine ⟨⟨hc.hist g2 g1, fun hx => absurd (by simpa using hr.2.1) hx, fun hx => absurd hx (not_both hrole)⟩, fun hx => ?_⟩
    have := (hl.before ⟨_, _, hrole⟩).2
    rw [this] at hx
    simp at hx
  · obtain ⟨g1, g2, n, g3⟩ := authK (m := m) (w := w) (t := s1) hf hk (none_unread hk hl hr.1 hr.2.1) hr.2.1 hv (by rw [h1]; rfl) (by rw [h1]; simp [hv])
    have e1 : (s1.authFormatted false now').log = s1.log := by simp
    have e2 : (s1.authFormatted false now').acts = s1.acts ++ [(s1.log.length, .notSent false)] := by simp [he, authAct]
    have hu : (view (s1.authFormatted false now')).unread = none := by rw [view_act e1 e2]; rfl
    have hst : Strict c (s1.authFormatted false now') := fun _ h => absurd hu h
    refine ⟨⟨?_, fun hx => absurd (by rw [h1]; simpa using hr.2.1) hx, fun _ _ => hst⟩, fun hx _ => mk (busy hr.1) (fun _ => hst) hx⟩
    rw [history_act e1 e2]
    refine every_snoc g1 ⟨msg, payload, ?_⟩
    rw [history_act (s := s.received m w) (t := s1) (a := .checked true msg (.ok payload)) (by rw [h1]; rfl) (by rw [h1]; simp [hv])]
    simp
  · obtain ⟨g1, g2, n, g3⟩ := authK (m := m) (w := w) (t := s1) hf hk (none_unread hk hl hr.1 hr.2.1) hr.2.1 hv (by rw [h1]; rfl) (by rw [h1]; simp [hv])
    have hc : Calm s1 (((s1.authFormatted false now').authTaken s1.tx.remainder
        (s1.active.formatAuth now' s1.tx.remainder).2.1).sent out.frame).opening := by
      refine Calm.trans (Calm.trans ?_ (calm_sent _ out.frame)) (calm_opening _)
      refine .act (.sent false out s1.tx.remainder (s1.active.formatAuth now' s1.tx.remainder).2.1) rfl (by simp) ?_
      simp [he, authAct]
    refine ⟨⟨hc.hist g2 g1, fun hx => absurd (by rw [h1]; simpa using hr.2.1) hx, fun _ hx => by simp at hx⟩, fun _ hx => ?_⟩
    exfalso
    rcases hx with hx | hx
    · rw [hr.1] at hx; simp at hx
    · rw [h1] at hx
      simp only [opening_stats, sent_stats, authTaken_stats, authFormatted_stats, activated_stats, authValidated_stats,
        received_pending, received_stats] at hx
      exact validateAuth_success hv hx
  · exfalso
    have h2 := (authentic_data hm hv).2.1
    have h3 : payload.length ≠ 0 := by simpa using h2
    rcases hp with hp | hp
    · exact h3 hp
    · exact h3 (hp.trans hr.2.1)
  · have hc : Calm s { s with buf := w } := .same rfl rfl
    refine ⟨hk.empty hc hf.pos h0 (fun _ _ hv => none_unread hk hl hr h0 hv), fun hx _ => mk (busy hr) ?_ hx⟩
    intro hs
    unfold Strict
    rw [hc.unread hf.pos]
    exact fun hu => hs (hc.kept hf.pos hu)
  · have hc : Calm s { s.noted .rxCall with payloadLen := 0, rxFlag := false } := .obs .rxCall rfl rfl rfl
    have hno : Strict c s → Unstale c s.log → (view s).unread = none := by
      intro hs hv
      by_contra hu
      have := (hs hv hu).2
      rw [hx] at this
      cases this
    refine ⟨hk.empty hc hf.pos rfl (fun h1 h2 hv => hno (hk.resp h1 h2) hv), fun hx _ => mk (fun _ _ => hc.unread hf.pos) ?_ hx⟩
    intro hs hv hu
    rw [hc.unread hf.pos] at hu
    exact absurd (hno hs (hc.kept hf.pos hv)) hu
  · have hsame : Same s (s.noted .rxCall) := ⟨.obs .rxCall rfl rfl rfl, rfl, rfl, rfl⟩
    exact ⟨hsame.K hf.pos hk .inl, fun hx _ => mk (fun _ _ => hsame.calm.unread hf.pos) (hsame.strict hf.pos) hx⟩
  · have hsame : Same s (s.noted (.startRx [])) := ⟨.obs (.startRx []) rfl rfl rfl, rfl, rfl, rfl⟩
    exact ⟨hsame.K hf.pos hk .inl, fun hx _ => mk (fun _ _ => hsame.calm.unread hf.pos) (hsame.strict hf.pos) hx⟩
  · obtain ⟨g1, g2, g3⟩ := readK hd hf hk h0 hx
    exact ⟨g1, fun hx _ => mk (fun _ h => absurd h h0) (fun _ => g2) hx⟩

/-- The payload of a session auth message is made available. -/
theorem payloadK {c : Cfg} {q : Prop} {s0 s : Layer} {p : Bytes} {n : Nat} (hf : RefineProof.Inv c s) (hk : K c s)
    (h0 : s0.payloadLen = 0) (hfl : Unstale c s0.log → s0.rxFlag = false) (hb : s0.buf.take p.length = p) (hp : p ≠ [])
    (hu : (view s0).unread = some (n, p)) (hr : Rel c q s0 s) (hq : q ∨ s0.lowerReady = false) :
    K c ({ s with payloadLen := p.length } : Layer).rxNotified ∧ Strict c ({ s with payloadLen := p.length } : Layer).rxNotified := by
  have hc : Calm s ({ s with payloadLen := p.length } : Layer).rxNotified :=
    Calm.trans (t := { s with payloadLen := p.length }) (.same rfl rfl) (calm_rx _)
  have hus : (view s).unread = some (n, p) := (hr.unread hq h0).trans hu
  have hst := hr.base.still hq
  have hpay : ({ s with payloadLen := p.length } : Layer).rxNotified.payload = p := by
    simp only [Layer.payload, rxNotified_buf, rxNotified_payloadLen]
    rw [hst.1, hb]
  have hstr : Strict c ({ s with payloadLen := p.length } : Layer).rxNotified := by
    intro hv _
    refine ⟨by simpa using hp, ?_⟩
    rw [rxNotified_rxFlag]
    show s.rxFlag = false
    exact still_flag hst h0 (hfl (hr.base.kept (hc.kept hf.pos hv)))
  refine ⟨⟨hc.hist hf.pos hk.hist, fun _ _ => ⟨n, ?_⟩, fun _ _ => hstr⟩, hstr⟩
  rw [hc.unread hf.pos, hus, hpay]

theorem resp_opened {c : Cfg} {E : Env} {o s0 s1 : Layer} {m w : Bytes} {msg : SessionData}
    {now now' : Int} {scratch payload : Bytes} {out : Formatted} (hf : RefineProof.Inv c o) (hk : K c o) (hl : RelL c o o)
    (hr : Receives E o m)
    (hv : (o.pending.validateAuth o.stats msg now c.bufLen).2.2 = .ok payload)
    (h1 : s1 = ((o.received m w).authValidated c msg now scratch).activated)
    (he : (s1.active.formatAuth now' s1.tx.remainder).2.2 = .ok out)
    (h0 : s0 = (((s1.authFormatted false now').authTaken s1.tx.remainder
        (s1.active.formatAuth now' s1.tx.remainder).2.1).sent out.frame).opening) :
    ∃ n, (view s0).unread = if payload = [] then none else some (n, payload) := by
  obtain ⟨g1, g2, n, g3⟩ := authK (m := m) (w := w) (t := s1) hf hk (none_unread hk hl hr.1 hr.2.1) hr.2.1 hv (by rw [h1]; rfl) (by rw [h1]; simp [hv])
  have hc : Calm s1 s0 := by
    rw [h0]
    refine Calm.trans (Calm.trans ?_ (calm_sent _ out.frame)) (calm_opening _)
    refine .act (.sent false out s1.tx.remainder (s1.active.formatAuth now' s1.tx.remainder).2.1) rfl (by simp) ?_
    simp [he, authAct]
  exact ⟨n, (hc.unread g2).trans g3⟩

theorem init_opened {c : Cfg} {E : Env} {o s0 : Layer} {m w : Bytes} {params : Params} {msg : SessionData}
    {now : Int} {scratch payload : Bytes} (hf : RefineProof.Inv c o) (hk : K c o) (hl : RelL c o o)
    (hr : Receives E o m)
    (hv : (o.pending.validateAuth o.stats msg now c.bufLen).2.2 = .ok payload)
    (h0 : s0 = (o.received m w).initAuthOk c params msg now scratch) :
    ∃ n, (view s0).unread = if payload = [] then none else some (n, payload) := by
  obtain ⟨g1, g2, n, g3⟩ := authK (m := m) (w := w) (t := (Layer.authValidated c { o.received m w with ini := { o.ini with respTimer := none } } msg now scratch).activated)
      hf hk (none_unread hk hl hr.1 hr.2.1) hr.2.1 hv rfl (by simp [hv])
  have hc : Calm (Layer.authValidated c { o.received m w with ini := { o.ini with respTimer := none } } msg now scratch).activated s0 := by
    rw [h0]
    unfold Layer.initAuthOk
    refine Calm.trans ?_ (calm_opening _)
    exact .same rfl rfl
  exact ⟨n, (hc.unread g2).trans g3⟩

theorem same_top {c : Cfg} {s t : Layer} (h : TopAtom c s t) : Same s t ∧ t.inAuth = s.inAuth := by
  have hq : ∀ {limits : SessionLimits} {u : Layer}, HsReq c limits u t → Same s u → u.inAuth = s.inAuth → Same s t ∧ t.inAuth = s.inAuth :=
    fun h3 h1 h2 => ⟨h1.trans (same_hsReq h3), h3.inAuth.trans h2⟩
  cases h with
  | ready b => exact ⟨⟨.obs (.lowerReady b) rfl rfl rfl, rfl, rfl, rfl⟩, rfl⟩
  | openedResponder hh _ _ => exact ⟨⟨.obs .lowerOpen rfl rfl rfl, rfl, rfl, rfl⟩, rfl⟩
  | openedInitiator params limits _ _ _ h => exact hq h ⟨.obs .lowerOpen rfl rfl rfl, rfl, rfl, rfl⟩ rfl
  | txComplete _ => exact ⟨⟨.same rfl rfl, rfl, rfl, rfl⟩, rfl⟩
  | preTxReady params limits _ _ _ _ h => exact hq h ⟨.same rfl rfl, rfl, rfl, rfl⟩ rfl
  | txNotified _ => exact ⟨⟨calm_tx s, by simp, by simp, by simp⟩, by simp⟩
  | responseTimeout => exact ⟨⟨.same rfl rfl, rfl, rfl, rfl⟩, rfl⟩
  | retryTimeout params limits _ _ _ i _ h => exact hq h ⟨.same rfl rfl, rfl, rfl, rfl⟩ rfl
  | sessionTimeout params limits _ _ _ h => exact hq h ⟨.same rfl rfl, rfl, rfl, rfl⟩ rfl
  | orphanResponse => exact ⟨⟨.same rfl rfl, rfl, rfl, rfl⟩, rfl⟩
  | orphanRetry params limits _ _ _ i _ h => exact hq h ⟨.same rfl rfl, rfl, rfl, rfl⟩ rfl
  | orphanSession params limits _ _ _ h => exact hq h ⟨.same rfl rfl, rfl, rfl, rfl⟩ rfl

theorem closing_hist {c : Cfg} {s : Layer} (b : Bool) (hpos : Pos s)
    (hk : ∀ pre e post, history s = pre ++ e :: post → Fine c pre e) :
    (∀ pre e post, history ((s.readied b).lowerClosing c) = pre ++ e :: post → Fine c pre e) ∧
      (view ((s.readied b).lowerClosing c)).unread = none := by
  have hc : Calm s (s.readied b) := .obs (.lowerReady b) rfl rfl rfl
  have hp := (hc hpos).1
  have hk' := hc.hist hpos hk
  unfold Layer.lowerClosing
  have key : ∀ u : Layer, u.log = (s.readied b).log ++ [.lowerClose] → u.acts = (s.readied b).acts →
      (∀ pre e post, history u.closing = pre ++ e :: post → Fine c pre e) ∧ (view u.closing).unread = none := by
    intro u hl ha
    have hpu : Pos u := by
      intro x hx
      rw [ha] at hx
      rw [hl, List.length_append]
      exact Nat.le_add_right_of_le (hp x hx)
    refine ⟨(calm_closing u).hist hpu ?_, ?_⟩
    · rw [history_obs hp hl ha]
      exact every_snoc hk' trivial
    · rw [(calm_closing u).unread hpu, view_obs hp hl ha]
      rfl
  refine key _ ?_ ?_ <;> cases c.role <;> rfl

theorem atomic (c : Cfg) (E : Env) (hE : Spec.ReadsInOrder c E) :
    AtomicW c E (fun s => OpenProof.Inv c E s ∧ DisciplineProof.Inv s) (Inv c) (J c) (Rel c (Spec.ReadsAtOnce c E)) (RelL c) := by
  have D := (DeliveryProof.atomic c E hE).weak (OpenProof.atomic c E)
  have F := (RefineProof.atomic c E).weak ((OpenProof.atomic c E).and (DisciplineProof.atomic c E))
  have avail : ∀ {s : Layer} {P : Prop}, Spec.ReadsAtOnce c E → E.nested s .startRx → DeliveryProof.Inv c s →
      s.payloadLen = 0 ∨ s.rxFlag = true → P := by
    intro s P h hn hi hc
    obtain ⟨h1, h2⟩ := h s hn
    obtain ⟨g1, g2⟩ := hi.told (DeliveryProof.told_last h1)
    rcases hc with hc | hc
    · exact absurd hc g1
    · rw [g2 h2] at hc; cases hc
  have notInit : ∀ {s : Layer}, E.nested s .startRx → DeliveryProof.Inv c s → s.payloadLen = 0 ∨ s.rxFlag = true →
      ¬ ∃ params limits, c.role = .initiator params limits := by
    rintro s hn hi hc ⟨params, limits, hr⟩
    exact avail (hE.resolve_right (not_both hr)) hn hi hc
  have inOrder : ∀ params limits, c.role = .initiator params limits → Spec.ReadsAtOnce c E := fun params limits hr =>
    hE.resolve_right (not_both hr)
  refine ⟨fun s => ⟨.refl .., .refl _, fun _ _ => rfl, id, fun _ => rfl⟩, fun _ _ _ => Rel.trans, fun _ _ _ => RelL.trans, ?sub,
    fun s t h => ⟨.refl .., .refl _, fun _ _ => rfl, id, fun h' => ⟨h.strict (h.before h').1, h.after h'⟩, h.after⟩,
    fun s _ _ hj => ⟨.refl .., .refl _, fun _ _ => rfl, id, fun h => ⟨hj.2.2.1, hj.2.2.2 h⟩, hj.2.2.2⟩, ?read, ?nested, ?init, ?tx, ?rx, ?respEnd,
    ?data, ?tail, ?stay, ?top, ?ready, ?txReady, ?closing, ?closed⟩
  case sub =>
    intro s t h h'
    exact ⟨D.sub s t (.refl ..) h'.base, h'.keep, fun a => h'.unread (.inr a), h'.strict, h.before,
      fun hx => (h'.inAuth hx).trans (h.after hx)⟩
  case read =>
    intro s hn hP hP' hi h0 hx
    have h1 := D.read s hn hP.1 hP'.1 hi.1 h0 hx
    have h2 := F.read s hn hP hP' hi.2.1 h0 hx
    obtain ⟨g1, g2, _⟩ := readK hi.1 hi.2.1 hi.2.2 h0 hx
    exact ⟨⟨h1.1, h2.1, g1⟩, h1.2, h2.2, fun _ h => absurd h h0, fun _ => g2, fun _ => rfl⟩
  case nested =>
    intro s t hn hP hi hc
    have no := notInit hn hi.1 hc
    refine ⟨⟨.refl .., .refl _, fun _ _ => rfl, id, fun h => absurd h no, fun h => absurd h no⟩, fun h => ?_⟩
    exact ⟨(D.nested s t hn hP.1 hi.1 hc).2 h.base, h.keep, fun a => h.unread (a.elim (fun b => avail b hn hi.1 hc) id), h.strict,
      fun h => absurd h no⟩
  case init =>
    intro h hc he
    have h1 := D.init h hc he
    have h2 := F.init h hc he
    have hu : (view (Layer.new c h)).unread = none := rfl
    refine ⟨⟨h1.1, h2.1, ⟨?_, fun h => absurd rfl h, fun _ _ _ h => absurd hu h⟩⟩, h1.2, h2.2, fun _ h => absurd hu h, fun _ => rfl⟩
    intro pre e post hh
    have : history (Layer.new c h) = [] := rfl
    rw [this] at hh
    simp at hh
  case tx =>
    intro s s' hP hP' hi ha
    have h1 := D.tx s s' hP.1 hP'.1 hi.1 ha
    have h2 := F.tx s s' hP hP' hi.2.1 ha
    have hs := same_txStep ha
    have hpos := hi.2.1.pos
    refine ⟨⟨h1.1, h2.1, hs.K hpos hi.2.2 fun hx => .inl ?_⟩, h1.2, h2.2, fun _ _ => hs.calm.unread hpos, hs.strict hpos, fun _ => inAuth_txStep ha⟩
    by_contra hc
    rw [h1.2.busy (by simpa using hc)] at hx
    cases hx
  case rx =>
    intro s s' hP hP' hi hl ha hp
    have h1 := (DeliveryProof.atomic c E hE).rx s s' hP.1 hP'.1 hi.1 ha
    have h2 := (RefineProof.atomic c E).rx s s' hP hP' hi.2.1 ha
    have h3 := rx_case hi hl ha hp h1.2 h2.2
    exact ⟨⟨h1.1, h2.1, h3.1⟩, h3.2⟩
  case respEnd =>
    intro o s0 s hPo hPs hio hl his hro hR
    have h1 := D.respEnd o s0 s hPo.1 hPs.1 hio.1 (.refl ..) his.1 hro hR.base
    have h2 := F.respEnd o s0 s hPo hPs hio.2.1 (.refl _) his.2.1 hro hR.keep
    obtain ⟨s1, m, w, hh, msg, now, now', scratch, out, hr, hrole, hm, hn, hpv, hv, hs1, ho, h0⟩ := hro
    obtain ⟨n, hu⟩ := resp_opened hio.2.1 hio.2.2 hl hr hv hs1 ho h0
    have hu' : (view s).unread = none := by
      rw [hR.unread (.inr (by rw [h0]; simp)) (by rw [h0, hs1]; simpa using hr.2.1), hu]
      simp
    refine ⟨h1, h2, fun hb => ?_, fun _ _ h => absurd hu' h, fun h => ?_, fun h => ?_⟩
    · rw [hr.1] at hb; cases hb
    · obtain ⟨p, l, h⟩ := h; rw [hrole] at h; cases h
    · obtain ⟨p, l, h⟩ := h; rw [hrole] at h; cases h
  case data =>
    intro s m w msg now scratch payload s' hP hP' hi hl hr hm hn hv hp hnc
    have h1 := D.data s m w msg now scratch payload s' hP.1 hP'.1 hi.1 (.refl ..) hr hm hn hv hp hnc
    have h2 := F.data s m w msg now scratch payload s' hP hP' hi.2.1 (.refl _) hr hm hn hv hp hnc
    obtain ⟨g1, g2, g3⟩ := dataK (w := w) (scratch := scratch) hi.1 hi.2.1 hi.2.2 (none_unread hi.2.2 hl hr.1 hr.2.1) hr hm hv
    exact ⟨h1, h2, (same_nonce hnc).K g3 g1 fun _ => .inr g2⟩
  case tail =>
    intro o s s' hPo hPs hP' hio hl his ha
    have h1 := (DeliveryProof.atomic c E hE).tail o s s' hPo.1 hPs.1 hP'.1 hio.1 his.1 (ha.mono fun _ _ h => h.base)
    have h2 := (RefineProof.atomic c E).tail o s s' hPo hPs hP' hio.2.1 his.2.1 (ha.mono fun _ _ h => h.keep)
    cases ha with
    | initAuthPayload s0 m w params limits msg now scratch p hr hrole hm hn hw hv h0 hR hp =>
      have hnd := DeliveryProof.not_dead_waiting hrole (.inr hw) hr.1
      obtain ⟨n, hu⟩ := init_opened hio.2.1 hio.2.2 hl hr hv h0
      rw [if_neg hp] at hu
      have hb : s0.buf.take p.length = p := by
        rw [h0]
        unfold Layer.initAuthOk
        simp only [opening_buf, activated_buf, Layer.authValidated, received_pending, received_stats, received_buf]
        rw [hv]
        exact DeliveryProof.take_bufferAfter ..
      obtain ⟨g1, g2⟩ := payloadK his.2.1 his.2.2 (by rw [h0]; simpa using hr.2.1) (by rw [h0]; simpa using fun hu : Unstale c (o.log ++ _) => hio.1.noFlag hr.2.1 hnd hu.of_append)
        hb hp hu hR (.inl (inOrder _ _ hrole))
      refine ⟨⟨h1.1, h2.1, g1⟩, fun hx => ?_⟩
      exfalso
      have e1 : s.inAuth = true := by rw [hR.inAuth ⟨_, _, hrole⟩, h0]; simp
      rcases hx with hx | hx | hx
      · simp [e1] at hx
      · rw [(hl.before ⟨_, _, hrole⟩).2] at hx
        simp [e1] at hx
      · exact not_both hrole hx
    | initAuthEnd s0 m w params limits msg now scratch p hr hrole hm hn hw hv h0 hR =>
      have hnd := DeliveryProof.not_dead_waiting hrole (.inr hw) hr.1
      have hsame : Same s { s with inAuth := false, ini := { s.ini with hs := .idle } } := ⟨.same rfl rfl, rfl, rfl, rfl⟩
      refine ⟨⟨h1.1, h2.1, hsame.K his.2.1.pos his.2.2 .inl⟩, fun _ => ?_⟩
      have hk0 : ∀ {s1 : Layer}, Rel c (Spec.ReadsAtOnce c E) s0 s1 → Unstale c ({ s1 with payloadLen := p.length } : Layer).rxNotified.log → Unstale c o.log := by
        intro s1 hR1 hu
        rw [rxNotified_log] at hu
        have h3 := hR1.base.kept hu.of_append
        rw [h0] at h3
        have : ∃ ext, ((o.received m w).initAuthOk c params msg now scratch).log = o.log ++ ext := by simp
        obtain ⟨ext, he⟩ := this
        rw [he] at h3
        exact h3.of_append
      have hst : Strict c s := by
        obtain ⟨n, hu⟩ := init_opened hio.2.1 hio.2.2 hl hr hv h0
        have hlen : s0.payloadLen = 0 := by rw [h0]; simpa using hr.2.1
        rcases hR with ⟨rfl, hR⟩ | ⟨s1, hR, hp, hR'⟩
        · intro _ hx
          rw [hR.unread (.inl (inOrder _ _ hrole)) hlen, hu] at hx
          simp at hx
        · refine hR'.strict ?_
          intro hv' _
          have hv' := hk0 hR hv'
          refine ⟨by simpa using hp, ?_⟩
          rw [rxNotified_rxFlag]
          show s1.rxFlag = false
          exact still_flag (hR.base.still (.inl (inOrder _ _ hrole))) hlen (by rw [h0]; simpa using hio.1.noFlag hr.2.1 hnd hv')
      exact ⟨h1.2, h2.2, fun hb => (by rw [hr.1] at hb; cases hb), fun _ => hsame.strict his.2.1.pos hst, hl.before, fun _ => rfl⟩
    | dataNotified s1 m w msg now scratch p hr hm hn hv hp hs1 hnc =>
      obtain ⟨g1, g2, g3⟩ := dataK (w := w) (scratch := scratch) hio.1 hio.2.1 hio.2.2 (none_unread hio.2.2 hl hr.1 hr.2.1) hr hm hv
      rw [← hs1] at g1 g2 g3
      have hsame : Same s s.rxNotified := ⟨calm_rx s, by simp, by simp, by simp⟩
      have hst : Strict c s := (same_nonce hnc).strict g3 g2
      refine ⟨⟨h1.1, h2.1, hsame.K his.2.1.pos his.2.2 (by simp; exact .inl)⟩, fun _ => ?_⟩
      refine ⟨h1.2, h2.2, fun hb => (by rw [hr.1] at hb; cases hb), fun _ => hsame.strict his.2.1.pos hst, hl.before, fun hx => ?_⟩
      rw [rxNotified_inAuth, hnc.inAuth, hs1]
      exact (hl.before hx).2
    | respAuthPayload s0 s1 m w hh msg now now' scratch p out hr hrole hm hn hpv hv hs1 hout h0 hR hp =>
      have hnd := DeliveryProof.not_dead_pending hrole hpv hr.1
      obtain ⟨n, hu⟩ := resp_opened hio.2.1 hio.2.2 hl hr hv hs1 hout h0
      rw [if_neg hp] at hu
      have hb : s0.buf.take p.length = p := by
        rw [h0]
        simp only [opening_buf, sent_buf, authTaken_buf, authFormatted_buf, hs1, activated_buf, Layer.authValidated,
          received_pending, received_stats, received_buf]
        rw [hv]
        exact DeliveryProof.take_bufferAfter ..
      obtain ⟨g1, g2⟩ := payloadK his.2.1 his.2.2 (by rw [h0, hs1]; simpa using hr.2.1)
        (by rw [h0, hs1]; simpa using fun hu : Unstale c (o.log ++ _) => hio.1.noFlag hr.2.1 hnd hu.of_append) hb hp hu hR (.inr (by rw [h0]; simp))
      refine ⟨⟨h1.1, h2.1, g1⟩, fun _ => ?_⟩
      have no : ¬ ∃ params limits, c.role = .initiator params limits := by
        rintro ⟨a, b, hx⟩; rw [hrole] at hx; cases hx
      exact ⟨h1.2, h2.2, fun hb => (by rw [hr.1] at hb; cases hb), fun _ => g2, fun hx => absurd hx no, fun hx => absurd hx no⟩
  case stay =>
    intro s t hP hi hj hl
    exact ⟨D.stay s t hP.1 hi.1 hj.1 hl.base, F.stay s t hP hi.2.1 hj.2.1 hl.keep, hl.strict hj.2.2.1, hl.after⟩
  case top =>
    intro s s' hP hP' hi hj ha hle
    have h1 := D.top s s' hP.1 hP'.1 hi.1 hj.1 ha hle
    have h2 := F.top s s' hP hP' hi.2.1 hj.2.1 ha hle
    obtain ⟨h3, h4⟩ := same_top ha
    have hpos := hi.2.1.pos
    exact ⟨⟨h1.1, h2.1, h3.K hpos hi.2.2 fun _ => .inr hj.2.2.1⟩, h1.2, h2.2, h3.strict hpos hj.2.2.1, fun h => h4.trans (hj.2.2.2 h)⟩
  case ready =>
    intro s b hP hP' hi hj ho
    have h1 := D.ready s b hP.1 hP'.1 hi.1 hj.1 ho
    have h2 := F.ready s b hP hP' hi.2.1 hj.2.1 ho
    have h3 : Same s (s.readied b) := ⟨.obs (.lowerReady b) rfl rfl rfl, rfl, rfl, rfl⟩
    have hpos := hi.2.1.pos
    exact ⟨⟨h1.1, h2.1, h3.K hpos hi.2.2 fun _ => .inr hj.2.2.1⟩, h1.2, h2.2, h3.strict hpos hj.2.2.1, hj.2.2.2⟩
  case txReady =>
    intro s s' hP hP' hi hj ho ha
    have h1 := D.txReady s s' hP.1 hP'.1 hi.1 hj.1 ho ha
    have h2 := F.txReady s s' hP hP' hi.2.1 hj.2.1 ho ha
    have hpos := hi.2.1.pos
    have h0 : Same s { s.readied true with tx := s.tx.onTxComplete.1 } := ⟨.obs (.lowerReady true) rfl rfl rfl, rfl, rfl, rfl⟩
    have h3 : Same s s' ∧ s'.inAuth = s.inAuth := by
      cases ha with
      | attempt params limits _ _ _ hq => exact ⟨h0.trans (same_hsReq hq), hq.inAuth⟩
      | idle => exact ⟨h0, rfl⟩
    exact ⟨⟨h1.1, h2.1, h3.1.K hpos hi.2.2 fun _ => .inr hj.2.2.1⟩, h1.2, h2.2, h3.1.strict hpos hj.2.2.1, fun h => h3.2.trans (hj.2.2.2 h)⟩
  case closing =>
    intro s b hP hP' hi hj ho
    have h1 := D.closing s b hP.1 hP'.1 hi.1 hj.1 ho
    have h2 := F.closing s b hP hP' hi.2.1 hj.2.1 ho
    obtain ⟨g1, g2⟩ := closing_hist b hi.2.1.pos hi.2.2.hist
    exact ⟨h1, h2, g1, fun h => absurd (by simp) h, fun _ _ _ h => absurd g2 h⟩
  case closed =>
    intro s0 b s hP0 hP hP' hi0 hj0 ho hi hR
    have h1 := D.closed s0 b s hP0.1 hP.1 hP'.1 hi0.1 hj0.1 ho hi.1 hR.base
    have h2 := F.closed s0 b s hP0 hP hP' hi0.2.1 hj0.2.1 ho hi.2.1 hR.keep
    obtain ⟨g1, g2⟩ := closing_hist (c := c) b hi0.2.1.pos hi0.2.2.hist
    have hs : Strict c s := hR.strict fun _ h => absurd g2 h
    have h0 : s.payloadLen = 0 := (hR.base.dead (DeliveryProof.dead_closing _)).1
    have hno : Unstale c s.log → (view s).unread = none := by
      intro hv
      by_contra hu
      exact (hs hv hu).1 h0
    have hc : Calm s (s.closedDown c) := .act .discarded rfl rfl rfl
    have hpos := hi.2.1.pos
    refine ⟨⟨h1.1, h2.1, hi.2.2.empty hc hpos h0 fun _ _ => hno⟩, h1.2, h2.2, fun hv hu => ?_, fun hx => ?_⟩
    · rw [hc.unread hpos] at hu
      exact absurd (hno hv) hu
    · show s.inAuth = false
      rw [hR.inAuth hx]
      rw [lowerClosing_inAuth]
      exact hj0.2.2.2 hx

theorem inv {c : Cfg} {E : Env} (hE : Spec.ReadsInOrder c E) {s : Layer} (h : Observed c E s) : Inv c s :=
  (((atomic c E hE).proof ((OpenProof.atomic c E).and (DisciplineProof.atomic c E))).observed h).2

end ReadingProof
end SSP21.Crypto
