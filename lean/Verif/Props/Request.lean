import Verif.Fine
import Verif.Spec.Request
import Verif.Monitor
import Verif.Props.Discipline
import Verif.Props.LowerTx
import Verif.Props.Close
import Verif.Props.Liveness
/-
  C47: the requests of the application to transmit. A request is accepted if and only if the session is open and no
  earlier request is in progress; the end of a request is notified once; and while a request is in progress the layer
  below is busy, so that it will drive the transfer.
-/
namespace SSP21.Crypto

namespace RequestProof
open DisciplineProof (app below)

theorem appOpen_eq (log : List Obs) : Spec.appOpen log = SSP21.Spec.openAfter (log.filterMap app) := by
  induction log using List.reverseRecOn with
  | nil => rfl
  | append_singleton log o ih =>
    rw [List.filterMap_append]
    unfold Spec.appOpen SSP21.Spec.openAfter at *
    rw [List.foldl_append, List.foldl_append, ← ih]
    cases o with
    | up cb => cases cb <;> rfl
    | _ => rfl

theorem belowOpen_eq (log : List Obs) : Spec.belowOpen log = SSP21.Spec.openAfter (log.filterMap below) := by
  induction log using List.reverseRecOn with
  | nil => rfl
  | append_singleton log o ih =>
    rw [List.filterMap_append]
    unfold Spec.belowOpen SSP21.Spec.openAfter at *
    rw [List.foldl_append, List.foldl_append, ← ih]
    cases o <;> rfl

/-- What is claimed about every observation. -/
def Good (pre : List Obs) : Obs → Prop
  | .startTx _ false => Spec.belowOpen pre = false ∨ Spec.appOpen pre = false ∨ Spec.inProgress pre = true
  | .startTx _ true => Spec.belowOpen pre = true ∧ Spec.appOpen pre = true ∧
      (Spec.lost pre = false → Spec.inProgress pre = false)
  | .up .txReady => Spec.inProgress pre = true
  | _ => True

/-- Observations that do not matter here. -/
def Neutral : Obs → Prop
  | .startTx _ _ => False
  | .up .txReady => False
  | .up .closed => False
  | .lowerClose => False
  | .lowerOpen => False
  | _ => True

theorem neutral_request {extra : List Obs} (h : ∀ o ∈ extra, Neutral o) (log : List Obs) :
    Spec.inProgress (log ++ extra) = Spec.inProgress log := by
  unfold Spec.inProgress
  rw [List.foldl_append]
  refine foldl_neutral fun o ho => ?_
  have := h o ho
  clear h ho
  cases o with
  | up cb => cases cb <;> first | exact this.elim | rfl
  | startTx d b => exact this.elim
  | lowerClose => exact this.elim
  | _ => rfl

theorem neutral_lost {extra : List Obs} (h : ∀ o ∈ extra, Neutral o) (log : List Obs) :
    Spec.lost (log ++ extra) = Spec.lost log := by
  unfold Spec.lost
  rw [List.foldl_append]
  refine foldl_neutral fun o ho => ?_
  have := h o ho
  clear h ho
  cases o with
  | up cb => cases cb <;> first | exact this.elim | rfl
  | startTx d b => exact this.elim
  | lowerClose => exact this.elim
  | lowerOpen => exact this.elim
  | _ => rfl

theorem neutral_good {extra : List Obs} (h : ∀ o ∈ extra, Neutral o) {log : List Obs} (hg : AllAt Good log) :
    AllAt Good (log ++ extra) := by
  refine hg.append fun pre o post e => ?_
  have := h o (by rw [e]; simp)
  clear h e
  cases o with
  | up cb => cases cb <;> first | exact this.elim | exact trivial
  | startTx d b => exact this.elim
  | lowerClose => exact this.elim
  | lowerOpen => exact this.elim
  | _ => exact trivial

/-- The invariant, except that a request in progress is held. -/
structure Core (s : Layer) : Prop where
  good : AllAt Good s.log
  prog : s.isOpen = true → s.tx.isIdle = false → Spec.inProgress s.log = true
  busy : s.isOpen = true → s.tx.transmitting = true → s.lowerReady = false
  keyed : s.upperOpen = true → s.active.valid = true ∨ (s.isOpen = true ∧ Spec.lost s.log = true)
  owned : s.tx.isIdle = false → s.upperOpen = true ∨ Spec.lost s.log = true
  quiet : s.isOpen = false → Spec.inProgress s.log = false

/-- A request in progress is held. -/
def Held (s : Layer) : Prop :=
  s.isOpen = true → Spec.lost s.log = false → Spec.inProgress s.log = true → s.tx.isIdle = false

/-- The invariant. -/
structure Inv (s : Layer) : Prop where
  core : Core s
  held : Held s

/-- There is nothing that could be transmitted. -/
def Still (s : Layer) : Prop := Spec.lost s.log = true ∨ s.lowerReady = false ∨ s.tx.isReadyTx = false

/-- What the application and the receive loop can do. -/
structure Rel (s t : Layer) : Prop where
  isOpen : t.isOpen = s.isOpen
  still : Still s → Still t
  idle : s.isOpen = false → s.tx.isIdle = true → t.tx.isIdle = true

theorem Rel.refl (s : Layer) : Rel s s := ⟨rfl, id, fun _ => id⟩

theorem Rel.trans {s t u : Layer} (h : Rel s t) (h' : Rel t u) : Rel s u :=
  ⟨h'.isOpen.trans h.isOpen, h'.still ∘ h.still, fun ho hi => h'.idle (h.isOpen.trans ho) (h.idle ho hi)⟩

/-- Segments that do not end a request or a session. -/
structure Tame (s t : Layer) : Prop where
  isOpen : t.isOpen = s.isOpen
  log : ∃ extra, t.log = s.log ++ extra ∧ ∀ o ∈ extra, Neutral o
  upper : s.upperOpen = true → t.upperOpen = true
  valid : s.active.valid = true → t.active.valid = true
  opened : t.upperOpen = true → s.upperOpen = true ∨ t.active.valid = true
  idle : t.tx.isIdle = s.tx.isIdle
  tx : t.lowerReady = false ∨ (t.tx = s.tx ∧ (t.lowerReady = true → s.lowerReady = true))

theorem Tame.refl (s : Layer) : Tame s s :=
  ⟨rfl, ⟨[], by simp, by simp⟩, id, id, .inl, rfl, .inr ⟨rfl, id⟩⟩

theorem Tame.trans {s t u : Layer} (h : Tame s t) (h' : Tame t u) : Tame s u := by
  obtain ⟨x, hx, hx'⟩ := h.log
  obtain ⟨y, hy, hy'⟩ := h'.log
  refine ⟨h'.isOpen.trans h.isOpen, ⟨x ++ y, by rw [hy, hx, List.append_assoc], ?_⟩, h'.upper ∘ h.upper, h'.valid ∘ h.valid, ?_,
    h'.idle.trans h.idle, ?_⟩
  · intro o ho
    rcases List.mem_append.1 ho with ho | ho
    · exact hx' o ho
    · exact hy' o ho
  · intro hu
    rcases h'.opened hu with h1 | h1
    · exact (h.opened h1).imp id h'.valid
    · exact .inr h1
  · rcases h'.tx with h1 | ⟨h1, h2⟩
    · exact .inl h1
    · rcases h.tx with h3 | ⟨h3, h4⟩
      · refine .inl ?_
        cases hl : u.lowerReady with
        | false => rfl
        | true => rw [h2 hl] at h3; cases h3
      · exact .inr ⟨h1.trans h3, h4 ∘ h2⟩

theorem Tame.core {s t : Layer} (h : Tame s t) (hc : Core s) : Core t := by
  obtain ⟨x, hx, hx'⟩ := h.log
  have e1 := neutral_request hx' s.log
  have e2 := neutral_lost hx' s.log
  rw [← hx] at e1 e2
  refine ⟨hx ▸ neutral_good hx' hc.good, ?_, ?_, ?_, ?_, ?_⟩
  · rw [h.isOpen, h.idle, e1]; exact hc.prog
  · intro ho ht
    rcases h.tx with h1 | ⟨h1, h2⟩
    · exact h1
    · rw [h.isOpen] at ho
      rw [h1] at ht
      have := hc.busy ho ht
      cases hl : t.lowerReady with
      | false => rfl
      | true => rw [h2 hl] at this; cases this
  · intro hu
    rcases h.opened hu with h1 | h1
    · rcases hc.keyed h1 with h2 | h2
      · exact .inl (h.valid h2)
      · exact .inr (by rw [h.isOpen, e2]; exact h2)
    · exact .inl h1
  · rw [h.idle, e2]
    intro hi
    exact (hc.owned hi).imp h.upper id
  · rw [h.isOpen, e1]; exact hc.quiet

theorem Tame.inv {s t : Layer} (h : Tame s t) (hc : Inv s) : Inv t := by
  refine ⟨h.core hc.core, ?_⟩
  obtain ⟨x, hx, hx'⟩ := h.log
  have e1 := neutral_request hx' s.log
  have e2 := neutral_lost hx' s.log
  rw [← hx] at e1 e2
  unfold Held
  rw [h.isOpen, h.idle, e1, e2]
  exact hc.held

theorem Tame.still {s t : Layer} (h : Tame s t) (hs : Still s) : Still t := by
  obtain ⟨x, hx, hx'⟩ := h.log
  have e2 := neutral_lost hx' s.log
  rw [← hx] at e2
  unfold Still at *
  rw [e2]
  rcases h.tx with h1 | ⟨h1, h2⟩
  · exact .inr (.inl h1)
  · rw [h1]
    rcases hs with hs | hs | hs
    · exact .inl hs
    · refine .inr (.inl ?_)
      cases hl : t.lowerReady with
      | false => rfl
      | true => rw [h2 hl] at hs; cases hs
    · exact .inr (.inr hs)

theorem Tame.rel {s t : Layer} (h : Tame s t) : Rel s t :=
  ⟨h.isOpen, h.still, fun _ hi => by rw [h.idle]; exact hi⟩

/-- Nothing of interest changes. -/
theorem Tame.of_eq {s t : Layer} (extra : List Obs) (hl : t.log = s.log ++ extra) (hn : ∀ o ∈ extra, Neutral o)
    (h1 : t.isOpen = s.isOpen) (h2 : t.upperOpen = s.upperOpen) (h3 : t.active.valid = s.active.valid)
    (h4 : t.tx = s.tx) (h5 : t.lowerReady = true → s.lowerReady = true) : Tame s t :=
  ⟨h1, ⟨extra, hl, hn⟩, fun h => h2.trans h, fun h => h3.trans h, fun h => .inl (h2.symm.trans h), by rw [h4], .inr ⟨h4, h5⟩⟩

theorem tame_received (s : Layer) (m w : Bytes) : Tame s (s.received m w) :=
  .of_eq [.recv m] rfl (by simp [Neutral]) rfl rfl rfl rfl id

theorem tame_sent (s : Layer) (f : Bytes) : Tame s (s.sent f) :=
  .of_eq [_] (sent_log s f) (by simp [Neutral]) rfl rfl rfl rfl (by simp)

theorem tame_keyNoted (s : Layer) (o : Option (UInt64 × Bytes)) : Tame s (s.keyNoted o) :=
  .of_eq (keyObs o) (by simp) (by cases o <;> simp [keyObs, Neutral]) (by simp) (by simp) (by simp) (by simp) (by simp)

theorem tame_establishedIf (s : Layer) (n : Nat) : Tame s (s.establishedIf n) :=
  .of_eq _ (establishedIf_log s n) (by split <;> simp [Neutral]) (by simp) (by simp) (by simp) (by simp) (by simp)

theorem tame_rxNotified (s : Layer) : Tame s s.rxNotified :=
  .of_eq _ (rxNotified_log s) (by split <;> simp [Neutral]) (by simp) (by simp) (by simp) (by simp) (by simp)

theorem neutral_keyObs (k : Option (UInt64 × Bytes)) : ∀ o ∈ keyObs k, Neutral o := by
  cases k <;> simp [keyObs, Neutral]

theorem tame_hsReq {c : Cfg} {limits : SessionLimits} {s t : Layer} (h : HsReq c limits s t) : Tame s t := by
  rcases h.log with ⟨⟨o, h1⟩, h2⟩ | ⟨_, h2, o, f, h1⟩
  · exact .of_eq _ h1 (neutral_keyObs o) h.isOpen h.upperOpen (by rw [h.active]) h.tx (by rw [h2]; exact id)
  · refine .of_eq _ h1 ?_ h.isOpen h.upperOpen (by rw [h.active]) h.tx (by rw [h2]; intro h; cases h)
    intro x hx
    rcases List.mem_append.1 hx with hx | hx
    · exact neutral_keyObs o x hx
    · cases List.mem_singleton.1 hx
      exact trivial

theorem tame_nonce {c : Cfg} {s t : Layer} (h : NonceChange c s t) : Tame s t := by
  rcases h with ⟨rfl, _⟩ | ⟨_, _, _, _, h⟩
  · exact .refl _
  · refine Tame.trans ?_ (tame_hsReq h)
    exact .of_eq [] (by simp) (by simp) rfl rfl rfl rfl id

/-- The session that takes part in the transmission of an auth message. -/
theorem idle_begin {t : TxState} (h : t.remainder ≠ []) (y : Bytes) : (t.beginTransmit y).isIdle = t.isIdle := by
  unfold TxState.beginTransmit TxState.isIdle
  cases ht : t.transmitting <;> cases hr : t.remainder <;> simp_all

theorem tame_authSent (s : Layer) (b : Bool) (now : Int) (y f : Bytes) :
    Tame s (((s.authFormatted b now).authTaken s.tx.remainder y).sent f) := by
  refine ⟨by simp, ⟨_, by simp; rfl, by simp [Neutral]⟩, by simp, ?_, by simp +contextual, ?_, .inl (by simp)⟩
  · intro hv
    cases b
    · simpa [(same_formatAuth _ _ _).1] using hv
    · simpa using hv
  · simp only [sent_tx, authTaken_tx, authFormatted_tx]
    split
    · rename_i h
      exact idle_begin h y
    · rfl

theorem tame_authFormatted (s : Layer) (b : Bool) (now : Int) : Tame s (s.authFormatted b now) :=
  .of_eq [] (by simp) (by simp) (by simp) (by simp)
    (by cases b <;> simp [(same_formatAuth _ _ _).1]) (by simp) (by simp)

theorem tame_activated {c : Cfg} {s : Layer} {msg : SessionData} {now : Int} {payload : Bytes}
    (h : (s.pending.validateAuth s.stats msg now c.bufLen).2.2 = .ok payload) (m w scratch : Bytes) :
    Tame s ((s.received m w).authValidated c msg now scratch).activated ∧
      ((s.received m w).authValidated c msg now scratch).activated.active.valid = true := by
  have hv : (s.pending.validateAuth s.stats msg now c.bufLen).1.valid = true := by
    rw [(same_validateAuth _ _ _ _ _).1.1]
    exact CloseProof.validateAuth_valid h
  refine ⟨⟨rfl, ⟨[.recv m], rfl, by simp [Neutral]⟩, id, fun _ => hv, .inl, rfl, .inr ⟨rfl, id⟩⟩, hv⟩

theorem tame_opening {s : Layer} (h : s.active.valid = true) : Tame s s.opening :=
  ⟨by simp, ⟨_, opening_log s, by split <;> simp [Neutral]⟩, by simp, by simp, fun _ => .inr (by simpa using h), by simp,
    .inr (by simp)⟩

theorem tame_initAuthOk {c : Cfg} {s : Layer} {msg : SessionData} {now : Int} {payload : Bytes}
    (h : (s.pending.validateAuth s.stats msg now c.bufLen).2.2 = .ok payload) (m w scratch : Bytes) (params : Params) :
    Tame s ((s.received m w).initAuthOk c params msg now scratch) := by
  obtain ⟨h1, h2⟩ := tame_activated h m w scratch
  refine h1.trans (Tame.trans (t := _) ?_ (tame_opening ?_))
  · exact .of_eq [] (by simp) (by simp) rfl rfl rfl rfl id
  · exact h2

theorem tame_respAuth {c : Cfg} {s : Layer} {msg : SessionData} {now now' : Int} {payload : Bytes}
    (h : (s.pending.validateAuth s.stats msg now c.bufLen).2.2 = .ok payload) (m w scratch : Bytes) (y f : Bytes) (s1 : Layer)
    (h1 : s1 = ((s.received m w).authValidated c msg now scratch).activated) :
    Tame s ((((s1.authFormatted false now').authTaken s1.tx.remainder y).sent f).opening) := by
  obtain ⟨h2, h3⟩ := tame_activated h m w scratch
  rw [← h1] at h2 h3
  have h4 := tame_authSent s1 false now' y f
  exact h2.trans (h4.trans (tame_opening (h4.valid h3)))

theorem tame_dataValidated (c : Cfg) (s : Layer) (msg : SessionData) (now : Int) (scratch : Bytes) :
    Tame s (s.dataValidated c msg now scratch) :=
  .of_eq [] (by simp) (by simp) rfl rfl (by simp [(same_validateData _ _ _ _ _).1]) rfl id

/-- The receive loop does not end a request or a session. -/
theorem tame_rx {c : Cfg} {E : Env} {s s' : Layer} (ha : RxAtom c E s s') : Tame s s' := by
  have triv : ∀ (s t : Layer), t.log = s.log → t.isOpen = s.isOpen → t.upperOpen = s.upperOpen → t.active = s.active →
      t.tx = s.tx → t.lowerReady = s.lowerReady → Tame s t := fun s t h1 h2 h3 h4 h5 h6 =>
    .of_eq [] (by simp [h1]) (by simp) h2 h3 (by rw [h4]) h5 (by rw [h6]; exact id)
  have one : ∀ (s t : Layer) (o : Obs), Neutral o → t.log = s.log ++ [o] → t.isOpen = s.isOpen →
      t.upperOpen = s.upperOpen → t.active = s.active →
      t.tx = s.tx → t.lowerReady = s.lowerReady → Tame s t := fun s t o h0 h1 h2 h3 h4 h5 h6 =>
    .of_eq [o] h1 (by simpa using h0) h2 h3 (by rw [h4]) h5 (by rw [h6]; exact id)
  cases ha with
  | ignored m w _ => exact tame_received s m w
  | errorReply m w hh e frame hr _ _ => exact (tame_received s m w).trans (tame_sent _ _)
  | requestRefused m w hh msg now f e hr _ _ _ _ s1 h1 _ h2 =>
    have : Tame s s1 := by
      subst h1
      refine (tame_received s m w).trans (Tame.trans (t := _) ?_ (tame_keyNoted _ _))
      exact triv _ _ rfl rfl rfl rfl rfl rfl
    rcases h2 with rfl | ⟨fr, _, rfl⟩
    · exact this
    · exact this.trans (tame_sent _ _)
  | requestAccepted m w hh msg now f frame hr _ _ _ _ _ _ h1 =>
    subst h1
    refine (tame_received s m w).trans (Tame.trans (t := _) ?_ ((tame_keyNoted _ _).trans ((tame_establishedIf _ _).trans
      (tame_sent _ _))))
    exact triv _ _ rfl rfl rfl rfl rfl rfl
  | replyRefused m w params limits msg now _ _ _ _ _ _ h1 =>
    subst h1
    exact (tame_received s m w).trans (triv _ _ rfl rfl rfl rfl rfl rfl)
  | replyAuthFailed m w params limits msg now now' e _ _ _ _ _ s1 h1 _ _ h2 =>
    have h3 : Tame s s1 := by
      subst h1
      refine (tame_received s m w).trans (Tame.trans (t := _) ?_ (tame_establishedIf _ _))
      exact triv _ _ rfl rfl rfl rfl rfl rfl
    subst h2
    exact h3.trans ((tame_authFormatted s1 true now').trans (triv _ _ rfl rfl rfl rfl rfl rfl))
  | replyAccepted m w params limits msg now now' out hr _ _ _ _ s1 h1 _ s2 h2 _ h3 =>
    have h4 : Tame s s1 := by
      subst h1
      refine (tame_received s m w).trans (Tame.trans (t := _) ?_ (tame_establishedIf _ _))
      exact triv _ _ rfl rfl rfl rfl rfl rfl
    subst h3
    subst h2
    exact h4.trans ((tame_authSent s1 true now' _ _).trans (triv _ _ rfl rfl rfl rfl rfl rfl))
  | replyError m w params limits _ _ _ => exact (tame_received s m w).trans (triv _ _ rfl rfl rfl rfl rfl rfl)
  | initAuthRefused m w params limits msg now scratch e _ _ _ _ _ _ _ h1 =>
    subst h1
    exact (tame_received s m w).trans (triv _ _ rfl rfl rfl rfl rfl rfl)
  | initAuthOk m w params limits msg now scratch payload _ _ _ _ _ h => exact tame_initAuthOk h m w scratch params
  | respAuthRefused m w => exact (tame_received s m w).trans (triv _ _ rfl rfl rfl rfl rfl rfl)
  | respAuthFailed m w hh msg now now' scratch payload e _ _ _ _ _ h s1 h1 =>
    obtain ⟨h2, -⟩ := tame_activated h m w scratch
    rw [← h1] at h2
    exact h2.trans (tame_authFormatted _ _ _)
  | respAuthOk m w hh msg now now' scratch payload out hr _ _ _ _ h s1 h1 => exact tame_respAuth h m w scratch _ _ s1 h1
  | dataRefused m w => exact (tame_received s m w).trans (tame_dataValidated ..)
  | dataOk m w msg now scratch payload =>
    exact (tame_received s m w).trans ((tame_dataValidated c _ msg now scratch).trans (triv _ _ rfl rfl rfl rfl rfl rfl))
  | readEmpty => exact triv _ _ rfl rfl rfl rfl rfl rfl
  | discarded => exact one _ _ .rxCall trivial rfl rfl rfl rfl rfl rfl
  | asked => exact one _ _ .rxCall trivial rfl rfl rfl rfl rfl rfl
  | readNothing => exact one _ _ (.startRx []) trivial rfl rfl rfl rfl rfl rfl
  | readData =>
    exact .of_eq [.rxCall, .startRx s.payload] (by simp [Layer.reading, Layer.noted]) (by simp [Neutral]) rfl rfl rfl rfl id

/-- `check_transmit` leaves nothing that could be transmitted. -/
theorem check_step {c : Cfg} {s t : Layer} (h : Inv s) (hs : CheckStep c s t) : Inv t ∧ Still t ∧ t.isOpen = s.isOpen := by
  cases hs with
  | nothing hc =>
    refine ⟨h, ?_, rfl⟩
    unfold Still
    cases hl : Spec.lost s.log with
    | true => exact .inl rfl
    | false =>
      right
      cases hr : s.lowerReady with
      | false => exact .inl rfl
      | true =>
        right
        cases ht : s.tx.isReadyTx with
        | false => rfl
        | true =>
          have hi : s.tx.isIdle = false := by
            unfold TxState.isReadyTx at ht
            unfold TxState.isIdle
            cases h1 : s.tx.transmitting <;> cases h2 : s.tx.remainder.isEmpty <;> simp_all
          rcases h.core.owned hi with hu | hu
          · rcases h.core.keyed hu with hv | hv
            · simp [canTransmit, hv, hr, ht] at hc
            · rw [hl] at hv; exact absurd hv.2 (by simp)
          · rw [hl] at hu; cases hu
  | sent now out _ hc he hn =>
    have ht : s.tx.remainder ≠ [] := by
      intro hx
      simp [canTransmit, TxState.isReadyTx, hx] at hc
    have h1 : Tame s (({ s with
        active := (s.active.formatData now s.tx.remainder).1
        acts := s.acts ++ [(s.log.length, .sent false out s.tx.remainder (s.active.formatData now s.tx.remainder).2.1)]
        tx := s.tx.beginTransmit (s.active.formatData now s.tx.remainder).2.1 } : Layer).sent out.frame) :=
      ⟨rfl, ⟨_, sent_log _ _, by simp [Neutral]⟩, id, fun hv => by simpa [(same_formatData _ _ _).1] using hv, .inl,
        idle_begin ht _, .inl rfl⟩
    have h2 := h1.trans (tame_nonce hn)
    refine ⟨h2.inv h, .inr (.inl ?_), h2.isOpen⟩
    rcases (tame_nonce hn).tx with h3 | ⟨-, h3⟩
    · exact h3
    · cases hl : t.lowerReady with
      | false => rfl
      | true => cases h3 hl
  | failed now e hc he =>
    have hi : s.tx.isIdle = false := by
      simp only [canTransmit, TxState.isReadyTx, Bool.and_eq_true] at hc
      unfold TxState.isIdle
      cases h1 : s.tx.transmitting <;> cases h2 : s.tx.remainder.isEmpty <;> simp_all
    have hlost : Spec.lost (s.log ++ (if s.upperOpen then [.up .closed] else [])) = true := by
      split
      · simp [Spec.lost, Spec.lostStep]
      · rename_i hu
        simpa using (h.core.owned hi).resolve_left hu
    have hreq : Spec.inProgress (s.log ++ (if s.upperOpen then [.up .closed] else [])) = Spec.inProgress s.log := by
      split <;> simp [Spec.inProgress, Spec.requestStep]
    refine ⟨⟨⟨?_, ?_, ?_, ?_, ?_, ?_⟩, ?_⟩, .inl ?_, by simp⟩
    · simp only [closing_log]
      split
      · exact AllAt.snoc.2 ⟨h.core.good, trivial⟩
      · simpa using h.core.good
    · simpa [hreq] using h.core.prog
    · simpa using h.core.busy
    · simp
    · intro _
      exact .inr (by simpa using hlost)
    · simpa [hreq] using h.core.quiet
    · intro _ hx
      simp only [closing_log] at hx
      rw [hlost] at hx
      cases hx
    · simpa using hlost

theorem Still.of_idle {s : Layer} (h : s.tx.isIdle = true) : Still s := by
  refine .inr (.inr ?_)
  unfold TxState.isIdle at h
  unfold TxState.isReadyTx
  cases h1 : s.tx.transmitting <;> cases h2 : s.tx.remainder.isEmpty <;> simp_all

/-- The data of a request is taken. -/
theorem taken_inv {s : Layer} (hp : DisciplineProof.Inv s) (h : Inv s) (hr : isTxReady s = true) (d : Bytes) :
    Inv (s.taken d) := by
  simp only [isTxReady, Bool.and_eq_true] at hr
  obtain ⟨⟨h1, h2⟩, h3⟩ := hr
  have e1 : Spec.inProgress (s.log ++ [Obs.startTx d true]) = !d.isEmpty := by simp [Spec.inProgress, Spec.requestStep]
  have e2 : Spec.lost (s.log ++ [Obs.startTx d true]) = Spec.lost s.log := by simp [Spec.lost, Spec.lostStep]
  have e3 : (s.taken d).tx.isIdle = d.isEmpty := by simp [Layer.taken, TxState.initialize, TxState.isIdle]
  have e4 : (s.taken d).log = s.log ++ [.startTx d true] := rfl
  refine ⟨⟨?_, ?_, ?_, ?_, ?_, ?_⟩, ?_⟩
  · rw [e4]
    refine AllAt.snoc.2 ⟨h.core.good, ?_, ?_, ?_⟩
    · exact (belowOpen_eq _).trans (hp.isOpen.trans h1)
    · exact (appOpen_eq _).trans (hp.appOpen.trans h2)
    · intro hl
      cases hq : Spec.inProgress s.log with
      | false => rfl
      | true => rw [h.held h1 hl hq] at h3; cases h3
  · rw [e3, e4, e1]
    intro _ hd
    simp [hd]
  · intro _ ht
    cases ht
  · intro _
    rw [e4, e2]
    exact h.core.keyed h2
  · intro _
    exact .inl h2
  · intro ho
    exact absurd (h1.symm.trans ho) (by simp)
  · intro _ _
    rw [e4, e1, e3]
    simp

/-- The state of the layer when control is outside: nothing could be transmitted, and nothing is held while the layer
below is closed. -/
def Rest (s : Layer) : Prop := Still s ∧ (s.isOpen = false → s.tx.isIdle = true)

theorem Rest.of_rel {s t : Layer} (h : Rel s t) (hs : Rest s) : Rest t :=
  ⟨h.still hs.1, fun ho => h.idle (h.isOpen ▸ ho) (hs.2 (h.isOpen ▸ ho))⟩

/-- The layer below is opened. -/
theorem opened_inv {s : Layer} (h : Inv s) (hs : Rest s) (ho : s.isOpen = false) :
    Inv (({ s with isOpen := true } : Layer).noted .lowerOpen) ∧ Rest (({ s with isOpen := true } : Layer).noted .lowerOpen) := by
  have hi := hs.2 ho
  have hq := h.core.quiet ho
  have e1 : Spec.inProgress (s.log ++ [Obs.lowerOpen]) = Spec.inProgress s.log := by simp [Spec.inProgress, Spec.requestStep]
  have hn : ∀ {p : Prop}, s.tx.isIdle = false → p := fun hx => by rw [hi] at hx; cases hx
  refine ⟨⟨⟨?_, fun _ => hn, ?_, ?_, hn, ?_⟩, ?_⟩, .of_idle hi, fun h => by cases h⟩
  · exact AllAt.snoc.2 ⟨h.core.good, trivial⟩
  · intro _ ht
    apply hn
    change s.tx.transmitting = true at ht
    simp [TxState.isIdle, ht]
  · intro hu
    rcases h.core.keyed hu with h1 | ⟨h1, _⟩
    · exact .inl h1
    · rw [ho] at h1; cases h1
  · intro hx
    cases hx
  · intro _ _ hx
    change Spec.inProgress (s.log ++ [Obs.lowerOpen]) = true at hx
    rw [e1, hq] at hx
    cases hx

/-- A transmission of the layer below has ended, and the application is notified if its request is complete. -/
theorem notified_inv {c : Cfg} {s t : Layer} (h : Inv s) (ho : s.isOpen = true) (hs : NotifiedStep c s t) :
    Inv t ∧ t.isOpen = true := by
  obtain ⟨m, hm, rfl⟩ := hs
  let b : Layer := { s.readied true with tx := s.tx.onTxComplete.1 }
  have hb : Tame b m := by
    cases hm with
    | attempt params limits _ _ _ hr => exact tame_hsReq hr
    | idle _ => exact .refl _
  have hlog : b.log = s.log ++ [.lowerReady true] := rfl
  have e1 : Spec.inProgress b.log = Spec.inProgress s.log := neutral_request (by simp [Neutral]) _
  have e2 : Spec.lost b.log = Spec.lost s.log := neutral_lost (by simp [Neutral]) _
  have hcb : Core b := by
    refine ⟨hlog ▸ neutral_good (by simp [Neutral]) h.core.good, ?_, ?_, ?_, ?_, ?_⟩
    · intro _ hi
      rw [e1]
      refine h.core.prog ho ?_
      change s.tx.onTxComplete.1.isIdle = false at hi
      unfold TxState.onTxComplete at hi
      unfold TxState.isIdle at hi ⊢
      split at hi <;> simp_all
    · intro _ ht
      change s.tx.onTxComplete.1.transmitting = true at ht
      unfold TxState.onTxComplete at ht
      split at ht <;> simp_all
    · rw [e2]
      exact h.core.keyed
    · intro hi
      rw [e2]
      refine h.core.owned ?_
      change s.tx.onTxComplete.1.isIdle = false at hi
      unfold TxState.onTxComplete at hi
      unfold TxState.isIdle at hi ⊢
      split at hi <;> simp_all
    · intro hx
      exact absurd (ho.symm.trans hx) (by simp)
  have hcm := hb.core hcb
  obtain ⟨x, hx, hx'⟩ := hb.log
  have e3 : Spec.inProgress m.log = Spec.inProgress s.log := by rw [hx, neutral_request hx', e1]
  have e4 : Spec.lost m.log = Spec.lost s.log := by rw [hx, neutral_lost hx', e2]
  have hmo : m.isOpen = true := hb.isOpen.trans ho
  split
  · rename_i hc
    have ht : s.tx.isIdle = false ∧ m.tx.isIdle = true := by
      rw [hb.idle]
      change _ ∧ s.tx.onTxComplete.1.isIdle = true
      unfold TxState.onTxComplete at hc ⊢
      unfold TxState.isIdle
      split at hc <;> simp_all
    have hp : Spec.inProgress m.log = true := by rw [e3]; exact h.core.prog ho ht.1
    unfold Layer.txNotified
    split
    · rename_i hu
      have e5 : Spec.inProgress (m.log ++ [Obs.up .txReady]) = false := by simp [Spec.inProgress, Spec.requestStep]
      have e6 : Spec.lost (m.log ++ [Obs.up .txReady]) = Spec.lost m.log := by simp [Spec.lost, Spec.lostStep]
      refine ⟨⟨⟨AllAt.snoc.2 ⟨hcm.good, hp⟩, ?_, hcm.busy, ?_, ?_, ?_⟩, ?_⟩, hmo⟩
      · intro _ hi
        exact absurd (ht.2.symm.trans hi) (by simp)
      · intro hu
        rcases hcm.keyed hu with h1 | h1
        · exact .inl h1
        · exact .inr ⟨h1.1, e6.trans h1.2⟩
      · intro hi
        exact absurd (ht.2.symm.trans hi) (by simp)
      · intro hf
        exact absurd (hmo.symm.trans hf) (by simp)
      · intro _ _ hy
        exact absurd (e5.symm.trans hy) (by simp)
    · rename_i hu
      refine ⟨⟨hcm, ?_⟩, hmo⟩
      intro _ hl
      exfalso
      rcases h.core.owned ht.1 with h1 | h1
      · exact hu (hb.upper h1)
      · rw [e4, h1] at hl; cases hl
  · rename_i hc
    refine ⟨⟨hcm, ?_⟩, hmo⟩
    intro _ hl hp
    rw [e3] at hp
    rw [e4] at hl
    have := h.held ho hl hp
    rw [hb.idle]
    change s.tx.onTxComplete.1.isIdle = false
    unfold TxState.onTxComplete at hc ⊢
    unfold TxState.isIdle at this ⊢
    split at hc <;> simp_all

/-- The obligations. -/
theorem atomicF (c : Cfg) (E : Env) : AtomicF c E DisciplineProof.Inv Inv Rest (fun s => s.isOpen = true) Rel Rel where
  refl := Rel.refl
  trans _ _ _ := Rel.trans
  transL _ _ _ := Rel.trans
  sub _ _ _ h := h
  reflL _ _ _ := Rel.refl _
  start _ _ _ _ := Rel.refl _
  start' _ _ _ _ := Rel.refl _
  read s _ _ _ h h1 h2 := by
    have := tame_rx (.readData (c := c) (E := E) h1 h2)
    exact ⟨this.inv h, this.rel⟩
  nested _ _ _ _ _ _ := ⟨Rel.refl _, id⟩
  init h _ _ := by
    refine ⟨⟨⟨AllAt.nil, ?_, ?_, ?_, ?_, ?_⟩, ?_⟩, .of_idle rfl, fun _ => rfl⟩
    · intro h; cases h
    · intro h; cases h
    · intro h; cases h
    · intro h; cases h
    · intro _; rfl
    · intro h; cases h
  request s s' hp _ h hs := by
    cases hs with
    | refused d hr =>
      have hg : Good s.log (.startTx d false) := by
        change Spec.belowOpen s.log = false ∨ Spec.appOpen s.log = false ∨ Spec.inProgress s.log = true
        rw [belowOpen_eq, appOpen_eq, hp.isOpen, hp.appOpen]
        cases h1 : s.isOpen with
        | false => exact .inl rfl
        | true =>
          cases h2 : s.upperOpen with
          | false => exact .inr (.inl rfl)
          | true => exact .inr (.inr (h.core.prog h1 (by simpa [isTxReady, h1, h2] using hr)))
      have e1 : Spec.inProgress (s.log ++ [Obs.startTx d false]) = Spec.inProgress s.log := by
        simp [Spec.inProgress, Spec.requestStep]
      have e2 : Spec.lost (s.log ++ [Obs.startTx d false]) = Spec.lost s.log := by simp [Spec.lost, Spec.lostStep]
      refine ⟨⟨⟨AllAt.snoc.2 ⟨h.core.good, hg⟩, ?_, h.core.busy, ?_, ?_, ?_⟩, ?_⟩, rfl, ?_, fun _ => id⟩
      · intro ho hi; exact e1.trans (h.core.prog ho hi)
      · intro hu
        rcases h.core.keyed hu with h1 | h1
        · exact .inl h1
        · exact .inr ⟨h1.1, e2.trans h1.2⟩
      · intro hi
        exact (h.core.owned hi).imp id e2.trans
      · intro ho; exact e1.trans (h.core.quiet ho)
      · intro ho hl hq; exact h.held ho (e2.symm.trans hl) (e1.symm.trans hq)
      · rintro (h1 | h1)
        · exact .inl (e2.trans h1)
        · exact .inr h1
    | accepted d _ hr hs =>
      have h1 := check_step (taken_inv hp h hr d) hs
      have ho : s.isOpen = true := by
        simp only [isTxReady, Bool.and_eq_true] at hr
        exact hr.1.1
      exact ⟨h1.1, h1.2.2, fun _ => h1.2.1, fun hx => absurd (ho.symm.trans hx) (by simp)⟩
  check s s' _ _ h ho hs := by
    have h1 := check_step h hs
    exact ⟨h1.1, h1.2.1, fun hx => absurd ((h1.2.2.trans ho).symm.trans hx) (by simp)⟩
  rx s s' _ _ h _ ha _ := ⟨(tame_rx ha).inv h, fun _ _ => (tame_rx ha).rel⟩
  respEnd o s0 s _ _ _ _ _ hr hR := by
    obtain ⟨s1, m, w, h, msg, now, now', scratch, out, _, _, _, _, _, h1, h2, _, h4⟩ := hr
    subst h4
    exact (tame_respAuth h1 m w scratch _ _ s1 h2).rel.trans hR
  data s m w msg now scratch payload s' _ _ h _ _ _ _ _ _ hn := by
    have h1 : Tame s { (s.received m w).dataValidated c msg now scratch with payloadLen := payload.length } :=
      (tame_received s m w).trans ((tame_dataValidated c _ msg now scratch).trans
        (.of_eq [] (by simp) (by simp) rfl rfl rfl rfl id))
    exact (h1.trans (tame_nonce hn)).inv h
  tail o s s' _ _ _ ho _ h ha := by
    have pay : ∀ (s : Layer) (n : Nat), Tame s (({ s with payloadLen := n } : Layer).rxNotified) := fun s n =>
      Tame.trans (t := { s with payloadLen := n }) (.of_eq [] (by simp) (by simp) rfl rfl rfl rfl id) (tame_rxNotified _)
    cases ha with
    | initAuthPayload s0 m w params limits msg now scratch payload _ _ _ _ _ h1 h2 h3 _ =>
      subst h2
      exact ⟨(pay s _).inv h, fun _ => ((tame_initAuthOk h1 m w scratch params).rel.trans h3).trans (pay s _).rel⟩
    | initAuthEnd s0 m w params limits msg now scratch payload _ _ _ _ _ h1 h2 h3 =>
      subst h2
      have h4 : Tame s { s with inAuth := false, ini := { s.ini with hs := .idle } } :=
        .of_eq [] (by simp) (by simp) rfl rfl rfl rfl id
      refine ⟨h4.inv h, fun _ => ?_⟩
      refine Rel.trans (Rel.trans (tame_initAuthOk h1 m w scratch params).rel ?_) h4.rel
      rcases h3 with ⟨_, h3⟩ | ⟨s1, h3, _, h5⟩
      · exact h3
      · exact h3.trans ((pay s1 _).rel.trans h5)
    | dataNotified s1 m w msg now scratch payload _ _ _ _ _ h2 h3 =>
      subst h2
      have h1 : Tame o { (o.received m w).dataValidated c msg now scratch with payloadLen := payload.length } :=
        (tame_received o m w).trans ((tame_dataValidated c _ msg now scratch).trans
          (.of_eq [] (by simp) (by simp) rfl rfl rfl rfl id))
      exact ⟨(tame_rxNotified s).inv h, fun _ => (h1.trans ((tame_nonce h3).trans (tame_rxNotified s))).rel⟩
    | respAuthPayload s0 s1 m w hh msg now now' scratch payload out _ _ _ _ _ h1 h2 _ h3 h4 _ =>
      subst h3
      exact ⟨(pay s _).inv h, fun _ => ((tame_respAuth h1 m w scratch _ _ s1 h2).rel.trans h4).trans (pay s _).rel⟩
  stay _ _ _ _ h hr := Rest.of_rel hr h
  stay' _ _ _ _ h hr := hr.isOpen.trans h
  event s s' _ _ h hj ha _ := by
    cases ha with
    | openedResponder hh _ ho => exact opened_inv h hj ho
    | openedInitiator params limits _ _ ho hs =>
      have h1 := opened_inv h hj ho
      have h2 := tame_hsReq hs
      exact ⟨h2.inv h1.1, .of_rel h2.rel h1.2⟩
    | response params limits i _ =>
      have h2 : Tame s { s with ini := i } := .of_eq [] (by simp) (by simp) rfl rfl rfl rfl id
      exact ⟨h2.inv h, .of_rel h2.rel hj⟩
    | retry params limits i _ _ hs =>
      have h2 : Tame s { s with ini := i } := .of_eq [] (by simp) (by simp) rfl rfl rfl rfl id
      have h3 := h2.trans (tame_hsReq hs)
      exact ⟨h3.inv h, .of_rel h3.rel hj⟩
  ready s b _ _ h hj ho := by
    have hi := hj.2 ho
    have e1 : Spec.inProgress (s.log ++ [Obs.lowerReady b]) = Spec.inProgress s.log := neutral_request (by simp [Neutral]) _
    have e2 : Spec.lost (s.log ++ [Obs.lowerReady b]) = Spec.lost s.log := neutral_lost (by simp [Neutral]) _
    have hn : ∀ {p : Prop}, s.isOpen = true → p := fun hx => by rw [ho] at hx; cases hx
    refine ⟨⟨⟨?_, hn, hn, ?_, ?_, ?_⟩, hn⟩, .of_idle hi, fun _ => hi⟩
    · exact neutral_good (by simp [Neutral]) h.core.good
    · intro hu
      rcases h.core.keyed hu with h1 | h1
      · exact .inl h1
      · exact .inr ⟨h1.1, e2.trans h1.2⟩
    · intro hx
      exact (h.core.owned hx).imp id e2.trans
    · intro _
      exact e1.trans (h.core.quiet ho)
  notified s s' _ _ h _ ho hs := notified_inv h ho hs
  closing s b _ _ h _ ho := by
    have hl : ((s.readied b).lowerClosing c).log =
        (s.log ++ [.lowerReady b]) ++ .lowerClose :: (if s.upperOpen then [.up .closed] else []) := lowerClosing_log _ c
    have e1 : Spec.inProgress ((s.readied b).lowerClosing c).log = false := by
      rw [hl]
      unfold Spec.inProgress
      split <;> simp [Spec.requestStep]
    have e2 : Spec.lost ((s.readied b).lowerClosing c).log = true := by
      rw [hl]
      unfold Spec.lost
      split <;> simp [Spec.lostStep]
    have hf : ((s.readied b).lowerClosing c).isOpen = false := by simp
    refine ⟨⟨?_, ?_, ?_, ?_, fun _ => .inr e2, fun _ => e1⟩, ?_⟩
    · rw [hl]
      have h0 : AllAt Good (s.log ++ [.lowerReady b]) := neutral_good (by simp [Neutral]) h.core.good
      split
      · have h1 : AllAt Good ((s.log ++ [.lowerReady b]) ++ [.lowerClose]) := AllAt.snoc.2 ⟨h0, trivial⟩
        have h2 : AllAt Good (((s.log ++ [.lowerReady b]) ++ [.lowerClose]) ++ [.up .closed]) := AllAt.snoc.2 ⟨h1, trivial⟩
        simpa using h2
      · exact AllAt.snoc.2 ⟨h0, trivial⟩
    · rw [hf]; simp
    · rw [hf]; simp
    · simp
    · unfold Held; rw [hf]; simp
  closed s0 b s _ _ _ _ _ _ h hr := by
    have ho : s.isOpen = false := by rw [hr.isOpen]; simp
    have hn : ∀ {p : Prop}, (s.closedDown c).isOpen = true → p := fun hx => by
      change s.isOpen = true at hx
      rw [ho] at hx; cases hx
    refine ⟨⟨⟨h.core.good, hn, hn, h.core.keyed, ?_, h.core.quiet⟩, hn⟩, .of_idle rfl, fun _ => rfl⟩
    intro hx
    cases hx

/-- The invariant holds in every execution. -/
theorem proof (c : Cfg) (E : Env) : Proof c E (fun s => (DisciplineProof.Inv s ∧ LowerTxProof.Inv s) ∧ Inv s) Rest Rel Rel := by
  have a := atomicF c E
  exact AtomicF.proof (P := fun s => DisciplineProof.Inv s ∧ LowerTxProof.Inv s) {
    refl := a.refl
    trans := a.trans
    transL := a.transL
    sub := a.sub
    reflL := a.reflL
    start := fun s h => a.start s h.1
    start' := fun s h => a.start' s h.1
    read := fun s he h h' => a.read s he h.1 h'.1
    nested := fun s t he h => a.nested s t he h.1
    init := a.init
    request := fun s s' h h' => a.request s s' h.1 h'.1
    check := fun s s' h h' => a.check s s' h.1 h'.1
    rx := fun s s' h h' => a.rx s s' h.1 h'.1
    respEnd := fun o s0 s h h' => a.respEnd o s0 s h.1 h'.1
    data := fun s m w msg now scratch payload s' h h' => a.data s m w msg now scratch payload s' h.1 h'.1
    tail := fun o s s' h1 h2 h3 => a.tail o s s' h1.1 h2.1 h3.1
    stay := fun s t h => a.stay s t h.1
    stay' := fun s t h => a.stay' s t h.1
    event := fun s s' h h' => a.event s s' h.1 h'.1
    ready := fun s b h h' => a.ready s b h.1 h'.1
    notified := fun s s' h h' => a.notified s s' h.1 h'.1
    closing := fun s b h h' => a.closing s b h.1 h'.1
    closed := fun s0 b s h1 h2 h3 => a.closed s0 b s h1.1 h2.1 h3.1 }
    ((DisciplineProof.atomic c E).and (LowerTxProof.atomic c E))

end RequestProof

/-- A request of the application to transmit is refused only while the layer below is closed, while the application is
closed, or while an earlier request is in progress. -/
theorem C47_refused_only_if {c : Cfg} {E : Env} {s : Layer} (h : Observed c E s) {pre post : List Obs} {d : Bytes}
    (hl : s.log = pre ++ .startTx d false :: post) :
    Spec.belowOpen pre = false ∨ Spec.appOpen pre = false ∨ Spec.inProgress pre = true :=
  ((RequestProof.proof c E).observed h).2.core.good _ _ _ hl

/-- A request of the application to transmit is accepted only while the layer below is open, while the application is
open and, unless a session has been lost on this connection, while no earlier request is in progress. -/
theorem C47_accepted_only_if {c : Cfg} {E : Env} {s : Layer} (h : Observed c E s) {pre post : List Obs} {d : Bytes}
    (hl : s.log = pre ++ .startTx d true :: post) :
    Spec.belowOpen pre = true ∧ Spec.appOpen pre = true ∧ (Spec.lost pre = false → Spec.inProgress pre = false) :=
  ((RequestProof.proof c E).observed h).2.core.good _ _ _ hl

/-- "Ready to transmit" is notified only while a request is in progress, and ends it: once for each request that has
been accepted and has data. -/
theorem C47_ready_once {c : Cfg} {E : Env} {s : Layer} (h : Observed c E s) {pre post : List Obs}
    (hl : s.log = pre ++ .up .txReady :: post) : Spec.inProgress pre = true :=
  ((RequestProof.proof c E).observed h).2.core.good _ _ _ hl

/-- A request without data is never completed: if the last request of the application that was accepted has no data, then
it is not notified that the layer is ready to transmit. -/
theorem C47_empty_never_completes {c : Cfg} {E : Env} {s : Layer} (h : Observed c E s) {pre mid post : List Obs}
    (hl : s.log = pre ++ .startTx [] true :: mid ++ .up .txReady :: post) : ∃ d, d ≠ [] ∧ .startTx d true ∈ mid := by
  have h1 := C47_ready_once h hl
  clear hl h
  induction mid using List.reverseRecOn with
  | nil => simp [Spec.inProgress, Spec.requestStep] at h1
  | append_singleton mid o ih =>
    rw [← List.cons_append, ← List.append_assoc] at h1
    unfold Spec.inProgress at h1 ih
    rw [List.foldl_append] at h1
    simp only [List.foldl_cons, List.foldl_nil] at h1
    have lift : (∃ d, d ≠ [] ∧ .startTx d true ∈ mid) → ∃ d, d ≠ [] ∧ .startTx d true ∈ mid ++ [o] := by
      rintro ⟨d, hd, hm⟩
      exact ⟨d, hd, List.mem_append_left _ hm⟩
    cases o with
    | startTx d b =>
      cases b with
      | true =>
        refine ⟨d, ?_, by simp⟩
        rintro rfl
        simp [Spec.requestStep] at h1
      | false => exact lift (ih h1)
    | up cb => cases cb <;> first | exact lift (ih h1) | (simp [Spec.requestStep] at h1)
    | lowerClose => simp [Spec.requestStep] at h1
    | _ => exact lift (ih h1)

/-- A transfer never stalls: whenever the layer waits for its environment with a request in progress (the layer below
and the application open, no session lost on this connection), the layer below is busy, so that the layer will be
called when it is ready again. -/
theorem C47_no_stall {c : Cfg} {E : Env} {s : Layer} (h : Quiet c E s) (hb : Spec.belowOpen s.log = true)
    (hl : Spec.lost s.log = false) (hp : Spec.inProgress s.log = true) :
    Spec.lowerIsReady s.log = false := by
  obtain ⟨⟨⟨h1, h2⟩, h3⟩, h4⟩ := (RequestProof.proof c E).quiet h
  rw [← h2.ready]
  rw [RequestProof.belowOpen_eq, h1.isOpen] at hb
  have hi := h3.held hb hl hp
  rcases h4.1 with h5 | h5 | h5
  · rw [hl] at h5; cases h5
  · exact h5
  · refine h3.core.busy hb ?_
    unfold TxState.isIdle at hi
    unfold TxState.isReadyTx at h5
    cases ht : s.tx.transmitting <;> cases hr : s.tx.remainder.isEmpty <;> simp_all

/-- Unless a session has been lost on this connection, a request is accepted if and only if the layer below and the
application are open and no earlier request is in progress. -/
theorem C47_accepted_iff {c : Cfg} {E : Env} {s : Layer} (h : Observed c E s) {pre post : List Obs} {d : Bytes} {b : Bool}
    (hl : s.log = pre ++ .startTx d b :: post) (hn : Spec.lost pre = false) :
    b = true ↔ Spec.belowOpen pre = true ∧ Spec.appOpen pre = true ∧ Spec.inProgress pre = false := by
  cases b with
  | true =>
    obtain ⟨h1, h2, h3⟩ := C47_accepted_only_if h hl
    simp [h1, h2, h3 hn]
  | false =>
    have := C47_refused_only_if h hl
    constructor
    · intro hx; cases hx
    · rintro ⟨h1, h2, h3⟩
      rw [h1, h2, h3] at this
      simp at this

namespace LayerExample
open Exec

set_option synthInstance.maxSize 2000

/-- A request is in progress, then complete, then the next one is accepted, and one more is refused. -/
def iniRequests : List Choice := iniData ++ [.api (.startTx [9]), .event .lowerTxReady, .ret, .recv [], ans 12,
  .api (.startTx [4]), ans 12, ans 12]

/-- What the application asked for and was told. -/
def requests (s : Layer) : List (Option (Bytes × Bool)) := s.log.filterMap fun
  | .startTx d b => some (some (d, b))
  | .up .txReady => some none
  | _ => none

example : ∃ s, Quiet ini EnvB.tame.env s ∧ Spec.belowOpen s.log = true ∧ Spec.appOpen s.log = true ∧
    Spec.lost s.log = false ∧ Spec.inProgress s.log = true ∧ Spec.lowerIsReady s.log = false ∧
    requests s = [some ([1, 2, 3], true), some ([9], false), none, some ([4], true)] := by
  obtain ⟨s, h1, h2⟩ := Exec.exists_of_map configured (c := ini) (E := .tame) (h := hs) (script := iniRequests)
    (f := fun s => (Spec.belowOpen s.log, Spec.appOpen s.log, Spec.lost s.log, Spec.inProgress s.log,
      Spec.lowerIsReady s.log, requests s))
    (a := (true, true, false, true, false, [some ([1, 2, 3], true), some ([9], false), none, some ([4], true)]))
    (by decide +kernel)
  simp only [Prod.mk.injEq] at h2
  exact ⟨s, h1, h2⟩

/-- A request without data is accepted, and nothing is in progress. -/
example : ∃ s, Quiet ini EnvB.tame.env s ∧ Spec.inProgress s.log = false ∧ requests s = [some ([], true)] := by
  obtain ⟨s, h1, h2⟩ := Exec.exists_of_map configured (c := ini) (E := .tame) (h := hs)
    (script := iniOpen ++ [.api (.startTx [])])
    (f := fun s => (Spec.inProgress s.log, requests s)) (a := (false, [some ([], true)])) (by decide +kernel)
  simp only [Prod.mk.injEq] at h2
  exact ⟨s, h1, h2⟩

/-- More data than one message carries. -/
def longData : Bytes := List.replicate 1030 4
/-- The session is lost, and a new one is opened; its session auth message carries the beginning of the data of the
request that the application made in the lost session. -/
def iniReopened : List Choice := iniOpen3L ++ [.api (.startTx [1, 2, 3]), ans 10, .event .lowerTxReady, .ret, .recv [],
  ans 10, .api (.startTx longData), ans 10, .ret, .event (.expiry .session), ans 5 9, ans 5 9,
  .event .lowerTxReady, .recv reply3L, ans 7, ans 7, ans 7, .event .lowerTxReady, .recv [], ans 8,
  .event .lowerRxReady, .recv auth23L, ans 9, ans 9, ans 9, .ret, .recv [], ans 9, .api (.startTx [7])]

/-- `C47_no_stall` and the guarantee that an application can transmit in an open session fail once a session has been
lost: what remains of the application's last request of the lost session is neither sent nor discarded when the new one
opens. The application is open and its request is refused, although the layer below is ready. Nothing is transmitted
until the next negotiation. -/
theorem C47_stall_after_loss : ∃ c s, Quiet c EnvB.tame.env s ∧ Spec.belowOpen s.log = true ∧
    Spec.appOpen s.log = true ∧ Spec.lowerIsReady s.log = true ∧ s.log.getLast? = some (.startTx [7] false) ∧
    s.ini.hs = .idle ∧ s.ini.required = false := by
  obtain ⟨s, h1, h2⟩ := Exec.exists_of_map (configured : hs.Configured ini3.backend ini3.caps) (c := ini3) (E := .tame)
    (h := hs) (script := iniReopened)
    (f := fun s => (Spec.belowOpen s.log, Spec.appOpen s.log, Spec.lowerIsReady s.log,
      (s.log.getLast?.map tag, (requests s).getLast?), s.ini.hs, s.ini.required))
    (a := (true, true, true, (some 7, some (some ([7], false))), .idle, false)) (by decide +kernel)
  simp only [Prod.mk.injEq] at h2
  obtain ⟨h3, h4, h5, ⟨h6, h7⟩, h8, h9⟩ := h2
  refine ⟨ini3, s, h1, h3, h4, h5, ?_, h8, h9⟩
  cases hl : s.log.getLast? with
  | none => rw [hl] at h6; cases h6
  | some o =>
    rw [hl] at h6
    have hlog : s.log = s.log.dropLast ++ [o] := by
      obtain ⟨l, hl⟩ := List.getLast?_eq_some_iff.1 hl
      rw [hl]; simp
    cases o with
    | startTx d b =>
      unfold requests at h7
      rw [hlog, List.filterMap_append] at h7
      simp at h7
      rw [h7.1, h7.2]
    | up cb => cases cb <;> simp [tag] at h6
    | _ => simp [tag] at h6

end LayerExample
end SSP21.Crypto
