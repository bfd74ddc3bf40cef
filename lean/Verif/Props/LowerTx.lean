import Verif.LayerExample
/-
  Property C32: the layer below is never asked to transmit while it is busy.
-/
namespace SSP21.Crypto

namespace Spec

/-- Effect of an observation on the readiness of the layer below: it reports changes itself, and stops being
ready when it is given a frame. -/
def readyStep (ready : Bool) : Obs → Bool
  | .lowerReady b => b
  | .lowerTx _ _ => false
  | _ => ready

/-- Whether the layer below is ready to transmit, computed from what was observed; initially it is not. -/
def lowerIsReady (log : List Obs) : Bool := log.foldl readyStep false

/-- A frame is handed to the layer below. -/
def isTx : Obs → Bool
  | .lowerTx _ _ => true
  | _ => false

/-- The layer below reports that it is ready. -/
def isReadyReport : Obs → Bool
  | .lowerReady b => b
  | _ => false

/-- Number of frames handed to the layer below. -/
def txCount (log : List Obs) : Nat := log.countP isTx

/-- Number of times the layer below reported that it is ready. -/
def readyCount (log : List Obs) : Nat := log.countP isReadyReport

end Spec

/-- The part of the monitor that the proof needs. -/
def Obs.isTraffic : Obs → Bool
  | .lowerReady _ => true
  | .lowerTx _ _ => true
  | _ => false

namespace LowerTxProof

/-- All transmissions up to now were allowed. -/
def GoodLog (log : List Obs) : Prop :=
  ∀ pre post f b, log = pre ++ .lowerTx f b :: post → Spec.lowerIsReady pre = true ∧ b = true

theorem ready_append_quiet (log extra : List Obs) (h : ∀ o ∈ extra, o.isTraffic = false) :
    Spec.lowerIsReady (log ++ extra) = Spec.lowerIsReady log := by
  induction extra generalizing log with
  | nil => simp
  | cons o extra ih =>
    have h1 := h o (by simp)
    have := ih (log ++ [o]) (fun o ho => h o (by simp [ho]))
    rw [List.append_assoc] at this
    simp only [List.singleton_append] at this
    rw [this]
    cases o <;> simp_all [Spec.lowerIsReady, Obs.isTraffic, Spec.readyStep]

theorem good_append_quiet {log extra : List Obs} (hg : GoodLog log) (h : ∀ o ∈ extra, o.isTraffic = false) :
    GoodLog (log ++ extra) := by
  intro pre post f b heq
  rw [List.append_eq_append_iff] at heq
  rcases heq with ⟨x, rfl, hx⟩ | ⟨x, rfl, hx⟩
  · have := h (.lowerTx f b) (by rw [hx]; simp)
    simp [Obs.isTraffic] at this
  · cases x with
    | nil =>
      have := h (.lowerTx f b) (by simp at hx; rw [← hx]; simp)
      simp [Obs.isTraffic] at this
    | cons y x =>
      simp only [List.cons_append, List.cons.injEq] at hx
      obtain ⟨rfl, rfl⟩ := hx
      exact hg pre x f b rfl

theorem good_append_ready {log : List Obs} (hg : GoodLog log) (b : Bool) : GoodLog (log ++ [.lowerReady b]) := by
  intro pre post f b' heq
  rw [List.append_eq_append_iff] at heq
  rcases heq with ⟨x, rfl, hx⟩ | ⟨x, rfl, hx⟩
  · cases x <;> simp at hx
  · cases x with
    | nil => simp at hx
    | cons y x =>
      simp only [List.cons_append, List.cons.injEq] at hx
      obtain ⟨rfl, rfl⟩ := hx
      exact hg pre x f b' rfl

theorem good_append_tx {log : List Obs} (hg : GoodLog log) (hr : Spec.lowerIsReady log = true) (f : Bytes) :
    GoodLog (log ++ [.lowerTx f true]) := by
  intro pre post f' b' heq
  rw [List.append_eq_append_iff] at heq
  rcases heq with ⟨x, rfl, hx⟩ | ⟨x, rfl, hx⟩
  · cases x with
    | nil =>
      simp only [List.nil_append, List.cons.injEq, Obs.lowerTx.injEq] at hx
      simpa [← hx.1.2] using hr
    | cons y x => simp at hx
  · cases x with
    | nil =>
      simp only [List.nil_append, List.cons.injEq, Obs.lowerTx.injEq] at hx
      simpa [← hx.1.2] using hr
    | cons y x =>
      simp only [List.cons_append, List.cons.injEq] at hx
      obtain ⟨rfl, rfl⟩ := hx
      exact hg pre x f' b' rfl

/-- The invariant. -/
structure Inv (s : Layer) : Prop where
  good : GoodLog s.log
  ready : s.lowerReady = Spec.lowerIsReady s.log

theorem Inv.quiet {s t : Layer} (h : Inv s) (extra : List Obs) (hl : t.log = s.log ++ extra)
    (hr : t.lowerReady = s.lowerReady) (hq : ∀ o ∈ extra, o.isTraffic = false) : Inv t :=
  ⟨hl ▸ good_append_quiet h.good hq, by rw [hr, hl, ready_append_quiet _ _ hq, h.ready]⟩

theorem Inv.tx {s t : Layer} (h : Inv s) (f : Bytes) (b : Bool) (hb : s.lowerReady = true)
    (hl : t.log = s.log ++ [.lowerTx f b]) (hb' : b = s.lowerReady) (hr : t.lowerReady = false) : Inv t := by
  subst hb'
  rw [hb] at hl
  refine ⟨hl ▸ good_append_tx h.good (h.ready ▸ hb) f, ?_⟩
  rw [hr, hl]
  simp [Spec.lowerIsReady, Spec.readyStep]

theorem Inv.sent {s : Layer} (h : Inv s) (hb : s.lowerReady = true) (f : Bytes) : Inv (s.sent f) :=
  h.tx f _ hb rfl rfl rfl

theorem Inv.of_eq {s t : Layer} (h : Inv s) (hl : t.log = s.log) (hr : t.lowerReady = s.lowerReady) : Inv t :=
  h.quiet [] (by simp [hl]) hr (by simp)

theorem Inv.rx {s : Layer} (h : Inv s) : Inv s.rxNotified := by
  unfold Layer.rxNotified
  split
  · exact h.quiet [_] rfl rfl (by simp [Obs.isTraffic])
  · exact h

theorem Inv.hsReq {c : Cfg} {limits : SessionLimits} {s t : Layer} (h : Inv s) (hq : HsReq c limits s t) : Inv t := by
  cases hq with
  | deferred => exact h.of_eq rfl rfl
  | noKey => exact h.of_eq rfl rfl
  | badConfig f =>
    refine h.quiet (keyObs (s.ini.handshake.usedRecord f.record)) rfl rfl ?_
    cases s.ini.handshake.usedRecord f.record <;> simp [keyObs, Obs.isTraffic]
  | sent _ f _ _ _ _ _ hr =>
    have h' : Inv { s with log := s.log ++ keyObs (s.ini.handshake.usedRecord f.record) } := by
      refine h.quiet (keyObs (s.ini.handshake.usedRecord f.record)) rfl rfl ?_
      cases s.ini.handshake.usedRecord f.record <;> simp [keyObs, Obs.isTraffic]
    exact (h'.sent hr _).of_eq rfl rfl

theorem atomic (c : Cfg) (E : Env) : Atomic1 c E Inv := by
  refine ⟨fun _ => trivial, fun _ _ _ _ _ => trivial, fun _ _ _ _ _ => trivial, fun _ _ _ => trivial,
    fun _ _ _ _ => ⟨fun _ _ => trivial, fun _ _ _ => trivial⟩, ?init, ?tx, ?rx, ?tail, fun _ _ _ _ _ _ => trivial, ?top, ?closing, ?closed⟩
  case tx =>
    intro s s' _ _ h ha
    refine ⟨?_, trivial⟩
    cases ha with
    | nonceTrigger params limits s' _ _ hq => exact Inv.hsReq (by exact h.of_eq rfl rfl) hq
    | startTxRefused d _ => exact h.quiet [_] rfl rfl (by simp [Obs.isTraffic])
    | startTxAccepted d _ => exact h.quiet [.startTx d true] rfl rfl (by simp [Obs.isTraffic])
    | dataSent now out hc _ =>
      have hr : s.lowerReady = true := by
        simp only [canTransmit, Bool.and_eq_true] at hc
        exact hc.1.2
      exact Inv.sent (by exact h.of_eq rfl rfl) (by exact hr) _
    | dataFailed now e hc _ =>
      exact h.quiet _ (by simp; rfl) (by simp) (by intro o; split <;> simp [Obs.isTraffic]; rintro rfl; rfl)
  case rx =>
    intro s s' _ _ h ha
    refine ⟨?_, trivial⟩
    have hrecv : ∀ m w, Inv (s.received m w) := fun m w => h.quiet [_] rfl rfl (by simp [Obs.isTraffic])
    have hup : ∀ (s : Layer), Inv s → ∀ b, Inv (Layer.keyNoted s b) := by
      intro s h b
      cases b with
      | none => exact h
      | some id => exact h.quiet [_] rfl rfl (by simp [Obs.isTraffic])
    have hest : ∀ (s : Layer), Inv s → ∀ n, Inv (Layer.establishedIf s n) := by
      intro s h n
      unfold Layer.establishedIf
      split
      · exact h.quiet [_] rfl rfl (by simp [Obs.isTraffic])
      · exact h
    have hopen : ∀ (s : Layer), Inv s → Inv s.opening := by
      intro s h
      unfold Layer.opening
      split
      · exact h
      · exact h.quiet [_] rfl rfl (by simp [Obs.isTraffic])
    cases ha with
    | ignored m w _ => exact hrecv m w
    | errorReply m w hh e frame hr _ _ => exact (hrecv m w).sent hr.1 _
    | requestRefused m w hh msg now f e hr _ _ _ _ s1 h1 _ h2 =>
      have : Inv s1 := by subst h1; exact hup _ (by exact (hrecv m w).of_eq rfl rfl) _
      rcases h2 with rfl | ⟨fr, _, rfl⟩
      · exact this
      · exact this.sent (by subst h1; simpa using hr.1) _
    | requestAccepted m w hh msg now f frame hr _ _ _ _ _ _ h1 =>
      subst h1
      exact Inv.sent (hest _ (hup _ (by exact (hrecv m w).of_eq rfl rfl) _) _) (by simpa using hr.1) _
    | replyRefused m w params limits msg now _ _ _ _ _ _ h1 =>
      subst h1
      exact (hrecv m w).of_eq rfl rfl
    | replyAuthFailed m w params limits msg now now' e _ _ _ _ _ s1 h1 _ _ h2 =>
      have : Inv s1 := by subst h1; exact hest _ (by exact (hrecv m w).of_eq rfl rfl) _
      subst h2
      exact this.of_eq (by simp) (by simp)
    | replyAccepted m w params limits msg now now' out hr _ _ _ _ s1 h1 _ s2 h2 _ h3 =>
      have hi : Inv s1 := by subst h1; exact hest _ (by exact (hrecv m w).of_eq rfl rfl) _
      have hl : s1.lowerReady = true := by subst h1; simpa using hr.1
      have : Inv s2 := by
        subst h2
        exact Inv.sent (by exact hi.of_eq (by simp) (by simp)) (by simpa using hl) _
      subst h3
      exact this.of_eq rfl rfl
    | replyError m w params limits _ _ _ => exact (hrecv m w).of_eq rfl rfl
    | initAuthRefused m w params limits msg now scratch e _ _ _ _ _ _ _ h1 => subst h1; exact (hrecv m w).of_eq rfl rfl
    | initAuthOk m w params limits msg now scratch payload => 
      unfold Layer.initAuthOk
      exact hopen _ (by exact (hrecv m w).of_eq rfl rfl)
    | respAuthRefused m w => exact (hrecv m w).of_eq rfl rfl
    | respAuthFailed m w hh msg now now' scratch payload e _ _ _ _ _ _ s1 h1 =>
      have hi : Inv s1 := by subst h1; exact (hrecv m w).of_eq rfl rfl
      exact hi.of_eq (by simp) (by simp)
    | respAuthOk m w hh msg now now' scratch payload out hr _ _ _ _ _ s1 h1 =>
      have hi : Inv s1 := by subst h1; exact (hrecv m w).of_eq rfl rfl
      exact hopen _ (Inv.sent (by exact hi.of_eq (by simp) (by simp)) (by subst h1; simpa using hr.1) _)
    | dataRefused m w => exact (hrecv m w).of_eq rfl rfl
    | dataOk m w => exact (hrecv m w).of_eq rfl rfl
    | readEmpty => exact h.of_eq rfl rfl
    | discarded => exact h.quiet [.rxCall] rfl rfl (by simp [Obs.isTraffic])
    | asked => exact h.quiet [_] rfl rfl (by simp [Obs.isTraffic])
    | readNothing => exact h.quiet [_] rfl rfl (by simp [Obs.isTraffic])
    | readData => exact h.quiet [.rxCall, .startRx s.payload] (by simp [Layer.noted]) rfl (by simp [Obs.isTraffic])
  case tail =>
    intro o s s' _ _ _ _ h ha
    refine ⟨?_, trivial⟩
    cases ha with
    | initAuthPayload => exact Inv.rx (by exact h.of_eq rfl rfl)
    | dataNotified => exact h.rx
    | initAuthEnd => exact h.of_eq rfl rfl
    | respAuthPayload => exact Inv.rx (by exact h.of_eq rfl rfl)
  case top =>
    intro s s' _ _ h _ ha
    refine ⟨?_, trivial⟩
    have hnote : ∀ b, Inv { s.noted (.lowerReady b) with lowerReady := b } := fun b =>
      ⟨good_append_ready h.good b, by simp [Spec.lowerIsReady, Spec.readyStep]⟩
    cases ha with
    | ready b => exact hnote b
    | openedResponder => exact h.quiet [_] rfl rfl (by simp [Obs.isTraffic])
    | openedInitiator params limits _ _ _ hq =>
      exact Inv.hsReq (by exact h.quiet [.lowerOpen] rfl rfl (by simp [Obs.isTraffic])) hq
    | txComplete => exact h.of_eq rfl rfl
    | preTxReady params limits _ _ _ _ hq => exact h.hsReq hq
    | txNotified =>
      exact h.quiet _ (txNotified_log s) (by simp) (by intro o; split <;> simp [Obs.isTraffic]; rintro rfl; rfl)
    | responseTimeout => exact h.of_eq rfl rfl
    | retryTimeout params limits _ _ _ i _ hq => exact Inv.hsReq (by exact h.of_eq rfl rfl) hq
    | sessionTimeout params limits _ _ _ hq => exact Inv.hsReq (by exact h.of_eq rfl rfl) hq
    | orphanResponse => exact h.of_eq rfl rfl
    | orphanRetry params limits _ _ _ i _ hq => exact Inv.hsReq (by exact h.of_eq rfl rfl) hq
    | orphanSession params limits _ _ _ hq => exact Inv.hsReq (by exact h.of_eq rfl rfl) hq
  case closing =>
    intro s _ _ h _ _
    exact h.quiet _ (lowerClosing_log s c) (by simp) (by
        intro o; split <;> simp [Obs.isTraffic] <;> rintro (rfl | rfl) <;> rfl)
  case closed => exact fun _ s _ _ _ _ _ _ h _ => ⟨h.of_eq rfl rfl, trivial⟩
  case init => exact fun hh _ _ => ⟨⟨fun pre post f b h => by simp [Layer.new] at h, rfl⟩, trivial⟩

end LowerTxProof

/-- In every execution, whatever application, lower layer and timers do: a frame is handed to the layer below
only while that layer is ready, that is it has reported so since the last frame it was given. -/
theorem C32_never_while_busy (c : Cfg) (E : Env) (s : Layer) (h : Observed c E s) (pre post : List Obs)
    (frame : Bytes) (ready : Bool) (hlog : s.log = pre ++ .lowerTx frame ready :: post) :
    Spec.lowerIsReady pre = true ∧ ready = true :=
  ((LowerTxProof.atomic c E).observed h).good pre post frame ready hlog

/-- So there are never more transmissions than reports of readiness. -/
theorem C32_once_per_readiness (c : Cfg) (E : Env) (s : Layer) (h : Observed c E s) :
    Spec.txCount s.log ≤ Spec.readyCount s.log := by
  have hg := ((LowerTxProof.atomic c E).observed h).good
  have key : ∀ log, LowerTxProof.GoodLog log →
      Spec.txCount log + (Spec.lowerIsReady log).toNat ≤ Spec.readyCount log := by
    intro log
    induction log using List.reverseRecOn with
    | nil => intro _; simp [Spec.txCount, Spec.lowerIsReady, Spec.readyCount]
    | append_singleton log o ih =>
      intro hg
      have hg' : LowerTxProof.GoodLog log := fun pre post f b h =>
        hg pre (post ++ [o]) f b (by rw [h]; simp)
      have ih := ih hg'
      cases o with
      | lowerTx f b =>
        rw [(hg log [] f b rfl).1] at ih
        simp_all [Spec.txCount, Spec.readyCount, Spec.lowerIsReady, Spec.readyStep, Spec.isTx, Spec.isReadyReport]
      | lowerReady b =>
        cases b <;> simp_all [Spec.txCount, Spec.readyCount, Spec.lowerIsReady, Spec.readyStep, Spec.isTx, Spec.isReadyReport] <;>
          omega
      | _ => simpa [Spec.txCount, Spec.readyCount, Spec.lowerIsReady, Spec.readyStep, Spec.isTx, Spec.isReadyReport] using ih
  have := key s.log hg
  omega

namespace LayerExample

/-- An execution with three transmissions by the initiator: request, session authentication, data. -/
example : ∃ s, Observed ini anyEnv s ∧ (Spec.txCount s.log, Spec.readyCount s.log) = (3, 3) := by
  obtain ⟨s, h1, h2⟩ := Exec.exists_of_map configured (c := ini) (E := .tame) (h := hs) (script := iniData)
    (f := fun s => (Spec.txCount s.log, Spec.readyCount s.log)) (a := (3, 3)) (by decide +kernel)
  exact ⟨s, h1.any, h2⟩

end LayerExample

end SSP21.Crypto
