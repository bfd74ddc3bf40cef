import Verif.Spec.Discipline
import Verif.Props.Open
import Verif.LinkLayer
/-
  Property C41: open, close and readiness notifications.
-/
namespace SSP21
open Stack

namespace Discipline

theorem snoc {l : List Signal} {x : Signal} : Spec.Disciplined (l ++ [x]) ↔ Spec.Disciplined l ∧ Spec.Admissible l x := by
  constructor
  · intro h
    exact ⟨fun pre o' post e => h pre o' (post ++ [x]) (by rw [e]; simp), h l x [] rfl⟩
  · rintro ⟨h1, h2⟩ pre o' post e
    rw [List.append_eq_append_iff] at e
    rcases e with ⟨y, rfl, hx⟩ | ⟨y, rfl, hx⟩
    · cases y with
      | nil =>
        simp only [List.nil_append, List.cons.injEq] at hx
        simpa [hx.1] using h2
      | cons z y => simp at hx
    · cases y with
      | nil =>
        simp only [List.nil_append, List.cons.injEq] at hx
        simpa [hx.1] using h2
      | cons z y =>
        simp only [List.cons_append, List.cons.injEq] at hx
        obtain ⟨rfl, rfl⟩ := hx
        exact h1 pre o' y rfl

theorem nil : Spec.Disciplined [] := by
  intro pre x post h
  simp at h

theorem openAfter_snoc (l : List Signal) (x : Signal) :
    Spec.openAfter (l ++ [x]) = Spec.openStep (Spec.openAfter l) x := by
  simp [Spec.openAfter]

theorem run_snoc (u : Upper) (ns : List Signal) (n : Signal) :
    u.run (ns ++ [n]) = (((u.run ns).1.notify n).1, (u.run ns).2 ++ ((u.run ns).1.notify n).2.toList) := by
  induction ns generalizing u with
  | nil => simp [Upper.run]
  | cons m ns ih => simp [Upper.run, ih]

theorem forwarder_snoc (u : Forwarder) (ns : List Signal) (n : Signal) :
    u.run (ns ++ [n]) = (((u.run ns).1.notify n).1, (u.run ns).2 ++ ((u.run ns).1.notify n).2.toList) := by
  induction ns generalizing u with
  | nil => simp [Forwarder.run]
  | cons m ns ih => simp [Forwarder.run, ih]

/-- The flag, the calls and the notifications agree. -/
theorem upper_inv (ns : List Signal) : ((({} : Upper).run ns).1.isOpen = Spec.openAfter ns) ∧
    Spec.openAfter (({} : Upper).run ns).2 = Spec.openAfter ns ∧ Spec.Disciplined (({} : Upper).run ns).2 := by
  induction ns using List.reverseRecOn with
  | nil => exact ⟨rfl, rfl, nil⟩
  | append_singleton ns n ih =>
    obtain ⟨h1, h2, h3⟩ := ih
    rw [run_snoc, openAfter_snoc]
    generalize ({} : Upper).run ns = r at *
    obtain ⟨⟨b⟩, os⟩ := r
    simp only at h1 h2 h3 ⊢
    cases n <;> cases b <;>
      simp [Upper.notify, openAfter_snoc, snoc, Spec.Admissible, Spec.openStep, h2, h3, ← h1]

theorem forwarder_inv (ns : List Signal) :
    (({} : Forwarder).run ns).1.own = (({} : Upper).run ns).1 ∧
      (({} : Forwarder).run ns).1.next = (({} : Upper).run ns).1 ∧
      (({} : Forwarder).run ns).2 = (({} : Upper).run ns).2 := by
  induction ns using List.reverseRecOn with
  | nil => exact ⟨rfl, rfl, rfl⟩
  | append_singleton ns n ih =>
    obtain ⟨h1, h2, h3⟩ := ih
    rw [run_snoc, forwarder_snoc]
    generalize ({} : Upper).run ns = r at *
    generalize ({} : Forwarder).run ns = f at *
    obtain ⟨⟨b⟩, os⟩ := r
    obtain ⟨⟨a, d⟩, os'⟩ := f
    simp only at h1 h2 h3
    subst h1 h2 h3
    cases n <;> cases b <;> simp [Forwarder.notify, Upper.notify]

end Discipline

/-- For every sequence of notifications that a layer receives, the functions of its implementation are called in a
disciplined order. -/
theorem C41_upper_layer (ns : List Signal) : Spec.Disciplined (({} : Upper).run ns).2 := (Discipline.upper_inv ns).2.2

/-- Forwarding: a notification that comes after the notifications `ns` leads to exactly one call if it is
admissible at that moment, and to none otherwise. -/
theorem C41_forwarded_once (ns : List Signal) (n : Signal) :
    (Spec.Admissible ns n → (({} : Upper).run (ns ++ [n])).2 = (({} : Upper).run ns).2 ++ [n]) ∧
    (¬ Spec.Admissible ns n → (({} : Upper).run (ns ++ [n])).2 = (({} : Upper).run ns).2) := by
  obtain ⟨h1, -, -⟩ := Discipline.upper_inv ns
  rw [Discipline.run_snoc]
  generalize ({} : Upper).run ns = r at *
  obtain ⟨⟨b⟩, os⟩ := r
  simp only at h1
  cases n <;> cases b <;> simp [Spec.Admissible, ← h1, Upper.notify]

/-- The stack object in front of the layers adds and removes nothing. -/
theorem C41_stack_forwards (ns : List Signal) : (({} : Forwarder).run ns).2 = (({} : Upper).run ns).2 :=
  (Discipline.forwarder_inv ns).2.2

example : (({} : Forwarder).run [.txReady, .opened, .opened, .rxReady, .closed, .rxReady, .closed, .opened]).2 =
    [.opened, .rxReady, .closed, .opened] := by decide +kernel

namespace Link

/-- The notifications among what the layer above sees. -/
def Out.signal : Out → Option Signal
  | .open => some .opened
  | .close => some .closed
  | .txReady => some .txReady
  | .rxReady => some .rxReady
  | .data _ => none

/-- The notification of the layer below that an event is. -/
def Ev.signal : Ev → Option Signal
  | .lowerOpen => some .opened
  | .lowerClose => some .closed
  | .lowerTxReady => some .txReady
  | .lowerRxReady => some .rxReady
  | _ => none

theorem getFrameLoop_isOpen : ∀ (n : Nat) (w w' : World), getFrameLoop n w = some w' → w'.layer.isOpen = w.layer.isOpen := by
  intro n
  induction n with
  | zero => intro w w' h; cases h
  | succ n ih =>
    intro w w' h
    unfold getFrameLoop at h
    rw [Option.bind_eq_some_iff] at h
    obtain ⟨⟨v, b⟩, h1, h2⟩ := h
    have hv : v.layer.isOpen = w.layer.isOpen := by
      unfold readFrameOneIteration at h1
      split at h1
      · unfold World.pull at h1
        cases hq : w.queue <;> rw [hq] at h1 <;> cases h1 <;> rfl
      · rw [Option.bind_eq_some_iff] at h1
        obtain ⟨⟨p, r, a⟩, _, h4⟩ := h1
        cases h4; rfl
    simp only at h2
    split at h2
    · rw [ih _ _ h2, hv]
    · cases h2; exact hv

theorem getFrame_isOpen {w w' : World} {b : Bool} (h : getFrame w = some (w', b)) : w'.layer.isOpen = w.layer.isOpen := by
  unfold getFrame at h
  split at h
  · cases h; rfl
  · rw [Option.bind_eq_some_iff] at h
    obtain ⟨v, h1, h2⟩ := h
    cases h2
    exact getFrameLoop_isOpen _ _ _ h1

theorem startRx_isOpen {w w' : World} {d : Bytes} (h : startRx w = some (w', d)) : w'.layer.isOpen = w.layer.isOpen := by
  unfold startRx at h
  simp only at h
  rw [Option.bind_eq_some_iff] at h
  obtain ⟨⟨v, ret⟩, h1, h2⟩ := h
  have hv : v.layer.isOpen = w.layer.isOpen := by
    unfold startRxImpl at h1
    rw [Option.bind_eq_some_iff] at h1
    obtain ⟨⟨u, ok⟩, h3, h4⟩ := h1
    have hu : u.layer.isOpen = w.layer.isOpen := by
      rw [getFrame_isOpen h3]
      split <;> rfl
    simp only at h4
    split at h4
    · split at h4 <;> (cases h4; exact hu)
    · cases h4; exact hu
  simp only [Option.some.injEq, Prod.mk.injEq] at h2
  obtain ⟨rfl, rfl⟩ := h2
  split <;> exact hv

theorem exec_signals (es : List Ev) : ∀ (w : World) (pre : List Signal), Spec.Disciplined pre →
    Spec.openAfter pre = w.layer.isOpen → ∀ w' out, exec w es = some (w', out) →
    Spec.Disciplined (pre ++ out.filterMap Out.signal) ∧
      Spec.openAfter (pre ++ out.filterMap Out.signal) = w'.layer.isOpen := by
  induction es with
  | nil =>
    intro w pre h1 h2 w' out h
    cases h
    simpa using ⟨h1, h2⟩
  | cons e es ih =>
    intro w pre h1 h2 w' out h
    unfold exec at h
    rw [Option.bind_eq_some_iff] at h
    obtain ⟨⟨v, o⟩, h3, h⟩ := h
    rw [Option.bind_eq_some_iff] at h
    obtain ⟨⟨u, o'⟩, h4, h⟩ := h
    simp only [Option.some.injEq, Prod.mk.injEq] at h
    obtain ⟨rfl, rfl⟩ := h
    rw [List.filterMap_append, ← List.append_assoc]
    refine ih v _ ?_ ?_ _ _ h4 <;>
    · unfold Ev.step at h3
      split at h3
      · cases h3; simpa using ‹_›
      · cases h3; simpa using ‹_›
      all_goals
        first
        | split at h3 <;>
            first
            | (cases h3; simp_all [Out.signal, Discipline.snoc, Discipline.openAfter_snoc, Spec.openStep, Spec.Admissible])
            | (rw [Option.bind_eq_some_iff] at h3
               obtain ⟨⟨x, b⟩, h5, h6⟩ := h3
               have := getFrame_isOpen h5
               cases h6
               cases b <;> simp_all [Out.signal, Discipline.snoc, Discipline.openAfter_snoc, Spec.openStep, Spec.Admissible])
        | (rw [Option.bind_eq_some_iff] at h3
           obtain ⟨⟨x, b⟩, h5, h6⟩ := h3
           have := startRx_isOpen h5
           cases h6
           simp [List.filterMap_cons, Out.signal, h1, h2, this])

theorem exec_forwards (es : List Ev) : ∀ (w w' : World) (out : List Out), exec w es = some (w', out) →
    (out.filterMap Out.signal).filter (· != .rxReady) =
      (((⟨w.layer.isOpen⟩ : Upper).run (es.filterMap Ev.signal)).2).filter (· != .rxReady) := by
  induction es with
  | nil => intro w w' out h; cases h; rfl
  | cons e es ih =>
    intro w w' out h
    unfold exec at h
    rw [Option.bind_eq_some_iff] at h
    obtain ⟨⟨v, o⟩, h3, h⟩ := h
    rw [Option.bind_eq_some_iff] at h
    obtain ⟨⟨u, o'⟩, h4, h⟩ := h
    simp only [Option.some.injEq, Prod.mk.injEq] at h
    obtain ⟨rfl, rfl⟩ := h
    rw [List.filterMap_append, List.filter_append, ih _ _ _ h4]
    unfold Ev.step at h3
    split at h3
    · cases h3; simp [List.filterMap_cons, Ev.signal]
    · cases h3; simp [List.filterMap_cons, Ev.signal]
    · split at h3 <;> rename_i ho <;> cases h3 <;>
        simp [List.filterMap_cons, Ev.signal, Out.signal, Upper.run, Upper.notify, ho, List.filter_cons]
    · split at h3 <;> rename_i ho <;> cases h3 <;>
        simp [List.filterMap_cons, Ev.signal, Out.signal, Upper.run, Upper.notify, ho, List.filter_cons]
    · split at h3 <;> rename_i ho <;> cases h3 <;>
        simp [List.filterMap_cons, Ev.signal, Out.signal, Upper.run, Upper.notify, ho, List.filter_cons]
    · split at h3
      · rename_i ho
        rw [Option.bind_eq_some_iff] at h3
        obtain ⟨⟨x, b⟩, h5, h6⟩ := h3
        have := getFrame_isOpen h5
        cases h6
        cases b <;> simp [List.filterMap_cons, Ev.signal, Out.signal, Upper.run, Upper.notify, ho, this, List.filter_cons]
      · rename_i ho
        cases h3
        simp [List.filterMap_cons, Ev.signal, Upper.run, Upper.notify, ho]
    · rw [Option.bind_eq_some_iff] at h3
      obtain ⟨⟨x, b⟩, h5, h6⟩ := h3
      have := startRx_isOpen h5
      cases h6
      simp [List.filterMap_cons, Ev.signal, Out.signal, this]

/-- For every sequence of events, the link layer forwards opened, closed and tx-ready notifications exactly as the
interface promises (see `C41_forwarded_once`). -/
theorem C41_link_forwards (localAddr : UInt16) (es : List Ev) (w : World) (out : List Out)
    (h : exec (World.new localAddr) es = some (w, out)) :
    (out.filterMap Out.signal).filter (· != .rxReady) =
      ((({} : Upper).run (es.filterMap Ev.signal)).2).filter (· != .rxReady) :=
  exec_forwards es (World.new localAddr) w out h

/-- For every sequence of events, what the link layer tells the layer above is disciplined. -/
theorem C41_link_layer (localAddr : UInt16) (es : List Ev) (w : World) (out : List Out)
    (h : exec (World.new localAddr) es = some (w, out)) : Spec.Disciplined (out.filterMap Out.signal) := by
  simpa using (exec_signals es (World.new localAddr) [] Discipline.nil rfl w out h).1

/-- Five events of a link layer: three are forwarded. -/
example : ∃ w, exec (World.new 1) [.lowerTxReady, .lowerOpen, .lowerTxReady, .lowerOpen, .lowerClose] =
    some (w, [.open, .txReady, .close]) := ⟨_, rfl⟩

end Link

namespace Crypto
namespace DisciplineProof

/-- Notifications of the application. -/
def app : Obs → Option Signal
  | .up .opened => some .opened
  | .up .closed => some .closed
  | .up .txReady => some .txReady
  | .up .rxReady => some .rxReady
  | _ => none

/-- Notifications of the layer by the layer below (open and close, when they are forwarded). -/
def below : Obs → Option Signal
  | .lowerOpen => some .opened
  | .lowerClose => some .closed
  | _ => none

/-- The invariant. -/
structure Inv (s : Layer) : Prop where
  app : Spec.Disciplined (s.log.filterMap app)
  appOpen : Spec.openAfter (s.log.filterMap DisciplineProof.app) = s.upperOpen
  below : Spec.Disciplined (s.log.filterMap below)
  isOpen : Spec.openAfter (s.log.filterMap DisciplineProof.below) = s.isOpen

theorem Inv.quiet {s t : Layer} (h : Inv s) (extra : List Obs) (hl : t.log = s.log ++ extra)
    (hq : ∀ o ∈ extra, DisciplineProof.app o = none ∧ DisciplineProof.below o = none)
    (h1 : t.upperOpen = s.upperOpen) (h2 : t.isOpen = s.isOpen) : Inv t := by
  have e1 : extra.filterMap DisciplineProof.app = [] := by
    rw [List.filterMap_eq_nil_iff]; exact fun o ho => (hq o ho).1
  have e2 : extra.filterMap DisciplineProof.below = [] := by
    rw [List.filterMap_eq_nil_iff]; exact fun o ho => (hq o ho).2
  constructor
  · rw [hl, List.filterMap_append, e1, List.append_nil]; exact h.app
  · rw [hl, List.filterMap_append, e1, List.append_nil, h1]; exact h.appOpen
  · rw [hl, List.filterMap_append, e2, List.append_nil]; exact h.below
  · rw [hl, List.filterMap_append, e2, List.append_nil, h2]; exact h.isOpen

theorem Inv.of_eq {s t : Layer} (h : Inv s) (hl : t.log = s.log) (h1 : t.upperOpen = s.upperOpen)
    (h2 : t.isOpen = s.isOpen) : Inv t := h.quiet [] (by simp [hl]) (by simp) h1 h2

theorem Inv.rx {s : Layer} (h : Inv s) : Inv s.rxNotified := by
  unfold Layer.rxNotified
  split
  · rename_i hu
    refine ⟨?_, ?_, ?_, ?_⟩
    · have := h.appOpen
      simpa [DisciplineProof.app, Discipline.snoc, Spec.Admissible, h.app, hu] using this
    · simpa [DisciplineProof.app, Discipline.openAfter_snoc, Spec.openStep] using h.appOpen
    · simpa [DisciplineProof.below, List.filterMap_cons] using h.below
    · simpa [DisciplineProof.below, List.filterMap_cons] using h.isOpen
  · exact h

theorem Inv.tx {s : Layer} (h : Inv s) : Inv s.txNotified := by
  unfold Layer.txNotified
  split
  · rename_i hu
    refine ⟨?_, ?_, ?_, ?_⟩
    · have := h.appOpen
      simpa [DisciplineProof.app, Discipline.snoc, Spec.Admissible, h.app, hu] using this
    · simpa [DisciplineProof.app, Discipline.openAfter_snoc, Spec.openStep] using h.appOpen
    · simpa [DisciplineProof.below, List.filterMap_cons] using h.below
    · simpa [DisciplineProof.below, List.filterMap_cons] using h.isOpen
  · exact h

theorem Inv.opening {s : Layer} (h : Inv s) : Inv s.opening := by
  unfold Layer.opening
  split
  · exact h
  · rename_i hu
    refine ⟨?_, ?_, ?_, ?_⟩
    · have := h.appOpen
      simpa [DisciplineProof.app, Discipline.snoc, Spec.Admissible, h.app, hu] using this
    · simp [DisciplineProof.app, Discipline.openAfter_snoc, Spec.openStep]
    · simpa [DisciplineProof.below, List.filterMap_cons] using h.below
    · simpa [DisciplineProof.below, List.filterMap_cons] using h.isOpen

theorem Inv.closing {s : Layer} (h : Inv s) : Inv s.closing := by
  unfold Layer.closing
  split
  · rename_i hu
    refine ⟨?_, ?_, ?_, ?_⟩
    · have := h.appOpen
      simpa [DisciplineProof.app, Discipline.snoc, Spec.Admissible, h.app, hu] using this
    · simp [DisciplineProof.app, Discipline.openAfter_snoc, Spec.openStep]
    · simpa [DisciplineProof.below, List.filterMap_cons] using h.below
    · simpa [DisciplineProof.below, List.filterMap_cons] using h.isOpen
  · exact h

theorem Inv.hsReq {c : Cfg} {limits : SessionLimits} {s t : Layer} (h : Inv s) (hq : HsReq c limits s t) : Inv t := by
  cases hq with
  | deferred => exact h.of_eq rfl rfl rfl
  | noKey => exact h.of_eq rfl rfl rfl
  | badConfig f =>
    refine h.quiet (keyObs (s.ini.handshake.usedRecord f.record)) rfl ?_ rfl rfl
    cases s.ini.handshake.usedRecord f.record <;> simp [keyObs, DisciplineProof.app, DisciplineProof.below]
  | sent _ f _ _ written _ _ hr =>
    refine h.quiet (keyObs (s.ini.handshake.usedRecord f.record) ++ [.lowerTx (c.fw.wrap written) s.lowerReady]) (by exact List.append_assoc ..) ?_ rfl rfl
    cases s.ini.handshake.usedRecord f.record <;> simp [keyObs, DisciplineProof.app, DisciplineProof.below]

theorem Inv.lowerOpen {s : Layer} (h : Inv s) (ho : s.isOpen = false) :
    Inv (({ s with isOpen := true } : Layer).noted .lowerOpen) := by
  refine ⟨?_, ?_, ?_, ?_⟩
  · simpa [DisciplineProof.app, List.filterMap_cons] using h.app
  · simpa [DisciplineProof.app, List.filterMap_cons] using h.appOpen
  · have := h.isOpen
    simpa [DisciplineProof.below, Discipline.snoc, Spec.Admissible, h.below, ho] using this
  · simp [DisciplineProof.below, Discipline.openAfter_snoc, Spec.openStep]

theorem atomic (c : Cfg) (E : Env) : Atomic1 c E Inv := by
  refine ⟨fun _ => trivial, fun _ _ _ _ _ => trivial, fun _ _ _ _ _ => trivial, fun _ _ _ => trivial,
    fun _ _ _ _ => ⟨fun _ _ => trivial, fun _ _ _ => trivial⟩, ?init, ?tx, ?rx, ?tail, fun _ _ _ _ _ _ => trivial, ?top, ?closing, ?closed⟩
  case tx =>
    intro s s' _ _ h ha
    refine ⟨?_, trivial⟩
    cases ha with
    | nonceTrigger params limits s' _ _ hq => exact Inv.hsReq (by exact h.of_eq rfl rfl rfl) hq
    | startTxRefused d _ => exact h.quiet [_] rfl (by simp [app, below]) rfl rfl
    | startTxAccepted d _ => exact h.quiet [.startTx d true] rfl (by simp [app, below]) rfl rfl
    | dataSent now out hc _ => exact h.quiet [.lowerTx _ _] rfl (by simp [app, below]) rfl rfl
    | dataFailed now e hc _ => exact Inv.closing (by exact h.of_eq rfl rfl rfl)
  case rx =>
    intro s s' _ _ h ha
    refine ⟨?_, trivial⟩
    have hrecv : ∀ m w, Inv (s.received m w) := fun m w => h.quiet [_] rfl (by simp [app, below]) rfl rfl
    have hsent : ∀ (s : Layer), Inv s → ∀ f, Inv (s.sent f) := fun s h f =>
      h.quiet [.lowerTx _ _] rfl (by simp [app, below]) rfl rfl
    have hup : ∀ (s : Layer), Inv s → ∀ b, Inv (Layer.keyNoted s b) := by
      intro s h b
      cases b with
      | none => exact h
      | some id => exact h.quiet [_] rfl (by simp [app, below]) rfl rfl
    have hest : ∀ (s : Layer), Inv s → ∀ n, Inv (Layer.establishedIf s n) := by
      intro s h n
      unfold Layer.establishedIf
      split
      · exact h.quiet [_] rfl (by simp [app, below]) rfl rfl
      · exact h
    cases ha with
    | ignored m w _ => exact hrecv m w
    | errorReply m w hh e frame hr _ _ => exact hsent _ (hrecv m w) _
    | requestRefused m w hh msg now f e hr _ _ _ _ s1 h1 _ h2 =>
      have : Inv s1 := by subst h1; exact hup _ (by exact (hrecv m w).of_eq rfl rfl rfl) _
      rcases h2 with rfl | ⟨fr, _, rfl⟩
      · exact this
      · exact hsent _ this _
    | requestAccepted m w hh msg now f frame hr _ _ _ _ _ _ h1 =>
      subst h1
      exact hsent _ (hest _ (hup _ (by exact (hrecv m w).of_eq rfl rfl rfl) _) _) _
    | replyRefused m w params limits msg now _ _ _ _ _ _ h1 =>
      subst h1
      exact (hrecv m w).of_eq rfl rfl rfl
    | replyAuthFailed m w params limits msg now now' e _ _ _ _ _ s1 h1 _ _ h2 =>
      have : Inv s1 := by subst h1; exact hest _ (by exact (hrecv m w).of_eq rfl rfl rfl) _
      subst h2
      exact this.of_eq (by simp) (by simp) (by simp)
    | replyAccepted m w params limits msg now now' out hr _ _ _ _ s1 h1 _ s2 h2 _ h3 =>
      have hi : Inv s1 := by subst h1; exact hest _ (by exact (hrecv m w).of_eq rfl rfl rfl) _
      have : Inv s2 := by
        subst h2
        exact hsent _ (by exact hi.of_eq (by simp) (by simp) (by simp)) _
      subst h3
      exact this.of_eq rfl rfl rfl
    | replyError m w params limits _ _ _ => exact (hrecv m w).of_eq rfl rfl rfl
    | initAuthRefused m w params limits msg now scratch e _ _ _ _ _ _ _ h1 =>
      subst h1; exact (hrecv m w).of_eq rfl rfl rfl
    | initAuthOk m w params limits msg now scratch payload =>
      unfold Layer.initAuthOk
      exact Inv.opening (by exact (hrecv m w).of_eq rfl rfl rfl)
    | respAuthRefused m w => exact (hrecv m w).of_eq rfl rfl rfl
    | respAuthFailed m w hh msg now now' scratch payload e _ _ _ _ _ _ s1 h1 =>
      have hi : Inv s1 := by subst h1; exact (hrecv m w).of_eq rfl rfl rfl
      exact hi.of_eq (by simp) (by simp) (by simp)
    | respAuthOk m w hh msg now now' scratch payload out hr _ _ _ _ _ s1 h1 =>
      have hi : Inv s1 := by subst h1; exact (hrecv m w).of_eq rfl rfl rfl
      exact Inv.opening (hsent _ (by exact hi.of_eq (by simp) (by simp) (by simp)) _)
    | dataRefused m w => exact (hrecv m w).of_eq rfl rfl rfl
    | dataOk m w => exact (hrecv m w).of_eq rfl rfl rfl
    | readEmpty => exact h.of_eq rfl rfl rfl
    | discarded => exact h.quiet [.rxCall] rfl (by simp [app, below]) rfl rfl
    | asked => exact h.quiet [_] rfl (by simp [app, below]) rfl rfl
    | readNothing => exact h.quiet [_] rfl (by simp [app, below]) rfl rfl
    | readData => exact h.quiet [.rxCall, .startRx s.payload] (by simp [Layer.noted]) (by simp [app, below]) rfl rfl
  case tail =>
    intro o s s' _ _ _ _ h ha
    refine ⟨?_, trivial⟩
    cases ha with
    | initAuthPayload => exact Inv.rx (by exact h.of_eq rfl rfl rfl)
    | dataNotified => exact h.rx
    | initAuthEnd => exact h.of_eq rfl rfl rfl
    | respAuthPayload => exact Inv.rx (by exact h.of_eq rfl rfl rfl)
  case top =>
    intro s s' _ _ h _ ha
    refine ⟨?_, trivial⟩
    cases ha with
    | ready b => exact h.quiet [_] rfl (by simp [app, below]) rfl rfl
    | openedResponder _ _ ho => exact h.lowerOpen ho
    | openedInitiator params limits _ _ ho hq => exact (h.lowerOpen ho).hsReq hq
    | txComplete => exact h.of_eq rfl rfl rfl
    | preTxReady params limits _ _ _ _ hq => exact h.hsReq hq
    | txNotified => exact h.tx
    | responseTimeout => exact h.of_eq rfl rfl rfl
    | retryTimeout params limits _ _ _ i _ hq => exact Inv.hsReq (by exact h.of_eq rfl rfl rfl) hq
    | sessionTimeout params limits _ _ _ hq => exact Inv.hsReq (by exact h.of_eq rfl rfl rfl) hq
    | orphanResponse => exact h.of_eq rfl rfl rfl
    | orphanRetry params limits _ _ _ i _ hq => exact Inv.hsReq (by exact h.of_eq rfl rfl rfl) hq
    | orphanSession params limits _ _ _ hq => exact Inv.hsReq (by exact h.of_eq rfl rfl rfl) hq
  case closing =>
    intro s _ _ h _ ho
    have h1 : Inv (({ s with isOpen := false } : Layer).noted .lowerClose) := by
      refine ⟨?_, ?_, ?_, ?_⟩
      · simpa [DisciplineProof.app, List.filterMap_cons] using h.app
      · simpa [DisciplineProof.app, List.filterMap_cons] using h.appOpen
      · have := h.isOpen
        simpa [DisciplineProof.below, Discipline.snoc, Spec.Admissible, h.below, ho] using this
      · simp [DisciplineProof.below, Discipline.openAfter_snoc, Spec.openStep]
    unfold Layer.lowerClosing
    split <;> exact Inv.closing (by exact h1.of_eq rfl rfl rfl)
  case closed => exact fun _ s _ _ _ _ _ _ h _ => ⟨h.of_eq rfl rfl rfl, trivial⟩
  case init =>
    exact fun hh _ _ => ⟨⟨Discipline.nil, rfl, Discipline.nil, rfl⟩, trivial⟩

/-- The application is open only while the layer is. -/
theorem silent (c : Cfg) (E : Env) (hE : E.SilentWhenClosed) :
    Atomic1 c E (fun s => s.upperOpen = true → s.isOpen = true) := by
  refine ⟨fun _ => trivial, fun _ _ _ _ _ => trivial, fun _ _ _ _ _ => trivial, fun _ _ _ => trivial,
    fun _ _ _ _ => ⟨fun _ _ => trivial, fun _ _ _ => trivial⟩, ?init, ?tx, ?rx, ?tail, fun _ _ _ _ _ _ => trivial, ?top, ?closing, ?closed⟩
  case init => exact fun hh _ _ => ⟨by simp [Layer.new], trivial⟩
  case tx =>
    intro s s' _ _ h ha
    refine ⟨?_, trivial⟩
    cases ha with
    | nonceTrigger params limits s' _ _ hq => rw [hq.upperOpen, hq.isOpen]; exact h
    | startTxRefused d _ => exact h
    | startTxAccepted d _ => exact h
    | dataSent now out hc _ => exact h
    | dataFailed now e hc _ => simp
  case rx =>
    intro s s' _ _ h ha
    refine ⟨?_, trivial⟩
    have hopen : ∀ m, Receives E s m → s.isOpen = true := fun m hr => hE s m hr.2.2.2 hr.2.2.1
    cases ha with
    | ignored m w hr => exact h
    | errorReply m w hh e frame hr _ _ => exact h
    | requestRefused m w hh msg now f e hr _ _ _ _ s1 h1 _ h2 =>
      rcases h2 with rfl | ⟨fr, _, rfl⟩ <;> subst h1 <;> simpa using h
    | requestAccepted m w hh msg now f frame hr _ _ _ _ _ _ h1 => subst h1; simpa using h
    | replyRefused m w params limits msg now _ _ _ _ _ _ h1 => subst h1; exact h
    | replyAuthFailed m w params limits msg now now' e _ _ _ _ _ s1 h1 _ _ h2 => subst h2; subst h1; simpa using h
    | replyAccepted m w params limits msg now now' out hr _ _ _ _ s1 h1 _ s2 h2 _ h3 =>
      subst h3; subst h2; subst h1; simpa using h
    | replyError m w params limits _ _ _ => exact h
    | initAuthRefused m w params limits msg now scratch e _ _ _ _ _ _ _ h1 => subst h1; exact h
    | initAuthOk m w params limits msg now scratch payload hr => intro _; simpa using hopen m hr
    | respAuthRefused m w => exact h
    | respAuthFailed m w hh msg now now' scratch payload e _ _ _ _ _ _ s1 h1 => subst h1; simpa using h
    | respAuthOk m w hh msg now now' scratch payload out hr _ _ _ _ _ s1 h1 =>
      subst h1; intro _; simpa using hopen m hr
    | dataRefused m w => exact h
    | dataOk m w => exact h
    | readEmpty => exact h
    | discarded => exact h
    | asked => exact h
    | readNothing => exact h
    | readData => exact h
  case tail =>
    intro o s s' _ _ _ _ h ha
    refine ⟨?_, trivial⟩
    cases ha with
    | initAuthPayload => simpa using h
    | dataNotified => simpa using h
    | initAuthEnd => exact h
    | respAuthPayload => simpa using h
  case top =>
    intro s s' _ _ h _ ha
    refine ⟨?_, trivial⟩
    cases ha with
    | ready b => exact h
    | openedResponder _ _ ho => simp
    | openedInitiator params limits _ _ ho hq => rw [hq.isOpen]; simp
    | txComplete => exact h
    | preTxReady params limits _ _ _ _ hq => rw [hq.upperOpen, hq.isOpen]; exact h
    | txNotified => simpa using h
    | responseTimeout => exact h
    | retryTimeout params limits _ _ _ i _ hq => rw [hq.upperOpen, hq.isOpen]; exact h
    | sessionTimeout params limits _ _ _ hq => rw [hq.upperOpen, hq.isOpen]; exact h
    | orphanResponse => exact h
    | orphanRetry params limits _ _ _ i _ hq => rw [hq.upperOpen, hq.isOpen]; exact h
    | orphanSession params limits _ _ _ hq => rw [hq.upperOpen, hq.isOpen]; exact h
  case closing => intro s _ _ h _ ho; simp
  case closed => exact fun _ s _ _ _ _ _ _ h _ => ⟨h, trivial⟩

end DisciplineProof

/-- In every execution, whatever application, lower layer and timers do: what the crypto layer tells the
application is disciplined. -/
theorem C41_crypto_layer (c : Cfg) (E : Env) (s : Layer) (h : Observed c E s) :
    Spec.Disciplined (s.log.filterMap DisciplineProof.app) := ((DisciplineProof.atomic c E).observed h).app

/-- If the layer below delivers nothing while it is closed, the application is open only while the layer below is:
"opened" comes after the layer below has opened, and when that closes the application is told before anything else
happens. -/
theorem C41_open_only_if_lower_open (c : Cfg) (E : Env) (hE : E.SilentWhenClosed) (s : Layer) (h : Observed c E s) :
    Spec.openAfter (s.log.filterMap DisciplineProof.app) = true →
      Spec.openAfter (s.log.filterMap DisciplineProof.below) = true := by
  have hi := (DisciplineProof.atomic c E).observed h
  rw [hi.appOpen, hi.isOpen]
  exact (DisciplineProof.silent c E hE).observed h

namespace LayerExample

/-- The application of a responder is opened, told about data, and closed. -/
example : ∃ s, Observed res EnvB.tame.env s ∧
    s.log.filterMap DisciplineProof.app = [.opened, .rxReady, .closed] := by
  obtain ⟨s, h1, h2⟩ := Exec.exists_of_map configured (c := res) (E := .tame) (h := hs)
    (script := resRead ++ [.event (.lowerClose true), .ret])
    (f := fun s => s.log.filterMap DisciplineProof.app) (a := [.opened, .rxReady, .closed]) (by decide +kernel)
  exact ⟨s, h1.observed, h2⟩

end LayerExample

end Crypto
end SSP21
