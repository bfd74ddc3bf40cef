import Verif.LifetimeProof
/-
  C50. A session of a proxy lives at least as long as the operating system or the executor may call it back, and is
  destroyed afterwards.

  True: nothing that is outstanding refers to a destroyed session; a session that has been removed closes its sockets, and
  is destroyed after at most six completions and one poll. False: an error of the connection below destroys the session
  while its stack is still running, if no other operation is outstanding; a UDP proxy ends (or is destroyed while running)
  when the local socket reports an error, and is dead forever when the socket below reports one before the application side
  is open.
-/
namespace SSP21.Lifetime
open Asio
open Tool (Outcome)

/-- The events of an execution, one after the other. -/
inductive Run : Sess → List Ev → Sess → Prop
  | nil (s : Sess) : Run s [] s
  | cons {s s1 s' : Sess} {e : Ev} {es : List Ev} : e.enabled s = true → s.step e = .ok s1 → Run s1 es s' → Run s (e :: es) s'

/-- Number of socket operations whose completion handler has not run. -/
def Sess.outstanding (s : Sess) : Nat := s.lower.reads + s.lower.writes + s.upper.reads + s.upper.writes

/-- It is the completion of an operation of a socket. -/
def Ev.isCompletion : Ev → Bool
  | .belowRx _ _ | .belowTx _ _ | .appRx _ _ | .appTx _ _ => true
  | _ => false

theorem run_reachable {k} {s s' : Sess} {es : List Ev} (h : Reachable k s) (hr : Run s es s') : Reachable k s' := by
  induction hr with
  | nil => exact h
  | cons he hs _ ih => exact ih (.step _ h he hs)

/-! ### Nothing outstanding refers to a destroyed session -/

/-- Nothing that the executor could run refers to a session that has been destroyed. -/
theorem C50_outlives_operations {k} {s : Sess} (h : Reachable k s) (hd : s.alive = false) :
    s.outstanding = 0 ∧ s.polls = 0 ∧ ∀ e : Ev, e.enabled s = false := by
  have i := h.inv
  simp [Sess.alive] at hd
  obtain ⟨⟨h1, h2⟩, h3⟩ := hd
  obtain ⟨h4, h5⟩ := i.over h1 h2
  obtain ⟨-, b1, b2, -⟩ := i.lower
  obtain ⟨-, b3, b4, -⟩ := i.upper
  simp [Socket.active] at h4 h5
  have hl : s.linkOpen = false := by cases hx : s.linkOpen <;> simp_all [i.link]
  simp only [h4, h5] at b1 b2 b3 b4
  refine ⟨by simp [Sess.outstanding, b1, b2, b3, b4], h2, ?_⟩
  intro e
  cases e <;> simp_all [Ev.enabled]

/-- A session that the proxy has removed has closed its sockets: the one below, and the local one if an operation of it is
outstanding. -/
theorem C50_removed_closed {k} {s : Sess} (h : Reachable k s) (hm : s.inMap = false) :
    s.lower.isOpen = false ∧ s.linkOpen = false ∧ s.appOpen = false ∧
      (0 < s.upper.reads + s.upper.writes → s.upper.isOpen = false) := by
  have i := h.inv
  have hl : s.linkOpen = false := by cases hx : s.linkOpen <;> simp_all [i.link]
  have ha : s.appOpen = false := by cases hx : s.appOpen <;> simp_all [i.app]
  refine ⟨i.closedL hm, hl, ha, fun hr => ?_⟩
  cases i.closedU hm with
  | inl hc => exact hc
  | inr hc =>
    obtain ⟨-, b3, b4, -⟩ := i.upper
    simp [Socket.active] at hc
    simp [b3, b4, hc] at hr

/-! ### A removed session is destroyed -/

/-- Completions that a removed session can still see: a completed write to the local socket can start a read and a write
below. -/
def Sess.weight (s : Sess) : Nat := s.lower.reads + s.lower.writes + s.upper.reads + 3 * s.upper.writes

theorem weight_le {k} {s : Sess} (i : Inv k s) : s.weight ≤ 6 := by
  obtain ⟨-, b1, b2, -⟩ := i.lower
  obtain ⟨-, b3, b4, -⟩ := i.upper
  unfold Sess.weight
  rw [b1, b2, b3, b4]
  split <;> split <;> split <;> split <;> omega

/-- What the closed stack of a removed session does: it uses the socket below only. -/
theorem acts_removed {k} {s : Sess} (i : Inv k s) (hm : s.inMap = false) (hp : 0 < s.polls) (as : List Act) :
    ∃ l, s.acts as = .ok { s with lower := l } := by
  have hl : s.linkOpen = false := by cases hx : s.linkOpen <;> simp_all [i.link]
  have ha : s.appOpen = false := by cases hx : s.appOpen <;> simp_all [i.app]
  clear i
  induction as generalizing s with
  | nil => exact ⟨s.lower, rfl⟩
  | cons a as ih =>
    have ht : s.touch = .ok s := touch_alive (by simp [Sess.alive, hp])
    have : ∃ l, s.act a = .ok { s with lower := l } := by
      unfold Sess.act
      rw [ht, bind_ok]
      cases a <;> simp only [hl, ha, Bool.false_and, Bool.false_eq_true, if_false]
      · exact ⟨_, rfl⟩
      · exact ⟨_, rfl⟩
      all_goals exact ⟨s.lower, congrArg Outcome.ok (by cases s; simp_all)⟩
    obtain ⟨l, hl1⟩ := this
    obtain ⟨l', hl2⟩ := ih (s := { s with lower := l }) hm hp hl ha
    exact ⟨l', by unfold Sess.acts; rw [hl1, bind_ok, hl2]⟩

theorem rxDone_counts {s : Socket} (h : 0 < s.reads) (f) : (s.rxDone f).1.reads + 1 = s.reads ∧ (s.rxDone f).1.writes = s.writes := by
  unfold Socket.rxDone Socket.tryClose
  split <;> split <;> (try split) <;> simp <;> omega

theorem txDone_counts {s : Socket} (h : 0 < s.writes) (f) : (s.txDone f).1.writes + 1 = s.writes ∧ (s.txDone f).1.reads = s.reads := by
  unfold Socket.txDone Socket.tryClose
  split <;> split <;> (try split) <;> simp <;> omega

/-- What an event does to a removed session. -/
theorem step_removed {k} {s : Sess} (i : Inv k s) (hm : s.inMap = false) (e : Ev) (he : e.enabled s = true) :
    ∃ s', s.step e = .ok s' ∧ s'.inMap = false ∧
      (if e.isCompletion then s'.weight < s.weight else s'.weight = s.weight) := by
  have hl : s.linkOpen = false := by cases hx : s.linkOpen <;> simp_all [i.link]
  have hp : 0 < s.polls := by
    by_cases hp : s.polls = 0
    · obtain ⟨h4, h5⟩ := i.over hm hp
      obtain ⟨-, b1, b2, -⟩ := i.lower
      obtain ⟨-, b3, b4, -⟩ := i.upper
      simp [Socket.active] at h4 h5
      simp only [h4, h5] at b1 b2 b3 b4
      cases e <;> simp_all [Ev.enabled]
    · omega
  have ht : s.touch = .ok s := touch_alive (by simp [Sess.alive, hp])
  cases e with
  | belowRx f as =>
    simp only [Ev.enabled, decide_eq_true_eq] at he
    have hc := rxDone_counts he f
    simp only [Sess.step, ht, bind_ok, Ev.isCompletion, if_true]
    unfold Sess.below
    split
    · rw [closeStack_closed _ (by cases hx : s.appOpen <;> simp_all [i.app])]
      exact ⟨_, rfl, hm, by simp [Sess.weight]; omega⟩
    · simp only [hl]
      exact ⟨_, rfl, hm, by simp [Sess.weight]; omega⟩
    · exact ⟨_, rfl, hm, by simp [Sess.weight]; omega⟩
  | belowTx f as =>
    simp only [Ev.enabled, decide_eq_true_eq] at he
    have hc := txDone_counts he f
    simp only [Sess.step, ht, bind_ok, Ev.isCompletion, if_true]
    unfold Sess.below
    split
    · rw [closeStack_closed _ (by cases hx : s.appOpen <;> simp_all [i.app])]
      exact ⟨_, rfl, hm, by simp [Sess.weight]; omega⟩
    · simp only [hl]
      exact ⟨_, rfl, hm, by simp [Sess.weight]; omega⟩
    · exact ⟨_, rfl, hm, by simp [Sess.weight]; omega⟩
  | appRx f as =>
    simp only [Ev.enabled, decide_eq_true_eq] at he
    have hc := rxDone_counts he f
    have ha : s.appOpen = false := by cases hx : s.appOpen <;> simp_all [i.app]
    have hn := i.noErrorR he f hm
    simp only [Sess.step, ht, bind_ok, Ev.isCompletion, if_true, ha]
    unfold Sess.app
    split
    · contradiction
    · exact ⟨_, rfl, hm, by simp [Sess.weight]; omega⟩
    · exact ⟨_, rfl, hm, by simp [Sess.weight]; omega⟩
  | appTx f as =>
    simp only [Ev.enabled, decide_eq_true_eq] at he
    have hc := txDone_counts he f
    have hn := i.noErrorT he f hm
    have i1 := i.txUpper he f
    simp only [Sess.step, ht, bind_ok, Ev.isCompletion, if_true]
    unfold Sess.app
    split
    · contradiction
    · obtain ⟨l, hl1⟩ := acts_removed i1 hm hp as
      refine ⟨_, hl1, hm, ?_⟩
      have i2 := i1.acts as hl1
      obtain ⟨-, b1, b2, -⟩ := i2.lower
      have c1 : l.reads ≤ 1 := by simp at b1; rw [b1]; split <;> omega
      have c2 : l.writes ≤ 1 := by simp at b2; rw [b2]; split <;> omega
      simp [Sess.weight]
      omega
    · exact ⟨_, rfl, hm, by simp [Sess.weight]; omega⟩
  | timer as => simp [Ev.enabled, hl] at he
  | poll =>
    simp only [Sess.step, ht, bind_ok, Ev.isCompletion]
    refine ⟨_, rfl, ?_, ?_⟩
    · unfold Sess.check; split <;> exact hm
    · simp only [Bool.false_eq_true, if_false]
      unfold Sess.check; split <;> simp [Sess.weight]
  | evict => simp [Ev.enabled, hm] at he

/-- Whatever happens to a session that the proxy has removed, it happens without an access to a destroyed session and
without an exception, and the proxy never sees the session again. -/
theorem C50_removed_safe {k} {s : Sess} (h : Reachable k s) (hm : s.inMap = false) (e : Ev) (he : e.enabled s = true) :
    ∃ s', s.step e = .ok s' ∧ s'.inMap = false := by
  obtain ⟨s', h1, h2, -⟩ := step_removed h.inv hm e he
  exact ⟨s', h1, h2⟩

/-- At most six operations of a removed session complete, whatever the schedule; when none is outstanding the session has
been destroyed, or is destroyed by the next poll. -/
theorem C50_removed_destroyed {k} {s s' : Sess} {es : List Ev} (h : Reachable k s) (hm : s.inMap = false) (hr : Run s es s') :
    (es.filter Ev.isCompletion).length ≤ 6 ∧
      (s'.outstanding = 0 → s'.alive = false ∨ ∃ s'', s'.step .poll = .ok s'' ∧ s''.alive = false) := by
  have key : (es.filter Ev.isCompletion).length ≤ s.weight ∧ s'.inMap = false := by
    have : ∀ s, Inv k s → s.inMap = false → Run s es s' → (es.filter Ev.isCompletion).length ≤ s.weight ∧ s'.inMap = false := by
      clear h hr hm s
      intro s hi hm hr
      induction hr with
      | nil => exact ⟨by simp, hm⟩
      | @cons s s1 s' e es he hs _ ih =>
        obtain ⟨s2, h1, h2, h3⟩ := step_removed hi hm e he
        rw [hs] at h1
        cases h1
        have ih := ih (hi.step e he hs) h2
        refine ⟨?_, ih.2⟩
        have ih := ih.1
        simp only [List.filter_cons]
        cases hc : e.isCompletion <;> simp only [hc] at h3 ⊢ <;> simp at h3 ⊢ <;> omega
    exact this s h.inv hm hr
  refine ⟨Nat.le_trans key.1 (weight_le h.inv), fun h0 => ?_⟩
  have i := (run_reachable h hr).inv
  have hm' := key.2
  have h1 := i.polls
  have h2 := i.locals
  obtain ⟨-, b1, b2, -⟩ := i.lower
  obtain ⟨-, b3, b4, -⟩ := i.upper
  have hl : s'.lower.active = false := by
    simp [Sess.outstanding] at h0
    simp [Socket.active]
    constructor
    · cases hx : s'.lower.rxActive <;> simp_all
    · cases hx : s'.lower.txActive <;> simp_all
  have hu : s'.upper.active = false := by
    simp [Sess.outstanding] at h0
    simp [Socket.active]
    constructor
    · cases hx : s'.upper.rxActive <;> simp_all
    · cases hx : s'.upper.txActive <;> simp_all
  by_cases hp : s'.polls = 0
  · left; simp [Sess.alive, hm', hp, h2]
  · right
    refine ⟨{ s' with polls := s'.polls - 1 }, ?_, ?_⟩
    · simp only [Sess.step]
      rw [touch_alive (by simp [Sess.alive]; omega), bind_ok]
      simp [Sess.check, hl, hu]
    · simp [Sess.alive, hm', h2]; omega

/-! ### What is false: the session is destroyed while its stack is running -/

theorem tcp_closes {s : Sess} (h : Inv .tcp s) (ho : s.lower.isOpen = true) :
    (s.lower.rxDone true).2 = .error ∧ (s.lower.rxDone true).1.rxActive = false ∧
      (s.lower.rxDone true).1.txActive = s.lower.txActive := by
  unfold Socket.rxDone; simp [h.lower.1, ho]

theorem tcp_closes_tx {s : Sess} (h : Inv .tcp s) (ho : s.lower.isOpen = true) :
    (s.lower.txDone true).2 = .error ∧ (s.lower.txDone true).1.txActive = false ∧
      (s.lower.txDone true).1.rxActive = s.lower.rxActive := by
  unfold Socket.txDone; simp [h.lower.1, ho]

/-- The claim is false: when the connection below fails, the application side is open and no other operation is
outstanding, the session is destroyed while its stack is being closed. These are exactly the cases: whenever the
connection fails otherwise, all is well. -/
theorem C50_reset_violation {s : Sess} (h : Reachable .tcp s) (as : List Act) :
    (0 < s.lower.writes → if s.appOpen = true ∧ s.lower.isOpen = true ∧ s.outstanding = 1
        then s.step (.belowTx true as) = .fault else ∃ s', s.step (.belowTx true as) = .ok s') ∧
    (0 < s.lower.reads → if s.appOpen = true ∧ s.lower.isOpen = true ∧ s.outstanding = 1
        then s.step (.belowRx true as) = .fault else ∃ s', s.step (.belowRx true as) = .ok s') := by
  have i := h.inv
  obtain ⟨-, b1, b2, -⟩ := i.lower
  obtain ⟨-, b3, b4, -⟩ := i.upper
  have halive : (0 < s.lower.writes ∨ 0 < s.lower.reads) → s.alive = true := by
    intro hw
    cases hx : s.alive
    · have := (C50_outlives_operations h hx).1; simp [Sess.outstanding] at this; omega
    · rfl
  constructor
  · intro hw
    have ht := halive (.inl hw)
    have i1 := i.txLower hw true
    have hx : s.lower.txActive = true := by cases hx : s.lower.txActive <;> simp_all
    simp only [Sess.step, touch_alive ht, bind_ok]
    unfold Sess.below
    cases ho : s.lower.isOpen
    · simp
      unfold Socket.txDone; simp [i.lower.1, ho]
    obtain ⟨c1, c2, c3⟩ := tcp_closes_tx i ho
    simp only [c1]
    by_cases ha : s.appOpen = true
    rotate_left
    · rw [if_neg (fun hh => ha hh.1), closeStack_closed _ (by simpa using ha)]
      exact ⟨_, rfl⟩
    have hl := i.app ha
    have hm := i.link hl
    rw [closeStack_open (k := .tcp) i1.lower.1 hm (i.here hm).1 i.locals ha hl (i.here hm).2]
    simp only [Socket.active, c2, c3, Sess.outstanding, b1, b2, b3, b4, hx, ha]
    cases s.lower.rxActive <;> cases s.upper.rxActive <;> cases s.upper.txActive <;> simp
  · intro hw
    have ht := halive (.inr hw)
    have i1 := i.rxLower hw true
    have hx : s.lower.rxActive = true := by cases hx : s.lower.rxActive <;> simp_all
    simp only [Sess.step, touch_alive ht, bind_ok]
    unfold Sess.below
    cases ho : s.lower.isOpen
    · simp
      unfold Socket.rxDone; simp [i.lower.1, ho]
    obtain ⟨c1, c2, c3⟩ := tcp_closes i ho
    simp only [c1]
    by_cases ha : s.appOpen = true
    rotate_left
    · rw [if_neg (fun hh => ha hh.1), closeStack_closed _ (by simpa using ha)]
      exact ⟨_, rfl⟩
    have hl := i.app ha
    have hm := i.link hl
    rw [closeStack_open (k := .tcp) i1.lower.1 hm (i.here hm).1 i.locals ha hl (i.here hm).2]
    simp only [Socket.active, c2, c3, Sess.outstanding, b1, b2, b3, b4, hx, ha]
    cases s.lower.txActive <;> cases s.upper.rxActive <;> cases s.upper.txActive <;> simp

/-- Actions of a stack that does nothing more after it has closed the application side. -/
theorem acts_safe {s : Sess} (i : Inv .tcp s) (ha : s.alive = true) (as : List Act) (hc : Act.closeApp ∉ as.dropLast) :
    ∃ s', s.acts as = .ok s' := by
  induction as generalizing s with
  | nil => exact ⟨s, rfl⟩
  | cons a as ih =>
    have hstep : ∃ s1, s.act a = .ok s1 ∧ (a ≠ .closeApp → s1.alive = true) := by
      unfold Sess.act
      rw [touch_alive ha, bind_ok]
      cases a <;> simp only
      · exact ⟨_, rfl, fun _ => ha⟩
      · exact ⟨_, rfl, fun _ => ha⟩
      · split
        · exact ⟨_, rfl, fun _ => ha⟩
        · exact ⟨_, rfl, fun _ => ha⟩
      · split
        · exact ⟨_, rfl, fun _ => ha⟩
        · exact ⟨_, rfl, fun _ => ha⟩
      · split
        · exact ⟨_, rfl, fun _ => ha⟩
        · exact ⟨_, rfl, fun _ => ha⟩
      · split
        · rename_i ho
          exact ⟨_, closeApp_eq i ho, fun hn => absurd rfl hn⟩
        · exact ⟨_, rfl, fun _ => ha⟩
    obtain ⟨s1, h1, h2⟩ := hstep
    unfold Sess.acts
    rw [h1, bind_ok]
    cases as with
    | nil => exact ⟨s1, rfl⟩
    | cons b bs =>
      simp only [List.dropLast_cons₂, List.mem_cons, not_or] at hc
      exact ih (i.act a h1) (h2 (Ne.symm hc.1)) hc.2

/-- What the stack does in the event. -/
def Ev.acts : Ev → List Act
  | .belowRx _ as | .belowTx _ as | .appRx _ as | .appTx _ as | .timer as => as
  | .poll | .evict => []

/-- The connection below fails in the event. -/
def Ev.resets : Ev → Bool
  | .belowRx f _ | .belowTx f _ => f
  | _ => false

/-- What is true: the session of a TCP proxy is never accessed after it has been destroyed and never throws, as long as
another operation is outstanding when the connection below fails, and as long as the stack does nothing more after it has
closed the application side. -/
theorem C50_tcp_safe_partial {s : Sess} (h : Reachable .tcp s) (e : Ev) (he : e.enabled s = true)
    (hc : Act.closeApp ∉ e.acts.dropLast) (ho : e.resets = true → s.appOpen = false ∨ s.outstanding ≠ 1) :
    ∃ s', s.step e = .ok s' := by
  have i := h.inv
  have ht : s.alive = true := by
    cases hx : s.alive
    · have := (C50_outlives_operations h hx).2.2 e; simp [this] at he
    · rfl
  cases e with
  | belowRx f as =>
    cases f with
    | true =>
      simp only [Ev.enabled, decide_eq_true_eq] at he
      have := (C50_reset_violation h as).2 he
      rw [if_neg] at this
      · exact this
      · intro hh; cases ho rfl with
        | inl h1 => simp [h1] at hh
        | inr h1 => exact h1 hh.2.2
    | false =>
      simp only [Ev.enabled, decide_eq_true_eq] at he
      have i1 := i.rxLower he false
      simp only [Sess.step, touch_alive ht, bind_ok]
      unfold Sess.below
      split
      · rename_i hn; unfold Socket.rxDone at hn; simp [i.lower.1] at hn
      · split
        · exact acts_safe i1 (by simpa [Sess.alive] using ht) as hc
        · exact ⟨_, rfl⟩
      · exact ⟨_, rfl⟩
  | belowTx f as =>
    cases f with
    | true =>
      simp only [Ev.enabled, decide_eq_true_eq] at he
      have := (C50_reset_violation h as).1 he
      rw [if_neg] at this
      · exact this
      · intro hh; cases ho rfl with
        | inl h1 => simp [h1] at hh
        | inr h1 => exact h1 hh.2.2
    | false =>
      simp only [Ev.enabled, decide_eq_true_eq] at he
      have i1 := i.txLower he false
      simp only [Sess.step, touch_alive ht, bind_ok]
      unfold Sess.below
      split
      · rename_i hn; unfold Socket.txDone at hn; simp [i.lower.1] at hn
      · split
        · exact acts_safe i1 (by simpa [Sess.alive] using ht) as hc
        · exact ⟨_, rfl⟩
      · exact ⟨_, rfl⟩
  | appRx f as =>
    simp only [Ev.enabled, decide_eq_true_eq] at he
    have i1 := i.rxUpper he f
    simp only [Sess.step, touch_alive ht, bind_ok]
    unfold Sess.app
    split
    · have ha : s.appOpen = true := by
        cases hm : s.inMap
        · exact absurd ‹_› (i.noErrorR he f hm)
        · exact i.appOpen hm (.inl he)
      rw [error_eq i1 ha]; exact ⟨_, rfl⟩
    · refine acts_safe i1 (by simpa [Sess.alive] using ht) _ ?_
      split
      · exact hc
      · simp
    · exact ⟨_, rfl⟩
  | appTx f as =>
    simp only [Ev.enabled, decide_eq_true_eq] at he
    have i1 := i.txUpper he f
    simp only [Sess.step, touch_alive ht, bind_ok]
    unfold Sess.app
    split
    · have ha : s.appOpen = true := by
        cases hm : s.inMap
        · exact absurd ‹_› (i.noErrorT he f hm)
        · exact i.appOpen hm (.inr he)
      rw [error_eq i1 ha]; exact ⟨_, rfl⟩
    · exact acts_safe i1 (by simpa [Sess.alive] using ht) _ hc
    · exact ⟨_, rfl⟩
  | timer as => exact acts_safe i ht as hc
  | poll => exact ⟨_, by simp only [Sess.step, touch_alive ht, bind_ok]; rfl⟩
  | evict =>
    simp [Ev.enabled] at he
    exact ⟨_, evict_eq i he.1.1 he.1.2⟩

/-- An error of the local connection, or of the connection below, removes the session from a TCP proxy (if the application
side is open). -/
theorem C50_tcp_error_removes {s s' : Sess} (h : Reachable .tcp s) (ha : s.appOpen = true) (e : Ev)
    (he : e.enabled s = true) (hf : ∃ as, e = .belowRx true as ∧ s.lower.isOpen = true ∨
      e = .belowTx true as ∧ s.lower.isOpen = true ∨ e = .appRx true as ∧ s.upper.isOpen = true ∨
      e = .appTx true as ∧ s.upper.isOpen = true)
    (hs : s.step e = .ok s') : s'.inMap = false ∧ s'.lower.isOpen = false ∧ s'.upper.isOpen = false := by
  have i := h.inv
  have ht : s.alive = true := by
    cases hx : s.alive
    · have := (C50_outlives_operations h hx).2.2 e; simp [this] at he
    · rfl
  have hl := i.app ha
  have hm := i.link hl
  obtain ⟨as, ⟨rfl, ho⟩ | ⟨rfl, ho⟩ | ⟨rfl, ho⟩ | ⟨rfl, ho⟩⟩ := hf
  · simp only [Ev.enabled, decide_eq_true_eq] at he
    have i1 := i.rxLower he true
    simp only [Sess.step, touch_alive ht, bind_ok] at hs
    unfold Sess.below at hs
    simp only [(tcp_closes i ho).1] at hs
    rw [closeStack_open (k := .tcp) i1.lower.1 hm (i.here hm).1 i.locals ha hl (i.here hm).2] at hs
    split at hs
    · cases hs; simp [Sess.gone, ha]
    · cases hs
  · simp only [Ev.enabled, decide_eq_true_eq] at he
    have i1 := i.txLower he true
    simp only [Sess.step, touch_alive ht, bind_ok] at hs
    unfold Sess.below at hs
    simp only [(tcp_closes_tx i ho).1] at hs
    rw [closeStack_open (k := .tcp) i1.lower.1 hm (i.here hm).1 i.locals ha hl (i.here hm).2] at hs
    split at hs
    · cases hs; simp [Sess.gone, ha]
    · cases hs
  · simp only [Ev.enabled, decide_eq_true_eq] at he
    have i1 := i.rxUpper he true
    simp only [Sess.step, touch_alive ht, bind_ok] at hs
    unfold Sess.app at hs
    have hn : (s.upper.rxDone true).2 = .error := by unfold Socket.rxDone; simp [i.upper.1, ho]
    simp only [hn] at hs
    rw [error_eq i1 (by exact ha)] at hs
    cases hs; simp [Sess.gone, ha]
  · simp only [Ev.enabled, decide_eq_true_eq] at he
    have i1 := i.txUpper he true
    simp only [Sess.step, touch_alive ht, bind_ok] at hs
    unfold Sess.app at hs
    have hn : (s.upper.txDone true).2 = .error := by unfold Socket.txDone; simp [i.upper.1, ho]
    simp only [hn] at hs
    rw [error_eq i1 (by exact ha)] at hs
    cases hs; simp [Sess.gone, ha]

/-! ### UDP -/

/-- An error of the socket below is survived by a UDP proxy if the application side is open and another operation is
outstanding: the next session is started. -/
theorem C50_udp_restarts {s : Sess} (h : Reachable .udp s) (ha : s.appOpen = true) (hr : 0 < s.lower.reads)
    (ho : s.lower.rxOpen = true) (hn : s.outstanding ≠ 1) (as : List Act) :
    ∃ s', s.step (.belowRx true as) = .ok s' ∧ s'.restarted = true ∧ s'.inMap = false ∧ s'.alive = true := by
  have i := h.inv
  have hl := i.app ha
  have hm := i.link hl
  obtain ⟨-, b1, b2, -⟩ := i.lower
  obtain ⟨-, b3, b4, -⟩ := i.upper
  have i1 := i.rxLower hr true
  have hx : s.lower.rxActive = true := by cases hx : s.lower.rxActive <;> simp_all
  simp only [Sess.step, touch_alive (s := s) (by simp [Sess.alive, hm]), bind_ok]
  unfold Sess.below
  have hn' : (s.lower.rxDone true).2 = .error := by unfold Socket.rxDone; simp [i.lower.1, ho]
  have c2 : (s.lower.rxDone true).1.rxActive = false := by unfold Socket.rxDone; simp [i.lower.1]
  have c3 : (s.lower.rxDone true).1.txActive = s.lower.txActive := by unfold Socket.rxDone; simp [i.lower.1]
  simp only [hn']
  rw [closeStack_open (k := .udp) i1.lower.1 hm (i.here hm).1 i.locals ha hl (i.here hm).2]
  have : ((s.lower.rxDone true).1.active || s.upper.active) = true := by
    simp only [Sess.outstanding, b1, b2, b3, b4, hx] at hn
    simp only [Socket.active, c2, c3]
    revert hn
    cases s.lower.txActive <;> cases s.upper.rxActive <;> cases s.upper.txActive <;> simp
  simp only [this, if_true]
  refine ⟨_, rfl, by simp [Sess.gone], by simp [Sess.gone], ?_⟩
  simp [Sess.gone, Sess.alive, this]

/-- The claim is false: an error that the local socket reports never leaves a UDP proxy running. It starts the next session
twice, and the second attempt to bind the addresses is an exception, which ends the program; or, if no other operation is
outstanding, the session is destroyed while it is running. -/
theorem C50_udp_local_error_violation {s : Sess} (h : Reachable .udp s) (as : List Act) :
    (0 < s.upper.reads → s.upper.rxOpen = true →
      s.step (.appRx true as) = if s.outstanding = 1 then .fault else .throw) ∧
    (0 < s.upper.writes → s.upper.txOpen = true →
      s.step (.appTx true as) = if s.outstanding = 1 then .fault else .throw) := by
  have i := h.inv
  obtain ⟨-, b1, b2, -⟩ := i.lower
  obtain ⟨-, b3, b4, -⟩ := i.upper
  constructor
  · intro hr ho
    have hx : s.upper.rxActive = true := by cases hx : s.upper.rxActive <;> simp_all
    have hm : s.inMap = true := by
      cases hm : s.inMap
      · simp [i.quietR hm hx] at ho
      · rfl
    have ha := i.appOpen hm (.inl hr)
    have i1 := i.rxUpper hr true
    have hn : (s.upper.rxDone true).2 = .error := by unfold Socket.rxDone; simp [i.upper.1, ho]
    have c2 : (s.upper.rxDone true).1.rxActive = false := by unfold Socket.rxDone; simp [i.upper.1]
    have c3 : (s.upper.rxDone true).1.txActive = s.upper.txActive := by unfold Socket.rxDone; simp [i.upper.1]
    simp only [Sess.step, touch_alive (s := s) (by simp [Sess.alive, hm]), bind_ok, Sess.app, hn]
    rw [error_eq i1 (by exact ha)]
    simp only [Socket.active, c2, c3, Sess.outstanding, b1, b2, b3, b4, hx]
    cases s.lower.rxActive <;> cases s.lower.txActive <;> cases s.upper.txActive <;> simp
  · intro hr ho
    have hx : s.upper.txActive = true := by cases hx : s.upper.txActive <;> simp_all
    have hm : s.inMap = true := by
      cases hm : s.inMap
      · simp [i.quietT hm hx] at ho
      · rfl
    have ha := i.appOpen hm (.inr hr)
    have i1 := i.txUpper hr true
    have hn : (s.upper.txDone true).2 = .error := by unfold Socket.txDone; simp [i.upper.1, ho]
    have c2 : (s.upper.txDone true).1.txActive = false := by unfold Socket.txDone; simp [i.upper.1]
    have c3 : (s.upper.txDone true).1.rxActive = s.upper.rxActive := by unfold Socket.txDone; simp [i.upper.1]
    simp only [Sess.step, touch_alive (s := s) (by simp [Sess.alive, hm]), bind_ok, Sess.app, hn]
    rw [error_eq i1 (by exact ha)]
    simp only [Socket.active, c2, c3, Sess.outstanding, b1, b2, b3, b4, hx]
    cases s.lower.rxActive <;> cases s.lower.txActive <;> cases s.upper.rxActive <;> simp

/-- A session that the proxy has, with a closed stack, stays so. -/
theorem dead_step {s : Sess} (i : Inv .udp s) (hm : s.inMap = true) (hl : s.linkOpen = false) (e : Ev)
    (he : e.enabled s = true) :
    ∃ s', s.step e = .ok s' ∧ s'.inMap = true ∧ s'.linkOpen = false ∧ s'.outstanding < s.outstanding := by
  have ha : s.appOpen = false := by cases hx : s.appOpen <;> simp_all [i.app]
  have hu := i.fresh hm ha
  have ht : s.touch = .ok s := touch_alive (by simp [Sess.alive, hm])
  cases e with
  | belowRx f as =>
    simp only [Ev.enabled, decide_eq_true_eq] at he
    have hc := rxDone_counts he f
    simp only [Sess.step, ht, bind_ok]
    unfold Sess.below
    split
    · rw [closeStack_closed _ (by exact ha)]
      exact ⟨_, rfl, hm, rfl, by simp [Sess.outstanding]; omega⟩
    · simp only [hl]
      exact ⟨_, rfl, hm, rfl, by simp [Sess.outstanding]; omega⟩
    · exact ⟨_, rfl, hm, hl, by simp [Sess.outstanding]; omega⟩
  | belowTx f as =>
    simp only [Ev.enabled, decide_eq_true_eq] at he
    have hc := txDone_counts he f
    simp only [Sess.step, ht, bind_ok]
    unfold Sess.below
    split
    · rw [closeStack_closed _ (by exact ha)]
      exact ⟨_, rfl, hm, rfl, by simp [Sess.outstanding]; omega⟩
    · simp only [hl]
      exact ⟨_, rfl, hm, rfl, by simp [Sess.outstanding]; omega⟩
    · exact ⟨_, rfl, hm, hl, by simp [Sess.outstanding]; omega⟩
  | appRx f as => simp [Ev.enabled, hu, Socket.new] at he
  | appTx f as => simp [Ev.enabled, hu, Socket.new] at he
  | timer as => simp [Ev.enabled, hl] at he
  | poll => simp [Ev.enabled, (i.here hm).1] at he
  | evict => simp [Ev.enabled, i.lower.1] at he

/-- The claim is false: when the socket below of a UDP proxy reports an error before the application side is open, the
stack is closed and nothing starts the next session: whatever happens afterwards, no session is started, the stack stays
closed, and after at most one more completion nothing happens at all. -/
theorem C50_udp_dead_violation {s : Sess} (h : Reachable .udp s) (hl : s.linkOpen = true) (ha : s.appOpen = false)
    (hr : 0 < s.lower.reads) (ho : s.lower.rxOpen = true) (as : List Act) :
    ∃ s1, s.step (.belowRx true as) = .ok s1 ∧
      ∀ es s2, Run s1 es s2 → s2.linkOpen = false ∧ s2.restarted = false ∧ s2.inMap = true ∧ es.length ≤ 1 := by
  have i := h.inv
  have hm := i.link hl
  have i1 := i.rxLower hr true
  have hn : (s.lower.rxDone true).2 = .error := by unfold Socket.rxDone; simp [i.lower.1, ho]
  have hstep : s.step (.belowRx true as) = .ok { s with lower := (s.lower.rxDone true).1, linkOpen := false } := by
    simp only [Sess.step, touch_alive (s := s) (by simp [Sess.alive, hm]), bind_ok, Sess.below, hn]
    rw [closeStack_closed _ (by exact ha)]
  refine ⟨_, hstep, ?_⟩
  have i2 := i.step (.belowRx true as) (by simpa [Ev.enabled] using hr) hstep
  have hc : Sess.outstanding { s with lower := (s.lower.rxDone true).1, linkOpen := false } ≤ 1 := by
    have hu := i.fresh hm ha
    obtain ⟨-, b1, b2, -⟩ := i2.lower
    have c2 : (s.lower.rxDone true).1.rxActive = false := by unfold Socket.rxDone; simp [i.lower.1]
    simp only [c2] at b1 b2
    have hw : (s.lower.rxDone true).1.writes ≤ 1 := by rw [b2]; split <;> omega
    simp only [Sess.outstanding, hu, Socket.new, b1]
    simpa using hw
  revert hc i2
  generalize hq : ({ s with lower := (s.lower.rxDone true).1, linkOpen := false } : Sess) = q
  have hqm : q.inMap = true := by rw [← hq]; exact hm
  have hql : q.linkOpen = false := by rw [← hq]
  clear hq hstep
  intro i2 hc es s2 hrun
  suffices s2.linkOpen = false ∧ s2.inMap = true ∧ Inv .udp s2 ∧ es.length + s2.outstanding ≤ q.outstanding by
    refine ⟨this.1, (this.2.2.1.here this.2.1).2, this.2.1, by omega⟩
  clear hc
  induction hrun with
  | nil => exact ⟨hql, hqm, i2, by simp⟩
  | @cons q q1 s2 e es he hs _ ih =>
    obtain ⟨q', d1, d2, d3, d4⟩ := dead_step i2 hqm hql e he
    rw [hs] at d1
    cases d1
    obtain ⟨e1, e2, e3, e4⟩ := ih d2 d3 (i2.step e he hs)
    exact ⟨e1, e2, e3, by simp only [List.length_cons]; omega⟩

/-! ### Concrete cases -/

namespace Example

/-- The states after a list of events. -/
def trace (k : Transport) (es : List Ev) : Option Sess :=
  match Sess.start k [] with
  | .ok s => es.foldl (fun o e => o.bind fun s => if e.enabled s then (match s.step e with | .ok s => some s | _ => none) else none) (some s)
  | _ => none

theorem reachable {k : Transport} {es : List Ev} {s : Sess} (h : trace k es = some s) : Reachable k s := by
  unfold trace at h
  split at h
  · rename_i s0 h0
    have : ∀ (o : Option Sess), (∀ x, o = some x → Reachable k x) →
        ∀ s, es.foldl (fun o e => o.bind fun s => if e.enabled s then
          (match s.step e with | .ok s => some s | _ => none) else none) o = some s → Reachable k s := by
      clear h s
      induction es with
      | nil => intro o ho s hs; exact ho s hs
      | cons e es ih =>
        intro o ho s hs
        refine ih _ ?_ s hs
        intro x hx
        cases o with
        | none => cases hx
        | some y =>
          simp only [Option.bind_some] at hx
          split at hx
          · rename_i he
            split at hx
            · rename_i hz; cases hx; exact .step e (ho y rfl) he hz
            · cases hx
          · cases hx
    exact this (some s0) (by rintro x ⟨⟩; exact .start [] _ h0) s h
  · cases h

/-- The handshake of a responder: the request is answered, the session is authenticated and the application side opened,
and the layer below reads again. -/
def handshake : List Ev :=
  [.belowRx false [.writeBelow], .belowTx false [.readBelow], .belowRx false [.writeBelow, .openApp],
    .belowTx false [.readBelow]]

/-- The local application has sent something, which is being transmitted, and something has been received meanwhile: the
crypto layer does not read while it transmits (CryptoLayer.cpp:140). -/
def busy : List Ev := handshake ++ [.appRx false [.writeBelow], .belowRx false []]

/-- Then the connection is reset: the session is used after it has been destroyed. -/
example : ∃ s, Reachable .tcp s ∧ s.appOpen = true ∧ s.lower.isOpen = true ∧ s.outstanding = 1 ∧
    Ev.enabled s (.belowTx true []) = true ∧ s.step (.belowTx true []) = .fault :=
  ⟨_, reachable (es := busy) rfl, rfl, rfl, rfl, rfl, rfl⟩

/-- The connection is reset while the proxy reads from both sides: all is well, the session is removed and lives on. -/
example : ∃ s s', Reachable .tcp s ∧ s.appOpen = true ∧ s.outstanding = 2 ∧
    s.step (.belowRx true []) = .ok s' ∧ s'.inMap = false ∧ s'.alive = true :=
  ⟨_, _, reachable (es := handshake) rfl, rfl, rfl, rfl, rfl, rfl⟩

/-- The aborted read completes, and the next poll destroys the session. -/
example : ∃ s, Reachable .tcp s ∧ s.alive = false :=
  ⟨_, reachable (es := handshake ++ [.belowRx true [], .appRx true [], .poll]) rfl, rfl⟩

/-- It waits as long as the local socket is being written to. -/
example : ∃ s, Reachable .tcp s ∧ s.inMap = false ∧ s.alive = true ∧ s.outstanding = 1 :=
  ⟨_, reachable (es := handshake ++ [.belowRx false [.writeApp, .readBelow], .belowRx true [], .appRx true [], .poll, .poll])
    rfl, rfl, rfl, rfl⟩

/-- A session of a UDP proxy ends it when the local application is not there: the operating system reports that nothing
listens at the address of the local application. -/
example : ∃ s, Reachable .udp s ∧ 0 < s.upper.writes ∧ s.upper.txOpen = true ∧ s.step (.appTx true []) = .throw :=
  ⟨_, reachable (es := handshake ++ [.belowRx false [.writeApp, .readBelow], .appTx false [],
    .belowRx false [.writeApp, .readBelow]]) rfl, by decide, rfl, rfl⟩

/-- The other proxy goes away and comes back: the next session is started. -/
example : ∃ s s', Reachable .udp s ∧ s.appOpen = true ∧ s.lower.rxOpen = true ∧ s.outstanding = 2 ∧
    s.step (.belowRx true []) = .ok s' ∧ s'.restarted = true :=
  ⟨_, _, reachable (es := handshake) rfl, rfl, rfl, rfl, rfl, rfl⟩

/-- The other proxy goes away before the handshake is complete. -/
example : ∃ s s', Reachable .udp s ∧ s.linkOpen = true ∧ s.appOpen = false ∧ 0 < s.lower.reads ∧ s.lower.rxOpen = true ∧
    s.step (.belowRx true []) = .ok s' ∧ s'.linkOpen = false ∧ s'.restarted = false ∧ s'.outstanding = 0 :=
  ⟨_, _, reachable (es := [.belowRx false [.writeBelow], .belowTx false [.readBelow]]) rfl, rfl, rfl, by decide, rfl, rfl, rfl,
    rfl, rfl⟩

/-- A closed stack reads and answers: the session of a UDP proxy starts operations after it has been removed. -/
example : ∃ s s', Reachable .udp s ∧ s.inMap = false ∧ s.lower.isOpen = false ∧ s.lower.reads = 0 ∧
    s.step (.appTx false [.readBelow, .writeBelow]) = .ok s' ∧ s'.lower.reads = 1 ∧ s'.lower.writes = 1 :=
  ⟨_, _, reachable (es := handshake ++ [.belowRx false [.writeApp, .readBelow], .belowRx true []]) rfl, rfl, rfl, rfl, rfl,
    rfl, rfl⟩

end Example

end SSP21.Lifetime
