import Verif.Lifetime
/-
  Invariants of the lifetime of a session of a proxy (Verif/Lifetime.lean).
-/
namespace SSP21.Lifetime
open Asio
open Tool (Outcome)

theorem bind_ok {α β : Type} (a : α) (f : α → Outcome β) : (Outcome.ok a >>= f) = f a := rfl
theorem bind_fault {α β : Type} (f : α → Outcome β) : ((Outcome.fault : Outcome α) >>= f) = .fault := rfl
theorem bind_throw {α β : Type} (f : α → Outcome β) : ((Outcome.throw : Outcome α) >>= f) = .throw := rfl

/-- The operations a socket has given to asio are those its flags tell of; the flags of UDP are not used for TCP. -/
def Tidy (k : Transport) (s : Socket) : Prop :=
  s.kind = k ∧ s.reads = (if s.rxActive then 1 else 0) ∧ s.writes = (if s.txActive then 1 else 0) ∧
    (k = .tcp → s.rxOpen = false ∧ s.txOpen = false)

theorem Tidy.new (k) : Tidy k (Socket.new k) := by simp [Tidy, Socket.new]

theorem Tidy.startRx {k s} (h : Tidy k s) : Tidy k s.startRx := by
  obtain ⟨h1, h2, h3, h4⟩ := h
  unfold Socket.startRx
  cases k <;> simp [h1] <;> split <;> simp_all [Tidy]

theorem Tidy.startTx {k s} (h : Tidy k s) : Tidy k s.startTx.1 := by
  obtain ⟨h1, h2, h3, h4⟩ := h
  unfold Socket.startTx
  cases k <;> simp [h1] <;> split <;> simp_all [Tidy]

theorem Tidy.tryClose {k s} (h : Tidy k s) : Tidy k s.tryClose := by
  obtain ⟨h1, h2, h3, h4⟩ := h
  unfold Socket.tryClose
  split <;> simp_all [Tidy]

theorem Tidy.rxDone {k s} (h : Tidy k s) (hr : 0 < s.reads) (f) : Tidy k (s.rxDone f).1 := by
  obtain ⟨h1, h2, h3, h4⟩ := h
  have : s.rxActive = true := by cases hx : s.rxActive <;> simp_all
  unfold Socket.rxDone Socket.tryClose
  cases k <;> simp [h1] <;> cases f <;> simp <;> (try split) <;> simp_all [Tidy]

theorem Tidy.txDone {k s} (h : Tidy k s) (hr : 0 < s.writes) (f) : Tidy k (s.txDone f).1 := by
  obtain ⟨h1, h2, h3, h4⟩ := h
  have : s.txActive = true := by cases hx : s.txActive <;> simp_all
  unfold Socket.txDone Socket.tryClose
  cases k <;> simp [h1] <;> cases f <;> simp <;> (try split) <;> simp_all [Tidy]

@[simp] theorem tryClose_isOpen (s : Socket) : s.tryClose.isOpen = false := by
  unfold Socket.tryClose; split <;> simp_all
@[simp] theorem tryClose_rxActive (s : Socket) : s.tryClose.rxActive = s.rxActive := by
  unfold Socket.tryClose; split <;> simp_all
@[simp] theorem tryClose_txActive (s : Socket) : s.tryClose.txActive = s.txActive := by
  unfold Socket.tryClose; split <;> simp_all
@[simp] theorem tryClose_kind (s : Socket) : s.tryClose.kind = s.kind := by
  unfold Socket.tryClose; split <;> simp_all
@[simp] theorem tryClose_active (s : Socket) : s.tryClose.active = s.active := by simp [Socket.active]
@[simp] theorem tryClose_twice (s : Socket) : s.tryClose.tryClose = s.tryClose := by
  unfold Socket.tryClose; split <;> simp_all
theorem tryClose_rxOpen {s : Socket} (h : s.isOpen = true) : s.tryClose.rxOpen = false := by
  simp [Socket.tryClose, h]
theorem tryClose_txOpen {s : Socket} (h : s.isOpen = true) : s.tryClose.txOpen = false := by
  simp [Socket.tryClose, h]

structure Inv (k : Transport) (s : Sess) : Prop where
  lower : Tidy k s.lower
  upper : Tidy k s.upper
  locals : s.locals = 0
  polls : s.polls ≤ 1
  here : s.inMap = true → s.polls = 0 ∧ s.restarted = false
  app : s.appOpen = true → s.linkOpen = true
  link : s.linkOpen = true → s.inMap = true
  fresh : s.inMap = true → s.appOpen = false → s.upper = Socket.new k
  bound : k = .udp → s.inMap = true → s.lower.isOpen = true ∧ s.upper.isOpen = true
  next : k = .udp → s.inMap = false → s.restarted = true ∧ s.upper.isOpen = false
  closedL : s.inMap = false → s.lower.isOpen = false
  closedU : s.inMap = false → s.upper.isOpen = false ∨ s.upper.active = false
  quietR : s.inMap = false → s.upper.rxActive = true → s.upper.rxOpen = false
  quietT : s.inMap = false → s.upper.txActive = true → s.upper.txOpen = false
  over : s.inMap = false → s.polls = 0 → s.lower.active = false ∧ s.upper.active = false

/-- What is left of a session in the map after an error. -/
def Sess.gone (s : Sess) (restarted : Bool) : Sess :=
  ⟨s.lower.tryClose, if s.appOpen then s.upper.tryClose else s.upper, false, false, false,
    if s.lower.active || s.upper.active then 1 else 0, 0, restarted⟩

/-- The error handler of a TCP proxy, for a session that it has. -/
theorem tcpError_eq {s : Sess} (h : s.inMap = true) (hp : s.polls = 0) (hl : s.locals = 0) (ha : s.appOpen = true → s.linkOpen = true)
    (hr : s.restarted = false) : s.tcpError = .ok (s.gone false) := by
  obtain ⟨lower, upper, linkOpen, appOpen, inMap, polls, locals, restarted⟩ := s
  simp only at *
  subst h hp hl hr
  cases linkOpen <;> cases appOpen <;>
    simp_all [Sess.tcpError, Sess.shutdown, Sess.closeStack, Sess.touch, Sess.alive, Sess.check, Sess.gone, bind_ok] <;>
    split <;> simp_all [Sess.touch, Sess.alive, bind_ok]

/-- The error handler of a UDP proxy, when the application side is closed already. -/
theorem udpError_eq {s : Sess} (h : s.inMap = true) (hp : s.polls = 0) (hl : s.locals = 0) (ha : s.appOpen = false)
    (hu : s.upper.isOpen = false) (hr : s.restarted = false) : s.udpError = .ok (s.gone true) := by
  obtain ⟨lower, upper, linkOpen, appOpen, inMap, polls, locals, restarted⟩ := s
  simp only at *
  subst h hp hl hr ha
  cases linkOpen <;>
    simp_all [Sess.udpError, Sess.restart, Sess.shutdown, Sess.closeStack, Sess.touch, Sess.alive, Sess.check, Sess.gone,
      bind_ok] <;> split <;> simp_all [bind_ok]

/-- The error handler of a UDP proxy, when the application side is open. -/
theorem udpError_open {s : Sess} (h : s.inMap = true) (hp : s.polls = 0) (hl : s.locals = 0) (ha : s.appOpen = true)
    (hi : s.linkOpen = true) (hr : s.restarted = false) :
    s.udpError = if s.lower.active || s.upper.active then .throw else .fault := by
  obtain ⟨lower, upper, linkOpen, appOpen, inMap, polls, locals, restarted⟩ := s
  simp only at *
  subst h hp hl hr ha hi
  simp [Sess.udpError, Sess.udpErrorAgain, Sess.restart, Sess.shutdown, Sess.closeStack, Sess.touch, Sess.alive, Sess.check,
      bind_ok]
  split <;> simp_all [bind_ok, bind_fault, bind_throw]

/-- What an error below does to a session whose application side is open. -/
theorem closeStack_open {k} {s : Sess} (hk : s.lower.kind = k) (h : s.inMap = true) (hp : s.polls = 0) (hl : s.locals = 0)
    (ha : s.appOpen = true) (hi : s.linkOpen = true) (hr : s.restarted = false) :
    Sess.closeStack Sess.error s =
      if s.lower.active || s.upper.active then .ok (s.gone (decide (k = .udp))) else .fault := by
  obtain ⟨lower, upper, linkOpen, appOpen, inMap, polls, locals, restarted⟩ := s
  simp only at *
  subst h hp hl hr ha hi
  unfold Sess.closeStack
  simp only [↓reduceIte]
  cases k
  · simp only [Sess.error, hk]
    rw [tcpError_eq (by rfl) (by rfl) (by rfl) (by simp) (by rfl)]
    simp [bind_ok, Sess.gone, Sess.touch, Sess.alive]
    split <;> simp
  · simp only [Sess.error, hk]
    rw [udpError_eq (by rfl) (by rfl) (by rfl) (by simp) (by simp) (by rfl)]
    simp [bind_ok, Sess.gone, Sess.touch, Sess.alive]
    split <;> simp

theorem closeStack_closed {s : Sess} (f) (ha : s.appOpen = false) :
    Sess.closeStack f s = .ok { s with linkOpen := false } := by
  unfold Sess.closeStack
  split
  · simp [ha]
  · congr 1; cases s; simp_all

theorem Inv.gone {k} {s : Sess} (h : Inv k s) (hm : s.inMap = true) (ha : k = .udp → s.appOpen = true) :
    Inv k (s.gone (decide (k = .udp))) := by
  have hu : s.appOpen = false → s.upper = Socket.new k := h.fresh hm
  have h1 := h.bound
  constructor <;> simp [Sess.gone]
  · exact h.lower.tryClose
  · split
    · exact h.upper.tryClose
    · exact h.upper
  · split <;> simp
  · intro hk; simp [ha hk, hk]
  · cases hx : s.appOpen <;> simp; simp [hu hx, Socket.new, Socket.active]
  · cases hx : s.appOpen <;> simp
    · simp [hu hx, Socket.new]
    · intro _; cases k
      · exact (h.upper.tryClose.2.2.2 rfl).1
      · exact tryClose_rxOpen (h1 rfl hm).2
  · cases hx : s.appOpen <;> simp
    · simp [hu hx, Socket.new]
    · intro _; cases k
      · exact (h.upper.tryClose.2.2.2 rfl).2
      · exact tryClose_txOpen (h1 rfl hm).2
  · split <;> simp_all

theorem Inv.closeStack {k} {s s' : Sess} (h : Inv k s) (hs : Sess.closeStack Sess.error s = .ok s') : Inv k s' := by
  cases ha : s.appOpen
  · rw [closeStack_closed _ ha] at hs
    cases hs
    have := h.fresh
    obtain ⟨a1, a2, a3, a4, a5, a6, a7, a8, a9, a10, a11, a12, a13, a14, a15⟩ := h
    constructor <;> simp_all
  · have hl := h.app ha
    have hm := h.link hl
    rw [closeStack_open h.lower.1 hm (h.here hm).1 h.locals ha hl (h.here hm).2] at hs
    split at hs
    · cases hs; exact h.gone hm fun _ => ha
    · cases hs

@[simp] theorem startRx_isOpen (s : Socket) : s.startRx.isOpen = s.isOpen := by
  unfold Socket.startRx; split <;> split <;> simp
@[simp] theorem startRx_rxOpen (s : Socket) : s.startRx.rxOpen = s.rxOpen := by
  unfold Socket.startRx; split <;> split <;> simp
@[simp] theorem startRx_txOpen (s : Socket) : s.startRx.txOpen = s.txOpen := by
  unfold Socket.startRx; split <;> split <;> simp
@[simp] theorem startRx_txActive (s : Socket) : s.startRx.txActive = s.txActive := by
  unfold Socket.startRx; split <;> split <;> simp
@[simp] theorem startTx_isOpen (s : Socket) : s.startTx.1.isOpen = s.isOpen := by
  unfold Socket.startTx; split <;> split <;> simp
@[simp] theorem startTx_rxOpen (s : Socket) : s.startTx.1.rxOpen = s.rxOpen := by
  unfold Socket.startTx; split <;> split <;> simp
@[simp] theorem startTx_txOpen (s : Socket) : s.startTx.1.txOpen = s.txOpen := by
  unfold Socket.startTx; split <;> split <;> simp
@[simp] theorem startTx_rxActive (s : Socket) : s.startTx.1.rxActive = s.rxActive := by
  unfold Socket.startTx; split <;> split <;> simp

theorem touch_ok {s s' : Sess} (h : s.touch = .ok s') : s' = s ∧ s.alive = true := by
  unfold Sess.touch at h
  split at h
  · cases h; exact ⟨rfl, by assumption⟩
  · cases h

theorem touch_alive {s : Sess} (h : s.alive = true) : s.touch = .ok s := by simp [Sess.touch, h]

/-- The application side is closed by the stack. -/
theorem closeApp_eq {k} {s : Sess} (h : Inv k s) (ha : s.appOpen = true) :
    Sess.error { s with appOpen := false, upper := s.upper.tryClose } = .ok (s.gone (decide (k = .udp))) := by
  have hl := h.app ha
  have hm := h.link hl
  have hg : ∀ r, Sess.gone { s with appOpen := false, upper := s.upper.tryClose } r = s.gone r := by
    intro r; simp [Sess.gone, ha]
  unfold Sess.error
  rw [show ({ s with appOpen := false, upper := s.upper.tryClose } : Sess).lower.kind = k from h.lower.1]
  cases k
  · rw [← hg]; exact tcpError_eq hm (h.here hm).1 h.locals (by simp) (h.here hm).2
  · rw [← hg]; exact udpError_eq hm (h.here hm).1 h.locals rfl (by simp) (h.here hm).2

theorem Inv.act {k} {s s' : Sess} (h : Inv k s) (a : Act) (hs : s.act a = .ok s') : Inv k s' := by
  unfold Sess.act at hs
  cases ht : s.alive
  · simp [Sess.touch, ht, bind_fault] at hs
  rw [touch_alive ht, bind_ok] at hs
  have hp : s.inMap = false → s.polls ≠ 0 := by
    intro hm; have := h.locals; simp [Sess.alive, hm, this] at ht; omega
  have hI := h
  obtain ⟨a1, a2, a3, a4, a5, a6, a7, a8, a9, a10, a11, a12, a13, a14, a15⟩ := h
  cases a <;> simp only at hs
  · cases hs
    constructor <;> simp_all
    exact a1.startRx
  · cases hs
    constructor <;> simp_all
    exact a1.startTx
  · split at hs
    · cases hs
      constructor <;> simp_all
      exact a2.startRx
    · cases hs; exact hI
  · split at hs
    · cases hs
      have := a7 (a6 ‹_›)
      constructor <;> simp_all
      exact a2.startRx
    · cases hs; exact hI
  · split at hs
    · cases hs
      have := a7 (a6 ‹_›)
      constructor <;> simp_all
      exact a2.startTx
    · cases hs; exact hI
  · split at hs
    · rename_i ha
      rw [closeApp_eq hI ha] at hs
      cases hs
      exact hI.gone (a7 (a6 ha)) fun _ => ha
    · cases hs; exact hI

theorem Inv.acts {k} {s s' : Sess} (h : Inv k s) (as : List Act) (hs : s.acts as = .ok s') : Inv k s' := by
  induction as generalizing s with
  | nil => cases hs; exact h
  | cons a as ih =>
    unfold Sess.acts at hs
    cases ha : s.act a with
    | ok s1 => rw [ha] at hs; exact ih (h.act a ha) hs
    | throw => rw [ha] at hs; cases hs
    | exit => rw [ha] at hs; cases hs
    | fault => rw [ha] at hs; cases hs

/-- The handler of a read below has run. -/
theorem Inv.rxLower {k} {s : Sess} (h : Inv k s) (hr : 0 < s.lower.reads) (f) :
    Inv k { s with lower := (s.lower.rxDone f).1 } := by
  obtain ⟨a1, a2, a3, a4, a5, a6, a7, a8, a9, a10, a11, a12, a13, a14, a15⟩ := h
  have ho : k = .udp → (s.lower.rxDone f).1.isOpen = s.lower.isOpen := by
    intro hk; unfold Socket.rxDone; rw [a1.1, hk]; cases f <;> simp
  have hc : s.lower.isOpen = false → (s.lower.rxDone f).1.isOpen = false := by
    intro hx; unfold Socket.rxDone; rw [a1.1]; cases k <;> cases f <;> simp_all
  have hx : s.lower.rxActive = true := by cases hx : s.lower.rxActive <;> simp_all [Tidy]
  have hy : s.lower.active = true := by simp [Socket.active, hx]
  constructor <;> simp_all
  exact a1.rxDone (by simp_all [Tidy]) f

theorem Inv.txLower {k} {s : Sess} (h : Inv k s) (hr : 0 < s.lower.writes) (f) :
    Inv k { s with lower := (s.lower.txDone f).1 } := by
  obtain ⟨a1, a2, a3, a4, a5, a6, a7, a8, a9, a10, a11, a12, a13, a14, a15⟩ := h
  have ho : k = .udp → (s.lower.txDone f).1.isOpen = s.lower.isOpen := by
    intro hk; unfold Socket.txDone; rw [a1.1, hk]; cases f <;> simp
  have hc : s.lower.isOpen = false → (s.lower.txDone f).1.isOpen = false := by
    intro hx; unfold Socket.txDone; rw [a1.1]; cases k <;> cases f <;> simp_all
  have hx : s.lower.txActive = true := by cases hx : s.lower.txActive <;> simp_all [Tidy]
  have hy : s.lower.active = true := by simp [Socket.active, hx]
  constructor <;> simp_all
  exact a1.txDone (by simp_all [Tidy]) f

/-- An operation of the local socket is outstanding only if the application side has been opened. -/
theorem Inv.appOpen {k} {s : Sess} (h : Inv k s) (hm : s.inMap = true) (hr : 0 < s.upper.reads ∨ 0 < s.upper.writes) :
    s.appOpen = true := by
  cases ha : s.appOpen
  · have := h.fresh hm ha; simp [this, Socket.new] at hr
  · rfl

theorem Inv.rxUpper {k} {s : Sess} (h : Inv k s) (hr : 0 < s.upper.reads) (f) :
    Inv k { s with upper := (s.upper.rxDone f).1 } := by
  have hap := fun hm => h.appOpen hm (.inl hr)
  obtain ⟨a1, a2, a3, a4, a5, a6, a7, a8, a9, a10, a11, a12, a13, a14, a15⟩ := h
  have ho : k = .udp → (s.upper.rxDone f).1.isOpen = s.upper.isOpen := by
    intro hk; unfold Socket.rxDone; rw [a2.1, hk]; cases f <;> simp
  have hc : s.upper.isOpen = false → (s.upper.rxDone f).1.isOpen = false := by
    intro hx; unfold Socket.rxDone; rw [a2.1]; cases k <;> cases f <;> simp_all
  have hx : s.upper.rxActive = true := by cases hx : s.upper.rxActive <;> simp_all [Tidy]
  have hy : s.upper.active = true := by simp [Socket.active, hx]
  have hq : (s.upper.rxDone f).1.rxActive = false := by
    unfold Socket.rxDone; rw [a2.1]; cases k <;> cases f <;> simp <;> split <;> simp
  have hq2 : (s.upper.rxDone f).1.txActive = s.upper.txActive := by
    unfold Socket.rxDone; rw [a2.1]; cases k <;> cases f <;> simp <;> split <;> simp
  have hq3 : s.upper.txOpen = false → (s.upper.rxDone f).1.txOpen = false := by
    unfold Socket.rxDone Socket.tryClose; rw [a2.1]; cases k <;> cases f <;> simp <;> split <;> simp
  constructor <;> simp_all
  exact a2.rxDone (by simp_all [Tidy]) f

theorem Inv.txUpper {k} {s : Sess} (h : Inv k s) (hr : 0 < s.upper.writes) (f) :
    Inv k { s with upper := (s.upper.txDone f).1 } := by
  have hap := fun hm => h.appOpen hm (.inr hr)
  obtain ⟨a1, a2, a3, a4, a5, a6, a7, a8, a9, a10, a11, a12, a13, a14, a15⟩ := h
  have ho : k = .udp → (s.upper.txDone f).1.isOpen = s.upper.isOpen := by
    intro hk; unfold Socket.txDone; rw [a2.1, hk]; cases f <;> simp
  have hc : s.upper.isOpen = false → (s.upper.txDone f).1.isOpen = false := by
    intro hx; unfold Socket.txDone; rw [a2.1]; cases k <;> cases f <;> simp_all
  have hx : s.upper.txActive = true := by cases hx : s.upper.txActive <;> simp_all [Tidy]
  have hy : s.upper.active = true := by simp [Socket.active, hx]
  have hq : (s.upper.txDone f).1.txActive = false := by
    unfold Socket.txDone; rw [a2.1]; cases k <;> cases f <;> simp <;> split <;> simp
  have hq2 : (s.upper.txDone f).1.rxActive = s.upper.rxActive := by
    unfold Socket.txDone; rw [a2.1]; cases k <;> cases f <;> simp <;> split <;> simp
  have hq3 : s.upper.rxOpen = false → (s.upper.txDone f).1.rxOpen = false := by
    unfold Socket.txDone Socket.tryClose; rw [a2.1]; cases k <;> cases f <;> simp <;> split <;> simp
  constructor <;> simp_all
  exact a2.txDone (by simp_all [Tidy]) f

/-- A session that was removed is not told of errors of its local socket. -/
theorem Inv.noErrorR {k} {s : Sess} (h : Inv k s) (hr : 0 < s.upper.reads) (f) (hm : s.inMap = false) :
    (s.upper.rxDone f).2 ≠ .error := by
  have hx : s.upper.rxActive = true := by have := h.upper; cases hx : s.upper.rxActive <;> simp_all [Tidy]
  have h1 := h.closedU hm
  have h2 := h.quietR hm hx
  simp [Socket.active, hx] at h1
  unfold Socket.rxDone
  rw [h.upper.1]; cases k <;> cases f <;> simp_all

theorem Inv.noErrorT {k} {s : Sess} (h : Inv k s) (hr : 0 < s.upper.writes) (f) (hm : s.inMap = false) :
    (s.upper.txDone f).2 ≠ .error := by
  have hx : s.upper.txActive = true := by have := h.upper; cases hx : s.upper.txActive <;> simp_all [Tidy]
  have h1 := h.closedU hm
  have h2 := h.quietT hm hx
  simp [Socket.active, hx] at h1
  unfold Socket.txDone
  rw [h.upper.1]; cases k <;> cases f <;> simp_all

/-- The error handler of a session whose application side is open. -/
theorem error_eq {k} {s : Sess} (h : Inv k s) (ha : s.appOpen = true) :
    s.error = match k with
      | .tcp => .ok (s.gone false)
      | .udp => if s.lower.active || s.upper.active then .throw else .fault := by
  have hl := h.app ha
  have hm := h.link hl
  unfold Sess.error
  rw [h.lower.1]
  cases k
  · exact tcpError_eq hm (h.here hm).1 h.locals h.app (h.here hm).2
  · exact udpError_open hm (h.here hm).1 h.locals ha hl (h.here hm).2

theorem Inv.error {k} {s s' : Sess} (h : Inv k s) (ha : s.appOpen = true) (hs : s.error = .ok s') : Inv k s' := by
  rw [error_eq h ha] at hs
  cases k
  · cases hs; exact h.gone (h.link (h.app ha)) (by simp)
  · simp only at hs; split at hs <;> cases hs

theorem evict_eq {s : Sess} (h : Inv .tcp s) (hm : s.inMap = true) (ha : s.appOpen = false) :
    s.step .evict = .ok (s.gone false) := by
  have h1 := h.here hm
  have h2 := h.locals
  unfold Sess.step Sess.shutdown
  simp only
  rw [closeStack_closed _ (by exact ha), bind_ok]
  simp only [Sess.touch, Sess.alive, hm, Bool.true_or, ↓reduceIte, bind_ok, Sess.check, tryClose_active]
  obtain ⟨lower, upper, linkOpen, appOpen, inMap, polls, locals, restarted⟩ := s
  simp only at *
  subst hm ha h2
  obtain ⟨rfl, rfl⟩ := h1
  split <;> simp_all [Sess.gone, bind_ok]

theorem Inv.step {k} {s s' : Sess} (h : Inv k s) (e : Ev) (he : e.enabled s = true) (hs : s.step e = .ok s') : Inv k s' := by
  cases ht : s.alive
  · cases e with
    | timer as =>
      exact h.acts as hs
    | evict => simp [Ev.enabled] at he; simp [Sess.alive, he] at ht
    | _ => simp [Sess.step, Sess.touch, ht, bind_fault] at hs
  cases e with
  | belowRx f as =>
    simp only [Ev.enabled, decide_eq_true_eq] at he
    simp only [Sess.step, touch_alive ht, bind_ok] at hs
    have h1 := h.rxLower he f
    unfold Sess.below at hs
    split at hs
    · exact h1.closeStack hs
    · split at hs
      · exact h1.acts as hs
      · cases hs; exact h1
    · cases hs; exact h1
  | belowTx f as =>
    simp only [Ev.enabled, decide_eq_true_eq] at he
    simp only [Sess.step, touch_alive ht, bind_ok] at hs
    have h1 := h.txLower he f
    unfold Sess.below at hs
    split at hs
    · exact h1.closeStack hs
    · split at hs
      · exact h1.acts as hs
      · cases hs; exact h1
    · cases hs; exact h1
  | appRx f as =>
    simp only [Ev.enabled, decide_eq_true_eq] at he
    simp only [Sess.step, touch_alive ht, bind_ok] at hs
    have h1 := h.rxUpper he f
    have h2 := h.noErrorR he f
    have h3 := fun hm => h.appOpen hm (.inl he)
    unfold Sess.app at hs
    split at hs
    · refine h1.error (h3 ?_) hs
      cases hm : s.inMap
      · exact absurd ‹_› (h2 hm)
      · rfl
    · exact h1.acts _ hs
    · cases hs; exact h1
  | appTx f as =>
    simp only [Ev.enabled, decide_eq_true_eq] at he
    simp only [Sess.step, touch_alive ht, bind_ok] at hs
    have h1 := h.txUpper he f
    have h2 := h.noErrorT he f
    have h3 := fun hm => h.appOpen hm (.inr he)
    unfold Sess.app at hs
    split at hs
    · refine h1.error (h3 ?_) hs
      cases hm : s.inMap
      · exact absurd ‹_› (h2 hm)
      · rfl
    · exact h1.acts as hs
    · cases hs; exact h1
  | timer as => exact h.acts as hs
  | poll =>
    simp only [Ev.enabled, decide_eq_true_eq] at he
    simp only [Sess.step, touch_alive ht, bind_ok] at hs
    cases hs
    obtain ⟨a1, a2, a3, a4, a5, a6, a7, a8, a9, a10, a11, a12, a13, a14, a15⟩ := h
    unfold Sess.check
    split
    · have hpp : s.polls - 1 + 1 = s.polls := by omega
      constructor <;> simp_all
    · constructor <;> simp_all
  | evict =>
    simp [Ev.enabled] at he
    obtain ⟨⟨hm, ha⟩, hk⟩ := he
    have hk' : k = .tcp := by rw [← h.lower.1]; exact hk
    subst hk'
    rw [evict_eq h hm ha] at hs
    cases hs
    exact h.gone hm (by simp)

theorem Inv.start (k) (as : List Act) {s} (hs : Sess.start k as = .ok s) : Inv k s := by
  refine Inv.acts ?_ as hs
  constructor <;> simp [Tidy.new k, (Tidy.new k).startRx]
  simp [Socket.new]

theorem Reachable.inv {k} {s : Sess} (h : Reachable k s) : Inv k s := by
  induction h with
  | start as s hs => exact Inv.start k as hs
  | step e _ he hs ih => exact ih.step e he hs

end SSP21.Lifetime
