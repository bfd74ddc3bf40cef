import Verif.Asio
/-
  C46: the layer of the proxy between a socket and the stack (`AsioLowerLayer` with the socket wrappers) hands every chunk
  that was received to the stack, once and in order; what it has handed out stays as it is until the stack asks for
  more; at most one read and one write are outstanding.
-/
namespace SSP21.Asio

namespace Spec

/-- A chunk that has been received from the socket (an empty datagram carries nothing). -/
def received : LowerEv → Option Bytes
  | .received d => if d = [] then none else some d
  | _ => none

/-- A chunk that the stack has been given. -/
def handed : LowerOut → Option Bytes
  | .data d => if d = [] then none else some d
  | _ => none

end Spec

namespace LowerProof

/-- What the wrapper knows about the operations it has started. -/
def SockOk (s : Socket) : Prop :=
  s.reads = (if s.rxActive then 1 else 0) ∧ s.writes = (if s.txActive then 1 else 0)

theorem sock_new (kind : Transport) : SockOk (Socket.new kind) := ⟨rfl, rfl⟩

theorem sock_tryClose {s : Socket} (h : SockOk s) : SockOk s.tryClose := by
  unfold Socket.tryClose; split <;> exact h

theorem sock_startRx {s : Socket} (h : SockOk s) : SockOk s.startRx := by
  obtain ⟨h1, h2⟩ := h
  unfold Socket.startRx
  split <;> split <;> simp_all [SockOk]

theorem sock_startTx {s : Socket} (h : SockOk s) : SockOk s.startTx.1 := by
  obtain ⟨h1, h2⟩ := h
  unfold Socket.startTx
  split <;> split <;> simp_all [SockOk]

theorem sock_rxDone {s : Socket} (h : SockOk s) (hr : 0 < s.reads) (f : Bool) : SockOk (s.rxDone f).1 := by
  obtain ⟨h1, h2⟩ := h
  have h1 : s.reads = 1 := by split at h1 <;> omega
  unfold Socket.rxDone Socket.tryClose
  (repeat' split) <;> simp_all [SockOk]

theorem sock_txDone {s : Socket} (h : SockOk s) (hr : 0 < s.writes) (f : Bool) : SockOk (s.txDone f).1 := by
  obtain ⟨h1, h2⟩ := h
  have h2 : s.writes = 1 := by split at h2 <;> omega
  unfold Socket.txDone Socket.tryClose
  (repeat' split) <;> simp_all [SockOk]

theorem rxDone_inactive (s : Socket) (f : Bool) : (s.rxDone f).1.rxActive = false := by
  unfold Socket.rxDone Socket.tryClose
  (repeat' split) <;> rfl

theorem tryClose_rxActive (s : Socket) : s.tryClose.rxActive = s.rxActive := by
  unfold Socket.tryClose; split <;> rfl

theorem txDone_rxActive (s : Socket) (f : Bool) : (s.txDone f).1.rxActive = s.rxActive := by
  unfold Socket.txDone Socket.tryClose
  (repeat' split) <;> rfl

theorem startTx_rxActive (s : Socket) : s.startTx.1.rxActive = s.rxActive := by
  unfold Socket.startTx
  split <;> split <;> rfl

/-- The invariant. -/
structure Inv (l : Lower) : Prop where
  sock : SockOk l.sock
  quiet : l.unread ≠ 0 → l.sock.rxActive = false
  fits : l.unread ≤ l.mem.length
  held : l.flag = true → l.unread ≠ 0

/-- What was received and has not been handed out. -/
def waiting (l : Lower) : List Bytes := if l.flag ∨ l.unread = 0 then [] else [l.slice]

theorem slice_eq_nil {l : Lower} (h : Inv l) : l.slice = [] ↔ l.unread = 0 := by
  have := h.fits
  unfold Lower.slice
  rw [List.take_eq_nil_iff]
  constructor
  · rintro (h | h)
    · exact h
    · simpa [h] using this
  · exact Or.inl

theorem read_spec {l : Lower} (h : Inv l) : Inv l.read.1 ∧ waiting l = (if l.read.2 = [] then [] else [l.read.2]) ∧
    waiting l.read.1 = [] := by
  obtain ⟨h1, h2, h3, h4⟩ := h
  unfold Lower.read waiting
  by_cases hf : l.flag = true
  · simp only [hf, if_true]
    simp only [Lower.slice, List.take_zero]
    refine ⟨⟨sock_startRx h1, by simp, Nat.zero_le _, by simp⟩, by simp, by simp⟩
  · have hf' : l.flag = false := by simpa using hf
    simp only [hf', Bool.false_eq_true, if_false]
    by_cases hu : l.unread = 0
    · simp only [hu, if_true]
      simp only [Lower.slice, hu, List.take_zero]
      exact ⟨⟨sock_startRx h1, by simp, by simp, by simp⟩, by simp, by simp⟩
    · have hs : l.slice ≠ [] := fun h => hu ((slice_eq_nil ⟨h1, h2, h3, h4⟩).1 h)
      simp only [hu, if_false, hs, ne_eq, not_false_eq_true, if_true, or_self]
      exact ⟨⟨h1, fun _ => h2 hu, h3, fun _ => hu⟩, trivial, by simp⟩

/-- One event: what was received is handed out or waits. -/
theorem step_spec {l : Lower} (h : Inv l) (e : LowerEv) (he : e.enabled l = true) :
    Inv (l.step e).1 ∧ waiting l ++ (Spec.received e).toList =
      (l.step e).2.filterMap Spec.handed ++ waiting (l.step e).1 := by
  have hact : 0 < l.sock.reads → l.sock.rxActive = true := fun hr => by
    by_contra hx
    have := h.sock.1
    simp [hx] at this
    omega
  have hnone : 0 < l.sock.reads → l.unread = 0 := fun hr => by
    by_contra hx
    have := h.quiet hx
    rw [hact hr] at this
    cases this
  have hflag : 0 < l.sock.reads → l.flag = false := fun hr => by
    by_contra hx
    exact h.held (by simpa using hx) (hnone hr)
  cases e with
  | scribble m =>
    have hr : 0 < l.sock.reads := by simpa [LowerEv.enabled] using he
    refine ⟨⟨h.sock, h.quiet, by simp [Lower.step, hnone hr], h.held⟩, ?_⟩
    simp [Lower.step, waiting, hnone hr, Spec.received]
  | received d =>
    have hr : 0 < l.sock.reads := by simpa [LowerEv.enabled] using he
    refine ⟨⟨sock_rxDone h.sock hr false, fun _ => rxDone_inactive _ _, by simp [Lower.step],
      fun hx => by rw [show (l.step (.received d)).1.flag = l.flag from rfl, hflag hr] at hx; cases hx⟩, ?_⟩
    by_cases hd : d = []
    · subst hd
      simp [Lower.step, waiting, hnone hr, Spec.received, Spec.handed]
    · have : d.length ≠ 0 := by simpa using hd
      simp [Lower.step, waiting, hnone hr, hflag hr, Spec.received, Spec.handed, hd, Lower.slice]
  | rxFailed =>
    have hr : 0 < l.sock.reads := by simpa [LowerEv.enabled] using he
    refine ⟨⟨sock_rxDone h.sock hr true, fun _ => rxDone_inactive _ _, h.fits, h.held⟩, ?_⟩
    simp only [Lower.step]
    split <;> simp [Spec.received, Spec.handed, waiting, Lower.slice]
  | txDone f =>
    have hr : 0 < l.sock.writes := by simpa [LowerEv.enabled] using he
    refine ⟨⟨sock_txDone h.sock hr f, fun hu => by
      simp only [Lower.step]; rw [txDone_rxActive]; exact h.quiet hu, h.fits, h.held⟩, ?_⟩
    simp only [Lower.step]
    split <;> simp [Spec.received, Spec.handed, waiting, Lower.slice]
  | read =>
    obtain ⟨h1, h2, h3⟩ := read_spec h
    refine ⟨h1, ?_⟩
    simp only [Lower.step, Spec.received, Option.toList_none, List.append_nil]
    rw [h2, h3]
    by_cases hd : l.read.2 = []
    · simp [hd, Spec.handed]
    · simp [hd, Spec.handed]
  | write f =>
    refine ⟨⟨sock_startTx h.sock, fun hu => by
      simp only [Lower.step]; rw [startTx_rxActive]; exact h.quiet hu, h.fits, h.held⟩, ?_⟩
    simp only [Lower.step, List.filterMap_cons, Spec.handed, List.filterMap_nil, List.nil_append]
    simp [Spec.received, waiting, Lower.slice]
  | close =>
    refine ⟨⟨sock_tryClose h.sock, fun hu => by
      simp only [Lower.step]; rw [tryClose_rxActive]; exact h.quiet hu, h.fits, h.held⟩, ?_⟩
    simp only [Lower.step, List.filterMap_cons, Spec.handed, List.filterMap_nil, List.nil_append]
    simp [Spec.received, waiting, Lower.slice]

theorem run_spec {l : Lower} (h : Inv l) (es : List LowerEv) {l' : Lower} {outs : List LowerOut}
    (hr : l.run es = some (l', outs)) :
    Inv l' ∧ waiting l ++ es.filterMap Spec.received = outs.filterMap Spec.handed ++ waiting l' := by
  induction es generalizing l outs with
  | nil => cases hr; exact ⟨h, by simp⟩
  | cons e es ih =>
    simp only [Lower.run] at hr
    split at hr
    · rename_i he
      obtain ⟨h1, h2⟩ := step_spec h e he
      split at hr
      · cases hr
      · rename_i l'' outs'' heq
        cases hr
        obtain ⟨h3, h4⟩ := ih h1 heq
        refine ⟨h3, ?_⟩
        rw [List.filterMap_append, List.append_assoc, ← h4, ← List.append_assoc, ← h2, List.append_assoc]
        congr 1
        simp only [List.filterMap_cons]
        cases Spec.received e <;> simp
    · cases hr

theorem opened_inv (kind : Transport) (mem : Bytes) : Inv (Lower.opened kind mem) :=
  ⟨sock_startRx (sock_new kind), by simp [Lower.opened], by simp [Lower.opened], by simp [Lower.opened]⟩

theorem startRx_active {s : Socket} (h : s.kind = .tcp → s.isOpen = true) : s.startRx.rxActive = true := by
  unfold Socket.startRx
  split
  · have := h ‹_›
    by_cases hr : s.rxActive = true <;> simp [this, hr]
  · by_cases hr : s.rxActive = true <;> simp [hr]

theorem startRx_isOpen (s : Socket) : s.startRx.isOpen = s.isOpen := by
  unfold Socket.startRx
  split <;> split <;> rfl

theorem startRx_kind (s : Socket) : s.startRx.kind = s.kind := by
  unfold Socket.startRx
  split <;> split <;> simp_all

theorem startTx_isOpen (s : Socket) : s.startTx.1.isOpen = s.isOpen := by
  unfold Socket.startTx
  split <;> split <;> rfl

theorem tryClose_isOpen (s : Socket) : s.tryClose.isOpen = false := by
  unfold Socket.tryClose; split <;> simp_all

/-- A TCP socket that fails is closed and the user is told, unless it is closed already. -/
theorem rxDone_tcp {s : Socket} (h : s.kind = .tcp) (f : Bool) : (s.rxDone f).1.kind = .tcp ∧
    ((s.rxDone f).1.isOpen = (s.isOpen && !f)) ∧ ((s.rxDone f).2 = .error ↔ (s.isOpen && f) = true) := by
  unfold Socket.rxDone
  rw [h]
  cases f <;> cases ho : s.isOpen <;> simp_all [Socket.tryClose]

theorem txDone_tcp {s : Socket} (h : s.kind = .tcp) (f : Bool) : (s.txDone f).1.kind = .tcp ∧
    ((s.txDone f).1.isOpen = (s.isOpen && !f)) ∧ ((s.txDone f).2 = .error ↔ (s.isOpen && f) = true) := by
  unfold Socket.txDone
  rw [h]
  cases f <;> cases ho : s.isOpen <;> simp_all [Socket.tryClose]

/-- A TCP socket: while it is open, a read is outstanding or there is a chunk. -/
structure Tcp (l : Lower) : Prop where
  kind : l.sock.kind = .tcp
  reading : l.sock.isOpen = true → l.unread = 0 → l.sock.rxActive = true

theorem tcp_step {l : Lower} (ht : Tcp l) {e : LowerEv} (he : e ≠ .received []) :
    Tcp (l.step e).1 ∧ ((l.step e).1.sock.isOpen = false → l.sock.isOpen = false ∨ .up .closed ∈ (l.step e).2) := by
  cases e with
  | scribble m => exact ⟨⟨ht.kind, ht.reading⟩, .inl⟩
  | received d =>
    obtain ⟨h1, h2, -⟩ := rxDone_tcp ht.kind false
    refine ⟨⟨h1, fun _ hu => ?_⟩, fun hx => .inl ?_⟩
    · simp only [Lower.step, List.length_eq_zero_iff] at hu
      exact absurd (by rw [hu]) he
    · have : (l.sock.rxDone false).1.isOpen = false := hx
      rw [h2] at this
      simpa using this
  | rxFailed =>
    obtain ⟨h1, h2, h3⟩ := rxDone_tcp ht.kind true
    refine ⟨⟨h1, fun ho => ?_⟩, fun _ => ?_⟩
    · have : (l.sock.rxDone true).1.isOpen = true := ho
      rw [h2] at this
      simp at this
    · cases ho : l.sock.isOpen with
      | false => exact .inl rfl
      | true =>
        refine .inr ?_
        simp only [Lower.step]
        rw [if_pos (h3.2 (by simp [ho]))]
        simp
  | txDone f =>
    obtain ⟨h1, h2, h3⟩ := txDone_tcp ht.kind f
    refine ⟨⟨h1, fun ho hu => ?_⟩, fun hx => ?_⟩
    · have ho' : (l.sock.txDone f).1.isOpen = true := ho
      rw [h2, Bool.and_eq_true] at ho'
      simp only [Lower.step]
      rw [txDone_rxActive]
      exact ht.reading ho'.1 hu
    · cases ho : l.sock.isOpen with
      | false => exact .inl rfl
      | true =>
        have hx' : (l.sock.txDone f).1.isOpen = false := hx
        rw [h2] at hx'
        refine .inr ?_
        simp only [Lower.step]
        rw [h3.2 (by simpa [ho] using hx')]
        simp
  | read =>
    simp only [Lower.step, Lower.read]
    have key : ∀ l : Lower, Tcp l → Tcp (if l.unread = 0 then { l with sock := l.sock.startRx } else l) ∧
        ((if l.unread = 0 then { l with sock := l.sock.startRx } else l : Lower).sock.isOpen = l.sock.isOpen) := by
      intro l hl
      split
      · refine ⟨⟨(startRx_kind _).trans hl.kind, fun ho _ => startRx_active fun _ => ?_⟩, startRx_isOpen _⟩
        exact (startRx_isOpen _).symm.trans ho
      · exact ⟨hl, rfl⟩
    by_cases hf : l.flag = true
    · simp only [hf, if_true]
      refine ⟨⟨(startRx_kind _).trans ht.kind, fun ho _ => startRx_active fun _ => ?_⟩, fun hx => .inl ?_⟩
      · exact (startRx_isOpen _).symm.trans ho
      · exact (startRx_isOpen _).symm.trans hx
    · rw [if_neg hf]
      obtain ⟨h1, h2⟩ := key l ht
      exact ⟨⟨h1.kind, h1.reading⟩, fun hx => .inl (h2.symm.trans hx)⟩
  | write f =>
    refine ⟨⟨?_, fun ho hu => ?_⟩, fun hx => .inl ?_⟩
    · simp only [Lower.step, Socket.startTx, ht.kind]
      split <;> simp [ht.kind]
    · simp only [Lower.step] at ho ⊢
      rw [startTx_rxActive]
      exact ht.reading (by rw [← ho, startTx_isOpen]) hu
    · have hx' : l.sock.startTx.1.isOpen = false := hx
      rwa [startTx_isOpen] at hx'
  | close =>
    refine ⟨⟨?_, fun ho => ?_⟩, fun _ => .inr (by simp [Lower.step])⟩
    · simp only [Lower.step, Socket.tryClose]
      split <;> exact ht.kind
    · have ho' : l.sock.tryClose.isOpen = true := ho
      rw [tryClose_isOpen] at ho'
      cases ho'

theorem tcp_run {l : Lower} (h : Inv l) (ht : Tcp l) (es : List LowerEv) (hne : .received [] ∉ es) {l' : Lower}
    {outs : List LowerOut} (hr : l.run es = some (l', outs)) :
    Tcp l' ∧ (l'.sock.isOpen = false → l.sock.isOpen = false ∨ .up .closed ∈ outs) := by
  induction es generalizing l outs with
  | nil => cases hr; exact ⟨ht, .inl⟩
  | cons e es ih =>
    simp only [Lower.run] at hr
    split at hr
    · rename_i he
      obtain ⟨h1, h2⟩ := tcp_step ht (e := e) (fun hx => hne (by simp [hx]))
      split at hr
      · cases hr
      · rename_i l'' outs'' heq
        cases hr
        obtain ⟨h3, h4⟩ := ih (step_spec h e he).1 h1 (fun hx => hne (List.mem_cons_of_mem _ hx)) heq
        refine ⟨h3, fun hx => ?_⟩
        rcases h4 hx with h5 | h5
        · rcases h2 h5 with h6 | h6
          · exact .inl h6
          · exact .inr (List.mem_append_left _ h6)
        · exact .inr (List.mem_append_right _ h5)
    · cases hr

end LowerProof

open LowerProof

/-- The chunks that the stack has been given are the chunks that have been received, in order and each of them once,
except possibly the last one, which waits: it is what the next call returns. -/
theorem C46_in_order (kind : Transport) (mem : Bytes) (es : List LowerEv) (l : Lower) (outs : List LowerOut)
    (h : (Lower.opened kind mem).run es = some (l, outs)) :
    ∃ waiting, es.filterMap Spec.received = outs.filterMap Spec.handed ++ waiting ∧ waiting.length ≤ 1 ∧
      ∃ l', l.run [.read] = some (l', [.data waiting.flatten]) := by
  obtain ⟨hi, hw⟩ := run_spec (opened_inv kind mem) es h
  refine ⟨waiting l, by simpa [waiting, Lower.opened] using hw, by unfold waiting; split <;> simp, l.read.1, ?_⟩
  have h2 := (read_spec hi).2.1
  simp only [Lower.run, LowerEv.enabled, if_true, Lower.step, List.append_nil]
  rw [h2]
  split <;> simp_all

/-- What the stack has been given stays unmodified until it asks for more, whatever happens. -/
theorem C46_slice_stable (kind : Transport) (mem : Bytes) (before after : List LowerEv) (l₀ l₁ l₂ : Lower)
    (outs₀ outs₂ : List LowerOut) (d : Bytes)
    (h₀ : (Lower.opened kind mem).run before = some (l₀, outs₀)) (h₁ : l₀.run [.read] = some (l₁, [.data d]))
    (h₂ : l₁.run after = some (l₂, outs₂)) (ha : .read ∉ after) : l₂.mem.take d.length = d := by
  obtain ⟨hi, -⟩ := run_spec (opened_inv kind mem) before h₀
  have h1 : l₁ = l₀.read.1 ∧ d = l₀.read.2 := by
    simp only [Lower.run, LowerEv.enabled, if_true, Lower.step, List.append_nil, Option.some.injEq, Prod.mk.injEq,
      List.cons.injEq, LowerOut.data.injEq, and_true] at h₁
    exact ⟨h₁.1.symm, h₁.2.symm⟩
  obtain ⟨rfl, rfl⟩ := h1
  by_cases hd : l₀.read.2 = []
  · simp [hd]
  have hinv := (read_spec hi).1
  have hslice : l₀.read.1.slice = l₀.read.2 := rfl
  have hun : l₀.read.1.unread ≠ 0 := by
    intro hx
    rw [← hslice] at hd
    exact hd ((slice_eq_nil hinv).2 hx)
  have key : ∀ (es : List LowerEv) (l l' : Lower) (outs : List LowerOut), Inv l → l.unread ≠ 0 → .read ∉ es →
      l.run es = some (l', outs) → l'.slice = l.slice ∧ l'.unread = l.unread := by
    intro es
    induction es with
    | nil => intro l l' outs _ _ _ hr; cases hr; exact ⟨rfl, rfl⟩
    | cons e es ih =>
      intro l l' outs hl hu hn hr
      simp only [Lower.run] at hr
      split at hr
      · rename_i he
        split at hr
        · cases hr
        · rename_i l'' outs'' heq
          cases hr
          have hq : ¬ 0 < l.sock.reads := by
            have := hl.sock.1
            rw [hl.quiet hu] at this
            simp at this
            omega
          have hstep : (l.step e).1.slice = l.slice ∧ (l.step e).1.unread = l.unread := by
            cases e with
            | scribble m => simp [LowerEv.enabled] at he; omega
            | received d => simp [LowerEv.enabled] at he; omega
            | rxFailed => simp [LowerEv.enabled] at he; omega
            | read => simp at hn
            | txDone f => exact ⟨rfl, rfl⟩
            | write f => exact ⟨rfl, rfl⟩
            | close => exact ⟨rfl, rfl⟩
          obtain ⟨h3, h4⟩ := ih (l.step e).1 l' outs'' (step_spec hl e he).1 (by rw [hstep.2]; exact hu)
            (fun hx => hn (List.mem_cons_of_mem _ hx)) heq
          exact ⟨h3.trans hstep.1, h4.trans hstep.2⟩
      · cases hr
  obtain ⟨hs, hu⟩ := key after _ _ _ hinv hun ha h₂
  have hlen : l₀.read.2.length = l₀.read.1.unread := by
    rw [← hslice]
    have := hinv.fits
    simp only [Lower.slice, List.length_take]
    omega
  rw [hlen, ← hu]
  exact hs.trans hslice

/-- At most one read and one write are outstanding, and the wrapper knows which. -/
theorem C46_one_at_a_time (kind : Transport) (mem : Bytes) (es : List LowerEv) (l : Lower) (outs : List LowerOut)
    (h : (Lower.opened kind mem).run es = some (l, outs)) :
    l.sock.reads ≤ 1 ∧ l.sock.writes ≤ 1 ∧ (l.sock.rxActive = true ↔ l.sock.reads = 1) ∧
      (l.sock.txActive = true ↔ l.sock.writes = 1) := by
  obtain ⟨⟨⟨h1, h2⟩, -, -, -⟩, -⟩ := run_spec (opened_inv kind mem) es h
  cases hr : l.sock.rxActive <;> cases ht : l.sock.txActive <;> simp_all

/-- `is_tx_ready` tells whether `start_tx_from_upper` succeeds, for an open TCP socket and for any UDP socket. -/
theorem C46_ready_means_accepted (l : Lower) (frame : Bytes) (h : l.sock.kind = .tcp → l.sock.isOpen = true) :
    ∃ l', l.run [.write frame] = some (l', [.accepted l.txReady]) := by
  simp only [Lower.run, LowerEv.enabled, if_true, Lower.step, Socket.startTx, Lower.txReady, List.append_nil]
  cases hk : l.sock.kind <;> cases ht : l.sock.txActive <;> simp_all

/-- TCP (a successful read has at least one byte): as long as the socket is open and the stack has nothing left to take,
a read is outstanding; and when the socket is no longer open the stack has been told. -/
theorem C46_tcp_keeps_reading (mem : Bytes) (es : List LowerEv) (l : Lower) (outs : List LowerOut)
    (h : (Lower.opened .tcp mem).run es = some (l, outs)) (hne : .received [] ∉ es) :
    (l.sock.isOpen = true → l.slice = [] → l.sock.reads = 1) ∧ (l.sock.isOpen = false → .up .closed ∈ outs) := by
  have hi := opened_inv .tcp mem
  have ht : Tcp (Lower.opened .tcp mem) := ⟨rfl, fun _ _ => rfl⟩
  obtain ⟨h1, -⟩ := run_spec hi es h
  obtain ⟨h2, h3⟩ := tcp_run hi ht es hne h
  refine ⟨fun ho hs => ?_, fun ho => (h3 ho).resolve_left (by simp [Lower.opened, Socket.startRx, Socket.new])⟩
  have := h2.reading ho ((slice_eq_nil h1).1 hs)
  have h4 := h1.sock.1
  rw [this] at h4
  simpa using h4

/-- UDP: a read that fails before the first datagram has been received is not reported and not repeated: the socket is
open, nothing is being read, and the stack has not been told. -/
theorem C46_udp_silent_stop (mem : Bytes) : ∃ l, (Lower.opened .udp mem).run [.rxFailed] = some (l, []) ∧
    l.sock.isOpen = true ∧ l.sock.reads = 0 ∧ l.slice = [] := ⟨_, rfl, rfl, rfl, rfl⟩

/-- A concrete history: two chunks; the stack takes the first and asks again, whereupon the next is read. -/
example : ((Lower.opened .tcp []).run [.scribble [9], .received [1, 2], .read, .write [7], .read, .scribble [5, 5, 5],
      .received [3], .txDone false, .read]).map (fun r => (r.2, r.1.sock.reads, r.1.slice)) =
    some ([.up .rxReady, .data [1, 2], .accepted true, .data [], .up .rxReady, .up .txReady, .data [3]], 0, [3]) := rfl

end SSP21.Asio
