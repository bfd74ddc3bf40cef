import Verif.Bridge
import Verif.Segments
import Verif.Props.Asio
import Verif.Props.Request
import Verif.Props.Streams
import Verif.Props.Liveness
import Verif.BridgeExec
/-
  C48: the plain text side of the proxy (`AsioUpperLayer` with its socket and the crypto layer) forwards every chunk that
  arrives at its socket to the crypto layer, which accepts it, and everything that the crypto layer gives it to the
  socket, once and in order; the memory that an operation uses is not overwritten while it is in progress; and, with TCP,
  it never stops to do so. With UDP it may stop: see the counterexamples at the end.
-/
namespace SSP21.Crypto.Bridge
open Asio

namespace Spec

/-- A request of the proxy to transmit, and whether the crypto layer has accepted it. -/
def request : Obs → Option (Bytes × Bool)
  | .startTx d b => some (d, b)
  | _ => none

/-- The state of the crypto layer while it is not active (or when the session was shut down). -/
def Outside (x : State) (s : Layer) : Prop := x.ctl = .idle s ∨ x.ctl = .leaving s ∨ x.ctl = .ended s

end Spec

namespace Proof

/-- The environment that the crypto layer sees: from inside callbacks, the proxy reads at once when it is told that there
is data. -/
def env (c : Cfg) (E : Env) : Env :=
  { E with nested := fun s a => a = .startRx ∧ s.log.getLast? = some (.up .rxReady) ∧ Crypto.Spec.Unstale c s.log }

theorem env_readsAtOnce (c : Cfg) (E : Env) : Crypto.Spec.ReadsAtOnce c (env c E) := fun _ h => h.2

theorem env_silent {c : Cfg} {E : Env} (h : E.SilentWhenClosed) : (env c E).SilentWhenClosed := h

/-- What the proxy maintains: `l` is the log of the crypto layer. -/
structure K (l : List Obs) (k : Socket) (i o : List Bytes) : Prop where
  out : o = l.filterMap Crypto.Spec.givenData
  inp : l.filterMap Spec.request = i.map (·, true)
  noclose : .up .closed ∉ l
  single : .lowerClose ∈ l → Crypto.Spec.belowOpen l = false
  idle : Crypto.Spec.inProgress l = true → Crypto.Spec.appOpen l = true
  rd : k.rxActive = true → Crypto.Spec.appOpen l = true ∧ Crypto.Spec.inProgress l = false
  sock : LowerProof.SockOk k
  isOpen : k.kind = .tcp → k.isOpen = true
  reading : k.kind = .tcp → Crypto.Spec.appOpen l = true → Crypto.Spec.belowOpen l = true →
    k.rxActive = true ∨ Crypto.Spec.inProgress l = true
  writing : k.kind = .tcp → Crypto.Spec.hold l ≠ .free → k.txActive = true
  held : k.txActive = true → .lowerClose ∈ l ∨ ∃ d, o.getLast? = some d ∧ Crypto.Spec.hold l = .reading d

theorem inProgress_snoc (l : List Obs) (o : Obs) :
    Crypto.Spec.inProgress (l ++ [o]) = Crypto.Spec.requestStep (Crypto.Spec.inProgress l) o := by simp [Crypto.Spec.inProgress]
theorem appOpen_snoc (l : List Obs) (o : Obs) :
    Crypto.Spec.appOpen (l ++ [o]) = Crypto.Spec.appStep (Crypto.Spec.appOpen l) o := by simp [Crypto.Spec.appOpen]
theorem belowOpen_snoc (l : List Obs) (o : Obs) :
    Crypto.Spec.belowOpen (l ++ [o]) = Crypto.Spec.belowStep (Crypto.Spec.belowOpen l) o := by simp [Crypto.Spec.belowOpen]
theorem lost_snoc (l : List Obs) (o : Obs) :
    Crypto.Spec.lost (l ++ [o]) = Crypto.Spec.lostStep (Crypto.Spec.lost l) o := by simp [Crypto.Spec.lost]

/-- Observations that change nothing here. -/
theorem K.same {l : List Obs} {k : Socket} {i o : List Bytes} (h : K l k i o) (x : Obs)
    (h1 : Crypto.Spec.givenData x = none) (h2 : Spec.request x = none) (h3 : x ≠ .up .closed)
    (h4 : ∀ b, Crypto.Spec.requestStep b x = b) (h5 : ∀ b, Crypto.Spec.appStep b x = b)
    (h6 : ∀ b, Crypto.Spec.belowStep b x = b) (h7 : ∀ b, Crypto.Spec.holdStep b x = b) (h8 : x ≠ .lowerClose) :
    K (l ++ [x]) k i o where
  out := by simp [h.out, h1]
  inp := by simp [h.inp, h2]
  noclose := by simp [h.noclose, h3.symm]
  single := by
    rw [belowOpen_snoc, h6]
    intro hm
    simp only [List.mem_append, List.mem_singleton, h8.symm, or_false] at hm
    exact h.single hm
  idle := by rw [inProgress_snoc, appOpen_snoc, h4, h5]; exact h.idle
  rd := by rw [inProgress_snoc, appOpen_snoc, h4, h5]; exact h.rd
  sock := h.sock
  isOpen := h.isOpen
  reading := by rw [inProgress_snoc, appOpen_snoc, belowOpen_snoc, h4, h5, h6]; exact h.reading
  writing := by rw [HoldProof.hold_snoc, h7]; exact h.writing
  held := by
    rw [HoldProof.hold_snoc, h7]
    exact fun ht => (h.held ht).imp (by simp +contextual) id

theorem K.own {l : List Obs} {k : Socket} {i o : List Bytes} (h : K l k i o) {x : Obs} (hx : Own x) : K (l ++ [x]) k i o := by
  cases x with
  | up cb => exact hx.elim
  | startTx d b => exact hx.elim
  | rxCall => exact hx.elim
  | lowerOpen => exact hx.elim
  | startRx d =>
    cases (hx : d = [])
    refine h.same _ ?_ ?_ ?_ ?_ ?_ ?_ ?_ ?_ <;> simp [Crypto.Spec.givenData, Spec.request, Crypto.Spec.requestStep,
      Crypto.Spec.appStep, Crypto.Spec.belowStep, Crypto.Spec.holdStep]
  | lowerClose =>
    exact {
      out := by simp [h.out, Crypto.Spec.givenData]
      inp := by simp [h.inp, Spec.request]
      noclose := by simp [h.noclose]
      single := by rw [belowOpen_snoc]; intro _; rfl
      idle := by rw [inProgress_snoc]; intro h; cases h
      rd := by rw [inProgress_snoc, appOpen_snoc]; exact fun hr => ⟨(h.rd hr).1, rfl⟩
      sock := h.sock
      isOpen := h.isOpen
      reading := by rw [belowOpen_snoc]; intro _ _ h; cases h
      writing := by rw [HoldProof.hold_snoc]; exact fun _ hh => absurd rfl hh
      held := fun _ => .inl (by simp) }
  | _ =>
    refine h.same _ ?_ ?_ ?_ ?_ ?_ ?_ ?_ ?_ <;> simp [Crypto.Spec.givenData, Spec.request, Crypto.Spec.requestStep,
      Crypto.Spec.appStep, Crypto.Spec.belowStep, Crypto.Spec.holdStep]

theorem K.owns {l : List Obs} {k : Socket} {i o : List Bytes} (h : K l k i o) {extra : List Obs} (hx : ∀ x ∈ extra, Own x) :
    K (l ++ extra) k i o := by
  induction extra generalizing l with
  | nil => simpa using h
  | cons x extra ih =>
    rw [show l ++ x :: extra = (l ++ [x]) ++ extra by simp]
    exact ih (h.own (hx x (by simp))) fun y hy => hx y (by simp [hy])

theorem K.ext {s t : Layer} {k : Socket} {i o : List Bytes} (h : K s.log k i o) (hx : Ext Own s t) : K t.log k i o := by
  obtain ⟨extra, h1, h2⟩ := hx
  rw [h1]
  exact h.owns h2

/-- A call of `start_rx_from_upper` while no write is in progress. -/
theorem K.call {l : List Obs} {k k' : Socket} {i o : List Bytes} (h : K l k i o) (ht : k'.txActive = false)
    (h1 : k'.rxActive = k.rxActive) (h2 : k'.kind = k.kind) (h3 : k'.kind = .tcp → k'.isOpen = k.isOpen)
    (hs : LowerProof.SockOk k') (x : List Obs) (hx : x = [] ∨ x = [.up .rxReady]) : K (l ++ x ++ [.rxCall]) k' i o := by
  have e1 : Crypto.Spec.inProgress (l ++ x ++ [.rxCall]) = Crypto.Spec.inProgress l := by
    rcases hx with rfl | rfl <;> simp [Crypto.Spec.inProgress, Crypto.Spec.requestStep]
  have e2 : Crypto.Spec.appOpen (l ++ x ++ [.rxCall]) = Crypto.Spec.appOpen l := by
    rcases hx with rfl | rfl <;> simp [Crypto.Spec.appOpen, Crypto.Spec.appStep]
  have e3 : Crypto.Spec.belowOpen (l ++ x ++ [.rxCall]) = Crypto.Spec.belowOpen l := by
    rcases hx with rfl | rfl <;> simp [Crypto.Spec.belowOpen, Crypto.Spec.belowStep]
  exact {
    out := by rcases hx with rfl | rfl <;> simp [h.out, Crypto.Spec.givenData]
    inp := by rcases hx with rfl | rfl <;> simp [h.inp, Spec.request]
    noclose := by rcases hx with rfl | rfl <;> simp [h.noclose]
    single := by rw [e3]; intro hm; exact h.single (by rcases hx with rfl | rfl <;> simpa using hm)
    idle := by rw [e1, e2]; exact h.idle
    rd := by rw [e1, e2, h1]; exact h.rd
    sock := hs
    isOpen := fun hk => by rw [h3 hk]; exact h.isOpen (h2 ▸ hk)
    reading := by rw [e1, e2, e3, h1, h2]; exact h.reading
    writing := by rw [HoldProof.hold_snoc]; exact fun _ hh => absurd rfl hh
    held := by rw [ht]; intro h; cases h }

/-- The application of the crypto layer (that is the proxy) is opened, or told that it can transmit more. -/
theorem K.rx {l : List Obs} {k : Socket} {i o : List Bytes} (h : K l k i o) (x : UpCall) (hx : x = .opened ∨ x = .txReady)
    (h1 : x = .opened → Crypto.Spec.appOpen l = false) (h2 : x = .txReady → Crypto.Spec.inProgress l = true) :
    K (l ++ [.up x]) k.startRx i o := by
  have e1 : Crypto.Spec.inProgress (l ++ [.up x]) = false := by
    rw [inProgress_snoc]
    rcases hx with rfl | rfl
    · show Crypto.Spec.inProgress l = false
      by_contra hc
      have := h.idle (by simpa using hc)
      rw [h1 rfl] at this; cases this
    · rfl
  have e2 : Crypto.Spec.appOpen (l ++ [.up x]) = true := by
    rw [appOpen_snoc]
    rcases hx with rfl | rfl
    · rfl
    · exact h.idle (h2 rfl)
  have e3 : Crypto.Spec.belowOpen (l ++ [.up x]) = Crypto.Spec.belowOpen l := by rw [belowOpen_snoc]; rfl
  have e4 : Crypto.Spec.hold (l ++ [.up x]) = Crypto.Spec.hold l := by
    rw [HoldProof.hold_snoc]; rcases hx with rfl | rfl <;> rfl
  have k1 : k.startRx.kind = k.kind := by unfold Socket.startRx; (repeat' split) <;> rfl
  have k2 : k.startRx.isOpen = k.isOpen := by unfold Socket.startRx; (repeat' split) <;> rfl
  have k3 : k.startRx.txActive = k.txActive := by unfold Socket.startRx; (repeat' split) <;> rfl
  exact {
    out := by simp [h.out, Crypto.Spec.givenData]
    inp := by simp [h.inp, Spec.request]
    noclose := by rcases hx with rfl | rfl <;> simp [h.noclose]
    single := by rw [e3]; intro hm; exact h.single (by simpa using hm)
    idle := fun _ => e2
    rd := fun _ => ⟨e2, e1⟩
    sock := LowerProof.sock_startRx h.sock
    isOpen := by rw [k1, k2]; exact h.isOpen
    reading := by
      rw [k1]
      intro hk _ _
      have := h.isOpen hk
      left
      unfold Socket.startRx
      rw [hk]
      dsimp only
      split
      · rename_i h'; simpa [this] using h'
      · rfl
    writing := by rw [e4, k1, k3]; exact h.writing
    held := by
      rw [e4, k3]
      exact fun ht => (h.held ht).imp (by simp +contextual) id }

/-- The proxy is told that there is data while a write is in progress. -/
theorem K.busy {l : List Obs} {k : Socket} {i o : List Bytes} (h : K l k i o) (ht : k.txActive = true) :
    K (l ++ [.up .rxReady]) k i o where
  out := by simp [h.out, Crypto.Spec.givenData]
  inp := by simp [h.inp, Spec.request]
  noclose := by simp [h.noclose]
  single := by rw [belowOpen_snoc]; intro hm; exact h.single (by simpa using hm)
  idle := by rw [inProgress_snoc, appOpen_snoc]; exact h.idle
  rd := by rw [inProgress_snoc, appOpen_snoc]; exact h.rd
  sock := h.sock
  isOpen := h.isOpen
  reading := by rw [inProgress_snoc, appOpen_snoc, belowOpen_snoc]; exact h.reading
  writing := fun _ _ => ht
  held := by
    intro _
    rcases h.held ht with h | ⟨d, h1, h2⟩
    · exact .inl (by simp [h])
    · exact .inr ⟨d, h1, by rw [HoldProof.hold_snoc, h2]; rfl⟩

/-- The proxy asks the crypto layer to transmit a chunk, which accepts. -/
theorem K.chunk {l : List Obs} {k : Socket} {i o : List Bytes} (h : K l k i o) (hr : 0 < k.reads) (d : Bytes)
    (hd : chunkOk k.kind d) : K (l ++ [.startTx d true]) (k.rxDone false).1 (i ++ [d]) o := by
  have hra : k.rxActive = true := by
    by_contra hc
    have := h.sock.1
    simp only [Bool.not_eq_true] at hc
    rw [hc] at this
    simp at this; omega
  obtain ⟨a1, a2⟩ := h.rd hra
  have k1 : (k.rxDone false).1.kind = k.kind := by unfold Socket.rxDone; (repeat' split) <;> first | rfl | contradiction
  have k2 : (k.rxDone false).1.isOpen = k.isOpen := by unfold Socket.rxDone; (repeat' split) <;> first | rfl | contradiction
  have k3 : (k.rxDone false).1.txActive = k.txActive := by unfold Socket.rxDone; (repeat' split) <;> first | rfl | contradiction
  have k4 := LowerProof.rxDone_inactive k false
  exact {
    out := by simp [h.out, Crypto.Spec.givenData]
    inp := by simp [h.inp, Spec.request]
    noclose := by simp [h.noclose]
    single := by rw [belowOpen_snoc]; intro hm; exact h.single (by simpa using hm)
    idle := by rw [inProgress_snoc, appOpen_snoc]; exact fun _ => a1
    rd := by rw [k4]; intro h; cases h
    sock := LowerProof.sock_rxDone h.sock hr false
    isOpen := by rw [k1, k2]; exact h.isOpen
    reading := by
      rw [k1]
      intro hk _ _
      right
      rw [inProgress_snoc]
      simpa [Crypto.Spec.requestStep] using hd hk
    writing := by rw [HoldProof.hold_snoc, k1, k3]; exact h.writing
    held := by
      rw [HoldProof.hold_snoc, k3]
      exact fun ht => (h.held ht).imp (by simp +contextual) id }

/-- The proxy gets data from the crypto layer and starts to write it to the socket. -/
theorem K.data {l : List Obs} {k : Socket} {i o : List Bytes} (h : K l k i o) (ht : k.txActive = false) (d : Bytes)
    (hd : d ≠ []) : K (l ++ [.startRx d]) k.startTx.1 i (if k.startTx.2 then o ++ [d] else o) := by
  have k0 : k.startTx = ({ k with txActive := true, writes := k.writes + 1 }, true) := by
    unfold Socket.startTx
    split
    · rename_i hk; simp [h.isOpen hk, ht]
    · simp [ht]
  have hs := LowerProof.sock_startTx h.sock
  rw [k0] at hs ⊢
  rw [if_pos rfl]
  exact {
    out := by simp [h.out, Crypto.Spec.givenData, hd]
    inp := by simp [h.inp, Spec.request]
    noclose := by simp [h.noclose]
    single := by rw [belowOpen_snoc]; intro hm; exact h.single (by simpa using hm)
    idle := by rw [inProgress_snoc, appOpen_snoc]; exact h.idle
    rd := by rw [inProgress_snoc, appOpen_snoc]; exact h.rd
    sock := hs
    isOpen := h.isOpen
    reading := by rw [inProgress_snoc, appOpen_snoc, belowOpen_snoc]; exact h.reading
    writing := fun _ _ => rfl
    held := fun _ => .inr ⟨d, by simp, by rw [HoldProof.hold_snoc]; simp [Crypto.Spec.holdStep, hd]⟩ }

/-- `r` ends in a state that satisfies `Q`, whatever happens in between. -/
def Ends {α : Type} (Q : Layer → Prop) : Run α → Prop
  | .done _ s => Q s
  | .up _ _ k => ∀ s', Ends Q (k s')
  | .ask k => ∀ f, Ends Q (k f)
  | .recv _ k => ∀ m, Ends Q (k m)
  | .loop _ k => ∀ s', Ends Q (k s')
  | .fault => True

theorem ends_bind {α β : Type} {Q : Layer → Prop} {r : Run α} {f : α → Layer → Run β} (hf : ∀ a s, Ends Q (f a s)) :
    Ends Q (r.bind f) := by
  induction r with
  | done a s => exact hf a s
  | up cb s k ih => exact ih
  | ask k ih => exact ih
  | recv s k ih => exact ih
  | loop s k ih => exact ih
  | fault => trivial

/-- Nothing was read. -/
def Empty (s : Layer) : Prop := result s = []

/-- The functions that wait: functions of the crypto layer do the layer's own activity only, and those that
`try_read_from_crypto` waits for will return nothing. -/
def FramesOk : List Frame → Prop
  | [] => True
  | .layer k :: fs => (∀ s, (k s).seg Own s) ∧ (∀ fs', fs = .read :: fs' → ∀ s, Ends Empty (k s)) ∧ FramesOk fs
  | .read :: fs => (fs = [] ∨ ∃ k fs', fs = .layer k :: fs') ∧ FramesOk fs

/-- The functions of the crypto layer that wait. -/
def stackOf : List Frame → List (Layer → Run Unit)
  | [] => []
  | .layer k :: fs => k :: stackOf fs
  | .read :: fs => stackOf fs

/-- The crypto layer runs: since control has come to it in the state `s0` it does its own activity, or
`start_rx_from_upper` returns data at once. -/
def CodeOk (r : Run Unit) (fs : List Frame) (k : Socket) (s0 : Layer) : Prop :=
  (r.seg Own s0 ∧ ∀ fs', fs = .read :: fs' → Ends Empty r) ∨
  ∃ s d fs', r = .done () s ∧ s.log = s0.log ++ [.startRx d] ∧ d ≠ [] ∧ fs = .read :: fs' ∧ k.txActive = false ∧
    s0.log.getLast? = some .rxCall

/-- The invariant. -/
def Ok (c : Cfg) (E : Env) (x : State) : Prop :=
  match x.ctl with
  | .idle s => x.frames = [] ∧ Crypto.Reachable c (env c E) ⟨.env s, []⟩ ∧ K s.log x.sock x.rawIn x.rawOut
  | .leaving s => Crypto.Reachable c (env c E) ⟨.env s, stackOf x.frames⟩ ∧ FramesOk x.frames ∧
      (∃ k fs, x.frames = .layer k :: fs) ∧ K s.log x.sock x.rawIn x.rawOut
  | .code r => Crypto.Reachable c (env c E) ⟨.code r, stackOf x.frames⟩ ∧ FramesOk x.frames ∧
      ∃ s0, K s0.log x.sock x.rawIn x.rawOut ∧ CodeOk r x.frames x.sock s0
  | .ended s => Observed c (env c E) s ∧ x.rawOut = s.log.filterMap Crypto.Spec.givenData ∧
      s.log.filterMap Spec.request = x.rawIn.map (·, true)

theorem startRx_nothing {s : Layer} (h : s.rxFlag = true ∨ s.payloadLen = 0) : ∃ s2 : Layer, s2.log = s.log ++ [.rxCall] ∧
    startRx s = .loop s2 (fun s' => .done () { s' with log := s'.log ++ [.startRx []] }) := by
  by_cases hf : s.rxFlag = true
  · refine ⟨{ s with log := s.log ++ [.rxCall], payloadLen := 0, rxFlag := false }, rfl, ?_⟩
    simp [startRx, note, modify, Crypto.get, tryRead, Bind.bind, Run.bind, hf]
  · have hp := h.resolve_left hf
    refine ⟨{ s with log := s.log ++ [.rxCall] }, rfl, ?_⟩
    simp [startRx, note, modify, Crypto.get, tryRead, Bind.bind, Run.bind, hf, hp]

theorem startRx_data {s : Layer} (h : s.rxFlag = false) (hp : s.payloadLen ≠ 0) : startRx s =
    .done () { s with log := s.log ++ [.rxCall] ++ [.startRx s.payload], rxFlag := true } := by
  simp [startRx, note, modify, Crypto.get, tryRead, Bind.bind, Run.bind, h, hp, Layer.payload]

/-- `start_rx_from_upper`. -/
theorem startRx_code {s : Layer} {k : Socket} {fs : List Frame} {P : List Obs → Prop} (h : P (s.log ++ [.rxCall]))
    (ht : k.txActive = false) : ∃ s0, P s0.log ∧ CodeOk (startRx s) (.read :: fs) k s0 := by
  refine ⟨{ s with log := s.log ++ [.rxCall] }, h, ?_⟩
  by_cases hn : s.rxFlag = true ∨ s.payloadLen = 0
  · obtain ⟨s2, h1, h2⟩ := startRx_nothing hn
    rw [h2]
    left
    refine ⟨⟨.of_eq h1, fun s' => ⟨[.startRx []], rfl, ?_⟩⟩, fun _ _ s' => ?_⟩
    · intro o ho
      cases List.mem_singleton.1 ho
      exact rfl
    · simp [Ends, Empty, result]
  · push Not at hn
    rw [startRx_data (by simpa using hn.1) hn.2]
    by_cases hp : s.payload = []
    · left
      refine ⟨⟨[.startRx s.payload], rfl, ?_⟩, fun _ _ => ?_⟩
      · intro o ho
        cases List.mem_singleton.1 ho
        exact hp
      · simp [Ends, Empty, result, hp]
    · right
      exact ⟨_, s.payload, fs, rfl, rfl, hp, rfl, ht, by simp⟩

theorem ready {s : Layer} {c : Cfg} {d : Bytes} : startTx c d s =
    if isTxReady s then checkTransmit c { s with log := s.log ++ [.startTx d true], tx := s.tx.initialize d }
    else .done () { s with log := s.log ++ [.startTx d false] } := by
  cases h : isTxReady s <;> simp [startTx, note, modify, Crypto.get, Bind.bind, Run.bind, Pure.pure, h]

theorem observed_env {c : Cfg} {E : Env} {s : Layer} {st : List (Layer → Run Unit)} (h : Crypto.Reachable c E ⟨.env s, st⟩) :
    Observed c E s := .inl ⟨st, h⟩

/-- When a notification comes the proxy is closed or open. -/
theorem admissible {c : Cfg} {E : Env} {s : Layer} (h : Observed c E s) {l : List Obs} {cb : UpCall}
    (hl : s.log = l ++ [.up cb]) : (cb = .opened → Crypto.Spec.appOpen l = false) ∧ (cb ≠ .opened → Crypto.Spec.appOpen l = true) := by
  have h1 := C41_crypto_layer c E s h
  rw [hl, List.filterMap_append] at h1
  rw [RequestProof.appOpen_eq]
  cases cb <;> simp only [List.filterMap_cons, DisciplineProof.app, List.filterMap_nil] at h1 <;>
    have := h1 _ _ [] rfl <;> simpa [SSP21.Spec.Admissible] using this

/-- The layer below is open if the proxy is. -/
theorem below {c : Cfg} {E : Env} (hE : E.SilentWhenClosed) {s : Layer} (h : Observed c E s)
    (ha : Crypto.Spec.appOpen s.log = true) : Crypto.Spec.belowOpen s.log = true := by
  rw [RequestProof.appOpen_eq] at ha
  rw [RequestProof.belowOpen_eq]
  exact C41_open_only_if_lower_open c E hE s h ha

theorem lost_of {l : List Obs} (h1 : .up .closed ∉ l) (h2 : .lowerClose ∉ l) : Crypto.Spec.lost l = false := by
  induction l using List.reverseRecOn with
  | nil => rfl
  | append_singleton l o ih =>
    simp only [List.mem_append, List.mem_singleton, not_or] at h1 h2
    rw [lost_snoc, ih h1.1 h2.1]
    cases o with
    | up cb => cases cb <;> first | rfl | exact absurd rfl h1.2
    | lowerClose => exact absurd rfl h2.2
    | _ => rfl

theorem eventSeg {c : Cfg} {e : Event} (h : ∀ ready, e ≠ .lowerOpen ready) : (e.run c).Seg Own := by
  cases e with
  | lowerOpen ready => exact absurd rfl (h ready)
  | lowerClose ready =>
    exact Seg.bind (Seg.note trivial) fun _ => Seg.bind (Seg.modify fun _ => rfl) fun _ => Seg.onLowerClose c
  | lowerTxReady =>
    exact Seg.bind (Seg.note trivial) fun _ => Seg.bind (Seg.modify fun _ => rfl) fun _ => Seg.onLowerTxReady c
  | lowerRxReady => exact Seg.onLowerRxReady
  | expiry e => exact Seg.onExpiry c e

theorem K.new (kind : Transport) (ready : Bool) : K [.lowerReady ready, .lowerOpen] (Socket.new kind) [] [] where
  out := rfl
  inp := rfl
  noclose := by simp
  single := by simp
  idle := fun h => by cases h
  rd := fun h => by cases h
  sock := LowerProof.sock_new kind
  isOpen := fun _ => rfl
  reading := fun _ h => by cases h
  writing := fun _ h => absurd rfl h
  held := fun h => by cases h

theorem start_ok (c : Cfg) (E : Env) (kind : Transport) (ready : Bool) (h : InitiatorHandshake)
    (hc : h.Configured c.backend c.caps) (he : E.config h) : Ok c E (start c h kind ready) := by
  refine ⟨.step (.init h hc he) (.event _ _ trivial), trivial, ?_⟩
  let s1 : Layer := { Layer.new c h with isOpen := true, lowerReady := ready, log := [.lowerReady ready, .lowerOpen] }
  refine ⟨s1, K.new kind ready, .inl ⟨?_, fun _ h => by cases h⟩⟩
  show ((Event.lowerOpen ready).run c (Layer.new c h)).seg Own s1
  cases hr : c.role with
  | initiator params limits =>
    have : (Event.lowerOpen ready).run c (Layer.new c h) = onHandshakeRequired c limits s1 := by
      simp [Event.run, onLowerOpen, Bind.bind, Run.bind, note, modify, Crypto.get, Layer.new, hr, s1]
    rw [this]
    exact Seg.onHandshakeRequired c limits s1
  | responder hs =>
    have : (Event.lowerOpen ready).run c (Layer.new c h) = .done () s1 := by
      simp [Event.run, onLowerOpen, Bind.bind, Run.bind, Pure.pure, note, modify, Crypto.get, Layer.new, hr, s1]
    rw [this]
    exact Ext.refl s1

/-- The crypto layer is ready when a chunk arrives. -/
theorem chunk_ready {c : Cfg} {E : Env} (hE : E.SilentWhenClosed) {s : Layer} {k : Socket} {i o : List Bytes}
    (h1 : Crypto.Reachable c (env c E) ⟨.env s, []⟩) (h2 : K s.log k i o) (hr : 0 < k.reads) : isTxReady s = true := by
  have hra : k.rxActive = true := by
    by_contra hc
    have := h2.sock.1
    simp only [Bool.not_eq_true] at hc
    rw [hc] at this
    simp at this; omega
  obtain ⟨a1, a2⟩ := h2.rd hra
  have a3 := below (env_silent hE) (observed_env h1) a1
  have hi := (DisciplineProof.atomic c (env c E)).observed (observed_env h1)
  obtain ⟨⟨_, hq⟩, _⟩ := (RequestProof.proof c (env c E)).quiet h1
  rw [RequestProof.appOpen_eq, hi.appOpen] at a1
  rw [RequestProof.belowOpen_eq, hi.isOpen] at a3
  have hidle : s.tx.isIdle = true := by
    by_contra hc
    have := hq.core.prog a3 (by simpa using hc)
    rw [a2] at this; cases this
  simp [isTxReady, a1, a3, hidle]

/-- The layer below has not closed when the proxy is told that there is data. -/
theorem not_closed {c : Cfg} {E : Env} (hE : E.SilentWhenClosed) {s : Layer} {l : List Obs} {k : Socket} {i o : List Bytes}
    {st : List (Layer → Run Unit)} (h7 : Crypto.Reachable c (env c E) ⟨.env s, st⟩) (hk : K l k i o)
    (h4 : s.log = l ++ [.up .rxReady]) : .lowerClose ∉ s.log := by
  intro hm
  have ha := (admissible (observed_env h7) h4).2 (by simp)
  have hb := below (env_silent hE) (observed_env h7) (by rw [h4, appOpen_snoc]; exact ha)
  rw [h4, belowOpen_snoc] at hb
  have := hk.single (by rw [h4] at hm; simpa using hm)
  simp only [Crypto.Spec.belowStep] at hb
  rw [this] at hb; cases hb

/-- Every step keeps the invariant. -/
theorem step_ok {c : Cfg} {E : Env} (hE : E.SilentWhenClosed) {x y : State} (h : Step c E.recv x y) (hx : Ok c E x) :
    Ok c E y := by
  have hE' := env_silent (c := c) hE
  cases h with
  | event e s sock i o he =>
    obtain ⟨-, h1, h2⟩ := hx
    exact ⟨.step h1 (.event e s he.1), trivial, s, h2, .inl ⟨eventSeg he.2 s, fun _ h => by cases h⟩⟩
  | received d s sock i o hr hd =>
    obtain ⟨-, h1, h2⟩ := hx
    refine ⟨.step h1 (.api (.startTx d) s), trivial, ?_⟩
    have hready := chunk_ready hE h1 h2 hr
    refine ⟨{ s with log := s.log ++ [.startTx d true], tx := s.tx.initialize d }, h2.chunk hr d hd, .inl ⟨?_, fun _ h => by cases h⟩⟩
    show (startTx c d s).seg Own _
    rw [ready, if_pos hready]
    exact Seg.checkTransmit c _
  | rxFailed s sock i o hr =>
    obtain ⟨-, h1, h2⟩ := hx
    by_cases he : (sock.rxDone true).2 = .error
    · rw [if_pos he]
      exact ⟨observed_env h1, h2.out, h2.inp⟩
    · rw [if_neg he]
      refine ⟨rfl, h1, ?_⟩
      have hk : sock.kind ≠ .tcp := by
        intro hk
        refine he ?_
        unfold Socket.rxDone
        rw [hk]
        have ho : sock.isOpen = true := h2.isOpen hk
        simp [ho]
      have k1 : (sock.rxDone true).1.kind = sock.kind := by
        unfold Socket.rxDone Socket.tryClose; (repeat' split) <;> rfl
      have k3 : (sock.rxDone true).1.txActive = sock.txActive := by
        unfold Socket.rxDone Socket.tryClose; (repeat' split) <;> rfl
      have k4 := LowerProof.rxDone_inactive sock true
      exact { h2 with
        rd := by simp only [k4]; intro h; cases h
        sock := LowerProof.sock_rxDone h2.sock hr true
        isOpen := by simp only [k1]; exact fun h => absurd h hk
        reading := by simp only [k1]; exact fun h => absurd h hk
        writing := by simp only [k1]; exact fun h => absurd h hk
        held := by simp only [k3]; exact h2.held }
  | written s sock i o hw =>
    obtain ⟨-, h1, h2⟩ := hx
    refine ⟨.step h1 (.api .startRx s), ⟨.inl rfl, trivial⟩, ?_⟩
    have k1 : (sock.txDone false).1.kind = sock.kind := by
      unfold Socket.txDone; (repeat' split) <;> first | rfl | contradiction
    have k2 : (sock.txDone false).1.isOpen = sock.isOpen := by
      unfold Socket.txDone; (repeat' split) <;> first | rfl | contradiction
    have k3 : (sock.txDone false).1.rxActive = sock.rxActive := by
      unfold Socket.txDone; (repeat' split) <;> first | rfl | contradiction
    have k4 : (sock.txDone false).1.txActive = false := by
      unfold Socket.txDone; (repeat' split) <;> first | rfl | contradiction
    have := h2.call (k' := (sock.txDone false).1) k4 k3 k1 (fun _ => k2) (LowerProof.sock_txDone h2.sock hw false) [] (.inl rfl)
    rw [List.append_nil] at this
    exact startRx_code (P := fun l => K l (sock.txDone false).1 i o) this k4
  | txFailed s sock i o hw =>
    obtain ⟨-, h1, h2⟩ := hx
    by_cases he : (sock.txDone true).2 = .error
    · rw [if_pos he]
      exact ⟨observed_env h1, h2.out, h2.inp⟩
    · rw [if_neg he]
      refine ⟨rfl, h1, ?_⟩
      have hk : sock.kind ≠ .tcp := by
        intro hk
        refine he ?_
        unfold Socket.txDone
        rw [hk]
        have ho : sock.isOpen = true := h2.isOpen hk
        simp [ho]
      have k1 : (sock.txDone true).1.kind = sock.kind := by
        unfold Socket.txDone Socket.tryClose; (repeat' split) <;> rfl
      have k3 : (sock.txDone true).1.rxActive = sock.rxActive := by
        unfold Socket.txDone Socket.tryClose; (repeat' split) <;> rfl
      have k4 : (sock.txDone true).1.txActive = false := by
        unfold Socket.txDone Socket.tryClose; (repeat' split) <;> rfl
      exact { h2 with
        rd := by simp only [k3]; exact h2.rd
        sock := LowerProof.sock_txDone h2.sock hw true
        isOpen := by simp only [k1]; exact fun h => absurd h hk
        reading := by simp only [k1]; exact fun h => absurd h hk
        writing := by simp only [k1]; exact fun h => absurd h hk
        held := by simp only [k4]; intro h; cases h }
  | ask f k fs sock i o hf =>
    obtain ⟨h1, h2, s0, h3, h4⟩ := hx
    refine ⟨.step h1 (.ask f k _ hf), h2, s0, h3, .inl ?_⟩
    rcases h4 with ⟨h4, h5⟩ | ⟨_, _, _, h4, _⟩
    · exact ⟨h4 f, fun fs' hf' => h5 fs' hf' f⟩
    · cases h4
  | recv m s k fs sock i o hm =>
    obtain ⟨h1, h2, s0, h3, h4⟩ := hx
    rcases h4 with ⟨h4, h5⟩ | ⟨_, _, _, h4, _⟩
    · exact ⟨.step h1 (.recv m s k _ hm), h2, s, h3.ext h4.1, .inl ⟨h4.2 m, fun fs' hf' => h5 fs' hf' m⟩⟩
    · cases h4
  | loop s k fs sock i o =>
    obtain ⟨h1, h2, s0, h3, h4⟩ := hx
    rcases h4 with ⟨h4, h5⟩ | ⟨_, _, _, h4, _⟩
    · refine ⟨.step h1 (.loop s k _), h2, s, h3.ext h4.1, .inl ⟨?_, fun fs' hf' => ?_⟩⟩
      · refine Run.seg_bind (Seg.tryReadOne c s) fun again s' => ?_
        split
        · exact ⟨Ext.refl s', h4.2⟩
        · exact h4.2 s'
      · refine ends_bind fun again s' => ?_
        split
        · exact h5 fs' hf'
        · exact h5 fs' hf' s'
    · cases h4
  | opened s k fs sock i o =>
    obtain ⟨h1, h2, s0, h3, h4⟩ := hx
    rcases h4 with ⟨⟨⟨extra, h4, h4'⟩, h6⟩, h5⟩ | ⟨_, _, _, h4, _⟩
    · have h7 := Crypto.Reachable.step h1 (.up _ s k _)
      refine ⟨h7, ⟨h6, h5, h2⟩, ⟨k, fs, rfl⟩, ?_⟩
      simp only [h4]
      exact (h3.owns h4').rx .opened (.inl rfl) (admissible (observed_env h7) h4).1 (fun h => by cases h)
    · cases h4
  | txReady s k fs sock i o =>
    obtain ⟨h1, h2, s0, h3, h4⟩ := hx
    rcases h4 with ⟨⟨⟨extra, h4, h4'⟩, h6⟩, h5⟩ | ⟨_, _, _, h4, _⟩
    · have h7 := Crypto.Reachable.step h1 (.up _ s k _)
      refine ⟨h7, ⟨h6, h5, h2⟩, ⟨k, fs, rfl⟩, ?_⟩
      simp only [h4]
      exact (h3.owns h4').rx .txReady (.inr rfl) (fun h => by cases h) (fun _ => C47_ready_once (observed_env h7) h4)
    · cases h4
  | rxReadyBusy s k fs sock i o ht =>
    obtain ⟨h1, h2, s0, h3, h4⟩ := hx
    rcases h4 with ⟨⟨⟨extra, h4, h4'⟩, h6⟩, h5⟩ | ⟨_, _, _, h4, _⟩
    · have h7 := Crypto.Reachable.step h1 (.up _ s k _)
      refine ⟨h7, ⟨h6, h5, h2⟩, ⟨k, fs, rfl⟩, ?_⟩
      simp only [h4]
      exact (h3.owns h4').busy ht
    · cases h4
  | rxReady s k fs sock i o ht =>
    obtain ⟨h1, h2, s0, h3, h4⟩ := hx
    rcases h4 with ⟨⟨⟨extra, h4, h4'⟩, h6⟩, h5⟩ | ⟨_, _, _, h4, _⟩
    · have h7 := Crypto.Reachable.step h1 (.up _ s k _)
      have hk := h3.owns h4'
      have h8 := not_closed hE h7 hk h4
      refine ⟨.step h7 (.nestedApi .startRx s k _ ⟨rfl, by rw [h4]; simp, .inr h8⟩), ⟨.inr ⟨k, fs, rfl⟩, h6, h5, h2⟩, ?_⟩
      have := hk.call (k' := sock) ht rfl rfl (fun _ => rfl) hk.sock [.up .rxReady] (.inr rfl)
      rw [← h4] at this
      exact startRx_code (P := fun l => K l sock i o) this ht
    · cases h4
  | closed s k fs sock i o =>
    obtain ⟨h1, h2, s0, h3, h4⟩ := hx
    rcases h4 with ⟨⟨⟨extra, h4, h4'⟩, h6⟩, h5⟩ | ⟨_, _, _, h4, _⟩
    · have h7 := Crypto.Reachable.step h1 (.up _ s k _)
      have hk := h3.owns h4'
      refine ⟨observed_env h7, ?_, ?_⟩
      · simp only [h4, List.filterMap_append]
        rw [← List.filterMap_append, ← hk.out]; simp [Crypto.Spec.givenData]
      · simp only [h4, List.filterMap_append]
        rw [← List.filterMap_append, hk.inp]; simp [Spec.request]
    · cases h4
  | ret s k fs sock i o =>
    obtain ⟨h1, ⟨h2, h3, h4⟩, -, h5⟩ := hx
    exact ⟨.step h1 (.ret s k _), h4, s, h5, .inl ⟨h2 s, fun fs' hf => h3 fs' hf s⟩⟩
  | doneRead s fs sock i o =>
    obtain ⟨h1, ⟨h2, h2'⟩, s0, h3, h4⟩ := hx
    have h7 := Crypto.Reachable.step h1 (.done s _)
    rcases h4 with ⟨h4, h5⟩ | ⟨s', d, fs', h4, h5, h6, h8, h9, h10⟩
    · have he : result s = [] := h5 fs rfl
      unfold leave afterRead
      rw [if_pos he]
      have hk := h3.ext h4
      rcases h2 with rfl | ⟨k, fs', rfl⟩
      · exact ⟨rfl, h7, hk⟩
      · exact ⟨h7, h2', ⟨k, fs', rfl⟩, hk⟩
    · cases h4
      have he : result s = d := by unfold result; rw [h5]; simp
      have hk := h3.data h9 d h6
      rw [← h5] at hk
      unfold leave afterRead
      rw [he, if_neg h6]
      rcases h2 with rfl | ⟨k, fs', rfl⟩
      · exact ⟨rfl, h7, hk⟩
      · exact ⟨h7, h2', ⟨k, fs', rfl⟩, hk⟩
  | done s sock i o =>
    obtain ⟨h1, h2, s0, h3, h4⟩ := hx
    rcases h4 with ⟨h4, h5⟩ | ⟨s', d, fs', h4, h5, h6, h8, h9, h10⟩
    · exact ⟨rfl, .step h1 (.done s _), h3.ext h4⟩
    · cases h8

theorem reachable_ok {c : Cfg} {kind : Transport} {E : Env} (hE : E.SilentWhenClosed) {x : State}
    (h : Reachable c kind E x) : Ok c E x := by
  induction h with
  | start hs ready hc he => exact start_ok c E kind ready hs hc he
  | step _ h ih => exact step_ok hE h ih

theorem kind_eq {c : Cfg} {kind : Transport} {E : Env} {x : State} (h : Reachable c kind E x) : x.sock.kind = kind := by
  induction h with
  | start hs ready hc he => rfl
  | step _ h ih =>
    have k1 : ∀ (k : Socket) b, (k.rxDone b).1.kind = k.kind := fun k b => by
      unfold Socket.rxDone Socket.tryClose; (repeat' split) <;> rfl
    have k2 : ∀ (k : Socket) b, (k.txDone b).1.kind = k.kind := fun k b => by
      unfold Socket.txDone Socket.tryClose; (repeat' split) <;> rfl
    have k3 : ∀ k : Socket, k.startRx.kind = k.kind := fun k => by
      unfold Socket.startRx; (repeat' split) <;> rfl
    have k4 : ∀ k : Socket, k.startTx.1.kind = k.kind := fun k => by
      unfold Socket.startTx; (repeat' split) <;> rfl
    have k5 : ∀ k : Socket, k.tryClose.kind = k.kind := fun k => by
      unfold Socket.tryClose; split <;> rfl
    cases h <;> first
      | exact ih
      | exact (k1 ..).trans ih
      | exact (k2 ..).trans ih
      | exact (k3 ..).trans ih
      | exact (k5 ..).trans ih
      | skip
    unfold leave afterRead
    dsimp only
    split
    · exact ih
    · exact (k4 _).trans ih

/-- The state of the crypto layer while it is not active. -/
theorem outside_observed {c : Cfg} {kind : Transport} {E : Env} (hE : E.SilentWhenClosed) {x : State} (h : Reachable c kind E x)
    {s : Layer} (hs : Spec.Outside x s) : Observed c (env c E) s ∧ x.rawOut = s.log.filterMap Crypto.Spec.givenData ∧
      s.log.filterMap Spec.request = x.rawIn.map (·, true) := by
  have hk := reachable_ok hE h
  unfold Ok at hk
  rcases hs with hs | hs | hs <;> rw [hs] at hk
  · exact ⟨observed_env hk.2.1, hk.2.2.out, hk.2.2.inp⟩
  · exact ⟨observed_env hk.1, hk.2.2.2.out, hk.2.2.2.inp⟩
  · exact hk

/-- The same until the session is shut down. -/
theorem running {c : Cfg} {kind : Transport} {E : Env} (hE : E.SilentWhenClosed) {x : State} (h : Reachable c kind E x)
    {s : Layer} (hs : x.ctl = .idle s ∨ x.ctl = .leaving s) : Observed c (env c E) s ∧ K s.log x.sock x.rawIn x.rawOut := by
  have hk := reachable_ok hE h
  unfold Ok at hk
  rcases hs with hs | hs <;> rw [hs] at hk
  · exact ⟨observed_env hk.2.1, hk.2.2⟩
  · exact ⟨observed_env hk.1, hk.2.2.2⟩

theorem taken_of {l : List Obs} {i : List Bytes} (h : l.filterMap Spec.request = i.map (·, true)) :
    l.filterMap Crypto.Spec.takenData = i := by
  have : l.filterMap Crypto.Spec.takenData = (l.filterMap Spec.request).filterMap fun x => if x.2 then some x.1 else none := by
    rw [List.filterMap_filterMap]
    congr 1
    funext o
    cases o with
    | startTx d b => cases b <;> rfl
    | _ => rfl
  rw [this, h, List.filterMap_map]
  exact List.filterMap_some

/-! ### The stalls with UDP are permanent -/

/-- Something that is true of log, socket and chunks whenever control changes; it holds since control has come to the
crypto layer. -/
def Stays (X : List Obs → Socket → List Bytes → List Bytes → Prop) (x : State) : Prop :=
  match x.ctl with
  | .idle s => X s.log x.sock x.rawIn x.rawOut
  | .leaving s => X s.log x.sock x.rawIn x.rawOut
  | .code r => ∃ s0, X s0.log x.sock x.rawIn x.rawOut ∧ CodeOk r x.frames x.sock s0
  | .ended _ => True

/-- What has to be shown for that. -/
structure Keeps (c : Cfg) (E : Env) (X : List Obs → Socket → List Bytes → List Bytes → Prop) : Prop where
  own : ∀ {l k i o x}, X l k i o → Own x → X (l ++ [x]) k i o
  received : ∀ {l k i o d}, X l k i o → 0 < k.reads → LowerProof.SockOk k → X (l ++ [.startTx d true]) (k.rxDone false).1 (i ++ [d]) o
  rxFailed : ∀ {l k i o}, X l k i o → 0 < k.reads → LowerProof.SockOk k → X l (k.rxDone true).1 i o
  written : ∀ {l k i o}, X l k i o → 0 < k.writes → LowerProof.SockOk k → X (l ++ [.rxCall]) (k.txDone false).1 i o
  txFailed : ∀ {l k i o}, X l k i o → 0 < k.writes → LowerProof.SockOk k → X l (k.txDone true).1 i o
  opened : ∀ {l k i o s}, X l k i o → Observed c (env c E) s → s.log = l ++ [.up .opened] → X s.log k.startRx i o
  txReady : ∀ {l k i o s}, X l k i o → Observed c (env c E) s → s.log = l ++ [.up .txReady] → X s.log k.startRx i o
  rxReadyBusy : ∀ {l k i o}, X l k i o → k.txActive = true → X (l ++ [.up .rxReady]) k i o
  rxReady : ∀ {l k i o s}, X l k i o → k.txActive = false → Observed c (env c E) s → s.log = l ++ [.up .rxReady] →
    .lowerClose ∉ s.log → X (s.log ++ [.rxCall]) k i o
  data : ∀ {l k i o d}, X l k i o → l.getLast? = some .rxCall → k.txActive = false → d ≠ [] →
    X (l ++ [.startRx d]) k.startTx.1 i (if k.startTx.2 then o ++ [d] else o)

theorem Keeps.owns {c : Cfg} {E : Env} {X : List Obs → Socket → List Bytes → List Bytes → Prop} (p : Keeps c E X)
    {l : List Obs} {k : Socket} {i o : List Bytes} (h : X l k i o) {extra : List Obs} (hx : ∀ x ∈ extra, Own x) :
    X (l ++ extra) k i o := by
  induction extra generalizing l with
  | nil => simpa using h
  | cons x extra ih =>
    rw [show l ++ x :: extra = (l ++ [x]) ++ extra by simp]
    exact ih (p.own h (hx x (by simp))) fun y hy => hx y (by simp [hy])

theorem Keeps.ext {c : Cfg} {E : Env} {X : List Obs → Socket → List Bytes → List Bytes → Prop} (p : Keeps c E X)
    {s t : Layer} {k : Socket} {i o : List Bytes} (h : X s.log k i o) (hx : Ext Own s t) : X t.log k i o := by
  obtain ⟨extra, h1, h2⟩ := hx
  rw [h1]
  exact p.owns h h2

theorem stays_step {c : Cfg} {E : Env} (hE : E.SilentWhenClosed) {X : List Obs → Socket → List Bytes → List Bytes → Prop}
    (p : Keeps c E X) {x y : State} (h : Step c E.recv x y) (hx : Ok c E x) (hs : Stays X x) : Stays X y := by
  have hE' := env_silent (c := c) hE
  cases h with
  | event e s sock i o he => exact ⟨s, hs, .inl ⟨eventSeg he.2 s, fun _ h => by cases h⟩⟩
  | received d s sock i o hr hd =>
    obtain ⟨-, h1, h2⟩ := hx
    have hready := chunk_ready hE h1 h2 hr
    refine ⟨{ s with log := s.log ++ [.startTx d true], tx := s.tx.initialize d }, p.received hs hr h2.sock, .inl ⟨?_, fun _ h => by cases h⟩⟩
    show (startTx c d s).seg Own _
    rw [ready, if_pos hready]
    exact Seg.checkTransmit c _
  | rxFailed s sock i o hr =>
    obtain ⟨-, h1, h2⟩ := hx
    by_cases he : (sock.rxDone true).2 = .error
    · rw [if_pos he]; trivial
    · rw [if_neg he]; exact p.rxFailed hs hr h2.sock
  | written s sock i o hw =>
    obtain ⟨-, h1, h2⟩ := hx
    have k4 : (sock.txDone false).1.txActive = false := by
      unfold Socket.txDone; (repeat' split) <;> first | rfl | contradiction
    exact startRx_code (P := fun l => X l (sock.txDone false).1 i o) (p.written hs hw h2.sock) k4
  | txFailed s sock i o hw =>
    obtain ⟨-, h1, h2⟩ := hx
    by_cases he : (sock.txDone true).2 = .error
    · rw [if_pos he]; trivial
    · rw [if_neg he]; exact p.txFailed hs hw h2.sock
  | ask f k fs sock i o hf =>
    obtain ⟨s0, h3, h4⟩ := hs
    refine ⟨s0, h3, .inl ?_⟩
    rcases h4 with ⟨h4, h5⟩ | ⟨_, _, _, h4, _⟩
    · exact ⟨h4 f, fun fs' hf' => h5 fs' hf' f⟩
    · cases h4
  | recv m s k fs sock i o hm =>
    obtain ⟨s0, h3, h4⟩ := hs
    rcases h4 with ⟨h4, h5⟩ | ⟨_, _, _, h4, _⟩
    · exact ⟨s, p.ext h3 h4.1, .inl ⟨h4.2 m, fun fs' hf' => h5 fs' hf' m⟩⟩
    · cases h4
  | loop s k fs sock i o =>
    obtain ⟨s0, h3, h4⟩ := hs
    rcases h4 with ⟨h4, h5⟩ | ⟨_, _, _, h4, _⟩
    · refine ⟨s, p.ext h3 h4.1, .inl ⟨?_, fun fs' hf' => ?_⟩⟩
      · refine Run.seg_bind (Seg.tryReadOne c s) fun again s' => ?_
        split
        · exact ⟨Ext.refl s', h4.2⟩
        · exact h4.2 s'
      · refine ends_bind fun again s' => ?_
        split
        · exact h5 fs' hf'
        · exact h5 fs' hf' s'
    · cases h4
  | opened s k fs sock i o =>
    obtain ⟨h1, -⟩ := hx
    obtain ⟨s0, h3, h4⟩ := hs
    rcases h4 with ⟨⟨⟨extra, h4, h4'⟩, h6⟩, h5⟩ | ⟨_, _, _, h4, _⟩
    · exact p.opened (p.owns h3 h4') (observed_env (.step h1 (.up _ s k _))) h4
    · cases h4
  | txReady s k fs sock i o =>
    obtain ⟨h1, -⟩ := hx
    obtain ⟨s0, h3, h4⟩ := hs
    rcases h4 with ⟨⟨⟨extra, h4, h4'⟩, h6⟩, h5⟩ | ⟨_, _, _, h4, _⟩
    · exact p.txReady (p.owns h3 h4') (observed_env (.step h1 (.up _ s k _))) h4
    · cases h4
  | rxReadyBusy s k fs sock i o ht =>
    obtain ⟨h1, -⟩ := hx
    obtain ⟨s0, h3, h4⟩ := hs
    rcases h4 with ⟨⟨⟨extra, h4, h4'⟩, h6⟩, h5⟩ | ⟨_, _, _, h4, _⟩
    · have := p.rxReadyBusy (p.owns h3 h4') ht
      rw [← h4] at this
      exact this
    · cases h4
  | rxReady s k fs sock i o ht =>
    obtain ⟨h1, -, s0, hk, h8⟩ := hx
    have h7 := Crypto.Reachable.step h1 (.up _ s k _)
    have h8 : .lowerClose ∉ s.log := by
      rcases h8 with ⟨⟨⟨extra, h4, h4'⟩, h6⟩, h5⟩ | ⟨_, _, _, h4, _⟩
      · exact not_closed hE h7 (hk.owns h4') h4
      · cases h4
    obtain ⟨s0, h3, h4⟩ := hs
    rcases h4 with ⟨⟨⟨extra, h4, h4'⟩, h6⟩, h5⟩ | ⟨_, _, _, h4, _⟩
    · exact startRx_code (P := fun l => X l sock i o) (p.rxReady (p.owns h3 h4') ht (observed_env h7) h4 h8) ht
    · cases h4
  | closed s k fs sock i o => trivial
  | ret s k fs sock i o =>
    obtain ⟨h1, ⟨h2, h3, h4⟩, -, h5⟩ := hx
    exact ⟨s, hs, .inl ⟨h2 s, fun fs' hf => h3 fs' hf s⟩⟩
  | doneRead s fs sock i o =>
    obtain ⟨h1, ⟨h2, h2'⟩, -⟩ := hx
    obtain ⟨s0, h3, h4⟩ := hs
    rcases h4 with ⟨h4, h5⟩ | ⟨s', d, fs', h4, h5, h6, h8, h9, h10⟩
    · have he : result s = [] := h5 fs rfl
      unfold leave afterRead
      rw [if_pos he]
      have hk := p.ext h3 h4
      rcases h2 with rfl | ⟨k, fs', rfl⟩
      · exact hk
      · exact hk
    · cases h4
      have he : result s = d := by unfold result; rw [h5]; simp
      have hk := p.data h3 h10 h9 h6
      rw [← h5] at hk
      unfold leave afterRead
      rw [he, if_neg h6]
      rcases h2 with rfl | ⟨k, fs', rfl⟩
      · exact hk
      · exact hk
  | done s sock i o =>
    obtain ⟨s0, h3, h4⟩ := hs
    rcases h4 with ⟨h4, h5⟩ | ⟨s', d, fs', h4, h5, h6, h8, h9, h10⟩
    · exact p.ext h3 h4
    · cases h8

theorem _root_.SSP21.Crypto.Bridge.Steps.reachable {c : Cfg} {kind : Transport} {E : Env} {x y : State} (h : Reachable c kind E x) (hs : Steps c E x y) :
    Reachable c kind E y := by
  induction hs with
  | refl => exact h
  | step _ h1 ih => exact .step ih h1

theorem stays {c : Cfg} {kind : Transport} {E : Env} (hE : E.SilentWhenClosed)
    {X : List Obs → Socket → List Bytes → List Bytes → Prop} (p : Keeps c E X) {x y : State} (h : Reachable c kind E x)
    (hx : Stays X x) (hs : Steps c E x y) : Stays X y := by
  induction hs with
  | refl => exact hx
  | step h1 h2 ih => exact stays_step hE p h2 (reachable_ok hE (h1.reachable h)) ih

theorem inactive {k : Socket} (h : LowerProof.SockOk k) (hr : k.reads = 0) : k.rxActive = false := by
  have := h.1
  by_contra hc
  rw [if_pos (by simpa using hc)] at this
  omega

theorem inactive' {k : Socket} (h : LowerProof.SockOk k) (hr : k.writes = 0) : k.txActive = false := by
  have := h.2
  by_contra hc
  rw [if_pos (by simpa using hc)] at this
  omega

/-- Nothing will make the proxy read its socket again. -/
def NoRead (l : List Obs) (k : Socket) (_ _ : List Bytes) : Prop :=
  Crypto.Spec.inProgress l = false ∧ Crypto.Spec.appOpen l = true ∧ k.rxActive = false

theorem no_reads {k : Socket} (h : LowerProof.SockOk k) (hr : 0 < k.reads) : k.rxActive = true := by
  have := h.1
  by_contra hc
  rw [if_neg hc] at this
  omega

theorem no_writes {k : Socket} (h : LowerProof.SockOk k) (hr : 0 < k.writes) : k.txActive = true := by
  have := h.2
  by_contra hc
  rw [if_neg hc] at this
  omega

theorem noRead_keeps (c : Cfg) (E : Env) : Keeps c E NoRead where
  own := by
    rintro l k i o x ⟨h1, h2, h3⟩ hx
    refine ⟨?_, ?_, h3⟩
    · rw [inProgress_snoc, h1]
      cases x <;> first | rfl | exact hx.elim
    · rw [appOpen_snoc, h2]
      cases x <;> first | rfl | exact hx.elim
  received := fun h hr hs => absurd (no_reads hs hr) (by rw [h.2.2]; simp)
  rxFailed := fun h hr hs => absurd (no_reads hs hr) (by rw [h.2.2]; simp)
  written := by
    rintro l k i o ⟨h1, h2, h3⟩ _ _
    refine ⟨by rw [inProgress_snoc]; exact h1, by rw [appOpen_snoc]; exact h2, ?_⟩
    refine Eq.trans (b := k.rxActive) ?_ h3
    unfold Socket.txDone; (repeat' split) <;> first | rfl | contradiction
  txFailed := by
    rintro l k i o ⟨h1, h2, h3⟩ _ _
    refine ⟨h1, h2, ?_⟩
    refine Eq.trans (b := k.rxActive) ?_ h3
    unfold Socket.txDone Socket.tryClose; (repeat' split) <;> rfl
  opened := fun h hs hl => absurd h.2.1 (by rw [(admissible hs hl).1 rfl]; simp)
  txReady := fun h hs hl => absurd (C47_ready_once hs hl) (by rw [h.1]; simp)
  rxReadyBusy := by
    rintro l k i o ⟨h1, h2, h3⟩ _
    exact ⟨by rw [inProgress_snoc]; exact h1, by rw [appOpen_snoc]; exact h2, h3⟩
  rxReady := by
    rintro l k i o s ⟨h1, h2, h3⟩ _ _ hl _
    rw [hl]
    exact ⟨by rw [inProgress_snoc, inProgress_snoc]; exact h1, by rw [appOpen_snoc, appOpen_snoc]; exact h2, h3⟩
  data := by
    rintro l k i o d ⟨h1, h2, h3⟩ _ _ _
    refine ⟨by rw [inProgress_snoc]; exact h1, by rw [appOpen_snoc]; exact h2, ?_⟩
    refine Eq.trans (b := k.rxActive) ?_ h3
    unfold Socket.startTx; (repeat' split) <;> rfl

/-- Data is announced only when nothing is held. -/
theorem not_reading {c : Cfg} {E : Env} {s : Layer} (h : Observed c (env c E) s) {l : List Obs}
    (hl : s.log = l ++ [.up .rxReady]) (hc : .lowerClose ∉ s.log) (d : Bytes) : Crypto.Spec.hold l ≠ .reading d := by
  have hi := ((DeliveryProof.atomic c (env c E) (.inl (env_readsAtOnce c E))).proof (OpenProof.atomic c _)).observed h
  have hg := ((HoldProof.atomic c (env c E)).observed h).good
  have ht := hi.2.told (by rw [hl, DeliveryProof.told_snoc]; rfl)
  obtain ⟨since, ⟨before, m, h1, h2, -⟩, h3⟩ := hi.2.data ht.1
  replace h3 := h3 (ht.2 (.inr hc))
  have hf := (hg before (.recv m) since h1).1 m rfl
  have key : ∀ x : List Obs, (∀ o ∈ x, Crypto.Spec.gives o = false) → ∀ b : Crypto.Spec.Hold, (∀ d, b ≠ .reading d) →
      ∀ d, x.foldl Crypto.Spec.holdStep b ≠ .reading d := by
    intro x
    induction x with
    | nil => exact fun _ b hb => hb
    | cons o x ih =>
      intro hx b hb
      refine ih (fun o ho => hx o (by simp [ho])) _ ?_
      have := hx o (by simp)
      intro d
      unfold Crypto.Spec.holdStep
      split
      · simp
      · simp
      · split
        · rename_i d'; exact absurd rfl (hb d')
        · simp
      · rename_i d'
        simp [Crypto.Spec.gives] at this
        rw [if_pos this]
        exact hb d
      · exact hb d
  rcases List.eq_nil_or_concat since with hs | ⟨since', o, hs⟩
  · rw [hs, hl] at h1
    have := List.append_inj_right' h1 rfl
    cases this
  · rw [List.concat_eq_append] at hs
    rw [hs, hl, ← List.cons_append, ← List.append_assoc] at h1
    have hl' := List.append_inj_left' h1 rfl
    rw [hl']
    unfold Crypto.Spec.hold
    rw [List.foldl_append]
    refine key _ ?_ _ ?_ d
    · intro o ho
      rcases List.mem_cons.1 ho with rfl | ho
      · rfl
      · exact h3 o (by rw [hs]; simp [ho])
    · intro d
      unfold Crypto.Spec.hold at hf
      rw [hf]; simp

/-- Nothing will make the proxy write to its socket again. -/
def NoWrite (l : List Obs) (k : Socket) (_ _ : List Bytes) : Prop :=
  (.lowerClose ∈ l ∨ ∃ d, Crypto.Spec.hold l = .reading d) ∧ k.txActive = false ∧ l.getLast? ≠ some .rxCall

theorem noWrite_keeps (c : Cfg) (E : Env) : Keeps c E NoWrite where
  own := by
    rintro l k i o x ⟨h1, h2, h3⟩ hx
    refine ⟨?_, h2, ?_⟩
    · rcases h1 with h1 | ⟨d, h1⟩
      · exact .inl (by simp [h1])
      · rw [HoldProof.hold_snoc, h1]
        cases x with
        | startRx d' => cases (hx : d' = []); exact .inr ⟨d, rfl⟩
        | lowerClose => exact .inl (by simp)
        | up cb => exact hx.elim
        | rxCall => exact hx.elim
        | _ => exact .inr ⟨d, rfl⟩
    · rw [List.getLast?_append]
      cases x <;> first | exact hx.elim | simp
  received := by
    rintro l k i o d ⟨h1, h2, h3⟩ _ _
    refine ⟨?_, ?_, by simp⟩
    · exact h1.imp (fun h => by simp [h]) (fun ⟨d, h⟩ => ⟨d, by rw [HoldProof.hold_snoc]; exact h⟩)
    · refine Eq.trans (b := k.txActive) ?_ h2
      unfold Socket.rxDone; (repeat' split) <;> first | rfl | contradiction
  rxFailed := by
    rintro l k i o ⟨h1, h2, h3⟩ _ _
    refine ⟨h1, ?_, h3⟩
    refine Eq.trans (b := k.txActive) ?_ h2
    unfold Socket.rxDone Socket.tryClose; (repeat' split) <;> rfl
  written := fun h hr hs => absurd (no_writes hs hr) (by rw [h.2.1]; simp)
  txFailed := fun h hr hs => absurd (no_writes hs hr) (by rw [h.2.1]; simp)
  opened := by
    rintro l k i o s ⟨h1, h2, h3⟩ _ hl
    rw [hl]
    refine ⟨?_, ?_, by simp⟩
    · exact h1.imp (fun h => by simp [h]) (fun ⟨d, h⟩ => ⟨d, by rw [HoldProof.hold_snoc]; exact h⟩)
    · refine Eq.trans (b := k.txActive) ?_ h2
      unfold Socket.startRx; (repeat' split) <;> rfl
  txReady := by
    rintro l k i o s ⟨h1, h2, h3⟩ _ hl
    rw [hl]
    refine ⟨?_, ?_, by simp⟩
    · exact h1.imp (fun h => by simp [h]) (fun ⟨d, h⟩ => ⟨d, by rw [HoldProof.hold_snoc]; exact h⟩)
    · refine Eq.trans (b := k.txActive) ?_ h2
      unfold Socket.startRx; (repeat' split) <;> rfl
  rxReadyBusy := fun h ht => absurd ht (by rw [h.2.1]; simp)
  rxReady := by
    rintro l k i o s ⟨h1, h2, h3⟩ _ hs hl hc
    rcases h1 with h1 | ⟨d, h1⟩
    · exact absurd (by rw [hl]; simp [h1]) hc
    · exact absurd h1 (not_reading hs hl hc d)
  data := fun h hl => absurd hl h.2.2

end Proof

open SSP21.Crypto.Bridge.Proof

/-- Every chunk that was read from the socket was handed to the crypto layer, once and in order, and the crypto layer has
accepted it (the proxy ignores the result). -/
theorem C48_chunks_accepted {c : Cfg} {kind : Transport} {E : Env} (hE : E.SilentWhenClosed) {x : State}
    (h : Reachable c kind E x) {s : Layer} (hs : Spec.Outside x s) :
    s.log.filterMap Spec.request = x.rawIn.map (·, true) := (outside_observed hE h hs).2.2

/-- Everything that the crypto layer has given out was handed to the socket, once and in order, and the socket has
accepted it (the proxy ignores the result). -/
theorem C48_data_written {c : Cfg} {kind : Transport} {E : Env} (hE : E.SilentWhenClosed) {x : State}
    (h : Reachable c kind E x) {s : Layer} (hs : Spec.Outside x s) :
    x.rawOut = s.log.filterMap Crypto.Spec.givenData := (outside_observed hE h hs).2.1

/-- At most one read and one write are outstanding. While a read is outstanding, the crypto layer does not hold a slice of
the buffer that the read writes into: no request is in progress. -/
theorem C48_buffer_not_overwritten {c : Cfg} {kind : Transport} {E : Env} (hE : E.SilentWhenClosed) {x : State}
    (h : Reachable c kind E x) {s : Layer} (hs : x.ctl = .idle s ∨ x.ctl = .leaving s) :
    x.sock.reads ≤ 1 ∧ x.sock.writes ≤ 1 ∧
      (0 < x.sock.reads → Crypto.Spec.inProgress s.log = false ∧ s.tx.isIdle = true) := by
  obtain ⟨h1, h2⟩ := running hE h hs
  have h3 := h2.sock.1
  have h4 := h2.sock.2
  refine ⟨by split at h3 <;> omega, by split at h4 <;> omega, fun hr => ?_⟩
  obtain ⟨a1, a2⟩ := h2.rd (by
    by_contra hc
    rw [if_neg hc] at h3
    omega)
  refine ⟨a2, ?_⟩
  by_contra hc
  have a3 := below (env_silent hE) h1 a1
  have hi := (DisciplineProof.atomic c (env c E)).observed h1
  rw [RequestProof.belowOpen_eq, hi.isOpen] at a3
  have := ((RequestProof.proof c (env c E)).observed h1).2.core.prog a3 (by simpa using hc)
  rw [a2] at this
  cases this

/-- While a write is outstanding, the memory that it reads from contains the data that was handed to the socket, until the
layer below the crypto layer closes. -/
theorem C48_written_memory_untouched {c : Cfg} {kind : Transport} {E : Env} (hE : E.SilentWhenClosed) {x : State}
    (h : Reachable c kind E x) {s : Layer} (hs : x.ctl = .idle s ∨ x.ctl = .leaving s) (hw : 0 < x.sock.writes)
    (hc : .lowerClose ∉ s.log) : ∃ d, x.rawOut.getLast? = some d ∧ s.buf.take d.length = d := by
  obtain ⟨h1, h2⟩ := running hE h hs
  have h3 := h2.sock.2
  obtain ⟨d, h4, h5⟩ := (h2.held (by
    by_contra hc
    rw [if_neg hc] at h3
    omega)).resolve_left hc
  exact ⟨d, h4, ((HoldProof.atomic c (env c E)).observed h1).same d h5⟩

/-- With TCP, while nothing is active: if the proxy is open and the layer below the crypto layer is ready to transmit, then a
read of the socket is outstanding. -/
theorem C48_tcp_keeps_reading {c : Cfg} {E : Env} (hE : E.SilentWhenClosed) {x : State} (h : Reachable c .tcp E x) {s : Layer}
    (hs : x.ctl = .idle s) (ho : Crypto.Spec.appOpen s.log = true) (hr : Crypto.Spec.lowerIsReady s.log = true) :
    0 < x.sock.reads := by
  obtain ⟨h1, h2⟩ := running hE h (.inl hs)
  have hq : Quiet c (env c E) s := by
    have hk := reachable_ok hE h
    unfold Ok at hk
    rw [hs] at hk
    exact hk.2.1
  have hb := below (env_silent hE) h1 ho
  have hcl : .lowerClose ∉ s.log := fun hm => by rw [h2.single hm] at hb; cases hb
  rcases h2.reading (kind_eq h) ho hb with hr' | hp
  · rw [h2.sock.1, if_pos hr']; exact Nat.one_pos
  · have := C47_no_stall hq hb (lost_of h2.noclose hcl) hp
    rw [hr] at this; cases this

/-- With TCP, while nothing is active: if the proxy was told that there is data and has not fetched it yet, or if it was given
data and has not called again, then a write is outstanding (whose completion makes the proxy call again). -/
theorem C48_tcp_keeps_writing {c : Cfg} {E : Env} (hE : E.SilentWhenClosed) {x : State} (h : Reachable c .tcp E x) {s : Layer}
    (hs : x.ctl = .idle s) (ht : Crypto.Spec.hold s.log ≠ .free) : 0 < x.sock.writes := by
  obtain ⟨_, h2⟩ := running hE h (.inl hs)
  rw [h2.sock.2, if_pos (h2.writing (kind_eq h) ht)]
  exact Nat.one_pos

/-- If the proxy is open, reads nothing and has no request in progress, it will never read its socket again. -/
theorem C48_reading_stall_is_final {c : Cfg} {kind : Transport} {E : Env} (hE : E.SilentWhenClosed) {x y : State}
    (h : Reachable c kind E x) {s : Layer} (hs : x.ctl = .idle s) (ho : Crypto.Spec.appOpen s.log = true)
    (hp : Crypto.Spec.inProgress s.log = false) (hr : x.sock.reads = 0) (hy : Steps c E x y) : y.rawIn = x.rawIn := by
  have hx : Stays NoRead x := by
    unfold Stays
    rw [hs]
    exact ⟨hp, ho, inactive (running hE h (.inl hs)).2.sock hr⟩
  induction hy with
  | refl => rfl
  | step h1 h2 ih =>
    rw [← ih]
    have h3 := stays hE (noRead_keeps c E) h hx h1
    have h4 := reachable_ok hE (h1.reachable h)
    cases h2 with
    | received d s sock i o hr hd => exact absurd (no_reads h4.2.2.sock hr) (by rw [h3.2.2]; simp)
    | doneRead s fs sock i o =>
      unfold leave afterRead
      dsimp only
      split <;> rfl
    | _ => rfl

/-- If the proxy was given data and does not write it, it will never write to its socket again. -/
theorem C48_writing_stall_is_final {c : Cfg} {kind : Transport} {E : Env} (hE : E.SilentWhenClosed) {x y : State}
    (h : Reachable c kind E x) {s : Layer} (hs : x.ctl = .idle s) {d : Bytes} (hd : Crypto.Spec.hold s.log = .reading d)
    (hw : x.sock.writes = 0) (hy : Steps c E x y) : y.rawOut = x.rawOut := by
  have hx : Stays NoWrite x := by
    unfold Stays
    rw [hs]
    refine ⟨.inr ⟨d, hd⟩, inactive' (running hE h (.inl hs)).2.sock hw, fun hl => ?_⟩
    obtain ⟨pre, hpre⟩ := List.getLast?_eq_some_iff.1 hl
    rw [hpre, HoldProof.hold_snoc] at hd
    cases hd
  induction hy with
  | refl => rfl
  | step h1 h2 ih =>
    rw [← ih]
    have h3 := stays hE (noWrite_keeps c E) h hx h1
    cases h2 with
    | doneRead s fs sock i o =>
      obtain ⟨s0, h4, h5⟩ := h3
      rcases h5 with ⟨-, h5⟩ | ⟨_, _, _, _, _, _, _, _, h5⟩
      · have : result s = [] := h5 fs rfl
        unfold leave afterRead
        rw [if_pos this]
      · exact absurd h5 h4.2.2
    | _ => rfl

/-- From socket to socket. Two proxies in their first session, with the same keys; the layer below the crypto layer of the
sender has not closed, nor that of the receiver if it uses an `IStack`; no message was forged; the suite has strict nonces;
the crypto layer of the receiver, if a responder, does not fail to answer the session auth message. Then all the bytes that the receiving
proxy has written to its socket are a prefix of all the bytes that the sending proxy has read from its socket. -/
theorem C48_socket_to_socket {c c' : Cfg} {kind kind' : Transport} {E E' : Env} (hE : E.SilentWhenClosed)
    (hE' : E'.SilentWhenClosed) (hb : c.backend.Lawful) (hbb : c'.backend = c.backend) {x x' : State}
    (h : Reachable c kind E x) (h' : Reachable c' kind' E' x') {s s' : Layer} (hs : Spec.Outside x s) (hs' : Spec.Outside x' s')
    (h1 : (Crypto.Spec.view s).count = 1) (h1' : (Crypto.Spec.view s').count = 1) (suite : CryptoSpec)
    (hk : Crypto.Spec.SharedKeys c.backend suite s s' 0 0) (hstrict : suite.session_nonce_mode = .strict_increment)
    (hc : Obs.lowerClose ∉ s.log) (hl : (∃ hh, c'.role = .responder hh) → Crypto.Spec.Ev.act (.notSent false) ∉ Crypto.Spec.history s')
    (hv : Crypto.Spec.Unstale c' s'.log) : x'.rawOut.flatten <+: x.rawIn.flatten := by
  obtain ⟨a1, -, a2⟩ := outside_observed hE h hs
  obtain ⟨b1, b2, -⟩ := outside_observed hE' h' hs'
  rw [b2, ← taken_of a2]
  exact C44_end_to_end c c' (env c E) (env c' E') (.inl (env_readsAtOnce c' E')) hb hbb s s' a1 b1 h1 h1' suite hk hstrict hc hl hv

/-- Moreover, if the receiver has handled all messages that the sender has made, and nothing is held back in the crypto
layers, then the bytes are the same. -/
theorem C48_socket_to_socket_complete {c c' : Cfg} {kind kind' : Transport} {E E' : Env} (hE : E.SilentWhenClosed)
    (hE' : E'.SilentWhenClosed) (hb : c.backend.Lawful) (hbb : c'.backend = c.backend) {x x' : State}
    (h : Reachable c kind E x) (h' : Reachable c' kind' E' x') {s s' : Layer} (hs : Spec.Outside x s) (hs' : Spec.Outside x' s')
    (h1 : (Crypto.Spec.view s).count = 1) (h1' : (Crypto.Spec.view s').count = 1) (suite : CryptoSpec)
    (hk : Crypto.Spec.SharedKeys c.backend suite s s' 0 0) (hstrict : suite.session_nonce_mode = .strict_increment)
    (hc : Obs.lowerClose ∉ s.log) (hl : (∃ hh, c'.role = .responder hh) → Crypto.Spec.Ev.act (.notSent false) ∉ Crypto.Spec.history s')
    (hauth : authNonces ((Crypto.Spec.view s').session 0) ≠ [])
    (hall : ((Crypto.Spec.view s).sentIn 0).length ≤ 1 + (consumedNonces ((Crypto.Spec.view s').session 0)).length)
    (ho : (Crypto.Spec.view s).outstanding = []) (hu : (Crypto.Spec.view s').unread = none)
    (hc' : Crypto.Spec.Ev.obs .lowerClose ∉ Crypto.Spec.history s') : x'.rawOut.flatten = x.rawIn.flatten := by
  obtain ⟨a1, -, a2⟩ := outside_observed hE h hs
  obtain ⟨b1, b2, -⟩ := outside_observed hE' h' hs'
  rw [b2, ← taken_of a2]
  exact C44_end_to_end_complete c c' (env c E) (env c' E') (.inl (env_readsAtOnce c' E')) hb hbb s s' a1 b1 h1 h1' suite hk
    hstrict hc hl hauth hall ho hu hc'

/-! ### concrete executions -/

namespace Example
open SSP21.Crypto.Bridge.Exec LayerExample Crypto.Spec

def told? : Hold → Nat
  | .free => 0
  | .notified => 1
  | .reading _ => 2

def readingOf : Hold → Bytes
  | .reading d => d
  | _ => []

set_option synthInstance.maxSize 2000 in
/-- The sender, after the chunk [1, 2, 3] was read from its socket: the hypotheses of `C48_buffer_not_overwritten` and
`C48_chunks_accepted` are met; and before it was read, those of `C48_tcp_keeps_reading`. -/
example : (∃ x s, Reachable ini .tcp EnvB.tame.env x ∧ x.ctl = .idle s ∧ x.sock.reads = 0 ∧ x.rawIn = [[1, 2, 3]] ∧
      s.log.filterMap Spec.request = [([1, 2, 3], true)] ∧ inProgress s.log = true) ∧
    ∃ x s, Reachable ini .tcp EnvB.tame.env x ∧ x.ctl = .idle s ∧ x.sock.reads = 1 ∧ appOpen s.log = true ∧
      lowerIsReady s.log = true := by
  obtain ⟨x, s, h1, h2, h3⟩ := Bridge.Exec.exists_of_map configured (c := ini) (kind := .tcp) (E := .tame) (h := hs)
    (ready := true) (script := iniOut)
    (f := fun x s => (x.sock.reads, x.rawIn, s.log.filterMap Spec.request, inProgress s.log))
    (a := (0, [[1, 2, 3]], [([1, 2, 3], true)], true)) (by decide +kernel)
  obtain ⟨x', s', h1', h2', h3'⟩ := Bridge.Exec.exists_of_map configured (c := ini) (kind := .tcp) (E := .tame) (h := hs)
    (ready := true) (script := iniUp) (f := fun x s => (x.sock.reads, appOpen s.log, lowerIsReady s.log))
    (a := (1, true, true)) (by decide +kernel)
  simp only [Prod.mk.injEq] at h3 h3'
  exact ⟨⟨x, s, h1, h2, h3⟩, x', s', h1', h2', h3'⟩

/-- The receiver: the data is being written, and the hypotheses of `C48_written_memory_untouched` and `C48_tcp_keeps_writing`
are met. -/
example : ∃ x s, Reachable res .tcp EnvB.tame.env x ∧ x.ctl = .idle s ∧ x.sock.writes = 1 ∧ x.rawOut = [[1, 2, 3]] ∧
    hold s.log = .reading [1, 2, 3] ∧ .lowerClose ∉ s.log := by
  obtain ⟨x, s, h1, h2, h3⟩ := Bridge.Exec.exists_of_map configured (c := res) (kind := .tcp) (E := .tame) (h := hs)
    (ready := true) (script := resIn)
    (f := fun x s => (x.sock.writes, x.rawOut, told? (hold s.log), readingOf (hold s.log), s.log.any closesBelow))
    (a := (1, [[1, 2, 3]], 2, [1, 2, 3], false)) (by decide +kernel)
  simp only [Prod.mk.injEq] at h3
  obtain ⟨a1, a2, a3, a4, a5⟩ := h3
  refine ⟨x, s, h1, h2, a1, a2, ?_, fun hx => ?_⟩
  · cases hh : hold s.log <;> rw [hh] at a3 a4
    · cases a3
    · cases a3
    · rw [← a4]; rfl
  · rw [List.any_eq_false] at a5
    exact a5 _ hx rfl

def iniSent : List SessionData :=
  ((final ini .tcp .tame hs true iniOut).bind fun x => (idle? x).map fun s => sentMessages ((view s).session 0)).getD []

def headOf (x : Option State) : SessionParam × SessionKeys := headKeys (x.bind idle?)

set_option maxRecDepth 1000000 in
set_option synthInstance.maxSize 2000 in
/-- The two proxies: [1, 2, 3] was read from the socket of the first and written to the socket of the second. All hypotheses of
`C48_socket_to_socket_complete` and `C48_socket_to_socket` are met. -/
example : ∃ x x' s s', Reachable ini .tcp EnvB.tame.env x ∧ Reachable res .tcp EnvB.tame.env x' ∧ Spec.Outside x s ∧
    Spec.Outside x' s' ∧ (view s).count = 1 ∧ (view s').count = 1 ∧ SharedKeys ini.backend suite s s' 0 0 ∧
    Obs.lowerClose ∉ s.log ∧ Ev.act (.notSent false) ∉ history s' ∧ Ev.obs .lowerClose ∉ history s' ∧
    authNonces ((view s').session 0) ≠ [] ∧
    ((view s).sentIn 0).length ≤ 1 + (consumedNonces ((view s').session 0)).length ∧ (view s).outstanding = [] ∧
    (view s').unread = none ∧ x.rawIn = [[1, 2, 3]] ∧ x'.rawOut = [[1, 2, 3]] := by
  obtain ⟨x, s, h1, h1a, h2⟩ := Bridge.Exec.exists_of_map configured (c := ini) (kind := .tcp) (E := .tame) (h := hs)
    (ready := true) (script := iniOut)
    (f := fun x s => (((view s).session 0).head?, (view s).count, sentMessages ((view s).session 0), s.log.any closesBelow,
      ((view s).sentIn 0).length, (view s).outstanding, x.rawIn))
    (a := (some (.initialized sessionAlg (headOf (final ini .tcp .tame hs true iniOut)).1 (headOf (final ini .tcp .tame hs true iniOut)).2),
      1, iniSent, false, 2, [], [[1, 2, 3]])) rfl
  obtain ⟨x', s', h1', h1b, h2'⟩ := Bridge.Exec.exists_of_map configured (c := res) (kind := .tcp) (E := .tame) (h := hs)
    (ready := true) (script := resIn)
    (f := fun x s => (((view s).session 0).head?, (view s).count, (authMessages ((view s).session 0)).all iniSent.contains,
      (history s).any unanswered, authNonces ((view s).session 0), (consumedNonces ((view s).session 0)).length, (view s).unread,
      x.rawOut))
    (a := (some (.initialized sessionAlg (headOf (final res .tcp .tame hs true resIn)).1 (headOf (final res .tcp .tame hs true resIn)).2),
      1, true, false, [0], 1, none, [[1, 2, 3]])) rfl
  simp only [Prod.mk.injEq] at h2 h2'
  obtain ⟨a1, a2, a3, a4, a5, a6, a7⟩ := h2
  obtain ⟨b1, b2, b3, b4, b5, b6, b7, b8⟩ := h2'
  have hsuite : SSP21.Spec.SuiteOf ini.backend suite sessionAlg := ⟨fun last new => strict_iff last new, .inl ⟨rfl, rfl⟩⟩
  have hun : ∀ e ∈ history s', unanswered e = false := by
    intro e he
    by_contra hx
    rw [List.any_eq_false] at b4
    exact b4 e he (by simpa using hx)
  refine ⟨x, x', s, s', h1, h1', .inl h1a, .inl h1b, a2, b2, ⟨?_, noForgery_of ?_⟩, ?_, fun hx => ?_, fun hx => ?_, ?_, ?_, a6, b7,
    a7, b8⟩
  · obtain ⟨es, he⟩ := List.head?_eq_some_iff.mp a1
    obtain ⟨es', he'⟩ := List.head?_eq_some_iff.mp b1
    exact ⟨_, _, _, es, _, _, _, es', he, he', by decide +kernel, hsuite, hsuite⟩
  · intro m hm
    rw [a3]
    exact by simpa using List.all_eq_true.mp b3 m hm
  · intro hx
    rw [List.any_eq_false] at a4
    exact a4 _ hx rfl
  · have := hun _ hx
    cases this
  · have := hun _ hx
    cases this
  · rw [b5]; simp
  · rw [a5, b6]; exact Nat.le_refl 2

end Example

/-- With UDP, an empty datagram stops the proxy from reading its socket: it is open, the layer below the crypto layer is
ready, nothing is active, and no read is outstanding. (The crypto layer accepts the request, has nothing to send, and so
never says that it is complete.) -/
theorem C48_udp_empty_datagram_violation : ∃ c x s, Reachable c .udp EnvB.tame.env x ∧ x.ctl = .idle s ∧
    x.rawIn = [[]] ∧ x.sock.reads = 0 ∧ Crypto.Spec.appOpen s.log = true ∧ Crypto.Spec.lowerIsReady s.log = true ∧
    ∀ y, Steps c EnvB.tame.env x y → y.rawIn = [[]] := by
  obtain ⟨x, s, h1, h2, h3⟩ := Bridge.Exec.exists_of_map LayerExample.configured (c := LayerExample.ini) (kind := .udp)
    (E := .tame) (h := LayerExample.hs) (ready := true) (script := Example.iniUp ++ [.received []])
    (f := fun x s => (x.rawIn, x.sock.reads, Crypto.Spec.appOpen s.log, Crypto.Spec.lowerIsReady s.log, Crypto.Spec.inProgress s.log))
    (a := ([[]], 0, true, true, false)) (by decide +kernel)
  simp only [Prod.mk.injEq] at h3
  obtain ⟨a1, a2, a3, a4, a5⟩ := h3
  exact ⟨_, x, s, h1, h2, a1, a2, a3, a4,
    fun y hy => a1 ▸ C48_reading_stall_is_final EnvB.tame_silent h1 h2 a3 a5 a2 hy⟩

/-- With UDP, if the first write to the socket fails (for example, because nobody listens there yet), the proxy stops to take
data from the crypto layer: it was given data, nothing is active, and no write is outstanding; the session is not shut down
either. -/
theorem C48_udp_write_error_violation : ∃ c x s, Reachable c .udp EnvB.tame.env x ∧ x.ctl = .idle s ∧
    x.rawOut = [[1, 2, 3]] ∧ x.sock.writes = 0 ∧ Crypto.Spec.appOpen s.log = true ∧
    ∀ y, Steps c EnvB.tame.env x y → y.rawOut = [[1, 2, 3]] := by
  obtain ⟨x, s, h1, h2, h3⟩ := Bridge.Exec.exists_of_map LayerExample.configured (c := LayerExample.res) (kind := .udp)
    (E := .tame) (h := LayerExample.hs) (ready := true) (script := Example.resIn ++ [.txFailed])
    (f := fun x s => (x.rawOut, Example.told? (Crypto.Spec.hold s.log), x.sock.writes, Crypto.Spec.appOpen s.log))
    (a := ([[1, 2, 3]], 2, 0, true)) (by decide +kernel)
  simp only [Prod.mk.injEq] at h3
  obtain ⟨a1, a2, a3, a4⟩ := h3
  refine ⟨_, x, s, h1, h2, a1, a3, a4, fun y hy => ?_⟩
  cases hh : Crypto.Spec.hold s.log with
  | reading d => exact a1 ▸ C48_writing_stall_is_final EnvB.tame_silent h1 h2 hh a3 hy
  | _ => rw [hh] at a2; cases a2

end SSP21.Crypto.Bridge
