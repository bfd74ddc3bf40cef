import Verif.CryptoLayer
/-
  Executions of a crypto layer in an arbitrary environment.

  Control is either inside the layer (`code`) or outside (`env`). Every callback into the application pushes
  the rest of the interrupted function on a stack and gives control to the environment, where the application
  may call the layer again (and be called back again, to any depth) before it returns. Notifications of the
  layer below and timers arrive only when no function of the layer is active: the library runs on one executor
  and lower layers work asynchronously (ILowerLayer.h:28-47).
-/
namespace SSP21.Crypto

/-- Calls of the application: `ILowerLayer::start_tx_from_upper` and `start_rx_from_upper`. -/
inductive Api
  | startTx (data : Bytes)
  | startRx

/-- The code run by a call of the application. -/
def Api.run (c : Cfg) : Api → M Unit
  | .startTx d => Crypto.startTx c d
  | .startRx => Crypto.startRx

/-- Notifications of the layer below (`lowerTxReady`: the pending transmission is complete and the layer is
ready again; `ready` is the state of the layer below when it opens or closes) and timers. A layer below that is
open and not ready tells when it becomes ready (ILowerLayer.h:28-38, IUpperLayer.h:54-68): a repeated
`lowerOpen` does not change its readiness. -/
inductive Event
  | lowerOpen (ready : Bool)
  | lowerClose (ready : Bool)
  | lowerTxReady
  | lowerRxReady
  | expiry (e : Expiry)

/-- A timer can expire only if it runs. -/
def Event.enabled (s : Layer) : Event → Prop
  | .expiry .response => s.ini.respTimer = some .response
  | .expiry .retry => s.ini.respTimer = some .retry
  | .expiry .session => s.ini.sessTimer.isSome
  | .expiry _ => 0 < s.ini.orphans
  | _ => True

/-- The code run by an event. -/
def Event.run (c : Cfg) : Event → M Unit
  | .lowerOpen ready => do
    if (← get).isOpen then pure ()
    else
      note (.lowerReady ready)
      modify fun s => { s with lowerReady := ready }
    onLowerOpen c
  | .lowerClose ready => do
    note (.lowerReady ready)
    modify fun s => { s with lowerReady := ready }
    onLowerClose c
  | .lowerTxReady => do
    note (.lowerReady true)
    modify fun s => { s with lowerReady := true }
    onLowerTxReady c
  | .lowerRxReady => onLowerRxReady
  | .expiry e => onExpiry c e

/-- What the environment may answer: 32 random bytes when asked for them. -/
def Fresh.ok (f : Fresh) : Prop := f.rnd.length = 32

/-- Assumptions about the environment: `config` says with which handshake object an initiator may be created,
`nested` which calls the application makes from inside callbacks in a given state, `recv` which messages the layer below may
deliver in a given state. -/
structure Env where
  config : InitiatorHandshake → Prop
  nested : Layer → Api → Prop
  recv : Layer → Bytes → Prop

/-- Who has control. -/
inductive Ctl
  | env (s : Layer)
  | code (r : Run Unit)

/-- Control and the interrupted functions, innermost first. -/
structure Config where
  ctl : Ctl
  stack : List (Layer → Run Unit)

/-- One step. -/
inductive Step (c : Cfg) (E : Env) : Config → Config → Prop
  | event (e : Event) (s : Layer) : e.enabled s → Step c E ⟨.env s, []⟩ ⟨.code (e.run c s), []⟩
  | api (a : Api) (s : Layer) : Step c E ⟨.env s, []⟩ ⟨.code (a.run c s), []⟩
  | nestedApi (a : Api) (s : Layer) (k : Layer → Run Unit) (st : List (Layer → Run Unit)) : E.nested s a →
      Step c E ⟨.env s, k :: st⟩ ⟨.code (a.run c s), k :: st⟩
  | ret (s : Layer) (k : Layer → Run Unit) (st : List (Layer → Run Unit)) :
      Step c E ⟨.env s, k :: st⟩ ⟨.code (k s), st⟩
  | done (s : Layer) (st : List (Layer → Run Unit)) : Step c E ⟨.code (.done () s), st⟩ ⟨.env s, st⟩
  | up (cb : UpCall) (s : Layer) (k : Layer → Run Unit) (st : List (Layer → Run Unit)) :
      Step c E ⟨.code (.up cb s k), st⟩ ⟨.env s, k :: st⟩
  | ask (f : Fresh) (k : Fresh → Run Unit) (st : List (Layer → Run Unit)) : f.ok →
      Step c E ⟨.code (.ask k), st⟩ ⟨.code (k f), st⟩
  | recv (m : Bytes) (s : Layer) (k : Bytes → Run Unit) (st : List (Layer → Run Unit)) : E.recv s m →
      Step c E ⟨.code (.recv s k), st⟩ ⟨.code (k m), st⟩
  | loop (s : Layer) (k : Layer → Run Unit) (st : List (Layer → Run Unit)) :
      Step c E ⟨.code (.loop s k), st⟩
        ⟨.code ((tryReadOne c s).bind (fun again s' => if again then .loop s' k else k s')), st⟩

/-- The configurations that can be reached from a newly constructed layer. The constructors of the handshake
objects select algorithms with `CommonAlgorithms.configure`. -/
inductive Reachable (c : Cfg) (E : Env) : Config → Prop
  | init (handshake : InitiatorHandshake) : handshake.Configured c.backend c.caps → E.config handshake →
      Reachable c E ⟨.env (Layer.new c handshake), []⟩
  | step {x y : Config} : Reachable c E x → Step c E x y → Reachable c E y

/-- The state of the layer while the environment has control, or between two iterations of the receive loop. -/
def Observed (c : Cfg) (E : Env) (s : Layer) : Prop :=
  (∃ st, Reachable c E ⟨.env s, st⟩) ∨ ∃ k st, Reachable c E ⟨.code (.loop s k), st⟩

/-- The state of the layer while the environment has control and no function of the layer is active. -/
def Quiet (c : Cfg) (E : Env) (s : Layer) : Prop := Reachable c E ⟨.env s, []⟩

/-- Every application, every lower layer. -/
def anyEnv : Env := ⟨fun _ => True, fun _ _ => True, fun _ _ => True⟩
/-- Applications that do not read from inside a callback (they may transmit). -/
def Env.NoNestedRx (E : Env) : Prop := ∀ s, ¬ E.nested s .startRx
/-- Lower layers that deliver nothing while the layer is closed. -/
def Env.SilentWhenClosed (E : Env) : Prop := ∀ s m, E.recv s m → m ≠ [] → s.isOpen = true

/-! ### Proof rule: rely / guarantee -/

/-- `r` ends in a state satisfying `Q`, hands out only states satisfying `I`, copes with any activity of the
application during callbacks that preserves `I` and is contained in `R`, and with any activity of the receive
loop that preserves `I` and is contained in `L`; the loop is only entered in states related to themselves by `L`. -/
def Run.wp {α : Type} (E : Env) (I : Layer → Prop) (R L : Layer → Layer → Prop) (Q : α → Layer → Prop) : Run α → Prop
  | .done a s => Q a s
  | .up _ s k => I s ∧ ∀ s', I s' → R s s' → (k s').wp E I R L Q
  | .ask k => ∀ f, f.ok → (k f).wp E I R L Q
  | .recv s k => ∀ m, E.recv s m → (k m).wp E I R L Q
  | .loop s k => I s ∧ L s s ∧ ∀ s', I s' → L s s' → (k s').wp E I R L Q
  | .fault => True

theorem Run.wp_bind {α β : Type} {E I R L} {Q : β → Layer → Prop} (r : Run α) (f : α → Layer → Run β) :
    (r.bind f).wp E I R L Q ↔ r.wp E I R L (fun a s => (f a s).wp E I R L Q) := by
  induction r <;> simp_all [Run.bind, Run.wp]

theorem Run.wp_mono {α : Type} {E I R L} {Q Q' : α → Layer → Prop} (r : Run α) (h : ∀ a s, Q a s → Q' a s) :
    r.wp E I R L Q → r.wp E I R L Q' := by
  induction r with
  | done a s => exact h a s
  | up cb s k ih => exact fun hw => ⟨hw.1, fun s' hi hr => ih s' (hw.2 s' hi hr)⟩
  | ask k ih => exact fun hw f hf => ih f (hw f hf)
  | recv s k ih => exact fun hw m hm => ih m (hw m hm)
  | loop s k ih => exact fun hw => ⟨hw.1, hw.2.1, fun s' hi hr => ih s' (hw.2.2 s' hi hr)⟩
  | fault => exact fun _ => trivial

/-- The obligations of a rely/guarantee proof. `I` holds whenever the environment has control, `J` moreover
when no function of the layer is active. -/
structure Proof (c : Cfg) (E : Env) (I J : Layer → Prop) (R L : Layer → Layer → Prop) : Prop where
  refl : ∀ s, R s s
  trans : ∀ s t u, R s t → R t u → R s u
  transL : ∀ s t u, L s t → L t u → L s u
  reflL : ∀ s t, L s t → L t t
  init : ∀ h, h.Configured c.backend c.caps → E.config h → I (Layer.new c h) ∧ J (Layer.new c h)
  body : ∀ s, I s → L s s → (tryReadOne c s).wp E I R L (fun _ s' => I s' ∧ L s s')
  nestedApi : ∀ (a : Api) (s : Layer), E.nested s a → I s → (a.run c s).wp E I R L (fun _ s' => I s' ∧ R s s')
  api : ∀ (a : Api) (s : Layer), I s → J s → (a.run c s).wp E I R L (fun _ s' => I s' ∧ J s')
  event : ∀ (e : Event) (s : Layer), e.enabled s → I s → J s → (e.run c s).wp E I R L (fun _ s' => I s' ∧ J s')

/-- What a function must establish when it returns: `sB` is the state in which the environment called it (if it
did so from inside a callback, that is if there are interrupted functions). -/
def Ends (I J : Layer → Prop) (R : Layer → Layer → Prop) (sB : Layer) (st : List (Layer → Run Unit)) (s : Layer) :
    Prop :=
  I s ∧ (st ≠ [] → R sB s) ∧ (st = [] → J s)

/-- The interrupted functions cope with what is going on. -/
def StackOk (E : Env) (I J : Layer → Prop) (R L : Layer → Layer → Prop) (s : Layer) : List (Layer → Run Unit) → Prop
  | [] => True
  | k :: st => ∃ s0 sB, R s0 s ∧
      (∀ s', I s' → R s0 s' → (k s').wp E I R L (fun _ s'' => Ends I J R sB st s'')) ∧ StackOk E I J R L sB st

theorem StackOk.mono {E I J R L} (ht : ∀ s t u, R s t → R t u → R s u) {s s' : Layer} {st}
    (h : StackOk E I J R L s st) (hr : R s s') : StackOk E I J R L s' st := by
  cases st with
  | nil => trivial
  | cons k st =>
    obtain ⟨s0, sB, h1, h2, h3⟩ := h
    exact ⟨s0, sB, ht _ _ _ h1 hr, h2, h3⟩

/-- The invariant of configurations. -/
def CfgOk (E : Env) (I J : Layer → Prop) (R L : Layer → Layer → Prop) (x : Config) : Prop :=
  match x.ctl with
  | .env s => I s ∧ (x.stack = [] → J s) ∧ StackOk E I J R L s x.stack
  | .code r => ∃ sB, r.wp E I R L (fun _ s'' => Ends I J R sB x.stack s'') ∧ StackOk E I J R L sB x.stack

theorem Proof.step {c E I J R L} (p : Proof c E I J R L) {x y : Config} (h : Step c E x y)
    (hx : CfgOk E I J R L x) : CfgOk E I J R L y := by
  cases h with
  | event e s he =>
    exact ⟨s, Run.wp_mono _ (fun _ _ h => ⟨h.1, fun h' => absurd rfl h', fun _ => h.2⟩)
      (p.event e s he hx.1 (hx.2.1 rfl)), trivial⟩
  | api a s =>
    exact ⟨s, Run.wp_mono _ (fun _ _ h => ⟨h.1, fun h' => absurd rfl h', fun _ => h.2⟩)
      (p.api a s hx.1 (hx.2.1 rfl)), trivial⟩
  | nestedApi a s k st ha =>
    exact ⟨s, Run.wp_mono _ (fun _ _ h => ⟨h.1, fun _ => h.2, fun h' => by cases h'⟩) (p.nestedApi a s ha hx.1), hx.2.2⟩
  | ret s k st =>
    obtain ⟨hi, _, s0, sB, h1, h2, h3⟩ := hx
    exact ⟨sB, h2 s hi h1, h3⟩
  | done s st =>
    obtain ⟨sB, h1, h2⟩ := hx
    refine ⟨h1.1, h1.2.2, ?_⟩
    cases st with
    | nil => trivial
    | cons k st => exact h2.mono p.trans (h1.2.1 (by simp))
  | up cb s k st =>
    obtain ⟨sB, h1, h2⟩ := hx
    refine ⟨h1.1, (fun h => by cases h), s, sB, p.refl s, ?_, h2⟩
    exact h1.2
  | ask f k st hf =>
    obtain ⟨sB, h1, h2⟩ := hx
    exact ⟨sB, h1 f hf, h2⟩
  | recv m s k st hm =>
    obtain ⟨sB, h1, h2⟩ := hx
    exact ⟨sB, h1 m hm, h2⟩
  | loop s k st =>
    obtain ⟨sB, h1, h2⟩ := hx
    refine ⟨sB, ?_, h2⟩
    rw [Run.wp_bind]
    refine Run.wp_mono _ ?_ (p.body s h1.1 h1.2.1)
    intro again s' hs'
    cases again with
    | false => exact h1.2.2 s' hs'.1 hs'.2
    | true => exact ⟨hs'.1, p.reflL _ _ hs'.2, fun s'' hi hr => h1.2.2 s'' hi (p.transL _ _ _ hs'.2 hr)⟩

theorem Proof.reachable {c E I J R L} (p : Proof c E I J R L) {x : Config} (h : Reachable c E x) :
    CfgOk E I J R L x := by
  induction h with
  | init hs hc he => exact ⟨(p.init hs hc he).1, fun _ => (p.init hs hc he).2, trivial⟩
  | step _ h ih => exact p.step h ih

theorem Proof.observed {c E I J R L} (p : Proof c E I J R L) {s : Layer} (h : Observed c E s) : I s := by
  obtain ⟨st, h⟩ | ⟨k, st, h⟩ := h
  · exact (p.reachable h).1
  · obtain ⟨sB, h, _⟩ := p.reachable h
    exact h.1

theorem Proof.quiet {c E I J R L} (p : Proof c E I J R L) {s : Layer} (h : Quiet c E s) : I s ∧ J s :=
  ⟨(p.reachable h).1, (p.reachable h).2.1 rfl⟩

/-! ### Weakest preconditions of the operations -/

section
variable {α β : Type} {E : Env} {I : Layer → Prop} {R L : Layer → Layer → Prop}

/-- The rule for computations. -/
def M.wp (E : Env) (I : Layer → Prop) (R L : Layer → Layer → Prop) (m : M α) (Q : α → Layer → Prop) (s : Layer) : Prop :=
  (m s).wp E I R L Q

theorem M.wp_def (m : M α) (Q : α → Layer → Prop) (s : Layer) : (m s).wp E I R L Q ↔ M.wp E I R L m Q s := Iff.rfl

theorem M.wp_mono {m : M α} {Q Q' : α → Layer → Prop} {s : Layer} (h : ∀ a s, Q a s → Q' a s) :
    M.wp E I R L m Q s → M.wp E I R L m Q' s := Run.wp_mono _ h

@[simp] theorem wp_bind (m : M α) (f : α → M β) (Q : β → Layer → Prop) (s : Layer) :
    M.wp E I R L (m >>= f) Q s ↔ M.wp E I R L m (fun a s' => M.wp E I R L (f a) Q s') s := Run.wp_bind _ _
@[simp] theorem wp_pure (a : α) (Q : α → Layer → Prop) (s : Layer) : M.wp E I R L (pure a) Q s ↔ Q a s := Iff.rfl
@[simp] theorem wp_get (Q : Layer → Layer → Prop) (s : Layer) : M.wp E I R L get Q s ↔ Q s s := Iff.rfl
@[simp] theorem wp_modify (f : Layer → Layer) (Q : Unit → Layer → Prop) (s : Layer) :
    M.wp E I R L (modify f) Q s ↔ Q () (f s) := Iff.rfl
@[simp] theorem wp_ask (Q : Fresh → Layer → Prop) (s : Layer) :
    M.wp E I R L ask Q s ↔ ∀ f, f.ok → Q f s := Iff.rfl
@[simp] theorem wp_fault (Q : α → Layer → Prop) (s : Layer) : M.wp E I R L fault Q s ↔ True := Iff.rfl
@[simp] theorem wp_note (o : Obs) (Q : Unit → Layer → Prop) (s : Layer) :
    M.wp E I R L (note o) Q s ↔ Q () { s with log := s.log ++ [o] } := Iff.rfl
@[simp] theorem wp_act (a : Act) (Q : Unit → Layer → Prop) (s : Layer) :
    M.wp E I R L (act a) Q s ↔ Q () { s with acts := s.acts ++ [(s.log.length, a)] } := Iff.rfl
@[simp] theorem wp_modifyIni (f : Ini → Ini) (Q : Unit → Layer → Prop) (s : Layer) :
    M.wp E I R L (modifyIni f) Q s ↔ Q () { s with ini := f s.ini } := Iff.rfl
@[simp] theorem wp_ite (p : Prop) [Decidable p] (m n : M α) (Q : α → Layer → Prop) (s : Layer) :
    M.wp E I R L (if p then m else n) Q s ↔ (p → M.wp E I R L m Q s) ∧ (¬ p → M.wp E I R L n Q s) := by
  by_cases h : p <;> simp [h]
@[simp] theorem wp_getTime (Q : Int → Layer → Prop) (s : Layer) :
    M.wp E I R L getTime Q s ↔ ∀ f : Fresh, f.ok → Q f.now s := by simp [getTime]
@[simp] theorem wp_upcall (cb : UpCall) (Q : Unit → Layer → Prop) (s : Layer) :
    M.wp E I R L (upcall cb) Q s ↔
      I { s with log := s.log ++ [.up cb] } ∧
        ∀ s', I s' → R { s with log := s.log ++ [.up cb] } s' → Q () s' := by
  simp only [upcall, wp_bind, wp_note]
  exact Iff.rfl
@[simp] theorem wp_tryRead (Q : Unit → Layer → Prop) (s : Layer) :
    M.wp E I R L tryRead Q s ↔ I s ∧ L s s ∧ ∀ s', I s' → L s s' → Q () s' := Iff.rfl
@[simp] theorem wp_lowerStartTx (frame : Bytes) (Q : Bool → Layer → Prop) (s : Layer) :
    M.wp E I R L (lowerStartTx frame) Q s ↔
      Q s.lowerReady { s with log := s.log ++ [.lowerTx frame s.lowerReady], lowerReady := false } := by
  simp [lowerStartTx]
@[simp] theorem wp_lowerStartRx (Q : Bytes → Layer → Prop) (s : Layer) :
    M.wp E I R L lowerStartRx Q s ↔
      (E.recv s [] → ∀ f : Fresh, f.ok → Q [] { s with buf := f.scratch }) ∧
      ∀ m, E.recv s m → m ≠ [] → ∀ f : Fresh, f.ok → Q m { s with buf := f.scratch, log := s.log ++ [.recv m] } := by
  have key : ∀ Q' : Bytes → Layer → Prop, M.wp E I R L rawRecv Q' s ↔ ∀ m, E.recv s m → Q' m s := fun _ => Iff.rfl
  simp only [lowerStartRx, wp_bind, key, wp_ite, wp_pure, wp_note, wp_ask, wp_modify]
  constructor
  · intro h
    exact ⟨fun h0 f hf => (h [] h0 f hf).1 rfl, fun m h0 hm f hf => (h m h0 f hf).2 hm⟩
  · rintro ⟨h1, h2⟩ m h0 f hf
    exact ⟨fun hm => by subst hm; exact h1 h0 f hf, fun hm => h2 m h0 hm f hf⟩
end

end SSP21.Crypto
