import Verif.Bridge
import Verif.LayerExample
/-
  An interpreter for executions of Verif/Bridge.lean, used to exhibit concrete executions: what it computes is reachable
  (`exists_of_map`).
-/
namespace SSP21.Crypto.Bridge
open Asio
namespace Exec

/-- What the environment does next. -/
inductive Choice
  | event (e : Event)
  | received (d : Bytes)
  | rxFailed
  | written
  | txFailed
  | fresh (f : Fresh)
  | recv (m : Bytes)

instance (kind : Transport) (d : Bytes) : Decidable (chunkOk kind d) := by unfold chunkOk; infer_instance

/-- The event is not that the layer below opens. -/
def notOpen : Event → Bool
  | .lowerOpen _ => false
  | _ => true

/-- Execute a choice of the environment. -/
def next (c : Cfg) (E : EnvB) : State → Choice → Option State
  | ⟨.idle s, [], k, i, o⟩, .event e =>
    if e.enabled s ∧ notOpen e = true then some ⟨.code (e.run c s), [], k, i, o⟩ else none
  | ⟨.idle s, [], k, i, o⟩, .received d =>
    if 0 < k.reads ∧ chunkOk k.kind d then some ⟨.code (startTx c d s), [], (k.rxDone false).1, i ++ [d], o⟩ else none
  | ⟨.idle s, [], k, i, o⟩, .rxFailed =>
    if 0 < k.reads then some ⟨if (k.rxDone true).2 = .error then .ended s else .idle s, [], (k.rxDone true).1, i, o⟩ else none
  | ⟨.idle s, [], k, i, o⟩, .written =>
    if 0 < k.writes then some ⟨.code (startRx s), [.read], (k.txDone false).1, i, o⟩ else none
  | ⟨.idle s, [], k, i, o⟩, .txFailed =>
    if 0 < k.writes then some ⟨if (k.txDone true).2 = .error then .ended s else .idle s, [], (k.txDone true).1, i, o⟩ else none
  | ⟨.code (.ask f), fs, k, i, o⟩, .fresh x => if x.ok then some ⟨.code (f x), fs, k, i, o⟩ else none
  | ⟨.code (.recv s f), fs, k, i, o⟩, .recv m => if E.recv s m then some ⟨.code (f m), fs, k, i, o⟩ else none
  | _, _ => none

/-- One step that involves no choice. -/
def auto (c : Cfg) : State → Option State
  | ⟨.code (.done () s), .read :: fs, k, i, o⟩ => some (leave s (afterRead ⟨.idle s, fs, k, i, o⟩ (result s)))
  | ⟨.code (.done () s), [], k, i, o⟩ => some ⟨.idle s, [], k, i, o⟩
  | ⟨.code (.up .opened s f), fs, k, i, o⟩ => some ⟨.leaving s, .layer f :: fs, k.startRx, i, o⟩
  | ⟨.code (.up .txReady s f), fs, k, i, o⟩ => some ⟨.leaving s, .layer f :: fs, k.startRx, i, o⟩
  | ⟨.code (.up .rxReady s f), fs, k, i, o⟩ =>
    if k.txActive then some ⟨.leaving s, .layer f :: fs, k, i, o⟩
    else some ⟨.code (startRx s), .read :: .layer f :: fs, k, i, o⟩
  | ⟨.code (.up .closed s _), fs, k, i, o⟩ => some ⟨.ended s, fs, k.tryClose, i, o⟩
  | ⟨.leaving s, .layer f :: fs, k, i, o⟩ => some ⟨.code (f s), fs, k, i, o⟩
  | ⟨.code (.loop s f), fs, k, i, o⟩ =>
    some ⟨.code ((tryReadOne c s).bind (fun again s' => if again then .loop s' f else f s')), fs, k, i, o⟩
  | _ => none

/-- Continue until the environment has to choose (at most `n` steps). -/
def settle (c : Cfg) : Nat → State → State
  | 0, x => x
  | n + 1, x => match auto c x with
    | none => x
    | some y => settle c n y

/-- Execute a script. -/
def run (c : Cfg) (E : EnvB) : State → List Choice → Option State
  | x, [] => some x
  | x, ch :: rest =>
    match next c E x ch with
    | none => none
    | some y => run c E (settle c 12 y) rest

theorem next_sound {c : Cfg} {E : EnvB} {x y : State} {ch : Choice} (h : next c E x ch = some y) : Step c E.env.recv x y := by
  unfold next at h
  split at h
  · split at h
    · rename_i hc
      cases h
      refine .event _ _ _ _ _ ⟨hc.1, fun ready he => ?_⟩
      subst he
      cases hc.2
    · cases h
  · split at h
    · rename_i hc; cases h; exact .received _ _ _ _ _ hc.1 hc.2
    · cases h
  · split at h
    · cases h; exact .rxFailed _ _ _ _ ‹_›
    · cases h
  · split at h
    · cases h; exact .written _ _ _ _ ‹_›
    · cases h
  · split at h
    · cases h; exact .txFailed _ _ _ _ ‹_›
    · cases h
  · split at h
    · cases h; exact .ask _ _ _ _ _ _ ‹_›
    · cases h
  · split at h
    · cases h; exact .recv _ _ _ _ _ _ _ ‹_›
    · cases h
  · cases h

theorem auto_sound {c : Cfg} {recv : Layer → Bytes → Prop} {x y : State} (h : auto c x = some y) : Step c recv x y := by
  unfold auto at h
  split at h
  · cases h; exact .doneRead _ _ _ _ _
  · cases h; exact .done _ _ _ _
  · cases h; exact .opened _ _ _ _ _ _
  · cases h; exact .txReady _ _ _ _ _ _
  · split at h
    · cases h; exact .rxReadyBusy _ _ _ _ _ _ ‹_›
    · rename_i hk; cases h; exact .rxReady _ _ _ _ _ _ (by simpa using hk)
  · cases h; exact .closed _ _ _ _ _ _
  · cases h; exact .ret _ _ _ _ _ _
  · cases h; exact .loop _ _ _ _ _ _
  · cases h

theorem settle_sound {c : Cfg} {kind : Transport} {E : Env} : ∀ (n : Nat) {x : State}, Reachable c kind E x →
    Reachable c kind E (settle c n x) := by
  intro n
  induction n with
  | zero => exact fun h => h
  | succ n ih =>
    intro x h
    unfold settle
    split
    · exact h
    · rename_i y hy; exact ih (h.step (auto_sound hy))

theorem run_sound {c : Cfg} {kind : Transport} {E : EnvB} : ∀ (script : List Choice) {x y : State},
    Reachable c kind E.env x → run c E x script = some y → Reachable c kind E.env y := by
  intro script
  induction script with
  | nil => intro x y hx h; cases h; exact hx
  | cons ch rest ih =>
    intro x y hx h
    unfold run at h
    split at h
    · cases h
    · rename_i z hz
      exact ih (settle_sound 12 (hx.step (next_sound hz))) h

/-- From the start of the session. -/
def final (c : Cfg) (kind : Transport) (E : EnvB) (h : InitiatorHandshake) (ready : Bool) (script : List Choice) : Option State :=
  run c E (settle c 12 (start c h kind ready)) script

/-- The state of the crypto layer if nobody has control. -/
def idle? : State → Option Layer
  | ⟨.idle s, _, _, _, _⟩ => some s
  | _ => none

theorem exists_of_map {α : Type} {c : Cfg} {kind : Transport} {E : EnvB} {h : InitiatorHandshake} {ready : Bool}
    (hc : h.Configured c.backend c.caps) {script : List Choice} {f : State → Layer → α} {a : α}
    (hf : (final c kind E h ready script).bind (fun x => (idle? x).map (f x)) = some a) :
    ∃ x s, Reachable c kind E.env x ∧ x.ctl = .idle s ∧ f x s = a := by
  rw [Option.bind_eq_some_iff] at hf
  obtain ⟨x, h1, h2⟩ := hf
  rw [Option.map_eq_some_iff] at h2
  obtain ⟨s, h2, h3⟩ := h2
  refine ⟨x, s, run_sound script (settle_sound 12 (.start h ready hc trivial)) h1, ?_, h3⟩
  unfold idle? at h2
  split at h2
  · cases h2; rfl
  · cases h2

theorem run_only {c : Cfg} {kind : Transport} {E : EnvB} {P : InitiatorHandshake → Prop} : ∀ (script : List Choice) {x y : State},
    Reachable c kind (E.only P) x → run c E x script = some y → Reachable c kind (E.only P) y := by
  intro script
  induction script with
  | nil => intro x y hx h; cases h; exact hx
  | cons ch rest ih =>
    intro x y hx h
    unfold run at h
    split at h
    · cases h
    · rename_i z hz
      exact ih (settle_sound 12 (hx.step (next_sound (E := E) hz))) h

/-- The same with the configuration of the initiator. -/
theorem exists_only {α : Type} {c : Cfg} {kind : Transport} {E : EnvB} {h : InitiatorHandshake} {ready : Bool}
    (hc : h.Configured c.backend c.caps) {script : List Choice} {f : State → Layer → α} {a : α}
    (hf : (final c kind E h ready script).bind (fun x => (idle? x).map (f x)) = some a) :
    ∃ x s, Reachable c kind (E.only (· = h)) x ∧ x.ctl = .idle s ∧ f x s = a := by
  rw [Option.bind_eq_some_iff] at hf
  obtain ⟨x, h1, h2⟩ := hf
  rw [Option.map_eq_some_iff] at h2
  obtain ⟨s, h2, h3⟩ := h2
  refine ⟨x, s, run_only script (settle_sound 12 (.start h ready hc rfl)) h1, ?_, h3⟩
  unfold idle? at h2
  split at h2
  · cases h2; rfl
  · cases h2

end Exec

namespace Example
open SSP21.Crypto.Bridge.Exec LayerExample

/-- The environment answers a query at time `t`. -/
def fr (t : Int) (b : UInt8 := 0) : Choice := .fresh ⟨t, List.replicate 32 b, none, fun _ => none, []⟩

/-- A proxy whose crypto layer is the responder of Verif/LayerExample.lean: the handshake. -/
def resUp : List Choice :=
  [.event .lowerRxReady, .recv request, fr 6, fr 6 8, fr 6 8, .event .lowerTxReady, .recv auth1, fr 8, fr 8, fr 8, fr 8]
/-- It receives data, which is written to the socket. -/
def resIn : List Choice := resUp ++ [.event .lowerTxReady, .recv data1, fr 11, fr 11, fr 11]

/-- A proxy whose crypto layer is the initiator. -/
def iniUp : List Choice :=
  [fr 5 9, fr 5 9, .event .lowerTxReady, .recv reply, fr 7, fr 7, fr 7, .event .lowerTxReady, .recv auth2, fr 9, fr 9, fr 9,
    .recv [], fr 9]
/-- A chunk arrives at its socket. -/
def iniOut : List Choice := iniUp ++ [.received [1, 2, 3], fr 10]

end Example
end SSP21.Crypto.Bridge
