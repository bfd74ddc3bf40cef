import Verif.Machine
import Verif.Spec.Request
import Verif.Spec.History
/-
  Specification for C56: executions of a layer in which an observer of the layer below keeps track of whether there may be a
  message to read.
-/
namespace SSP21.Crypto

/-- What an event tells an observer who believes `b`. -/
def Event.due (s : Layer) (b : Bool) : Event → Bool
  | .lowerRxReady => true
  | .lowerOpen _ => b && Spec.belowOpen s.log
  | _ => b

/-- The steps of `Step` with an observer. The Boolean says whether the layer below has announced a message
(`on_lower_rx_ready`) and has not answered "nothing to read" (an empty slice) since. What was announced before the
layer below opened does not count. -/
inductive WatchedStep (c : Cfg) (E : Env) : Config × Bool → Config × Bool → Prop
  | event (e : Event) (s : Layer) (b : Bool) : e.enabled s →
      WatchedStep c E (⟨.env s, []⟩, b) (⟨.code (e.run c s), []⟩, e.due s b)
  | api (a : Api) (s : Layer) (b : Bool) : WatchedStep c E (⟨.env s, []⟩, b) (⟨.code (a.run c s), []⟩, b)
  | nestedApi (a : Api) (s : Layer) (k : Layer → Run Unit) (st : List (Layer → Run Unit)) (b : Bool) : E.nested s a →
      WatchedStep c E (⟨.env s, k :: st⟩, b) (⟨.code (a.run c s), k :: st⟩, b)
  | ret (s : Layer) (k : Layer → Run Unit) (st : List (Layer → Run Unit)) (b : Bool) :
      WatchedStep c E (⟨.env s, k :: st⟩, b) (⟨.code (k s), st⟩, b)
  | done (s : Layer) (st : List (Layer → Run Unit)) (b : Bool) :
      WatchedStep c E (⟨.code (.done () s), st⟩, b) (⟨.env s, st⟩, b)
  | up (cb : UpCall) (s : Layer) (k : Layer → Run Unit) (st : List (Layer → Run Unit)) (b : Bool) :
      WatchedStep c E (⟨.code (.up cb s k), st⟩, b) (⟨.env s, k :: st⟩, b)
  | ask (f : Fresh) (k : Fresh → Run Unit) (st : List (Layer → Run Unit)) (b : Bool) : f.ok →
      WatchedStep c E (⟨.code (.ask k), st⟩, b) (⟨.code (k f), st⟩, b)
  | recv (m : Bytes) (s : Layer) (k : Bytes → Run Unit) (st : List (Layer → Run Unit)) (b : Bool) : E.recv s m →
      WatchedStep c E (⟨.code (.recv s k), st⟩, b) (⟨.code (k m), st⟩, b && !m.isEmpty)
  | loop (s : Layer) (k : Layer → Run Unit) (st : List (Layer → Run Unit)) (b : Bool) :
      WatchedStep c E (⟨.code (.loop s k), st⟩, b)
        (⟨.code ((tryReadOne c s).bind (fun again s' => if again then .loop s' k else k s')), st⟩, b)

/-- The configurations that can be reached from a newly constructed layer. -/
inductive Watched (c : Cfg) (E : Env) : Config × Bool → Prop
  | init (handshake : InitiatorHandshake) : handshake.Configured c.backend c.caps → E.config handshake →
      Watched c E (⟨.env (Layer.new c handshake), []⟩, false)
  | step {x y : Config × Bool} : Watched c E x → WatchedStep c E x y → Watched c E y

/-- No function of the layer is active, and the observer believes `b`. -/
def QuietWatched (c : Cfg) (E : Env) (s : Layer) (b : Bool) : Prop := Watched c E (⟨.env s, []⟩, b)

/-- The observer does not interfere. -/
theorem WatchedStep.step {c : Cfg} {E : Env} {x y : Config × Bool} (h : WatchedStep c E x y) : Step c E x.1 y.1 := by
  cases h <;> constructor <;> assumption

theorem Step.watched {c : Cfg} {E : Env} {x y : Config} (h : Step c E x y) (b : Bool) :
    ∃ b', WatchedStep c E (x, b) (y, b') := by
  cases h <;> exact ⟨_, by constructor <;> assumption⟩

theorem Watched.reachable {c : Cfg} {E : Env} {x : Config × Bool} (h : Watched c E x) : Reachable c E x.1 := by
  induction h with
  | init hs h1 h2 => exact .init hs h1 h2
  | step _ hs ih => exact .step ih hs.step

/-- Every execution can be observed. -/
theorem Reachable.watched {c : Cfg} {E : Env} {x : Config} (h : Reachable c E x) : ∃ b, Watched c E (x, b) := by
  induction h with
  | init hs h1 h2 => exact ⟨_, .init hs h1 h2⟩
  | step _ hs ih =>
    obtain ⟨b, hb⟩ := ih
    obtain ⟨b', hb'⟩ := hs.watched b
    exact ⟨b', .step hb hb'⟩

theorem QuietWatched.quiet {c : Cfg} {E : Env} {s : Layer} {b : Bool} (h : QuietWatched c E s b) : Quiet c E s := h.reachable

namespace Spec

/-- Effect of an element of the history on whether a transmission has failed since the layer below was closed last: a
session auth reply or session data that cannot be formatted. -/
def failedStep (failed : Bool) : Ev → Bool
  | .act (.notSent false) => true
  | .act .dropped => true
  | .obs .lowerClose => false
  | _ => failed

/-- Whether a transmission has failed since the layer below was closed last. -/
def failed (h : List Ev) : Bool := h.foldl failedStep false

end Spec

end SSP21.Crypto
