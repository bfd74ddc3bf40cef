import Verif.Machine
/-
  What must happen: a call of a layer, with a clock that does not run backwards and a given sequence of messages
  waiting in the layer below, until the layer gives control back to its environment.
-/
namespace SSP21.Crypto

namespace Spec

/-- `P` is inevitable: it holds, or some step is possible and after every step `P` is inevitable. -/
inductive Inevitable {σ : Type} (step : σ → σ → Prop) (P : σ → Prop) : σ → Prop
  | now {x : σ} : P x → Inevitable step P x
  | later {x : σ} : (∃ y, step x y) → (∀ y, step x y → Inevitable step P y) → Inevitable step P x

/-- A configuration of the machine, with the time and the messages that the layer below will deliver. -/
structure Timed where
  clock : Int
  inbox : List Bytes
  config : Config

/-- One step of a layer that has control. The clock does not run backwards and does not exceed `T`; the layer below
delivers the messages in the inbox, one for each call, and nothing when there are no more; `A` says what the random
generator and the key store answer. -/
inductive Tick (c : Cfg) (A : Fresh → Prop) (T : Int) : Timed → Timed → Prop
  | done (t : Int) (ms : List Bytes) (s : Layer) (st : List (Layer → Run Unit)) :
      Tick c A T ⟨t, ms, ⟨.code (.done () s), st⟩⟩ ⟨t, ms, ⟨.env s, st⟩⟩
  | up (t : Int) (ms : List Bytes) (cb : UpCall) (s : Layer) (k : Layer → Run Unit) (st : List (Layer → Run Unit)) :
      Tick c A T ⟨t, ms, ⟨.code (.up cb s k), st⟩⟩ ⟨t, ms, ⟨.env s, k :: st⟩⟩
  | ask (t : Int) (ms : List Bytes) (f : Fresh) (k : Fresh → Run Unit) (st : List (Layer → Run Unit)) :
      f.ok → A f → t ≤ f.now → f.now ≤ T → Tick c A T ⟨t, ms, ⟨.code (.ask k), st⟩⟩ ⟨f.now, ms, ⟨.code (k f), st⟩⟩
  | recv (t : Int) (m : Bytes) (ms : List Bytes) (s : Layer) (k : Bytes → Run Unit) (st : List (Layer → Run Unit)) :
      Tick c A T ⟨t, m :: ms, ⟨.code (.recv s k), st⟩⟩ ⟨t, ms, ⟨.code (k m), st⟩⟩
  | nothing (t : Int) (s : Layer) (k : Bytes → Run Unit) (st : List (Layer → Run Unit)) :
      Tick c A T ⟨t, [], ⟨.code (.recv s k), st⟩⟩ ⟨t, [], ⟨.code (k []), st⟩⟩
  | loop (t : Int) (ms : List Bytes) (s : Layer) (k : Layer → Run Unit) (st : List (Layer → Run Unit)) :
      Tick c A T ⟨t, ms, ⟨.code (.loop s k), st⟩⟩
        ⟨t, ms, ⟨.code ((tryReadOne c s).bind (fun again s' => if again then .loop s' k else k s')), st⟩⟩

/-- The notification (or timer) `e` reaches a layer in state `s` at time `t`, with the messages `ms` waiting in the layer
below: the layer inevitably gives control to its environment - because it is done, or because it calls the application -
and then `Q` holds of the time and the state. -/
def Leads (c : Cfg) (A : Fresh → Prop) (T : Int) (e : Event) (t : Int) (ms : List Bytes) (s : Layer)
    (Q : Int → Layer → Prop) : Prop :=
  Inevitable (Tick c A T) (fun x => ∃ s', x.config.ctl = .env s' ∧ Q x.clock s') ⟨t, ms, ⟨.code (e.run c s), []⟩⟩

end Spec

open Spec

/-- Every such step is a step of the machine, in an environment that may deliver any message. -/
theorem Spec.Tick.step {c : Cfg} {A : Fresh → Prop} {T : Int} {E : Env} (hE : ∀ s m, E.recv s m) {x y : Timed}
    (h : Tick c A T x y) : Step c E x.config y.config := by
  cases h with
  | done t ms s st => exact .done s st
  | up t ms cb s k st => exact .up cb s k st
  | ask t ms f k st hok hA h1 h2 => exact .ask f k st hok
  | recv t m ms s k st => exact .recv m s k st (hE s m)
  | nothing t s k st => exact .recv [] s k st (hE s [])
  | loop t ms s k st => exact .loop s k st

theorem Spec.Inevitable.mono {σ : Type} {step : σ → σ → Prop} {P P' : σ → Prop} (hP : ∀ x, P x → P' x) {x : σ}
    (h : Inevitable step P x) : Inevitable step P' x := by
  induction h with
  | now h => exact .now (hP _ h)
  | later h1 _ ih => exact .later h1 ih

/-- What is inevitable happens in some execution. -/
theorem Spec.Inevitable.possible {σ : Type} {step : σ → σ → Prop} {P R : σ → Prop} (hR : ∀ x y, R x → step x y → R y) {x : σ}
    (h : Inevitable step P x) (hx : R x) : ∃ y, P y ∧ R y := by
  induction h with
  | now h => exact ⟨_, h, hx⟩
  | later h1 _ ih =>
    obtain ⟨y, hy⟩ := h1
    exact ih y hy (hR _ _ hx hy)

end SSP21.Crypto
