import Verif.AtomFields
import Verif.Toy
/-
  An interpreter for executions of Verif/Machine.lean, used to exhibit concrete executions: what it computes is
  reachable (`Exec.sound`).
-/
namespace SSP21.Crypto

/-- Decidable assumptions about the environment. -/
structure EnvB where
  nested : Layer → Api → Bool
  recv : Layer → Bytes → Bool

/-- As a proposition. -/
def EnvB.env (E : EnvB) : Env := ⟨fun _ => True, fun s a => E.nested s a = true, fun s m => E.recv s m = true⟩

/-- The same, with a given configuration of the initiator. -/
def EnvB.only (E : EnvB) (P : InitiatorHandshake → Prop) : Env := { E.env with config := P }

/-- Every environment. -/
def EnvB.any : EnvB := ⟨fun _ _ => true, fun _ _ => true⟩
/-- No nested reads, nothing received while closed. -/
def EnvB.tame : EnvB := ⟨fun _ a => match a with | .startRx => false | _ => true, fun s m => s.isOpen || m.isEmpty⟩

theorem EnvB.tame_noNestedRx : EnvB.tame.env.NoNestedRx := by
  intro s h
  simp [EnvB.env, EnvB.tame] at h

theorem EnvB.tame_silent : EnvB.tame.env.SilentWhenClosed := by
  intro s m h hm
  simp only [EnvB.env, EnvB.tame, Bool.or_eq_true, List.isEmpty_iff] at h
  exact h.resolve_right hm

/-- More behaviours of the environment, more executions. Only the states that occur matter. -/
theorem Reachable.restrict {c : Cfg} {E E' : Env} (hg : ∀ h, E.config h → E'.config h)
    (hn : ∀ s a, Observed c E s → E.nested s a → E'.nested s a)
    (hr : ∀ s m, E.recv s m → E'.recv s m) {x : Config} (h : Reachable c E x) : Reachable c E' x := by
  induction h with
  | init hs hc he => exact .init hs hc (hg hs he)
  | step h0 h ih =>
    refine ih.step ?_
    cases h with
    | event e s he => exact .event e s he
    | api a s => exact .api a s
    | nestedApi a s k st ha => exact .nestedApi a s k st (hn s a (.inl ⟨_, h0⟩) ha)
    | ret s k st => exact .ret s k st
    | done s st => exact .done s st
    | up cb s k st => exact .up cb s k st
    | ask f k st hf => exact .ask f k st hf
    | recv m s k st hm => exact .recv m s k st (hr s m hm)
    | loop s k st => exact .loop s k st

/-- More behaviours of the environment, more executions. -/
theorem Reachable.mono {c : Cfg} {E E' : Env} (hg : ∀ h, E.config h → E'.config h) (hn : ∀ s a, E.nested s a → E'.nested s a)
    (hr : ∀ s m, E.recv s m → E'.recv s m) {x : Config} (h : Reachable c E x) : Reachable c E' x :=
  h.restrict hg (fun s a _ => hn s a) hr

theorem Observed.mono {c : Cfg} {E E' : Env} (hg : ∀ h, E.config h → E'.config h) (hn : ∀ s a, E.nested s a → E'.nested s a)
    (hr : ∀ s m, E.recv s m → E'.recv s m) {s : Layer} (h : Observed c E s) : Observed c E' s := by
  obtain ⟨st, h⟩ | ⟨k, st, h⟩ := h
  · exact .inl ⟨st, h.mono hg hn hr⟩
  · exact .inr ⟨k, st, h.mono hg hn hr⟩

theorem Observed.any {c : Cfg} {E : Env} {s : Layer} (h : Observed c E s) : Observed c anyEnv s :=
  h.mono (fun _ _ => trivial) (fun _ _ _ => trivial) (fun _ _ _ => trivial)

namespace Exec

/-- What the environment does next. -/
inductive Choice
  | event (e : Event)
  | api (a : Api)
  | ret
  | fresh (f : Fresh)
  | recv (m : Bytes)

instance (s : Layer) (e : Event) : Decidable (e.enabled s) := by
  cases e with
  | expiry e => cases e <;> simp only [Event.enabled] <;> infer_instance
  | _ => simp only [Event.enabled]; infer_instance

instance (f : Fresh) : Decidable f.ok := by unfold Fresh.ok; infer_instance

/-- Execute a choice of the environment. -/
def next (c : Cfg) (E : EnvB) : Config → Choice → Option Config
  | ⟨.env s, []⟩, .event e => if e.enabled s then some ⟨.code (e.run c s), []⟩ else none
  | ⟨.env s, []⟩, .api a => some ⟨.code (a.run c s), []⟩
  | ⟨.env s, k :: st⟩, .api a => if E.nested s a then some ⟨.code (a.run c s), k :: st⟩ else none
  | ⟨.env s, k :: st⟩, .ret => some ⟨.code (k s), st⟩
  | ⟨.code (.ask k), st⟩, .fresh f => if f.ok then some ⟨.code (k f), st⟩ else none
  | ⟨.code (.recv s k), st⟩, .recv m => if E.recv s m then some ⟨.code (k m), st⟩ else none
  | _, _ => none

/-- Continue until the environment has to choose (at most `n` steps). -/
def settle (c : Cfg) : Nat → Config → Config
  | 0, x => x
  | n + 1, ⟨.code (.done () s), st⟩ => settle c n ⟨.env s, st⟩
  | n + 1, ⟨.code (.up _ s k), st⟩ => settle c n ⟨.env s, k :: st⟩
  | n + 1, ⟨.code (.loop s k), st⟩ =>
    settle c n ⟨.code ((tryReadOne c s).bind (fun again s' => if again then .loop s' k else k s')), st⟩
  | _, x => x

/-- Execute a script. -/
def run (c : Cfg) (E : EnvB) : Config → List Choice → Option Config
  | x, [] => some x
  | x, ch :: rest =>
    match next c E x ch with
    | none => none
    | some y => run c E (settle c 4 y) rest

/-- The state if the environment has control. -/
def quiet : Config → Option Layer
  | ⟨.env s, []⟩ => some s
  | _ => none

/-- From a new layer to a state in which no function is active. -/
def final (c : Cfg) (E : EnvB) (h : InitiatorHandshake) (script : List Choice) : Option Layer :=
  (run c E ⟨.env (Layer.new c h), []⟩ script).bind quiet

theorem next_sound {c : Cfg} {E : EnvB} {P : InitiatorHandshake → Prop} {x y : Config} {ch : Choice} (h : next c E x ch = some y) :
    Step c (E.only P) x y := by
  unfold next at h
  split at h
  · split at h
    · cases h; exact .event _ _ ‹_›
    · cases h
  · cases h; exact .api _ _
  · split at h
    · cases h; exact .nestedApi _ _ _ _ ‹_›
    · cases h
  · cases h; exact .ret _ _ _
  · split at h
    · cases h; exact .ask _ _ _ ‹_›
    · cases h
  · split at h
    · cases h; exact .recv _ _ _ _ ‹_›
    · cases h
  · cases h

theorem settle_sound {c : Cfg} {E : Env} : ∀ (n : Nat) {x : Config}, Reachable c E x → Reachable c E (settle c n x) := by
  intro n
  induction n with
  | zero => exact fun h => h
  | succ n ih =>
    intro x h
    unfold settle
    split
    · exact h
    · rename_i heq; cases heq; exact ih (h.step (.done _ _))
    · rename_i heq; cases heq; exact ih (h.step (.up _ _ _ _))
    · rename_i heq; cases heq; exact ih (h.step (.loop _ _ _))
    · exact h

theorem run_sound {c : Cfg} {E : EnvB} {P : InitiatorHandshake → Prop} : ∀ (script : List Choice) {x y : Config},
    Reachable c (E.only P) x → run c E x script = some y → Reachable c (E.only P) y := by
  intro script
  induction script with
  | nil => intro x y hx h; cases h; exact hx
  | cons ch rest ih =>
    intro x y hx h
    unfold run at h
    split at h
    · cases h
    · rename_i z hz
      exact ih (settle_sound 4 (hx.step (next_sound hz))) h

theorem final_sound {c : Cfg} {E : EnvB} {P : InitiatorHandshake → Prop} {h : InitiatorHandshake}
    (hc : h.Configured c.backend c.caps) (hP : P h)
    {script : List Choice} {s : Layer} (hf : final c E h script = some s) : Quiet c (E.only P) s := by
  unfold final at hf
  rw [Option.bind_eq_some_iff] at hf
  obtain ⟨x, hx, hq⟩ := hf
  have := run_sound (P := P) script (.init h hc hP) hx
  unfold quiet at hq
  split at hq
  · cases hq; exact this
  · cases hq

theorem exists_of_map {α : Type} {c : Cfg} {E : EnvB} {h : InitiatorHandshake}
    (hc : h.Configured c.backend c.caps) {script : List Choice} {f : Layer → α} {a : α} (hf : (final c E h script).map f = some a) : ∃ s, Quiet c E.env s ∧ f s = a := by
  rw [Option.map_eq_some_iff] at hf
  obtain ⟨s, h1, h2⟩ := hf
  exact ⟨s, final_sound (P := fun _ => True) hc trivial h1, h2⟩

theorem exists_only {α : Type} {c : Cfg} {E : EnvB} {h : InitiatorHandshake}
    (hc : h.Configured c.backend c.caps) {script : List Choice} {f : Layer → α} {a : α} (hf : (final c E h script).map f = some a) :
    ∃ s, Quiet c (E.only (· = h)) s ∧ f s = a := by
  rw [Option.map_eq_some_iff] at hf
  obtain ⟨s, h1, h2⟩ := hf
  exact ⟨s, final_sound (P := (· = h)) hc rfl h1, h2⟩

end Exec

theorem Quiet.observed {c : Cfg} {E : Env} {s : Layer} (h : Quiet c E s) : Observed c E s := .inl ⟨[], h⟩

theorem Quiet.any {c : Cfg} {E : Env} {s : Layer} (h : Quiet c E s) : Observed c anyEnv s := h.observed.any

end SSP21.Crypto
