import Verif.Atoms
/-
  Computations of the layer that involve neither the application nor further messages: the processing of one
  message whose effects are confined to the layer.
-/
namespace SSP21.Crypto

/-- `r` comes to its end without calling the application and without reading a message, whatever the clock, the
random generator and the key store answer (`A` says which answers are possible), and it ends in a state
satisfying `Q`; undefined behaviour inside the backend occurs only if `F`. -/
def Run.Quietly {α : Type} (A : Fresh → Prop) (F : Prop) (Q : α → Layer → Prop) : Run α → Prop
  | .done a s => Q a s
  | .ask k => ∀ f, A f → (k f).Quietly A F Q
  | .fault => F
  | .up _ _ _ => False
  | .recv _ _ => False
  | .loop _ _ => False

theorem Run.quietly_bind {α β : Type} {A : Fresh → Prop} {F : Prop} {Q : β → Layer → Prop} (r : Run α) (f : α → Layer → Run β) :
    (r.bind f).Quietly A F Q ↔ r.Quietly A F (fun a s => (f a s).Quietly A F Q) := by
  induction r <;> simp_all [Run.bind, Run.Quietly]

/-- The rule for computations. -/
def M.quietly {α : Type} (A : Fresh → Prop) (F : Prop) (m : M α) (Q : α → Layer → Prop) (s : Layer) : Prop :=
  (m s).Quietly A F Q

section
variable {α β : Type} {A : Fresh → Prop} {F : Prop}

theorem M.quietly_mono {m : M α} {Q Q' : α → Layer → Prop} {s : Layer} (h : ∀ a s, Q a s → Q' a s)
    (hm : m.quietly A F Q s) : m.quietly A F Q' s := by
  unfold M.quietly at *
  generalize m s = r at *
  induction r with
  | done a s => exact h a s hm
  | ask k ih => exact fun f hf => ih f (hm f hf)
  | fault => exact hm
  | up cb s k ih => exact hm
  | recv s k ih => exact hm
  | loop s k ih => exact hm

@[simp] theorem qt_bind (m : M α) (f : α → M β) (Q : β → Layer → Prop) (s : Layer) :
    (m >>= f).quietly A F Q s ↔ m.quietly A F (fun a s' => (f a).quietly A F Q s') s := Run.quietly_bind _ _
@[simp] theorem qt_pure (a : α) (Q : α → Layer → Prop) (s : Layer) : (pure a : M α).quietly A F Q s ↔ Q a s := Iff.rfl
@[simp] theorem qt_get (Q : Layer → Layer → Prop) (s : Layer) : get.quietly A F Q s ↔ Q s s := Iff.rfl
@[simp] theorem qt_modify (f : Layer → Layer) (Q : Unit → Layer → Prop) (s : Layer) :
    (modify f).quietly A F Q s ↔ Q () (f s) := Iff.rfl
@[simp] theorem qt_ask (Q : Fresh → Layer → Prop) (s : Layer) : ask.quietly A F Q s ↔ ∀ f, A f → Q f s := Iff.rfl
@[simp] theorem qt_fault (Q : α → Layer → Prop) (s : Layer) : (fault : M α).quietly A F Q s ↔ F := Iff.rfl
@[simp] theorem qt_note (o : Obs) (Q : Unit → Layer → Prop) (s : Layer) :
    (note o).quietly A F Q s ↔ Q () { s with log := s.log ++ [o] } := Iff.rfl
@[simp] theorem qt_act (a : Act) (Q : Unit → Layer → Prop) (s : Layer) :
    (act a).quietly A F Q s ↔ Q () { s with acts := s.acts ++ [(s.log.length, a)] } := Iff.rfl
@[simp] theorem qt_modifyIni (f : Ini → Ini) (Q : Unit → Layer → Prop) (s : Layer) :
    (modifyIni f).quietly A F Q s ↔ Q () { s with ini := f s.ini } := Iff.rfl
@[simp] theorem qt_ite (p : Prop) [Decidable p] (m n : M α) (Q : α → Layer → Prop) (s : Layer) :
    (if p then m else n).quietly A F Q s ↔ (p → m.quietly A F Q s) ∧ (¬ p → n.quietly A F Q s) := by
  by_cases h : p <;> simp [h]
@[simp] theorem qt_getTime (Q : Int → Layer → Prop) (s : Layer) :
    getTime.quietly A F Q s ↔ ∀ f : Fresh, A f → Q f.now s := by simp [getTime]
@[simp] theorem qt_lowerStartTx (frame : Bytes) (Q : Bool → Layer → Prop) (s : Layer) :
    (lowerStartTx frame).quietly A F Q s ↔
      Q s.lowerReady { s with log := s.log ++ [.lowerTx frame s.lowerReady], lowerReady := false } := by
  simp [lowerStartTx]

end

/-- Any number of steps. -/
inductive Steps (c : Cfg) (E : Env) : Config → Config → Prop
  | refl (x : Config) : Steps c E x x
  | step {x y z : Config} : Step c E x y → Steps c E y z → Steps c E x z

/-- The meaning of `Quietly` in executions: as long as `r` runs the environment has no control, and what follows
starts in a state satisfying `Q`. -/
theorem Run.Quietly.sound {α : Type} {c : Cfg} {E : Env} {F : Prop} {Q : α → Layer → Prop} (f : α → Layer → Run Unit)
    (st : List (Layer → Run Unit)) (hF : ¬ F) (r : Run α) (h : r.Quietly Fresh.ok F Q) {y : Config}
    (hs : Steps c E ⟨.code (r.bind f), st⟩ y) :
    (∃ r' : Run α, y = ⟨.code (r'.bind f), st⟩ ∧ r'.Quietly Fresh.ok F Q) ∨
    ∃ a s', Q a s' ∧ Steps c E ⟨.code (f a s'), st⟩ y := by
  induction r with
  | done a s => exact .inr ⟨a, s, h, hs⟩
  | ask k ih =>
    cases hs with
    | refl => exact .inl ⟨.ask k, rfl, h⟩
    | step h1 h2 =>
      simp only [Run.bind] at h1
      cases h1 with
      | ask g _ _ hg => exact ih g (h g hg) h2
  | fault => exact absurd h hF
  | up cb s k ih => exact absurd h id
  | recv s k ih => exact absurd h id
  | loop s k ih => exact absurd h id

end SSP21.Crypto
