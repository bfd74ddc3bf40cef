import Verif.Spec.Inevitable
/-
  Proof rule for what a call of a layer inevitably leads to.
-/
namespace SSP21.Crypto
open Spec


/-- `r` comes to its end, with `Q` of the time, the messages that are left, the result and the state; when it calls the
application, the state satisfies `S`, and the application, which is not told to read, returns at once. -/
inductive Run.Ends {α : Type} (c : Cfg) (A : Fresh → Prop) (T : Int) (S : Int → Layer → Prop)
    (Q : Int → List Bytes → α → Layer → Prop) : Int → List Bytes → Run α → Prop
  | done {t : Int} {ms : List Bytes} {a : α} {s : Layer} : Q t ms a s → Run.Ends c A T S Q t ms (.done a s)
  | up {t : Int} {ms : List Bytes} {cb : UpCall} {s : Layer} {k : Layer → Run α} : S t s → s.log.getLast? ≠ some (.up .rxReady) →
      Run.Ends c A T S Q t ms (k s) → Run.Ends c A T S Q t ms (.up cb s k)
  | ask {t : Int} {ms : List Bytes} {k : Fresh → Run α} : t ≤ T →
      (∀ f : Fresh, f.ok → A f → t ≤ f.now → f.now ≤ T → Run.Ends c A T S Q f.now ms (k f)) → Run.Ends c A T S Q t ms (.ask k)
  | recv {t : Int} {m : Bytes} {ms : List Bytes} {s : Layer} {k : Bytes → Run α} : Run.Ends c A T S Q t ms (k m) →
      Run.Ends c A T S Q t (m :: ms) (.recv s k)
  | nothing {t : Int} {s : Layer} {k : Bytes → Run α} : Run.Ends c A T S Q t [] (k []) → Run.Ends c A T S Q t [] (.recv s k)
  | loop {t : Int} {ms : List Bytes} {s : Layer} {k : Layer → Run α} :
      Run.Ends c A T S Q t ms ((tryReadOne c s).bind (fun again s' => if again then .loop s' k else k s')) →
      Run.Ends c A T S Q t ms (.loop s k)

theorem Run.bind_assoc {α β γ : Type} (r : Run α) (f : α → Layer → Run β) (g : β → Layer → Run γ) :
    (r.bind f).bind g = r.bind (fun a s => (f a s).bind g) := by
  induction r <;> simp_all [Run.bind]

theorem Run.Ends.bind {α β : Type} {c : Cfg} {A : Fresh → Prop} {T : Int} {S : Int → Layer → Prop}
    {Q : Int → List Bytes → α → Layer → Prop} {Q' : Int → List Bytes → β → Layer → Prop} {f : α → Layer → Run β}
    (hf : ∀ t ms a s, Q t ms a s → (f a s).Ends c A T S Q' t ms) {t : Int} {ms : List Bytes} {r : Run α}
    (h : r.Ends c A T S Q t ms) : (r.bind f).Ends c A T S Q' t ms := by
  induction h with
  | done h => exact hf _ _ _ _ h
  | up h1 h2 _ ih => exact .up h1 h2 ih
  | ask h1 _ ih => exact .ask h1 ih
  | recv _ ih => exact .recv ih
  | nothing _ ih => exact .nothing ih
  | loop _ ih =>
    refine .loop ?_
    rw [Run.bind_assoc] at ih
    rename_i k _
    have e : (fun (again : Bool) (s' : Layer) => (if again then Run.loop s' k else k s').bind f) =
        fun again s' => if again then Run.loop s' (fun s' => (k s').bind f) else (k s').bind f := by
      funext again s'
      cases again <;> rfl
    rw [e] at ih
    exact ih

/-- The meaning of `Ends` in the machine. -/
theorem Run.Ends.inevitable {c : Cfg} {A : Fresh → Prop} {T : Int} {S : Int → Layer → Prop}
    {Q : Int → List Bytes → Unit → Layer → Prop} (hA : ∀ t, t ≤ T → ∃ f : Fresh, f.ok ∧ A f ∧ f.now = t)
    (st : List (Layer → Run Unit)) {t : Int} {ms : List Bytes} {r : Run Unit} (ht : t ≤ T) (h : r.Ends c A T S Q t ms)
    {P : Int → Layer → Prop} (hS : ∀ t s, t ≤ T → S t s → P t s) (hQ : ∀ t ms s, t ≤ T → Q t ms () s → P t s) :
    Inevitable (Tick c A T) (fun x => ∃ s', x.config.ctl = .env s' ∧ P x.clock s') ⟨t, ms, ⟨.code r, st⟩⟩ := by
  induction h with
  | done h =>
    refine .later ⟨_, .done _ _ _ _⟩ fun y hy => ?_
    cases hy
    exact .now ⟨_, rfl, hQ _ _ _ ht h⟩
  | up h _ _ _ =>
    refine .later ⟨_, .up _ _ _ _ _ _⟩ fun y hy => ?_
    cases hy
    exact .now ⟨_, rfl, hS _ _ ht h⟩
  | ask h1 _ ih =>
    obtain ⟨f, f1, f2, f3⟩ := hA _ h1
    refine .later ⟨_, .ask _ _ f _ _ f1 f2 (by omega) (by omega)⟩ fun y hy => ?_
    cases hy with
    | ask _ _ f _ _ g1 g2 g3 g4 => exact ih f g1 g2 g3 g4 g4
  | recv _ ih =>
    refine .later ⟨_, .recv _ _ _ _ _ _⟩ fun y hy => ?_
    cases hy
    exact ih ht
  | nothing _ ih =>
    refine .later ⟨_, .nothing _ _ _ _⟩ fun y hy => ?_
    cases hy
    exact ih ht
  | loop _ ih =>
    refine .later ⟨_, .loop _ _ _ _ _⟩ fun y hy => ?_
    cases hy
    exact ih ht

/-! ### Straight code -/

/-- The same for computations that do not read from the layer below. -/
def Run.Through {α : Type} (A : Fresh → Prop) (T : Int) (S : Int → Layer → Prop) (Q : Int → α → Layer → Prop) : Int → Run α → Prop
  | t, .done a s => Q t a s
  | t, .up _ s k => S t s ∧ s.log.getLast? ≠ some (.up .rxReady) ∧ (k s).Through A T S Q t
  | t, .ask k => ∀ f : Fresh, f.ok → A f → t ≤ f.now → f.now ≤ T → (k f).Through A T S Q f.now
  | _, .recv _ _ => False
  | _, .loop _ _ => False
  | _, .fault => False

theorem Run.through_bind {α β : Type} {A : Fresh → Prop} {T : Int} {S : Int → Layer → Prop} {Q : Int → β → Layer → Prop}
    (r : Run α) (f : α → Layer → Run β) (t : Int) :
    (r.bind f).Through A T S Q t ↔ r.Through A T S (fun t a s => (f a s).Through A T S Q t) t := by
  induction r generalizing t <;> simp_all [Run.bind, Run.Through]

theorem Run.Through.ends {α : Type} {c : Cfg} {A : Fresh → Prop} {T : Int} {S : Int → Layer → Prop} {Q : Int → α → Layer → Prop}
    {r : Run α} {t : Int} (ht : t ≤ T) (ms : List Bytes) (h : r.Through A T S Q t) :
    r.Ends c A T S (fun t ms' a s => ms' = ms ∧ t ≤ T ∧ Q t a s) t ms := by
  induction r generalizing t with
  | done a s => exact .done ⟨rfl, ht, h⟩
  | up cb s k ih => exact .up h.1 h.2.1 (ih s ht h.2.2)
  | ask k ih => exact .ask ht fun f h1 h2 h3 h4 => ih f h4 (h f h1 h2 h3 h4)
  | recv s k ih => exact absurd h id
  | loop s k ih => exact absurd h id
  | fault => exact absurd h id

/-- The rule for computations. -/
def M.through {α : Type} (A : Fresh → Prop) (T : Int) (S : Int → Layer → Prop) (m : M α) (Q : Int → α → Layer → Prop) (t : Int)
    (s : Layer) : Prop := (m s).Through A T S Q t

section
variable {α β : Type} {A : Fresh → Prop} {T : Int} {S : Int → Layer → Prop} {t : Int}

theorem M.through_mono {m : M α} {Q Q' : Int → α → Layer → Prop} {s : Layer} (h : ∀ t a s, Q t a s → Q' t a s)
    (hm : m.through A T S Q t s) : m.through A T S Q' t s := by
  unfold M.through at *
  generalize m s = r at *
  induction r generalizing t with
  | done a s => exact h _ a s hm
  | ask k ih => exact fun f h1 h2 h3 h4 => ih f (hm f h1 h2 h3 h4)
  | fault => exact hm
  | up cb s k ih => exact ⟨hm.1, hm.2.1, ih s hm.2.2⟩
  | recv s k ih => exact hm
  | loop s k ih => exact hm

@[simp] theorem th_bind (m : M α) (f : α → M β) (Q : Int → β → Layer → Prop) (s : Layer) :
    (m >>= f).through A T S Q t s ↔ m.through A T S (fun t a s' => (f a).through A T S Q t s') t s := Run.through_bind _ _ _
@[simp] theorem th_pure (a : α) (Q : Int → α → Layer → Prop) (s : Layer) : (pure a : M α).through A T S Q t s ↔ Q t a s := Iff.rfl
@[simp] theorem th_get (Q : Int → Layer → Layer → Prop) (s : Layer) : get.through A T S Q t s ↔ Q t s s := Iff.rfl
@[simp] theorem th_modify (f : Layer → Layer) (Q : Int → Unit → Layer → Prop) (s : Layer) :
    (modify f).through A T S Q t s ↔ Q t () (f s) := Iff.rfl
@[simp] theorem th_ask (Q : Int → Fresh → Layer → Prop) (s : Layer) : ask.through A T S Q t s ↔
    ∀ f : Fresh, f.ok → A f → t ≤ f.now → f.now ≤ T → Q f.now f s := Iff.rfl
@[simp] theorem th_note (o : Obs) (Q : Int → Unit → Layer → Prop) (s : Layer) :
    (note o).through A T S Q t s ↔ Q t () { s with log := s.log ++ [o] } := Iff.rfl
@[simp] theorem th_act (a : Act) (Q : Int → Unit → Layer → Prop) (s : Layer) :
    (act a).through A T S Q t s ↔ Q t () { s with acts := s.acts ++ [(s.log.length, a)] } := Iff.rfl
@[simp] theorem th_modifyIni (f : Ini → Ini) (Q : Int → Unit → Layer → Prop) (s : Layer) :
    (modifyIni f).through A T S Q t s ↔ Q t () { s with ini := f s.ini } := Iff.rfl
@[simp] theorem th_ite (p : Prop) [Decidable p] (m n : M α) (Q : Int → α → Layer → Prop) (s : Layer) :
    (if p then m else n).through A T S Q t s ↔ (p → m.through A T S Q t s) ∧ (¬ p → n.through A T S Q t s) := by
  by_cases h : p <;> simp [h]
@[simp] theorem th_getTime (Q : Int → Int → Layer → Prop) (s : Layer) :
    getTime.through A T S Q t s ↔ ∀ f : Fresh, f.ok → A f → t ≤ f.now → f.now ≤ T → Q f.now f.now s := by simp [getTime]
@[simp] theorem th_lowerStartTx (frame : Bytes) (Q : Int → Bool → Layer → Prop) (s : Layer) :
    (lowerStartTx frame).through A T S Q t s ↔
      Q t s.lowerReady { s with log := s.log ++ [.lowerTx frame s.lowerReady], lowerReady := false } := by
  simp [lowerStartTx]
@[simp] theorem th_upcall (cb : UpCall) (Q : Int → Unit → Layer → Prop) (s : Layer) :
    (upcall cb).through A T S Q t s ↔ S t { s with log := s.log ++ [.up cb] } ∧ cb ≠ .rxReady ∧ Q t () { s with log := s.log ++ [.up cb] } := by
  show _ ∧ _ ∧ _ ↔ _
  simp [Run.Through]

end

/-! ### The receive loop -/

section
variable {c : Cfg} {A : Fresh → Prop} {T : Int} {S : Int → Layer → Prop} {Q : Int → List Bytes → Unit → Layer → Prop}
  {t : Int} {s : Layer} {k : Layer → Run Unit}

theorem loop_stop {ms : List Bytes} (h : s.lowerReady = false ∨ s.payloadLen ≠ 0) (hk : (k s).Ends c A T S Q t ms) :
    (Run.loop s k).Ends c A T S Q t ms := by
  refine .loop ?_
  have e : tryReadOne c s = .done false s := by
    unfold tryReadOne
    show (if !s.lowerReady || s.payloadLen ≠ 0 then _ else _ : M Bool) s = _
    rw [if_pos (by simpa using h)]
    rfl
  rw [e]
  exact hk

theorem tryReadOne_reads (hr : s.lowerReady = true) (hp : s.payloadLen = 0) :
    tryReadOne c s = .recv s fun m => .ask fun f =>
      (if m = [] then .done false { s with buf := f.scratch } else
        ((process c m) { s with buf := f.scratch, log := s.log ++ [.recv m] }).bind fun _ s' => .done true s') := by
  unfold tryReadOne
  show (if !s.lowerReady || s.payloadLen ≠ 0 then _ else _ : M Bool) s = _
  rw [if_neg (by simp [hr, hp])]
  show Run.recv s _ = _
  congr 1
  funext m
  show Run.ask _ = _
  congr 1
  funext f
  by_cases hm : m = []
  · subst hm; rfl
  · simp only [hm, if_false]
    show (if m = [] then _ else _ : M Bool) _ = _
    rw [if_neg hm]
    rfl

theorem loop_empty (ht : t ≤ T) (hr : s.lowerReady = true) (hp : s.payloadLen = 0)
    (hk : ∀ f : Fresh, f.ok → A f → t ≤ f.now → f.now ≤ T → (k { s with buf := f.scratch }).Ends c A T S Q f.now []) :
    (Run.loop s k).Ends c A T S Q t [] := by
  refine .loop ?_
  rw [tryReadOne_reads hr hp]
  refine .nothing (.ask ht fun f h1 h2 h3 h4 => ?_)
  exact hk f h1 h2 h3 h4

theorem loop_message {m : Bytes} {ms : List Bytes} (ht : t ≤ T) (hr : s.lowerReady = true) (hp : s.payloadLen = 0) (hm : m ≠ [])
    {P : Int → Layer → Prop}
    (hk : ∀ f : Fresh, f.ok → A f → t ≤ f.now → f.now ≤ T →
      (process c m).through A T S (fun t' _ s' => P t' s') f.now { s with buf := f.scratch, log := s.log ++ [.recv m] })
    (hP : ∀ t' s', t' ≤ T → P t' s' → (Run.loop s' k).Ends c A T S Q t' ms) :
    (Run.loop s k).Ends c A T S Q t (m :: ms) := by
  refine .loop ?_
  rw [tryReadOne_reads hr hp]
  refine .recv (.ask ht fun f h1 h2 h3 h4 => ?_)
  dsimp only
  rw [if_neg hm]
  simp only [Run.bind_assoc]
  refine Run.Ends.bind ?_ (Run.Through.ends h4 ms (hk f h1 h2 h3 h4))
  rintro t' ms' _ s' ⟨rfl, h5, h6⟩
  exact hP t' s' h5 h6

end

end SSP21.Crypto
