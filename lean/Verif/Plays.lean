import Verif.Spec.Carry
import Verif.Ends
/-
  Proof rule for calls of a layer whose application reads when it is told to.
-/
namespace SSP21.Crypto
open Spec

/-- The application takes the payload that the layer holds. -/
def Layer.givenOut (s : Layer) : Layer := { s with log := s.log ++ [.rxCall, .startRx s.payload], rxFlag := true }

theorem startRx_givenOut {s : Layer} (hf : s.rxFlag = false) (hp : s.payloadLen ≠ 0) : startRx s = .done () s.givenOut := by
  obtain ⟨isOpen, upperOpen, rxFlag, lowerReady, active, pending, stats, tx, buf, payloadLen, ini, inAuth, log, acts⟩ := s
  dsimp only at hf hp
  subst hf
  unfold startRx
  show (if payloadLen = 0 then _ else _ : M Unit) _ = _
  rw [if_neg hp]
  simp only [Layer.givenOut, Layer.payload, Bind.bind, Run.bind, note, modify, List.append_assoc, List.cons_append, List.nil_append]

/-- `r` comes to its end, with `Q` of the time, the messages that are left, the result and the state. -/
inductive Run.Served {α : Type} (c : Cfg) (A : Fresh → Prop) (T : Int) (Q : Int → List Bytes → α → Layer → Prop) :
    Int → List Bytes → Run α → Prop
  | done {t : Int} {ms : List Bytes} {a : α} {s : Layer} : Q t ms a s → Run.Served c A T Q t ms (.done a s)
  | read {t : Int} {ms : List Bytes} {cb : UpCall} {s : Layer} {k : Layer → Run α} : s.log.getLast? = some (.up .rxReady) →
      s.rxFlag = false → s.payloadLen ≠ 0 → Run.Served c A T Q t ms (k s.givenOut) → Run.Served c A T Q t ms (.up cb s k)
  | ret {t : Int} {ms : List Bytes} {cb : UpCall} {s : Layer} {k : Layer → Run α} : s.log.getLast? ≠ some (.up .rxReady) →
      Run.Served c A T Q t ms (k s) → Run.Served c A T Q t ms (.up cb s k)
  | ask {t : Int} {ms : List Bytes} {k : Fresh → Run α} : t ≤ T →
      (∀ f : Fresh, f.ok → A f → t ≤ f.now → f.now ≤ T → Run.Served c A T Q f.now ms (k f)) → Run.Served c A T Q t ms (.ask k)
  | recv {t : Int} {m : Bytes} {ms : List Bytes} {s : Layer} {k : Bytes → Run α} : Run.Served c A T Q t ms (k m) →
      Run.Served c A T Q t (m :: ms) (.recv s k)
  | nothing {t : Int} {s : Layer} {k : Bytes → Run α} : Run.Served c A T Q t [] (k []) → Run.Served c A T Q t [] (.recv s k)
  | loop {t : Int} {ms : List Bytes} {s : Layer} {k : Layer → Run α} :
      Run.Served c A T Q t ms ((tryReadOne c s).bind (fun again s' => if again then .loop s' k else k s')) →
      Run.Served c A T Q t ms (.loop s k)

theorem Run.Served.bind {α β : Type} {c : Cfg} {A : Fresh → Prop} {T : Int}
    {Q : Int → List Bytes → α → Layer → Prop} {Q' : Int → List Bytes → β → Layer → Prop} {f : α → Layer → Run β}
    (hf : ∀ t ms a s, Q t ms a s → (f a s).Served c A T Q' t ms) {t : Int} {ms : List Bytes} {r : Run α}
    (h : r.Served c A T Q t ms) : (r.bind f).Served c A T Q' t ms := by
  induction h with
  | done h => exact hf _ _ _ _ h
  | read h1 h2 h3 _ ih => exact .read h1 h2 h3 ih
  | ret h1 _ ih => exact .ret h1 ih
  | ask h1 _ ih => exact .ask h1 ih
  | recv _ ih => exact .recv ih
  | nothing _ ih => exact .nothing ih
  | loop _ ih =>
    refine .loop ?_
    rw [Run.bind_assoc] at ih
    rename_i k _
    have e : (fun (again : Bool) (s' : Layer) => (if again then Run.loop s' k else k s').bind f) =
        fun again s' => if again then Run.loop s' (fun s' => (k s').bind f) else (k s').bind f := by
      funext again s'
      cases again <;> rfl
    rw [e] at ih
    exact ih

theorem Run.Served.mono {α : Type} {c : Cfg} {A : Fresh → Prop} {T : Int} {Q Q' : Int → List Bytes → α → Layer → Prop}
    (hf : ∀ t ms a s, Q t ms a s → Q' t ms a s) {t : Int} {ms : List Bytes} {r : Run α}
    (h : r.Served c A T Q t ms) : r.Served c A T Q' t ms := by
  induction h with
  | done h => exact .done (hf _ _ _ _ h)
  | read h1 h2 h3 _ ih => exact .read h1 h2 h3 ih
  | ret h1 _ ih => exact .ret h1 ih
  | ask h1 _ ih => exact .ask h1 ih
  | recv _ ih => exact .recv ih
  | nothing _ ih => exact .nothing ih
  | loop _ ih => exact .loop ih

theorem Run.Ends.served {α : Type} {c : Cfg} {A : Fresh → Prop} {T : Int} {S : Int → Layer → Prop} {Q : Int → List Bytes → α → Layer → Prop}
    {t : Int} {ms : List Bytes} {r : Run α} (h : r.Ends c A T S Q t ms) : r.Served c A T Q t ms := by
  induction h with
  | done h => exact .done h
  | up _ h _ ih => exact .ret h ih
  | ask h1 _ ih => exact .ask h1 ih
  | recv _ ih => exact .recv ih
  | nothing _ ih => exact .nothing ih
  | loop _ ih => exact .loop ih

theorem givenOut_last (s : Layer) : s.givenOut.log.getLast? ≠ some (.up .rxReady) := by
  simp [Layer.givenOut]

/-- The meaning of `Served` in the machine. -/
theorem Run.Served.serves {c : Cfg} {A : Fresh → Prop} {T : Int}
    {Q : Int → List Bytes → Unit → Layer → Prop} (hA : ∀ t, t ≤ T → ∃ f : Fresh, f.ok ∧ A f ∧ f.now = t)
    {t : Int} {ms : List Bytes} {r : Run Unit} (ht : t ≤ T) (h : r.Served c A T Q t ms)
    {P : Int → List Bytes → Layer → Prop} (hQ : ∀ t ms s, t ≤ T → Q t ms () s → P t ms s) :
    Inevitable (Play c A T) (fun x => ∃ s', x.config = ⟨.env s', []⟩ ∧ P x.clock x.inbox s') ⟨t, ms, ⟨.code r, []⟩⟩ := by
  induction h with
  | done h =>
    refine .later ⟨_, .tick (.done _ _ _ _)⟩ fun y hy => ?_
    cases hy with
    | tick hy =>
      cases hy
      exact .now ⟨_, rfl, hQ _ _ _ ht h⟩
  | @read t ms cb s k h1 h2 h3 _ ih =>
    refine .later ⟨_, .tick (.up _ _ _ _ _ _)⟩ fun y hy => ?_
    cases hy with
    | tick hy =>
      cases hy
      refine .later ⟨_, .read _ _ _ _ _ h1⟩ fun y hy => ?_
      cases hy with
      | tick hy => cases hy
      | ret _ _ _ _ _ h => exact absurd h1 h
      | read _ _ _ _ _ _ =>
        rw [show Api.startRx.run c s = .done () s.givenOut from startRx_givenOut h2 h3]
        refine .later ⟨_, .tick (.done _ _ _ _)⟩ fun y hy => ?_
        cases hy with
        | tick hy =>
          cases hy
          refine .later ⟨_, .ret _ _ _ _ _ (givenOut_last s)⟩ fun y hy => ?_
          cases hy with
          | tick hy => cases hy
          | read _ _ _ _ _ h => exact absurd h (givenOut_last s)
          | ret _ _ _ _ _ _ => exact ih ht
  | @ret t ms cb s k h1 _ ih =>
    refine .later ⟨_, .tick (.up _ _ _ _ _ _)⟩ fun y hy => ?_
    cases hy with
    | tick hy =>
      cases hy
      refine .later ⟨_, .ret _ _ _ _ _ h1⟩ fun y hy => ?_
      cases hy with
      | tick hy => cases hy
      | read _ _ _ _ _ h => exact absurd h h1
      | ret _ _ _ _ _ _ => exact ih ht
  | ask h1 _ ih =>
    obtain ⟨f, f1, f2, f3⟩ := hA _ h1
    refine .later ⟨_, .tick (.ask _ _ f _ _ f1 f2 (by omega) (by omega))⟩ fun y hy => ?_
    cases hy with
    | tick hy =>
      cases hy with
      | ask _ _ f _ _ g1 g2 g3 g4 => exact ih f g1 g2 g3 g4 g4
  | recv _ ih =>
    refine .later ⟨_, .tick (.recv _ _ _ _ _ _)⟩ fun y hy => ?_
    cases hy with
    | tick hy =>
      cases hy
      exact ih ht
  | nothing _ ih =>
    refine .later ⟨_, .tick (.nothing _ _ _ _)⟩ fun y hy => ?_
    cases hy with
    | tick hy =>
      cases hy
      exact ih ht
  | loop _ ih =>
    refine .later ⟨_, .tick (.loop _ _ _ _ _)⟩ fun y hy => ?_
    cases hy with
    | tick hy =>
      cases hy
      exact ih ht

theorem Spec.Serves.of {c : Cfg} {A : Fresh → Prop} {T : Int} (hA : ∀ t, t ≤ T → ∃ f : Fresh, f.ok ∧ A f ∧ f.now = t) {call : M Unit}
    {t : Int} {ms : List Bytes} {s : Layer} {P : Int → List Bytes → Layer → Prop} (ht : t ≤ T)
    (h : (call s).Served c A T (fun t ms _ s => t ≤ T → P t ms s) t ms) : Serves c A T call t ms s P :=
  Run.Served.serves hA ht h fun _ _ _ h1 h2 => h2 h1

/-! ### Straight code -/

/-- The same for computations that do not read from the layer below. -/
def Run.Plays {α : Type} (A : Fresh → Prop) (T : Int) (Q : Int → α → Layer → Prop) : Int → Run α → Prop
  | t, .done a s => Q t a s
  | t, .up _ s k => (s.log.getLast? = some (.up .rxReady) ∧ s.rxFlag = false ∧ s.payloadLen ≠ 0 ∧ (k s.givenOut).Plays A T Q t) ∨
      (s.log.getLast? ≠ some (.up .rxReady) ∧ (k s).Plays A T Q t)
  | t, .ask k => ∀ f : Fresh, f.ok → A f → t ≤ f.now → f.now ≤ T → (k f).Plays A T Q f.now
  | _, .recv _ _ => False
  | _, .loop _ _ => False
  | _, .fault => False

theorem Run.plays_bind {α β : Type} {A : Fresh → Prop} {T : Int} {Q : Int → β → Layer → Prop}
    (r : Run α) (f : α → Layer → Run β) (t : Int) :
    (r.bind f).Plays A T Q t ↔ r.Plays A T (fun t a s => (f a s).Plays A T Q t) t := by
  induction r generalizing t <;> simp_all [Run.bind, Run.Plays]

theorem Run.Plays.served {α : Type} {c : Cfg} {A : Fresh → Prop} {T : Int} {Q : Int → α → Layer → Prop}
    {r : Run α} {t : Int} (ht : t ≤ T) (ms : List Bytes) (h : r.Plays A T Q t) :
    r.Served c A T (fun t ms' a s => ms' = ms ∧ t ≤ T ∧ Q t a s) t ms := by
  induction r generalizing t with
  | done a s => exact .done ⟨rfl, ht, h⟩
  | up cb s k ih =>
    rcases h with ⟨h1, h2, h3, h4⟩ | ⟨h1, h2⟩
    · exact .read h1 h2 h3 (ih _ ht h4)
    · exact .ret h1 (ih _ ht h2)
  | ask k ih => exact .ask ht fun f h1 h2 h3 h4 => ih f h4 (h f h1 h2 h3 h4)
  | recv s k ih => exact absurd h id
  | loop s k ih => exact absurd h id
  | fault => exact absurd h id

/-- The rule for computations. -/
def M.plays {α : Type} (A : Fresh → Prop) (T : Int) (m : M α) (Q : Int → α → Layer → Prop) (t : Int)
    (s : Layer) : Prop := (m s).Plays A T Q t

theorem M.plays_mono {α : Type} {A : Fresh → Prop} {T : Int} {m : M α} {Q Q' : Int → α → Layer → Prop} {t : Int} {s : Layer}
    (h : ∀ t' a s, t ≤ t' → Q t' a s → Q' t' a s) (hm : m.plays A T Q t s) : m.plays A T Q' t s := by
  unfold M.plays at *
  generalize m s = r at *
  induction r generalizing t with
  | done a s => exact h _ a s (Int.le_refl _) hm
  | ask k ih => exact fun f h1 h2 h3 h4 => ih f (fun t' a s ht => h t' a s (Int.le_trans h3 ht)) (hm f h1 h2 h3 h4)
  | fault => exact hm
  | up cb s k ih => exact hm.imp (fun ⟨h1, h2, h3, h4⟩ => ⟨h1, h2, h3, ih _ h h4⟩) fun ⟨h1, h2⟩ => ⟨h1, ih _ h h2⟩
  | recv s k ih => exact hm
  | loop s k ih => exact hm

/-- Code that does not tell the application to read. -/
theorem Run.Through.plays {α : Type} {A : Fresh → Prop} {T : Int} {S : Int → Layer → Prop} {Q : Int → α → Layer → Prop} {r : Run α} {t : Int}
    (h : r.Through A T S Q t) : r.Plays A T Q t := by
  induction r generalizing t with
  | done a s => exact h
  | up cb s k ih => exact .inr ⟨h.2.1, ih s h.2.2⟩
  | ask k ih => exact fun f h1 h2 h3 h4 => ih f (h f h1 h2 h3 h4)
  | recv s k ih => exact absurd h id
  | loop s k ih => exact absurd h id
  | fault => exact absurd h id

section
variable {α β : Type} {A : Fresh → Prop} {T : Int} {t : Int}

@[simp] theorem pl_bind (m : M α) (f : α → M β) (Q : Int → β → Layer → Prop) (s : Layer) :
    (m >>= f).plays A T Q t s ↔ m.plays A T (fun t a s' => (f a).plays A T Q t s') t s := Run.plays_bind _ _ _
@[simp] theorem pl_pure (a : α) (Q : Int → α → Layer → Prop) (s : Layer) : (pure a : M α).plays A T Q t s ↔ Q t a s := Iff.rfl
@[simp] theorem pl_get (Q : Int → Layer → Layer → Prop) (s : Layer) : get.plays A T Q t s ↔ Q t s s := Iff.rfl
@[simp] theorem pl_modify (f : Layer → Layer) (Q : Int → Unit → Layer → Prop) (s : Layer) :
    (modify f).plays A T Q t s ↔ Q t () (f s) := Iff.rfl
@[simp] theorem pl_ask (Q : Int → Fresh → Layer → Prop) (s : Layer) : ask.plays A T Q t s ↔
    ∀ f : Fresh, f.ok → A f → t ≤ f.now → f.now ≤ T → Q f.now f s := Iff.rfl
@[simp] theorem pl_note (o : Obs) (Q : Int → Unit → Layer → Prop) (s : Layer) :
    (note o).plays A T Q t s ↔ Q t () { s with log := s.log ++ [o] } := Iff.rfl
@[simp] theorem pl_act (a : Act) (Q : Int → Unit → Layer → Prop) (s : Layer) :
    (act a).plays A T Q t s ↔ Q t () { s with acts := s.acts ++ [(s.log.length, a)] } := Iff.rfl
@[simp] theorem pl_ite (p : Prop) [Decidable p] (m n : M α) (Q : Int → α → Layer → Prop) (s : Layer) :
    (if p then m else n).plays A T Q t s ↔ (p → m.plays A T Q t s) ∧ (¬ p → n.plays A T Q t s) := by
  by_cases h : p <;> simp [h]
@[simp] theorem pl_getTime (Q : Int → Int → Layer → Prop) (s : Layer) :
    getTime.plays A T Q t s ↔ ∀ f : Fresh, f.ok → A f → t ≤ f.now → f.now ≤ T → Q f.now f.now s := by simp [getTime]
@[simp] theorem pl_lowerStartTx (frame : Bytes) (Q : Int → Bool → Layer → Prop) (s : Layer) :
    (lowerStartTx frame).plays A T Q t s ↔
      Q t s.lowerReady { s with log := s.log ++ [.lowerTx frame s.lowerReady], lowerReady := false } := by
  simp [lowerStartTx]
theorem pl_rxReady (Q : Int → Unit → Layer → Prop) (s : Layer) (hf : s.rxFlag = false) (hp : s.payloadLen ≠ 0)
    (h : Q t () ({ s with log := s.log ++ [.up .rxReady] } : Layer).givenOut) : (upcall .rxReady).plays A T Q t s :=
  Or.inl ⟨by simp, hf, hp, h⟩
theorem pl_txReady (Q : Int → Unit → Layer → Prop) (s : Layer)
    (h : Q t () { s with log := s.log ++ [.up .txReady] }) : (upcall .txReady).plays A T Q t s :=
  Or.inr ⟨by simp, h⟩

end

/-! ### The receive loop -/

section
variable {c : Cfg} {A : Fresh → Prop} {T : Int} {Q : Int → List Bytes → Unit → Layer → Prop}
  {t : Int} {s : Layer} {k : Layer → Run Unit}

theorem served_stop {ms : List Bytes} (h : s.lowerReady = false ∨ s.payloadLen ≠ 0) (hk : (k s).Served c A T Q t ms) :
    (Run.loop s k).Served c A T Q t ms := by
  refine .loop ?_
  have e : tryReadOne c s = .done false s := by
    unfold tryReadOne
    show (if !s.lowerReady || s.payloadLen ≠ 0 then _ else _ : M Bool) s = _
    rw [if_pos (by simpa using h)]
    rfl
  rw [e]
  exact hk

theorem served_empty (ht : t ≤ T) (hr : s.lowerReady = true) (hp : s.payloadLen = 0)
    (hk : ∀ f : Fresh, f.ok → A f → t ≤ f.now → f.now ≤ T → (k { s with buf := f.scratch }).Served c A T Q f.now []) :
    (Run.loop s k).Served c A T Q t [] := by
  refine .loop ?_
  rw [tryReadOne_reads hr hp]
  refine .nothing (.ask ht fun f h1 h2 h3 h4 => ?_)
  exact hk f h1 h2 h3 h4

theorem served_message {m : Bytes} {ms : List Bytes} (ht : t ≤ T) (hr : s.lowerReady = true) (hp : s.payloadLen = 0) (hm : m ≠ [])
    {P : Int → Layer → Prop}
    (hk : ∀ f : Fresh, f.ok → A f → t ≤ f.now → f.now ≤ T →
      (process c m).plays A T (fun t' _ s' => P t' s') f.now { s with buf := f.scratch, log := s.log ++ [.recv m] })
    (hP : ∀ t' s', t' ≤ T → P t' s' → (Run.loop s' k).Served c A T Q t' ms) :
    (Run.loop s k).Served c A T Q t (m :: ms) := by
  refine .loop ?_
  rw [tryReadOne_reads hr hp]
  refine .recv (.ask ht fun f h1 h2 h3 h4 => ?_)
  dsimp only
  rw [if_neg hm]
  simp only [Run.bind_assoc]
  refine Run.Served.bind ?_ (Run.Plays.served h4 ms (hk f h1 h2 h3 h4))
  rintro t' ms' _ s' ⟨rfl, h5, h6⟩
  exact hP t' s' h5 h6

end

end SSP21.Crypto
