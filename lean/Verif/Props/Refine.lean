import Verif.Spec.History
import Verif.Props.Open
import Verif.Props.Channel
import Verif.Props.Discipline
/-
  The history of a layer (Spec/History.lean) is made of histories of sessions: whatever a layer does in an arbitrary
  environment, each of its sessions goes through a history of a newly constructed session, and what the layer hands
  to the layer below and to the application is what happens in those histories.
-/
namespace SSP21.Crypto
open Spec

/-! ### weaving -/

theorem weave_obs (log : List Obs) (acts : List (Nat × Act)) (o : Obs) (h : ∀ x ∈ acts, x.1 ≤ log.length) :
    weave (log ++ [o]) acts = weave log acts ++ [.obs o] := by
  unfold weave
  rw [List.length_append, List.length_singleton, List.range_succ (n := log.length + 1), List.flatMap_append]
  have h1 : (acts.filter fun a => a.1 = log.length + 1) = [] := by
    rw [List.filter_eq_nil_iff]
    intro a ha
    have := h a ha
    simp only [decide_eq_true_eq]
    omega
  have h2 : ((log ++ [o])[log.length + 1]?) = none := List.getElem?_eq_none (by simp)
  simp only [List.flatMap_cons, List.flatMap_nil, h1, h2, List.map_nil, Option.toList_none, List.append_nil]
  rw [List.range_succ, List.flatMap_append, List.flatMap_append]
  simp only [List.flatMap_cons, List.flatMap_nil, List.append_nil]
  rw [List.getElem?_append_right (Nat.le_refl _), List.getElem?_eq_none (Nat.le_refl log.length)]
  have h3 : (List.range log.length).flatMap (fun i =>
      (acts.filter fun a => a.1 = i).map (fun a => Ev.act a.2) ++ ((log ++ [o])[i]?).toList.map .obs) =
      (List.range log.length).flatMap (fun i =>
      (acts.filter fun a => a.1 = i).map (fun a => Ev.act a.2) ++ (log[i]?).toList.map .obs) := by
    rw [List.flatMap_def, List.flatMap_def]
    congr 1
    refine List.map_congr_left ?_
    intro i hi
    rw [List.getElem?_append_left (List.mem_range.mp hi)]
  rw [h3]
  simp

theorem weave_act (log : List Obs) (acts : List (Nat × Act)) (a : Act) :
    weave log (acts ++ [(log.length, a)]) = weave log acts ++ [.act a] := by
  unfold weave
  rw [List.range_succ, List.flatMap_append, List.flatMap_append]
  simp only [List.flatMap_cons, List.flatMap_nil, List.append_nil, List.filter_append, List.map_append]
  rw [List.getElem?_eq_none (Nat.le_refl log.length)]
  have h3 : (List.range log.length).flatMap (fun i =>
      (acts.filter fun a => a.1 = i).map (fun a => Ev.act a.2) ++
        ([(log.length, a)].filter fun a => a.1 = i).map (fun a => Ev.act a.2) ++ (log[i]?).toList.map .obs) =
      (List.range log.length).flatMap (fun i =>
      (acts.filter fun a => a.1 = i).map (fun a => Ev.act a.2) ++ (log[i]?).toList.map .obs) := by
    rw [List.flatMap_def, List.flatMap_def]
    congr 1
    refine List.map_congr_left ?_
    intro i hi
    have := List.mem_range.mp hi
    have hne : ¬ log.length = i := by omega
    simp [hne]
  rw [h3]
  simp

theorem observations_weave (log : List Obs) (acts : List (Nat × Act)) : observations (weave log acts) = log := by
  unfold observations weave
  rw [List.filterMap_flatMap]
  have h1 : ∀ i, List.filterMap Ev.observation
      ((acts.filter fun a => a.1 = i).map (fun a => Ev.act a.2) ++ (log[i]?).toList.map .obs) = (log[i]?).toList := by
    intro i
    rw [List.filterMap_append, List.filterMap_map, List.filterMap_map]
    have : List.filterMap (Ev.observation ∘ fun (a : Nat × Act) => Ev.act a.2)
        (acts.filter fun a => a.1 = i) = [] := by
      rw [List.filterMap_eq_nil_iff]; intros; rfl
    rw [this, List.nil_append]
    exact List.filterMap_some
  rw [funext h1]
  have h2 : ∀ (l : List Obs), (List.range (l.length + 1)).flatMap (fun i => (l[i]?).toList) = l := by
    intro l
    induction l with
    | nil => rfl
    | cons x xs ih =>
      rw [List.length_cons, List.range_succ_eq_map, List.flatMap_cons, List.flatMap_map]
      simpa using ih
  exact h2 log

theorem observations_history (s : Layer) : observations (history s) = s.log := observations_weave _ _

theorem lowerIsOpen_eq (h : List Ev) :
    lowerIsOpen h = SSP21.Spec.openAfter ((observations h).filterMap DisciplineProof.below) := by
  unfold lowerIsOpen SSP21.Spec.openAfter observations
  suffices H : ∀ b, h.foldl Spec.openAfter b =
      ((h.filterMap Ev.observation).filterMap DisciplineProof.below).foldl SSP21.Spec.openStep b from H false
  induction h with
  | nil => intro b; rfl
  | cons e h ih =>
    intro b
    rw [List.foldl_cons, ih]
    cases e with
    | act a => rfl
    | obs o => cases o <;> rfl

theorem lowerIsOpen_history {s : Layer} (h : DisciplineProof.Inv s) : lowerIsOpen (history s) = s.isOpen := by
  rw [lowerIsOpen_eq, observations_history, h.isOpen]

/-! ### sessions -/

/-- What an operation does to a session does not depend on the statistics. -/
theorem validateWith_stats (s : Session) (st st' : Stats) (m : SessionData) (now : Int) (d : Nat)
    (v : UInt16 → UInt16 → Bool) : (s.validateWith st m now d v).1 = (s.validateWith st' m now d v).1 ∧
      (s.validateWith st m now d v).2.2 = (s.validateWith st' m now d v).2.2 := by
  unfold Session.validateWith
  repeat' split
  all_goals simp_all

theorem step_stats (s : Session) (st st' : Stats) (op : SOp) :
    (op.step s st).1 = (op.step s st').1 ∧ (op.step s st).2.2 = (op.step s st').2.2 := by
  cases op with
  | init alg param keys => simp only [SOp.step, Session.initialize]; cases keys.valid <;> simp
  | reset => exact ⟨rfl, rfl⟩
  | validateAuth m now d =>
    have := validateWith_stats s st st' m now d equalToZero
    simp only [SOp.step, Session.validateAuth]
    generalize s.validateWith st m now d equalToZero = x at this ⊢
    generalize s.validateWith st' m now d equalToZero = y at this ⊢
    obtain ⟨x1, x2, x3⟩ := x
    obtain ⟨y1, y2, y3⟩ := y
    obtain ⟨rfl, rfl⟩ := this
    cases x3 <;> exact ⟨rfl, rfl⟩
  | validateData m now d =>
    have := validateWith_stats s st st' m now d s.algorithms.verifyNonce
    simp only [SOp.step, Session.validateData]
    generalize s.validateWith st m now d s.algorithms.verifyNonce = x at this ⊢
    generalize s.validateWith st' m now d s.algorithms.verifyNonce = y at this ⊢
    obtain ⟨x1, x2, x3⟩ := x
    obtain ⟨y1, y2, y3⟩ := y
    obtain ⟨rfl, rfl⟩ := this
    cases x3 with
    | error e => exact ⟨rfl, rfl⟩
    | ok p => by_cases hp : p = [] <;> simp [hp]
  | formatAuth now clear =>
    simp only [SOp.step]
    split <;> exact ⟨rfl, rfl⟩
  | formatData now clear =>
    simp only [SOp.step]
    split <;> exact ⟨rfl, rfl⟩

/-- The session has gone through `es` since its object was constructed; the first thing was the only initialisation. -/
def Alive (c : Cfg) (S : Session) (es : List SEvent) : Prop :=
  (∃ ops, (runOps (Session.new c.backend c.fw c.ttlPadMs) {} ops).1 = S ∧
    (runOps (Session.new c.backend c.fw c.ttlPadMs) {} ops).2.2 = es) ∧
  ∃ a p k rest, es = .initialized a p k :: rest ∧ ∀ e ∈ rest, e.isInit = false

theorem Alive.step {c : Cfg} {S : Session} {es : List SEvent} (h : Alive c S es) (st : Stats) (op : SOp)
    {S' : Session} {e : SEvent} (h1 : (op.step S st).1 = S') (h2 : (op.step S st).2.2 = e) (h3 : e.isInit = false) :
    Alive c S' (es ++ [e]) := by
  obtain ⟨⟨ops, g1, g2⟩, a, p, k, rest, rfl, g3⟩ := h
  refine ⟨⟨ops ++ [op], ?_, ?_⟩, a, p, k, rest ++ [e], rfl, ?_⟩
  · rw [runOps_append, ← h1]
    simp only [runOps]
    rw [g1]
    exact (step_stats _ _ _ _).1
  · rw [runOps_append]
    simp only [runOps]
    rw [g1, g2, ← h2, (step_stats S _ st op).2]
  · intro x hx
    rcases List.mem_append.mp hx with hx | hx
    · exact g3 x hx
    · rw [List.mem_singleton.mp hx]; exact h3

theorem Alive.fresh {c : Cfg} {S : Session} {a : SessionAlgorithms} {p : SessionParam} {k : SessionKeys}
    (h1 : S = ⟨true, c.fw, c.ttlPadMs, 0, 0, k, a, p⟩) (hk : k.rxKey.length = 32 ∧ k.txKey.length = 32) :
    Alive c S [.initialized a p k] := by
  refine ⟨⟨[.init a p k], ?_⟩, a, p, k, [], rfl, by simp⟩
  have : k.valid = true := by simp [SessionKeys.valid, hk]
  subst h1
  simp [runOps, SOp.step, Session.initialize, this, Session.new]

/-! ### views -/

theorem session_append (v : View) (xs : List (Nat × SEvent)) (m : Nat) :
    View.session { v with events := v.events ++ xs } m =
      v.session m ++ xs.filterMap fun x => if x.1 = m then some x.2 else none := by
  simp [View.session]

theorem session_add (v : View) (n m : Nat) (e : SEvent) :
    (v.add (some n) e).session m = if n = m then v.session m ++ [e] else v.session m := by
  unfold View.add
  rw [session_append]
  by_cases h : n = m <;> simp [h]

/-- The event does not make data of the peer available. -/
def SEvent.quiet : SEvent → Bool
  | .acceptedAuth _ _ => false
  | .acceptedData _ _ => false
  | _ => true

/-- The peer was authenticated once, before any data. -/
def Authenticated (es : List SEvent) : Prop :=
  ∃ x m p y, es = x ++ .acceptedAuth m p :: y ∧ (∀ e ∈ x, SEvent.quiet e = true) ∧
    ∀ e ∈ y, ∀ m p, e ≠ .acceptedAuth m p

theorem Authenticated.snoc {es : List SEvent} {e : SEvent} (h : Authenticated es) (he : ∀ m p, e ≠ .acceptedAuth m p) :
    Authenticated (es ++ [e]) := by
  obtain ⟨x, m, p, y, rfl, h1, h2⟩ := h
  refine ⟨x, m, p, y ++ [e], by simp, h1, ?_⟩
  intro e' h'
  rcases List.mem_append.mp h' with h' | h'
  · exact h2 e' h'
  · rw [List.mem_singleton.mp h']; exact he

/-- What relates the view to the state of the layer. -/
structure Good (c : Cfg) (v : View) (s : Layer) : Prop where
  fwa : s.active.frameWriter = c.fw ∧ s.active.ttlPadMs = c.ttlPadMs
  fwp : s.pending.frameWriter = c.fw ∧ s.pending.ttlPadMs = c.ttlPadMs
  idx : ∀ x ∈ v.events, x.1 < v.count
  noWait : v.waiting = none → s.pending.valid = false
  wait : ∀ n, v.waiting = some n → n + 1 = v.count ∧ s.pending.valid = true ∧ Alive c s.pending (v.session n) ∧
    ∀ e ∈ v.session n, SEvent.quiet e = true
  noCur : v.current = none → s.active.valid = false
  cur : ∀ n, v.current = some n → n < v.count ∧ v.waiting ≠ some n ∧ s.active.valid = true ∧
    Alive c s.active (v.session n) ∧ Authenticated (v.session n)
  all : ∀ n, n < v.count → (∃ S, Alive c S (v.session n)) ∧
    (Authenticated (v.session n) ∨ ∀ e ∈ v.session n, SEvent.quiet e = true)
  out : v.outstanding = s.tx.remainder
  init : ∀ n a p k, (n, SEvent.initialized a p k) ∈ v.events → Obs.established k a p ∈ s.log

theorem Good.of_eq {c : Cfg} {v : View} {s t : Layer} (h : Good c v s) (ha : t.active = s.active)
    (hp : t.pending = s.pending) (ht : t.tx.remainder = s.tx.remainder) (hl : ∀ o ∈ s.log, o ∈ t.log) : Good c v t where
  fwa := by rw [ha]; exact h.fwa
  fwp := by rw [hp]; exact h.fwp
  idx := h.idx
  noWait := by rw [hp]; exact h.noWait
  wait := by rw [hp]; exact h.wait
  noCur := by rw [ha]; exact h.noCur
  cur := by rw [ha]; exact h.cur
  all := h.all
  out := by rw [ht]; exact h.out
  init := fun n a p k hx => hl _ (h.init n a p k hx)

/-- What was read plays no role. -/
theorem Good.reading {c : Cfg} {v : View} {s : Layer} (h : Good c v s) (u : Option (Nat × Bytes)) (g : List (Nat × Bytes)) :
    Good c { v with unread := u, given := g } s :=
  ⟨h.fwa, h.fwp, h.idx, h.noWait, h.wait, h.noCur, h.cur, h.all, h.out, h.init⟩

/-- The outstanding data changes. -/
theorem Good.taken {c : Cfg} {v : View} {s t : Layer} (h : Good c v s) (rest : Bytes) (ha : t.active = s.active)
    (hp : t.pending = s.pending) (ht : t.tx.remainder = rest) (hl : ∀ o ∈ s.log, o ∈ t.log) :
    Good c { v with outstanding := rest } t where
  fwa := by rw [ha]; exact h.fwa
  fwp := by rw [hp]; exact h.fwp
  idx := h.idx
  noWait := by rw [hp]; exact h.noWait
  wait := by rw [hp]; exact h.wait
  noCur := by rw [ha]; exact h.noCur
  cur := by rw [ha]; exact h.cur
  all := h.all
  out := ht.symm
  init := fun n a p k hx => hl _ (h.init n a p k hx)

/-- One operation on a session, with its outcome. -/
def Session.does (S S' : Session) (e : SEvent) : Prop :=
  e.isInit = false ∧ S'.frameWriter = S.frameWriter ∧ S'.ttlPadMs = S.ttlPadMs ∧ S'.valid = S.valid ∧
  ∃ (op : SOp) (st : Stats), (op.step S st).1 = S' ∧ (op.step S st).2.2 = e

theorem Good.owner_valid {c : Cfg} {v : View} {s : Layer} (h : Good c v s) (p : Bool) :
    (v.owner p).isSome = (if p then s.pending else s.active).valid := by
  cases p with
  | true =>
    simp only [View.owner, if_true]
    cases hw : v.waiting with
    | none => simp [h.noWait hw]
    | some n => simp [(h.wait n hw).2.1]
  | false =>
    simp only [View.owner, Bool.false_eq_true, if_false]
    cases hw : v.current with
    | none => simp [h.noCur hw]
    | some n => simp [(h.cur n hw).2.2.1]

theorem Good.events_lt {c : Cfg} {v : View} {s : Layer} (h : Good c v s) {n : Nat} (hn : n < v.count) (e : SEvent) :
    ∀ x ∈ v.events ++ [(n, e)], x.1 < v.count := by
  intro x hx
  rcases List.mem_append.mp hx with hx | hx
  · exact h.idx x hx
  · rw [List.mem_singleton.mp hx]; exact hn

theorem Good.events_init {c : Cfg} {v : View} {s : Layer} (h : Good c v s) {n : Nat} {e : SEvent} (he : e.isInit = false) :
    ∀ m a p k, (m, SEvent.initialized a p k) ∈ v.events ++ [(n, e)] → Obs.established k a p ∈ s.log := by
  intro m a p k hx
  rcases List.mem_append.mp hx with hx | hx
  · exact h.init m a p k hx
  · cases List.mem_singleton.mp hx
    cases he

/-- Something happens in the pending session. -/
theorem Good.inPending {c : Cfg} {v : View} {s t : Layer} (h : Good c v s) {n : Nat} (hn : v.waiting = some n) {e : SEvent}
    (hd : Session.does s.pending t.pending e) (hq : SEvent.quiet e = true) (ha : t.active = s.active)
    (ht : t.tx.remainder = s.tx.remainder) (hl : ∀ o ∈ s.log, o ∈ t.log) : Good c (v.add v.waiting e) t := by
  obtain ⟨w1, w2, w3, w4⟩ := h.wait n hn
  obtain ⟨d1, d2, d3, d4, op, st, d5, d6⟩ := hd
  have hlt : n < v.count := by omega
  have hses : ∀ x ∈ v.session n ++ [e], SEvent.quiet x = true := by
    intro x hx
    rcases List.mem_append.mp hx with hx | hx
    · exact w4 x hx
    · rw [List.mem_singleton.mp hx]; exact hq
  have halive := w3.step st op d5 d6 d1
  rw [hn]
  refine ⟨?_, ?_, ?_, ?_, ?_, ?_, ?_, ?_, ?_, ?_⟩
  · rw [ha]; exact h.fwa
  · rw [d2, d3]; exact h.fwp
  · exact h.events_lt hlt e
  · simp only [View.add]; rw [hn]; nofun
  · intro m hm
    simp only [View.add] at hm
    rw [hn] at hm
    cases hm
    rw [session_add, if_pos rfl]
    exact ⟨w1, by rw [d4]; exact w2, halive, hses⟩
  · rw [ha]; exact h.noCur
  · intro m hm
    obtain ⟨c1, c2, c3, c4, c5⟩ := h.cur m hm
    have hne : n ≠ m := by rintro rfl; exact c2 hn
    rw [session_add, if_neg hne, ha]
    exact ⟨c1, c2, c3, c4, c5⟩
  · intro m hm
    rw [session_add]
    by_cases hnm : n = m
    · subst hnm
      rw [if_pos rfl]
      exact ⟨⟨_, halive⟩, .inr hses⟩
    · rw [if_neg hnm]
      exact h.all m hm
  · exact h.out.trans ht.symm
  · intro m a p k hx
    exact hl _ (h.events_init d1 m a p k hx)

/-- Something happens in the active session. -/
theorem Good.inActive {c : Cfg} {v : View} {s t : Layer} (h : Good c v s) {n : Nat} (hn : v.current = some n) {e : SEvent}
    (hd : Session.does s.active t.active e) (hq : ∀ m p, e ≠ .acceptedAuth m p) (hp : t.pending = s.pending)
    (ht : t.tx.remainder = s.tx.remainder) (hl : ∀ o ∈ s.log, o ∈ t.log) : Good c (v.add v.current e) t := by
  obtain ⟨c1, c2, c3, c4, c5⟩ := h.cur n hn
  obtain ⟨d1, d2, d3, d4, op, st, d5, d6⟩ := hd
  have halive := c4.step st op d5 d6 d1
  have hauth := c5.snoc hq
  rw [hn]
  refine ⟨?_, ?_, ?_, ?_, ?_, ?_, ?_, ?_, ?_, ?_⟩
  · rw [d2, d3]; exact h.fwa
  · rw [hp]; exact h.fwp
  · exact h.events_lt c1 e
  · rw [hp]; exact h.noWait
  · intro m hm
    have hne : n ≠ m := by rintro rfl; exact c2 hm
    rw [session_add, if_neg hne, hp]
    exact h.wait m hm
  · simp only [View.add]; rw [hn]; nofun
  · intro m hm
    simp only [View.add] at hm
    rw [hn] at hm
    cases hm
    rw [session_add, if_pos rfl]
    exact ⟨c1, c2, by rw [d4]; exact c3, halive, hauth⟩
  · intro m hm
    rw [session_add]
    by_cases hnm : n = m
    · subst hnm
      rw [if_pos rfl]
      exact ⟨⟨_, halive⟩, .inl hauth⟩
    · rw [if_neg hnm]
      exact h.all m hm
  · exact h.out.trans ht.symm
  · intro m a p k hx
    exact hl _ (h.events_init d1 m a p k hx)

/-- The peer is authenticated: the pending session becomes the active one. -/
theorem Good.activate {c : Cfg} {v : View} {s t : Layer} (h : Good c v s) {n : Nat} (hn : v.waiting = some n)
    {msg : SessionData} {payload : Bytes} (hd : Session.does s.pending t.active (.acceptedAuth msg payload))
    (hp : t.pending = s.active.reset) (ht : t.tx.remainder = s.tx.remainder) (hl : ∀ o ∈ s.log, o ∈ t.log) :
    Good c { v.add v.waiting (.acceptedAuth msg payload) with current := v.waiting, waiting := none } t := by
  obtain ⟨w1, w2, w3, w4⟩ := h.wait n hn
  obtain ⟨d1, d2, d3, d4, op, st, d5, d6⟩ := hd
  have hlt : n < v.count := by omega
  have halive := w3.step st op d5 d6 d1
  have hauth : Authenticated (v.session n ++ [.acceptedAuth msg payload]) :=
    ⟨_, msg, payload, [], rfl, w4, by simp⟩
  rw [hn]
  have hses : ∀ m, View.session { v.add (some n) (.acceptedAuth msg payload) with current := some n, waiting := none } m =
      if n = m then v.session m ++ [.acceptedAuth msg payload] else v.session m := fun m => session_add v n m _
  refine ⟨?_, ?_, ?_, ?_, nofun, nofun, ?_, ?_, ?_, ?_⟩
  · rw [d2, d3]; exact h.fwp
  · rw [hp]; exact h.fwa
  · exact h.events_lt hlt _
  · rw [hp]; exact fun _ => rfl
  · intro m hm
    cases hm
    rw [hses, if_pos rfl]
    exact ⟨hlt, nofun, by rw [d4]; exact w2, halive, hauth⟩
  · intro m hm
    rw [hses]
    by_cases hnm : n = m
    · subst hnm
      rw [if_pos rfl]
      exact ⟨⟨_, halive⟩, .inl hauth⟩
    · rw [if_neg hnm]
      exact h.all m hm
  · exact h.out.trans ht.symm
  · intro m a p k hx
    exact hl _ (h.events_init d1 m a p k hx)

/-- A handshake installs keys: a new session. -/
theorem Good.established {c : Cfg} {v : View} {s t : Layer} (h : Good c v s) {k : SessionKeys} {a : SessionAlgorithms}
    {p : SessionParam} (hp : t.pending = ⟨true, c.fw, c.ttlPadMs, 0, 0, k, a, p⟩)
    (hk : k.rxKey.length = 32 ∧ k.txKey.length = 32) (ha : t.active = s.active)
    (ht : t.tx.remainder = s.tx.remainder) (hl : ∀ o ∈ s.log, o ∈ t.log) (he : Obs.established k a p ∈ t.log) :
    Good c (v.step (.obs (.established k a p))) t := by
  have hempty : v.session v.count = [] := by
    unfold View.session
    rw [List.filterMap_eq_nil_iff]
    intro x hx
    have := h.idx x hx
    rw [if_neg (by omega)]
  have hses : ∀ m, View.session (v.step (.obs (.established k a p))) m =
      if v.count = m then v.session m ++ [.initialized a p k] else v.session m := by
    intro m
    show View.session { v with events := v.events ++ [(v.count, .initialized a p k)] } m = _
    rw [session_append]
    by_cases hm : v.count = m <;> simp [hm]
  have halive := Alive.fresh hp hk
  refine ⟨?_, ?_, ?_, nofun, ?_, ?_, ?_, ?_, ?_, ?_⟩
  · rw [ha]; exact h.fwa
  · rw [hp]; exact ⟨rfl, rfl⟩
  · intro x hx
    show x.1 < v.count + 1
    rcases List.mem_append.mp hx with hx | hx
    · exact Nat.lt_succ_of_lt (h.idx x hx)
    · rw [List.mem_singleton.mp hx]; exact Nat.lt_succ_self _
  · intro m hm
    cases hm
    rw [hses, if_pos rfl, hempty]
    exact ⟨rfl, by rw [hp], halive, by simp [SEvent.quiet]⟩
  · rw [ha]; exact h.noCur
  · intro m hm
    obtain ⟨c1, c2, c3, c4, c5⟩ := h.cur m hm
    rw [hses, if_neg (by omega), ha]
    refine ⟨Nat.lt_succ_of_lt c1, ?_, c3, c4, c5⟩
    intro hx
    cases hx
    omega
  · intro m hm
    rw [hses]
    by_cases hnm : v.count = m
    · subst hnm
      rw [if_pos rfl, hempty]
      exact ⟨⟨_, halive⟩, .inr (by simp [SEvent.quiet])⟩
    · rw [if_neg hnm]
      have : m < v.count + 1 := hm
      exact h.all m (by omega)
  · exact h.out.trans ht.symm
  · intro m a' p' k' hx
    rcases List.mem_append.mp hx with hx | hx
    · exact hl _ (h.init m a' p' k' hx)
    · cases List.mem_singleton.mp hx
      exact he

/-- The session in use is reset. -/
theorem Good.dropped {c : Cfg} {v : View} {s t : Layer} (h : Good c v s) (ha : t.active = s.active.reset)
    (hp : t.pending = s.pending) (ht : t.tx.remainder = s.tx.remainder) (hl : ∀ o ∈ s.log, o ∈ t.log) :
    Good c { v with current := none } t where
  fwa := by rw [ha]; exact h.fwa
  fwp := by rw [hp]; exact h.fwp
  idx := h.idx
  noWait := by rw [hp]; exact h.noWait
  wait := by rw [hp]; exact h.wait
  noCur := by rw [ha]; exact fun _ => rfl
  cur := nofun
  all := h.all
  out := by rw [ht]; exact h.out
  init := fun n a p k hx => hl _ (h.init n a p k hx)

/-- Both sessions are reset. -/
theorem Good.closed {c : Cfg} {v : View} {s t : Layer} (h : Good c v s) (ha : t.active = s.active.reset)
    (hp : t.pending = s.pending.reset) (ht : t.tx.remainder = s.tx.remainder) (hl : ∀ o ∈ s.log, o ∈ t.log) :
    Good c (v.step (.obs .lowerClose)) t where
  fwa := by rw [ha]; exact h.fwa
  fwp := by rw [hp]; exact h.fwp
  idx := h.idx
  noWait := by rw [hp]; exact fun _ => rfl
  wait := nofun
  noCur := by rw [ha]; exact fun _ => rfl
  cur := nofun
  all := h.all
  out := by rw [ht]; exact h.out
  init := fun n a p k hx => hl _ (h.init n a p k hx)

/-! ### operations -/

theorem no_nonce_check_sent {S : Session} {now : Int} {clear : Bytes} {out : Formatted}
    (h : (S.formatNoNonceCheck now clear).2.2 = .ok out) :
    S.valid = true ∧ (S.formatNoNonceCheck now clear).1 = { S with txNonce := S.txNonce + 1 } ∧
    (∃ k, k ≤ clear.length ∧ (S.formatNoNonceCheck now clear).2.1 = clear.drop k) ∧
    ∃ w, SessionData.write out.msg S.frameWriter.maxPayload.toNat = .ok w ∧ out.frame = S.frameWriter.wrap w := by
  rcases format_cases S now clear with ⟨rest, e, h'⟩ | ⟨f, n, h', h1, _, _, _, _, hn, _, _, _, hw⟩
  · rw [h'] at h; cases h
  · rw [h'] at h
    cases h
    rw [h']
    refine ⟨h1, rfl, ⟨n, by omega, rfl⟩, ?_⟩
    unfold FrameWriter.write at hw
    split at hw
    · cases hw
    · rename_i w hw'
      exact ⟨w, hw', by injection hw with hw; exact hw.symm⟩

theorem no_nonce_check_error {S : Session} {now : Int} {clear : Bytes} {e : Err}
    (h : (S.formatNoNonceCheck now clear).2.2 = .error e) : (S.formatNoNonceCheck now clear).1 = S := by
  rcases format_cases S now clear with ⟨rest, e', h'⟩ | ⟨f, n, h', _⟩
  · rw [h']
  · rw [h'] at h; cases h

theorem does_formatAuth {S : Session} {now : Int} {clear : Bytes} {out : Formatted}
    (h : (S.formatAuth now clear).2.2 = .ok out) :
    Session.does S (S.formatAuth now clear).1 (.sent out clear (S.formatAuth now clear).2.1) ∧ S.valid = true ∧
    (∃ k, k ≤ clear.length ∧ (S.formatAuth now clear).2.1 = clear.drop k) ∧
    ∃ w, SessionData.write out.msg S.frameWriter.maxPayload.toNat = .ok w ∧ out.frame = S.frameWriter.wrap w := by
  have hx : S.formatAuth now clear = S.formatNoNonceCheck now clear := by
    unfold Session.formatAuth at h ⊢
    split at h
    · cases h
    · rename_i hz; rw [if_neg hz]
  have h' : (S.formatNoNonceCheck now clear).2.2 = .ok out := by rw [← hx]; exact h
  obtain ⟨h1, h2, h3, h4⟩ := no_nonce_check_sent h'
  refine ⟨⟨rfl, ?_, ?_, ?_, .formatAuth now clear, {}, ?_⟩, h1, by rw [hx]; exact h3, h4⟩
  · rw [hx, h2]
  · rw [hx, h2]
  · rw [hx, h2]
  · simp only [SOp.step]
    generalize S.formatAuth now clear = x at h ⊢
    obtain ⟨x1, x2, x3⟩ := x
    simp only at h
    subst h
    exact ⟨rfl, rfl⟩

theorem does_formatData {S : Session} {now : Int} {clear : Bytes} {out : Formatted}
    (h : (S.formatData now clear).2.2 = .ok out) :
    Session.does S (S.formatData now clear).1 (.sent out clear (S.formatData now clear).2.1) ∧ S.valid = true ∧
    (∃ k, k ≤ clear.length ∧ (S.formatData now clear).2.1 = clear.drop k) ∧
    ∃ w, SessionData.write out.msg S.frameWriter.maxPayload.toNat = .ok w ∧ out.frame = S.frameWriter.wrap w := by
  have hx : S.formatData now clear = S.formatNoNonceCheck now clear := by
    unfold Session.formatData at h ⊢
    split at h
    · cases h
    · rename_i hz; rw [if_neg hz]
  have h' : (S.formatNoNonceCheck now clear).2.2 = .ok out := by rw [← hx]; exact h
  obtain ⟨h1, h2, h3, h4⟩ := no_nonce_check_sent h'
  refine ⟨⟨rfl, ?_, ?_, ?_, .formatData now clear, {}, ?_⟩, h1, by rw [hx]; exact h3, h4⟩
  · rw [hx, h2]
  · rw [hx, h2]
  · rw [hx, h2]
  · simp only [SOp.step]
    generalize S.formatData now clear = x at h ⊢
    obtain ⟨x1, x2, x3⟩ := x
    simp only at h
    subst h
    exact ⟨rfl, rfl⟩

theorem formatAuth_error {S : Session} {now : Int} {clear : Bytes} {e : Err}
    (h : (S.formatAuth now clear).2.2 = .error e) : (S.formatAuth now clear).1 = S := by
  unfold Session.formatAuth at h ⊢
  split
  · rfl
  · rename_i hz; rw [if_neg hz] at h; exact no_nonce_check_error h

theorem formatData_error {S : Session} {now : Int} {clear : Bytes} {e : Err}
    (h : (S.formatData now clear).2.2 = .error e) : (S.formatData now clear).1 = S := by
  unfold Session.formatData at h ⊢
  split
  · rfl
  · rename_i hz; rw [if_neg hz] at h; exact no_nonce_check_error h

/-- What the result of a check is called in the history of the session. -/
def checkEvent (auth : Bool) (msg : SessionData) : Except Err Bytes → SEvent
  | .ok p => if auth then .acceptedAuth msg p else .acceptedData msg p
  | .error e => .rejected msg e

theorem does_validateAuth (S : Session) (st : Stats) (msg : SessionData) (now : Int) (d : Nat) :
    Session.does S (S.validateAuth st msg now d).1 (checkEvent true msg (S.validateAuth st msg now d).2.2) ∧
    ∀ p, (S.validateAuth st msg now d).2.2 = .ok p → S.valid = true := by
  have hop : ((SOp.validateAuth msg now d).step S st).1 = (S.validateAuth st msg now d).1 ∧
      ((SOp.validateAuth msg now d).step S st).2.2 = checkEvent true msg (S.validateAuth st msg now d).2.2 := by
    simp only [SOp.step]
    generalize S.validateAuth st msg now d = x
    obtain ⟨x1, x2, x3⟩ := x
    cases x3 <;> exact ⟨rfl, rfl⟩
  have hi : ∀ r, (checkEvent true msg r).isInit = false := by intro r; cases r <;> rfl
  rcases validateWith_cases S st msg now d equalToZero with ⟨st', e, h, _⟩ | ⟨st', p, h, hv, _⟩
  · refine ⟨⟨hi _, ?_, ?_, ?_, _, st, hop⟩, ?_⟩ <;> simp [Session.validateAuth, h]
  · refine ⟨⟨hi _, ?_, ?_, ?_, _, st, hop⟩, ?_⟩ <;> simp [Session.validateAuth, h, hv]

theorem does_validateData (S : Session) (st : Stats) (msg : SessionData) (now : Int) (d : Nat) :
    Session.does S (S.validateData st msg now d).1 (checkEvent false msg (S.validateData st msg now d).2.2) ∧
    ∀ p, (S.validateData st msg now d).2.2 = .ok p → S.valid = true := by
  have hop : ((SOp.validateData msg now d).step S st).1 = (S.validateData st msg now d).1 ∧
      ((SOp.validateData msg now d).step S st).2.2 = checkEvent false msg (S.validateData st msg now d).2.2 := by
    simp only [SOp.step]
    generalize S.validateData st msg now d = x
    obtain ⟨x1, x2, x3⟩ := x
    cases x3 <;> exact ⟨rfl, rfl⟩
  have hi : ∀ r, (checkEvent false msg r).isInit = false := by intro r; cases r <;> rfl
  rcases validateData_cases S st msg now d with ⟨st', e, h, _⟩ | ⟨st', p, r, h, _, hv, _⟩
  · refine ⟨⟨hi _, ?_, ?_, ?_, _, st, hop⟩, ?_⟩ <;> simp [h]
  · refine ⟨⟨hi _, ?_, ?_, ?_, _, st, hop⟩, ?_⟩ <;> simp [h, hv]

/-! ### the invariant -/

namespace RefineProof

/-- The view is right, and the history fits together. -/
structure Inv (c : Cfg) (s : Layer) : Prop where
  pos : ∀ x ∈ s.acts, x.1 ≤ s.log.length
  good : Good c (view s) s
  fits : ∀ pre e post, history s = pre ++ e :: post → Fits c pre e

theorem every_snoc {P : List Ev → Ev → Prop} {h : List Ev} {e : Ev} (hh : ∀ pre e post, h = pre ++ e :: post → P pre e)
    (he : P h e) : ∀ pre e' post, h ++ [e] = pre ++ e' :: post → P pre e' := by
  intro pre e' post heq
  rw [List.append_eq_append_iff] at heq
  rcases heq with ⟨x, rfl, hx⟩ | ⟨x, rfl, hx⟩
  · cases x with
    | nil =>
      simp only [List.nil_append, List.cons.injEq] at hx
      obtain ⟨rfl, _⟩ := hx
      simpa using he
    | cons y x => simp at hx
  · cases x with
    | nil =>
      simp only [List.nil_append, List.cons.injEq] at hx
      obtain ⟨rfl, _⟩ := hx
      simpa using he
    | cons y x =>
      simp only [List.cons_append, List.cons.injEq] at hx
      obtain ⟨rfl, rfl⟩ := hx
      exact hh pre _ x rfl

theorem history_obs {s t : Layer} {o : Obs} (hp : ∀ x ∈ s.acts, x.1 ≤ s.log.length) (hl : t.log = s.log ++ [o])
    (ha : t.acts = s.acts) : history t = history s ++ [.obs o] := by
  unfold history
  rw [hl, ha]
  exact weave_obs _ _ _ hp

theorem history_act {s t : Layer} {a : Act} (hl : t.log = s.log) (ha : t.acts = s.acts ++ [(s.log.length, a)]) :
    history t = history s ++ [.act a] := by
  unfold history
  rw [hl, ha]
  exact weave_act _ _ _

theorem viewOf_snoc (h : List Ev) (e : Ev) : viewOf (h ++ [e]) = (viewOf h).step e := by
  simp [viewOf]

theorem view_obs {s t : Layer} {o : Obs} (hp : ∀ x ∈ s.acts, x.1 ≤ s.log.length) (hl : t.log = s.log ++ [o])
    (ha : t.acts = s.acts) : view t = (view s).step (.obs o) := by
  unfold view
  rw [history_obs hp hl ha, viewOf_snoc]

theorem view_act {s t : Layer} {a : Act} (hl : t.log = s.log) (ha : t.acts = s.acts ++ [(s.log.length, a)]) :
    view t = (view s).step (.act a) := by
  unfold view
  rw [history_act hl ha, viewOf_snoc]

theorem Inv.same {c : Cfg} {s t : Layer} (h : Inv c s) (hl : t.log = s.log) (ha : t.acts = s.acts)
    (h1 : t.active = s.active) (h2 : t.pending = s.pending) (h3 : t.tx.remainder = s.tx.remainder) : Inv c t := by
  have hh : history t = history s := by unfold history; rw [hl, ha]
  refine ⟨by rw [hl, ha]; exact h.pos, ?_, by rw [hh]; exact h.fits⟩
  have : view t = view s := by unfold view; rw [hh]
  rw [this]
  exact h.good.of_eq h1 h2 h3 (by rw [hl]; exact fun _ h => h)

theorem Inv.obs {c : Cfg} {s t : Layer} (h : Inv c s) (o : Obs) (hl : t.log = s.log ++ [o]) (ha : t.acts = s.acts)
    (hf : Fits c (history s) (.obs o)) (hg : Good c ((view s).step (.obs o)) t) : Inv c t := by
  refine ⟨?_, ?_, ?_⟩
  · rw [hl, ha, List.length_append]
    exact fun x hx => Nat.le_add_right_of_le (h.pos x hx)
  · rw [view_obs h.pos hl ha]; exact hg
  · rw [history_obs h.pos hl ha]
    exact every_snoc h.fits hf

theorem Inv.act {c : Cfg} {s t : Layer} (h : Inv c s) (a : Act) (hl : t.log = s.log)
    (ha : t.acts = s.acts ++ [(s.log.length, a)])
    (hf : Fits c (history s) (.act a)) (hg : Good c ((view s).step (.act a)) t) : Inv c t := by
  refine ⟨?_, ?_, ?_⟩
  · rw [hl, ha]
    intro x hx
    rcases List.mem_append.mp hx with hx | hx
    · exact h.pos x hx
    · rw [List.mem_singleton.mp hx]; exact Nat.le_refl _
  · rw [view_act hl ha]; exact hg
  · rw [history_act hl ha]
    exact every_snoc h.fits hf

/-- Observations that say nothing about sessions or user data. -/
def neutral : Obs → Bool
  | .recv _ | .up .opened | .up .closed | .up .rxReady | .rxCall | .keyUsed _ | .lowerReady _ => true
  | .startTx _ b => !b
  | .startRx d => d.isEmpty
  | _ => false

theorem Inv.note {c : Cfg} {s t : Layer} (h : Inv c s) (o : Obs) (ho : neutral o = true) (hl : t.log = s.log ++ [o])
    (ha : t.acts = s.acts) (h1 : t.active = s.active) (h2 : t.pending = s.pending)
    (h3 : t.tx.remainder = s.tx.remainder) : Inv c t := by
  refine h.obs o hl ha ?_ ?_
  · cases o with
    | up cb => cases cb <;> trivial
    | startTx d b => cases b <;> trivial
    | _ => trivial
  · have hv : (view s).step (.obs o) = view s := by
      cases o with
      | startTx d b => cases b <;> first | rfl | cases ho
      | startRx d =>
        have : d = [] := by simpa [neutral] using ho
        simp [View.step, this]
      | _ => first | rfl | cases ho
    rw [hv]
    exact h.good.of_eq h1 h2 h3 (by rw [hl]; exact fun _ h => List.mem_append_left _ h)

/-- A frame is handed to the layer below. -/
theorem Inv.lowerTx {c : Cfg} {s : Layer} (h : Inv c s) (frame : Bytes)
    (hf : (∃ p out clear rest, (history s).getLast? = some (.act (.sent p out clear rest)) ∧ out.frame = frame) ∨
      HandshakeFrame c frame) : Inv c (s.sent frame) :=
  h.obs (.lowerTx frame s.lowerReady) rfl rfl hf
    (h.good.of_eq rfl rfl rfl (fun _ h => List.mem_append_left _ h))

theorem Inv.keys {c : Cfg} {s : Layer} (h : Inv c s) (o : Option (UInt64 × Bytes)) {t : Layer} (hl : t.log = s.log ++ keyObs o)
    (ha : t.acts = s.acts) (h1 : t.active = s.active) (h2 : t.pending = s.pending)
    (h3 : t.tx.remainder = s.tx.remainder) : Inv c t := by
  cases o with
  | none => exact h.same (by simpa [keyObs] using hl) ha h1 h2 h3
  | some id => exact h.note (.keyUsed id) rfl hl ha h1 h2 h3

theorem Inv.hsReq {c : Cfg} {limits : SessionLimits} {s s' : Layer} (h : Inv c s) (hq : HsReq c limits s s') : Inv c s' := by
  cases hq with
  | deferred _ => exact h.same rfl rfl rfl rfl rfl
  | noKey f _ _ _ _ => exact h.same rfl rfl rfl rfl rfl
  | badConfig f eph data e _ _ _ _ _ => exact h.keys _ rfl rfl rfl rfl rfl
  | sent now f eph data written _ _ _ _ hw =>
    refine Inv.same (s := Layer.sent { s with log := s.log ++ keyObs (s.ini.handshake.usedRecord f.record) } (c.fw.wrap written))
      ?_ rfl rfl rfl rfl rfl
    refine Inv.lowerTx (s := { s with log := s.log ++ keyObs (s.ini.handshake.usedRecord f.record) })
      (h.keys (s.ini.handshake.usedRecord f.record) rfl rfl rfl rfl rfl) _ (.inr ⟨written, rfl, .inl ⟨_, hw⟩⟩)

theorem Inv.received {c : Cfg} {s : Layer} (h : Inv c s) (m w : Bytes) : Inv c (s.received m w) :=
  h.note (.recv m) rfl rfl rfl rfl rfl rfl

theorem received_last {c : Cfg} {s : Layer} (h : Inv c s) (m w : Bytes) :
    (history (s.received m w)).getLast? = some (.obs (.recv m)) := by
  rw [history_obs (s := s) (t := s.received m w) h.pos rfl rfl]
  exact List.getLast?_concat ..

theorem Inv.opening {c : Cfg} {s : Layer} (h : Inv c s) : Inv c s.opening := by
  unfold Layer.opening
  split
  · exact h
  · exact h.note (.up .opened) rfl rfl rfl rfl rfl rfl

theorem Inv.closing {c : Cfg} {s : Layer} (h : Inv c s) : Inv c s.closing := by
  unfold Layer.closing
  split
  · exact h.note (.up .closed) rfl rfl rfl rfl rfl rfl
  · exact h

theorem Inv.rxNotified {c : Cfg} {s : Layer} (h : Inv c s) : Inv c s.rxNotified := by
  unfold Layer.rxNotified
  split
  · exact h.note (.up .rxReady) rfl rfl rfl rfl rfl rfl
  · exact h

theorem Inv.txNotified {c : Cfg} {s : Layer} (h : Inv c s) (hi : s.tx.isIdle = true) : Inv c s.txNotified := by
  unfold Layer.txNotified
  split
  · refine h.obs (.up .txReady) rfl rfl ?_ (h.good.of_eq rfl rfl rfl (fun _ h => List.mem_append_left _ h))
    show (view s).outstanding = []
    rw [h.good.out]
    simp [TxState.isIdle] at hi
    exact hi.2
  · exact h

/-- A message is checked in the pending session and refused. -/
theorem Inv.authRefused {c : Cfg} {s : Layer} (h : Inv c s) (m : Bytes) (hm : (history s).getLast? = some (.obs (.recv m)))
    {msg : SessionData} (hr : SessionData.read m = .ok msg) (now : Int) (scratch : Bytes) {e : Err}
    (he : (s.pending.validateAuth s.stats msg now c.bufLen).2.2 = .error e) : Inv c (s.authValidated c msg now scratch) := by
  obtain ⟨hd, _⟩ := does_validateAuth s.pending s.stats msg now c.bufLen
  refine h.act (.checked true msg (.error e)) rfl ?_ ⟨m, hm, hr⟩ ?_
  · rw [authValidated_acts, he]
  · show Good c ((view s).add ((view s).owner true) (.rejected msg e)) _
    simp only [View.owner, if_true]
    rw [he] at hd
    cases hw : (view s).waiting with
    | none =>
      have hv := h.good.noWait hw
      refine h.good.of_eq rfl ?_ rfl (fun _ h => h)
      show (s.pending.validateAuth s.stats msg now c.bufLen).1 = s.pending
      simp [Session.validateAuth, Session.validateWith, hv]
    | some n =>
      rw [← hw]
      exact h.good.inPending hw hd rfl rfl rfl (fun _ h => h)

/-- ... and accepted. -/
theorem Inv.authAccepted {c : Cfg} {s t : Layer} (h : Inv c s) (m : Bytes) (hm : (history s).getLast? = some (.obs (.recv m)))
    {msg : SessionData} (hr : SessionData.read m = .ok msg) (now : Int) {payload : Bytes}
    (hok : (s.pending.validateAuth s.stats msg now c.bufLen).2.2 = .ok payload) (hl : t.log = s.log)
    (ha : t.acts = s.acts ++ [(s.log.length, .checked true msg (.ok payload))])
    (h1 : t.active = (s.pending.validateAuth s.stats msg now c.bufLen).1) (h2 : t.pending = s.active.reset)
    (h3 : t.tx.remainder = s.tx.remainder) : Inv c t := by
  obtain ⟨hd, hv⟩ := does_validateAuth s.pending s.stats msg now c.bufLen
  rw [hok, ← h1] at hd
  refine h.act _ hl ha ⟨m, hm, hr⟩ ?_
  cases hw : (view s).waiting with
  | none =>
    have := h.good.noWait hw
    rw [hv _ hok] at this
    cases this
  | some n =>
    have := (h.good.activate hw hd h2 h3 (by rw [hl]; exact fun _ h => h)).reading
      (arrived (view s).waiting payload) (view s).given
    rw [hw] at this
    simp only [View.step]
    rw [hw]
    exact this

/-- A data message is checked. -/
theorem Inv.dataChecked {c : Cfg} {s t : Layer} (h : Inv c s) (m : Bytes) (hm : (history s).getLast? = some (.obs (.recv m)))
    {msg : SessionData} (hr : SessionData.read m = .ok msg) (now : Int) {r : Except Err Bytes}
    (hok : (s.active.validateData s.stats msg now c.bufLen).2.2 = r) (hl : t.log = s.log)
    (ha : t.acts = s.acts ++ [(s.log.length, .checked false msg r)])
    (h1 : t.active = (s.active.validateData s.stats msg now c.bufLen).1) (h2 : t.pending = s.pending)
    (h3 : t.tx.remainder = s.tx.remainder) : Inv c t := by
  obtain ⟨hd, hv⟩ := does_validateData s.active s.stats msg now c.bufLen
  rw [hok, ← h1] at hd
  refine h.act _ hl ha ⟨m, hm, hr⟩ ?_
  cases hw : (view s).current with
  | none =>
    have hn := h.good.noCur hw
    have hact : t.active = s.active := by
      rw [h1]
      simp [Session.validateData, Session.validateWith, hn]
    cases r with
    | ok p => rw [hv _ hok] at hn; cases hn
    | error e =>
      simp only [View.step, View.owner, hw, View.add, Bool.false_eq_true, if_false]
      exact h.good.of_eq hact h2 h3 (by rw [hl]; exact fun _ h => h)
  | some n =>
    have := h.good.inActive hw hd (by cases r <;> simp [checkEvent]) h2 h3 (by rw [hl]; exact fun _ h => h)
    cases r with
    | ok p =>
      have := this.reading (arrived (view s).current p) (view s).given
      rw [hw] at this
      simp only [View.step]
      rw [hw]
      exact this
    | error e =>
      rw [hw] at this
      simp only [View.step, View.owner, hw]
      exact this

/-- A session auth message is made, and the data in it accounted for. -/
theorem Inv.authSent {c : Cfg} {s t : Layer} (h : Inv c s) (b : Bool) (now : Int) {out : Formatted}
    (hok : ((if b then s.pending else s.active).formatAuth now s.tx.remainder).2.2 = .ok out)
    (ht : t = (s.authFormatted b now).authTaken s.tx.remainder
      ((if b then s.pending else s.active).formatAuth now s.tx.remainder).2.1) :
    Inv c t ∧ ∃ clear rest, (history t).getLast? = some (.act (.sent b out clear rest)) := by
  obtain ⟨hd, hv, ⟨k, hk, hrest⟩, hw⟩ := does_formatAuth hok
  have hl : t.log = s.log := by rw [ht]; simp
  have ha : t.acts = s.acts ++ [(s.log.length, .sent b out s.tx.remainder
      ((if b then s.pending else s.active).formatAuth now s.tx.remainder).2.1)] := by
    rw [ht]
    simp only [authTaken_acts, authFormatted_acts, hok]
    rfl
  have htx : t.tx.remainder = ((if b then s.pending else s.active).formatAuth now s.tx.remainder).2.1 := by
    rw [ht]
    by_cases he : s.tx.remainder = []
    · rw [he] at hrest ⊢
      rw [hrest]
      simp [Layer.authTaken, he]
    · simp [Layer.authTaken, he, TxState.beginTransmit]
  refine ⟨h.act _ hl ha ?_ ?_, _, _, by rw [history_act hl ha]; exact List.getLast?_concat ..⟩
  · refine ⟨h.good.out.symm, ⟨k, hk, hrest⟩, ?_, ?_⟩
    · show ((view s).owner b).isSome = true
      rw [h.good.owner_valid b]; exact hv
    · have hfw : (if b then s.pending else s.active).frameWriter = c.fw := by
        cases b
        · exact h.good.fwa.1
        · exact h.good.fwp.1
      rw [hfw] at hw
      exact hw
  · show Good c { (view s).add ((view s).owner b) _ with outstanding := _ } t
    have hall : ∀ o ∈ (s.authFormatted b now).log, o ∈ t.log := by rw [hl]; simp
    have key : Good c ((view s).add ((view s).owner b) (.sent out s.tx.remainder
        ((if b then s.pending else s.active).formatAuth now s.tx.remainder).2.1)) (s.authFormatted b now) := by
      have hs := h.good.owner_valid b
      cases b with
      | true =>
        simp only [View.owner, if_true] at hs hd ⊢
        cases hw : (view s).waiting with
        | none => rw [hw] at hs; simp only [if_true] at hv; rw [hv] at hs; cases hs
        | some n =>
          rw [← hw]
          exact h.good.inPending hw (by simpa using hd) rfl (by simp) (by simp) (by simp)
      | false =>
        simp only [View.owner, Bool.false_eq_true, if_false] at hs hd ⊢
        cases hw : (view s).current with
        | none => rw [hw] at hs; simp only [Bool.false_eq_true, if_false] at hv; rw [hv] at hs; cases hs
        | some n =>
          rw [← hw]
          exact h.good.inActive hw (by simpa using hd) (by simp) (by simp) (by simp) (by simp)
    exact key.taken _ (by rw [ht]; simp) (by rw [ht]; simp) htx hall

/-- A session auth message cannot be made. -/
theorem Inv.authNotSent {c : Cfg} {s : Layer} (h : Inv c s) (b : Bool) (now : Int) {e : Err}
    (he : ((if b then s.pending else s.active).formatAuth now s.tx.remainder).2.2 = .error e) :
    Inv c (s.authFormatted b now) := by
  have hs := formatAuth_error he
  refine h.act (.notSent b) (by simp) ?_ trivial ?_
  · simp [he, authAct]
  · cases b with
    | true =>
      refine h.good.of_eq (by simp) ?_ (by simp) (by simp)
      simpa using hs
    | false =>
      refine Good.reading (h.good.of_eq ?_ (by simp) (by simp) (by simp)) none (view s).given
      simpa using hs

/-- A handshake puts keys in the pending session. -/
theorem Inv.newKeys {c : Cfg} {s t : Layer} (h : Inv c s) (hl : t.log = s.log ++
      [.established t.pending.keys t.pending.algorithms t.pending.param]) (ha : t.acts = s.acts)
    (hp : t.pending = { s.pending with
      rxNonce := 0, txNonce := 0, valid := true, algorithms := t.pending.algorithms, param := t.pending.param
      keys := t.pending.keys }) (hk : t.pending.keys.rxKey.length = 32 ∧ t.pending.keys.txKey.length = 32)
    (h1 : t.active = s.active) (h3 : t.tx.remainder = s.tx.remainder) : Inv c t := by
  refine h.obs _ hl ha trivial ?_
  refine h.good.established ?_ hk h1 h3 (by rw [hl]; exact fun _ h => List.mem_append_left _ h) (by rw [hl]; simp)
  have e1 : t.pending.frameWriter = c.fw := (congrArg Session.frameWriter hp).trans h.good.fwp.1
  have e2 : t.pending.ttlPadMs = c.ttlPadMs := (congrArg Session.ttlPadMs hp).trans h.good.fwp.2
  have e3 : t.pending.valid = true := congrArg Session.valid hp
  have e4 : t.pending.rxNonce = 0 := congrArg Session.rxNonce hp
  have e5 : t.pending.txNonce = 0 := congrArg Session.txNonce hp
  generalize t.pending = P at e1 e2 e3 e4 e5 ⊢
  cases P
  simp only at e1 e2 e3 e4 e5
  subst e1 e2 e3 e4 e5
  rfl

/-- The initiator has accepted a reply: a new session. -/
theorem replied {c : Cfg} {E : Env} {s : Layer} (hP : OpenProof.Inv c E s) (h : Inv c s) {m w : Bytes} {params : Params}
    {limits : SessionLimits} {msg : ReplyHandshakeBegin} {now : Int}
    (hr : Receives E s m) (hrole : c.role = .initiator params limits)
    (hm : ReplyHandshakeBegin.read m = .ok msg) (hw : s.ini.hs = .waitForBeginReply)
    (ho : (s.ini.handshake.initializeSession c.backend c.caps msg m limits now s.pending s.stats).2.2.2 = .ok)
    {s1 : Layer} (h1 : s1 = (let r := s.ini.handshake.initializeSession c.backend c.caps msg m limits now s.pending s.stats
        ({ s.received m w with
          ini := ({ s.ini with respTimer := none, handshake := r.1 } : Ini),
          pending := r.2.1, stats := r.2.2.1 } : Layer).establishedIf s.stats.numInit)) : Inv c s1 := by
  rcases hproc : s.ini.handshake.initializeSession c.backend c.caps msg m limits now s.pending s.stats with
    ⟨ih', s'', st'', res⟩
  rw [hproc] at ho h1
  simp only at ho h1
  obtain ⟨params', limits', h0, h1', request, t0, used, l1, l2, a1, a2, a3, a4, a5, a6, a7, a8, a9⟩ := hP.req hw
  rw [hrole] at a1
  cases a1
  have hc : h1'.Configured c.backend c.caps := by
    unfold InitiatorHandshake.Configured
    rw [a4.1, a4.2.1]
    exact a3
  rw [a5] at hproc
  obtain ⟨_, hno, hok⟩ := C25_initiator_session c.backend c.caps h1' hc request m msg limits t0 now s.pending s.stats
    _ _ _ _ hproc
  obtain ⟨secret, start, g1, g2, g3, g4, g5, g6, g7⟩ := hok ho
  have hne : st''.numInit ≠ s.stats.numInit := by rw [g7]; simp
  have hps : s1.pending = s'' := by rw [h1]; simp
  refine (h.received m w).newKeys ?_ ?_ ?_ ?_ ?_ ?_
  · rw [hps, h1]; simp [hne]
  · rw [h1]; simp
  · rw [hps]
    simp only [received_pending]
    rw [g4]
  · rw [hps]; exact ⟨g5, g6⟩
  · rw [h1]; simp
  · rw [h1]; simp

/-- A closed layer without outstanding data stays so. -/
def Keep (s t : Layer) : Prop :=
  t.isOpen = s.isOpen ∧ (s.isOpen = false → s.tx.remainder = [] → t.tx.remainder = [])

theorem Keep.refl (s : Layer) : Keep s s := ⟨rfl, fun _ h => h⟩
theorem Keep.trans {s t u : Layer} (h1 : Keep s t) (h2 : Keep t u) : Keep s u :=
  ⟨h2.1.trans h1.1, fun ho hr => h2.2 (h1.1.trans ho) (h1.2 ho hr)⟩
theorem Keep.of_eq {s t : Layer} (h1 : t.isOpen = s.isOpen) (h2 : t.tx = s.tx) : Keep s t :=
  ⟨h1, fun _ h => by rw [h2]; exact h⟩

theorem keep_tx {c : Cfg} {s s' : Layer} (h : TxAtom c s s') : Keep s s' := by
  cases h with
  | nonceTrigger params limits s' hr _ hq => exact .of_eq hq.isOpen hq.tx
  | startTxRefused d _ => exact .of_eq rfl rfl
  | startTxAccepted d hr =>
    refine ⟨rfl, fun ho => ?_⟩
    simp [isTxReady, ho] at hr
  | dataSent now out hc hok =>
    refine ⟨rfl, fun _ he => ?_⟩
    simp [canTransmit, TxState.isReadyTx, he] at hc
  | dataFailed now e hc he => exact .of_eq (by simp) (by simp)

theorem keep_authTaken {s : Layer} (x : Bytes) (h : x = s.tx.remainder) (y : Bytes) : Keep s (s.authTaken x y) := by
  subst h
  refine ⟨by simp, fun _ he => ?_⟩
  simp [Layer.authTaken, he]

theorem keep_rx {c : Cfg} {E : Env} {s s' : Layer} (h : RxAtom c E s s') : Keep s s' := by
  cases h with
  | requestRefused m w hh msg now f e hr _ _ _ he s1 h1 _ h2 =>
    rcases h2 with rfl | ⟨fr, hw, rfl⟩ <;> subst h1 <;> exact .of_eq (by simp) (by simp)
  | requestAccepted m w hh msg now f frame hr hrole hf hm hver hok s1 h1 =>
    subst h1; exact .of_eq (by simp) (by simp)
  | replyRefused m w params limits msg now hr hrole hm hw ho _ h1 => subst h1; exact .of_eq (by simp) (by simp)
  | replyAuthFailed m w params limits msg now now' e hr hrole hm hw ho s1 h1 he s2 h2 =>
    subst h2 h1; exact .of_eq (by simp) (by simp)
  | replyAccepted m w params limits msg now now' out hr hrole hm hw ho s1 h1 he s2 h2 s3 h3 =>
    have k1 : Keep s (s1.authFormatted true now') := by subst h1; exact .of_eq (by simp) (by simp)
    have k2 : Keep (s1.authFormatted true now') s2 := by
      subst h2
      exact (keep_authTaken _ (by simp) _).trans (.of_eq rfl rfl)
    subst h3
    exact (k1.trans k2).trans (.of_eq rfl rfl)
  | respAuthOk m w hh msg now now' scratch payload out hr hrole hm hn hv hok s1 h1 ho =>
    have k1 : Keep s (s1.authFormatted false now') := by subst h1; exact .of_eq (by simp) (by simp)
    exact (k1.trans (keep_authTaken s1.tx.remainder (by simp) (s1.active.formatAuth now' s1.tx.remainder).2.1)).trans
      (.of_eq (by simp) (by simp))
  | initAuthRefused m w params limits msg now scratch e _ _ hm _ _ he _ h1 => subst h1; exact .of_eq (by simp) (by simp)
  | respAuthFailed m w hh msg now now' scratch payload e hr hrole hm hn hv hok s1 h1 he =>
    subst h1; exact .of_eq (by simp) (by simp)
  | _ => exact .of_eq (by simp) (by simp)

theorem keep_tail {c : Cfg} {E : Env} {o s s' : Layer} (h : RxTail c E Keep o s s') : Keep o s' := by
  cases h with
  | initAuthPayload s0 m w params limits msg now scratch payload a1 a2 a3 a4 a5 a6 a7 a8 a9 =>
    have k := keep_rx (RxAtom.initAuthOk (c := c) m w params limits msg now scratch payload a1 a2 a3 a4 a5 a6)
    subst a7
    exact (k.trans a8).trans (.of_eq (by simp) (by simp))
  | initAuthEnd s0 m w params limits msg now scratch payload a1 a2 a3 a4 a5 a6 a7 a8 =>
    have k := keep_rx (RxAtom.initAuthOk (c := c) m w params limits msg now scratch payload a1 a2 a3 a4 a5 a6)
    subst a7
    rcases a8 with ⟨b1, b2⟩ | ⟨s1, b1, b2, b3⟩
    · exact (k.trans b2).trans (.of_eq rfl rfl)
    · exact ((k.trans b1).trans (Keep.trans (.of_eq (by simp) (by simp)) b3)).trans (.of_eq rfl rfl)
  | dataNotified s1 m w msg now scratch payload a1 a2 a3 a4 a5 a6 a7 =>
    subst a6
    exact .of_eq (by rw [rxNotified_isOpen, a7.isOpen]; rfl) (by rw [rxNotified_tx, a7.tx]; rfl)
  | respAuthPayload s0 s1 m w hh msg now now' scratch payload out a1 a2 a3 a4 a5 a6 a7 a8 a9 a10 a11 =>
    have k := keep_rx (RxAtom.respAuthOk (c := c) m w hh msg now now' scratch payload out a1 a2 a3 a4 a5 a6 s1 a7 a8)
    rw [← a9] at k
    exact (k.trans a10).trans (.of_eq (by simp) (by simp))

/-- A closed layer has no outstanding data. -/
def J (s : Layer) : Prop := s.isOpen = false → s.tx.remainder = []

theorem atomic (c : Cfg) (E : Env) : Atomic c E (fun s => OpenProof.Inv c E s ∧ DisciplineProof.Inv s) (Inv c) J Keep Keep := by
  refine ⟨Keep.refl, fun _ _ _ => Keep.trans, fun _ _ _ => Keep.trans, fun _ _ h => h,
    fun _ _ _ _ => ⟨fun _ _ => .of_eq rfl rfl, fun _ _ h => h⟩, ?init, ?tx, ?rx, ?tail, fun s t _ _ hj hk ho => hk.2 (hk.1 ▸ ho) (hj (hk.1 ▸ ho)), ?top, ?closing, ?closed⟩
  case tx =>
    intro s s' hP _ h ha
    refine ⟨?_, keep_tx ha⟩
    cases ha with
    | nonceTrigger params limits s' hr _ hq =>
      exact Inv.hsReq (by exact h.same rfl rfl rfl rfl rfl) hq
    | startTxRefused d _ => exact h.note (.startTx d false) rfl rfl rfl rfl rfl rfl
    | startTxAccepted d hr =>
      refine h.obs (.startTx d true) rfl rfl ?_ ?_
      · show (view s).outstanding = [] ∧ lowerIsOpen (history s) = true
        rw [h.good.out, lowerIsOpen_history hP.2]
        simp [isTxReady, TxState.isIdle] at hr
        exact ⟨hr.2.2, hr.1.1⟩
      · exact h.good.taken d rfl rfl rfl (fun _ h => List.mem_append_left _ h)
    | dataSent now out hc hok =>
      obtain ⟨hd, hv, ⟨k, hk, hrest⟩, hw⟩ := does_formatData hok
      have hne : s.tx.remainder ≠ [] := by
        simp [canTransmit, TxState.isReadyTx] at hc
        exact hc.2.2
      obtain ⟨t, ht⟩ : ∃ t : Layer, t = { s with
          active := (s.active.formatData now s.tx.remainder).1
          acts := s.acts ++ [(s.log.length, .sent false out s.tx.remainder (s.active.formatData now s.tx.remainder).2.1)]
          tx := s.tx.beginTransmit (s.active.formatData now s.tx.remainder).2.1 } := ⟨_, rfl⟩
      have hl : t.log = s.log := by rw [ht]
      have ha : t.acts = s.acts ++ [(s.log.length, .sent false out s.tx.remainder
        (s.active.formatData now s.tx.remainder).2.1)] := by rw [ht]
      rw [← ht]
      refine Inv.lowerTx (h.act _ hl ha ?_ ?_) _ (.inl ⟨_, _, _, _, by rw [history_act hl ha]; exact List.getLast?_concat .., rfl⟩)
      · refine ⟨h.good.out.symm, ⟨k, hk, hrest⟩, ?_, ?_⟩
        · show ((view s).owner false).isSome = true
          rw [h.good.owner_valid false]; exact hv
        · rw [h.good.fwa.1] at hw; exact hw
      · have hs := h.good.owner_valid false
        show Good c { (view s).add ((view s).owner false) _ with outstanding := _ } _
        simp only [View.owner, Bool.false_eq_true, if_false] at hs ⊢
        cases hw : (view s).current with
        | none => rw [hw, hv] at hs; cases hs
        | some n =>
          rw [← hw]
          have key := h.good.inActive (t := { s with active := (s.active.formatData now s.tx.remainder).1 }) hw hd
            (by simp) rfl rfl (fun _ h => h)
          subst ht
          refine key.taken _ rfl rfl ?_ (fun _ h => h)
          simp [TxState.beginTransmit, hne]
    | dataFailed now e hc he =>
      refine Inv.closing (h.act .dropped rfl rfl trivial ?_)
      exact h.good.dropped (by simp [formatData_error he]) rfl rfl (fun _ h => h)
  case rx =>
    intro s s' hP _ h ha
    refine ⟨?_, keep_rx ha⟩
    cases ha with
    | ignored m w _ => exact h.received m w
    | errorReply m w hh e frame hr _ hw =>
      refine (h.received m w).lowerTx _ (.inr ?_)
      unfold FrameWriter.write at hw
      split at hw
      · cases hw
      · rename_i p hp
        exact ⟨p, by injection hw with hw; exact hw.symm, .inr (.inr ⟨_, hp⟩)⟩
    | requestRefused m w hh msg now f e hr _ _ _ he s1 h1 _ h2 =>
      rcases hproc : hh.process c.backend c.caps f.lookup f.rnd msg m now c.fw s.pending s.stats with
        ⟨s'', st'', used, res⟩
      rw [hproc] at he h1
      simp only at he h1
      obtain ⟨hno, _⟩ := C25_responder_session _ _ _ _ _ _ _ _ _ _ _ _ _ _ _ hproc
      obtain ⟨g1, g2⟩ := hno _ he
      have : Inv c s1 := by
        refine (h.received m w).keys used ?_ ?_ ?_ ?_ ?_ <;> subst h1 <;> simp [g1]
      rcases h2 with rfl | ⟨fr, hw, rfl⟩
      · exact this
      · refine this.lowerTx _ (.inr ?_)
        unfold FrameWriter.write at hw
        split at hw
        · cases hw
        · rename_i p hp
          exact ⟨p, by injection hw with hw; exact hw.symm, .inr (.inr ⟨_, hp⟩)⟩
    | requestAccepted m w hh msg now f frame hr hrole hf hm hver hok s1 h1 =>
      rcases hproc : hh.process c.backend c.caps f.lookup f.rnd msg m now c.fw s.pending s.stats with
        ⟨s'', st'', used, res⟩
      rw [hproc] at hok h1
      simp only at hok h1
      obtain ⟨_, hyes⟩ := C25_responder_session _ _ _ _ _ _ _ _ _ _ _ _ _ _ _ hproc
      obtain ⟨rep, secret, alg, g1, g2, g3, g4, g5⟩ := hyes frame hok
      have hframe : HandshakeFrame c frame := ⟨rep, g2, .inr (.inl ⟨_, g1⟩)⟩
      rw [h1]
      refine Inv.lowerTx ?_ _ (.inr hframe)
      rcases g5 with ⟨g5, g6, _⟩ | ⟨g5, g6, g7, g8⟩
      · unfold Layer.establishedIf
        rw [if_neg (by simp [g6])]
        refine (h.received m w).keys used ?_ ?_ ?_ ?_ ?_ <;> simp [g5]
      · have hne : st''.numInit ≠ s.stats.numInit := by rw [g8]; simp
        have hk : Inv c ((s.received m w).keyNoted used) := by
          refine (h.received m w).keys used ?_ ?_ ?_ ?_ ?_ <;> simp
        have hps : (Layer.establishedIf (({ s.received m w with pending := s'', stats := st'' } : Layer).keyNoted used)
            s.stats.numInit).pending = s'' := by simp
        refine hk.newKeys ?_ ?_ ?_ ?_ ?_ ?_
        · rw [hps]
          simp [hne]
        · simp
        · rw [hps]
          simp only [keyNoted_pending, received_pending]
          rw [g5]
        · rw [hps]; exact ⟨g6, g7⟩
        · simp
        · simp
    | replyRefused m w params limits msg now hr hrole hm hw ho _ h1 =>
      rcases hproc : s.ini.handshake.initializeSession c.backend c.caps msg m limits now s.pending s.stats with
        ⟨ih', s'', st'', res⟩
      rw [hproc] at ho h1
      simp only at ho h1
      subst h1
      obtain ⟨_, g2, _⟩ := OpenProof.reply_cases hP.1 hw hrole hm now hproc
      exact (h.received m w).same rfl rfl rfl (g2 (by rw [ho]; nofun)).1 rfl
    | replyAuthFailed m w params limits msg now now' e hr hrole hm hw ho s1 h1 he s2 h2 =>
      have := replied hP.1 h hr hrole hm hw ho h1
      subst h2
      exact (this.authNotSent true now' (by simpa using he)).same rfl rfl rfl rfl rfl
    | replyAccepted m w params limits msg now now' out hr hrole hm hw ho s1 h1 he s2 h2 s3 h3 =>
      have := replied hP.1 h hr hrole hm hw ho h1
      obtain ⟨h4, cl, rs, h5⟩ := this.authSent true now' (by simpa using he) rfl
      subst h3 h2
      refine Inv.same (h4.lowerTx out.frame (.inl ⟨_, _, _, _, h5, rfl⟩)) rfl rfl rfl rfl rfl
    | replyError m w params limits _ _ _ => exact (h.received m w).same rfl rfl rfl rfl rfl
    | initAuthRefused m w params limits msg now scratch e _ _ hm _ _ he _ h1 =>
      subst h1
      exact ((h.received m w).authRefused m (received_last h m w) hm now scratch he).same rfl rfl rfl rfl rfl
    | initAuthOk m w params limits msg now scratch payload hr hrole hm hn hw hv =>
      refine Inv.opening ?_
      exact (h.received m w).authAccepted m (received_last h m w) hm now hv rfl
        (by simp only [activated_acts, authValidated_acts]; simp [hv]) rfl rfl rfl
    | respAuthRefused m w hh msg now scratch e _ _ hm _ _ he =>
      exact (h.received m w).authRefused m (received_last h m w) hm now scratch he
    | respAuthFailed m w hh msg now now' scratch payload e hr hrole hm hn hv hok s1 h1 he =>
      have : Inv c s1 := (h.received m w).authAccepted m (received_last h m w) hm now hok (by rw [h1]; rfl)
        (by rw [h1]; simp [hok]) (by rw [h1]; rfl) (by rw [h1]; rfl) (by rw [h1]; rfl)
      exact this.authNotSent false now' (by simpa using he)
    | respAuthOk m w hh msg now now' scratch payload out hr hrole hm hn hv hok s1 h1 ho =>
      have : Inv c s1 := (h.received m w).authAccepted m (received_last h m w) hm now hok (by rw [h1]; rfl)
        (by rw [h1]; simp [hok]) (by rw [h1]; rfl) (by rw [h1]; rfl) (by rw [h1]; rfl)
      obtain ⟨h4, cl, rs, h5⟩ := this.authSent false now' (by simpa using ho) rfl
      exact Inv.opening (h4.lowerTx out.frame (.inl ⟨_, _, _, _, h5, rfl⟩))
    | dataRefused m w msg now scratch e hr hm hn he =>
      exact (h.received m w).dataChecked m (received_last h m w) hm now he rfl (by simp [he]) rfl rfl rfl
    | dataOk m w msg now scratch payload hr hm hn he =>
      exact (h.received m w).dataChecked m (received_last h m w) hm now he rfl (by simp [he]) rfl rfl rfl
    | readEmpty => exact h.same rfl rfl rfl rfl rfl
    | discarded => exact h.note .rxCall rfl rfl rfl rfl rfl rfl
    | asked => exact h.note .rxCall rfl rfl rfl rfl rfl rfl
    | readNothing => exact h.note (.startRx []) rfl rfl rfl rfl rfl rfl
    | readData hp hf =>
      have h1 : Inv c (s.noted .rxCall) := h.note .rxCall rfl rfl rfl rfl rfl rfl
      refine h1.obs (.startRx s.payload) rfl rfl trivial ?_
      have h2 : Good c (view (s.noted .rxCall)) { (s.noted .rxCall).noted (.startRx s.payload) with rxFlag := true } :=
        h1.good.of_eq rfl rfl rfl (fun _ h => List.mem_append_left _ h)
      simp only [View.step]
      split
      · exact h2
      · split
        · exact h2.reading _ _
        · exact h2
  case tail =>
    intro o s s' _ _ _ _ h ha
    refine ⟨?_, keep_tail ha⟩
    cases ha with
    | initAuthPayload => exact Inv.rxNotified (by exact h.same rfl rfl rfl rfl rfl)
    | dataNotified => exact h.rxNotified
    | initAuthEnd => exact h.same rfl rfl rfl rfl rfl
    | respAuthPayload => exact Inv.rxNotified (by exact h.same rfl rfl rfl rfl rfl)
  case top =>
    intro s s' _ _ h hj ha
    have hopen : ∀ {t : Layer}, t.isOpen = true → J t := fun h1 h2 => by rw [h1] at h2; cases h2
    have hsame : ∀ {t : Layer}, t.isOpen = s.isOpen → t.tx = s.tx → J t := fun h1 h2 ho => by
      rw [h2]; exact hj (h1 ▸ ho)
    have hlower : s.isOpen = false → Inv c (({ s with isOpen := true } : Layer).noted .lowerOpen) := fun ho =>
      h.obs .lowerOpen rfl rfl (by show (view s).outstanding = []; rw [h.good.out]; exact hj ho)
        (h.good.of_eq rfl rfl rfl (fun _ h => List.mem_append_left _ h))
    cases ha with
    | ready b => exact ⟨h.note (.lowerReady b) rfl rfl rfl rfl rfl rfl, hsame rfl rfl⟩
    | openedResponder hh hr ho => exact ⟨hlower ho, hopen rfl⟩
    | openedInitiator params limits _ hr ho hq => exact ⟨Inv.hsReq (hlower ho) hq, hopen (by rw [hq.isOpen]; rfl)⟩
    | txComplete ho =>
      refine ⟨h.same rfl rfl rfl rfl ?_, hopen ho⟩
      show (s.tx.onTxComplete.1).remainder = _
      unfold TxState.onTxComplete
      split <;> rfl
    | preTxReady params limits _ hr _ _ hq => exact ⟨h.hsReq hq, hsame hq.isOpen hq.tx⟩
    | txNotified hi => exact ⟨h.txNotified hi, hsame (by simp) (by simp)⟩
    | responseTimeout params limits hr _ i hi i' hi' => exact ⟨h.same rfl rfl rfl rfl rfl, hsame rfl rfl⟩
    | retryTimeout params limits _ hr _ i hi hq =>
      exact ⟨Inv.hsReq (by exact h.same rfl rfl rfl rfl rfl) hq, hsame hq.isOpen hq.tx⟩
    | sessionTimeout params limits _ hr _ hq =>
      exact ⟨Inv.hsReq (by exact h.same rfl rfl rfl rfl rfl) hq, hsame hq.isOpen hq.tx⟩
    | orphanResponse params limits hr _ i hi i' hi' => exact ⟨h.same rfl rfl rfl rfl rfl, hsame rfl rfl⟩
    | orphanRetry params limits _ hr _ i hi hq =>
      exact ⟨Inv.hsReq (by exact h.same rfl rfl rfl rfl rfl) hq, hsame hq.isOpen hq.tx⟩
    | orphanSession params limits _ hr _ hq =>
      exact ⟨Inv.hsReq (by exact h.same rfl rfl rfl rfl rfl) hq, hsame hq.isOpen hq.tx⟩
  case closing =>
    intro s _ _ h _ _
    unfold Layer.lowerClosing
    refine Inv.closing ?_
    refine h.obs .lowerClose ?_ ?_ trivial ?_
    · split <;> rfl
    · split <;> rfl
    · refine h.good.closed ?_ ?_ ?_ ?_
      · split <;> rfl
      · split <;> rfl
      · split <;> rfl
      · intro o ho
        split <;> exact List.mem_append_left _ ho
  case closed =>
    intro s0 s _ hP _ _ _ _ h hk
    refine ⟨?_, fun _ => rfl⟩
    have ho : s.isOpen = false := by rw [hk.1]; simp
    exact h.act .discarded rfl rfl (by show lowerIsOpen (history s) = false; rw [lowerIsOpen_history hP.2, ho]) (h.good.taken [] rfl rfl rfl (fun _ h => h))
  case init =>
    intro hh hc he
    refine ⟨⟨by simp [Layer.new], ?_, ?_⟩, fun _ => rfl⟩
    · have hv : view (Layer.new c hh) = {} := rfl
      rw [hv]
      exact ⟨⟨rfl, rfl⟩, ⟨rfl, rfl⟩, by simp, fun _ => rfl, nofun, fun _ => rfl, nofun,
        fun n hn => absurd hn (Nat.not_lt_zero n), rfl, by simp⟩
    · intro pre e post h
      have : history (Layer.new c hh) = [] := rfl
      rw [this] at h
      simp at h

theorem inv {c : Cfg} {E : Env} {s : Layer} (h : Observed c E s) : Inv c s :=
  (((atomic c E).proof ((OpenProof.atomic c E).and (DisciplineProof.atomic c E))).observed h).2

end RefineProof

end SSP21.Crypto
