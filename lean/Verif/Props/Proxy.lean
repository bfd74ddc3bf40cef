import Verif.Proxy
/-
  Property C42: the sessions of a TCP proxy.
-/
namespace SSP21.Proxy

namespace Spec

/-- How many connections were made in a history. -/
def connects (es : List Event) : Nat := es.count .connected

/-- The sessions are in the order in which they were made, no two have the same id, and all ids are below the next one. -/
def Ordered (s : State) : Prop :=
  s.sessions.Pairwise (fun a b => a.id < b.id) ∧ ∀ e ∈ s.sessions, e.id < s.nextId

end Spec

/-- The invariant of histories with fewer than 2^64 connections. -/
structure Inv (max : UInt16) (n : Nat) (s : State) : Prop where
  limit : s.maxSessions = if max = 0 then 1 else max.toNat
  size : s.sessions.length ≤ s.maxSessions
  count : s.nextId.toNat = n
  ordered : Spec.Ordered s

theorem Inv.pos {max : UInt16} {n : Nat} {s : State} (h : Inv max n s) : 0 < s.maxSessions := by
  rw [h.limit]
  split
  · decide
  · rename_i hne
    exact Nat.pos_of_ne_zero fun h0 => hne (UInt16.toNat_inj.mp h0)

theorem erase_inv {max : UInt16} {n : Nat} {s : State} (h : Inv max n s) (id : UInt64) : Inv max n (s.erase id) :=
  ⟨h.limit, Nat.le_trans (List.length_filter_le ..) h.size, h.count,
    h.ordered.1.filter _, fun e he => h.ordered.2 e ((List.mem_filter.mp he).1)⟩

theorem onSessionErrorAgain_eq (s : State) (id : UInt64) : (s.erase id).onSessionErrorAgain id = s.erase id := by
  simp only [State.onSessionErrorAgain, State.erase, List.filter_filter, Bool.and_self]

theorem onSessionError_eq (s : State) (id : UInt64) : s.onSessionError id = s.erase id := by
  unfold State.onSessionError
  split
  · rename_i h
    have h' := List.find?_eq_none.mp h
    have : s.sessions.filter (·.id ≠ id) = s.sessions := List.filter_eq_self.mpr fun e he => by
      have := h' e he
      simpa using this
    cases s
    simp only [State.erase] at this ⊢
    rw [this]
  · unfold shutdown
    split
    · exact onSessionErrorAgain_eq s id
    · rfl

theorem insert_last (e : Entry) (l : List Entry) (h : ∀ x ∈ l, x.id < e.id) : insert e l = l ++ [e] := by
  induction l with
  | nil => rfl
  | cons x xs ih =>
    have hx := h x (by simp)
    have h1 : ¬ e.id < x.id := fun h => UInt64.lt_irrefl _ (UInt64.lt_trans h hx)
    have h2 : e.id ≠ x.id := fun h => UInt64.ne_of_lt hx h.symm
    simp only [insert, h1, if_false, h2, List.cons_append]
    rw [ih fun y hy => h y (by simp [hy])]

/-- What making room does: nothing if there is room; otherwise the oldest session goes, unless its application side is
open: then the behaviour is undefined. -/
theorem makeRoom_cases {max : UInt16} {n : Nat} {s : State} (h : Inv max n s) :
    (s.sessions.length < s.maxSessions ∧ s.makeRoom = some s) ∨
    (s.sessions.length = s.maxSessions ∧ ∃ oldest rest, s.sessions = oldest :: rest ∧
      s.makeRoom = if oldest.appOpen then none else some { s with sessions := rest }) := by
  by_cases hf : s.sessions.length = s.maxSessions
  · right
    refine ⟨hf, ?_⟩
    have hpos := h.pos
    match hs : s.sessions with
    | [] => rw [hs] at hf; simp at hf; omega
    | oldest :: rest =>
      refine ⟨oldest, rest, rfl, ?_⟩
      have hne : ∀ e ∈ rest, e.id ≠ oldest.id := by
        intro e he
        have := h.ordered.1
        rw [hs] at this
        exact fun hh => UInt64.ne_of_lt (List.rel_of_pairwise_cons this he) hh.symm
      have her : s.erase oldest.id = { s with sessions := rest } := by
        have : rest.filter (·.id ≠ oldest.id) = rest := List.filter_eq_self.mpr fun e he => by simpa using hne e he
        simp only [State.erase, hs]
        rw [List.filter_cons_of_neg (by simp), this]
      unfold State.makeRoom
      rw [if_pos hf]
      simp only [hs, shutdown]
      split
      · rename_i ho
        rw [onSessionError_eq, her]
        unfold State.eraseIterator
        rw [if_neg]
        simp only [List.any_eq_true, decide_eq_true_eq, not_exists, not_and]
        exact fun e he => hne e he
      · rename_i ho
        unfold State.eraseIterator
        rw [if_pos (by simp [hs]), her]
  · left
    have := h.size
    exact ⟨by omega, by unfold State.makeRoom; rw [if_neg hf]⟩

theorem connected_inv {max : UInt16} {n : Nat} {s s' : State} (h : Inv max n s) (hn : n < 2 ^ 64 - 1)
    (hc : s.connected = some s') : Inv max (n + 1) s' ∧
    ∃ old, s'.sessions = old ++ [⟨s.nextId, false⟩] ∧
      ((s.sessions.length < s.maxSessions ∧ old = s.sessions) ∨
       (s.sessions.length = s.maxSessions ∧ ∃ oldest, s.sessions = oldest :: old ∧ oldest.appOpen = false)) := by
  unfold State.connected at hc
  have finish : ∀ (s1 : State) (hi : Inv max n s1), s1.sessions.length < s1.maxSessions → s1.nextId = s.nextId →
      Inv max (n + 1) { s1 with nextId := s1.nextId + 1, sessions := insert ⟨s1.nextId, false⟩ s1.sessions } ∧
      insert ⟨s1.nextId, false⟩ s1.sessions = s1.sessions ++ [⟨s.nextId, false⟩] := by
    intro s1 hi hlt hid
    have hins := insert_last ⟨s1.nextId, false⟩ s1.sessions hi.ordered.2
    have hsucc : (s1.nextId + 1).toNat = n + 1 := by
      have := hi.count
      rw [UInt64.toNat_add, this]
      simp
      omega
    have hlt' : s1.nextId < s1.nextId + 1 := by
      rw [UInt64.lt_iff_toNat_lt, hsucc, hi.count]; omega
    refine ⟨⟨hi.limit, ?_, hsucc, ?_⟩, by rw [hins, hid]⟩
    · simp only [hins, List.length_append, List.length_cons, List.length_nil]
      omega
    · simp only [Spec.Ordered, hins]
      refine ⟨List.pairwise_append.mpr ⟨hi.ordered.1, by simp, ?_⟩, ?_⟩
      · intro a ha b hb
        simp only [List.mem_singleton] at hb
        subst hb
        exact hi.ordered.2 a ha
      · intro e he
        rcases List.mem_append.mp he with he | he
        · exact UInt64.lt_trans (hi.ordered.2 e he) hlt'
        · simp only [List.mem_singleton] at he
          subst he
          exact hlt'
  rcases makeRoom_cases h with ⟨hlt, hm⟩ | ⟨hf, oldest, rest, hs, hm⟩
  · rw [hm] at hc
    simp only [Option.some.injEq] at hc
    subst hc
    obtain ⟨h1, h2⟩ := finish s h hlt rfl
    exact ⟨h1, s.sessions, h2, .inl ⟨hlt, rfl⟩⟩
  · rw [hm] at hc
    cases ho : oldest.appOpen
    · simp only [ho, Bool.false_eq_true, if_false, Option.some.injEq] at hc
      subst hc
      have hp := h.ordered.1
      rw [hs] at hp
      have hlen := h.size
      rw [hs] at hlen
      simp only [List.length_cons] at hlen
      have hi : Inv max n { s with sessions := rest } := ⟨h.limit, by simp only; omega, h.count,
        (List.pairwise_cons.mp hp).2, fun e he => h.ordered.2 e (by rw [hs]; simp [he])⟩
      obtain ⟨h1, h2⟩ := finish _ hi (by simp only; omega) rfl
      exact ⟨h1, rest, h2, .inr ⟨hf, oldest, hs, ho⟩⟩
    · simp [ho] at hc

theorem step_inv {max : UInt16} {n : Nat} {s s' : State} {e : Event} (h : Inv max n s)
    (hn : n + (if e = .connected then 1 else 0) < 2 ^ 64) (hs : s.step e = some s') :
    Inv max (n + (if e = .connected then 1 else 0)) s' := by
  cases e with
  | connected =>
    simp only [if_true] at hn ⊢
    exact (connected_inv h (by omega) hs).1
  | opened id =>
    simp only [State.step, Option.some.injEq] at hs
    subst hs
    have hid : ∀ x : Entry, (if x.id = id then { x with appOpen := true } else x).id = x.id := by
      intro x; split <;> rfl
    refine ⟨h.limit, by simpa using h.size, by simpa using h.count, ?_, ?_⟩
    · simp only [List.pairwise_map, hid]
      exact h.ordered.1
    · intro e he
      obtain ⟨x, hx, rfl⟩ := List.mem_map.mp he
      rw [hid]
      exact h.ordered.2 x hx
  | upperError id =>
    simp only [State.step, Option.some.injEq] at hs
    subst hs
    rw [onSessionError_eq]
    simpa using erase_inv h id
  | lowerError id =>
    simp only [State.step] at hs
    split at hs
    · simp only [Option.some.injEq] at hs
      subst hs
      simp only [reduceCtorEq, if_false, Nat.add_zero]
      split
      · rw [onSessionError_eq]
        exact erase_inv h id
      · exact h
    · simp only [Option.some.injEq] at hs
      subst hs
      simpa using h
  | appClosed id =>
    simp only [State.step] at hs
    split at hs
    · simp only [Option.some.injEq] at hs
      subst hs
      simp only [reduceCtorEq, if_false, Nat.add_zero]
      split
      · rw [onSessionError_eq]
        exact erase_inv h id
      · exact h
    · simp only [Option.some.injEq] at hs
      subst hs
      simpa using h

theorem run_inv {max : UInt16} (es : List Event) : ∀ {n : Nat} {s s' : State}, Inv max n s →
    n + Spec.connects es < 2 ^ 64 → s.run es = some s' → Inv max (n + Spec.connects es) s' := by
  induction es with
  | nil => intro n s s' h _ hr; simp only [State.run, Option.some.injEq] at hr; subst hr; simpa [Spec.connects] using h
  | cons e es ih =>
    intro n s s' h hn hr
    unfold State.run at hr
    split at hr
    · cases hr
    rename_i s1 hs
    have hc : Spec.connects (e :: es) = (if e = .connected then 1 else 0) + Spec.connects es := by
      unfold Spec.connects
      rw [List.count_cons]
      simp only [beq_iff_eq]
      omega
    rw [hc] at hn ⊢
    have := ih (step_inv h (by omega) hs) (by omega) hr
    rwa [Nat.add_assoc] at this

theorem start_inv (max : UInt16) : Inv max 0 (.new max) := by
  refine ⟨rfl, Nat.zero_le _, rfl, by simp [Spec.Ordered, State.new]⟩

/-- C42, for histories whose behaviour is defined (see `C42_eviction_violation`) with fewer than 2^64 connections: there
are never more sessions than the maximum (one if it is configured as 0); they are in the order in which they were made,
with distinct ids, each of which is the number of connections made before it. -/
theorem C42_bounded_partial (max : UInt16) (es : List Event) (s : State) (hr : (State.new max).run es = some s)
    (hn : Spec.connects es < 2 ^ 64) :
    s.sessions.length ≤ (if max = 0 then 1 else max.toNat) ∧ Spec.Ordered s ∧ s.nextId.toNat = Spec.connects es := by
  have h := run_inv es (start_inv max) (by omega) hr
  exact ⟨h.limit ▸ h.size, h.ordered, by simpa using h.count⟩

/-- C42, same histories: a new connection always gets a session, with an id that no session had before; all other
sessions stay, except that the oldest one goes if there was no room, and only then. -/
theorem C42_connect_partial (max : UInt16) (es : List Event) (s s' : State) (hr : (State.new max).run es = some s)
    (hn : Spec.connects es < 2 ^ 64 - 1) (hc : s.step .connected = some s') :
    ∃ old, s'.sessions = old ++ [⟨s.nextId, false⟩] ∧
      ((s.sessions.length < (if max = 0 then 1 else max.toNat) ∧ old = s.sessions) ∨
       (s.sessions.length = (if max = 0 then 1 else max.toNat) ∧ ∃ oldest, s.sessions = oldest :: old ∧
          ∀ e ∈ old, oldest.id < e.id)) := by
  have h := run_inv es (start_inv max) (by omega) hr
  obtain ⟨_, old, h1, h2⟩ := connected_inv h (by omega) hc
  refine ⟨old, h1, ?_⟩
  rw [h.limit] at h2
  rcases h2 with h2 | ⟨h2, oldest, h3, _⟩
  · exact .inl h2
  · refine .inr ⟨h2, oldest, h3, ?_⟩
    have := h.ordered.1
    rw [h3] at this
    exact (List.pairwise_cons.mp this).1

/-- C42: no event but a connection makes a session, and an error removes at most the session it concerns. -/
theorem C42_others_stay (s s' : State) (ev : Event) (hc : s.step ev = some s') (hne : ev ≠ .connected) :
    s'.nextId = s.nextId ∧ s'.maxSessions = s.maxSessions ∧ (∀ e ∈ s'.sessions, ∃ e' ∈ s.sessions, e'.id = e.id) ∧
    ∀ e ∈ s.sessions, (ev ≠ .upperError e.id ∧ ev ≠ .lowerError e.id ∧ ev ≠ .appClosed e.id) →
      ∃ e' ∈ s'.sessions, e'.id = e.id := by
  have erased : ∀ id, (∀ e ∈ (s.erase id).sessions, ∃ e' ∈ s.sessions, e'.id = e.id) ∧
      ∀ e ∈ s.sessions, e.id ≠ id → ∃ e' ∈ (s.erase id).sessions, e'.id = e.id := by
    intro id
    constructor
    · intro e he
      exact ⟨e, (List.mem_filter.mp he).1, rfl⟩
    · intro e he hid
      exact ⟨e, List.mem_filter.mpr ⟨he, by simpa using hid⟩, rfl⟩
  cases ev with
  | connected => exact absurd rfl hne
  | opened id =>
    simp only [State.step, Option.some.injEq] at hc
    subst hc
    refine ⟨rfl, rfl, ?_, ?_⟩
    · intro e he
      obtain ⟨x, hx, rfl⟩ := List.mem_map.mp he
      exact ⟨x, hx, by split <;> rfl⟩
    · intro e he _
      exact ⟨_, List.mem_map.mpr ⟨e, he, rfl⟩, by split <;> rfl⟩
  | upperError id =>
    simp only [State.step, Option.some.injEq] at hc
    subst hc
    rw [onSessionError_eq]
    exact ⟨rfl, rfl, (erased id).1, fun e he hh => (erased id).2 e he fun h => hh.1 (by rw [h])⟩
  | lowerError id | appClosed id =>
    simp only [State.step] at hc
    split at hc
    · simp only [Option.some.injEq] at hc
      subst hc
      split
      · rw [onSessionError_eq]
        exact ⟨rfl, rfl, (erased id).1, fun e he hh => (erased id).2 e he fun h => by
          subst h; simp at hh⟩
      · exact ⟨rfl, rfl, fun e he => ⟨e, he, rfl⟩, fun e he _ => ⟨e, he, rfl⟩⟩
    · simp only [Option.some.injEq] at hc
      subst hc
      exact ⟨rfl, rfl, fun e he => ⟨e, he, rfl⟩, fun e he _ => ⟨e, he, rfl⟩⟩

/-- C42 is false otherwise: with every maximum there is a history after which the next connection makes the proxy erase
an element of the map that has already been erased: the oldest session has completed its handshake, and shutting it
down removes it from the map before `erase` is called with the iterator. -/
theorem C42_eviction_violation (max : UInt16) :
    ∃ es s, (State.new max).run es = some s ∧ s.step .connected = none := by
  have fill : ∀ (k : Nat), k ≤ (if max = 0 then 1 else max.toNat) →
      ∃ s, (State.new max).run (List.replicate k .connected) = some s ∧ s.sessions.length = k := by
    intro k
    induction k with
    | zero => intro _; exact ⟨_, rfl, rfl⟩
    | succ k ih =>
      intro hk
      obtain ⟨s, h1, h2⟩ := ih (by omega)
      have hcount : Spec.connects (List.replicate k .connected) = k := by simp [Spec.connects]
      have hmax : max.toNat < 65536 := max.toNat_lt
      have hk' : k < 2 ^ 64 - 1 := by split at hk <;> omega
      have hi := run_inv _ (start_inv max) (by rw [hcount]; omega) h1
      rw [hcount, Nat.zero_add] at hi
      have hroom := (makeRoom_cases hi)
      have hlim := hi.limit
      rcases hroom with ⟨_, hm⟩ | ⟨hf, _⟩
      · have hs : s.connected = some { s with nextId := s.nextId + 1, sessions := insert ⟨s.nextId, false⟩ s.sessions } := by
          unfold State.connected
          rw [hm]
        refine ⟨{ s with nextId := s.nextId + 1, sessions := insert ⟨s.nextId, false⟩ s.sessions }, ?_, ?_⟩
        · have happ : ∀ (es : List Event) (a b c : State) (e : Event), a.run es = some b → b.step e = some c →
              a.run (es ++ [e]) = some c := by
            intro es
            induction es with
            | nil => intro a b c e h h'; simp only [State.run, Option.some.injEq] at h; subst h; simp [State.run, h']
            | cons x xs ih =>
              intro a b c e h h'
              simp only [State.run, List.cons_append] at h ⊢
              split at h
              · cases h
              · exact ih _ _ _ _ h h'
          rw [List.replicate_succ']
          exact happ _ _ _ _ _ h1 hs
        · simp only
          rw [insert_last _ _ hi.ordered.2]
          simp [h2]
      · exfalso
        rw [h2, hlim] at hf
        omega
  obtain ⟨s, h1, h2⟩ := fill _ (Nat.le_refl _)
  have hmax : max.toNat < 65536 := max.toNat_lt
  have hcount : Spec.connects (List.replicate (if max = 0 then 1 else max.toNat) .connected) =
      (if max = 0 then 1 else max.toNat) := by simp [Spec.connects]
  have hi := run_inv _ (start_inv max) (by rw [hcount]; split <;> omega) h1
  have hpos := hi.pos
  match hs : s.sessions with
  | [] => rw [hs] at h2; rw [hi.limit] at hpos; simp at h2; omega
  | oldest :: rest =>
    have happ : ∀ (es : List Event) (a b c : State) (e : Event), a.run es = some b → b.step e = some c →
        a.run (es ++ [e]) = some c := by
      intro es
      induction es with
      | nil => intro a b c e h h'; simp only [State.run, Option.some.injEq] at h; subst h; simp [State.run, h']
      | cons x xs ih =>
        intro a b c e h h'
        simp only [State.run, List.cons_append] at h ⊢
        split at h
        · cases h
        · exact ih _ _ _ _ h h'
    have hop : s.step (.opened oldest.id) = some _ := rfl
    have hrun := happ _ _ _ _ _ h1 hop
    refine ⟨_, _, hrun, ?_⟩
    have hi' := step_inv hi (by rw [hcount]; simp; split <;> omega) hop
    rcases makeRoom_cases hi' with ⟨hlt, _⟩ | ⟨_, o, r, h3, h4⟩
    · exfalso
      rw [hi'.limit] at hlt
      simp [h2] at hlt
    · have ho : o.appOpen = true := by
        simp only [hs, List.map_cons, if_true, List.cons.injEq] at h3
        rw [← h3.1]
      show State.connected _ = none
      unfold State.connected
      rw [h4, ho]
      rfl

/-- A finding about sessions that never complete their handshake: an error of the socket below removes nothing. -/
theorem C42_leak (s : State) (e : Entry) (he : s.sessions.find? (·.id = e.id) = some e) (ho : e.appOpen = false) :
    s.step (.lowerError e.id) = some s := by
  simp only [State.step, he, ho, Bool.false_eq_true, if_false]

/-- Two sessions at most: three connections, with the first session evicted and the second one failing. -/
example : (State.new 2).run [.connected, .connected, .opened 1, .connected, .lowerError 1] =
    some ⟨[⟨2, false⟩], 2, 3⟩ := by decide +kernel
/-- The history of C42_eviction_violation, for a maximum of one. -/
example : (State.new 1).run [.connected, .opened 0, .connected] = none := by decide +kernel

end SSP21.Proxy
