import Verif.Props.Agreement
import Verif.Props.Robust
/-
  Property C53: user data across renegotiations. C44 is about one session; here the layers have any number of sessions,
  one after the other.
-/
namespace SSP21.Crypto
open Spec

namespace Spec

/-- The parts of user data that were put into messages, in order, each with the number of the session of its message
(messages without user data are left out). -/
def View.sent (v : View) : List (Nat × Bytes) :=
  v.events.filterMap fun x => match sentPart x.2 with
    | some p => if p = [] then none else some (x.1, p)
    | none => none

/-- The sender never used an older session after a newer one. -/
def SessionsInTurn (v : View) : Prop := (v.sent.map (·.1)).Pairwise (· ≤ ·)

end Spec

namespace RenegotiationProof

/-! ### Lists -/

theorem filter_step {l : List (Nat × Bytes)} (h : (l.map (·.1)).Pairwise (· ≤ ·)) (k : Nat) :
    l.filter (fun x => x.1 < k + 1) = l.filter (fun x => x.1 < k) ++ l.filter (fun x => x.1 = k) := by
  induction l with
  | nil => rfl
  | cons x l ih =>
    rw [List.map_cons, List.pairwise_cons] at h
    obtain ⟨h1, h2⟩ := h
    have h1 : ∀ y ∈ l, x.1 ≤ y.1 := fun y hy => h1 _ (List.mem_map_of_mem hy)
    have ih := ih h2
    by_cases hx : x.1 < k
    · rw [List.filter_cons_of_pos (by simp; omega), List.filter_cons_of_pos (by simpa using hx),
        List.filter_cons_of_neg (by simp; omega), ih]
      rfl
    · have hnil : l.filter (fun x => x.1 < k) = [] := List.filter_eq_nil_iff.mpr fun y hy => by
        have := h1 y hy
        simp
        omega
      rw [hnil, List.nil_append] at ih
      rw [List.filter_cons_of_neg (a := x) (p := fun x => x.1 < k) (by simpa using hx), hnil, List.nil_append]
      by_cases hk : x.1 = k
      · rw [List.filter_cons_of_pos (by simp; omega), List.filter_cons_of_pos (by simpa using hk), ih]
      · rw [List.filter_cons_of_neg (by simp; omega), List.filter_cons_of_neg (by simpa using hk), ih]

theorem filter_mono {l : List (Nat × Bytes)} {a b : Nat} (h : a ≤ b) :
    (l.filter (fun x => x.1 < a)).Sublist (l.filter (fun x => x.1 < b)) := by
  induction l with
  | nil => exact .slnil
  | cons x l ih =>
    by_cases hb : x.1 < b
    · rw [List.filter_cons_of_pos (a := x) (p := fun x : Nat × Bytes => x.1 < b) (by simpa using hb)]
      by_cases ha : x.1 < a
      · rw [List.filter_cons_of_pos (by simpa using ha)]
        exact ih.cons_cons _
      · rw [List.filter_cons_of_neg (by simpa using ha)]
        exact ih.cons _
    · rw [List.filter_cons_of_neg (by simp; omega), List.filter_cons_of_neg (by simpa using hb)]
      exact ih

theorem sublist_flatten {l m : List Bytes} (h : l.Sublist m) : l.flatten.Sublist m.flatten := by
  induction h with
  | slnil => exact .slnil
  | cons x _ ih => exact ih.trans (List.sublist_append_right ..)
  | cons_cons x _ ih => exact (List.Sublist.refl x).append ih

/-- Session by session, the later after the earlier. -/
theorem sublist_of_sessions {G S : List (Nat × Bytes)} (hG : (G.map (·.1)).Pairwise (· ≤ ·)) (hS : (S.map (·.1)).Pairwise (· ≤ ·))
    (f : Nat → Nat) (hf : ∀ x ∈ G, ∀ y ∈ G, x.1 < y.1 → f x.1 < f y.1)
    (hsub : ∀ x ∈ G, ((G.filter (fun y => y.1 = x.1)).map (·.2)).Sublist ((S.filter (fun y => y.1 = f x.1)).map (·.2))) :
    (G.map (·.2)).Sublist (S.map (·.2)) := by
  have key : ∀ k b, (∀ x ∈ G, x.1 < k → f x.1 < b) →
      ((G.filter (fun x => x.1 < k)).map (·.2)).Sublist ((S.filter (fun x => x.1 < b)).map (·.2)) := by
    intro k
    induction k with
    | zero =>
      intro b _
      have : G.filter (fun x => x.1 < 0) = [] := List.filter_eq_nil_iff.mpr fun y _ => by simp
      rw [this]
      exact List.nil_sublist _
    | succ k ih =>
      intro b hb
      rw [filter_step hG]
      by_cases hx : ∃ x ∈ G, x.1 = k
      · obtain ⟨x, hx, rfl⟩ := hx
        have h1 := ih (f x.1) fun y hy hlt => hf y hy x hx hlt
        have h2 := hsub x hx
        have h3 := filter_mono (l := S) (a := f x.1 + 1) (b := b) (hb x hx (by omega))
        rw [filter_step hS] at h3
        have h3 := h3.map (·.2)
        rw [List.map_append] at h3 ⊢
        exact (h1.append h2).trans h3
      · have : G.filter (fun x => x.1 = k) = [] := List.filter_eq_nil_iff.mpr fun y hy => by
          simp only [decide_eq_true_eq]
          exact fun he => hx ⟨y, hy, he⟩
        rw [this, List.append_nil]
        exact ih b fun y hy hlt => hb y hy (by omega)
  obtain ⟨k, hk⟩ : ∃ k, ∀ x ∈ G, x.1 < k := by
    clear hG hf hsub key
    induction G with
    | nil => exact ⟨0, fun _ h => by cases h⟩
    | cons a G ih =>
      obtain ⟨k, hk⟩ := ih
      refine ⟨max k (a.1 + 1), fun x hx => ?_⟩
      rcases List.mem_cons.mp hx with rfl | hx
      · omega
      · have := hk x hx
        omega
  obtain ⟨b, hb⟩ : ∃ b, ∀ x ∈ G, f x.1 < b := by
    clear hG hf hsub key hk
    induction G with
    | nil => exact ⟨0, fun _ h => by cases h⟩
    | cons a G ih =>
      obtain ⟨k, hk⟩ := ih
      refine ⟨max k (f a.1 + 1), fun x hx => ?_⟩
      rcases List.mem_cons.mp hx with rfl | hx
      · omega
      · have := hk x hx
        omega
  have := key k b fun x hx _ => hb x hx
  rw [List.filter_eq_self.mpr fun x hx => by simpa using hk x hx] at this
  exact this.trans (List.filter_sublist.map _)

/-! ### Views -/

theorem filter_given (v : View) (n : Nat) : (v.given.filter (fun y => y.1 = n)).map (·.2) = v.givenIn n := by
  unfold View.givenIn
  generalize v.given = l
  induction l with
  | nil => rfl
  | cons x l ih =>
    by_cases hx : x.1 = n
    · rw [List.filter_cons_of_pos (by simpa using hx), List.map_cons, ih, List.filterMap_cons, if_pos hx]
    · rw [List.filter_cons_of_neg (by simpa using hx), ih, List.filterMap_cons, if_neg hx]

theorem filter_sent (v : View) (n : Nat) : (v.sent.filter (fun y => y.1 = n)).map (·.2) = (v.sentIn n).filter (· ≠ []) := by
  unfold View.sent View.sentIn View.session
  generalize v.events = l
  induction l with
  | nil => rfl
  | cons x l ih =>
    by_cases hx : x.1 = n
    · cases hp : sentPart x.2 with
      | none =>
        rw [List.filterMap_cons, List.filterMap_cons, if_pos hx]
        simp only [hp, List.filterMap_cons, ih]
      | some p =>
        rw [List.filterMap_cons, List.filterMap_cons, if_pos hx]
        by_cases he : p = []
        · subst he
          simp only [hp, List.filterMap_cons, if_true, ih]
          rw [List.filter_cons_of_neg (by simp)]
        · simp only [hp, List.filterMap_cons, if_neg he]
          rw [List.filter_cons_of_pos (by simpa using hx), List.filter_cons_of_pos (by simpa using he), List.map_cons, ih]
    · rw [List.filterMap_cons, List.filterMap_cons, if_neg hx]
      cases hp : sentPart x.2 with
      | none => exact ih
      | some p =>
        by_cases he : p = []
        · simp only [if_pos he]; exact ih
        · simp only [if_neg he]
          rw [List.filter_cons_of_neg (by simpa using hx)]
          exact ih

theorem sent_parts {c : Cfg} {E : Env} {s : Layer} (h : Observed c E s) :
    (view s).sent.map (·.2) = (sentParts (history s)).filter (· ≠ []) := by
  rw [sentParts_events h]
  unfold View.sent
  generalize (view s).events = l
  induction l with
  | nil => rfl
  | cons x l ih =>
    rw [List.filterMap_cons, List.filterMap_cons]
    cases hp : sentPart x.2 with
    | none => exact ih
    | some p =>
      by_cases he : p = []
      · simp only [if_pos he]
        rw [List.filter_cons_of_neg (by simpa using he)]
        exact ih
      · simp only [if_neg he]
        rw [List.filter_cons_of_pos (by simpa using he), List.map_cons, ih]

/-- What is put into messages was handed over. -/
theorem sent_from_taken {c : Cfg} {E : Env} {s : Layer} (h : Observed c E s) :
    (sentParts (history s)).flatten.Sublist (s.log.filterMap takenData).flatten := by
  have key : ((sentParts (history s)).flatten ++ (viewOf (history s)).outstanding).Sublist
      ((observations (history s)).filterMap takenData).flatten := by
    refine history_induct (c := c) (fun h => ((sentParts h).flatten ++ (viewOf h).outstanding).Sublist
      ((observations h).filterMap takenData).flatten) (history s) (fun pre e post => history_split h) (by simp [viewOf, sentParts]) ?_
    intro pre e hp hf
    have hobs : observations (pre ++ [e]) = observations pre ++ (Ev.observation e).toList := by
      unfold observations
      rw [List.filterMap_append]
      cases e <;> rfl
    rw [RefineProof.viewOf_snoc, sentParts_append, hobs, List.filterMap_append, List.flatten_append, List.flatten_append]
    by_cases ha : accepts e = true
    · unfold accepts at ha
      split at ha
      · rename_i d
        have h3 := hf.1
        rw [h3, List.append_nil] at hp
        simpa [sentParts, View.step, Ev.observation, takenData] using hp.append_right d
      · cases ha
    · by_cases hd : e = .act .discarded
      · subst hd
        have : ((viewOf pre).step (.act .discarded)).outstanding = [] := rfl
        rw [this]
        have h0 : sentParts [Ev.act .discarded] = [] := rfl
        rw [h0]
        simp only [List.flatten_nil, List.append_nil, Ev.observation, Option.toList_none, List.filterMap_nil]
        exact (List.sublist_append_left ..).trans hp
      · have hstep := outstanding_step hf (by simpa using ha) hd
        rw [List.append_assoc, hstep]
        exact hp.trans (List.sublist_append_left ..)
  rw [observations_history] at key
  exact (List.sublist_append_left ..).trans key

/-! ### A responder sends only in the session in use -/

/-- No message was made in the waiting session. -/
def Inv (c : Cfg) (s : Layer) : Prop :=
  (∃ h, c.role = .responder h) → ∀ x ∈ s.acts, ∀ out clear rest, x.2 ≠ .sent true out clear rest

theorem Inv.same {c : Cfg} {s t : Layer} (h : Inv c s) (he : t.acts = s.acts) : Inv c t := by
  unfold Inv
  rw [he]
  exact h

theorem Inv.more {c : Cfg} {s t : Layer} (h : Inv c s) {x : Nat × Act} (he : t.acts = s.acts ++ [x])
    (hx : ∀ out clear rest, x.2 ≠ .sent true out clear rest) : Inv c t := by
  intro hr y hy
  rw [he] at hy
  rcases List.mem_append.mp hy with hy | hy
  · exact h hr y hy
  · cases List.mem_singleton.mp hy
    exact hx

theorem Inv.hsReq {c : Cfg} {limits : SessionLimits} {s t : Layer} (h : Inv c s) (hq : HsReq c limits s t) : Inv c t := by
  cases hq <;> exact h.same rfl

theorem atomic (c : Cfg) (E : Env) : Atomic1 c E (Inv c) := by
  refine ⟨fun _ => trivial, fun _ _ _ _ _ => trivial, fun _ _ _ _ _ => trivial, fun _ _ _ => trivial,
    fun _ _ _ _ => ⟨fun _ _ => trivial, fun _ _ _ => trivial⟩, ?init, ?tx, ?rx, ?tail, fun _ _ _ _ _ _ => trivial, ?top, ?closing, ?closed⟩
  case tx =>
    intro s s' _ _ h ha
    refine ⟨?_, trivial⟩
    cases ha with
    | nonceTrigger params limits s' _ _ hq => exact Inv.hsReq (by exact h.same rfl) hq
    | startTxRefused d _ => exact h.same rfl
    | startTxAccepted d _ => exact h.same rfl
    | dataSent now out hc _ => exact h.more rfl (by simp)
    | dataFailed now e hc _ => exact h.more (by simp; rfl) (by simp)
  case rx =>
    intro s s' _ _ h ha
    refine ⟨?_, trivial⟩
    have hi : ∀ {t : Layer}, (∃ params limits, c.role = .initiator params limits) → Inv c t := by
      rintro t ⟨_, _, hr⟩ ⟨_, hr'⟩
      rw [hr] at hr'
      cases hr'
    cases ha with
    | ignored m w _ => exact h.same rfl
    | errorReply m w hh e frame hr _ _ => exact h.same rfl
    | requestRefused m w hh msg now f e hr _ _ _ _ s1 h1 _ h2 =>
      subst h1
      rcases h2 with rfl | ⟨fr, _, rfl⟩ <;> exact h.same (by simp)
    | requestAccepted m w hh msg now f frame hr _ _ _ _ _ _ h1 => subst h1; exact h.same (by simp)
    | replyRefused m w params limits msg now _ hr => exact hi ⟨_, _, hr⟩
    | replyAuthFailed m w params limits msg now now' e _ hr => exact hi ⟨_, _, hr⟩
    | replyAccepted m w params limits msg now now' out _ hr => exact hi ⟨_, _, hr⟩
    | replyError m w params limits _ hr => exact hi ⟨_, _, hr⟩
    | initAuthRefused m w params limits msg now scratch e _ hr => exact hi ⟨_, _, hr⟩
    | initAuthOk m w params limits msg now scratch payload _ hr => exact hi ⟨_, _, hr⟩
    | respAuthRefused m w => exact h.more (by simp; rfl) (by simp)
    | respAuthFailed m w hh msg now now' scratch payload e _ _ _ _ _ _ s1 h1 =>
      have h2 : Inv c s1 := by subst h1; exact h.more (by simp; rfl) (by simp)
      refine h2.more (by simp; rfl) ?_
      simp only [Bool.false_eq_true, if_false]
      cases (s1.active.formatAuth now' s1.tx.remainder).2.2 <;> simp [authAct]
    | respAuthOk m w hh msg now now' scratch payload out hr _ _ _ _ _ s1 h1 =>
      have h2 : Inv c s1 := by subst h1; exact h.more (by simp; rfl) (by simp)
      refine h2.more (by simp; rfl) ?_
      simp only [Bool.false_eq_true, if_false]
      cases (s1.active.formatAuth now' s1.tx.remainder).2.2 <;> simp [authAct]
    | dataRefused m w => exact h.more (by simp; rfl) (by simp)
    | dataOk m w => exact h.more (by simp; rfl) (by simp)
    | readEmpty => exact h.same rfl
    | discarded => exact h.same rfl
    | asked => exact h.same rfl
    | readNothing => exact h.same rfl
    | readData => exact h.same rfl
  case tail =>
    intro o s s' _ _ _ _ h ha
    refine ⟨?_, trivial⟩
    cases ha <;> exact h.same (by simp)
  case top =>
    intro s s' _ _ h _ ha
    refine ⟨?_, trivial⟩
    cases ha with
    | openedInitiator params limits _ _ _ hq => exact Inv.hsReq (by exact h.same rfl) hq
    | preTxReady params limits _ _ _ _ hq => exact h.hsReq hq
    | retryTimeout params limits _ _ _ i _ hq => exact Inv.hsReq (by exact h.same rfl) hq
    | sessionTimeout params limits _ _ _ hq => exact Inv.hsReq (by exact h.same rfl) hq
    | orphanRetry params limits _ _ _ i _ hq => exact Inv.hsReq (by exact h.same rfl) hq
    | orphanSession params limits _ _ _ hq => exact Inv.hsReq (by exact h.same rfl) hq
    | _ => exact h.same (by simp)
  case closing =>
    intro s _ _ h _ _
    exact h.same (by simp)
  case closed => exact fun _ s _ _ _ _ _ _ h _ => ⟨h.more rfl (by simp), trivial⟩
  case init => exact fun hh _ _ => ⟨fun _ x hx => (by cases hx), trivial⟩

theorem act_mem {s : Layer} {a : Act} (h : Ev.act a ∈ history s) : ∃ i, (i, a) ∈ s.acts := by
  unfold history weave at h
  obtain ⟨i, -, h⟩ := List.mem_flatMap.mp h
  rcases List.mem_append.mp h with h | h
  · obtain ⟨x, hx, he⟩ := List.mem_map.mp h
    cases he
    exact ⟨x.1, (List.mem_filter.mp hx).1⟩
  · obtain ⟨x, hx, he⟩ := List.mem_map.mp h
    cases he

/-- The sessions of the messages made. -/
structure Turn (v : View) : Prop where
  ord : SessionsInTurn v
  ev : ∀ x ∈ v.sent, x.1 < v.count
  wait : ∀ n, v.waiting = some n → n < v.count ∧ (∀ x ∈ v.sent, x.1 < n) ∧ ∀ m, v.current = some m → m < n
  cur : ∀ n, v.current = some n → n < v.count ∧ ∀ x ∈ v.sent, x.1 ≤ n

theorem Turn.same {v w : View} (h : Turn v) (h1 : w.sent = v.sent) (h2 : w.count = v.count) (h3 : w.waiting = v.waiting ∨ w.waiting = none)
    (h4 : w.current = v.current ∨ w.current = none) : Turn w where
  ord := by unfold SessionsInTurn; rw [h1]; exact h.ord
  ev := by rw [h1, h2]; exact h.ev
  wait := by
    intro n hn
    rcases h3 with h3 | h3
    · rw [h3] at hn
      obtain ⟨a, b, d⟩ := h.wait n hn
      rw [h1, h2]
      refine ⟨a, b, fun m hm => ?_⟩
      rcases h4 with h4 | h4
      · exact d m (h4 ▸ hm)
      · rw [h4] at hm; cases hm
    · rw [h3] at hn; cases hn
  cur := by
    intro n hn
    rcases h4 with h4 | h4
    · rw [h1, h2]; exact h.cur n (h4 ▸ hn)
    · rw [h4] at hn; cases hn

theorem sent_add (v : View) (n : Option Nat) (x : SEvent) (hx : sentPart x = none) : (v.add n x).sent = v.sent := by
  cases n with
  | none => rfl
  | some n => simp [View.add, View.sent, hx]

theorem sent_congr {v w : View} (h : w.events = v.events) : w.sent = v.sent := by
  unfold View.sent
  rw [h]

theorem Turn.step {v : View} (h : Turn v) (e : Ev) (he : ∀ out clear rest, e ≠ .act (.sent true out clear rest)) :
    Turn (v.step e) := by
  cases e with
  | obs o =>
    cases o with
    | established k a p =>
      have hs : (v.step (.obs (.established k a p))).sent = v.sent := by
        simp [View.step, View.sent, sentPart]
      refine ⟨by unfold SessionsInTurn; rw [hs]; exact h.ord, fun x hx => ?_, fun n hn => ?_, fun n hn => ?_⟩
      · rw [hs] at hx
        exact Nat.lt_succ_of_lt (h.ev x hx)
      · cases hn
        rw [hs]
        exact ⟨Nat.lt_succ_self _, h.ev, fun m hm => (h.cur m hm).1⟩
      · rw [hs]
        obtain ⟨a, b⟩ := h.cur n hn
        exact ⟨Nat.lt_succ_of_lt a, b⟩
    | lowerClose => exact h.same rfl rfl (.inr rfl) (.inr rfl)
    | startRx d =>
      simp only [View.step]
      split
      · exact h
      · split
        · exact h.same rfl rfl (.inl rfl) (.inl rfl)
        · exact h
    | startTx d b => cases b <;> exact h.same rfl rfl (.inl rfl) (.inl rfl)
    | _ => exact h
  | act a =>
    cases a with
    | sent p out clear rest =>
      cases p with
      | true => exact absurd rfl (he _ _ _)
      | false =>
        simp only [View.step, View.owner, Bool.false_eq_true, if_false]
        cases hc : v.current with
        | none => exact h.same rfl rfl (.inl rfl) (.inl (by simp [View.add, hc]))
        | some n =>
          obtain ⟨c1, c2⟩ := h.cur n hc
          have hs : ∃ l, ({ v.add (some n) (.sent out clear rest) with outstanding := rest } : View).sent = v.sent ++ l ∧
              ∀ x ∈ l, x.1 = n ∧ l.length = 1 := by
            simp only [View.sent, View.add, List.filterMap_append, List.filterMap_cons, List.filterMap_nil, sentPart]
            by_cases hp : clear.take (clear.length - rest.length) = []
            · exact ⟨[], by simp [hp], by simp⟩
            · exact ⟨[(n, clear.take (clear.length - rest.length))], by simp only [if_neg hp], by simp⟩
          obtain ⟨l, hl, hl'⟩ := hs
          have hm : ∀ x ∈ v.sent ++ l, x.1 ≤ n := by
            intro x hx
            rcases List.mem_append.mp hx with hx | hx
            · exact c2 x hx
            · exact Nat.le_of_eq (hl' x hx).1
          refine ⟨?_, fun x hx => ?_, fun m hm' => ?_, fun m hm' => ?_⟩
          · unfold SessionsInTurn
            rw [hl, List.map_append, List.pairwise_append]
            refine ⟨h.ord, ?_, ?_⟩
            · cases l with
              | nil => exact .nil
              | cons x l =>
                have := (hl' x (by simp)).2
                cases l with
                | nil => simp
                | cons y l => simp at this
            · intro a ha b hb
              obtain ⟨x, hx, rfl⟩ := List.mem_map.mp ha
              obtain ⟨y, hy, rfl⟩ := List.mem_map.mp hb
              rw [(hl' y hy).1]
              exact c2 x hx
          · rw [hl] at hx
            have := hm x hx
            show x.1 < v.count
            omega
          · obtain ⟨w1, w2, w3⟩ := h.wait m hm'
            have := w3 n hc
            refine ⟨w1, fun x hx => ?_, fun m' hm'' => w3 m' hm''⟩
            rw [hl] at hx
            have := hm x hx
            omega
          · have : v.current = some m := hm'
            rw [hc] at this
            cases this
            rw [hl]
            exact ⟨c1, hm⟩
    | notSent p => cases p <;> exact h.same rfl rfl (.inl rfl) (.inl rfl)
    | dropped => exact h.same rfl rfl (.inl rfl) (.inr rfl)
    | discarded => exact h.same rfl rfl (.inl rfl) (.inl rfl)
    | checked p msg r =>
      have hadd : ∀ n x, (v.add n x).count = v.count ∧ (v.add n x).waiting = v.waiting ∧ (v.add n x).current = v.current := by
        intro n x; cases n <;> exact ⟨rfl, rfl, rfl⟩
      cases r with
      | error x =>
        cases p <;> exact h.same (sent_add _ _ _ rfl) (hadd _ _).1 (.inl (hadd _ _).2.1) (.inl (hadd _ _).2.2)
      | ok x =>
        cases p with
        | false =>
          exact h.same ((sent_congr rfl).trans (sent_add _ v.current (.acceptedData msg x) rfl)) (hadd _ _).1 (.inl (hadd _ _).2.1) (.inl (hadd _ _).2.2)
        | true =>
          have hs : (v.step (.act (.checked true msg (.ok x)))).sent = v.sent :=
            (sent_congr rfl).trans (sent_add _ v.waiting (.acceptedAuth msg x) rfl)
          have hcn : (v.step (.act (.checked true msg (.ok x)))).count = v.count := (hadd _ _).1
          refine ⟨by unfold SessionsInTurn; rw [hs]; exact h.ord, by rw [hs, hcn]; exact h.ev, fun n hn => (by cases hn), fun n hn => ?_⟩
          obtain ⟨w1, w2, -⟩ := h.wait n hn
          rw [hs, hcn]
          exact ⟨w1, fun y hy => Nat.le_of_lt (w2 y hy)⟩

theorem responder_turn {c : Cfg} {E : Env} {s : Layer} (h : Observed c E s) {rh : ResponderHandshake} (hr : c.role = .responder rh) :
    SessionsInTurn (view s) := by
  have hno : ∀ pre e post, history s = pre ++ e :: post → ∀ out clear rest, e ≠ .act (.sent true out clear rest) := by
    rintro pre e post hh out clear rest rfl
    have : Ev.act (.sent true out clear rest) ∈ history s := by rw [hh]; simp
    obtain ⟨i, hi⟩ := act_mem this
    exact (atomic c E).observed h ⟨rh, hr⟩ _ hi _ _ _ rfl
  refine (StreamProof.every_induct (F := fun _ e => ∀ out clear rest, e ≠ .act (.sent true out clear rest))
    (fun h => Turn (viewOf h)) (history s) hno ?_ ?_).ord
  · exact ⟨.nil, fun _ h => (by cases h), fun _ h => (by cases h), fun _ h => (by cases h)⟩
  · intro pre e hp he
    rw [RefineProof.viewOf_snoc]
    exact hp.step e he

end RenegotiationProof

/-! ## C53 -/

/-- Any number of sessions. Every session in which the receiving application has received data has the keys of a session of
the sender, in the same order, and no message was forged; the sender never used an older session after a newer one. Then
the data that the receiving application has received is a subsequence of the parts that the sender has put into messages:
in order, each at most once. As sequences of bytes it is a subsequence of the data that the sending application has handed
over. -/
theorem C53_subsequence (c c' : Cfg) (E E' : Env) (hE : ReadsInOrder c' E') (hb : c.backend.Lawful) (hbb : c'.backend = c.backend)
    (s s' : Layer) (h : Observed c E s) (h' : Observed c' E' s') (hturn : SessionsInTurn (view s)) (partner : Nat → Nat)
    (hp : ∀ n', (view s').givenIn n' ≠ [] → ∃ suite, SharedKeys c.backend suite s s' (partner n') n')
    (ho : ∀ m' n', (view s').givenIn m' ≠ [] → (view s').givenIn n' ≠ [] → m' < n' → partner m' < partner n') :
    (s'.log.filterMap givenData).Sublist ((sentParts (history s)).filter (· ≠ [])) ∧
    (s'.log.filterMap givenData).flatten.Sublist (s.log.filterMap takenData).flatten := by
  have hst := StreamProof.stream hE h'
  have hne : ∀ x ∈ (view s').given, (view s').givenIn x.1 ≠ [] := by
    intro x hx he
    have : x.2 ∈ (view s').givenIn x.1 := List.mem_filterMap.mpr ⟨x, hx, by simp⟩
    rw [he] at this
    cases this
  have key : (s'.log.filterMap givenData).Sublist ((sentParts (history s)).filter (· ≠ [])) := by
    rw [← given_log hE h', ← RenegotiationProof.sent_parts h]
    refine RenegotiationProof.sublist_of_sessions hst.ord hturn partner (fun x hx y hy hlt => ho _ _ (hne x hx) (hne y hy) hlt) ?_
    intro x hx
    rw [RenegotiationProof.filter_given, RenegotiationProof.filter_sent]
    obtain ⟨suite, hk⟩ := hp x.1 (hne x hx)
    have h1 := C44_layer_subsequence c c' E E' hb hbb s s' h h' _ _ suite hk
    have h2 : ((view s').givenIn x.1).Sublist ((view s').takenIn x.1) := (List.sublist_append_left ..).trans (hst.sub x.1)
    have h3 := (h2.trans h1).filter (· ≠ [])
    rw [List.filter_eq_self.mpr] at h3
    · exact h3
    · intro d hd
      obtain ⟨y, hy, hyd⟩ := List.mem_filterMap.mp hd
      split at hyd
      · cases hyd
        have : y.2 ∈ (view s').given.map (·.2) := List.mem_map_of_mem hy
        rw [given_log hE h'] at this
        obtain ⟨o, -, hgo⟩ := List.mem_filterMap.mp this
        cases o with
        | startRx d =>
          simp only [givenData] at hgo
          split at hgo
          · cases hgo
          · cases hgo
            simpa using ‹_›
        | _ => cases hgo
      · cases hyd
  refine ⟨key, ?_⟩
  have h1 := RenegotiationProof.sublist_flatten key
  rw [flatten_filter] at h1
  exact h1.trans (RenegotiationProof.sent_from_taken h)

/-- From the responder to the initiator, over any number of renegotiations: the data that the application of the initiator
has received is a subsequence of the parts that the responder has put into messages, and as a sequence of bytes of the data
that the application of the responder has handed over. Every session in which the initiator has received data was made by
a handshake between the two, in the same order; no session message was forged. -/
theorem C53_to_initiator (c c' : Cfg) (E E' : Env) (limits : SessionLimits) (hp : Peers c c' E limits) (hE : ReadsInOrder c E)
    (s s' : Layer) (h : Observed c E s) (h' : Observed c' E' s') (partner : Nat → Nat)
    (hs : ∀ n, (view s).givenIn n ≠ [] → SameHandshake c c' s s' n (partner n) ∧
      NoForgery ((view s').session (partner n)) ((view s).session n))
    (ho : ∀ m n, (view s).givenIn m ≠ [] → (view s).givenIn n ≠ [] → m < n → partner m < partner n) :
    (s.log.filterMap givenData).Sublist ((sentParts (history s')).filter (· ≠ [])) ∧
    (s.log.filterMap givenData).flatten.Sublist (s'.log.filterMap takenData).flatten := by
  obtain ⟨rh, hr, -⟩ := hp.responder
  refine C53_subsequence c' c E' E hE (hp.backend ▸ hp.lawful) hp.backend.symm s' s h' h
    (RenegotiationProof.responder_turn h' hr) partner (fun n hn => ?_) ho
  obtain ⟨hx, hf⟩ := hs n hn
  obtain ⟨h0, -, -, h2⟩ := C52_sessions c c' E E' limits hp s s' h h' _ _ hx
  exact ⟨h0.suite, h2 hf⟩

/-- From the initiator to the responder, if the initiator never sent in an older session after a newer one. (It may:
`C53_reordering_violation`.) -/
theorem C53_to_responder_partial (c c' : Cfg) (E E' : Env) (limits : SessionLimits) (hp : Peers c c' E limits)
    (hE' : ReadsInOrder c' E') (s s' : Layer) (h : Observed c E s) (h' : Observed c' E' s') (hturn : SessionsInTurn (view s))
    (partner : Nat → Nat)
    (hs : ∀ n', (view s').givenIn n' ≠ [] → SameHandshake c c' s s' (partner n') n' ∧
      NoForgery ((view s).session (partner n')) ((view s').session n'))
    (ho : ∀ m n, (view s').givenIn m ≠ [] → (view s').givenIn n ≠ [] → m < n → partner m < partner n) :
    (s'.log.filterMap givenData).Sublist ((sentParts (history s)).filter (· ≠ [])) ∧
    (s'.log.filterMap givenData).flatten.Sublist (s.log.filterMap takenData).flatten := by
  refine C53_subsequence c c' E E' hE' hp.lawful hp.backend s s' h h' hturn partner (fun n hn => ?_) ho
  obtain ⟨hx, hf⟩ := hs n hn
  obtain ⟨h0, -, h2, -⟩ := C52_sessions c c' E E' limits hp s s' h h' _ _ hx
  exact ⟨h0.suite, h2 hf⟩

/-! ### What renegotiation does to data -/

namespace LayerExample
open Exec

/-- The initiator with a later trigger for renegotiation (nonce 4). -/
def slow : Cfg := { ini with role := .initiator ⟨30000, 4⟩ limits }
/-- The responder answers the request for a second session. -/
def resRenew : List Choice := resRead ++ [.api .startRx, .recv request3, ans 13, ans 13, ans 13 4]
def reply3 : Bytes := lastTx (final res .tame hs resRenew)
/-- The initiator puts [5, 6] into the session auth message of the second session. -/
def iniRenewAuth : List Choice :=
  iniRenew ++ [.api (.startTx [5, 6]), .event .lowerTxReady, .recv reply3, ans 14, ans 14, ans 14]
def auth4 : Bytes := lastTx (final slow .tame hs iniRenewAuth)
/-- The application hands over [7]; it is sent in the first session. -/
def iniOld : List Choice := iniRenewAuth ++ [.event .lowerTxReady, .ret, .recv [], ans 14, .api (.startTx [7]), ans 15]
def data4 : Bytes := lastTx (final slow .tame hs iniOld)
/-- The responder begins to use the second session. -/
def resRenewAuth : List Choice := resRenew ++ [.event .lowerTxReady, .recv auth4, ans 15, ans 15, ans 15, ans 15, .ret]
def auth5 : Bytes := lastTx (final res .tame hs resRenewAuth)
/-- So does the initiator; the application hands over [8]. -/
def iniNew : List Choice := iniOld ++
  [.event .lowerTxReady, .ret, .recv auth5, ans 16, ans 16, ans 16, .recv [], ans 16, .api (.startTx [8]), ans 17]
def data5 : Bytes := lastTx (final slow .tame hs iniNew)
/-- The responder reads everything. -/
def resNew : List Choice := resRenewAuth ++
  [.api .startRx, .api .startRx, .event .lowerTxReady, .recv data4, ans 16, ans 16, ans 16,
   .recv data5, ans 18, ans 18, ans 18, .ret, .api .startRx]
/-- The network delivers the last two messages in the other order. -/
def resSwapped : List Choice := resRenew ++
  [.event .lowerTxReady, .recv data4, ans 15, ans 15, ans 15, .ret, .api .startRx, .api .startRx,
   .recv auth4, ans 16, ans 16, ans 16, ans 16, .ret, .api .startRx]

/-- **Renegotiation loses data.** Nobody interferes, and the network delivers every message, once, in order: the two
stations complete a handshake, and a second one when the session timer of the initiator expires. The application of the
initiator hands over [1, 2, 3], [5, 6], [7] and [8], all accepted; that of the responder receives [1, 2, 3], [5, 6] and
[8]; neither is told of a close. ([7] was sent in the first session after the initiator had sent the session auth message
of the second; when it arrived the responder had already dropped the first.) -/
theorem C53_loss_violation : ∃ si sr, Observed slow anyEnv si ∧ Observed res anyEnv sr ∧
    messages sr = frames si ∧ messages si = frames sr ∧ closes si = 0 ∧ closes sr = 0 ∧
    accepted si = [[1, 2, 3], [5, 6], [7], [8]] ∧ (given sr).filter (· ≠ []) = [[1, 2, 3], [5, 6], [8]] := by
  obtain ⟨si, h1, h2⟩ := Exec.exists_of_map configured (c := slow) (E := .tame) (h := hs) (script := iniNew)
    (f := fun s => (frames s, messages s, closes s, accepted s))
    (a := ([request, auth1, data1, request3, auth4, data4, data5], [reply, auth2, reply3, auth5], 0, [[1, 2, 3], [5, 6], [7], [8]]))
    (by decide +kernel)
  obtain ⟨sr, h3, h4⟩ := Exec.exists_of_map configured (c := res) (E := .tame) (h := hs) (script := resNew)
    (f := fun s => (messages s, frames s, closes s, (given s).filter (· ≠ [])))
    (a := ([request, auth1, data1, request3, auth4, data4, data5], [reply, auth2, reply3, auth5], 0, [[1, 2, 3], [5, 6], [8]]))
    (by decide +kernel)
  simp only [Prod.mk.injEq] at h2 h4
  exact ⟨si, sr, h1.any, h3.any, h4.1.trans h2.1.symm, h2.2.1.trans h4.2.1.symm, h2.2.2.1, h4.2.2.1, h2.2.2.2, h4.2.2.2⟩

/-- **Renegotiation reorders data**, although nonces are strict: the network exchanges two messages of the initiator; the
application of the initiator has handed over [1, 2, 3], [5, 6] and [7], that of the responder receives [1, 2, 3], [7] and
[5, 6], in this order. -/
theorem C53_reordering_violation : ∃ si sr, Observed slow anyEnv si ∧ Observed res anyEnv sr ∧
    (∃ l a b, frames si = l ++ [a, b] ∧ messages sr = l ++ [b, a]) ∧ closes si = 0 ∧ closes sr = 0 ∧
    accepted si = [[1, 2, 3], [5, 6], [7]] ∧ (given sr).filter (· ≠ []) = [[1, 2, 3], [7], [5, 6]] := by
  obtain ⟨si, h1, h2⟩ := Exec.exists_of_map configured (c := slow) (E := .tame) (h := hs) (script := iniOld)
    (f := fun s => (frames s, closes s, accepted s))
    (a := ([request, auth1, data1, request3, auth4, data4], 0, [[1, 2, 3], [5, 6], [7]]))
    (by decide +kernel)
  obtain ⟨sr, h3, h4⟩ := Exec.exists_of_map configured (c := res) (E := .tame) (h := hs) (script := resSwapped)
    (f := fun s => (messages s, closes s, (given s).filter (· ≠ [])))
    (a := ([request, auth1, data1, request3, data4, auth4], 0, [[1, 2, 3], [7], [5, 6]]))
    (by decide +kernel)
  simp only [Prod.mk.injEq] at h2 h4
  exact ⟨si, sr, h1.any, h3.any, ⟨[request, auth1, data1, request3], auth4, data4, h2.1, h4.1⟩, h2.2.1, h4.2.1, h2.2.2, h4.2.2⟩

/-! ### A renegotiation without loss -/

/-- The responder sends [4], the initiator reads it and begins a new handshake. -/
def resTurn1 : List Choice := resRead ++ [.api (.startTx [4]), ans 11]
def iniTurn1 : List Choice := iniData ++ [.event .lowerTxReady, .ret, .recv (lastTx (final res .tame hs resTurn1)), ans 12, ans 12, ans 12, .ret,
  .api .startRx, .api .startRx, .recv [], ans 12, .event (.expiry .session), ans 12 3, ans 12 3]
/-- The handshake. -/
def resTurn2 : List Choice := resTurn1 ++
  [.event .lowerTxReady, .ret, .api .startRx, .recv (lastTx (final slow .tame hs iniTurn1)), ans 13, ans 13, ans 13 4]
def iniTurn2 : List Choice := iniTurn1 ++ [.event .lowerTxReady, .recv (lastTx (final res .tame hs resTurn2)), ans 14, ans 14, ans 14]
def resTurn3 : List Choice := resTurn2 ++
  [.event .lowerTxReady, .recv (lastTx (final slow .tame hs iniTurn2)), ans 15, ans 15, ans 15, ans 15]
/-- The responder sends [9] in the second session; the initiator reads it and sends [8]; the responder reads that. -/
def resTurn4 : List Choice := resTurn3 ++ [.event .lowerTxReady, .recv [], ans 15, .api (.startTx [9]), ans 15]
def iniTurn4 : List Choice := iniTurn2 ++
  [.event .lowerTxReady, .recv (lastTx (final res .tame hs resTurn3)), ans 16, ans 16, ans 16, .recv (lastTx (final res .tame hs resTurn4)),
   ans 16, ans 16, ans 16, .ret, .api .startRx, .api (.startTx [8]), ans 17]
def resTurn5 : List Choice := resTurn4 ++
  [.event .lowerTxReady, .ret, .recv (lastTx (final slow .tame hs iniTurn4)), ans 18, ans 18, ans 18, .ret, .api .startRx]

/-- Where keys were installed for session `n`. -/
def keysAt : Nat → List Obs → Option (List Obs × SessionKeys × SessionAlgorithms × SessionParam × List Obs)
  | _, [] => none
  | 0, .established k a p :: post => some ([], k, a, p, post)
  | n + 1, .established k a p :: log => (keysAt n log).map fun x => (.established k a p :: x.1, x.2)
  | n, o :: log => (keysAt n log).map fun x => (o :: x.1, x.2)

theorem keysAt_split {n : Nat} {log : List Obs} {x : List Obs × SessionKeys × SessionAlgorithms × SessionParam × List Obs}
    (h : keysAt n log = some x) : log = x.1 ++ .established x.2.1 x.2.2.1 x.2.2.2.1 :: x.2.2.2.2 ∧ Spec.installations x.1 = n := by
  induction log generalizing n x with
  | nil => unfold keysAt at h; cases h
  | cons o log ih =>
    have other : ∀ o, (∀ k a p, o ≠ Obs.established k a p) → (keysAt n log).map (fun x => (o :: x.1, x.2)) = some x →
        o :: log = x.1 ++ .established x.2.1 x.2.2.1 x.2.2.2.1 :: x.2.2.2.2 ∧ Spec.installations x.1 = n := by
      intro o ho h
      obtain ⟨y, hy, rfl⟩ := Option.map_eq_some_iff.mp h
      obtain ⟨e1, e2⟩ := ih hy
      refine ⟨by rw [e1]; rfl, ?_⟩
      cases o with
      | established k a p => exact (ho _ _ _ rfl).elim
      | _ => exact e2
    cases o with
    | established k a p =>
      cases n with
      | zero => cases h; exact ⟨rfl, rfl⟩
      | succ n =>
        obtain ⟨y, hy, rfl⟩ := Option.map_eq_some_iff.mp (show (keysAt n log).map _ = some x from h)
        obtain ⟨e1, e2⟩ := ih hy
        exact ⟨by rw [e1]; rfl, by unfold Spec.installations at e2 ⊢; simp [e2]⟩
    | _ => exact other _ (by simp) (by cases n <;> exact h)

/-- The last request sent and the last message read before session `n`, and the first frame sent after it was made. -/
def summaryAt (n : Nat) (s : Layer) : Option (Option Bytes × Option Bytes × Option Bytes) :=
  (keysAt n s.log).map fun x => ((requestsSent x.1).getLast?, lastReceived x.1,
    x.2.2.2.2.head?.bind (fun o => match o with | .lowerTx f _ => some f | _ => none))

theorem exchanged_at {c c' : Cfg} (hw : c.fw.wrap = id) (hw' : c'.fw.wrap = id) {s s' : Layer} {n n' : Nat} {m m2 : Bytes}
    {x y : Option Bytes} (h : summaryAt n s = some (some m, some m2, x)) (h' : summaryAt n' s' = some (y, some m, some m2))
    (hn : m.length ≤ c.fw.maxPayload.toNat) (hn2 : m2.length ≤ c'.fw.maxPayload.toNat)
    (hq : ∀ r, Obs.keyUsed r ∉ s.log) : Spec.SameHandshake c c' s s' n n' := by
  obtain ⟨a, ha, hs⟩ := Option.map_eq_some_iff.mp h
  obtain ⟨a', ha', hs'⟩ := Option.map_eq_some_iff.mp h'
  simp only [Prod.mk.injEq] at hs hs'
  obtain ⟨e1, e2⟩ := keysAt_split ha
  obtain ⟨e1', e2'⟩ := keysAt_split ha'
  refine ⟨_, _, _, _, _, _, _, _, _, _, e1, e2, e1', e2', ⟨m, lastRequest_of hw hs.1 hn, lastRead_of hs'.2.1⟩, ?_, ?_⟩
  · obtain ⟨o, ho, hm⟩ := Option.bind_eq_some_iff.mp hs'.2.2
    cases o with
    | lowerTx f r => cases hm; exact ⟨m2, r, by rw [ho, hw']; rfl, hn2, lastRead_of hs.2.1⟩
    | _ => cases hm
  · intro id key key' hk _
    exact absurd (by rw [e1]; simp [hk]) (hq (id, key))

def usesKey : Obs → Bool
  | .keyUsed _ => true
  | _ => false

theorem slowPeers : Spec.Peers slow res (EnvB.tame.only (· = hs)) limits where
  lawful := Toy.strong_lawful
  backend := rfl
  initiator := ⟨_, rfl⟩
  responder := ⟨_, rfl, fun h he => he ▸ .sharedSecret suite key hs made, C52_writers_faithful none, C52_writers_faithful none⟩

/-- The messages of session `n`. -/
def iniSent (n : Nat) : List SessionData := ((final slow .tame hs iniTurn4).map fun s => sentMessages ((view s).session n)).getD []
def resSent (n : Nat) : List SessionData := ((final res .tame hs resTurn5).map fun s => sentMessages ((view s).session n)).getD []
def req0 : Bytes := lastTx (final slow .tame hs iniTurn1)
def rep0 : Bytes := lastTx (final res .tame hs resTurn2)

set_option maxRecDepth 1000000 in
set_option synthInstance.maxSize 2000 in
/-- The hypotheses of `C53_to_initiator` and `C53_to_responder_partial` are met (with the same numbers of sessions on both
sides), and so are their conclusions, by two sessions with data in both directions. -/
example : ∃ s s', Observed slow (EnvB.tame.only (· = hs)) s ∧ Observed res EnvB.tame.env s' ∧
    Spec.Peers slow res (EnvB.tame.only (· = hs)) limits ∧
    (∀ n, (view s).givenIn n ≠ [] ∨ (view s').givenIn n ≠ [] → SameHandshake slow res s s' n n ∧
      NoForgery ((view s').session n) ((view s).session n) ∧ NoForgery ((view s).session n) ((view s').session n)) ∧
    SessionsInTurn (view s) ∧ (view s).given = [(0, [4]), (1, [9])] ∧ (view s').given = [(0, [1, 2, 3]), (1, [8])] := by
  obtain ⟨s, h1, h2⟩ := Exec.exists_only configured (c := slow) (E := .tame) (h := hs) (script := iniTurn4)
    (f := fun s => ((sentMessages ((view s).session 0), sentMessages ((view s).session 1)),
      ((authMessages ((view s).session 0)).all (resSent 0).contains, (authMessages ((view s).session 1)).all (resSent 1).contains),
      ((summaryAt 0 s).map fun x => (x.1, x.2.1), (summaryAt 1 s).map fun x => (x.1, x.2.1)),
      s.log.any usesKey, (view s).given, (view s).sent.map (·.1)))
    (a := ((iniSent 0, iniSent 1), (true, true), (some (some request, some reply), some (some req0, some rep0)), false,
      [(0, [4]), (1, [9])], [0, 1])) rfl
  obtain ⟨s', h1', h2'⟩ := Exec.exists_of_map configured (c := res) (E := .tame) (h := hs) (script := resTurn5)
    (f := fun s => ((sentMessages ((view s).session 0), sentMessages ((view s).session 1)),
      ((authMessages ((view s).session 0)).all (iniSent 0).contains, (authMessages ((view s).session 1)).all (iniSent 1).contains),
      ((summaryAt 0 s).map fun x => (x.2.1, x.2.2), (summaryAt 1 s).map fun x => (x.2.1, x.2.2)), (view s).given))
    (a := ((resSent 0, resSent 1), (true, true), (some (some request, some reply), some (some req0, some rep0)),
      [(0, [1, 2, 3]), (1, [8])])) rfl
  simp only [Prod.mk.injEq] at h2 h2'
  obtain ⟨⟨a1, a2⟩, ⟨a3, a4⟩, ⟨a5, a6⟩, a7, a8, a9⟩ := h2
  obtain ⟨⟨b1, b2⟩, ⟨b3, b4⟩, ⟨b5, b6⟩, b8⟩ := h2'
  refine ⟨s, s', h1.observed, h1'.observed, slowPeers, ?_, ?_, a8, b8⟩
  · have hq : ∀ r, Obs.keyUsed r ∉ s.log := fun r hr => by
      rw [List.any_eq_false] at a7
      exact a7 _ hr rfl
    have hn : ∀ n, (view s).givenIn n ≠ [] ∨ (view s').givenIn n ≠ [] → n = 0 ∨ n = 1 := by
      intro n hn
      unfold View.givenIn at hn
      rw [a8, b8] at hn
      match n with
      | 0 => exact .inl rfl
      | 1 => exact .inr rfl
      | n + 2 => simp at hn
    have ex : ∀ n (m m2 : Bytes), (summaryAt n s).map (fun x => (x.1, x.2.1)) = some (some m, some m2) →
        (summaryAt n s').map (fun x => (x.2.1, x.2.2)) = some (some m, some m2) → m.length ≤ 4092 → m2.length ≤ 4092 →
        SameHandshake slow res s s' n n := by
      intro n m m2 e1 e2 l1 l2
      obtain ⟨⟨x1, x2, x3⟩, hx, hx'⟩ := Option.map_eq_some_iff.mp e1
      obtain ⟨⟨y1, y2, y3⟩, hy, hy'⟩ := Option.map_eq_some_iff.mp e2
      simp only [Prod.mk.injEq] at hx' hy'
      obtain ⟨rfl, rfl⟩ := hx'
      obtain ⟨rfl, rfl⟩ := hy'
      exact exchanged_at rfl rfl hx hy l1 l2 hq
    intro n hx
    rcases hn n hx with rfl | rfl
    · refine ⟨ex 0 _ _ a5 b5 (by decide +kernel) (by decide +kernel), noForgery_of fun m hm => ?_, noForgery_of fun m hm => ?_⟩
      · rw [b1]; exact by simpa using List.all_eq_true.mp a3 m hm
      · rw [a1]; exact by simpa using List.all_eq_true.mp b3 m hm
    · refine ⟨ex 1 _ _ a6 b6 (by decide +kernel) (by decide +kernel), noForgery_of fun m hm => ?_, noForgery_of fun m hm => ?_⟩
      · rw [b2]; exact by simpa using List.all_eq_true.mp a4 m hm
      · rw [a2]; exact by simpa using List.all_eq_true.mp b4 m hm
  · unfold SessionsInTurn
    rw [a9]
    simp

end LayerExample

end SSP21.Crypto
