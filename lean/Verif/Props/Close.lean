import Verif.Grows
import Verif.Monitor
import Verif.Props.Open
import Verif.Props.Discipline
/-
  Property C31: closing resets everything security relevant. All environments are covered.
-/
namespace SSP21.Crypto

namespace Spec

/-- No handshake has been completed since the layer below closed for the last time (or since the beginning). -/
def NoHandshake (log : List Obs) : Prop :=
  ∀ before k a p after, log = before ++ .established k a p :: after → Obs.lowerClose ∈ after

/-- Observations that show activity for the application: it is told that the session is open, that data can be sent or
read, it is given data, or its data is accepted. -/
def serves : Obs → Bool
  | .up .opened | .up .txReady | .up .rxReady | .startTx _ true => true
  | .startRx d => !d.isEmpty
  | _ => false

end Spec

namespace CloseProof
open SSP21.Crypto.Spec

theorem not_noHandshake {log : List Obs} (h : ¬ NoHandshake log) :
    ∃ before k a p after, log = before ++ .established k a p :: after ∧ Obs.lowerClose ∉ after := by
  unfold NoHandshake at h
  simpa only [not_forall, exists_prop] using h

theorem noHandshake_prefix {log extra : List Obs} (h : NoHandshake (log ++ extra)) (he : Obs.lowerClose ∉ extra) :
    NoHandshake log := by
  intro before k a p after hl
  have := h before k a p (after ++ extra) (by rw [hl]; simp)
  simpa [he] using this

theorem noHandshake_nil : NoHandshake [] := by
  intro before k a p after h
  simp at h

theorem noHandshake_quiet {log extra : List Obs} (h : NoHandshake log) (he : ∀ k a p, Obs.established k a p ∉ extra) :
    NoHandshake (log ++ extra) := by
  intro before k a p after hl
  rw [List.append_eq_append_iff] at hl
  rcases hl with ⟨x, rfl, hx⟩ | ⟨x, rfl, hx⟩
  · exact absurd (by rw [hx]; simp) (he k a p)
  · cases x with
    | nil => exact absurd (by rw [← List.nil_append extra, ← hx]; simp) (he k a p)
    | cons y x =>
      simp only [List.cons_append, List.cons.injEq] at hx
      obtain ⟨rfl, rfl⟩ := hx
      have := h before k a p x rfl
      simp [this]

theorem noHandshake_closed {log extra : List Obs} (he : ∀ k a p, Obs.established k a p ∉ extra) :
    NoHandshake (log ++ .lowerClose :: extra) := by
  have h1 : NoHandshake (log ++ [.lowerClose]) := by
    intro before k a p after hl
    rw [List.append_eq_append_iff] at hl
    rcases hl with ⟨x, rfl, hx⟩ | ⟨x, rfl, hx⟩
    · cases x <;> simp at hx
    · cases x with
      | nil => simp at hx
      | cons y x =>
        simp only [List.cons_append, List.cons.injEq] at hx
        rw [hx.2]; simp
  simpa using noHandshake_quiet h1 he

theorem grows_noHandshake {s t : Layer} (h : Grows s t) (hn : NoHandshake t.log) : NoHandshake s.log := by
  obtain ⟨e, h1, h2⟩ := h
  rw [h1] at hn
  refine noHandshake_prefix hn ?_
  intro hm
  have := h2 _ hm
  simp [Obs.inner] at this

/-- No keys, no sessions. -/
theorem dead_of_noHandshake {c : Cfg} {E : Env} {s : Layer} (h : OpenProof.Inv c E s) (hn : NoHandshake s.log) :
    s.active.valid = false ∧ s.pending.valid = false := by
  have hp : s.pending.valid ≠ true := by
    intro hv
    obtain ⟨before, after, hl, ha⟩ := h.pend hv
    exact (ha _ (hn _ _ _ _ _ hl)).1 rfl
  have ha : s.active.valid ≠ true := by
    intro hv
    obtain ⟨before, m, after, payload, hl, ⟨b, a, hb, ha⟩, _, hnc⟩ := h.act hv
    have := hn b s.active.keys s.active.algorithms s.active.param (a ++ .recv m :: after) (by rw [hl, hb]; simp)
    simp only [List.mem_append, List.mem_cons, reduceCtorEq, false_or] at this
    rcases this with h | h
    · exact (ha _ h).1 rfl
    · exact hnc h
  exact ⟨by simpa using ha, by simpa using hp⟩

/-- An invalid session holds no keys. -/
def Zeroed (s : Session) : Prop := s.valid = false → s.keys = .zeroed

theorem Zeroed.same {s t : Session} (h : Zeroed s) (hs : SameSession s t) : Zeroed t := by
  intro hv
  rw [hs.2.1]
  exact h (by rw [← hs.1.1]; exact hv)

theorem zeroed_reset (s : Session) : Zeroed s.reset := fun _ => rfl

/-- `serves` only after a handshake. -/
def Served (log : List Obs) : Prop := AllAt (fun pre o => serves o = true → ¬ NoHandshake pre) log

theorem served_step {s t : Layer} {log : List Obs} (h : Served s.log)
    (hg : ¬ NoHandshake s.log ∧ GrowsBy Obs.inner s t ∨ GrowsBy (fun o => !serves o) s t) (hl : log = t.log) : Served log := by
  subst hl
  rcases hg with ⟨hn, e, h1, h2⟩ | ⟨e, h1, h2⟩
  · rw [h1]
    refine h.append ?_
    intro pre o post he _ hno
    refine hn (noHandshake_prefix hno ?_)
    intro hm
    have := h2 .lowerClose (by rw [he]; simp [hm])
    simp [Obs.inner] at this
  · rw [h1]
    refine h.append ?_
    intro pre o post he hs
    have := h2 o (by rw [he]; simp)
    simp [hs] at this

theorem basic_mute : Basic (fun o => !serves o) := by constructor <;> intros <;> rfl

structure Inv (s : Layer) : Prop where
  active : Zeroed s.active
  pending : Zeroed s.pending
  app : NoHandshake s.log → s.upperOpen = false
  payload : NoHandshake s.log → s.payloadLen = 0
  served : Served s.log

/-- Nothing to transmit. -/
def J (s : Layer) : Prop := NoHandshake s.log → s.tx = ⟨false, []⟩

/-- What calls of the application and the receive loop do. -/
structure Rel (s t : Layer) : Prop where
  grows : Grows s t
  tx : NoHandshake t.log → t.tx = s.tx

theorem Rel.refl (s : Layer) : Rel s s := ⟨.refl s, fun _ => rfl⟩
theorem Rel.trans {s t u : Layer} (h : Rel s t) (h' : Rel t u) : Rel s u :=
  ⟨h.grows.trans h'.grows, fun hn => (h'.tx hn).trans (h.tx (grows_noHandshake h'.grows hn))⟩

theorem zeroed_validate {c : Cfg} {s : Session} {st : Stats} {m : SessionData} {now : Int} (h : Zeroed s) :
    Zeroed (s.validateAuth st m now c.bufLen).1 ∧ Zeroed (s.validateData st m now c.bufLen).1 :=
  ⟨h.same (same_validateAuth ..), h.same (same_validateData ..)⟩

/-- A session on which a handshake works is unchanged or valid afterwards. -/
theorem initializeSession_session (h : InitiatorHandshake) (b : Backend) (caps : Caps) (msg : ReplyHandshakeBegin)
    (m : Bytes) (limits : SessionLimits) (now : Int) (s : Session) (st : Stats) :
    (h.initializeSession b caps msg m limits now s st).2.1 = s ∨
      (h.initializeSession b caps msg m limits now s st).2.1.valid = true := by
  have fin : ∀ (h : InitiatorHandshake) ikm, (h.finishSession ikm limits now s st).1 = s ∨
      (h.finishSession ikm limits now s st).1.valid = true := by
    intro h ikm
    unfold InitiatorHandshake.finishSession Session.initialize
    dsimp only
    split
    · exact .inl rfl
    · split <;> rename_i he <;> split at he <;> cases he <;> simp
  unfold InitiatorHandshake.initializeSession
  dsimp only
  repeat' split
  all_goals first | exact .inl rfl | exact fin _ _

theorem zeroed_initializeSession {s : Session} (hz : Zeroed s) (h : InitiatorHandshake) (b : Backend) (caps : Caps)
    (msg : ReplyHandshakeBegin) (m : Bytes) (limits : SessionLimits) (now : Int) (st : Stats) :
    Zeroed (h.initializeSession b caps msg m limits now s st).2.1 := by
  rcases initializeSession_session h b caps msg m limits now s st with h | h
  · rw [h]; exact hz
  · intro hv; rw [h] at hv; cases hv

theorem formatAuth_valid {s : Session} {now : Int} {clear : Bytes} {out : Formatted}
    (h : (s.formatAuth now clear).2.2 = .ok out) : (s.formatAuth now clear).1.valid = true := by
  rw [(same_formatAuth s now clear).1.1]
  cases hv : s.valid with
  | true => rfl
  | false =>
    unfold Session.formatAuth Session.formatNoNonceCheck at h
    simp only [hv] at h
    split at h <;> simp at h

theorem validateAuth_valid {s : Session} {st : Stats} {msg : SessionData} {now : Int} {d : Nat} {p : Bytes}
    (h : (s.validateAuth st msg now d).2.2 = .ok p) : s.valid = true := by
  unfold Session.validateAuth Session.validateWith at h
  cases hv : s.valid with
  | true => rfl
  | false => simp [hv] at h

theorem validateData_valid {s : Session} {st : Stats} {msg : SessionData} {now : Int} {d : Nat} {p : Bytes}
    (h : (s.validateData st msg now d).2.2 = .ok p) : s.valid = true := by
  cases hv : s.valid with
  | true => rfl
  | false =>
    have := (C20_invalid_session_is_inert s hv st msg now d []).2.1
    rw [h] at this
    cases this

theorem atomic (c : Cfg) (E : Env) : Atomic c E (OpenProof.Inv c E) Inv J Rel Rel := by
  refine ⟨.refl, fun _ _ _ => .trans, fun _ _ _ => .trans, fun _ _ h => h, ?nested, ?init, ?tx, ?rx, ?tail, ?stay,
    ?top, ?closing, ?closed⟩
  case nested =>
    intro s _ _ h
    refine ⟨fun _ _ => ?_, fun _ _ h => h⟩
    exact ⟨⟨[.rxCall, .startRx s.payload], by simp [Layer.noted], by simp [Obs.inner]⟩, fun _ => rfl⟩
  case tx =>
    intro s s' hp hp' h ha
    have hserve : Served s'.log := by
      refine served_step (t := s') h.served ?_ rfl
      by_cases hn : NoHandshake s.log
      · refine .inr (ha.growsBy basic_mute ?_)
        intro hr
        simp [isTxReady, h.app hn] at hr
      · exact .inl ⟨hn, ha.grows⟩
    have hg := ha.grows
    refine ⟨⟨?_, ?_, ?_, ?_, hserve⟩, hg, ?_⟩
    · cases ha with
      | nonceTrigger params limits _ _ _ hq => rw [hq.active]; exact h.active
      | startTxRefused => exact h.active
      | startTxAccepted => exact h.active
      | dataSent => exact h.active.same (same_formatData ..)
      | dataFailed => rw [closing_active]; exact zeroed_reset _
    · cases ha with
      | nonceTrigger params limits _ _ _ hq => rw [hq.pending]; exact h.pending
      | startTxRefused => exact h.pending
      | startTxAccepted => exact h.pending
      | dataSent => exact h.pending
      | dataFailed => rw [closing_pending]; exact h.pending
    · intro hn
      have := h.app (grows_noHandshake hg hn)
      cases ha with
      | nonceTrigger params limits _ _ _ hq => rw [hq.upperOpen]; exact this
      | startTxRefused => exact this
      | startTxAccepted => exact this
      | dataSent => exact this
      | dataFailed => simp
    · intro hn
      have := h.payload (grows_noHandshake hg hn)
      cases ha with
      | nonceTrigger params limits _ _ _ hq => rw [hq.payloadLen]; exact this
      | startTxRefused => exact this
      | startTxAccepted => exact this
      | dataSent => exact this
      | dataFailed => rw [closing_payloadLen]; exact this
    · intro hn
      have hn0 := grows_noHandshake hg hn
      have hup := h.app hn0
      have hdead := (dead_of_noHandshake hp hn0).1
      cases ha with
      | nonceTrigger params limits _ _ _ hq => rw [hq.tx]
      | startTxRefused => rfl
      | startTxAccepted d hr => simp [isTxReady, hup] at hr
      | dataSent _ _ hc => simp [canTransmit, hdead] at hc
      | dataFailed => rw [closing_tx]
  case rx =>
    intro s s' hp hp' h ha
    have hg := ha.grows
    have hserve : Served s'.log := by
      refine served_step (t := s') h.served ?_ rfl
      by_cases hn : NoHandshake s.log
      · refine .inr (ha.growsBy basic_mute ?_ ?_)
        · intro hr
          simp [(dead_of_noHandshake hp hn).2] at hr
        · intro hr
          exact absurd (h.payload hn) hr
      · exact .inl ⟨hn, hg⟩
    have key : Zeroed s'.active ∧ Zeroed s'.pending ∧
        ((s'.upperOpen = s.upperOpen ∨ s.pending.valid = true) ∧
         (s'.payloadLen = s.payloadLen ∨ s'.payloadLen = 0 ∨ s.active.valid = true) ∧
         (s'.tx = s.tx ∨ s'.pending.valid = true ∨ s.pending.valid = true)) := by
      cases ha with
      | ignored m w => exact ⟨h.active, h.pending, by simp⟩
      | errorReply m w hh e frame => exact ⟨h.active, h.pending, by simp⟩
      | requestRefused m w hh msg now f e _ _ _ _ he s1 h1 _ h2 =>
        rcases hproc : hh.process c.backend c.caps f.lookup f.rnd msg m now c.fw s.pending s.stats with
          ⟨s'', st'', used, res⟩
        rw [hproc] at he h1
        simp only at he h1
        obtain ⟨hno, _⟩ := C25_responder_session _ _ _ _ _ _ _ _ _ _ _ _ _ _ _ hproc
        obtain ⟨g1, g2⟩ := hno _ he
        have hpe : s1.pending = s.pending := by rw [h1]; simpa using g1
        rcases h2 with rfl | ⟨fr, _, rfl⟩
        · refine ⟨?_, by rw [hpe]; exact h.pending, ?_⟩ <;> rw [h1] <;> simp [h.active]
        · refine ⟨?_, by rw [sent_pending, hpe]; exact h.pending, ?_⟩ <;> rw [h1] <;> simp [h.active]
      | requestAccepted m w hh msg now f frame hr hrole hf hm hver hok s1 h1 =>
        rcases hproc : hh.process c.backend c.caps f.lookup f.rnd msg m now c.fw s.pending s.stats with
          ⟨s'', st'', used, res⟩
        rw [hproc] at hok h1
        simp only at hok h1
        obtain ⟨_, hyes⟩ := C25_responder_session _ _ _ _ _ _ _ _ _ _ _ _ _ _ _ hproc
        obtain ⟨rep, secret, alg, g1, g2, g3, g4, g5⟩ := hyes frame hok
        refine ⟨?_, ?_, ?_⟩
        · rw [h1]; simp [h.active]
        · rw [h1]
          simp only [sent_pending, establishedIf_pending, keyNoted_pending]
          rcases g5 with ⟨g5, _⟩ | ⟨g5, _⟩
          · rw [g5]; exact h.pending
          · rw [g5]; nofun
        · rw [h1]; simp
      | replyRefused m w params limits msg now hr hrole hm hw ho _ h1 =>
        subst h1
        exact ⟨h.active, zeroed_initializeSession h.pending _ _ _ _ _ _ _ _, by simp⟩
      | replyAuthFailed m w params limits msg now now' e hr hrole hm hw ho s1 h1 he s2 h2 =>
        subst h2 h1
        refine ⟨by simp [h.active], ?_, by simp⟩
        simp only [authFormatted_pending, if_true]
        refine Zeroed.same ?_ (same_formatAuth ..)
        simp only [establishedIf_pending]
        exact zeroed_initializeSession h.pending _ _ _ _ _ _ _ _
      | replyAccepted m w params limits msg now now' out hr hrole hm hw ho s1 h1 he s2 h2 s3 h3 =>
        have hv := formatAuth_valid he
        subst h3 h2
        refine ⟨?_, ?_, ?_, ?_, .inr (.inl ?_)⟩
        · subst h1; simp [h.active]
        · simp only [sent_pending, authTaken_pending, authFormatted_pending, if_true]
          intro h0; rw [hv] at h0; cases h0
        · subst h1; simp
        · subst h1; simp
        · simpa using hv
      | replyError m w params limits _ _ _ => exact ⟨h.active, h.pending, by simp⟩
      | initAuthRefused m w params limits msg now scratch e _ _ _ _ _ _ _ h1 =>
        subst h1
        exact ⟨h.active, (zeroed_validate (c := c) h.pending).1, by simp⟩
      | initAuthOk m w params limits msg now scratch payload _ _ _ _ _ hv =>
        have hv := validateAuth_valid hv
        refine ⟨?_, ?_, .inr hv, ?_, .inr (.inr hv)⟩
        · simpa using (zeroed_validate (c := c) h.pending).1
        · simpa using zeroed_reset _
        · simp
      | respAuthRefused m w => exact ⟨h.active, (zeroed_validate (c := c) h.pending).1, by simp⟩
      | respAuthFailed m w hh msg now now' scratch payload e _ _ _ _ hv _ s1 h1 =>
        subst h1
        refine ⟨?_, ?_, by simp, by simp, by simp⟩
        · simp only [authFormatted_active, Bool.false_eq_true, if_false]
          exact ((zeroed_validate (c := c) h.pending).1).same (same_formatAuth ..)
        · simpa using zeroed_reset _
      | respAuthOk m w hh msg now now' scratch payload out hr _ _ _ hv _ s1 h1 =>
        subst h1
        refine ⟨?_, ?_, .inr hv, by simp, .inr (.inr hv)⟩
        · simp only [opening_active, sent_active, authTaken_active, authFormatted_active, Bool.false_eq_true, if_false]
          exact ((zeroed_validate (c := c) h.pending).1).same (same_formatAuth ..)
        · simpa using zeroed_reset _
      | dataRefused m w => exact ⟨(zeroed_validate (c := c) h.active).2, h.pending, by simp⟩
      | dataOk m w msg now scratch payload _ _ _ hv =>
        exact ⟨(zeroed_validate (c := c) h.active).2, h.pending, by simp, .inr (.inr (validateData_valid hv)), by simp⟩
      | readEmpty => exact ⟨h.active, h.pending, by simp⟩
      | discarded => exact ⟨h.active, h.pending, by simp⟩
      | asked => exact ⟨h.active, h.pending, by simp⟩
      | readNothing => exact ⟨h.active, h.pending, by simp⟩
      | readData => exact ⟨h.active, h.pending, by simp⟩
    obtain ⟨k1, k2, k3, k4, k5⟩ := key
    refine ⟨⟨k1, k2, ?_, ?_, hserve⟩, hg, ?_⟩
    all_goals
      intro hn
      have hn0 := grows_noHandshake hg hn
      obtain ⟨d1, d2⟩ := dead_of_noHandshake hp hn0
      obtain ⟨d3, d4⟩ := dead_of_noHandshake hp' hn
    · have := h.app hn0
      rcases k3 with k | k
      · rw [k, this]
      · rw [d2] at k; cases k
    · have := h.payload hn0
      rcases k4 with k | k | k
      · rw [k, this]
      · exact k
      · rw [d1] at k; cases k
    · rcases k5 with k | k | k
      · exact k
      · rw [d4] at k; cases k
      · rw [d2] at k; cases k
  case tail =>
    intro o s s' hpo hp hp' ho h ha
    have hgo := ha.grows_start (fun _ _ h => Rel.grows h)
    have hlive : ¬ NoHandshake o.log := by
      intro hn
      obtain ⟨d1, d2⟩ := dead_of_noHandshake hpo hn
      cases ha with
      | initAuthPayload s0 m w params limits msg now scratch payload a1 a2 a3 a4 a5 a6 =>
        rw [validateAuth_valid a6] at d2; cases d2
      | initAuthEnd s0 m w params limits msg now scratch payload a1 a2 a3 a4 a5 a6 =>
        rw [validateAuth_valid a6] at d2; cases d2
      | dataNotified s1 m w msg now scratch payload a1 a2 a3 a4 =>
        rw [validateData_valid a4] at d1; cases d1
      | respAuthPayload s0 s1 m w hh msg now now' scratch payload out a1 a2 a3 a4 a5 =>
        rw [a5] at d2; cases d2
    have hls : ¬ NoHandshake s.log := fun hn => hlive (grows_noHandshake hgo hn)
    have hg := ha.grows
    have hl' : ¬ NoHandshake s'.log := fun hn => hls (grows_noHandshake hg hn)
    have hserve : Served s'.log := served_step (t := s') h.served (.inl ⟨hls, hg⟩) rfl
    refine ⟨⟨?_, ?_, fun hn => absurd hn hl', fun hn => absurd hn hl', hserve⟩, hgo.trans hg, fun hn => absurd hn hl'⟩
    · cases ha <;> simpa using h.active
    · cases ha <;> simpa using h.pending
  case stay =>
    intro s t hp h hj hr hn
    rw [hr.tx hn]
    exact hj (grows_noHandshake hr.grows hn)
  case top =>
    intro s s' hp hp' h hj ha
    have hp2 : ∀ b, (fun o => !serves o) (Obs.lowerReady b) = true := fun _ => rfl
    have hgc : GrowsBy (fun o => match o with | .lowerClose => false | _ => true) s s' := by
      refine ha.growsBy ?_ (fun _ => rfl) rfl (fun _ => rfl)
      constructor <;> intros <;> rfl
    have hpre : NoHandshake s'.log → NoHandshake s.log := by
      obtain ⟨e, h1, h2⟩ := hgc
      intro hn
      rw [h1] at hn
      exact noHandshake_prefix hn fun hm => by simpa using h2 _ hm
    have hserve : Served s'.log := by
      by_cases hn : NoHandshake s.log
      · refine served_step (t := s') h.served (.inr (ha.growsBy basic_mute hp2 rfl ?_)) rfl
        intro hu
        rw [h.app hn] at hu; cases hu
      · obtain ⟨e, h1, h2⟩ := hgc
        rw [h1]
        refine h.served.append ?_
        intro pre o post he _ hno
        refine hn (noHandshake_prefix hno ?_)
        intro hm
        simpa using h2 .lowerClose (by rw [he]; simp [hm])
    have key : s'.active = s.active ∧ s'.pending = s.pending ∧ s'.upperOpen = s.upperOpen ∧
        s'.payloadLen = s.payloadLen ∧ (s'.tx = s.tx ∨ s'.tx = s.tx.onTxComplete.1) := by
      cases ha with
      | ready b => exact ⟨rfl, rfl, rfl, rfl, .inl rfl⟩
      | openedResponder _ _ ho => exact ⟨rfl, rfl, rfl, rfl, .inl rfl⟩
      | openedInitiator params limits _ _ ho hq => exact ⟨hq.active, hq.pending, hq.upperOpen, hq.payloadLen, .inl hq.tx⟩
      | txComplete => exact ⟨rfl, rfl, rfl, rfl, .inr rfl⟩
      | preTxReady params limits _ _ _ _ hq => exact ⟨hq.active, hq.pending, hq.upperOpen, hq.payloadLen, .inl hq.tx⟩
      | txNotified => simp
      | responseTimeout => exact ⟨rfl, rfl, rfl, rfl, .inl rfl⟩
      | retryTimeout params limits _ _ _ i _ hq => exact ⟨hq.active, hq.pending, hq.upperOpen, hq.payloadLen, .inl hq.tx⟩
      | sessionTimeout params limits _ _ _ hq => exact ⟨hq.active, hq.pending, hq.upperOpen, hq.payloadLen, .inl hq.tx⟩
      | orphanResponse => exact ⟨rfl, rfl, rfl, rfl, .inl rfl⟩
      | orphanRetry params limits _ _ _ i _ hq => exact ⟨hq.active, hq.pending, hq.upperOpen, hq.payloadLen, .inl hq.tx⟩
      | orphanSession params limits _ _ _ hq => exact ⟨hq.active, hq.pending, hq.upperOpen, hq.payloadLen, .inl hq.tx⟩
    obtain ⟨k1, k2, k3, k4, k5⟩ := key
    refine ⟨⟨by rw [k1]; exact h.active, by rw [k2]; exact h.pending, fun hn => by rw [k3]; exact h.app (hpre hn),
      fun hn => by rw [k4]; exact h.payload (hpre hn), hserve⟩, fun hn => ?_⟩
    have := hj (hpre hn)
    rcases k5 with k | k <;> rw [k, this]
    rfl
  case closing =>
    intro s hp hp' h hj ho
    have hd : (s.lowerClosing c).active = s.active.reset ∧ (s.lowerClosing c).pending = s.pending.reset := by simp
    refine ⟨by rw [hd.1]; exact zeroed_reset _, by rw [hd.2]; exact zeroed_reset _, fun _ => by simp, fun _ => by simp, ?_⟩
    rw [lowerClosing_log]
    refine h.served.append ?_
    intro pre o post he hs
    exfalso
    have : o ∈ Obs.lowerClose :: (if s.upperOpen = true then [Obs.up .closed] else []) := by rw [he]; simp
    split at this <;> simp at this
    · rcases this with rfl | rfl <;> simp [serves] at hs
    · subst this; simp [serves] at hs
  case closed =>
    intro s0 s _ _ _ h0 hj0 ho h hr
    exact ⟨⟨h.active, h.pending, h.app, h.payload, h.served⟩, fun _ => rfl⟩
  case init =>
    intro hh _ _
    refine ⟨⟨fun _ => rfl, fun _ => rfl, fun _ => rfl, fun _ => rfl, AllAt.nil⟩, fun _ => rfl⟩

theorem proof (c : Cfg) (E : Env) : Proof c E (fun s => OpenProof.Inv c E s ∧ Inv s) J Rel Rel :=
  (atomic c E).proof (OpenProof.atomic c E)

end CloseProof
open CloseProof

/-- C31. After the layer below has closed, and until a new handshake puts keys into a session: both sessions are
invalid and hold no keys, there is no received data, nothing waits to be transmitted, the application is closed (the last
it was told is "closed", or it was never opened) and nothing it asks to transmit would be accepted. In every execution,
whatever else happens after the close. -/
theorem C31_close_resets (c : Cfg) (E : Env) (s : Layer) (h : Quiet c E s) (before after : List Obs)
    (hlog : s.log = before ++ .lowerClose :: after) (hno : ∀ k a p, Obs.established k a p ∉ after) :
    s.active.valid = false ∧ s.active.keys.rxKey = [] ∧ s.active.keys.txKey = [] ∧
    s.pending.valid = false ∧ s.pending.keys.rxKey = [] ∧ s.pending.keys.txKey = [] ∧
    s.payload = [] ∧ s.tx.remainder = [] ∧ s.tx.transmitting = false ∧
    SSP21.Spec.openAfter (s.log.filterMap DisciplineProof.app) = false ∧ isTxReady s = false := by
  have hn : Spec.NoHandshake s.log := by rw [hlog]; exact noHandshake_closed hno
  obtain ⟨⟨h1, h2⟩, h3⟩ := (proof c E).quiet h
  obtain ⟨d1, d2⟩ := dead_of_noHandshake h1 hn
  have hu := h2.app hn
  have := h3 hn
  refine ⟨d1, by rw [h2.active d1]; rfl, by rw [h2.active d1]; rfl, d2, by rw [h2.pending d2]; rfl, by rw [h2.pending d2]; rfl,
    by simp [Layer.payload, h2.payload hn], by rw [this], by rw [this], ?_, by simp [isTxReady, hu]⟩
  rw [((DisciplineProof.atomic c E).observed h.observed).appOpen]
  exact hu

/-- C31. ... and the same while the application is being told and may call the layer (the transmission that was under way
is forgotten when the notification returns). -/
theorem C31_during_close (c : Cfg) (E : Env) (s : Layer) (h : Observed c E s) (before after : List Obs)
    (hlog : s.log = before ++ .lowerClose :: after) (hno : ∀ k a p, Obs.established k a p ∉ after) :
    s.active.valid = false ∧ s.active.keys.rxKey = [] ∧ s.active.keys.txKey = [] ∧
    s.pending.valid = false ∧ s.pending.keys.rxKey = [] ∧ s.pending.keys.txKey = [] ∧
    s.payload = [] ∧ SSP21.Spec.openAfter (s.log.filterMap DisciplineProof.app) = false ∧ isTxReady s = false := by
  have hn : Spec.NoHandshake s.log := by rw [hlog]; exact noHandshake_closed hno
  obtain ⟨h1, h2⟩ := (proof c E).observed h
  obtain ⟨d1, d2⟩ := dead_of_noHandshake h1 hn
  have hu := h2.app hn
  refine ⟨d1, by rw [h2.active d1]; rfl, by rw [h2.active d1]; rfl, d2, by rw [h2.pending d2]; rfl, by rw [h2.pending d2]; rfl,
    by simp [Layer.payload, h2.payload hn], ?_, by simp [isTxReady, hu]⟩
  rw [((DisciplineProof.atomic c E).observed h).appOpen]
  exact hu

/-- C31. Between a close and the completion of the next handshake the application is not told that the session is open,
that it can send or that there is data; it is given no data and its data is not accepted. -/
theorem C31_nothing_until_handshake (c : Cfg) (E : Env) (s : Layer) (h : Observed c E s) (before mid after : List Obs)
    (o : Obs) (hlog : s.log = before ++ .lowerClose :: mid ++ o :: after) (ho : Spec.serves o = true) :
    ∃ k a p, Obs.established k a p ∈ mid := by
  by_cases hx : ∃ k a p, Obs.established k a p ∈ mid
  · exact hx
  · exfalso
    obtain ⟨_, h2⟩ := (proof c E).observed h
    refine h2.served _ o after hlog ho (noHandshake_closed ?_)
    intro k a p hm
    exact hx ⟨k, a, p, hm⟩

namespace LayerExample
open Exec

/-- A responder with a session, data that the application has not read and a transmission under way, ... -/
def resBusy : List Choice := resData ++ [.api (.startTx [4, 5]), ans 12]
/-- ... is closed by the layer below, and is asked to send and to read after that. -/
def resClosed : List Choice :=
  resBusy ++ [.event (.lowerClose true), .ret, .api (.startTx [9]), .api .startRx, .recv [], ans 13]

/-- Before the close there is something to be reset: a valid session with keys, unread data, a transmission. -/
example : (final res .tame hs resBusy).map (fun s => (s.active.valid, s.active.keys.rxKey.length, s.payload,
    s.tx.transmitting, s.upperOpen)) = some (true, 32, [1, 2, 3], true, true) := by decide +kernel

/-- The theorems apply: the close is followed by the notification of the application, a refused transmission and a read
that returns nothing. -/
example : ∃ s before after, Quiet res EnvB.tame.env s ∧ s.log = before ++ .lowerClose :: after ∧
    (∀ k a p, Obs.established k a p ∉ after) ∧ Obs.startTx [9] false ∈ after ∧ Obs.up .closed ∈ after := by
  obtain ⟨s, h1, h2⟩ := Exec.exists_of_map configured (c := res) (E := .tame) (h := hs) (script := resClosed)
    (f := fun s => ((s.log.drop 15).map tag, (s.log.drop 15).any fun | .startTx d b => d == [9] && !b | _ => false))
    (a := ([12, 3, 7, 13, 8], true)) (by decide +kernel)
  rw [Prod.mk.injEq] at h2
  obtain ⟨h2, h3⟩ := h2
  have hl : s.log = s.log.take 15 ++ s.log.drop 15 := (List.take_append_drop 15 s.log).symm
  generalize s.log.drop 15 = d at *
  match d, h2 with
  | o :: d, h2 =>
    simp only [List.map_cons, List.cons.injEq] at h2
    have ho : o = .lowerClose := by
      have := h2.1
      cases o <;> simp [tag] at this
      · rename_i cb; cases cb <;> simp at this
      · rfl
    subst ho
    refine ⟨s, s.log.take 15, d, h1, hl, ?_, ?_, ?_⟩
    · intro k a p hm
      have : tag (.established k a p) ∈ d.map tag := List.mem_map_of_mem hm
      rw [h2.2] at this
      simp [tag] at this
    · simp only [List.any_eq_true] at h3
      obtain ⟨x, hx, hx'⟩ := h3
      cases x with
      | startTx d' b =>
        have hx' : (d' == [9] && !b) = true := hx'
        simp only [Bool.and_eq_true, beq_iff_eq, Bool.not_eq_true'] at hx'
        obtain ⟨rfl, rfl⟩ := hx'
        simpa using hx
      | _ => exact absurd hx' Bool.false_ne_true
    · match d, h2.2 with
      | o' :: d, h2 =>
        simp only [List.map_cons, List.cons.injEq] at h2
        have := h2.1
        cases o' with
        | up cb => cases cb <;> first | exact absurd this (by decide) | simp
        | _ => simp [tag] at this

end LayerExample

end SSP21.Crypto
