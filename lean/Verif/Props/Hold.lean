import Verif.LayerExample
import Verif.Monitor
/-
  Property C33, first half: data the application was told about or was given is kept, unmodified, until the
  application calls again (or the layer below closes), and no message is read before that.
-/
namespace SSP21.Crypto

namespace Spec

/-- What the application relies on: nothing, or that the data it was notified of will be kept for it, or that
the memory it was given is not touched. -/
inductive Hold
  | free | notified | reading (data : Bytes)

/-- A notification and a read (that returns data) begin a period of reliance, the next call of the application
or a close of the layer below ends it. -/
def holdStep (h : Hold) : Obs → Hold
  | .rxCall => .free
  | .lowerClose => .free
  | .up .rxReady => match h with
    | .reading d => .reading d
    | _ => .notified
  | .startRx d => if d = [] then h else .reading d
  | _ => h

/-- What the application relies on after `log`. -/
def hold (log : List Obs) : Hold := log.foldl holdStep .free

end Spec

/-- Observations that do not change what the application relies on. -/
def Obs.isHold : Obs → Bool
  | .rxCall => true
  | .lowerClose => true
  | .up .rxReady => true
  | .startRx _ => true
  | .recv _ => true
  | _ => false

namespace HoldProof

/-- Nothing is received while the application relies on something; data is given only after a call. -/
def Good (log : List Obs) : Prop :=
  AllAt (fun pre o => (∀ m, o = .recv m → Spec.hold pre = .free) ∧
    ∀ d, d ≠ [] → o = .startRx d → Spec.hold pre = .free) log

theorem hold_snoc (log : List Obs) (o : Obs) : Spec.hold (log ++ [o]) = Spec.holdStep (Spec.hold log) o := by
  simp [Spec.hold]

theorem hold_neutral {log extra : List Obs} (h : ∀ o ∈ extra, o.isHold = false) :
    Spec.hold (log ++ extra) = Spec.hold log := by
  simp only [Spec.hold, List.foldl_append]
  apply foldl_neutral
  intro o ho
  have := h o ho
  cases o with
  | up cb => cases cb <;> simp_all [Obs.isHold, Spec.holdStep]
  | _ => simp_all [Obs.isHold, Spec.holdStep]

theorem good_neutral {log extra : List Obs} (hg : Good log) (h : ∀ o ∈ extra, o.isHold = false) :
    Good (log ++ extra) := by
  refine hg.append ?_
  rintro pre o post rfl
  have := h o (by simp)
  constructor
  · rintro m rfl
    simp [Obs.isHold] at this
  · rintro d _ rfl
    simp [Obs.isHold] at this

/-- The invariant. -/
structure Inv (s : Layer) : Prop where
  good : Good s.log
  kept : Spec.hold s.log ≠ .free → s.payloadLen ≠ 0
  same : ∀ d, Spec.hold s.log = .reading d → s.buf.take d.length = d

theorem Inv.quiet {s t : Layer} (h : Inv s) (extra : List Obs) (hl : t.log = s.log ++ extra)
    (hq : ∀ o ∈ extra, o.isHold = false) (hp : t.payloadLen = s.payloadLen) (hb : t.buf = s.buf) : Inv t := by
  refine ⟨hl ▸ good_neutral h.good hq, ?_, ?_⟩
  · rw [hl, hold_neutral hq, hp]; exact h.kept
  · rw [hl, hold_neutral hq, hb]; exact h.same

theorem Inv.of_eq {s t : Layer} (h : Inv s) (hl : t.log = s.log) (hp : t.payloadLen = s.payloadLen)
    (hb : t.buf = s.buf) : Inv t :=
  h.quiet [] (by simp [hl]) (by simp) hp hb

theorem Inv.free {s : Layer} (h : Inv s) (hp : s.payloadLen = 0) : Spec.hold s.log = .free := by
  by_contra hc
  exact h.kept hc hp

theorem Inv.recv {s t : Layer} (h : Inv s) (hp : s.payloadLen = 0) (m : Bytes) (extra : List Obs)
    (hl : t.log = s.log ++ .recv m :: extra) (hq : ∀ o ∈ extra, o.isHold = false) : Inv t := by
  have e : t.log = (s.log ++ [.recv m]) ++ extra := by rw [hl]; simp
  have hf : Spec.hold t.log = .free := by
    rw [e, hold_neutral hq, hold_snoc, h.free hp]; rfl
  refine ⟨?_, fun hc => absurd hf hc, fun d hd => by rw [hf] at hd; simp at hd⟩
  rw [e]
  exact good_neutral (AllAt.snoc.2 ⟨h.good, fun m' _ => h.free hp, by simp⟩) hq

theorem Inv.rx {s : Layer} (h : Inv s) (hp : s.payloadLen ≠ 0) : Inv s.rxNotified := by
  unfold Layer.rxNotified
  split
  · refine ⟨AllAt.snoc.2 ⟨h.good, by simp⟩, fun _ => hp, fun d hd => ?_⟩
    simp only [noted_log, hold_snoc, Spec.holdStep] at hd
    split at hd <;> rename_i e
    · obtain rfl : _ = d := by simpa using hd
      exact h.same _ e
    · simp at hd
  · exact h

theorem Inv.hsReq {c : Cfg} {limits : SessionLimits} {s t : Layer} (h : Inv s) (hq : HsReq c limits s t) : Inv t := by
  cases hq with
  | deferred => exact h.of_eq rfl rfl rfl
  | noKey => exact h.of_eq rfl rfl rfl
  | badConfig f =>
    refine h.quiet (keyObs (s.ini.handshake.usedRecord f.record)) rfl ?_ rfl rfl
    cases s.ini.handshake.usedRecord f.record <;> simp [keyObs, Obs.isHold]
  | sent _ f _ _ written _ _ hr =>
    refine h.quiet (keyObs (s.ini.handshake.usedRecord f.record) ++ [.lowerTx (c.fw.wrap written) s.lowerReady]) (by exact List.append_assoc ..) ?_ rfl rfl
    cases s.ini.handshake.usedRecord f.record <;> simp [keyObs, Obs.isHold]

theorem atomic (c : Cfg) (E : Env) : Atomic1 c E Inv := by
  refine ⟨fun _ => trivial, fun _ _ _ _ _ => trivial, fun _ _ _ _ _ => trivial, fun _ _ _ => trivial,
    fun _ _ _ _ => ⟨fun _ _ => trivial, fun _ _ _ => trivial⟩, ?init, ?tx, ?rx, ?tail, fun _ _ _ _ _ _ => trivial, ?top, ?closing, ?closed⟩
  case tx =>
    intro s s' _ _ h ha
    refine ⟨?_, trivial⟩
    cases ha with
    | nonceTrigger params limits s' _ _ hq => exact Inv.hsReq (by exact h.of_eq rfl rfl rfl) hq
    | startTxRefused d _ => exact h.quiet [_] rfl (by simp [Obs.isHold]) rfl rfl
    | startTxAccepted d _ => exact h.quiet [.startTx d true] rfl (by simp [Obs.isHold]) rfl rfl
    | dataSent now out hc _ => exact h.quiet [.lowerTx _ _] rfl (by simp [Obs.isHold]) rfl rfl
    | dataFailed now e hc _ =>
      exact h.quiet _ (by simp; rfl) (by intro o; split <;> simp [Obs.isHold]; rintro rfl; rfl) (by simp) (by simp)
  case rx =>
    intro s s' _ _ h ha
    refine ⟨?_, trivial⟩
    have hk : ∀ k : Option (UInt64 × Bytes), ∀ o ∈ keyObs k, o.isHold = false := by
      intro k o ho
      cases k <;> simp_all [keyObs, Obs.isHold]
    cases ha with
    | ignored m w hr => exact h.recv hr.2.1 m [] rfl (by simp)
    | errorReply m w hh e frame hr _ _ => exact h.recv hr.2.1 m _ (by simp; rfl) (by simp [Obs.isHold])
    | requestRefused m w hh msg now f e hr _ _ _ _ s1 h1 _ h2 =>
      rcases h2 with rfl | ⟨fr, _, rfl⟩
      · refine h.recv hr.2.1 m _ (by rw [h1]; simp; rfl) (hk _)
      · refine h.recv hr.2.1 m _ (by rw [sent_log, h1]; simp; rfl) ?_
        intro o ho
        simp only [List.mem_append, List.mem_singleton] at ho
        rcases ho with ho | rfl
        · exact hk _ o ho
        · rfl
    | requestAccepted m w hh msg now f frame hr _ _ _ _ _ _ h1 =>
      subst h1
      refine h.recv hr.2.1 m _ (by simp; rfl) ?_
      intro o ho
      simp only [List.mem_append, List.mem_singleton] at ho
      rcases ho with ho | ho | rfl
      · exact hk _ o ho
      · split at ho <;> simp_all [Obs.isHold]
      · rfl
    | replyRefused m w params limits msg now hr _ _ _ _ _ h1 =>
      subst h1
      exact h.recv hr.2.1 m [] rfl (by simp)
    | replyAuthFailed m w params limits msg now now' e hr _ _ _ _ s1 h1 _ _ h2 =>
      subst h2
      refine h.recv hr.2.1 m _ (by simp; rw [h1]; simp; rfl) ?_
      intro o ho
      split at ho <;> simp_all [Obs.isHold]
    | replyAccepted m w params limits msg now now' out hr _ _ _ _ s1 h1 _ s2 h2 _ h3 =>
      subst h3
      refine h.recv hr.2.1 m _ (by simp; rw [h2]; simp; rw [h1]; simp; rfl) ?_
      intro o ho
      simp only [List.mem_append, List.mem_singleton] at ho
      rcases ho with ho | rfl
      · split at ho <;> simp_all [Obs.isHold]
      · rfl
    | replyError m w params limits hr _ _ => exact h.recv hr.2.1 m [] rfl (by simp)
    | initAuthRefused m w params limits msg now scratch e hr _ _ _ _ _ _ h1 =>
      subst h1; exact h.recv hr.2.1 m [] rfl (by simp)
    | initAuthOk m w params limits msg now scratch payload hr =>
      refine h.recv hr.2.1 m _ (by simp; rfl) ?_
      intro o ho
      split at ho <;> simp_all [Obs.isHold]
    | respAuthRefused m w hh msg now scratch e hr => exact h.recv hr.2.1 m [] rfl (by simp)
    | respAuthFailed m w hh msg now now' scratch payload e hr _ _ _ _ _ s1 h1 =>
      exact h.recv hr.2.1 m [] (by simp [h1]) (by simp)
    | respAuthOk m w hh msg now now' scratch payload out hr _ _ _ _ _ s1 h1 =>
      refine h.recv hr.2.1 m _ (by simp; rw [h1]; simp; rfl) ?_
      intro o ho
      simp only [List.mem_cons] at ho
      rcases ho with rfl | ho
      · rfl
      · by_cases hu : s.upperOpen = true <;> simp_all [Obs.isHold]
    | dataRefused m w msg now scratch e hr => exact h.recv hr.2.1 m [] rfl (by simp)
    | dataOk m w msg now scratch payload hr => exact h.recv hr.2.1 m [] rfl (by simp)
    | readEmpty w _ hp =>
      have hf := h.free hp
      exact ⟨h.good, fun hc => absurd hf hc, fun d hd => by rw [hf] at hd; simp at hd⟩
    | discarded =>
      refine ⟨AllAt.snoc.2 ⟨h.good, by simp⟩, fun hc => absurd ?_ hc, fun d hd => ?_⟩
      · simp [hold_snoc, Spec.holdStep]
      · simp [hold_snoc, Spec.holdStep] at hd
    | asked =>
      refine ⟨AllAt.snoc.2 ⟨h.good, by simp⟩, fun hc => absurd ?_ hc, fun d hd => ?_⟩
      · simp [hold_snoc, Spec.holdStep]
      · simp [hold_snoc, Spec.holdStep] at hd
    | readNothing =>
      refine ⟨AllAt.snoc.2 ⟨h.good, by simp, fun d hd e => absurd (by simpa using e.symm) hd⟩, fun hc => h.kept ?_, fun d hd => h.same d ?_⟩
      · simpa [hold_snoc, Spec.holdStep] using hc
      · simpa [hold_snoc, Spec.holdStep] using hd
    | readData hp =>
      refine ⟨AllAt.snoc.2 ⟨AllAt.snoc.2 ⟨h.good, by simp⟩, by simp, fun _ _ _ => by simp [hold_snoc, Spec.holdStep]⟩,
        fun _ => hp, fun d hd => ?_⟩
      simp only [noted_log, hold_snoc, Spec.holdStep] at hd
      split at hd
      · simp at hd
      · obtain rfl : _ = d := by simpa using hd
        simp [Layer.payload]
  case tail =>
    intro o s s' _ _ _ _ h ha
    refine ⟨?_, trivial⟩
    have key : ∀ p : Bytes, p ≠ [] → Inv (({ s with payloadLen := p.length } : Layer).rxNotified) := by
      intro p hp
      have hp' : p.length ≠ 0 := by simpa using hp
      exact Inv.rx ⟨h.good, fun _ => hp', h.same⟩ hp'
    cases ha with
    | initAuthPayload _ _ _ _ _ _ _ _ p _ _ _ _ _ _ _ _ hp => exact key p hp
    | dataNotified s1 m w msg now scratch p hr _ _ _ hp h1 hn =>
      refine h.rx ?_
      rw [hn.payloadLen, h1]
      simpa using hp
    | initAuthEnd => exact h.of_eq rfl rfl rfl
    | respAuthPayload _ _ _ _ _ _ _ _ _ p _ _ _ _ _ _ _ _ _ _ _ hp => exact key p hp
  case top =>
    intro s s' _ _ h _ ha
    refine ⟨?_, trivial⟩
    cases ha with
    | ready b => exact h.quiet [_] rfl (by simp [Obs.isHold]) rfl rfl
    | openedResponder => exact h.quiet [_] rfl (by simp [Obs.isHold]) rfl rfl
    | openedInitiator params limits _ _ _ hq =>
      exact Inv.hsReq (by exact h.quiet [.lowerOpen] rfl (by simp [Obs.isHold]) rfl rfl) hq
    | txComplete => exact h.of_eq rfl rfl rfl
    | preTxReady params limits _ _ _ _ hq => exact h.hsReq hq
    | txNotified =>
      exact h.quiet _ (txNotified_log s) (by intro o; split <;> simp [Obs.isHold]; rintro rfl; rfl) (by simp) (by simp)
    | responseTimeout => exact h.of_eq rfl rfl rfl
    | retryTimeout params limits _ _ _ i _ hq => exact Inv.hsReq (by exact h.of_eq rfl rfl rfl) hq
    | sessionTimeout params limits _ _ _ hq => exact Inv.hsReq (by exact h.of_eq rfl rfl rfl) hq
    | orphanResponse => exact h.of_eq rfl rfl rfl
    | orphanRetry params limits _ _ _ i _ hq => exact Inv.hsReq (by exact h.of_eq rfl rfl rfl) hq
    | orphanSession params limits _ _ _ hq => exact Inv.hsReq (by exact h.of_eq rfl rfl rfl) hq
  case closing =>
    intro s _ _ h _ _
    have hl : (s.lowerClosing c).log = (s.log ++ [.lowerClose]) ++ (if s.upperOpen then [.up .closed] else []) := by
      simp [lowerClosing_log]
    have hn : ∀ o ∈ (if s.upperOpen then [Obs.up .closed] else []), o.isHold = false := by
      intro o ho
      split at ho <;> simp_all [Obs.isHold]
    have hf : Spec.hold (s.lowerClosing c).log = .free := by
      rw [hl, hold_neutral hn, hold_snoc]; rfl
    refine ⟨?_, fun hc => absurd hf hc, fun d hd => by rw [hf] at hd; simp at hd⟩
    rw [hl]
    exact good_neutral (AllAt.snoc.2 ⟨h.good, by simp⟩) hn
  case closed => exact fun _ s _ _ _ _ _ _ h _ => ⟨h.of_eq rfl rfl rfl, trivial⟩
  case init =>
    exact fun hh _ _ => ⟨⟨AllAt.nil, fun h => absurd rfl h, fun d hd => by simp [Layer.new, Spec.hold] at hd⟩, trivial⟩

theorem not_free : ∀ mid : List Obs, .rxCall ∉ mid → .lowerClose ∉ mid → ∀ x, x ≠ .free →
    mid.foldl Spec.holdStep x ≠ .free := by
  intro mid
  induction mid with
  | nil => exact fun _ _ x hx => hx
  | cons y mid ih =>
    intro h1 h2 x hx
    simp only [List.mem_cons, not_or] at h1 h2
    rw [List.foldl_cons]
    refine ih h1.2 h2.2 _ ?_
    cases y with
    | rxCall => exact absurd rfl h1.1
    | lowerClose => exact absurd rfl h2.1
    | up cb => cases cb <;> cases x <;> simp_all [Spec.holdStep]
    | startRx d =>
      simp only [Spec.holdStep]
      split <;> simp_all
    | _ => simpa [Spec.holdStep] using hx

theorem reading (log : List Obs) (hg : Good log) (pre mid : List Obs) (d : Bytes) (hd : d ≠ [])
    (hlog : log = pre ++ .startRx d :: mid) (h1 : .rxCall ∉ mid) (h2 : .lowerClose ∉ mid) :
    Spec.hold log = .reading d := by
  induction mid using List.reverseRecOn generalizing log with
  | nil => rw [hlog, hold_snoc]; simp [Spec.holdStep, hd]
  | append_singleton mid o ih =>
    have e : log = (pre ++ .startRx d :: mid) ++ [o] := by rw [hlog]; simp
    subst e
    obtain ⟨g1, g2⟩ := AllAt.snoc.1 hg
    have := ih _ g1 rfl (by simp_all) (by simp_all)
    rw [hold_snoc, this]
    cases o with
    | rxCall => simp at h1
    | lowerClose => simp at h2
    | startRx d' =>
      by_cases hd' : d' = []
      · simp [Spec.holdStep, hd']
      · have := g2.2 d' hd' rfl
        simp_all
    | up cb => cases cb <;> simp [Spec.holdStep]
    | _ => simp [Spec.holdStep]

end HoldProof

/-- If data is announced to the application or given to it, no message is read from below until the application
has called again or the layer below has closed. -/
theorem C33_no_read_before_consumed (c : Cfg) (E : Env) (s : Layer) (h : Observed c E s)
    (pre mid post : List Obs) (o : Obs) (ho : o = .up .rxReady ∨ ∃ d, d ≠ [] ∧ o = .startRx d) (m : Bytes)
    (hlog : s.log = pre ++ o :: mid ++ .recv m :: post) : .rxCall ∈ mid ∨ .lowerClose ∈ mid := by
  have hg := ((HoldProof.atomic c E).observed h).good (pre ++ o :: mid) (.recv m) post (by rw [hlog])
  replace hg := hg.1 m rfl
  by_contra hc
  push Not at hc
  have key := HoldProof.not_free
  refine key mid hc.1 hc.2 _ ?_ (by simpa [Spec.hold, List.foldl_append] using hg)
  rcases ho with rfl | ⟨d, hd, rfl⟩
  · simp only [Spec.holdStep]
    split <;> simp_all
  · simp [Spec.holdStep, hd]

/-- The memory the application was given keeps its contents until the application calls again or the layer
below closes: at every moment in between, the bytes at that place are still the ones it was given. -/
theorem C33_given_memory_untouched (c : Cfg) (E : Env) (s : Layer) (h : Observed c E s)
    (pre mid : List Obs) (d : Bytes) (hlog : s.log = pre ++ .startRx d :: mid)
    (h1 : .rxCall ∉ mid) (h2 : .lowerClose ∉ mid) : s.buf.take d.length = d := by
  by_cases hd : d = []
  · simp [hd]
  have hi := (HoldProof.atomic c E).observed h
  exact hi.same d (HoldProof.reading _ hi.good pre mid d hd hlog h1 h2)

namespace LayerExample
open Exec

/-- The bytes given to the application, in order. -/
def given (s : Layer) : List Bytes := s.log.filterMap fun | .startRx d => some d | _ => none
/-- The number of messages read. -/
def reads (s : Layer) : Nat := (s.log.filterMap fun | .recv m => some m | _ => none).length

/-- A responder that has announced data (three messages read) reads nothing although the layer below reports
more; it still reads nothing after the application has been given the data; only the next call reads on. -/
example :
    ((final res .tame hs (resData ++ [.event .lowerRxReady])).map (fun s => (reads s, given s)) = some (3, [])) ∧
    ((final res .tame hs (resRead ++ [.event .lowerRxReady])).map (fun s => (reads s, given s)) =
      some (3, [[1, 2, 3]])) ∧
    ((final res .tame hs (resRead ++ [.event .lowerRxReady, .api .startRx, .recv [7], ans 12, ans 12, .recv [],
      ans 12])).map (fun s => (reads s, given s)) = some (4, [[1, 2, 3], []])) := by decide +kernel

end LayerExample

end SSP21.Crypto
