import Verif.Calm
import Verif.Props.Delivery
import Verif.Props.Hold
import Verif.Props.LowerTx
import Verif.Props.Streams
import Verif.Props.Request
import Verif.Props.Liveness
/-
  Property C56: reception does not stall.
-/
namespace SSP21.Crypto

namespace ReceptionProof
open Spec

/-- Since the layer below was closed last, something could not be sent. -/
def Failed (s : Layer) : Prop :=
  ∃ x ∈ s.acts, (x.2 = .notSent false ∨ x.2 = .dropped) ∧ .lowerClose ∉ s.log.drop x.1

/-- Data is not left behind without the application being told. -/
def Held (s : Layer) : Prop :=
  s.payloadLen ≠ 0 → ((∀ h, hold s.log = h → h ≠ .free) ∧ (s.upperOpen = true ∨ Failed s)) ∨ (s.upperOpen = false ∧ Failed s) ∨ s.payload = []

/-- The application is told when a session starts. -/
def Inv (s : Layer) : Prop := s.active.valid = true → s.upperOpen = true ∨ Failed s

theorem Failed.more {s t : Layer} (h : Failed s) (extra : List Obs) (hl : t.log = s.log ++ extra)
    (hq : .lowerClose ∉ extra) (as : List (Nat × Act)) (ha : t.acts = s.acts ++ as) : Failed t := by
  obtain ⟨x, h1, h2, h3⟩ := h
  refine ⟨x, by rw [ha]; simp [h1], h2, ?_⟩
  rw [hl, List.drop_append]
  intro hm
  rcases List.mem_append.mp hm with hm | hm
  · exact h3 hm
  · exact hq (List.mem_of_mem_drop hm)

/-- What may happen. -/
structure Rel (s t : Layer) : Prop where
  held : Held s → Held t
  told : s.upperOpen = true → t.upperOpen = true ∨ Failed t
  failed : Failed s → Failed t

theorem Rel.refl (s : Layer) : Rel s s := ⟨id, .inl, id⟩
theorem Rel.trans {s t u : Layer} (h : Rel s t) (h' : Rel t u) : Rel s u :=
  ⟨fun x => h'.held (h.held x), fun x => (h.told x).elim h'.told fun y => .inr (h'.failed y), fun x => h'.failed (h.failed x)⟩

theorem not_close {extra : List Obs} (h : ∀ o ∈ extra, o.isHold = false) : .lowerClose ∉ extra := by
  intro hm
  have := h _ hm
  simp [Obs.isHold] at this

theorem Rel.quiet {s t : Layer} (extra : List Obs) (hl : t.log = s.log ++ extra) (hq : ∀ o ∈ extra, o.isHold = false)
    (as : List (Nat × Act)) (ha : t.acts = s.acts ++ as) (hp : t.payloadLen = s.payloadLen) (hb : t.buf = s.buf)
    (hu : t.upperOpen = s.upperOpen) : Rel s t := by
  have hf : Failed s → Failed t := fun h => h.more extra hl (not_close hq) as ha
  refine ⟨fun h h0 => ?_, fun h => .inl (hu.trans h), hf⟩
  rw [hl, HoldProof.hold_neutral hq, hu, Layer.payload, hp, hb]
  rcases h (hp ▸ h0) with h | ⟨h1, h2⟩ | h
  · exact .inl ⟨h.1, h.2.imp id hf⟩
  · exact .inr (.inl ⟨h1, hf h2⟩)
  · exact .inr (.inr h)

theorem Rel.same {s t : Layer} (hl : t.log = s.log) (ha : t.acts = s.acts) (hp : t.payloadLen = s.payloadLen)
    (hb : t.buf = s.buf) (hu : t.upperOpen = s.upperOpen) : Rel s t :=
  .quiet [] (by simp [hl]) (by simp) [] (by simp [ha]) hp hb hu

/-- Nothing is left in the buffer. -/
theorem Rel.zero {s t : Layer} (hp : t.payloadLen = 0) (extra : List Obs) (hl : t.log = s.log ++ extra)
    (hq : .lowerClose ∉ extra) (as : List (Nat × Act)) (ha : t.acts = s.acts ++ as)
    (hu : s.upperOpen = true → t.upperOpen = true) : Rel s t :=
  ⟨fun _ h => absurd hp h, fun h => .inl (hu h), fun h => h.more extra hl hq as ha⟩

theorem Rel.hsReq {c : Cfg} {limits : SessionLimits} {s t : Layer} (hq : HsReq c limits s t) : Rel s t := by
  cases hq with
  | deferred => exact .same rfl rfl rfl rfl rfl
  | noKey => exact .same rfl rfl rfl rfl rfl
  | badConfig f =>
    refine .quiet (keyObs (s.ini.handshake.usedRecord f.record)) rfl ?_ [] (by simp) rfl rfl rfl
    cases s.ini.handshake.usedRecord f.record <;> simp [keyObs, Obs.isHold]
  | sent _ f _ _ written _ _ hr =>
    refine .quiet (keyObs (s.ini.handshake.usedRecord f.record) ++ [.lowerTx (c.fw.wrap written) s.lowerReady]) (by exact List.append_assoc ..) ?_ [] (by simp) rfl rfl rfl
    cases s.ini.handshake.usedRecord f.record <;> simp [keyObs, Obs.isHold]

theorem Rel.nonce {c : Cfg} {s t : Layer} (hn : NonceChange c s t) : Rel s t := by
  rcases hn with ⟨rfl, _⟩ | ⟨params, limits, _, _, hq⟩
  · exact .refl _
  · exact Rel.trans (t := { s with ini := { s.ini with sessTimer := none } }) (.same rfl rfl rfl rfl rfl) (.hsReq hq)

theorem nonce_active {c : Cfg} {s t : Layer} (hn : NonceChange c s t) : t.active = s.active ∧ t.upperOpen = s.upperOpen := by
  rcases hn with ⟨rfl, _⟩ | ⟨params, limits, _, _, hq⟩
  · exact ⟨rfl, rfl⟩
  · exact ⟨hq.active, hq.upperOpen⟩

theorem Inv.rel {s t : Layer} (h : Inv s) (hr : Rel s t) (hv : t.active.valid = true → s.active.valid = true) : Inv t :=
  fun hx => (h (hv hx)).elim hr.told fun y => .inr (hr.failed y)

/-- The application is told that there is data. -/
theorem Rel.payload {s : Layer} (n : Nat) (h : s.upperOpen = true ∨ Failed s) :
    Rel s (({ s with payloadLen := n } : Layer).rxNotified) ∧ Held (({ s with payloadLen := n } : Layer).rxNotified) := by
  have key : Held (({ s with payloadLen := n } : Layer).rxNotified) ∧
      (Failed s → Failed (({ s with payloadLen := n } : Layer).rxNotified)) := by
    unfold Layer.rxNotified
    split
    · rename_i hu
      refine ⟨fun _ => .inl ⟨?_, .inl hu⟩, fun h => h.more [.up .rxReady] rfl (by simp) [] (by simp [Layer.noted])⟩
      rintro x rfl
      show hold (s.log ++ [.up .rxReady]) ≠ .free
      rw [HoldProof.hold_snoc]
      simp only [holdStep]
      split <;> simp
    · rename_i hu
      have hu : ¬ s.upperOpen = true := hu
      refine ⟨fun _ => .inr (.inl ⟨by simpa using hu, ?_⟩), fun h => h.more [] (by simp) (by simp) [] (by simp)⟩
      exact (h.resolve_left hu).more [] (by simp) (by simp) [] (by simp)
  refine ⟨⟨fun _ => key.1, fun hu => .inl ?_, key.2⟩, key.1⟩
  simpa using hu

/-- The history grows, without a close of the layer below or of the application. -/
def Ext (s t : Layer) : Prop :=
  (∃ extra, t.log = s.log ++ extra ∧ .lowerClose ∉ extra) ∧ (∃ as, t.acts = s.acts ++ as) ∧ (s.upperOpen = true → t.upperOpen = true)

theorem Ext.trans {s t u : Layer} (h : Ext s t) (h' : Ext t u) : Ext s u := by
  obtain ⟨⟨e1, a1, a2⟩, ⟨x1, a3⟩, a4⟩ := h
  obtain ⟨⟨e2, b1, b2⟩, ⟨x2, b3⟩, b4⟩ := h'
  refine ⟨⟨e1 ++ e2, by rw [b1, a1]; simp, ?_⟩, ⟨x1 ++ x2, by rw [b3, a3]; simp⟩, fun h => b4 (a4 h)⟩
  intro hm
  rcases List.mem_append.mp hm with hm | hm
  · exact a2 hm
  · exact b2 hm

theorem Ext.same {s t : Layer} (hl : t.log = s.log) (ha : t.acts = s.acts) (hu : t.upperOpen = s.upperOpen) : Ext s t :=
  ⟨⟨[], by simp [hl], by simp⟩, ⟨[], by simp [ha]⟩, fun h => hu.trans h⟩
theorem Ext.obs {s t : Layer} (o : Obs) (ho : o ≠ .lowerClose) (hl : t.log = s.log ++ [o]) (ha : t.acts = s.acts)
    (hu : s.upperOpen = true → t.upperOpen = true) : Ext s t :=
  ⟨⟨[o], hl, by simpa using ho.symm⟩, ⟨[], by simp [ha]⟩, hu⟩
theorem Ext.act {s t : Layer} (x : Nat × Act) (hl : t.log = s.log) (ha : t.acts = s.acts ++ [x]) (hu : t.upperOpen = s.upperOpen) : Ext s t :=
  ⟨⟨[], by simp [hl], by simp⟩, ⟨[x], ha⟩, fun h => hu.trans h⟩
theorem Ext.received (s : Layer) (m w : Bytes) : Ext s (s.received m w) := .obs (.recv m) (by simp) rfl rfl id
theorem Ext.sent (s : Layer) (f : Bytes) : Ext s (s.sent f) := .obs (.lowerTx f s.lowerReady) (by simp) rfl rfl id
theorem Ext.keyNoted (s : Layer) (k : Option (UInt64 × Bytes)) : Ext s (s.keyNoted k) := by
  cases k with
  | none => exact .same rfl rfl rfl
  | some r => exact .obs (.keyUsed r) (by simp) rfl rfl id
theorem Ext.establishedIf (s : Layer) (n : Nat) : Ext s (s.establishedIf n) := by
  unfold Layer.establishedIf
  split
  · exact .obs _ (by simp) rfl rfl id
  · exact .same rfl rfl rfl
theorem Ext.opening (s : Layer) : Ext s s.opening := by
  unfold Layer.opening
  split
  · exact .same rfl rfl rfl
  · exact .obs (.up .opened) (by simp) rfl rfl fun _ => rfl
theorem Ext.authValidated (c : Cfg) (s : Layer) (msg : SessionData) (now : Int) (w : Bytes) : Ext s (s.authValidated c msg now w) :=
  .act _ rfl rfl rfl
theorem Ext.dataValidated (c : Cfg) (s : Layer) (msg : SessionData) (now : Int) (w : Bytes) : Ext s (s.dataValidated c msg now w) :=
  .act _ rfl rfl rfl
theorem Ext.activated (s : Layer) : Ext s s.activated := .same rfl rfl rfl
theorem Ext.authFormatted (s : Layer) (b : Bool) (now : Int) : Ext s (s.authFormatted b now) := by
  unfold Layer.authFormatted
  cases b <;> exact .act _ rfl rfl rfl
theorem Ext.authTaken (s : Layer) (a b : Bytes) : Ext s (s.authTaken a b) := by
  unfold Layer.authTaken
  split <;> exact .same rfl rfl rfl
theorem Ext.initAuthOk (c : Cfg) (s : Layer) (params : Params) (msg : SessionData) (now : Int) (w : Bytes) :
    Ext s (s.initAuthOk c params msg now w) := by
  unfold Layer.initAuthOk
  refine .trans (t := { s with ini := { s.ini with respTimer := none } }) (.same rfl rfl rfl) ?_
  refine .trans (.authValidated c _ msg now w) (.trans (.activated _) ?_)
  exact .trans (.same rfl rfl rfl) (.opening _)
theorem Ext.rel {s t : Layer} (h : Ext s t) (hp : t.payloadLen = 0) : Rel s t := by
  obtain ⟨⟨e, a1, a2⟩, ⟨x, a3⟩, a4⟩ := h
  exact .zero hp e a1 a2 x a3 a4

theorem opening_open (s : Layer) : s.opening.upperOpen = true := by
  unfold Layer.opening
  split
  · assumption
  · rfl

/-- The application is closed because data could not be sent. -/
theorem Rel.dropped {s t : Layer} (hl : t.log = s.log) (ha : t.acts = s.acts ++ [(s.log.length, .dropped)])
    (hp : t.payloadLen = s.payloadLen) (hb : t.buf = s.buf) (hu : t.upperOpen = s.upperOpen) : Rel s t.closing ∧ Failed t.closing := by
  have hf : Failed t.closing := by
    refine ⟨(s.log.length, .dropped), by simp [ha], .inr rfl, ?_⟩
    unfold Layer.closing
    split <;> simp [hl, Layer.noted]
  refine ⟨⟨fun h h0 => ?_, fun _ => .inr hf, fun _ => hf⟩, hf⟩
  have e : hold t.closing.log = hold s.log := by
    unfold Layer.closing
    split
    · show hold (t.log ++ [.up .closed]) = _
      rw [HoldProof.hold_snoc, hl]
      rfl
    · rw [hl]
  simp only [closing_payloadLen, hp] at h0
  rw [e]
  rcases h h0 with h | ⟨h, _⟩ | h
  · exact .inl ⟨h.1, .inr hf⟩
  · refine .inr (.inl ⟨?_, hf⟩)
    unfold Layer.closing
    split
    · rfl
    · rw [hu]; exact h
  · refine .inr (.inr ?_)
    simpa [Layer.payload, hp, hb] using h

theorem atomic (c : Cfg) (E : Env) : AtomicW c E (fun _ => True) Inv Held Rel Rel := by
  have hread : ∀ s : Layer, s.payloadLen ≠ 0 → Rel s s.reading := by
    intro s hp
    have hf : Failed s → Failed s.reading := fun h => h.more [.rxCall, .startRx s.payload] (by simp) (by simp) [] (by simp)
    refine ⟨fun hh _ => ?_, fun h => .inl h, hf⟩
    by_cases hd : s.payload = []
    · exact .inr (.inr hd)
    · refine .inl ⟨?_, ?_⟩
      · rintro x rfl
        simp [Layer.reading, hold, holdStep, hd]
      · rcases hh hp with h | h | h
        · exact h.2.imp id hf
        · exact .inr (hf h.2)
        · exact absurd h hd
  have valid : ∀ {s : Layer} {msg now p}, (s.active.validateData s.stats msg now c.bufLen).2.2 = .ok p → s.active.valid = true :=
    fun h => DeliveryProof.validateData_valid h
  refine ⟨Rel.refl, fun _ _ _ => .trans, fun _ _ _ => .trans, fun _ _ _ h => h, fun _ _ _ => .refl _, fun _ _ _ _ => .refl _,
    ?read, fun _ _ _ _ _ _ => ⟨.refl _, id⟩, ?init, ?tx, ?rx, ?respEnd, ?data, ?tail, fun _ _ _ _ h hr => hr.held h,
    ?top, ?ready, ?txReady, ?closing, ?closed⟩
  case read => exact fun s _ _ _ h hp _ => ⟨h.rel (hread s hp) id, hread s hp⟩
  case init => exact fun hh _ _ => ⟨fun h => (by cases h), fun h => absurd rfl h⟩
  case tx =>
    intro s s' _ _ h ha
    cases ha with
    | startTxRefused d _ =>
      have hr : Rel s (s.noted (.startTx d false)) := .quiet [_] rfl (by simp [Obs.isHold]) [] (by simp [Layer.noted]) rfl rfl rfl
      exact ⟨h.rel hr id, hr⟩
    | startTxAccepted d _ =>
      have hr : Rel s { s.noted (.startTx d true) with tx := TxState.initialize s.tx d } :=
        .quiet [_] rfl (by simp [Obs.isHold]) [] (by simp [Layer.noted]) rfl rfl rfl
      exact ⟨h.rel hr id, hr⟩
    | dataSent now out _ hc _ hn =>
      have hv : s.active.valid = true := by
        unfold canTransmit at hc
        cases hx : s.active.valid <;> simp_all
      have h2 := Rel.nonce hn
      have hr : Rel s s' := by
        refine Rel.trans ?_ h2
        exact .quiet [.lowerTx out.frame s.lowerReady] rfl (by simp [Obs.isHold]) [_] rfl rfl rfl rfl
      exact ⟨h.rel hr fun _ => hv, hr⟩
    | dataFailed now e hc _ =>
      obtain ⟨hr, hf⟩ := Rel.dropped (s := s) (t := { s with active := (s.active.formatData now s.tx.remainder).1.reset, acts := s.acts ++ [(s.log.length, .dropped)] }) rfl rfl rfl rfl rfl
      exact ⟨fun _ => .inr hf, hr⟩
  case rx =>
    intro s s' _ _ h _ ha hp
    have key : Ext s s' → s.payloadLen = 0 → (s'.active.valid = true → s.active.valid = true ∨ s'.upperOpen = true ∨ Failed s') →
        Inv s' ∧ (s'.inAuth = s.inAuth → (s'.lowerReady = s.lowerReady ∨ s'.stats.numSuccess = s.stats.numSuccess) → Rel s s') := by
      intro h1 h2 h3
      have hr : Rel s s' := h1.rel (by rcases hp with hp | hp; exact hp; rw [hp, h2])
      refine ⟨fun hv => ?_, fun _ _ => hr⟩
      rcases h3 hv with hv | hv
      · exact (h hv).elim hr.told fun y => .inr (hr.failed y)
      · exact hv
    cases ha with
    | ignored m w hr => exact key (.received ..) hr.2.1 .inl
    | errorReply m w hh e frame hr _ _ => exact key (.trans (.received ..) (.sent ..)) hr.2.1 .inl
    | requestRefused m w hh msg now f e hr _ _ _ _ s1 h1 _ h2 =>
      subst h1
      have hx : Ext s _ := .trans (.received s m w) (.trans (t := { s.received m w with pending := (hh.process c.backend c.caps f.lookup f.rnd msg m now c.fw s.pending s.stats).1, stats := (hh.process c.backend c.caps f.lookup f.rnd msg m now c.fw s.pending s.stats).2.1 }) (.same rfl rfl rfl) (.keyNoted _ (hh.process c.backend c.caps f.lookup f.rnd msg m now c.fw s.pending s.stats).2.2.1))
      rcases h2 with rfl | ⟨fr, _, rfl⟩
      · exact key hx hr.2.1 (by simpa using .inl)
      · exact key (hx.trans (.sent ..)) hr.2.1 (by simpa using .inl)
    | requestAccepted m w hh msg now f frame hr _ _ _ _ _ _ h1 =>
      subst h1
      have hx : Ext s _ := .trans (.received s m w) (.trans (t := { s.received m w with pending := (hh.process c.backend c.caps f.lookup f.rnd msg m now c.fw s.pending s.stats).1, stats := (hh.process c.backend c.caps f.lookup f.rnd msg m now c.fw s.pending s.stats).2.1 }) (.same rfl rfl rfl) (.keyNoted _ (hh.process c.backend c.caps f.lookup f.rnd msg m now c.fw s.pending s.stats).2.2.1))
      exact key (hx.trans (.trans (.establishedIf ..) (.sent ..))) hr.2.1 (by simpa using .inl)
    | replyRefused m w params limits msg now hr _ _ _ _ s1 h1 =>
      subst h1
      exact key (.trans (.received s m w) (.same rfl rfl rfl)) hr.2.1 .inl
    | replyAuthFailed m w params limits msg now now' e hr _ _ _ _ s1 h1 _ s2 h2 =>
      have hx : Ext s s1 := by
        subst h1
        exact .trans (.received s m w) (.trans (.same rfl rfl rfl) (.establishedIf ..))
      have hv : s1.active = s.active := by subst h1; simp
      subst h2
      refine key (hx.trans (.trans (.authFormatted _ true now') (.same rfl rfl rfl))) hr.2.1 ?_
      intro h3
      rw [show (({ s1.authFormatted true now' with ini := { s1.ini.start .retry with hs := .waitForRetry } } : Layer).active) = s.active from hv] at h3
      exact .inl h3
    | replyAccepted m w params limits msg now now' out hr _ _ _ _ s1 h1 _ s2 h2 s3 h3 =>
      have hx : Ext s s1 := by
        subst h1
        exact .trans (.received s m w) (.trans (.same rfl rfl rfl) (.establishedIf ..))
      have hv : s1.active = s.active := by subst h1; simp
      subst h3; subst h2
      refine key (hx.trans (.trans (.authFormatted _ true now') (.trans (.authTaken ..) (.trans (.sent ..) (.same rfl rfl rfl))))) hr.2.1 ?_
      intro h3
      simp at h3
      rw [hv] at h3
      exact .inl h3
    | replyError m w params limits hr => exact key (.trans (.received s m w) (.same rfl rfl rfl)) hr.2.1 .inl
    | initAuthRefused m w params limits msg now scratch e hr _ _ _ _ _ s1 h1 =>
      subst h1
      exact key (.trans (.received s m w) (.trans (.authValidated c _ msg now scratch) (.same rfl rfl rfl))) hr.2.1 .inl
    | initAuthOk m w params limits msg now scratch payload hr =>
      refine key (.trans (.received s m w) (.initAuthOk c _ params msg now scratch)) hr.2.1 fun _ => .inr (.inl ?_)
      exact opening_open _
    | respAuthRefused m w hh msg now scratch e hr =>
      exact key (.trans (.received s m w) (.authValidated c _ msg now scratch)) hr.2.1 .inl
    | respAuthFailed m w hh msg now now' scratch payload e hr _ _ _ _ _ s1 h1 he =>
      have hx : Ext s s1 := by
        subst h1
        exact .trans (.received s m w) (.trans (.authValidated c _ msg now scratch) (.activated _))
      refine key (hx.trans (.authFormatted ..)) hr.2.1 fun _ => .inr (.inr ?_)
      refine ⟨(s1.log.length, .notSent false), ?_, .inl rfl, ?_⟩
      · simp [Layer.authFormatted, he, authAct]
      · simp [Layer.authFormatted]
    | respAuthOk m w hh msg now now' scratch payload out hr _ _ _ _ _ s1 h1 =>
      have hx : Ext s s1 := by
        subst h1
        exact .trans (.received s m w) (.trans (.authValidated c _ msg now scratch) (.activated _))
      refine key (hx.trans (.trans (.authFormatted _ false now') (.trans (.authTaken ..) (.trans (.sent ..) (.opening _))))) hr.2.1 fun _ => .inr (.inl ?_)
      exact opening_open _
    | dataRefused m w msg now scratch e hr _ _ _ =>
      refine key (.trans (.received s m w) (.dataValidated c _ msg now scratch)) hr.2.1 fun hv => .inl ?_
      rw [← (same_validateData s.active s.stats msg now c.bufLen).1.1]
      exact hv
    | dataOk m w msg now scratch payload hr _ _ hok =>
      exact key (.trans (.received s m w) (.trans (.dataValidated c _ msg now scratch) (.same rfl rfl rfl))) hr.2.1 fun _ => .inl (valid hok)
    | readEmpty w hr hz => exact key (.same rfl rfl rfl) hz .inl
    | discarded _ =>
      have hr : Rel s { s.noted .rxCall with payloadLen := 0, rxFlag := false } :=
        Ext.rel (.trans (t := s.noted .rxCall) (.obs .rxCall (by simp) rfl rfl id) (.same rfl rfl rfl)) rfl
      exact ⟨h.rel hr id, fun _ _ => hr⟩
    | asked _ hz => exact key (.obs .rxCall (by simp) rfl rfl id) hz .inl
    | readNothing =>
      have hr : Rel s (s.noted (.startRx [])) := by
        refine ⟨fun hh h0 => ?_, .inl, fun h => h.more [.startRx []] rfl (by simp) [] (by simp [Layer.noted])⟩
        have e : hold (s.noted (.startRx [])).log = hold s.log := by
          show hold (s.log ++ [.startRx []]) = _
          rw [HoldProof.hold_snoc]
          rfl
        rw [e]
        rcases hh h0 with hh | ⟨hh, hf⟩ | hh
        · exact .inl ⟨hh.1, hh.2.imp id fun hf => hf.more [.startRx []] rfl (by simp) [] (by simp [Layer.noted])⟩
        · exact .inr (.inl ⟨hh, hf.more [.startRx []] rfl (by simp) [] (by simp [Layer.noted])⟩)
        · exact .inr (.inr hh)
      exact ⟨h.rel hr id, fun _ _ => hr⟩
    | readData hz _ => exact ⟨h.rel (hread s hz) id, fun _ _ => hread s hz⟩
  case respEnd =>
    rintro o s0 s _ _ _ _ _ ⟨s1, m, w, hh, msg, now, now', scratch, out, a1, a2, a3, a4, a5, a6, rfl, a8, rfl⟩ hr
    refine Rel.trans (Ext.rel (.trans (.received o m w) (.trans (.authValidated c _ msg now scratch) (.trans (.activated _)
      (.trans (.authFormatted _ false now') (.trans (.authTaken ..) (.trans (.sent ..) (.opening _))))))) ?_) hr
    simpa using a1.2.1
  case data =>
    intro s m w msg now scratch payload s' _ _ h _ a1 a2 a3 a4 a5 hn
    have h1 := h (valid a4)
    intro _
    have h2 := Rel.nonce hn
    have h3 : Ext s { (s.received m w).dataValidated c msg now scratch with payloadLen := payload.length } :=
      .trans (.received s m w) (.trans (.dataValidated c _ msg now scratch) (.same rfl rfl rfl))
    rcases h1 with h1 | h1
    · exact h2.told h1
    · obtain ⟨⟨e, b1, b2⟩, ⟨x, b3⟩, _⟩ := h3
      exact .inr (h2.failed (h1.more e b1 b2 x b3))
  case tail =>
    intro o s s' _ _ _ ho _ hs ht
    have auth : ∀ {s0 s : Layer} {n : Nat}, Rel o s0 → s0.upperOpen = true → Rel s0 s →
        Rel o (({ s with payloadLen := n } : Layer).rxNotified) := fun h1 h2 h3 => h1.trans (h3.trans (Rel.payload _ (h3.told h2)).1)
    cases ht with
    | initAuthPayload s0 m w params limits msg now scratch payload a1 a2 a3 a4 a5 a6 a7 a8 a9 =>
      have h0 : Rel o s0 := by
        subst a7
        exact Ext.rel (.trans (.received o m w) (.initAuthOk c _ params msg now scratch)) (by simpa using a1.2.1)
      have hu : s0.upperOpen = true := by subst a7; exact opening_open _
      exact ⟨hs.rel (Rel.payload _ (a8.told hu)).1 (by simp), fun _ => auth h0 hu a8⟩
    | initAuthEnd s0 m w params limits msg now scratch payload a1 a2 a3 a4 a5 a6 a7 a8 =>
      have h0 : Rel o s0 := by
        subst a7
        exact Ext.rel (.trans (.received o m w) (.initAuthOk c _ params msg now scratch)) (by simpa using a1.2.1)
      have hu : s0.upperOpen = true := by subst a7; exact opening_open _
      have h1 : Rel o s := by
        rcases a8 with ⟨_, a8⟩ | ⟨s1, a8, _, a9⟩
        · exact h0.trans a8
        · exact (auth h0 hu a8).trans a9
      have h2 : Rel s { s with inAuth := false, ini := { s.ini with hs := .idle } } := .same rfl rfl rfl rfl rfl
      exact ⟨hs.rel h2 id, fun _ => h1.trans h2⟩
    | dataNotified s1 m w msg now scratch payload a1 a2 a3 a4 a5 a6 a7 =>
      have h1 := ho (valid a4)
      have h2 := Rel.nonce a7
      have h3 : Ext o s1 := by
        subst a6
        exact .trans (.received o m w) (.trans (.dataValidated c _ msg now scratch) (.same rfl rfl rfl))
      have hf : Failed o → Failed s := by
        intro hf
        obtain ⟨⟨e, b1, b2⟩, ⟨x, b3⟩, _⟩ := h3
        exact h2.failed (hf.more e b1 b2 x b3)
      have hu : s.upperOpen = true ∨ Failed s := by
        rcases h1 with h1 | h1
        · exact h2.told (h3.2.2 h1)
        · exact .inr (hf h1)
      have hn := Rel.payload s.payloadLen hu
      refine ⟨hs.rel hn.1 (by simp), fun _ => ⟨fun _ => hn.2, fun hx => ?_, fun hx => hn.1.failed (hf hx)⟩⟩
      exact (h2.told (h3.2.2 hx)).elim hn.1.told fun y => .inr (hn.1.failed y)
    | respAuthPayload s0 s1 m w hh msg now now' scratch payload out a1 a2 a3 a4 a5 a6 a7 a8 a9 a10 a11 =>
      have h0 : Rel o s0 := by
        subst a9 a7
        refine Ext.rel (.trans (.received o m w) (.trans (.authValidated c _ msg now scratch) (.trans (.activated _)
          (.trans (.authFormatted _ false now') (.trans (.authTaken ..) (.trans (.sent ..) (.opening _))))))) ?_
        simpa using a1.2.1
      have hu : s0.upperOpen = true := by subst a9; exact opening_open _
      exact ⟨hs.rel (Rel.payload _ (a10.told hu)).1 (by simp), fun _ => auth h0 hu a10⟩
  case top =>
    intro s s' _ _ h hj ha _
    have key : Rel s s' → s'.active = s.active → Inv s' ∧ Held s' := fun h1 h2 => ⟨h.rel h1 (by rw [h2]; exact id), h1.held hj⟩
    cases ha with
    | ready b => exact key (.quiet [.lowerReady b] rfl (by simp [Obs.isHold]) [] (by simp [Layer.noted]) rfl rfl rfl) rfl
    | openedResponder hh _ _ => exact key (.quiet [.lowerOpen] rfl (by simp [Obs.isHold]) [] (by simp [Layer.noted]) rfl rfl rfl) rfl
    | openedInitiator params limits _ _ _ hq =>
      refine key (.trans (t := ({ s with isOpen := true } : Layer).noted .lowerOpen) ?_ (.hsReq hq)) hq.active
      exact .quiet [.lowerOpen] rfl (by simp [Obs.isHold]) [] (by simp [Layer.noted]) rfl rfl rfl
    | txComplete => exact key (.same rfl rfl rfl rfl rfl) rfl
    | preTxReady params limits _ _ _ _ hq => exact key (.hsReq hq) hq.active
    | txNotified _ =>
      refine key ?_ (by simp)
      unfold Layer.txNotified
      split
      · exact .quiet [.up .txReady] rfl (by simp [Obs.isHold]) [] (by simp [Layer.noted]) rfl rfl rfl
      · exact .refl _
    | responseTimeout => exact key (.same rfl rfl rfl rfl rfl) rfl
    | orphanResponse => exact key (.same rfl rfl rfl rfl rfl) rfl
    | retryTimeout params limits _ _ _ i _ hq =>
      have h2 := Rel.hsReq hq
      refine key (Rel.trans ?_ h2) hq.active
      exact .same rfl rfl rfl rfl rfl
    | sessionTimeout params limits _ _ _ hq =>
      have h2 := Rel.hsReq hq
      refine key (Rel.trans ?_ h2) hq.active
      exact .same rfl rfl rfl rfl rfl
    | orphanRetry params limits _ _ _ i _ hq =>
      have h2 := Rel.hsReq hq
      refine key (Rel.trans ?_ h2) hq.active
      exact .same rfl rfl rfl rfl rfl
    | orphanSession params limits _ _ _ hq =>
      have h2 := Rel.hsReq hq
      refine key (Rel.trans ?_ h2) hq.active
      exact .same rfl rfl rfl rfl rfl
  case ready =>
    intro s b _ _ h hj _
    have hr : Rel s (s.readied b) := .quiet [.lowerReady b] rfl (by simp [Obs.isHold]) [] (by simp [Layer.readied, Layer.noted]) rfl rfl rfl
    exact ⟨h.rel hr id, hr.held hj⟩
  case txReady =>
    intro s s' _ _ h hj _ ha
    have hr : Rel s { s.readied true with tx := s.tx.onTxComplete.1 } :=
      .quiet [.lowerReady true] rfl (by simp [Obs.isHold]) [] (by simp [Layer.readied, Layer.noted]) rfl rfl rfl
    cases ha with
    | idle _ => exact ⟨h.rel hr id, hr.held hj⟩
    | attempt params limits _ _ _ hq =>
      have hr' := hr.trans (.hsReq hq)
      exact ⟨h.rel hr' (by rw [hq.active]; exact id), hr'.held hj⟩
  case closing =>
    intro s b _ _ h hj _ hv
    simp [Session.reset] at hv
  case closed =>
    intro s0 b s _ _ _ _ _ _ h hr
    have h1 : Held s := hr.held fun hp => absurd (by simp) hp
    have h2 : Rel s (s.closedDown c) := .quiet [] (by simp) (by simp) [_] rfl rfl rfl rfl
    exact ⟨h.rel h2 id, h2.held h1⟩

/-! ### The history -/

theorem failed_of {pre post : List Ev} {a : Act} (ha : a = .notSent false ∨ a = .dropped) (h : .obs .lowerClose ∉ post) :
    Spec.failed (pre ++ .act a :: post) = true := by
  have key : ∀ l : List Ev, .obs .lowerClose ∉ l → l.foldl failedStep true = true := by
    intro l
    induction l with
    | nil => intro _; rfl
    | cons e l ih =>
      intro hl
      have e1 : failedStep true e = true := by
        cases e with
        | act a => cases a <;> first | rfl | (rename_i b; cases b <;> rfl)
        | obs o => cases o <;> first | rfl | exact absurd (by simp) hl
      rw [List.foldl_cons, e1]
      exact ih fun hm => hl (by simp [hm])
  unfold Spec.failed
  rw [List.foldl_append, List.foldl_cons]
  have : failedStep (pre.foldl failedStep false) (.act a) = true := by
    rcases ha with rfl | rfl <;> rfl
  rw [this]
  exact key post h

theorem range_split {i n : Nat} (h : i ≤ n) : ∃ l, List.range (n + 1) = List.range i ++ i :: l ∧ ∀ j ∈ l, i < j := by
  refine ⟨List.range' (i + 1) (n - i), ?_, fun j hj => by simp at hj; omega⟩
  have h1 : n + 1 = i + (n - i + 1) := by omega
  rw [h1, List.range_add, List.range_succ_eq_map]
  simp only [List.map_cons, Nat.add_zero, List.map_map, List.append_cancel_left_eq, List.cons.injEq, true_and]
  rw [List.range'_eq_map_range]
  apply List.map_congr_left
  intro a _
  simp only [Function.comp]
  omega

theorem weave_split {log : List Obs} {acts : List (Nat × Act)} {x : Nat × Act} (hx : x ∈ acts) (hp : x.1 ≤ log.length) :
    ∃ pre post, weave log acts = pre ++ .act x.2 :: post ∧ ∀ o, .obs o ∈ post → o ∈ log.drop x.1 := by
  obtain ⟨l, h1, h2⟩ := range_split hp
  obtain ⟨as, bs, h3⟩ := List.append_of_mem (List.mem_filter.mpr ⟨hx, decide_eq_true (Eq.refl x.1)⟩ : x ∈ acts.filter fun a => a.1 = x.1)
  have mem : ∀ j o, x.1 ≤ j → o ∈ log[j]?.toList → o ∈ log.drop x.1 := by
    intro j o hj ho
    rw [Option.mem_toList] at ho
    refine List.mem_iff_getElem?.mpr ⟨j - x.1, ?_⟩
    rw [List.getElem?_drop, show x.1 + (j - x.1) = j by omega]
    exact ho
  unfold weave
  rw [h1, List.flatMap_append, List.flatMap_cons, h3]
  simp only [List.map_append, List.map_cons, List.append_assoc, List.cons_append]
  rw [← List.append_assoc]
  refine ⟨_, _, rfl, fun o ho => ?_⟩
  simp only [List.mem_append, List.mem_map, reduceCtorEq, and_false, exists_false, false_or, List.mem_flatMap, Ev.obs.injEq, exists_eq_right] at ho
  rcases ho with ho | ⟨j, hj, ho⟩
  · exact mem _ o (Nat.le_refl _) ho
  · exact mem _ o (Nat.le_of_lt (h2 j hj)) ho

theorem Failed.history {s : Layer} (h : Failed s) (hp : ∀ x ∈ s.acts, x.1 ≤ s.log.length) : Spec.failed (Spec.history s) = true := by
  obtain ⟨x, h1, h2, h3⟩ := h
  obtain ⟨pre, post, h4, h5⟩ := weave_split h1 (hp x h1)
  unfold Spec.history
  rw [h4]
  exact failed_of h2 fun hm => h3 (h5 _ hm)

end ReceptionProof

/-- **C56.** Between calls, if the layer below is open, has announced a message and has not since said that there is nothing
left to read, then nobody waits for the secure layer: the layer below is busy sending, or the application has to make the
next call, to read or to release data. What is missing: the application can also be closed after a transmission failed, see
`C56_stalled_violation`. -/
theorem C56_not_stalled_partial (c : Cfg) (E : Env) (hE : Spec.ReadsInOrder c E) (s : Layer) (h : QuietWatched c E s true)
    (ho : Spec.belowOpen s.log = true) :
    Spec.lowerIsReady s.log = false ∨ (Spec.appOpen s.log = true ∧ Spec.hold s.log ≠ .free) ∨
      (Spec.appOpen s.log = false ∧ Spec.failed (Spec.history s) = true) := by
  have hq := h.quiet
  have hd := (DisciplineProof.atomic c E).observed hq.observed
  have e1 : Spec.belowOpen s.log = s.isOpen := by rw [RequestProof.belowOpen_eq, hd.isOpen]
  have e2 : Spec.appOpen s.log = s.upperOpen := by rw [RequestProof.appOpen_eq, hd.appOpen]
  have e3 := ((LowerTxProof.atomic c E).observed hq.observed).ready
  have hb : Blocked s true := (h.calm fun s hs => by
    rw [RequestProof.belowOpen_eq, ((DisciplineProof.atomic c E).observed hs).isOpen]).1 rfl
  rcases hb (e1 ▸ ho) rfl with hb | hb
  · exact .inl (e3 ▸ hb)
  · have hf : ReceptionProof.Failed s → Spec.failed (Spec.history s) = true := fun hf => hf.history (RefineProof.inv hq.observed).pos
    have full := (((DeliveryProof.atomic c E hE).proof (OpenProof.atomic c E)).observed hq.observed).2.full hb
    have hh := (((ReceptionProof.atomic c E).proof (.trivial c E)).quiet hq).2
    rw [e2]
    refine .inr ?_
    rcases hh hb with ⟨h1, h2⟩ | h1 | h1
    · cases hu : s.upperOpen with
      | true => exact .inl ⟨rfl, h1 _ rfl⟩
      | false => exact .inr ⟨rfl, hf (h2.resolve_left (by simp [hu]))⟩
    · exact .inr ⟨h1.1, hf h1.2⟩
    · exact absurd h1 full

/-! ### Executions with an observer -/

namespace Exec

/-- What the observer believes after a choice of the environment. -/
def watch : Config → Choice → Bool → Bool
  | ⟨.env s, []⟩, .event e, b => e.due s b
  | ⟨.code (.recv _ _), _⟩, .recv m, b => b && !m.isEmpty
  | _, _, b => b

/-- Execute a script with an observer. -/
def runWatched (c : Cfg) (E : EnvB) : Config → Bool → List Choice → Option (Config × Bool)
  | x, b, [] => some (x, b)
  | x, b, ch :: rest =>
    match next c E x ch with
    | none => none
    | some y => runWatched c E (settle c 4 y) (watch x ch b) rest

/-- The state and the belief of the observer in the end. -/
def finalWatched (c : Cfg) (E : EnvB) (h : InitiatorHandshake) (script : List Choice) : Option (Layer × Bool) :=
  (runWatched c E ⟨.env (Layer.new c h), []⟩ false script).bind fun x => (quiet x.1).map fun s => (s, x.2)

theorem watch_sound {c : Cfg} {E : EnvB} {P : InitiatorHandshake → Prop} {x y : Config} {ch : Choice} {b : Bool}
    (h : next c E x ch = some y) : WatchedStep c (E.only P) (x, b) (y, watch x ch b) := by
  unfold next at h
  split at h
  · split at h
    · cases h; exact .event _ _ _ ‹_›
    · cases h
  · cases h; exact .api _ _ _
  · split at h
    · cases h; exact .nestedApi _ _ _ _ _ ‹_›
    · cases h
  · cases h; exact .ret _ _ _ _
  · split at h
    · cases h; exact .ask _ _ _ _ ‹_›
    · cases h
  · split at h
    · cases h; exact .recv _ _ _ _ _ ‹_›
    · cases h
  · cases h

theorem settle_watched {c : Cfg} {E : Env} {b : Bool} : ∀ (n : Nat) {x : Config}, Watched c E (x, b) → Watched c E (settle c n x, b) := by
  intro n
  induction n with
  | zero => exact fun h => h
  | succ n ih =>
    intro x h
    unfold settle
    split
    · exact h
    · rename_i heq; cases heq; exact ih (h.step (.done _ _ _))
    · rename_i heq; cases heq; exact ih (h.step (.up _ _ _ _ _))
    · rename_i heq; cases heq; exact ih (h.step (.loop _ _ _ _))
    · exact h

theorem runWatched_sound {c : Cfg} {E : EnvB} {P : InitiatorHandshake → Prop} : ∀ (script : List Choice) {x : Config} {b : Bool}
    {y : Config × Bool}, Watched c (E.only P) (x, b) → runWatched c E x b script = some y → Watched c (E.only P) y := by
  intro script
  induction script with
  | nil => intro x b y hx h; cases h; exact hx
  | cons ch rest ih =>
    intro x b y hx h
    unfold runWatched at h
    split at h
    · cases h
    · rename_i z hz
      exact ih (settle_watched 4 (hx.step (watch_sound hz))) h

theorem exists_watched {α : Type} {c : Cfg} {E : EnvB} {h : InitiatorHandshake} (hc : h.Configured c.backend c.caps)
    {script : List Choice} {f : Layer → α} {a : α} {b : Bool}
    (hf : (finalWatched c E h script).map (fun x => (x.2, f x.1)) = some (b, a)) : ∃ s, QuietWatched c E.env s b ∧ f s = a := by
  rw [Option.map_eq_some_iff] at hf
  obtain ⟨⟨s, b'⟩, h1, h2⟩ := hf
  simp only [Prod.mk.injEq] at h2
  obtain ⟨rfl, h2⟩ := h2
  refine ⟨s, ?_, h2⟩
  unfold finalWatched at h1
  rw [Option.bind_eq_some_iff] at h1
  obtain ⟨x, hx, hq⟩ := h1
  have hw := runWatched_sound (P := fun _ => True) script (.init h hc trivial) hx
  rw [Option.map_eq_some_iff] at hq
  obtain ⟨s', hs, he⟩ := hq
  simp only [Prod.mk.injEq] at he
  obtain ⟨rfl, rfl⟩ := he
  obtain ⟨x, b'⟩ := x
  dsimp only at hs hw ⊢
  unfold quiet at hs
  split at hs
  · cases hs; exact hw
  · cases hs

end Exec

namespace LayerExample
open Exec

/-- Whether the application has to make the next call. -/
def awaited (s : Layer) : Bool := match Spec.hold s.log with | .free => false | _ => true

theorem awaited_iff (s : Layer) : awaited s = true ↔ Spec.hold s.log ≠ .free := by
  unfold awaited
  cases Spec.hold s.log <;> simp

/-- What C56 is about. -/
def reception (s : Layer) : Bool × Bool × Bool × Bool × Bool :=
  (Spec.belowOpen s.log, Spec.lowerIsReady s.log, Spec.appOpen s.log, awaited s, Spec.failed (Spec.history s))

/-- C56 applies: there are messages to read, the layer below is ready, and the application has not read the last one. -/
theorem C56_example_waits : ∃ s, QuietWatched res EnvB.tame.env s true ∧ Spec.belowOpen s.log = true ∧
    Spec.lowerIsReady s.log = true ∧ Spec.appOpen s.log = true ∧ Spec.hold s.log ≠ .free := by
  obtain ⟨s, h1, h2⟩ := Exec.exists_watched configured (c := res) (E := .tame) (h := hs) (script := resData) (f := reception)
    (a := (true, true, true, true, false)) (b := true) (by decide +kernel)
  simp only [reception, Prod.mk.injEq] at h2
  exact ⟨s, h1, h2.1, h2.2.1, h2.2.2.1, (awaited_iff s).mp h2.2.2.2.1⟩

/-- C56 applies: there are messages to read and the layer below is busy. -/
theorem C56_example_busy : ∃ s, QuietWatched res EnvB.tame.env s true ∧ Spec.belowOpen s.log = true ∧
    Spec.lowerIsReady s.log = false ∧ Spec.hold s.log = .free := by
  obtain ⟨s, h1, h2⟩ := Exec.exists_watched configured (c := res) (E := .tame) (h := hs) (script := resReply) (f := reception)
    (a := (true, false, false, false, false)) (b := true) (by decide +kernel)
  simp only [reception, Prod.mk.injEq] at h2
  refine ⟨s, h1, h2.1, h2.2.1, ?_⟩
  have h3 := mt (awaited_iff s).mpr (by simp [h2.2.2.2.1])
  simpa using h3

/-- The responder of the session with the low limit sends data. -/
def resData3L : List Choice := resAuth3L ++ [.api (.startTx [7]), .event .lowerTxReady, .recv [], ans 10, ans 10]
def data3L : Bytes := lastTx (final res .tame hs resData3L)
/-- The application has not yet read that data when its second message cannot be sent. -/
def iniStalled : List Choice := iniOpen3L ++ [.api (.startTx [1, 2, 3]), ans 10, .event .lowerRxReady, .event .lowerTxReady, .ret,
  .recv data3L, ans 10, ans 10, ans 10, .ret, .api (.startTx [4, 5, 6]), ans 10, .ret]

end LayerExample

open LayerExample in
/-- C56 is false of the code: there is a reachable state in which the layer below is open, ready and has a message to read,
and the application is closed: it is nobody's turn. Until an application that is closed reads, or the layer below closes,
nothing is read any more (`C33_no_read_before_consumed`), in particular no reply to a handshake. -/
theorem C56_stalled_violation : ∃ c s, QuietWatched c EnvB.tame.env s true ∧ Spec.ReadsInOrder c EnvB.tame.env ∧
    Spec.belowOpen s.log = true ∧ Spec.lowerIsReady s.log = true ∧ Spec.appOpen s.log = false ∧ Spec.hold s.log ≠ .free := by
  obtain ⟨s, h1, h2⟩ := Exec.exists_watched (configured : hs.Configured ini3.backend ini3.caps) (c := ini3) (E := .tame) (h := hs)
    (script := iniStalled) (f := reception) (a := (true, true, false, true, true)) (b := true) (by decide +kernel)
  simp only [reception, Prod.mk.injEq] at h2
  exact ⟨ini3, s, h1, .inl (Spec.readsAtOnce_of_noNestedRx _ EnvB.tame_noNestedRx), h2.1, h2.2.1, h2.2.2.1, (awaited_iff s).mp h2.2.2.2.1⟩

end SSP21.Crypto
