import Verif.AtomFields
/-
  A finer proof rule than `AtomicW` for invariants about the transmission of user data: what happens between two
  transfers of control is taken together, and there is a condition `J'` that holds between the notification of the
  application and the final `check_transmit` of a tx-ready event.
-/
namespace SSP21.Crypto

/-- Outcomes of `check_transmit` up to its callback, CryptoLayer.cpp:186-212. -/
inductive CheckStep (c : Cfg) (s : Layer) : Layer → Prop
  | nothing : canTransmit s = false → CheckStep c s s
  | sent (now : Int) (out : Formatted) (s' : Layer) : canTransmit s = true →
      (s.active.formatData now s.tx.remainder).2.2 = .ok out →
      NonceChange c (({ s with
        active := (s.active.formatData now s.tx.remainder).1
        acts := s.acts ++ [(s.log.length, .sent false out s.tx.remainder (s.active.formatData now s.tx.remainder).2.1)]
        tx := s.tx.beginTransmit (s.active.formatData now s.tx.remainder).2.1 } : Layer).sent out.frame) s' →
      CheckStep c s s'
  | failed (now : Int) (e : Err) : canTransmit s = true →
      (s.active.formatData now s.tx.remainder).2.2 = .error e →
      CheckStep c s ({ s with
        active := (s.active.formatData now s.tx.remainder).1.reset
        acts := s.acts ++ [(s.log.length, .dropped)] } : Layer).closing

/-- The state after the application's data has been taken. -/
def Layer.taken (s : Layer) (data : Bytes) : Layer :=
  { s.noted (.startTx data true) with tx := TxState.initialize s.tx data }

/-- Outcomes of `start_tx_from_upper` up to its callback, CryptoLayer.cpp:31-40. -/
inductive StartStep (c : Cfg) (s : Layer) : Layer → Prop
  | refused (data : Bytes) : isTxReady s = false → StartStep c s (s.noted (.startTx data false))
  | accepted (data : Bytes) (s' : Layer) : isTxReady s = true → CheckStep c (s.taken data) s' → StartStep c s s'

/-- A tx-ready event up to the notification of the application. -/
def NotifiedStep (c : Cfg) (s s' : Layer) : Prop :=
  ∃ m, TxReadyStep c s m ∧ s' = if s.tx.onTxComplete.2 then m.txNotified else m

/-- The events that do not start a transfer of user data: the layer below opens, or a timer expires. -/
inductive EventAtom (c : Cfg) (s : Layer) : Layer → Prop
  | openedResponder (h : ResponderHandshake) : c.role = .responder h → s.isOpen = false →
      EventAtom c s (({ s with isOpen := true } : Layer).noted .lowerOpen)
  | openedInitiator (params : Params) (limits : SessionLimits) (s' : Layer) : c.role = .initiator params limits →
      s.isOpen = false → HsReq c limits (({ s with isOpen := true } : Layer).noted .lowerOpen) s' →
      EventAtom c s s'
  | response (params : Params) (limits : SessionLimits) (i : Ini) : c.role = .initiator params limits →
      EventAtom c s { s with ini := i }
  | retry (params : Params) (limits : SessionLimits) (i : Ini) (s' : Layer) : c.role = .initiator params limits →
      HsReq c limits { s with ini := i } s' → EventAtom c s s'

/-- The obligations. -/
structure AtomicF (c : Cfg) (E : Env) (P I J J' : Layer → Prop) (R L : Layer → Layer → Prop) : Prop where
  refl : ∀ s, R s s
  trans : ∀ s t u, R s t → R t u → R s u
  transL : ∀ s t u, L s t → L t u → L s u
  sub : ∀ s t, L s s → R s t → L s t
  reflL : ∀ s t, L s t → L t t
  start : ∀ s, P s → I s → J s → L s s
  start' : ∀ s, P s → I s → J' s → L s s
  read : ∀ s, E.nested s .startRx → P s → P s.reading → I s → s.payloadLen ≠ 0 → s.rxFlag = false → I s.reading ∧ R s s.reading
  nested : ∀ s t, E.nested s .startRx → P s → I s → s.payloadLen = 0 ∨ s.rxFlag = true → L s s ∧ (L s t → R s t)
  init : ∀ h, h.Configured c.backend c.caps → E.config h → I (Layer.new c h) ∧ J (Layer.new c h)
  request : ∀ s s', P s → P s' → I s → StartStep c s s' → I s' ∧ R s s'
  check : ∀ s s', P s → P s' → I s → J' s → CheckStep c s s' → I s' ∧ J s'
  rx : ∀ s s', P s → P s' → I s → L s s → RxAtom c E s s' → (s'.payloadLen = 0 ∨ s'.payloadLen = s.payloadLen) →
    I s' ∧ (s'.inAuth = s.inAuth → (s'.lowerReady = s.lowerReady ∨ s'.stats.numSuccess = s.stats.numSuccess) → L s s')
  respEnd : ∀ o s0 s, P o → P s → I o → L o o → I s → RespOpened c E o s0 → R s0 s → L o s
  data : ∀ s m w msg now scratch payload s', P s → P s' → I s → L s s → Receives E s m → SessionData.read m = .ok msg →
    msg.metadata.nonce ≠ 0 → (s.active.validateData s.stats msg now c.bufLen).2.2 = .ok payload → payload ≠ [] →
    NonceChange c { (s.received m w).dataValidated c msg now scratch with payloadLen := payload.length } s' → I s'
  tail : ∀ o s s', P o → P s → P s' → I o → L o o → I s → RxTail c E R o s s' →
    I s' ∧ ((s'.inAuth = false ∨ s'.inAuth = o.inAuth ∨ ∃ h, c.role = .responder h) → L o s')
  stay : ∀ s t, P s → I s → J s → L s t → J t
  stay' : ∀ s t, P s → I s → J' s → L s t → J' t
  event : ∀ s s', P s → P s' → I s → J s → EventAtom c s s' → (s'.lowerReady = true → s.lowerReady = true) → I s' ∧ J s'
  ready : ∀ s b, P s → P (s.readied b) → I s → J s → s.isOpen = false → I (s.readied b) ∧ J (s.readied b)
  notified : ∀ s s', P s → P s' → I s → J s → s.isOpen = true → NotifiedStep c s s' → I s' ∧ J' s'
  closing : ∀ s b, P s → P ((s.readied b).lowerClosing c) → I s → J s → s.isOpen = true →
    I ((s.readied b).lowerClosing c)
  closed : ∀ s0 b s, P s0 → P s → P (s.closedDown c) → I s0 → J s0 → s0.isOpen = true →
    I s → R ((s0.readied b).lowerClosing c) s →
    I (s.closedDown c) ∧ J (s.closedDown c)

section
variable {c : Cfg} {E : Env} {I : Layer → Prop} {R L : Layer → Layer → Prop}

/-- `check_transmit`. -/
theorem wpf_checkTransmit (refl : ∀ s, R s s) {Q : Unit → Layer → Prop} {s : Layer}
    (h : ∀ s', CheckStep c s s' → I s' ∧ ∀ s'', I s'' → R s' s'' → Q () s'') :
    M.wp E I R L (checkTransmit c) Q s := by
  unfold checkTransmit
  simp only [wp_bind, wp_get, wp_ite, wp_pure, wp_getTime, wp_modify]
  refine ⟨fun hc => ?_, fun hc f hf => ?_⟩
  · have h1 := h s (.nothing (by simpa using hc))
    exact h1.2 s h1.1 (refl s)
  have hc' : canTransmit s = true := by simpa using hc
  split
  · rename_i e he
    have h1 := h _ (.failed f.now e hc' he)
    simp only [wp_bind, wp_modify, wp_act]
    exact wp_upperOnClose refl h1.1 h1.2
  · rename_i out ho
    simp only [wp_bind, wp_modify, wp_lowerStartTx, wp_get, wp_act]
    refine wp_nonceChange (s := (({ s with
        active := (s.active.formatData f.now s.tx.remainder).1
        acts := s.acts ++ [(s.log.length, .sent false out s.tx.remainder (s.active.formatData f.now s.tx.remainder).2.1)]
        tx := s.tx.beginTransmit (s.active.formatData f.now s.tx.remainder).2.1 } : Layer).sent out.frame))
      ?_
    intro s' hs'
    have h1 := h s' (.sent f.now out s' hc' ho hs')
    exact h1.2 s' h1.1 (refl s')

/-- `start_tx_from_upper`. -/
theorem wpf_startTx (refl : ∀ s, R s s) {data : Bytes} {Q : Unit → Layer → Prop} {s : Layer}
    (h : ∀ s', StartStep c s s' → I s' ∧ ∀ s'', I s'' → R s' s'' → Q () s'') :
    M.wp E I R L (startTx c data) Q s := by
  unfold startTx
  simp only [wp_bind, wp_get, wp_note, wp_ite, wp_pure, wp_modify]
  refine ⟨fun hr => ?_, fun hr => ?_⟩
  · rw [hr]
    exact wpf_checkTransmit refl fun s' hs' => h s' (.accepted data s' hr hs')
  · have hr' : isTxReady s = false := by simpa using hr
    rw [hr']
    have h1 := h _ (.refused data hr')
    exact h1.2 _ h1.1 (refl _)

end

/-- An invariant preserved by all segments holds in every execution. -/
theorem AtomicF.proof {c : Cfg} {E : Env} {P I J J' : Layer → Prop} {R L : Layer → Layer → Prop}
    (a : AtomicF c E P I J J' R L) (p1 : Atomic1 c E P) : Proof c E (fun s => P s ∧ I s) J R L := by
  have p := p1.weak (.trivial c E)
  have checkP : ∀ s s', P s → CheckStep c s s' → P s' := by
    intro s s' hp h
    cases h with
    | nothing => exact hp
    | sent now out _ h1 h2 h3 => exact (p.tx s s' trivial trivial hp (.dataSent now out s' h1 h2 h3)).1
    | failed now e h1 h2 => exact (p.tx s _ trivial trivial hp (.dataFailed now e h1 h2)).1
  have startP : ∀ s s', P s → StartStep c s s' → P s' := by
    intro s s' hp h
    cases h with
    | refused d h1 => exact (p.tx s _ trivial trivial hp (.startTxRefused d h1)).1
    | accepted d _ h1 h2 => exact checkP _ _ (p.tx s _ trivial trivial hp (.startTxAccepted d h1)).1 h2
  have request : ∀ s s', P s ∧ I s → StartStep c s s' → (P s' ∧ I s') ∧ R s s' := by
    intro s s' h ha
    have h1 := startP s s' h.1 ha
    have h2 := a.request s s' h.1 h1 h.2 ha
    exact ⟨⟨h1, h2.1⟩, h2.2⟩
  have check : ∀ s s', P s ∧ I s → J' s → CheckStep c s s' → (P s' ∧ I s') ∧ J s' := by
    intro s s' h hj ha
    have h1 := checkP s s' h.1 ha
    have h2 := a.check s s' h.1 h1 h.2 hj ha
    exact ⟨⟨h1, h2.1⟩, h2.2⟩
  have rx : ∀ s s', P s ∧ I s → L s s → RxAtom c E s s' → (s'.payloadLen = 0 ∨ s'.payloadLen = s.payloadLen) →
      (P s' ∧ I s') ∧ (s'.inAuth = s.inAuth → (s'.lowerReady = s.lowerReady ∨ s'.stats.numSuccess = s.stats.numSuccess) → L s s') := by
    intro s s' h hll ha hl
    have h1 := (p.rx s s' True.intro True.intro h.1 True.intro ha hl).1
    have h2 := a.rx s s' h.1 h1 h.2 hll ha hl
    exact ⟨⟨h1, h2.1⟩, h2.2⟩
  have respEnd : ∀ o s0 s, P o ∧ I o → L o o → P s ∧ I s → RespOpened c E o s0 → R s0 s → L o s :=
    fun o s0 s h hl h' hr hR => a.respEnd o s0 s h.1 h'.1 h.2 hl h'.2 hr hR
  have data : ∀ s m w msg now scratch payload s', P s ∧ I s → L s s → Receives E s m → SessionData.read m = .ok msg →
      msg.metadata.nonce ≠ 0 → (s.active.validateData s.stats msg now c.bufLen).2.2 = .ok payload → payload ≠ [] →
      NonceChange c { (s.received m w).dataValidated c msg now scratch with payloadLen := payload.length } s' →
      P s' ∧ I s' := by
    intro s m w msg now scratch payload s' h hll h1 h2 h3 h4 h5 h6
    have hp := p.data s m w msg now scratch payload s' True.intro True.intro h.1 True.intro h1 h2 h3 h4 h5 h6
    exact ⟨hp, a.data s m w msg now scratch payload s' h.1 hp h.2 hll h1 h2 h3 h4 h5 h6⟩
  have tail : ∀ o s s', P o ∧ I o → L o o → P s ∧ I s → RxTail c E R o s s' → (P s' ∧ I s') ∧
      ((s'.inAuth = false ∨ s'.inAuth = o.inAuth ∨ ∃ h, c.role = .responder h) → L o s') := by
    intro o s s' ho hll h ha
    have h1 := (p.tail o s s' True.intro True.intro True.intro ho.1 True.intro h.1 (ha.mono fun _ _ _ => True.intro)).1
    have h2 := a.tail o s s' ho.1 h.1 h1 ho.2 hll h.2 ha
    exact ⟨⟨h1, h2.1⟩, h2.2⟩
  have hidle : ∀ s : Layer, s.tx.onTxComplete.2 = true → s.tx.onTxComplete.1.isIdle = true := by
    intro s
    unfold TxState.onTxComplete TxState.isIdle
    split <;> simp
  have readyP : ∀ s s', P s → s.isOpen = true → TxReadyStep c s s' → P s' ∧ s'.tx = s.tx.onTxComplete.1 := by
    intro s s' hp ho hs
    refine ⟨(p.txReady s s' trivial trivial hp trivial ho hs).1, ?_⟩
    cases hs with
    | attempt params limits _ hr hq hs => rw [hs.tx]
    | idle _ => rfl
  have notified : ∀ s s', P s ∧ I s → J s → s.isOpen = true → NotifiedStep c s s' → (P s' ∧ I s') ∧ J' s' := by
    rintro s s' h hj ho ⟨m, hm, hs⟩
    obtain ⟨hp, ht⟩ := readyP s m h.1 ho hm
    have hp' : P s' := by
      subst hs
      split
      · rename_i hb
        refine (p.top m _ trivial trivial hp trivial (.txNotified ?_) ?_).1
        · rw [ht]; exact hidle s hb
        · unfold Layer.txNotified; split <;> exact id
      · exact hp
    have h2 := a.notified s s' h.1 hp' h.2 hj ho ⟨m, hm, hs⟩
    exact ⟨⟨hp', h2.1⟩, h2.2⟩
  exact {
    refl := a.refl
    trans := a.trans
    transL := a.transL
    reflL := a.reflL
    init := fun h hc he => ⟨⟨(p.init h hc he).1, (a.init h hc he).1⟩, (a.init h hc he).2⟩
    body := fun s hi hll => wp_tryReadOne a.refl a.transL a.sub a.reflL rx respEnd data tail hi hll
    nestedApi := by
      intro ap s ha hi
      cases ap with
      | startTx d =>
        refine wpf_startTx (I := fun s => P s ∧ I s) a.refl fun s' hs' => ?_
        have h1 := request s s' hi hs'
        exact ⟨h1.1, fun s'' hi' hr => ⟨hi', a.trans _ _ _ h1.2 hr⟩⟩
      | startRx =>
        by_cases hc : s.payloadLen ≠ 0 ∧ s.rxFlag = false
        · have h1 := (p1.rx s _ True.intro True.intro hi.1 (.readData hc.1 hc.2)).1
          have h2 := a.read s ha hi.1 h1 hi.2 hc.1 hc.2
          exact wp_reading hc.1 hc.2 ⟨⟨h1, h2.1⟩, h2.2⟩
        · have hc' : s.payloadLen = 0 ∨ s.rxFlag = true := by
            by_cases h : s.payloadLen = 0
            · exact .inl h
            · exact .inr (by simpa [h] using hc)
          exact M.wp_mono (fun _ _ h => ⟨h.1, (a.nested s _ ha hi.1 hi.2 hc').2 h.2⟩)
            (wp_startRx a.refl a.transL a.sub a.reflL rx hi (a.nested s s ha hi.1 hi.2 hc').1)
    api := by
      intro ap s hi hj
      cases ap with
      | startTx d =>
        refine wpf_startTx (I := fun s => P s ∧ I s) a.refl fun s' hs' => ?_
        have h1 := request s s' hi hs'
        exact ⟨h1.1, fun s'' hi' hr => ⟨hi', a.stay _ _ hi.1 hi.2 hj
          (a.sub _ _ (a.start _ hi.1 hi.2 hj) (a.trans _ _ _ h1.2 hr))⟩⟩
      | startRx =>
        exact M.wp_mono (fun _ _ h => ⟨h.1, a.stay _ _ hi.1 hi.2 hj h.2⟩)
          (wp_startRx a.refl a.transL a.sub a.reflL rx hi (a.start _ hi.1 hi.2 hj))
    event := by
      intro e s he hi hj
      have top : ∀ s s', P s ∧ I s → J s → TopAtom c s s' → EventAtom c s s' →
          (s'.lowerReady = true → s.lowerReady = true) → (P s' ∧ I s') ∧ J s' := by
        intro s s' h hj ha hb hl
        have h1 := (p.top s s' True.intro True.intro h.1 True.intro ha hl).1
        have h2 := a.event s s' h.1 h1 h.2 hj hb hl
        exact ⟨⟨h1, h2.1⟩, h2.2⟩
      have ready : ∀ s b, P s ∧ I s → J s → s.isOpen = false → (P (s.readied b) ∧ I (s.readied b)) ∧ J (s.readied b) := by
        intro s b h hj ho
        have h1 := (p.ready s b True.intro True.intro h.1 True.intro ho).1
        have h2 := a.ready s b h.1 h1 h.2 hj ho
        exact ⟨⟨h1, h2.1⟩, h2.2⟩
      cases e with
      | lowerOpen b =>
        show M.wp _ _ _ _ _ _ _
        simp only [Event.run, onLowerOpen, wp_bind, wp_get]
        rw [wp_ite]
        refine ⟨fun ho => ?_, fun ho => ?_⟩
        · simp only [wp_pure, wp_bind, wp_get]
          rw [wp_ite]
          exact ⟨fun _ => ⟨hi, hj⟩, fun h => absurd ho h⟩
        have ho' : s.isOpen = false := by simpa using ho
        have h0 := ready s b hi hj ho'
        simp only [wp_bind, wp_note, wp_modify, wp_get]
        rw [wp_ite]
        refine ⟨fun h => absurd h ho, fun _ => ?_⟩
        simp only [wp_bind, wp_note, wp_modify]
        split
        · rename_i params limits hr
          exact wp_onHandshakeRequired fun s' hs' => top _ s' h0.1 h0.2
            (.openedInitiator params limits s' hr ho' hs') (.openedInitiator params limits s' hr ho' hs') hs'.lowerReady_le
        · rename_i h hr
          exact top _ _ h0.1 h0.2 (.openedResponder h hr ho') (.openedResponder h hr ho') id
      | lowerClose b =>
        show M.wp _ _ _ _ _ _ _
        simp only [Event.run, onLowerClose, wp_bind, wp_modify, wp_get, wp_ite, wp_pure, wp_note]
        refine ⟨fun ho => ?_, fun ho => ready s b hi hj (by simpa using ho)⟩
        have p1' := p.closing s b True.intro True.intro hi.1 True.intro ho
        have h1 := a.closing _ b hi.1 p1' hi.2 hj ho
        have fin : ∀ (t : Layer), t.closing = Layer.lowerClosing c (s.readied b) →
            M.wp E (fun s => P s ∧ I s) R L upperOnClose
              (fun _ s' => (P (s'.closedDown c) ∧ I (s'.closedDown c)) ∧ J (s'.closedDown c)) t := by
          intro t ht
          apply wp_upperOnClose a.refl
          · rw [ht]; exact ⟨p1', h1⟩
          · intro s' hi' hr'
            rw [ht] at hr'
            have h3 := (p.closed s b s' True.intro True.intro True.intro hi.1 True.intro ho hi'.1 True.intro).1
            have h4 := a.closed s b s' hi.1 hi'.1 h3 hi.2 hj ho hi'.2 hr'
            exact ⟨⟨h3, h4.1⟩, h4.2⟩
        unfold resetStateOnClose
        split
        · rename_i params limits hr
          simp only [wp_modifyIni, resetBoth, wp_modify]
          apply fin
          unfold Layer.lowerClosing
          rw [hr]
          rfl
        · rename_i h hr
          simp only [resetBoth, wp_modify]
          apply fin
          unfold Layer.lowerClosing
          rw [hr]
          rfl
      | lowerTxReady =>
        show M.wp _ _ _ _ _ _ _
        simp only [Event.run, onLowerTxReady, wp_bind, wp_note, wp_modify, wp_get, wp_ite, wp_pure]
        refine ⟨fun ho => ?_, fun ho => ready s true hi hj (by simpa using ho)⟩
        have ho' : s.isOpen = true := ho
        have fin : ∀ t, P t ∧ I t → J' t → M.wp E (fun s => P s ∧ I s) R L tryRead
            (fun _ s' => M.wp E (fun s => P s ∧ I s) R L (checkTransmit c) (fun _ s' => (P s' ∧ I s') ∧ J s') s') t := by
          intro t ht htj
          simp only [wp_tryRead]
          refine ⟨ht, a.start' _ ht.1 ht.2 htj, fun s' hi' hl' => ?_⟩
          have hj' := a.stay' _ _ ht.1 ht.2 htj hl'
          refine wpf_checkTransmit (I := fun s => P s ∧ I s) a.refl fun s'' hs'' => ?_
          have h3 := check _ _ hi' hj' hs''
          exact ⟨h3.1, fun u hu hr => ⟨hu, a.stay _ _ h3.1.1 h3.1.2 h3.2 (a.sub _ _ (a.start _ h3.1.1 h3.1.2 h3.2) hr)⟩⟩
        have fin2 : ∀ m, TxReadyStep c s m →
            (s.tx.onTxComplete.2 = true → M.wp E (fun s => P s ∧ I s) R L upperOnTxReady (fun _ s' => M.wp E (fun s => P s ∧ I s) R L tryRead
              (fun _ s' => M.wp E (fun s => P s ∧ I s) R L (checkTransmit c) (fun _ s' => (P s' ∧ I s') ∧ J s') s') s') m) ∧
            (¬ s.tx.onTxComplete.2 = true → M.wp E (fun s => P s ∧ I s) R L tryRead
              (fun _ s' => M.wp E (fun s => P s ∧ I s) R L (checkTransmit c) (fun _ s' => (P s' ∧ I s') ∧ J s') s') m) := by
          intro m hm
          have h2 := notified s _ hi hj ho' ⟨m, hm, rfl⟩
          refine ⟨fun hb => ?_, fun hb => ?_⟩
          · rw [if_pos hb] at h2
            apply wp_upperOnTxReady a.refl h2.1
            exact fun s' hi' hr' => fin s' hi' (a.stay' _ _ h2.1.1 h2.1.2 h2.2
              (a.sub _ _ (a.start' _ h2.1.1 h2.1.2 h2.2) hr'))
          · rw [if_neg hb] at h2
            exact fin m h2.1 h2.2
        unfold onPreTxReady
        split
        · rename_i params limits hr
          simp only [wp_bind, wp_get, wp_ite, wp_pure]
          refine ⟨fun hq => ?_, fun hq => ?_⟩
          · apply wp_onHandshakeRequired
            intro s' hs'
            exact fin2 _ (.attempt params limits s' hr hq hs')
          · exact fin2 _ (.idle fun _ _ _ => by simpa using hq)
        · rename_i h hr
          exact fin2 _ (.idle fun _ _ hr' => by rw [hr] at hr'; cases hr')
      | lowerRxReady =>
        show M.wp _ _ _ _ _ _ _
        simp only [Event.run, onLowerRxReady, wp_bind, wp_get, wp_ite, wp_pure, wp_tryRead]
        exact ⟨fun _ => ⟨hi, a.start _ hi.1 hi.2 hj, fun s' hi' hl' => ⟨hi', a.stay _ _ hi.1 hi.2 hj hl'⟩⟩, fun _ => ⟨hi, hj⟩⟩
      | expiry e =>
        show M.wp _ _ _ _ _ _ _
        simp only [Event.run, onExpiry]
        split
        · exact ⟨hi, hj⟩
        · rename_i params limits hr
          cases e with
          | response =>
            simp only [wp_bind, wp_modifyIni]
            exact wp_onResponseTimeout (top s _ hi hj (.responseTimeout params limits hr he _ rfl _ rfl)
              (.response params limits _ hr) id)
          | retry =>
            simp only [wp_bind, wp_modifyIni]
            exact wp_onRetryTimeout fun s' hs' => top s s' hi hj (.retryTimeout params limits s' hr he _ rfl hs')
              (.retry params limits _ s' hr hs') hs'.lowerReady_le
          | session =>
            simp only [wp_bind, wp_modifyIni]
            exact wp_onHandshakeRequired fun s' hs' => top s s' hi hj (.sessionTimeout params limits s' hr he hs')
              (.retry params limits _ s' hr hs') hs'.lowerReady_le
          | orphanResponse =>
            simp only [wp_bind, wp_modifyIni]
            exact wp_onResponseTimeout (top s _ hi hj (.orphanResponse params limits hr he _ rfl _ rfl)
              (.response params limits _ hr) id)
          | orphanRetry =>
            simp only [wp_bind, wp_modifyIni]
            exact wp_onRetryTimeout fun s' hs' => top s s' hi hj (.orphanRetry params limits s' hr he _ rfl hs')
              (.retry params limits _ s' hr hs') hs'.lowerReady_le
          | orphanSession =>
            simp only [wp_bind, wp_modifyIni]
            exact wp_onHandshakeRequired fun s' hs' => top s s' hi hj (.orphanSession params limits s' hr he hs')
              (.retry params limits _ s' hr hs') hs'.lowerReady_le }

end SSP21.Crypto
