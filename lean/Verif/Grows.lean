import Verif.AtomFields
/-
  The log only grows, and which observations each kind of segment may append.
-/
namespace SSP21.Crypto

/-- The log of `t` is that of `s` and more observations that satisfy `p`. -/
def GrowsBy (p : Obs → Bool) (s t : Layer) : Prop := ∃ extra, t.log = s.log ++ extra ∧ ∀ o ∈ extra, p o = true

/-- `p` accepts what segments may append unconditionally. -/
structure Basic (p : Obs → Bool) : Prop where
  recv : ∀ m, p (.recv m) = true
  lowerTx : ∀ f b, p (.lowerTx f b) = true
  keyUsed : ∀ i, p (.keyUsed i) = true
  established : ∀ k a q, p (.established k a q) = true
  rxCall : p .rxCall = true
  nothing : p (.startRx []) = true
  refused : ∀ d, p (.startTx d false) = true
  closed : p (.up .closed) = true

section
variable {p : Obs → Bool}

theorem GrowsBy.refl (s : Layer) : GrowsBy p s s := ⟨[], by simp, by simp⟩
theorem GrowsBy.of_eq {s t : Layer} (h : t.log = s.log) : GrowsBy p s t := ⟨[], by simp [h], by simp⟩
theorem GrowsBy.trans {s t u : Layer} (h : GrowsBy p s t) (h' : GrowsBy p t u) : GrowsBy p s u := by
  obtain ⟨a, h1, h2⟩ := h
  obtain ⟨b, h3, h4⟩ := h'
  refine ⟨a ++ b, by rw [h3, h1, List.append_assoc], ?_⟩
  intro o ho
  rcases List.mem_append.mp ho with ho | ho
  · exact h2 o ho
  · exact h4 o ho
theorem GrowsBy.one {s t : Layer} (o : Obs) (h : t.log = s.log ++ [o]) (ho : p o = true) : GrowsBy p s t :=
  ⟨[o], h, by simpa using ho⟩
theorem GrowsBy.mono {q : Obs → Bool} {s t : Layer} (h : GrowsBy p s t) (hq : ∀ o, p o = true → q o = true) :
    GrowsBy q s t := by
  obtain ⟨e, h1, h2⟩ := h
  exact ⟨e, h1, fun o ho => hq o (h2 o ho)⟩

section
variable {s t : Layer} (h : GrowsBy p s t) (hb : Basic p)
include h
theorem GrowsBy.to_eq {u : Layer} (hu : u.log = t.log) : GrowsBy p s u := h.trans (.of_eq hu)
theorem GrowsBy.to_opening (ho : p (.up .opened) = true) : GrowsBy p s t.opening := by
  refine h.trans ?_
  unfold Layer.opening; split
  · exact .refl _
  · exact .one (.up .opened) rfl ho
theorem GrowsBy.to_rx (ho : t.upperOpen = true → p (.up .rxReady) = true) : GrowsBy p s t.rxNotified := by
  refine h.trans ?_
  unfold Layer.rxNotified; split
  · exact .one (.up .rxReady) rfl (ho ‹_›)
  · exact .refl _
theorem GrowsBy.to_tx (ho : t.upperOpen = true → p (.up .txReady) = true) : GrowsBy p s t.txNotified := by
  refine h.trans ?_
  unfold Layer.txNotified; split
  · exact .one (.up .txReady) rfl (ho ‹_›)
  · exact .refl _
include hb
theorem GrowsBy.to_received (m w : Bytes) : GrowsBy p s (t.received m w) := h.trans (.one (.recv m) rfl (hb.recv m))
theorem GrowsBy.to_sent (f : Bytes) : GrowsBy p s (t.sent f) := h.trans (.one (.lowerTx f t.lowerReady) rfl (hb.lowerTx _ _))
theorem GrowsBy.to_closing : GrowsBy p s t.closing := by
  refine h.trans ?_
  unfold Layer.closing; split
  · exact .one (.up .closed) rfl hb.closed
  · exact .refl _
theorem GrowsBy.to_key (o : Option (UInt64 × Bytes)) : GrowsBy p s (t.keyNoted o) := by
  refine h.trans ?_
  cases o
  · exact .refl _
  · exact .one _ rfl (hb.keyUsed _)
theorem GrowsBy.to_est (n : Nat) : GrowsBy p s (t.establishedIf n) := by
  refine h.trans ?_
  unfold Layer.establishedIf; split
  · exact .one _ rfl (hb.established _ _ _)
  · exact .refl _
end

variable (hb : Basic p)
include hb

theorem HsReq.growsBy {c : Cfg} {limits : SessionLimits} {s t : Layer} (h : HsReq c limits s t) : GrowsBy p s t := by
  have hk : ∀ (o : Option (UInt64 × Bytes)) (x : Obs), x ∈ keyObs o → p x = true := by
    intro o x hx
    cases o <;> simp [keyObs] at hx
    subst hx; exact hb.keyUsed _
  cases h with
  | sent _ f _ _ w =>
    refine ⟨keyObs (s.ini.handshake.usedRecord f.record) ++ [.lowerTx (c.fw.wrap w) s.lowerReady],
      by exact List.append_assoc .., ?_⟩
    intro o ho
    rcases List.mem_append.mp ho with ho | ho
    · exact hk _ _ ho
    · rw [List.mem_singleton.mp ho]; exact hb.lowerTx _ _
  | badConfig f => exact ⟨_, rfl, hk _⟩
  | _ => exact .of_eq rfl

theorem NonceChange.growsBy {c : Cfg} {s t : Layer} (h : NonceChange c s t) : GrowsBy p s t := by
  rcases h with ⟨rfl, _⟩ | ⟨_, _, _, _, h⟩
  · exact .refl _
  · exact GrowsBy.trans (.of_eq rfl) (h.growsBy hb)

theorem TxAtom.growsBy {c : Cfg} {s t : Layer} (h : TxAtom c s t)
    (ht : isTxReady s = true → ∀ d, p (.startTx d true) = true) : GrowsBy p s t := by
  cases h with
  | nonceTrigger params limits _ _ _ hq => exact GrowsBy.trans (.of_eq rfl) (hq.growsBy hb)
  | startTxRefused d => exact .one _ rfl (hb.refused d)
  | startTxAccepted d hr => exact .one (.startTx d true) rfl (ht hr d)
  | dataSent now out =>
    refine GrowsBy.to_sent ?_ hb _
    exact .of_eq rfl
  | dataFailed =>
    refine GrowsBy.to_closing ?_ hb
    exact .of_eq rfl

theorem RxAtom.growsBy {c : Cfg} {E : Env} {s t : Layer} (h : RxAtom c E s t)
    (ho : s.pending.valid = true → p (.up .opened) = true)
    (hd : s.payloadLen ≠ 0 → p (.startRx s.payload) = true) : GrowsBy p s t := by
  have hrecv : ∀ m w, GrowsBy p s (s.received m w) := fun m w => (GrowsBy.refl s).to_received hb m w
  have hval : ∀ (msg : SessionData) (now : Int) (payload : Bytes),
      (s.pending.validateAuth s.stats msg now c.bufLen).2.2 = .ok payload → s.pending.valid = true := by
    intro msg now payload hv
    unfold Session.validateAuth Session.validateWith at hv
    cases hs : s.pending.valid with
    | true => rfl
    | false => simp [hs] at hv
  cases h with
  | ignored m w => exact hrecv m w
  | errorReply m w hh e frame => exact (hrecv m w).to_sent hb _
  | requestRefused m w hh msg now f e _ _ _ _ _ s1 h1 _ h2 =>
    have : GrowsBy p s s1 := by
      subst h1
      refine GrowsBy.to_key ?_ hb _
      exact (hrecv m w).to_eq rfl
    rcases h2 with rfl | ⟨fr, _, rfl⟩
    · exact this
    · exact this.to_sent hb _
  | requestAccepted m w hh msg now f frame _ _ _ _ _ _ _ h1 =>
    subst h1
    refine GrowsBy.to_sent (GrowsBy.to_est (GrowsBy.to_key ?_ hb _) hb _) hb _
    exact (hrecv m w).to_eq rfl
  | replyRefused m w params limits msg now _ _ _ _ _ _ h1 =>
    subst h1; exact (hrecv m w).to_eq rfl
  | replyAuthFailed m w params limits msg now now' e _ _ _ _ _ s1 h1 _ _ h2 =>
    have : GrowsBy p s s1 := by
      subst h1
      refine GrowsBy.to_est ?_ hb _
      exact (hrecv m w).to_eq rfl
    subst h2
    exact this.to_eq (by simp)
  | replyAccepted m w params limits msg now now' out _ _ _ _ _ s1 h1 _ s2 h2 _ h3 =>
    have : GrowsBy p s s1 := by
      subst h1
      refine GrowsBy.to_est ?_ hb _
      exact (hrecv m w).to_eq rfl
    have h4 : GrowsBy p s s2 := by
      subst h2
      refine GrowsBy.to_sent ?_ hb _
      exact this.to_eq (by simp)
    subst h3
    exact h4.to_eq rfl
  | replyError m w => exact (hrecv m w).to_eq rfl
  | initAuthRefused m w params limits msg now scratch e _ _ _ _ _ _ _ h1 =>
    subst h1; exact (hrecv m w).to_eq rfl
  | initAuthOk m w params limits msg now scratch payload _ _ _ _ _ hp =>
    unfold Layer.initAuthOk
    refine GrowsBy.to_opening ?_ (ho (hval _ _ _ hp))
    exact (hrecv m w).to_eq rfl
  | respAuthRefused m w => exact (hrecv m w).to_eq rfl
  | respAuthFailed m w hh msg now now' scratch payload e _ _ _ _ _ _ s1 h1 =>
    subst h1; exact (hrecv m w).to_eq (by simp)
  | respAuthOk m w hh msg now now' scratch payload out _ _ _ _ hv _ s1 h1 =>
    subst h1
    refine GrowsBy.to_opening (GrowsBy.to_sent ?_ hb _) (ho hv)
    exact (hrecv m w).to_eq (by simp)
  | dataRefused m w => exact (hrecv m w).to_eq rfl
  | dataOk m w => exact (hrecv m w).to_eq rfl
  | readEmpty => exact .of_eq rfl
  | discarded => exact .one .rxCall rfl hb.rxCall
  | asked => exact .one _ rfl hb.rxCall
  | readNothing => exact .one _ rfl hb.nothing
  | readData hp => exact ⟨[.rxCall, .startRx s.payload], by simp [Layer.noted], by simp [hb.rxCall, hd hp]⟩

omit hb in
theorem RxTail.growsBy {c : Cfg} {E : Env} {R : Layer → Layer → Prop} {o s t : Layer} (h : RxTail c E R o s t)
    (hr : s.upperOpen = true → p (.up .rxReady) = true) : GrowsBy p s t := by
  cases h with
  | initAuthPayload =>
    refine GrowsBy.to_rx ?_ hr
    exact .of_eq rfl
  | dataNotified => exact (GrowsBy.refl s).to_rx hr
  | initAuthEnd => exact .of_eq rfl
  | respAuthPayload =>
    refine GrowsBy.to_rx ?_ hr
    exact .of_eq rfl

theorem TopAtom.growsBy {c : Cfg} {s t : Layer} (h : TopAtom c s t) (hr : ∀ b, p (.lowerReady b) = true)
    (ho : p .lowerOpen = true) (ht : s.upperOpen = true → p (.up .txReady) = true) : GrowsBy p s t := by
  cases h with
  | ready b => exact .one _ rfl (hr b)
  | openedResponder _ _ _ => exact .one _ rfl ho
  | openedInitiator params limits _ _ _ hq => exact GrowsBy.trans (.one .lowerOpen rfl ho) (hq.growsBy hb)
  | txComplete => exact .of_eq rfl
  | preTxReady params limits _ _ _ _ hq => exact hq.growsBy hb
  | txNotified => exact (GrowsBy.refl s).to_tx ht
  | responseTimeout => exact .of_eq rfl
  | retryTimeout params limits _ _ _ i _ hq => exact GrowsBy.trans (.of_eq rfl) (hq.growsBy hb)
  | sessionTimeout params limits _ _ _ hq => exact GrowsBy.trans (.of_eq rfl) (hq.growsBy hb)
  | orphanResponse => exact .of_eq rfl
  | orphanRetry params limits _ _ _ i _ hq => exact GrowsBy.trans (.of_eq rfl) (hq.growsBy hb)
  | orphanSession params limits _ _ _ hq => exact GrowsBy.trans (.of_eq rfl) (hq.growsBy hb)

end

/-- Observations that do not come from the layer below. -/
def Obs.inner : Obs → Bool
  | .lowerClose | .lowerOpen | .lowerReady _ => false
  | _ => true

theorem basic_inner : Basic Obs.inner := by constructor <;> intros <;> rfl

/-- Growth without notifications of the layer below. -/
abbrev Grows (s t : Layer) : Prop := GrowsBy Obs.inner s t

theorem HsReq.grows {c : Cfg} {limits : SessionLimits} {s t : Layer} (h : HsReq c limits s t) : Grows s t :=
  h.growsBy basic_inner
theorem NonceChange.grows {c : Cfg} {s t : Layer} (h : NonceChange c s t) : Grows s t := h.growsBy basic_inner
theorem TxAtom.grows {c : Cfg} {s t : Layer} (h : TxAtom c s t) : Grows s t := h.growsBy basic_inner fun _ _ => rfl
theorem RxAtom.grows {c : Cfg} {E : Env} {s t : Layer} (h : RxAtom c E s t) : Grows s t :=
  h.growsBy basic_inner (fun _ => rfl) fun _ => rfl
theorem RxTail.grows {c : Cfg} {E : Env} {R : Layer → Layer → Prop} {o s t : Layer} (h : RxTail c E R o s t) : Grows s t :=
  h.growsBy fun _ => rfl

/-- If what happens in callbacks only makes the log grow, the log has grown since the message was read. -/
theorem RxTail.grows_start {c : Cfg} {E : Env} {R : Layer → Layer → Prop} (hR : ∀ s t, R s t → Grows s t)
    {o s t : Layer} (h : RxTail c E R o s t) : Grows o s := by
  cases h with
  | initAuthPayload s0 m w params limits msg now scratch payload a1 a2 a3 a4 a5 a6 a7 a8 =>
    subst a7
    exact (RxAtom.initAuthOk m w params limits msg now scratch payload a1 a2 a3 a4 a5 a6).grows.trans (hR _ _ a8)
  | initAuthEnd s0 m w params limits msg now scratch payload a1 a2 a3 a4 a5 a6 a7 a8 =>
    subst a7
    refine (RxAtom.initAuthOk m w params limits msg now scratch payload a1 a2 a3 a4 a5 a6).grows.trans ?_
    rcases a8 with ⟨_, h⟩ | ⟨s1, h, _, h'⟩
    · exact hR _ _ h
    · refine GrowsBy.trans (GrowsBy.to_rx ?_ fun _ => rfl) (hR _ _ h')
      exact (hR _ _ h).to_eq rfl
  | dataNotified s1 m w msg now scratch payload a1 a2 a3 a4 a5 a6 a7 =>
    subst a6
    exact (RxAtom.dataOk m w msg now scratch payload a1 a2 a3 a4).grows.trans a7.grows
  | respAuthPayload s0 s1 m w hh msg now now' scratch payload out a1 a2 a3 a4 a5 a6 a7 a8 a9 a10 a11 =>
    subst a9
    exact (RxAtom.respAuthOk (s := o) m w hh msg now now' scratch payload out a1 a2 a3 a4 a5 a6 s1 a7 a8).grows.trans (hR _ _ a10)

end SSP21.Crypto
