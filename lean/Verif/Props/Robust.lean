import Verif.Quietly
import Verif.Props.Open
import Verif.Props.Hold
import Verif.Props.Chain
/-
  Property C30: unauthenticated messages cannot disturb an established session.
-/
namespace SSP21.Crypto

namespace Spec

/-- In state `s` the message `m` is not authentic or not fresh: it is neither a session message with a positive
nonce, acceptable after the last one received, that decrypts under the receive key of the active session, nor one
with nonce zero that decrypts under the receive key of the session being established. Messages that are not session
messages are never authentic. -/
def NotAuthentic (c : Cfg) (s : Layer) (m : Bytes) : Prop :=
  (∀ nonce payload, nonce ≠ 0 → s.active.valid = true →
    s.active.algorithms.verifyNonce s.active.rxNonce nonce = true →
    ¬ Authentic c.bufLen s.active.keys s.active.algorithms m nonce payload) ∧
  (∀ payload, s.pending.valid = true →
    ¬ Authentic c.bufLen s.pending.keys s.pending.algorithms m 0 payload)

/-- An observation the application has no part in. -/
def Internal : Obs → Prop
  | .lowerTx _ _ | .established _ _ _ | .keyUsed _ => True
  | _ => False

/-- The established session of `s` is undisturbed in `s'`: same session (keys, nonces, limits), same data waiting
to be read, the application is neither opened, closed nor notified and is given no data, and the session timer of
the initiator is not affected. -/
structure Undisturbed (s s' : Layer) : Prop where
  active : s'.active = s.active
  isOpen : s'.isOpen = s.isOpen
  upperOpen : s'.upperOpen = s.upperOpen
  payloadLen : s'.payloadLen = s.payloadLen
  rxFlag : s'.rxFlag = s.rxFlag
  sessTimer : s'.ini.sessTimer = s.ini.sessTimer
  required : s'.ini.required = s.ini.required
  log : ∃ extra, s'.log = s.log ++ extra ∧ ∀ o ∈ extra, Internal o

/-- The key of the other party, or some key in the chain of certificates `data`, is shorter than 32 bytes. -/
def ShortKey (certs : CertHandler) (data : Bytes) : Prop :=
  match certs with
  | .preshared remote => remote.length < 32
  | .industrial anchor _ => ∃ chain, data = Spec.chain chain ∧
      (anchor.public_key.length < 32 ∨ ∃ env ∈ chain, ∃ body,
        env.certificate_body = Spec.certificateBody body ∧ body.public_key.length < 32)

/-- Messages that make the layer hand buffers to the backend that are too short for it: only in the public key
modes, a reply with a short ephemeral key, or short keys in certificates (or in the configuration), or a backend
without Ed25519. -/
def BackendMisuse (c : Cfg) (s : Layer) (m : Bytes) : Prop :=
  match c.role with
  | .initiator _ _ => s.ini.hs = .waitForBeginReply ∧ ∃ msg sp certs eph, ReplyHandshakeBegin.read m = .ok msg ∧
      s.ini.handshake.mode = .publicKey sp certs eph ∧ (msg.mode_ephemeral.length < 32 ∨ ShortKey certs msg.mode_data)
  | .responder h => ∃ msg sp certs, RequestHandshakeBegin.read m = .ok msg ∧ h = .publicKey sp certs ∧
      (c.caps.ed25519 = false ∨ ShortKey certs msg.mode_data)

end Spec

namespace RobustProof

/-! ### When the backend is misused -/

theorem verifyPair_fault {b : Backend} {caps : Caps} {parent : CertificateBody} {env : CertificateEnvelope}
    (h : verifyPair b caps parent env = .error .fault) : parent.public_key.length < 32 := by
  unfold verifyPair at h
  split at h
  · cases h
  · rename_i n hn
    split at h
    · cases h
    · rename_i hl
      have hn64 : n = 64 := by
        unfold tryGetDsaInfo at hn
        split at hn
        · split at hn <;> simp_all
        · cases hn
      split at h
      · rename_i hv
        unfold Backend.verifyEd25519 at hv
        split at hv
        · rename_i hs
          simp only [ne_eq, Decidable.not_not] at hl
          omega
        · cases hv
      · cases h
      · split at h
        · cases h
        · repeat' split at h
          all_goals cases h

theorem verifyPair_body {b : Backend} {caps : Caps} {parent child : CertificateBody} {env : CertificateEnvelope}
    (h : verifyPair b caps parent env = .ok child) : env.certificate_body = Spec.certificateBody child :=
  ((verifyPair_iff b caps parent env child).mp h).2.encoded

theorem verifyLoop_fault {b : Backend} {caps : Caps} (chain : List CertificateEnvelope) :
    ∀ {parent : CertificateBody}, verifyLoop b caps parent chain = .error .fault →
      parent.public_key.length < 32 ∨ ∃ env ∈ chain, ∃ body,
        env.certificate_body = Spec.certificateBody body ∧ body.public_key.length < 32 := by
  induction chain with
  | nil => intro parent h; simp [verifyLoop] at h
  | cons env rest ih =>
    intro parent h
    unfold verifyLoop at h
    split at h
    · rename_i e he
      cases h
      exact .inl (verifyPair_fault he)
    · rename_i child hc
      rcases ih h with h | ⟨e, he, body, h1, h2⟩
      · exact .inr ⟨env, by simp, child, verifyPair_body hc, h⟩
      · exact .inr ⟨e, by simp [he], body, h1, h2⟩

theorem verifyLoop_ok {b : Backend} {caps : Caps} (chain : List CertificateEnvelope) :
    ∀ {parent last : CertificateBody}, verifyLoop b caps parent chain = .ok last →
      last = parent ∨ ∃ env ∈ chain, env.certificate_body = Spec.certificateBody last := by
  induction chain with
  | nil => intro parent last h; simp [verifyLoop] at h; exact .inl h.symm
  | cons env rest ih =>
    intro parent last h
    unfold verifyLoop at h
    split at h
    · cases h
    · rename_i child hc
      rcases ih h with h | ⟨e, he, h1⟩
      · exact .inr ⟨env, by simp, h ▸ verifyPair_body hc⟩
      · exact .inr ⟨e, by simp [he], h1⟩

theorem validate_fault {b : Backend} {caps : Caps} {certs : CertHandler} {mode : HandshakeMode} {data : Bytes}
    (h : certs.validate b caps mode data = .error .fault) : Spec.ShortKey certs data := by
  unfold CertHandler.validate at h
  split at h
  · repeat' split at h
    all_goals cases h
  · split at h
    · cases h
    · split at h
      · cases h
      · rename_i chain hr
        split at h
        · rename_i e hv
          cases h
          unfold Chain.verify at hv
          split at hv
          · cases hv
          · split at hv
            · rename_i hl
              cases hv
              exact ⟨chain, (((C05_chain).2.2.2 data chain).mp hr).2, verifyLoop_fault chain hl⟩
            · repeat' split at hv
              all_goals cases hv
        · cases h

theorem validate_short {b : Backend} {caps : Caps} {certs : CertHandler} {mode : HandshakeMode} {data key : Bytes}
    (h : certs.validate b caps mode data = .ok key) (hk : key.length < 32) : Spec.ShortKey certs data := by
  unfold CertHandler.validate at h
  split at h
  · repeat' split at h
    all_goals cases h
    exact hk
  · split at h
    · cases h
    · split at h
      · cases h
      · rename_i chain hr
        split at h
        · cases h
        · rename_i leaf hv
          cases h
          unfold Chain.verify at hv
          split at hv
          · cases hv
          · split at hv
            · cases hv
            · rename_i last hl
              repeat' split at hv
              all_goals cases hv
              refine ⟨chain, (((C05_chain).2.2.2 data chain).mp hr).2, ?_⟩
              rcases verifyLoop_ok chain hl with h | ⟨e, he, h1⟩
              · exact .inl (h ▸ hk)
              · exact .inr ⟨e, he, _, h1, hk⟩

theorem dh_no_fault {b : Backend} {x y : Bytes} (h : ¬ y.length < 32) : b.dh x y ≠ .error .memory_fault := by
  unfold Backend.dh
  rw [if_neg h]
  split <;> simp

theorem tripleDH_fault {b : Backend} {sp ep remote eph : Bytes} (h : tripleDH b sp ep remote eph = .error .memory_fault) :
    eph.length < 32 ∨ remote.length < 32 := by
  by_cases h1 : eph.length < 32
  · exact .inl h1
  by_cases h2 : remote.length < 32
  · exact .inr h2
  unfold tripleDH at h
  split at h
  · rename_i e he
    exact absurd (by cases h; exact he) (dh_no_fault (b := b) (x := ep) h1)
  · split at h
    · rename_i e he
      exact absurd (by cases h; exact he) (dh_no_fault (b := b) (x := ep) h2)
    · split at h
      · rename_i e he
        exact absurd (by cases h; exact he) (dh_no_fault (b := b) (x := sp) h1)
      · cases h

theorem finishSession_no_fault (h : InitiatorHandshake) (ikm : List Bytes) (limits : SessionLimits) (now : Int)
    (session : Session) (st : Stats) : (h.finishSession ikm limits now session st).2.2 ≠ .fault := by
  unfold InitiatorHandshake.finishSession
  dsimp only
  split
  · simp
  · split <;> simp

theorem initializeSession_fault {h : InitiatorHandshake} {b : Backend} {caps : Caps} {msg : ReplyHandshakeBegin}
    {m : Bytes} {limits : SessionLimits} {now : Int} {session : Session} {st : Stats}
    (hf : (h.initializeSession b caps msg m limits now session st).2.2.2 = .fault) :
    ∃ sp certs eph, h.mode = .publicKey sp certs eph ∧
      (msg.mode_ephemeral.length < 32 ∨ Spec.ShortKey certs msg.mode_data) := by
  unfold InitiatorHandshake.initializeSession at hf
  split at hf
  · repeat' split at hf
    · cases hf
    · cases hf
    · exact absurd hf (finishSession_no_fault _ _ _ _ _ _)
  · cases hf
  · repeat' split at hf
    · cases hf
    · cases hf
    · exact absurd hf (finishSession_no_fault _ _ _ _ _ _)
  · rename_i sp certs eph hm
    refine ⟨sp, certs, eph, hm, ?_⟩
    split at hf
    · rename_i hv
      exact .inr (validate_fault hv)
    · cases hf
    · rename_i remote hv
      dsimp only at hf
      split at hf
      · rename_i ht
        rcases tripleDH_fault ht with h | h
        · exact .inl h
        · exact .inr (validate_short hv h)
      · cases hf
      · exact absurd hf (finishSession_no_fault _ _ _ _ _ _)

theorem respond_fault {a : CommonAlgorithms} {reply : ReplyHandshakeBegin} {ikm : Except HsFail (List Bytes)}
    {msg : RequestHandshakeBegin} {m : Bytes} {now : Int} {fw : FrameWriter} {session : Session} {st : Stats}
    (h : (respond a reply ikm msg m now fw session st).2.2 = .error .fault) : ikm = .error .fault := by
  unfold respond at h
  split at h
  · cases h
  · dsimp only at h
    split at h
    · cases h; rfl
    · cases h

theorem process_fault {h : ResponderHandshake} {b : Backend} {caps : Caps} {lookup : UInt64 → Option Bytes} {rnd : Bytes}
    {msg : RequestHandshakeBegin} {m : Bytes} {now : Int} {fw : FrameWriter} {session : Session} {st : Stats}
    (hf : (h.process b caps lookup rnd msg m now fw session st).2.2.2 = .error .fault) :
    ∃ sp certs, h = .publicKey sp certs ∧ (caps.ed25519 = false ∨ Spec.ShortKey certs msg.mode_data) := by
  unfold ResponderHandshake.process at hf
  dsimp only at hf
  split at hf
  · repeat' split at hf
    all_goals first | cases hf | (have := respond_fault hf; cases this)
  · repeat' split at hf
    all_goals first | cases hf | (have := respond_fault hf; cases this)
  · rename_i sp certs
    refine ⟨sp, certs, rfl, ?_⟩
    split at hf
    · cases hf
    · split at hf
      · cases hf
      · split at hf
        · cases hf
        · rename_i hl
          split at hf
          · rename_i hv
            cases hf
            exact .inr (validate_fault hv)
          · rename_i remote hv
            split at hf
            · rename_i he
              exact .inl (by simpa using he)
            · have hi := respond_fault hf
              split at hi
              · rename_i ht
                rcases tripleDH_fault ht with h | h
                · omega
                · exact .inr (validate_short hv h)
              · cases hi
              · cases hi

open SSP21.Crypto.Spec

variable {c : Cfg} {A : Fresh → Prop} {F : Prop}

theorem refl (s : Layer) : Undisturbed s s := ⟨rfl, rfl, rfl, rfl, rfl, rfl, rfl, [], by simp, by simp⟩

theorem trans {s t u : Layer} (h : Undisturbed s t) (h' : Undisturbed t u) : Undisturbed s u := by
  obtain ⟨x, hx, hx'⟩ := h.log
  obtain ⟨y, hy, hy'⟩ := h'.log
  refine ⟨h'.active.trans h.active, h'.isOpen.trans h.isOpen, h'.upperOpen.trans h.upperOpen,
    h'.payloadLen.trans h.payloadLen, h'.rxFlag.trans h.rxFlag, h'.sessTimer.trans h.sessTimer,
    h'.required.trans h.required, x ++ y, by rw [hy, hx, List.append_assoc], ?_⟩
  intro o ho
  rcases List.mem_append.mp ho with h | h
  · exact hx' o h
  · exact hy' o h

/-- Changes of fields that do not matter. -/
theorem of_eq {s s' : Layer} (h1 : s'.active = s.active) (h2 : s'.isOpen = s.isOpen) (h3 : s'.upperOpen = s.upperOpen)
    (h4 : s'.payloadLen = s.payloadLen) (h5 : s'.rxFlag = s.rxFlag) (h6 : s'.ini.sessTimer = s.ini.sessTimer)
    (h7 : s'.ini.required = s.ini.required) (h8 : s'.log = s.log) : Undisturbed s s' :=
  ⟨h1, h2, h3, h4, h5, h6, h7, [], by simp [h8], by simp⟩

theorem of_note {s s' : Layer} (o : Obs) (ho : Internal o) (h1 : s'.active = s.active) (h2 : s'.isOpen = s.isOpen)
    (h3 : s'.upperOpen = s.upperOpen)
    (h4 : s'.payloadLen = s.payloadLen) (h5 : s'.rxFlag = s.rxFlag) (h6 : s'.ini.sessTimer = s.ini.sessTimer)
    (h7 : s'.ini.required = s.ini.required) (h8 : s'.log = s.log ++ [o]) : Undisturbed s s' :=
  ⟨h1, h2, h3, h4, h5, h6, h7, [o], h8, by simpa using ho⟩

/-- The computation leaves the session undisturbed. -/
def Keeps {α : Type} (A : Fresh → Prop) (F : Prop) (m : M α) (s : Layer) : Prop := m.quietly A F (fun _ s' => Undisturbed s s') s

theorem keeps_bind {α β : Type} {m : M α} {f : α → M β} {s : Layer} (h : Keeps A F m s)
    (h' : ∀ a s', Undisturbed s s' → Keeps A F (f a) s') : Keeps A F (m >>= f) s := by
  unfold Keeps at *
  rw [qt_bind]
  refine M.quietly_mono ?_ h
  intro a s' hs
  exact M.quietly_mono (fun _ _ hs' => trans hs hs') (h' a s' hs)

theorem keeps_pure {α : Type} (a : α) (s : Layer) : Keeps A F (pure a) s := refl s

theorem keeps_errorReply (e : HandshakeError) (s : Layer) : Keeps A F (replyWithHandshakeError c e) s := by
  unfold Keeps replyWithHandshakeError
  split
  · exact refl s
  · simp only [qt_bind, qt_lowerStartTx, qt_pure]
    exact of_note (.lowerTx _ _) trivial rfl rfl rfl rfl rfl rfl rfl rfl

theorem keeps_startTimer (k : TimerKind) (s : Layer) : Keeps A F (startTimer k) s :=
  of_eq rfl rfl rfl rfl rfl rfl rfl rfl
theorem keeps_cancelTimer (s : Layer) : Keeps A F cancelTimer s := of_eq rfl rfl rfl rfl rfl rfl rfl rfl
theorem keeps_setState (h : HState) (s : Layer) : Keeps A F (setState h) s := of_eq rfl rfl rfl rfl rfl rfl rfl rfl

theorem keeps_noteEstablished (n : Nat) (s : Layer) : Keeps A F (noteEstablished n) s := by
  unfold Keeps noteEstablished
  simp only [qt_bind, qt_get, qt_ite, qt_note, qt_pure]
  exact ⟨fun _ => of_note (.established _ _ _) trivial rfl rfl rfl rfl rfl rfl rfl rfl, fun _ => refl s⟩

theorem keeps_transmitPending (s : Layer) : Keeps A F (transmitSessionAuth true) s := by
  unfold Keeps transmitSessionAuth
  simp only [qt_bind, qt_getTime, qt_get, if_true, qt_modify]
  intro f _
  split
  · exact of_eq rfl rfl rfl rfl rfl rfl rfl rfl
  · simp only [qt_bind, qt_ite, qt_modify, qt_lowerStartTx]
    exact ⟨fun _ => of_note (.lowerTx _ _) trivial rfl rfl rfl rfl rfl rfl rfl rfl,
      fun _ => of_note (.lowerTx _ _) trivial rfl rfl rfl rfl rfl rfl rfl rfl⟩

theorem keeps_retry (s : Layer) : Keeps A F (do startTimer .retry; setState .waitForRetry) s :=
  keeps_bind (keeps_startTimer _ _) fun _ _ _ => keeps_setState _ _

theorem keeps_onReplyBegin (limits : SessionLimits) (msg : ReplyHandshakeBegin) (m : Bytes) (now : Int) (s : Layer)
    (hF : ∀ sp certs eph, s.ini.hs = .waitForBeginReply → s.ini.handshake.mode = .publicKey sp certs eph →
      (msg.mode_ephemeral.length < 32 ∨ ShortKey certs msg.mode_data) → F) :
    Keeps A F (onReplyBegin c limits msg m now) s := by
  unfold onReplyBegin
  unfold Keeps
  simp only [qt_bind, qt_get]
  split
  · rename_i hhs
    simp only [qt_bind, cancelTimer, qt_modifyIni, qt_get]
    have h1 : Undisturbed s ({ s with ini := { s.ini with respTimer := none } } : Layer) :=
      of_eq rfl rfl rfl rfl rfl rfl rfl rfl
    refine M.quietly_mono (fun _ _ h => trans h1 h) ?_
    change Keeps A F _ _
    split
    · rename_i hf
      obtain ⟨sp, certs, eph, h2, h3⟩ := initializeSession_fault hf
      exact hF sp certs eph hhs h2 h3
    · refine keeps_bind (m := modify _) (of_eq rfl rfl rfl rfl rfl rfl rfl rfl) ?_
      intro _ s5 _
      exact keeps_retry s5
    · refine keeps_bind (m := modify _) (of_eq rfl rfl rfl rfl rfl rfl rfl rfl) ?_
      intro _ s5 _
      refine keeps_bind (keeps_noteEstablished _ _) ?_
      intro _ s6 _
      refine keeps_bind (keeps_transmitPending s6) ?_
      intro b s7 _
      split
      · exact keeps_retry s7
      · exact keeps_bind (keeps_startTimer _ _) fun _ _ _ => keeps_setState _ _
  · exact keeps_setState _ _

theorem keeps_onReplyError (s : Layer) : Keeps A F onReplyError s := by
  unfold onReplyError
  refine keeps_bind (m := get) (refl s) ?_
  intro s0 s1 _
  split
  · exact keeps_bind (keeps_cancelTimer _) fun _ s _ => keeps_retry s
  · exact keeps_bind (keeps_cancelTimer _) fun _ s _ => keeps_retry s
  · exact keeps_setState _ _

theorem keeps_lowerStartTx (frame : Bytes) (s : Layer) : Keeps A F (lowerStartTx frame) s := by
  unfold Keeps
  rw [qt_lowerStartTx]
  exact of_note (.lowerTx _ _) trivial rfl rfl rfl rfl rfl rfl rfl rfl

theorem keeps_onRequestBegin (h : ResponderHandshake) (msg : RequestHandshakeBegin) (m : Bytes) (now : Int)
    (s : Layer) (hF : ∀ sp certs, h = .publicKey sp certs →
      (c.caps.ed25519 = false ∨ ShortKey certs msg.mode_data) → F) : Keeps A F (onRequestBegin c h msg m now) s := by
  unfold onRequestBegin
  split
  · exact keeps_errorReply _ _
  · refine keeps_bind (m := ask) (fun f _ => refl s) ?_
    intro f s1 _
    refine keeps_bind (m := get) (refl s1) ?_
    intro s2 s3 _
    dsimp only
    split
    · rename_i hf
      obtain ⟨sp, certs, h1, h2⟩ := process_fault hf
      exact hF sp certs h1 h2
    · refine keeps_bind (m := modify _) (of_eq rfl rfl rfl rfl rfl rfl rfl rfl) ?_
      intro _ s4 _
      split
      · exact keeps_bind (m := note _) (of_note (.keyUsed _) trivial rfl rfl rfl rfl rfl rfl rfl rfl)
          fun _ _ _ => keeps_errorReply _ _
      · exact keeps_errorReply _ _
    · refine keeps_bind (m := modify _) (of_eq rfl rfl rfl rfl rfl rfl rfl rfl) ?_
      intro _ s4 _
      have hk : ∀ (s : Layer) (frame : Bytes) (n : Nat),
          Keeps A F (do noteEstablished n; let _ ← lowerStartTx frame; pure ()) s := fun s frame n =>
        keeps_bind (keeps_noteEstablished _ _) fun _ _ _ =>
          keeps_bind (keeps_lowerStartTx _ _) fun _ _ _ => keeps_pure _ _
      split
      · exact keeps_bind (m := note _) (of_note (.keyUsed _) trivial rfl rfl rfl rfl rfl rfl rfl rfl)
          fun _ _ _ => hk _ _ _
      · exact hk _ _ _

theorem keeps_onParseError (f : Function) (s : Layer) : Keeps A F (onParseError c f) s := by
  unfold onParseError
  split
  · exact keeps_errorReply _ _
  · exact refl s

theorem of_read {s : Session} {m : Bytes} {msg : SessionData} {d : Nat} {p : Bytes} (hm : SessionData.read m = .ok msg)
    (h : s.algorithms.mode.read s.keys.rxKey msg d = .ok p) :
    Authentic d s.keys s.algorithms m msg.metadata.nonce p := by
  unfold SessionMode.read at h
  split at h
  · cases h
  · rename_i hk
    exact ⟨msg, hm, rfl, by simpa using hk, by rw [← metadataBytes_eq]; exact h⟩

/-- Validation of a message that is not authentic or not fresh leaves the session alone. -/
theorem refused_data {s : Layer} {m : Bytes} {msg : SessionData} (hna : NotAuthentic c s m) (now : Int)
    (hm : SessionData.read m = .ok msg) (hn : msg.metadata.nonce ≠ 0) :
    (s.active.validateData s.stats msg now c.bufLen).1 = s.active ∧
    ∃ e, (s.active.validateData s.stats msg now c.bufLen).2.2 = .error e := by
  rcases validateData_cases s.active s.stats msg now c.bufLen with ⟨st', e, h, _⟩ | ⟨st', p, r, h, _, h1, h2, _, _, _, _, h7⟩
  · rw [h]; exact ⟨rfl, e, rfl⟩
  · exact absurd (of_read hm h2) (hna.1 _ p hn h1 h7)

theorem refused_auth {s : Layer} {m : Bytes} {msg : SessionData} (hna : NotAuthentic c s m) (now : Int)
    (hm : SessionData.read m = .ok msg) :
    ∃ e, (s.pending.validateAuth s.stats msg now c.bufLen).2.2 = .error e := by
  cases h : (s.pending.validateAuth s.stats msg now c.bufLen).2.2 with
  | error e => exact ⟨e, rfl⟩
  | ok p =>
    have := authentic_auth hm h
    exact absurd this.2 (hna.2 p this.1)

theorem keeps_initiatorOnAuth {s : Layer} {m : Bytes} (params : Params) {msg : SessionData} (hna : NotAuthentic c s m)
    (now : Int) (hm : SessionData.read m = .ok msg) : Keeps A F (initiatorOnAuth c params msg now) s := by
  unfold initiatorOnAuth
  unfold Keeps
  simp only [qt_bind, qt_get]
  split
  · simp only [qt_bind, cancelTimer, validatePendingAuth, qt_modifyIni, qt_ask, qt_get, qt_modify, qt_pure]
    intro f _
    obtain ⟨e, he⟩ := refused_auth hna now hm
    rw [he]
    exact of_eq rfl rfl rfl rfl rfl rfl rfl rfl
  · exact keeps_setState _ _

theorem keeps_responderOnAuth {s : Layer} {m : Bytes} {msg : SessionData} (hna : NotAuthentic c s m)
    (now : Int) (hm : SessionData.read m = .ok msg) : Keeps A F (responderOnAuth c msg now) s := by
  unfold responderOnAuth
  unfold Keeps
  simp only [qt_bind, qt_get, qt_ite]
  refine ⟨fun _ => keeps_errorReply _ _, fun _ => ?_⟩
  simp only [qt_bind, validatePendingAuth, qt_ask, qt_get, qt_modify, qt_pure]
  intro f _
  obtain ⟨e, he⟩ := refused_auth hna now hm
  rw [he]
  exact of_eq rfl rfl rfl rfl rfl rfl rfl rfl

theorem keeps_onSessionData {s : Layer} {m : Bytes} {msg : SessionData} (hna : NotAuthentic c s m)
    (now : Int) (hm : SessionData.read m = .ok msg) (hn : msg.metadata.nonce ≠ 0) :
    Keeps A F (onSessionData c msg now) s := by
  unfold onSessionData
  unfold Keeps
  simp only [qt_bind, validateActiveData, qt_ask, qt_get, qt_modify, qt_pure]
  intro f _
  obtain ⟨h1, e, he⟩ := refused_data hna now hm hn
  rw [he]
  exact of_eq h1 rfl rfl rfl rfl rfl rfl rfl

theorem keeps_process {s : Layer} {m : Bytes} (hna : NotAuthentic c s m) :
    Keeps A (BackendMisuse c s m) (process c m) s := by
  unfold process
  unfold Keeps
  simp only [qt_bind, qt_getTime]
  intro f _
  split
  · exact refl s
  · simp only [qt_ite, qt_pure]
    refine ⟨fun _ => refl s, fun _ => ?_⟩
    split
    · split
      · exact keeps_onParseError _ _
      · rename_i msg hm
        split
        · rename_i h hr
          refine keeps_onRequestBegin _ _ _ _ _ ?_
          intro sp certs h1 h2
          unfold BackendMisuse
          rw [hr]
          exact ⟨msg, sp, certs, hm, h1, h2⟩
        · exact refl s
    · split
      · exact keeps_onParseError _ _
      · rename_i msg hm
        split
        · rename_i params limits hr
          refine keeps_onReplyBegin _ _ _ _ _ ?_
          intro sp certs eph h1 h2 h3
          unfold BackendMisuse
          rw [hr]
          exact ⟨h1, msg, sp, certs, eph, hm, h2, h3⟩
        · exact refl s
    · split
      · exact keeps_onParseError _ _
      · split
        · exact keeps_onReplyError _
        · exact refl s
    · split
      · exact keeps_onParseError _ _
      · rename_i msg hm
        unfold onSessionMessage
        split
        · split
          · exact keeps_initiatorOnAuth _ hna _ hm
          · exact keeps_responderOnAuth hna _ hm
        · rename_i hn
          exact keeps_onSessionData hna _ hm hn
    · exact refl s

end RobustProof

/-! ## C30 -/

/-- Processing a received message that is not authentic and fresh, in any state of an initiator or a responder and
whatever clock, random generator and key store answer, neither calls the application nor reads further, and leaves
the established session undisturbed: same keys, nonces and limits, same unread data, same open state, same session
timer; the application is not notified and given nothing. The only exception is undefined behaviour in the backend,
in the public key modes, caused by keys that are too short. -/
theorem C30_unauthenticated_cannot_disturb (c : Cfg) (s : Layer) (m : Bytes) (h : Spec.NotAuthentic c s m) :
    (process c m s).Quietly Fresh.ok (Spec.BackendMisuse c s m) (fun _ s' => Spec.Undisturbed s s') :=
  RobustProof.keeps_process h

/-- The same in executions. The layer has read a message `m` that is not authentic and fresh (and does not misuse
the backend), and `f` is what it does next (in the receive loop: read the next message): until it does so the
environment has no control, and it does so in a state in which the established session is undisturbed. -/
theorem C30_in_executions (c : Cfg) (E : Env) (s : Layer) (m : Bytes) (h : Spec.NotAuthentic c s m)
    (hb : ¬ Spec.BackendMisuse c s m) (f : Unit → Layer → Run Unit) (st : List (Layer → Run Unit)) (y : Config)
    (hs : Steps c E ⟨.code ((process c m s).bind f), st⟩ y) :
    (∃ r : Run Unit, y = ⟨.code (r.bind f), st⟩) ∨
    ∃ s', Spec.Undisturbed s s' ∧ Steps c E ⟨.code (f () s'), st⟩ y := by
  rcases Run.Quietly.sound f st hb _ (C30_unauthenticated_cannot_disturb c s m h) hs with ⟨r, h1, _⟩ | ⟨a, s', h1, h2⟩
  · exact .inl ⟨r, h1⟩
  · exact .inr ⟨s', h1, h2⟩

/-- Messages that are not session messages are never authentic: unparseable bytes, handshake messages. -/
theorem C30_other_messages (c : Cfg) (s : Layer) (m : Bytes) (h : ∀ msg, SessionData.read m ≠ .ok msg) :
    Spec.NotAuthentic c s m :=
  ⟨fun _ _ _ _ _ ⟨msg, h1, _⟩ => h msg h1, fun _ _ ⟨msg, h1, _⟩ => h msg h1⟩

/-- In every execution an established session uses algorithms of the standard. -/
theorem active_standard (c : Cfg) (E : Env) (hb : c.backend.Lawful) (s : Layer) (h : Observed c E s)
    (hv : s.active.valid = true) : s.active.algorithms.Standard c.backend := by
  obtain ⟨before, m, after, payload, hlog, ⟨l1, l2, h2, _⟩, _⟩ := ((OpenProof.atomic c E).observed h).act hv
  refine (C29_keys_from_handshake c E hb s h l1 (l2 ++ .recv m :: after) s.active.keys s.active.algorithms s.active.param ?_).1
  rw [hlog, h2]
  simp

/-- A message with a positive nonce that was already used (or is older than the last one) counts as not authentic,
even if it was once sent by the peer: replays do not disturb. -/
theorem C30_replays (c : Cfg) (E : Env) (hb : c.backend.Lawful) (s : Layer) (h : Observed c E s) (m : Bytes)
    (msg : SessionData) (hm : SessionData.read m = .ok msg) (hn : msg.metadata.nonce ≠ 0)
    (hr : msg.metadata.nonce ≤ s.active.rxNonce) : Spec.NotAuthentic c s m := by
  refine ⟨?_, ?_⟩
  · rintro nonce payload h0 hv h1 ⟨msg', h2, rfl, _⟩
    rw [hm] at h2
    cases h2
    have := standard_lt (active_standard c E hb s h hv) h1
    rw [UInt16.le_iff_toNat_le] at hr
    omega
  · rintro payload _ ⟨msg', h2, h3, _⟩
    rw [hm] at h2
    cases h2
    exact hn h3

/-- The exception is real: an initiator with public keys that is waiting for a reply and receives one with a short
ephemeral key (nothing else is required of the message) makes the backend read beyond the end of that key. -/
theorem C30_short_ephemeral_faults (h : InitiatorHandshake) (b : Backend) (caps : Caps) (sp remote : Bytes) (eph : KeyPair)
    (hm : h.mode = .publicKey sp (.preshared remote) eph) (msg : ReplyHandshakeBegin) (hd : msg.mode_data = [])
    (hl : msg.mode_ephemeral.length < 32) (m : Bytes) (limits : SessionLimits) (now : Int) (session : Session) (st : Stats) :
    (h.initializeSession b caps msg m limits now session st).2.2.2 = .fault := by
  unfold InitiatorHandshake.initializeSession
  rw [hm]
  simp only [CertHandler.validate, CertHandler.mode, hd, ne_eq, not_true_eq_false, if_false]
  have : tripleDH b sp eph.priv remote msg.mode_ephemeral = .error .memory_fault := by
    simp [tripleDH, Backend.dh, hl]
  rw [this]

namespace LayerExample
open Exec

/-- The hypotheses are met in an established session: a replay of a data message, and a handshake request. -/
example : ∃ s, Observed res anyEnv s ∧ s.active.valid = true ∧ s.upperOpen = true ∧
    Spec.NotAuthentic res s data1 ∧ Spec.NotAuthentic res s request ∧ ¬ Spec.BackendMisuse res s request := by
  obtain ⟨s, h1, h2⟩ := Exec.exists_of_map configured (c := res) (E := .tame) (h := hs) (script := resRead)
    (f := fun s => (s.active.valid, s.upperOpen, s.active.rxNonce.toNat)) (a := (true, true, 1)) (by decide +kernel)
  rw [Prod.mk.injEq, Prod.mk.injEq] at h2
  obtain ⟨h2, h3, h4⟩ := h2
  have hd : ((SessionData.read data1).toOption.map (·.metadata.nonce.toNat)) = some 1 := by decide +kernel
  have hreq : (SessionData.read request).toOption.isNone = true := by decide +kernel
  refine ⟨s, h1.any, h2, h3, ?_, ?_, ?_⟩
  · cases hr : SessionData.read data1 with
    | error e => rw [hr] at hd; cases hd
    | ok msg =>
      rw [hr] at hd
      simp only [Except.toOption, Option.map_some, Option.some.injEq] at hd
      refine C30_replays res _ Toy.strong_lawful s h1.observed data1 msg hr ?_ ?_
      · intro h; rw [h] at hd; cases hd
      · rw [UInt16.le_iff_toNat_le]; omega
  · refine C30_other_messages _ _ _ ?_
    intro msg h
    rw [h] at hreq
    cases hreq
  · simp [Spec.BackendMisuse, res]

/-! ### What unauthenticated messages can do: a forged reply during a renegotiation loses data -/

/-- The session timer expires and the initiator begins a new handshake. -/
def iniRenew : List Choice := iniData ++
  [.event .lowerTxReady, .ret, .recv [], ans 11, .event (.expiry .session), ans 12 3, ans 12 3]
def request3 : Bytes := lastTx (final ini .tame hs iniRenew)
/-- The application sends data while the lower layer is busy; then the attacker replays the reply of the first
handshake. The initiator takes it for a reply to its request and sends the data in its session auth message. -/
def iniForged : List Choice := iniRenew ++
  [.api (.startTx [5, 6]), .event .lowerTxReady, .recv reply, ans 13, ans 13, ans 13]
def auth3 : Bytes := lastTx (final ini .tame hs iniForged)
/-- The application is told that the data was sent and sends more, in the established session. -/
def iniGap : List Choice := iniForged ++
  [.event .lowerTxReady, .ret, .recv [], ans 14, .api (.startTx [7]), ans 15, ans 15]
def data3 : Bytes := lastTx (final ini .tame hs iniGap)
/-- The responder receives everything the initiator sends. -/
def resGap : List Choice := resRead ++ [.api .startRx, .recv request3, ans 16, ans 16, ans 16 4,
  .event .lowerTxReady, .recv auth3, ans 17, ans 17, ans 17, .recv data3, ans 18, ans 18, ans 18, .ret, .api .startRx]

/-- The data whose transmission was accepted. -/
def accepted (s : Layer) : List Bytes := s.log.filterMap fun | .startTx d true => some d | _ => none
/-- The frames sent. -/
def frames (s : Layer) : List Bytes := s.log.filterMap fun | .lowerTx f _ => some f | _ => none
/-- The messages read. -/
def messages (s : Layer) : List Bytes := s.log.filterMap fun | .recv m => some m | _ => none
/-- The number of times the application was told that the session is closed. -/
def closes (s : Layer) : Nat := (s.log.filterMap fun | .up .closed => some () | _ => none).length

/-- An attacker who knows no key can remove data from the middle of an established session, unnoticed: the responder
receives all messages of the initiator, in order; the initiator receives the messages of the responder, and then the
first of them again; neither application is told that the session is closed; the application of the initiator sent
`[1, 2, 3]`, `[5, 6]` and `[7]`; that of the responder was given `[1, 2, 3]` and `[7]`. -/
theorem C30_forged_reply_loses_data : ∃ si sr, Observed ini anyEnv si ∧ Observed res anyEnv sr ∧
    messages sr = frames si ∧ (∃ n, messages si = (frames sr).take n ++ (frames sr).take 1) ∧
    closes si = 0 ∧ closes sr = 0 ∧
    accepted si = [[1, 2, 3], [5, 6], [7]] ∧ (given sr).filter (· ≠ []) = [[1, 2, 3], [7]] := by
  obtain ⟨si, h1, h2⟩ := Exec.exists_of_map configured (c := ini) (E := .tame) (h := hs) (script := iniGap)
    (f := fun s => (frames s, messages s, closes s, accepted s))
    (a := ([request, auth1, data1, request3, auth3, data3], [reply, auth2, reply], 0, [[1, 2, 3], [5, 6], [7]]))
    (by decide +kernel)
  obtain ⟨sr, h3, h4⟩ := Exec.exists_of_map configured (c := res) (E := .tame) (h := hs) (script := resGap)
    (f := fun s => (messages s, (frames s).take 2, closes s, (given s).filter (· ≠ [])))
    (a := ([request, auth1, data1, request3, auth3, data3], [reply, auth2], 0, [[1, 2, 3], [7]]))
    (by decide +kernel)
  simp only [Prod.mk.injEq] at h2 h4
  refine ⟨si, sr, h1.any, h3.any, h4.1.trans h2.1.symm, ⟨2, ?_⟩, h2.2.2.1, h4.2.2.1, h2.2.2.2, h4.2.2.2⟩
  have h5 : (frames sr).take 1 = [reply] := by
    have := congrArg (List.take 1) h4.2.1
    rw [List.take_take] at this
    exact this
  rw [h2.2.1, h4.2.1, h5]
  rfl

end LayerExample

end SSP21.Crypto
