import Verif.LayerExample
import Verif.Props.Secrets
import Verif.Props.Session
/-
  Property C29, first part: the application is told that the session is open only after an authenticated
  handshake, and where the keys come from. All environments are covered: any application (including one that
  calls the layer from inside callbacks, to any depth), any messages from below, any timers.
-/
namespace SSP21.Crypto

namespace Spec

/-- `k`, `a`, `p` are the keys, algorithms and limits installed by the last handshake in `log`; the layer below
has not closed since, and the application has not been opened since. -/
def LastHandshake (log : List Obs) (k : SessionKeys) (a : SessionAlgorithms) (p : SessionParam) : Prop :=
  ∃ before after, log = before ++ .established k a p :: after ∧
    ∀ o ∈ after, o ≠ .lowerClose ∧ o ≠ .up .opened ∧ ∀ k a p, o ≠ .established k a p

/-- The bytes `m` are a session message with that nonce which decrypts to `payload` under the receive key. -/
def Authentic (bufLen : Nat) (k : SessionKeys) (a : SessionAlgorithms) (m : Bytes) (nonce : UInt16)
    (payload : Bytes) : Prop :=
  ∃ msg, SessionData.read m = .ok msg ∧ msg.metadata.nonce = nonce ∧ k.rxKey.length = 32 ∧
    a.mode.decrypt k.rxKey nonce (Spec.associatedData msg.metadata) msg.user_data msg.auth_tag bufLen = .ok payload

/-- `k`, `a`, `p` were installed by a handshake in `log`; after that, a session message with nonce zero was
read that is authentic under these keys, no other handshake having been completed in between, and the layer below
has not closed since. -/
def AuthenticatedSession (bufLen : Nat) (log : List Obs) (k : SessionKeys) (a : SessionAlgorithms)
    (p : SessionParam) : Prop :=
  ∃ before m after payload, log = before ++ .recv m :: after ∧ LastHandshake before k a p ∧
    Authentic bufLen k a m 0 payload ∧ Obs.lowerClose ∉ after

/-- The observations up to the moment the application is opened: a handshake was completed; then, as the last
message read, a session message with nonce zero came that is authentic under the keys of that handshake; the
responder has moreover just sent its answer. -/
def OpenedAfter (c : Cfg) (log : List Obs) : Prop :=
  ∃ before m sent k a p payload, log = before ++ .recv m :: sent ∧ LastHandshake before k a p ∧
    Authentic c.bufLen k a m 0 payload ∧
    (match c.role with
      | .initiator _ _ => sent = []
      | .responder _ => ∃ frame, sent = [.lowerTx frame true])

/-- Two handshake objects with the same configuration: they differ only in what changes from one handshake to
the next. -/
def SameConfiguration (h h' : InitiatorHandshake) : Prop :=
  h'.algorithms = h.algorithms ∧ h'.suite = h.suite ∧
  (match h.mode, h'.mode with
    | .sharedSecret key _, .sharedSecret key' _ => key' = key
    | .qkd _, .qkd _ => True
    | .publicKey sp certs _, .publicKey sp' certs' _ => sp' = sp ∧ certs' = certs
    | _, _ => False)

/-- `request` is a request of an initiator configured like `h0`, generated with fresh randomness or with the record
(id and key) that the source of quantum keys delivered; `mode` keeps the fresh secret, `used` is the quantum
key with its id, if there is one. -/
def RequestOf (c : Cfg) (limits : SessionLimits) (h0 : InitiatorHandshake) (mode : InitiatorMode)
    (used : Option (UInt64 × Bytes)) (request : Bytes) : Prop :=
  ∃ h h' rnd record ephemeral data, SameConfiguration h0 h ∧ rnd.length = 32 ∧
    h.initializeNew c.backend rnd record = (h', some (ephemeral, data)) ∧ h'.mode = mode ∧
    (h'.buildRequest limits ephemeral data).write c.fw.maxPayload.toNat = .ok request ∧
    (match mode with
      | .qkd key => used = record ∧ key = record.map (·.2)
      | _ => used = none)

/-- A session message in a frame. -/
def SessionFrame (c : Cfg) (frame : Bytes) : Prop :=
  ∃ d w, SessionData.write d c.fw.maxPayload.toNat = .ok w ∧ frame = c.fw.wrap w

/-- Where the keys installed by a handshake come from. `log` are the observations before, `rest` those after.
Responder: it has just read a request (and taken a quantum key), and sends its reply right afterwards; the keys
are derived from exactly the request, exactly the reply and the secret of the handshake mode, the limits are
those of the request, the algorithms those its suite names. Initiator: it has just read a reply; it sent a request (having just taken a quantum key) since the
layer below last closed and since it last installed keys, and nothing but session messages since then, and has taken no quantum key since then; the keys are derived from that request, that reply and the
secret of the mode; the limits are its own, the algorithms those of its configured suite. -/
def EstablishedBy (c : Cfg) (E : Env) (log : List Obs) (k : SessionKeys) (a : SessionAlgorithms) (p : SessionParam)
    (rest : List Obs) : Prop :=
  a.Standard c.backend ∧
  match c.role with
  | .responder rh => ∃ before request msg used lookup rnd secret reply rest',
      log = before ++ .recv request :: keyObs used ∧ RequestHandshakeBegin.read request = .ok msg ∧
      msg.version.major_version = 0 ∧ rnd.length = 32 ∧
      Spec.SuiteOf c.backend msg.spec a ∧ Spec.ResponderSecret c.backend c.caps rh lookup rnd msg used secret ∧
      rest = .lowerTx (c.fw.wrap reply) true :: rest' ∧
      k = ⟨(Spec.derive c.backend (Spec.salt c.backend request reply) secret).1,
        (Spec.derive c.backend (Spec.salt c.backend request reply) secret).2⟩ ∧
      p.maxNonce = msg.constraints.max_nonce ∧ p.maxSessionTime = ms msg.constraints.max_session_duration ∧
      ReplyHandshakeBegin.write (Spec.replyOf c.backend rh rnd) c.fw.maxPayload.toNat = .ok reply
  | .initiator _ limits => ∃ l1 l2 request reply msg h0 mode used secret,
      log = l1 ++ keyObs used ++ .lowerTx (c.fw.wrap request) true :: l2 ++ [.recv reply] ∧ Obs.lowerClose ∉ l2 ∧
      (∀ k' a' p', Obs.established k' a' p' ∉ l2) ∧
      ReplyHandshakeBegin.read reply = .ok msg ∧ E.config h0 ∧ RequestOf c limits h0 mode used request ∧
      Spec.SuiteOf c.backend h0.suite a ∧
      Spec.InitiatorSecret c.backend c.caps mode msg secret ∧
      k = ⟨(Spec.derive c.backend (Spec.salt c.backend request reply) secret).2,
        (Spec.derive c.backend (Spec.salt c.backend request reply) secret).1⟩ ∧
      p.maxNonce = limits.maxNonce ∧ p.maxSessionTime = ms limits.maxSessionTimeMs ∧
      (∀ frame ready, Obs.lowerTx frame ready ∈ l2 → SessionFrame c frame) ∧ ∀ r, Obs.keyUsed r ∉ l2

end Spec

/-! ### Histories -/

/-- Every observation satisfies `P` (given what comes before and after it). -/
def Every (P : List Obs → Obs → List Obs → Prop) (log : List Obs) : Prop :=
  ∀ pre o post, log = pre ++ o :: post → P pre o post

theorem Every.append {P : List Obs → Obs → List Obs → Prop}
    (mono : ∀ pre o post x, P pre o post → P pre o (post ++ x)) {log extra : List Obs} (h : Every P log)
    (he : ∀ e1 o e2, extra = e1 ++ o :: e2 → P (log ++ e1) o e2) : Every P (log ++ extra) := by
  intro pre o post heq
  rw [List.append_eq_append_iff] at heq
  rcases heq with ⟨x, rfl, hx⟩ | ⟨x, rfl, hx⟩
  · exact he x o post hx
  · cases x with
    | nil =>
      have := he [] o post (by simpa using hx.symm)
      simpa using this
    | cons y x =>
      simp only [List.cons_append, List.cons.injEq] at hx
      obtain ⟨rfl, rfl⟩ := hx
      exact mono _ _ _ _ (h pre _ x rfl)

/-- Appending one observation. -/
theorem Every.snoc {P : List Obs → Obs → List Obs → Prop}
    (mono : ∀ pre o post x, P pre o post → P pre o (post ++ x)) {log : List Obs} {o : Obs} (h : Every P log)
    (he : P log o []) : Every P (log ++ [o]) := by
  refine h.append mono ?_
  intro e1 o' e2 heq
  cases e1 with
  | nil =>
    simp only [List.nil_append, List.cons.injEq] at heq
    obtain ⟨rfl, rfl⟩ := heq
    simpa using he
  | cons y e1 => simp at heq

/-! ### Sessions and handshakes -/

/-- Nothing but nonces has changed. -/
def SameSession (a b : Session) : Prop :=
  (b.valid = a.valid ∧ b.frameWriter = a.frameWriter) ∧ b.keys = a.keys ∧ b.algorithms = a.algorithms ∧ b.param = a.param

theorem SameSession.refl (a : Session) : SameSession a a := ⟨⟨rfl, rfl⟩, rfl, rfl, rfl⟩

/-- Only nonces have changed, or the session was reset. -/
inductive SameOrReset (a b : Session) : Prop
  | inl : b.valid = false → b.frameWriter = a.frameWriter → SameOrReset a b
  | inr : SameSession a b → SameOrReset a b

theorem SameOrReset.writer {a b : Session} (h : SameOrReset a b) : b.frameWriter = a.frameWriter := by
  cases h with
  | inl _ h => exact h
  | inr h => exact h.1.2

theorem SameSession.trans {a b d : Session} (h : SameSession a b) (h' : SameSession b d) : SameSession a d :=
  ⟨⟨h'.1.1.trans h.1.1, h'.1.2.trans h.1.2⟩, h'.2.1.trans h.2.1, h'.2.2.1.trans h.2.2.1, h'.2.2.2.trans h.2.2.2⟩

theorem same_validateAuth (s : Session) (st : Stats) (m : SessionData) (now : Int) (d : Nat) :
    SameSession s (s.validateAuth st m now d).1 := by
  unfold Session.validateAuth
  rcases validateWith_cases s st m now d equalToZero with ⟨st', e, h, _⟩ | ⟨st', p, h, _⟩ <;> rw [h] <;>
    exact ⟨⟨rfl, rfl⟩, rfl, rfl, rfl⟩

theorem same_validateData (s : Session) (st : Stats) (m : SessionData) (now : Int) (d : Nat) :
    SameSession s (s.validateData st m now d).1 := by
  rcases validateData_cases s st m now d with ⟨st', e, h, _⟩ | ⟨st', p, r, h, _⟩ <;> rw [h] <;>
    exact ⟨⟨rfl, rfl⟩, rfl, rfl, rfl⟩

theorem same_formatNo (s : Session) (now : Int) (clear : Bytes) :
    SameSession s (s.formatNoNonceCheck now clear).1 := by
  rcases format_cases s now clear with ⟨r, e, h⟩ | ⟨f, n, h, _⟩ <;> rw [h] <;> exact ⟨⟨rfl, rfl⟩, rfl, rfl, rfl⟩

theorem same_formatAuth (s : Session) (now : Int) (clear : Bytes) : SameSession s (s.formatAuth now clear).1 := by
  unfold Session.formatAuth
  split
  · exact .refl _
  · exact same_formatNo ..

theorem same_formatData (s : Session) (now : Int) (clear : Bytes) : SameSession s (s.formatData now clear).1 := by
  unfold Session.formatData
  split
  · exact .refl _
  · exact same_formatNo ..

theorem authentic_auth {s : Session} {st : Stats} {m : Bytes} {msg : SessionData} {now : Int} {d : Nat} {p : Bytes}
    (hm : SessionData.read m = .ok msg) (h : (s.validateAuth st msg now d).2.2 = .ok p) :
    s.valid = true ∧ Spec.Authentic d s.keys s.algorithms m 0 p := by
  obtain ⟨h1, h2, h3, h4, h5⟩ := C18_auth_is_authentic s _ st _ msg now d p (Prod.ext rfl (Prod.ext rfl h))
  exact ⟨h1, msg, hm, h3, h4, h3 ▸ h5⟩

theorem authentic_data {s : Session} {st : Stats} {m : Bytes} {msg : SessionData} {now : Int} {d : Nat} {p : Bytes}
    (hm : SessionData.read m = .ok msg) (h : (s.validateData st msg now d).2.2 = .ok p) :
    s.valid = true ∧ p ≠ [] ∧ Spec.Authentic d s.keys s.algorithms m msg.metadata.nonce p := by
  obtain ⟨h1, h2, h3, h4⟩ := C18_data_is_authentic s _ st _ msg now d p (Prod.ext rfl (Prod.ext rfl h))
  exact ⟨h1, h2, msg, hm, rfl, h3, h4⟩

theorem SameConfiguration.refl (h : InitiatorHandshake) : Spec.SameConfiguration h h := by
  refine ⟨rfl, rfl, ?_⟩
  cases h.mode <;> simp

theorem SameConfiguration.trans {a b d : InitiatorHandshake} (h : Spec.SameConfiguration a b)
    (h' : Spec.SameConfiguration b d) : Spec.SameConfiguration a d := by
  refine ⟨h'.1.trans h.1, h'.2.1.trans h.2.1, ?_⟩
  have h1 := h.2.2
  have h2 := h'.2.2
  cases ha : a.mode <;> cases hb : b.mode <;> cases hd : d.mode <;> simp_all

theorem SameConfiguration.initializeNew (h : InitiatorHandshake) (b : Backend) (rnd : Bytes)
    (record : Option (UInt64 × Bytes)) : Spec.SameConfiguration h (h.initializeNew b rnd record).1 := by
  unfold InitiatorHandshake.initializeNew
  cases hm : h.mode with
  | sharedSecret key nonce => exact ⟨rfl, rfl, by simp [hm]⟩
  | qkd k => cases record <;> exact ⟨rfl, rfl, by simp [hm]⟩
  | publicKey sp certs eph => exact ⟨rfl, rfl, by simp [hm]⟩

theorem SameConfiguration.of_eq {h h' : InitiatorHandshake} (h1 : h'.algorithms = h.algorithms)
    (h2 : h'.suite = h.suite) (h3 : h'.mode = h.mode) : Spec.SameConfiguration h h' := by
  have := (SameConfiguration.refl h).2.2
  exact ⟨h1, h2, by rw [h3]; exact this⟩

theorem initializeSession_same (h : InitiatorHandshake) (b : Backend) (caps : Caps) (msg : ReplyHandshakeBegin)
    (m : Bytes) (limits : SessionLimits) (now : Int) (s : Session) (st : Stats) :
    Spec.SameConfiguration h (h.initializeSession b caps msg m limits now s st).1 := by
  apply SameConfiguration.of_eq <;> (unfold InitiatorHandshake.initializeSession; repeat' split) <;> rfl

namespace OpenProof

/-- Observations that the property is not about. -/
def calm : Obs → Bool
  | .established _ _ _ => false
  | .up .opened => false
  | .lowerClose => false
  | _ => true

/-- What the history must look like. -/
def Justified (c : Cfg) (E : Env) (pre : List Obs) (o : Obs) (post : List Obs) : Prop :=
  match o with
  | .up .opened => Spec.OpenedAfter c pre
  | .established k a p => c.backend.Lawful → Spec.EstablishedBy c E pre k a p post
  | _ => True

theorem justified_calm {c : Cfg} {E : Env} {o : Obs} (h : calm o = true) (pre post : List Obs) :
    Justified c E pre o post := by
  unfold Justified
  split <;> simp_all [calm]

theorem justified_mono {c : Cfg} {E : Env} (pre : List Obs) (o : Obs) (post x : List Obs)
    (h : Justified c E pre o post) : Justified c E pre o (post ++ x) := by
  unfold Justified at *
  split at h
  · exact h
  · rename_i k a p
    intro hb
    have h := h hb
    unfold Spec.EstablishedBy at *
    refine ⟨h.1, ?_⟩
    have h := h.2
    split at h
    · obtain ⟨before, request, msg, used, lookup, rnd, secret, reply, rest', h1, h2, h3, h4, h4', h5, h6, h7⟩ := h
      exact ⟨before, request, msg, used, lookup, rnd, secret, reply, rest' ++ x, h1, h2, h3, h4, h4', h5, by rw [h6]; rfl, h7⟩
    · exact h
  · trivial

/-- The handshake object has the configuration it was created with. -/
def Own (c : Cfg) (E : Env) (h : InitiatorHandshake) : Prop :=
  ∃ h0, E.config h0 ∧ h0.Configured c.backend c.caps ∧ Spec.SameConfiguration h0 h

/-- The handshake object remembers the request that was sent. -/
def RequestSent (c : Cfg) (E : Env) (h : InitiatorHandshake) (log : List Obs) : Prop :=
  ∃ params limits h0 h1 request t0 used l1 l2, c.role = .initiator params limits ∧ E.config h0 ∧
    h0.Configured c.backend c.caps ∧ Spec.SameConfiguration h0 h1 ∧ h = h1.finalizeRequestTx request t0 ∧
    Spec.RequestOf c limits h0 h1.mode used request ∧
    log = l1 ++ keyObs used ++ .lowerTx (c.fw.wrap request) true :: l2 ∧ Obs.lowerClose ∉ l2 ∧
    (∀ k a p, Obs.established k a p ∉ l2) ∧ (∀ f r, Obs.lowerTx f r ∈ l2 → Spec.SessionFrame c f) ∧ ∀ r, Obs.keyUsed r ∉ l2

structure Inv (c : Cfg) (E : Env) (s : Layer) : Prop where
  pend : s.pending.valid = true → Spec.LastHandshake s.log s.pending.keys s.pending.algorithms s.pending.param
  act : s.active.valid = true → Spec.AuthenticatedSession c.bufLen s.log s.active.keys s.active.algorithms s.active.param
  hist : Every (Justified c E) s.log
  own : Own c E s.ini.handshake
  req : s.ini.hs = .waitForBeginReply → RequestSent c E s.ini.handshake s.log
  fwa : s.active.frameWriter = c.fw
  fwp : s.pending.frameWriter = c.fw

/-- An initiator transmits only session messages, and takes no quantum keys. -/
def TxFree (c : Cfg) (extra : List Obs) : Prop :=
  (∃ r, c.role = .responder r) ∨ (∀ f r, Obs.lowerTx f r ∈ extra → Spec.SessionFrame c f) ∧ ∀ r, Obs.keyUsed r ∉ extra

theorem TxFree.none {c : Cfg} {extra : List Obs} (h : (∀ f r, Obs.lowerTx f r ∉ extra) ∧ ∀ r, Obs.keyUsed r ∉ extra) : TxFree c extra :=
  .inr ⟨fun f r hm => absurd hm (h.1 f r), h.2⟩

theorem keyObs_no_tx (o : Option (UInt64 × Bytes)) (f : Bytes) (r : Bool) : Obs.lowerTx f r ∉ keyObs o := by
  cases o <;> simp [keyObs]

theorem lastHandshake_append {log extra : List Obs} {k a p} (h : Spec.LastHandshake log k a p)
    (hq : ∀ o ∈ extra, calm o = true) : Spec.LastHandshake (log ++ extra) k a p := by
  obtain ⟨before, after, rfl, h2⟩ := h
  refine ⟨before, after ++ extra, by simp, ?_⟩
  intro o ho
  rcases List.mem_append.mp ho with ho | ho
  · exact h2 o ho
  · have := hq o ho
    refine ⟨?_, ?_, ?_⟩ <;> (intros; rintro rfl; simp [calm] at this)

theorem authenticated_append {n : Nat} {log extra : List Obs} {k a p} (h : Spec.AuthenticatedSession n log k a p)
    (hq : Obs.lowerClose ∉ extra) : Spec.AuthenticatedSession n (log ++ extra) k a p := by
  obtain ⟨before, m, after, payload, rfl, h2, h3, h4⟩ := h
  exact ⟨before, m, after ++ extra, payload, by simp, h2, h3, by simp [h4, hq]⟩

theorem requestSent_append {c : Cfg} {E : Env} {h : InitiatorHandshake} {log extra : List Obs}
    (hr : RequestSent c E h log) (hq : Obs.lowerClose ∉ extra) (he : ∀ k a p, Obs.established k a p ∉ extra)
    (hx : TxFree c extra) : RequestSent c E h (log ++ extra) := by
  obtain ⟨params, limits, h0, h1, request, t0, used, l1, l2, a1, a2, a3, a4, a5, a6, rfl, a8, a9, a10, a11⟩ := hr
  refine ⟨params, limits, h0, h1, request, t0, used, l1, l2 ++ extra, a1, a2, a3, a4, a5, a6, by simp, by simp [a8, hq],
    by simp [a9, he], fun f r hm => ?_, fun r hm => ?_⟩
  · rcases List.mem_append.mp hm with hm | hm
    · exact a10 f r hm
    · rcases hx with ⟨rh, hx⟩ | hx
      · rw [hx] at a1; cases a1
      · exact hx.1 f r hm
  · rcases List.mem_append.mp hm with hm | hm
    · exact a11 r hm
    · rcases hx with ⟨rh, hx⟩ | hx
      · rw [hx] at a1; cases a1
      · exact hx.2 r hm

theorem calm_no_close {extra : List Obs} (hq : ∀ o ∈ extra, calm o = true) : Obs.lowerClose ∉ extra := by
  intro h
  have := hq _ h
  simp [calm] at this

theorem calm_no_keys {extra : List Obs} (hq : ∀ o ∈ extra, calm o = true) (k a p) : Obs.established k a p ∉ extra := by
  intro h
  have := hq _ h
  simp [calm] at this

theorem Inv.calm {c : Cfg} {E : Env} {s t : Layer} (h : Inv c E s) (extra : List Obs)
    (hl : t.log = s.log ++ extra) (hq : ∀ o ∈ extra, calm o = true)
    (hp : SameOrReset s.pending t.pending)
    (ha : SameOrReset s.active t.active)
    (hi : t.ini.handshake = s.ini.handshake ∧ t.ini.hs = s.ini.hs ∨
      Own c E t.ini.handshake ∧ t.ini.hs ≠ .waitForBeginReply)
    (hx : TxFree c extra ∨ t.ini.hs ≠ .waitForBeginReply := by exact .inl (TxFree.none (by simp [keyObs_no_tx]))) :
    Inv c E t where
  fwa := ha.writer.trans h.fwa
  fwp := hp.writer.trans h.fwp
  pend := by
    intro hv
    rcases hp with ⟨hp, -⟩ | ⟨⟨h1, -⟩, h2, h3, h4⟩
    · rw [hp] at hv; cases hv
    · rw [hl, h2, h3, h4]
      exact lastHandshake_append (h.pend (h1 ▸ hv)) hq
  act := by
    intro hv
    rcases ha with ⟨ha, -⟩ | ⟨⟨h1, -⟩, h2, h3, h4⟩
    · rw [ha] at hv; cases hv
    · rw [hl, h2, h3, h4]
      exact authenticated_append (h.act (h1 ▸ hv)) (calm_no_close hq)
  hist := by
    rw [hl]
    refine h.hist.append justified_mono ?_
    intro e1 o e2 he
    exact justified_calm (hq o (by rw [he]; simp)) _ _
  own := by
    rcases hi with ⟨h1, _⟩ | ⟨h1, _⟩
    · rw [h1]; exact h.own
    · exact h1
  req := by
    intro hw
    rcases hi with ⟨h1, h2⟩ | ⟨_, h2⟩
    · rw [h1, hl]
      exact requestSent_append (h.req (h2 ▸ hw)) (calm_no_close hq) (calm_no_keys hq) (hx.resolve_right fun hx => hx hw)
    · exact absurd hw h2

/-- The usual case. -/
theorem Inv.of_eq {c : Cfg} {E : Env} {s t : Layer} (h : Inv c E s) (hl : t.log = s.log)
    (hp : t.pending = s.pending) (ha : t.active = s.active)
    (hi : t.ini.handshake = s.ini.handshake ∧ t.ini.hs = s.ini.hs ∨
      t.ini.handshake = s.ini.handshake ∧ t.ini.hs ≠ .waitForBeginReply) : Inv c E t := by
  refine h.calm [] (by simp [hl]) (by simp) (.inr (hp ▸ .refl _)) (.inr (ha ▸ .refl _)) ?_
  rcases hi with hi | ⟨h1, h2⟩
  · exact .inl hi
  · exact .inr ⟨h1 ▸ h.own, h2⟩

theorem Inv.noted {c : Cfg} {E : Env} {s : Layer} (h : Inv c E s) {o : Obs} (ho : OpenProof.calm o = true)
    (hn : ∀ f r, Obs.lowerTx f r ≠ o := by nofun) (hk : ∀ r, Obs.keyUsed r ≠ o := by nofun) : Inv c E (s.noted o) :=
  h.calm [o] rfl (by simpa using ho) (.inr (.refl _)) (.inr (.refl _)) (.inl ⟨rfl, rfl⟩)
    (.inl (.none ⟨fun f r hm => hn f r (List.mem_singleton.mp hm), fun r hm => hk r (List.mem_singleton.mp hm)⟩))

theorem Inv.received {c : Cfg} {E : Env} {s : Layer} (h : Inv c E s) (m w : Bytes) : Inv c E (s.received m w) :=
  h.calm [.recv m] rfl (by simp [OpenProof.calm]) (.inr (.refl _)) (.inr (.refl _)) (.inl ⟨rfl, rfl⟩)

theorem Inv.sent {c : Cfg} {E : Env} {s : Layer} (h : Inv c E s) (f : Bytes)
    (hf : (∃ r, c.role = .responder r) ∨ Spec.SessionFrame c f) : Inv c E (s.sent f) :=
  h.calm [.lowerTx f s.lowerReady] rfl (by simp [OpenProof.calm]) (.inr (.refl _)) (.inr (.refl _)) (.inl ⟨rfl, rfl⟩)
    (.inl (hf.imp_right fun hf => ⟨fun f' r hm => by
      simp only [List.mem_singleton, Obs.lowerTx.injEq] at hm
      rw [hm.1]
      exact hf, by simp⟩))

theorem Inv.sentIdle {c : Cfg} {E : Env} {s : Layer} (h : Inv c E s) (f : Bytes)
    (hf : s.ini.hs ≠ .waitForBeginReply) : Inv c E (s.sent f) :=
  h.calm [.lowerTx f s.lowerReady] rfl (by simp [OpenProof.calm]) (.inr (.refl _)) (.inr (.refl _)) (.inl ⟨rfl, rfl⟩) (.inr hf)

theorem sessionFrame_auth {c : Cfg} {S : Session} {now : Int} {clear : Bytes} {out : Formatted} (hs : S.frameWriter = c.fw)
    (h : (S.formatAuth now clear).2.2 = .ok out) : Spec.SessionFrame c out.frame := by
  unfold Session.formatAuth at h
  split at h
  · cases h
  rcases format_cases S now clear with ⟨rest, e, h'⟩ | ⟨f, n, h', _, _, _, _, _, _, _, _, _, hw⟩
  · rw [h'] at h; cases h
  · rw [h'] at h
    cases h
    unfold FrameWriter.write at hw
    split at hw
    · cases hw
    · rename_i w hw'
      rw [hs] at hw hw'
      exact ⟨_, w, hw', by injection hw with hw; exact hw.symm⟩

theorem sessionFrame_data {c : Cfg} {S : Session} {now : Int} {clear : Bytes} {out : Formatted} (hs : S.frameWriter = c.fw)
    (h : (S.formatData now clear).2.2 = .ok out) : Spec.SessionFrame c out.frame := by
  unfold Session.formatData at h
  split at h
  · cases h
  rcases format_cases S now clear with ⟨rest, e, h'⟩ | ⟨f, n, h', _, _, _, _, _, _, _, _, _, hw⟩
  · rw [h'] at h; cases h
  · rw [h'] at h
    cases h
    unfold FrameWriter.write at hw
    split at hw
    · cases hw
    · rename_i w hw'
      rw [hs] at hw hw'
      exact ⟨_, w, hw', by injection hw with hw; exact hw.symm⟩

theorem Inv.rx {c : Cfg} {E : Env} {s : Layer} (h : Inv c E s) : Inv c E s.rxNotified := by
  unfold Layer.rxNotified
  split
  · exact h.noted rfl
  · exact h

theorem Inv.tx {c : Cfg} {E : Env} {s : Layer} (h : Inv c E s) : Inv c E s.txNotified := by
  unfold Layer.txNotified
  split
  · exact h.noted rfl
  · exact h

theorem Inv.closing {c : Cfg} {E : Env} {s : Layer} (h : Inv c E s) : Inv c E s.closing := by
  unfold Layer.closing
  split
  · exact Inv.noted (by exact h.of_eq rfl rfl rfl (.inl ⟨rfl, rfl⟩)) rfl
  · exact h

theorem Inv.keyNoted {c : Cfg} {E : Env} {s : Layer} (h : Inv c E s) (hr : ∃ r, c.role = .responder r) (o : Option (UInt64 × Bytes)) :
    Inv c E (s.keyNoted o) := by
  cases o with
  | none => exact h
  | some id =>
    exact h.calm [.keyUsed id] rfl (by simp [OpenProof.calm]) (.inr (.refl _)) (.inr (.refl _)) (.inl ⟨rfl, rfl⟩) (.inl (.inl hr))

theorem Inv.hsReq {c : Cfg} {E : Env} {params : Params} {limits : SessionLimits} {s t : Layer} (h : Inv c E s)
    (hc : c.role = .initiator params limits) (hq : HsReq c limits s t) : Inv c E t := by
  cases hq with
  | deferred => exact h.of_eq rfl rfl rfl (.inl ⟨rfl, rfl⟩)
  | noKey f =>
    obtain ⟨h0, e0, c0, s0⟩ := h.own
    refine h.calm [] (by simp) (by simp) (.inr (.refl _)) (.inr (.refl _)) (.inr ⟨⟨h0, e0, c0, SameConfiguration.trans s0 ?_⟩, ?_⟩)
    · exact SameConfiguration.initializeNew ..
    · simp [Ini.start]
  | badConfig f =>
    obtain ⟨h0, e0, c0, s0⟩ := h.own
    refine h.calm (keyObs (s.ini.handshake.usedRecord f.record)) rfl ?_ (.inr (.refl _)) (.inr (.refl _))
      (.inr ⟨⟨h0, e0, c0, SameConfiguration.trans s0 ?_⟩, ?_⟩) (.inr (by simp))
    · cases s.ini.handshake.usedRecord f.record <;> simp [keyObs, OpenProof.calm]
    · exact SameConfiguration.initializeNew ..
    · simp
  | sent now f eph data written hf hi hr hn hw =>
    obtain ⟨h0, e0, c0, s0⟩ := h.own
    have hsame := SameConfiguration.trans s0 (SameConfiguration.initializeNew s.ini.handshake c.backend f.rnd f.record)
    have hk : Inv c E { s with log := s.log ++ keyObs (s.ini.handshake.usedRecord f.record) } := by
      refine h.calm (keyObs (s.ini.handshake.usedRecord f.record)) rfl ?_ (.inr (.refl _)) (.inr (.refl _)) (.inl ⟨rfl, rfl⟩)
        (.inr (by rw [show ({ s with log := _ } : Layer).ini = s.ini from rfl, hi]; nofun))
      cases s.ini.handshake.usedRecord f.record <;> simp [keyObs, OpenProof.calm]
    have hs := hk.sentIdle (c.fw.wrap written) (by rw [show ({ s with log := _ } : Layer).ini = s.ini from rfl, hi]; nofun)
    refine ⟨hs.pend, hs.act, hs.hist, ⟨h0, e0, c0, SameConfiguration.trans hsame (SameConfiguration.of_eq rfl rfl rfl)⟩, fun _ => ?_,
      hs.fwa, hs.fwp⟩
    refine ⟨params, limits, h0, _, written, now, s.ini.handshake.usedRecord f.record, s.log, [], hc, e0, c0, hsame, rfl, ?_, ?_,
      by simp, by simp, by simp, by simp⟩
    · refine ⟨s.ini.handshake, _, f.rnd, f.record, eph, data, s0, hf, Prod.ext rfl hn, rfl, hw, ?_⟩
      unfold InitiatorHandshake.initializeNew at hn ⊢
      unfold InitiatorHandshake.usedRecord
      cases hm : s.ini.handshake.mode <;> simp only [hm] at hn ⊢
      cases hrec : f.record with
      | none => rw [hrec] at hn; cases hn
      | some r => exact ⟨trivial, rfl⟩
    · show (s.log ++ _) ++ [.lowerTx _ s.lowerReady] = _
      rw [hr]

theorem Inv.newKeys {c : Cfg} {E : Env} {s t : Layer} (h : Inv c E s) (e1 e2 : List Obs) {k a p}
    (hl : t.log = s.log ++ e1 ++ .established k a p :: e2) (h1 : ∀ o ∈ e1, OpenProof.calm o = true)
    (h2 : ∀ o ∈ e2, OpenProof.calm o = true)
    (hj : c.backend.Lawful → Spec.EstablishedBy c E (s.log ++ e1) k a p e2)
    (hp : t.pending.keys = k ∧ t.pending.algorithms = a ∧ t.pending.param = p)
    (ha : SameSession s.active t.active) (hw : t.pending.frameWriter = s.pending.frameWriter)
    (hi : (∃ r, c.role = .responder r) ∧ t.ini.handshake = s.ini.handshake ∧ t.ini.hs = s.ini.hs ∨
      Own c E t.ini.handshake ∧ t.ini.hs ≠ .waitForBeginReply) : Inv c E t where
  fwa := ha.1.2.trans h.fwa
  fwp := hw.trans h.fwp
  pend := by
    intro _
    rw [hl, hp.1, hp.2.1, hp.2.2]
    refine ⟨_, e2, rfl, fun o ho => ?_⟩
    have := h2 o ho
    refine ⟨?_, ?_, ?_⟩ <;> (intros; rintro rfl; simp [OpenProof.calm] at this)
  act := by
    intro hv
    obtain ⟨⟨g1, -⟩, g2, g3, g4⟩ := ha
    rw [hl, g2, g3, g4, List.append_assoc]
    refine authenticated_append (h.act (g1 ▸ hv)) ?_
    simp [calm_no_close h1, calm_no_close h2]
  hist := by
    rw [hl, List.append_assoc]
    refine h.hist.append justified_mono ?_
    intro x o y he
    rw [List.append_eq_append_iff] at he
    rcases he with ⟨z, rfl, hz⟩ | ⟨z, rfl, hz⟩
    · cases z with
      | nil =>
        simp only [List.nil_append, List.cons.injEq] at hz
        obtain ⟨rfl, rfl⟩ := hz
        simpa [Justified] using hj
      | cons w z =>
        simp only [List.cons_append, List.cons.injEq] at hz
        exact justified_calm (h2 o (by rw [hz.2]; simp)) _ _
    · cases z with
      | nil =>
        simp only [List.nil_append, List.cons.injEq] at hz
        obtain ⟨rfl, rfl⟩ := hz
        simpa [Justified] using hj
      | cons w z =>
        simp only [List.cons_append, List.cons.injEq] at hz
        obtain ⟨rfl, rfl⟩ := hz
        exact justified_calm (h1 _ (by simp)) _ _
  own := by
    rcases hi with ⟨_, h1, _⟩ | ⟨h1, _⟩
    · rw [h1]; exact h.own
    · exact h1
  req := by
    intro hw
    rcases hi with ⟨⟨r, hr⟩, g1, g2⟩ | ⟨_, g2⟩
    · obtain ⟨params, limits, _, _, _, _, _, _, _, a1, _⟩ := h.req (g2 ▸ hw)
      rw [hr] at a1
      cases a1
    · exact absurd hw g2

/-- The session authenticated by the peer becomes active; the application is told. -/
theorem Inv.opened {c : Cfg} {E : Env} {s t : Layer} (h : Inv c E s) (m : Bytes) (e : List Obs) (payload : Bytes)
    (told : Bool) (hl : t.log = s.log ++ .recv m :: e ++ (if told then [.up .opened] else []))
    (hv : s.pending.valid = true) (hm : Spec.Authentic c.bufLen s.pending.keys s.pending.algorithms m 0 payload)
    (he : match c.role with
      | .initiator _ _ => e = []
      | .responder _ => ∃ frame, e = [.lowerTx frame true])
    (hp : t.pending.valid = false) (hpw : t.pending.frameWriter = s.active.frameWriter) (ha : SameSession s.pending t.active)
    (hi : t.ini.handshake = s.ini.handshake ∧ t.ini.hs = s.ini.hs) : Inv c E t := by
  have hcalm : ∀ o ∈ Obs.recv m :: e, OpenProof.calm o = true := by
    intro o ho
    rcases List.mem_cons.mp ho with rfl | ho
    · rfl
    · split at he
      · subst he; simp at ho
      · obtain ⟨f, rfl⟩ := he
        rw [List.mem_singleton.mp ho]; rfl
  have hclose : Obs.lowerClose ∉ Obs.recv m :: e ++ (if told then [.up .opened] else []) := by
    intro hc
    rcases List.mem_append.mp hc with hc | hc
    · exact calm_no_close hcalm hc
    · cases told <;> simp at hc
  have hkeys : ∀ k a p, Obs.established k a p ∉ Obs.recv m :: e ++ (if told then [.up .opened] else []) := by
    intro k a p hc
    rcases List.mem_append.mp hc with hc | hc
    · exact calm_no_keys hcalm _ _ _ hc
    · cases told <;> simp at hc
  have hl' : t.log = s.log ++ (.recv m :: e ++ (if told then [.up .opened] else [])) := by
    rw [hl, List.append_assoc]
  refine ⟨by rw [hp]; nofun, ?_, ?_, ?_, ?_, ha.1.2.trans h.fwp, hpw.trans h.fwa⟩
  · intro _
    rw [hl, ha.2.1, ha.2.2.1, ha.2.2.2]
    refine ⟨s.log, m, e ++ (if told then [.up .opened] else []), payload, by simp, h.pend hv, hm, ?_⟩
    exact fun hc => hclose (List.mem_cons_of_mem _ hc)
  · rw [hl]
    have h1 : Every (Justified c E) (s.log ++ .recv m :: e) := by
      refine h.hist.append justified_mono ?_
      intro e1 o e2 heq
      exact justified_calm (hcalm o (by rw [heq]; simp)) _ _
    cases told with
    | false => simpa using h1
    | true =>
      refine h1.snoc justified_mono ?_
      exact ⟨s.log, m, e, _, _, _, payload, rfl, h.pend hv, hm, he⟩
  · rw [hi.1]; exact h.own
  · intro hw
    rw [hi.1, hl']
    refine requestSent_append (h.req (hi.2 ▸ hw)) hclose hkeys ?_
    split at he
    · subst he
      exact .none (by cases told <;> simp)
    · exact .inl ⟨_, by assumption⟩

/-- The layer below closes. -/
theorem Inv.lowerClosed {c : Cfg} {E : Env} {s t : Layer} (h : Inv c E s) (e : List Obs)
    (hl : t.log = s.log ++ .lowerClose :: e) (he : ∀ o ∈ e, OpenProof.calm o = true)
    (hp : t.pending.valid = false) (ha : t.active.valid = false) (hpw : t.pending.frameWriter = s.pending.frameWriter)
    (haw : t.active.frameWriter = s.active.frameWriter) (hi : t.ini.handshake = s.ini.handshake)
    (hs : ∀ params limits, c.role = .initiator params limits → t.ini.hs = .idle)
    (hs' : ∀ r, c.role = .responder r → t.ini.hs = s.ini.hs) : Inv c E t where
  fwa := haw.trans h.fwa
  fwp := hpw.trans h.fwp
  pend := by rw [hp]; nofun
  act := by rw [ha]; nofun
  hist := by
    rw [hl]
    refine h.hist.append justified_mono ?_
    intro e1 o e2 heq
    cases e1 with
    | nil =>
      simp only [List.nil_append, List.cons.injEq] at heq
      obtain ⟨rfl, rfl⟩ := heq
      trivial
    | cons x e1 =>
      simp only [List.cons_append, List.cons.injEq] at heq
      exact justified_calm (he o (by rw [heq.2]; simp)) _ _
  own := hi ▸ h.own
  req := by
    intro hw
    cases hr : c.role with
    | initiator params limits =>
      rw [hs params limits hr] at hw
      cases hw
    | responder r =>
      obtain ⟨params, limits, _, _, _, _, _, _, _, a1, _⟩ := h.req (hs' r hr ▸ hw)
      rw [hr] at a1
      cases a1

/-- A reply arrives while a request is outstanding: what `initialize_session` does. -/
theorem reply_cases {c : Cfg} {E : Env} {s : Layer} (h : Inv c E s) (hw : s.ini.hs = .waitForBeginReply)
    {params : Params} {limits : SessionLimits} (hr : c.role = .initiator params limits)
    {m : Bytes} {msg : ReplyHandshakeBegin} (hm : ReplyHandshakeBegin.read m = .ok msg) (now : Int)
    {ih' : InitiatorHandshake} {s' : Session} {st' : Stats} {out : InitOutcome}
    (hx : s.ini.handshake.initializeSession c.backend c.caps msg m limits now s.pending s.stats = (ih', s', st', out)) :
    Own c E ih' ∧ (out ≠ .ok → s' = s.pending ∧ st' = s.stats) ∧
    (out = .ok → st'.numInit ≠ s.stats.numInit ∧ s'.frameWriter = s.pending.frameWriter ∧
      ∀ rest, Spec.EstablishedBy c E (s.log ++ [.recv m]) s'.keys s'.algorithms s'.param rest) := by
  obtain ⟨params', limits', h0, h1, request, t0, used, l1, l2, a1, a2, a3, a4, a5, a6, a7, a8, a9, a10⟩ := h.req hw
  rw [hr] at a1
  cases a1
  have hc : h1.Configured c.backend c.caps := by
    unfold InitiatorHandshake.Configured
    rw [a4.1, a4.2.1]
    exact a3
  have hsame : Spec.SameConfiguration s.ini.handshake ih' := by
    have := initializeSession_same s.ini.handshake c.backend c.caps msg m limits now s.pending s.stats
    rwa [hx] at this
  obtain ⟨h0', e0, c0, s0⟩ := h.own
  refine ⟨⟨h0', e0, c0, SameConfiguration.trans s0 hsame⟩, ?_⟩
  rw [a5] at hx
  obtain ⟨_, hno, hok⟩ := C25_initiator_session c.backend c.caps h1 hc request m msg limits t0 now s.pending s.stats
    _ _ _ _ hx
  refine ⟨hno, fun ho => ?_⟩
  obtain ⟨secret, start, g1, g2, g3, g4, g5, g6, g7⟩ := hok ho
  refine ⟨by rw [g7]; simp, by rw [g4], fun rest => ?_⟩
  unfold Spec.EstablishedBy
  rw [hr, g4]
  refine ⟨(configure_ok hc).2.1, ?_⟩
  exact ⟨l1, l2, request, m, msg, h0, h1.mode, used, secret, by rw [a7], a8, a9, hm, a2, a6,
    by rw [← a4.2.1]; exact (configure_ok hc).2.2.1, g1, rfl, rfl, rfl, a10⟩

theorem atomic (c : Cfg) (E : Env) : Atomic1 c E (Inv c E) := by
  refine ⟨fun _ => trivial, fun _ _ _ _ _ => trivial, fun _ _ _ _ _ => trivial, fun _ _ _ => trivial,
    fun _ _ _ _ => ⟨fun _ _ => trivial, fun _ _ _ => trivial⟩, ?init, ?tx, ?rx, ?tail, fun _ _ _ _ _ _ => trivial, ?top, ?closing, ?closed⟩
  case tx =>
    intro s s' _ _ h ha
    refine ⟨?_, trivial⟩
    cases ha with
    | nonceTrigger params limits s' hr _ hq =>
      exact Inv.hsReq (by exact h.of_eq rfl rfl rfl (.inl ⟨rfl, rfl⟩)) hr hq
    | startTxRefused d _ => exact h.noted rfl
    | startTxAccepted d _ => exact (h.noted (o := .startTx d true) rfl).of_eq rfl rfl rfl (.inl ⟨rfl, rfl⟩)
    | dataSent now out hc hout =>
      refine Inv.sent ?_ _ (.inr (sessionFrame_data h.fwa hout))
      exact h.calm [] (by simp) (by simp) (.inr (.refl _)) (.inr (same_formatData ..)) (.inl ⟨rfl, rfl⟩)
    | dataFailed now e hc _ =>
      refine Inv.closing ?_
      exact h.calm [] (by simp) (by simp) (.inr (.refl _)) (.inl rfl (same_formatData ..).1.2) (.inl ⟨rfl, rfl⟩)
  case rx =>
    intro s s' _ _ h ha
    refine ⟨?_, trivial⟩
    cases ha with
    | ignored m w _ => exact h.received m w
    | errorReply m w hh e frame hr hrole _ => exact (h.received m w).sent _ (.inl ⟨_, hrole⟩)
    | requestRefused m w hh msg now f e hr hrole _ _ he s1 h1 _ h2 =>
      rcases hproc : hh.process c.backend c.caps f.lookup f.rnd msg m now c.fw s.pending s.stats with
        ⟨s'', st'', used, res⟩
      rw [hproc] at he h1
      simp only at he h1
      obtain ⟨hno, _⟩ := C25_responder_session _ _ _ _ _ _ _ _ _ _ _ _ _ _ _ hproc
      obtain ⟨g1, g2⟩ := hno _ he
      have : Inv c E s1 := by
        subst h1
        refine Inv.keyNoted ?_ ⟨_, hrole⟩ _
        refine (h.received m w).of_eq rfl ?_ rfl (.inl ⟨rfl, rfl⟩)
        exact g1
      rcases h2 with rfl | ⟨fr, _, rfl⟩
      · exact this
      · exact this.sent _ (.inl ⟨_, hrole⟩)
    | requestAccepted m w hh msg now f frame hr hrole hf hm hver hok s1 h1 =>
      rcases hproc : hh.process c.backend c.caps f.lookup f.rnd msg m now c.fw s.pending s.stats with
        ⟨s'', st'', used, res⟩
      rw [hproc] at hok h1
      simp only at hok h1
      obtain ⟨_, hyes⟩ := C25_responder_session _ _ _ _ _ _ _ _ _ _ _ _ _ _ _ hproc
      obtain ⟨rep, secret, alg, g1, g2, g3, g4, g5⟩ := hyes frame hok
      have hr1 := hr.1
      rcases g5 with ⟨g5, g6, _⟩ | ⟨g5, g6, g7, g8⟩
      · rw [h1]
        refine Inv.sent ?_ _ (.inl ⟨_, hrole⟩)
        unfold Layer.establishedIf
        rw [if_neg (by simp [g6])]
        refine Inv.keyNoted ?_ ⟨_, hrole⟩ _
        exact (h.received m w).of_eq rfl g5 rfl (.inl ⟨rfl, rfl⟩)
      · have hne : st''.numInit ≠ s.stats.numInit := by rw [g8]; simp
        refine h.newKeys (.recv m :: keyObs used) [.lowerTx frame true] (k := s''.keys) (a := s''.algorithms)
          (p := s''.param) ?_ ?_ ?_ ?_ ?_ ?_ ?_ ?_
        · rw [h1]
          simp [hne, hr1]
        · cases used <;> simp [keyObs, OpenProof.calm]
        · simp [OpenProof.calm]
        · intro _
          unfold Spec.EstablishedBy
          rw [hrole, g5]
          refine ⟨(configure_ok g4).2.1, ?_⟩
          exact ⟨s.log, m, msg, used, f.lookup, f.rnd, secret, rep, [], by simp, hm, hver, hf, (configure_ok g4).2.2.1, g3,
            by rw [g2], rfl, rfl, rfl, g1⟩
        · rw [h1]; simp
        · rw [h1]; simpa using SameSession.refl _
        · rw [h1]; simp [g5]
        · rw [h1]; exact .inl ⟨⟨_, hrole⟩, by simp⟩
    | replyRefused m w params limits msg now hr hrole hm hw ho _ h1 =>
      rcases hproc : s.ini.handshake.initializeSession c.backend c.caps msg m limits now s.pending s.stats with
        ⟨ih', s'', st'', res⟩
      rw [hproc] at ho h1
      simp only at ho h1
      subst h1
      obtain ⟨g1, g2, _⟩ := reply_cases h hw hrole hm now hproc
      refine (h.received m w).calm [] (by simp) (by simp) (.inr ?_) (.inr (.refl _)) (.inr ⟨g1, ?_⟩)
      · simp only [(g2 (by rw [ho]; nofun)).1]
        exact .refl _
      · simp
    | replyAuthFailed m w params limits msg now now' e hr hrole hm hw ho s1 h1 he s2 h2 =>
      rcases hproc : s.ini.handshake.initializeSession c.backend c.caps msg m limits now s.pending s.stats with
        ⟨ih', s'', st'', res⟩
      rw [hproc] at ho h1
      simp only at ho h1
      obtain ⟨g1, _, g3⟩ := reply_cases h hw hrole hm now hproc
      obtain ⟨g4, gw, g5⟩ := g3 ho
      refine h.newKeys [.recv m] [] (k := _) (a := _) (p := _) ?_ (by simp [OpenProof.calm]) (by simp)
        (fun _ => g5 []) ?_ ?_ ?_ ?_
      · subst h2 h1
        simp [g4]
      · have := same_formatAuth s1.pending now' s1.tx.remainder
        subst h2
        simp only [authFormatted_pending, if_true]
        rw [this.2.1, this.2.2.1, this.2.2.2, h1]
        simp
      · subst h2 h1
        simpa using SameSession.refl _
      · have := (same_formatAuth s1.pending now' s1.tx.remainder).1.2
        subst h2
        simp only [authFormatted_pending, if_true]
        rw [this, h1]
        simpa using gw
      · subst h2 h1
        refine .inr ⟨by simpa [Ini.start] using g1, by simp⟩
    | replyAccepted m w params limits msg now now' out hr hrole hm hw ho s1 h1 he s2 h2 s3 h3 =>
      rcases hproc : s.ini.handshake.initializeSession c.backend c.caps msg m limits now s.pending s.stats with
        ⟨ih', s'', st'', res⟩
      rw [hproc] at ho h1
      simp only at ho h1
      obtain ⟨g1, _, g3⟩ := reply_cases h hw hrole hm now hproc
      obtain ⟨g4, gw, g5⟩ := g3 ho
      refine h.newKeys [.recv m] [.lowerTx out.frame true] (k := _) (a := _) (p := _) ?_ (by simp [OpenProof.calm])
        (by simp [OpenProof.calm]) (fun _ => g5 _) ?_ ?_ ?_ ?_
      · subst h3 h2 h1
        simp [g4, hr.1]
      · have := same_formatAuth s1.pending now' s1.tx.remainder
        subst h3 h2
        simp only [sent_pending, authTaken_pending, authFormatted_pending, if_true]
        rw [this.2.1, this.2.2.1, this.2.2.2, h1]
        simp
      · subst h3 h2 h1
        simpa using SameSession.refl _
      · have := (same_formatAuth s1.pending now' s1.tx.remainder).1.2
        subst h3 h2
        simp only [sent_pending, authTaken_pending, authFormatted_pending, if_true]
        rw [this, h1]
        simpa using gw
      · subst h3 h2 h1
        refine .inr ⟨by simpa [Ini.start] using g1, by simp⟩
    | replyError m w params limits _ _ _ =>
      exact (h.received m w).of_eq rfl rfl rfl (.inr ⟨rfl, by simp⟩)
    | initAuthRefused m w params limits msg now scratch e _ _ _ _ _ _ _ h1 =>
      subst h1
      exact (h.received m w).calm [] (by simp) (by simp) (.inr (same_validateAuth ..)) (.inr (.refl _))
        (.inr ⟨h.own, by simp⟩)
    | initAuthOk m w params limits msg now scratch payload hr hrole hm hn hw hv =>
      obtain ⟨v1, v2⟩ := authentic_auth hm hv
      refine h.opened m [] payload (!s.upperOpen) ?_ v1 v2 (by rw [hrole]) ?_ ?_ ?_ ?_
      · simp only [initAuthOk_log, received_log, received_upperOpen]
        by_cases hu : s.upperOpen = true <;> simp [hu]
      · simp [Session.reset]
      · simp [Session.reset]
      · simpa using same_validateAuth ..
      · simp [Ini.startSess]
    | respAuthRefused m w hh msg now scratch e =>
      exact (h.received m w).calm [] (by simp) (by simp) (.inr (same_validateAuth ..)) (.inr (.refl _))
        (.inl ⟨rfl, rfl⟩)
    | respAuthFailed m w hh msg now now' scratch payload e hr hrole hm hn hv hok s1 h1 he =>
      have hp := h.received m w
      have hfw := SameSession.trans (same_validateAuth s.pending s.stats msg now c.bufLen)
          (same_formatAuth s1.active now' s1.tx.remainder |> fun h => by
            subst h1
            exact h)
      refine ⟨?_, ?_, ?_, ?_, ?_, ?_, ?_⟩
      · subst h1; simp [Session.reset]
      · intro _
        have := SameSession.trans (same_validateAuth s.pending s.stats msg now c.bufLen)
          (same_formatAuth s1.active now' s1.tx.remainder |> fun h => by
            subst h1
            exact h)
        subst h1
        simp only [authFormatted_active, Bool.false_eq_true, if_false, authFormatted_log, activated_log,
          authValidated_log]
        rw [this.2.1, this.2.2.1, this.2.2.2]
        exact ⟨s.log, m, [], payload, rfl, h.pend hv, (authentic_auth hm hok).2, by simp⟩
      · subst h1; simpa using hp.hist
      · subst h1; simpa using h.own
      · subst h1; simpa using hp.req
      · subst h1; simpa using hfw.1.2.trans h.fwp
      · subst h1; simpa [Session.reset] using h.fwa
    | respAuthOk m w hh msg now now' scratch payload out hr hrole hm hn hv hok s1 h1 ho =>
      obtain ⟨v1, v2⟩ := authentic_auth hm hok
      refine h.opened m [.lowerTx out.frame true] payload (!s.upperOpen) ?_ v1 v2 (by rw [hrole]; exact ⟨_, rfl⟩)
        ?_ ?_ ?_ ?_
      · subst h1
        simp [hr.1]
        cases s.upperOpen <;> simp
      · subst h1
        simp [Session.reset]
      · subst h1
        simp [Session.reset]
      · have := SameSession.trans (same_validateAuth s.pending s.stats msg now c.bufLen)
          (same_formatAuth s1.active now' s1.tx.remainder |> fun h => by
            subst h1
            exact h)
        subst h1
        simpa using this
      · subst h1
        simp
    | dataRefused m w =>
      exact (h.received m w).calm [] (by simp) (by simp) (.inr (.refl _)) (.inr (same_validateData ..)) (.inl ⟨rfl, rfl⟩)
    | dataOk m w =>
      exact (h.received m w).calm [] (by simp) (by simp) (.inr (.refl _)) (.inr (same_validateData ..)) (.inl ⟨rfl, rfl⟩)
    | readEmpty => exact h.of_eq rfl rfl rfl (.inl ⟨rfl, rfl⟩)
    | discarded => exact (h.noted (o := .rxCall) rfl).of_eq rfl rfl rfl (.inl ⟨rfl, rfl⟩)
    | asked => exact h.noted rfl
    | readNothing => exact h.noted rfl
    | readData => exact ((h.noted (o := .rxCall) rfl).noted (o := .startRx s.payload) rfl).of_eq rfl rfl rfl (.inl ⟨rfl, rfl⟩)
  case tail =>
    intro o s s' _ _ _ _ h ha
    refine ⟨?_, trivial⟩
    cases ha with
    | initAuthPayload => exact Inv.rx (by exact h.of_eq rfl rfl rfl (.inl ⟨rfl, rfl⟩))
    | dataNotified => exact h.rx
    | initAuthEnd => exact h.of_eq rfl rfl rfl (.inr ⟨rfl, by simp⟩)
    | respAuthPayload => exact Inv.rx (by exact h.of_eq rfl rfl rfl (.inl ⟨rfl, rfl⟩))
  case top =>
    intro s s' _ _ h _ ha
    refine ⟨?_, trivial⟩
    have htimer : ∀ i : Ini, i.handshake = s.ini.handshake → i.hs = s.ini.hs →
        Inv c E { s with ini := if i.hs = .waitForBeginReply ∨ i.hs = .waitForAuthReply then
          { i.start .retry with hs := .waitForRetry } else i } := by
      intro i h1 h2
      split
      · exact h.of_eq rfl rfl rfl (.inr ⟨h1, by simp⟩)
      · exact h.of_eq rfl rfl rfl (.inl ⟨h1, h2⟩)
    have hretry : ∀ i : Ini, i.handshake = s.ini.handshake → i.hs = s.ini.hs →
        Inv c E { s with ini := { i with hs := if i.hs = .waitForRetry then .idle else i.hs } } := by
      intro i h1 h2
      by_cases hw : i.hs = .waitForRetry
      · exact h.of_eq rfl rfl rfl (.inr ⟨h1, by simp [hw]⟩)
      · exact h.of_eq rfl rfl rfl (.inl ⟨h1, by rw [if_neg hw]; exact h2⟩)
    cases ha with
    | ready b => exact (h.noted (o := .lowerReady b) rfl).of_eq rfl rfl rfl (.inl ⟨rfl, rfl⟩)
    | openedResponder => exact Inv.noted (by exact h.of_eq rfl rfl rfl (.inl ⟨rfl, rfl⟩)) rfl
    | openedInitiator params limits _ hr _ hq =>
      exact Inv.hsReq (by exact Inv.noted (by exact h.of_eq rfl rfl rfl (.inl ⟨rfl, rfl⟩)) rfl) hr hq
    | txComplete => exact h.of_eq rfl rfl rfl (.inl ⟨rfl, rfl⟩)
    | preTxReady params limits _ hr _ _ hq => exact h.hsReq hr hq
    | txNotified => exact h.tx
    | responseTimeout params limits hr _ i hi i' hi' => subst hi'; subst hi; exact htimer _ rfl rfl
    | retryTimeout params limits _ hr _ i hi hq => exact Inv.hsReq (hretry i (by rw [hi]) (by rw [hi])) hr hq
    | sessionTimeout params limits _ hr _ hq => exact Inv.hsReq (by exact h.of_eq rfl rfl rfl (.inl ⟨rfl, rfl⟩)) hr hq
    | orphanResponse params limits hr _ i hi i' hi' => subst hi'; subst hi; exact htimer _ rfl rfl
    | orphanRetry params limits _ hr _ i hi hq => exact Inv.hsReq (hretry i (by rw [hi]) (by rw [hi])) hr hq
    | orphanSession params limits _ hr _ hq => exact Inv.hsReq (by exact h.of_eq rfl rfl rfl (.inl ⟨rfl, rfl⟩)) hr hq
  case closing =>
    intro s _ _ h _ _
    refine h.lowerClosed _ (lowerClosing_log s c) ?_ (by simp [Session.reset]) (by simp [Session.reset])
      (by simp [Session.reset]) (by simp [Session.reset]) ?_ ?_ ?_
    · intro o; split <;> simp [OpenProof.calm]; rintro rfl; rfl
    · simp [lowerClosing_ini]; split <;> rfl
    · intro params limits hr
      simp [lowerClosing_ini, hr]
    · intro r hr
      simp [lowerClosing_ini, hr]
  case closed => exact fun _ s _ _ _ _ _ _ h _ => ⟨h.of_eq rfl rfl rfl (.inl ⟨rfl, rfl⟩), trivial⟩
  case init =>
    intro hh hc he
    refine ⟨⟨?_, ?_, ?_, ⟨hh, he, hc, SameConfiguration.refl hh⟩, ?_, rfl, rfl⟩, trivial⟩
    · simp [Layer.new, Session.new]
    · simp [Layer.new, Session.new]
    · intro pre o post h
      simp [Layer.new] at h
    · simp [Layer.new]

end OpenProof

/-- In every execution: whenever the application is told that the session is open, a handshake had been
completed before, and the last message read from below authenticates under the keys of the last such handshake
(which was not followed by a close of the layer below nor used to open the application before). -/
theorem C29_opened_only_after_handshake (c : Cfg) (E : Env) (s : Layer) (h : Observed c E s) (pre post : List Obs)
    (hlog : s.log = pre ++ .up .opened :: post) : Spec.OpenedAfter c pre :=
  ((OpenProof.atomic c E).observed h).hist pre (.up .opened) post hlog

/-- In every execution: whenever keys are installed, they are derived from exactly the request and the reply
exchanged (as sent or received) and the secret of the handshake mode. -/
theorem C29_keys_from_handshake (c : Cfg) (E : Env) (hb : c.backend.Lawful) (s : Layer) (h : Observed c E s)
    (pre post : List Obs) (k : SessionKeys) (a : SessionAlgorithms) (p : SessionParam)
    (hlog : s.log = pre ++ .established k a p :: post) : Spec.EstablishedBy c E pre k a p post :=
  ((OpenProof.atomic c E).observed h).hist pre (.established k a p) post hlog hb

/-- Both together: the application is open under keys that come from a handshake. -/
theorem C29_opened_under_handshake_keys (c : Cfg) (E : Env) (hb : c.backend.Lawful) (s : Layer)
    (h : Observed c E s) (pre post : List Obs) (hlog : s.log = pre ++ .up .opened :: post) :
    ∃ l1 k a p l2 m l3 payload, pre = l1 ++ .established k a p :: l2 ++ .recv m :: l3 ∧ Obs.lowerClose ∉ l2 ++ l3 ∧
      Spec.EstablishedBy c E l1 k a p (l2 ++ .recv m :: l3 ++ .up .opened :: post) ∧
      Spec.Authentic c.bufLen k a m 0 payload := by
  obtain ⟨before, m, sent, k, a, p, payload, rfl, ⟨l1, l2, rfl, h2⟩, h3, h4⟩ :=
    C29_opened_only_after_handshake c E s h pre post hlog
  refine ⟨l1, k, a, p, l2, m, sent, payload, by simp, ?_, ?_, h3⟩
  · rw [List.mem_append]
    rintro (hm | hm)
    · exact (h2 _ hm).1 rfl
    · split at h4
      · subst h4; simp at hm
      · obtain ⟨f, rfl⟩ := h4; simp at hm
  · refine C29_keys_from_handshake c E hb s h l1 _ k a p ?_
    rw [hlog]
    simp

/-- An initiator configured with a pre-shared key: every session key is derived from that key, a nonce generated
for that handshake and the nonce in the reply, and from the request and reply themselves. -/
theorem C29_initiator_shared_secret (c : Cfg) (E : Env) (hb : c.backend.Lawful) (secret : Bytes)
    (params : Params) (limits : SessionLimits) (hrole : c.role = .initiator params limits)
    (hcfg : ∀ h, E.config h → ∃ n, h.mode = .sharedSecret secret n) (s : Layer) (h : Observed c E s)
    (pre post : List Obs) (k : SessionKeys) (a : SessionAlgorithms) (p : SessionParam)
    (hlog : s.log = pre ++ .established k a p :: post) :
    ∃ request reply msg own, Obs.lowerTx (c.fw.wrap request) true ∈ pre ∧ pre.getLast? = some (.recv reply) ∧
      ReplyHandshakeBegin.read reply = .ok msg ∧ own.length = 32 ∧ msg.mode_ephemeral.length = 32 ∧
      k = ⟨(Spec.derive c.backend (Spec.salt c.backend request reply) (secret ++ own ++ msg.mode_ephemeral)).2,
        (Spec.derive c.backend (Spec.salt c.backend request reply) (secret ++ own ++ msg.mode_ephemeral)).1⟩ := by
  obtain ⟨_, he⟩ := C29_keys_from_handshake c E hb s h pre post k a p hlog
  rw [hrole] at he
  obtain ⟨l1, l2, request, reply, msg, h0, mode, used, sec, e1, e2, -, e3, e4, e5, -, e6, e7, e8⟩ := he
  obtain ⟨n0, hn0⟩ := hcfg h0 e4
  obtain ⟨h1, h2, rnd, record, eph, data, r1, r2, r3, r4, r5, -⟩ := e5
  have hm1 : ∃ n1, h1.mode = .sharedSecret secret n1 := by
    have := r1.2.2
    rw [hn0] at this
    cases hm : h1.mode with
    | sharedSecret key n =>
      rw [hm] at this
      exact ⟨n, by rw [this]⟩
    | qkd _ => rw [hm] at this; exact this.elim
    | publicKey _ _ _ => rw [hm] at this; exact this.elim
  obtain ⟨n1, hm1⟩ := hm1
  unfold InitiatorHandshake.initializeNew at r3
  rw [hm1] at r3
  simp only [Prod.mk.injEq] at r3
  have hmode : mode = .sharedSecret secret rnd := by rw [← r4, ← r3.1]
  rw [hmode] at e6
  exact ⟨request, reply, msg, rnd, by rw [e1]; simp, by rw [e1]; exact List.getLast?_concat .., e3, r2, e6.1, by rw [e7, e6.2]⟩

/-- A responder configured with a pre-shared key: likewise, with the nonce in the request and its own. -/
theorem C29_responder_shared_secret (c : Cfg) (E : Env) (hb : c.backend.Lawful) (secret : Bytes)
    (hrole : c.role = .responder (.sharedSecret secret)) (s : Layer) (h : Observed c E s)
    (pre post : List Obs) (k : SessionKeys) (a : SessionAlgorithms) (p : SessionParam)
    (hlog : s.log = pre ++ .established k a p :: post) :
    ∃ request reply msg own, pre.getLast? = some (.recv request) ∧ post.head? = some (.lowerTx (c.fw.wrap reply) true) ∧
      RequestHandshakeBegin.read request = .ok msg ∧ own.length = 32 ∧ msg.mode_ephemeral.length = 32 ∧
      k = ⟨(Spec.derive c.backend (Spec.salt c.backend request reply) (secret ++ msg.mode_ephemeral ++ own)).1,
        (Spec.derive c.backend (Spec.salt c.backend request reply) (secret ++ msg.mode_ephemeral ++ own)).2⟩ := by
  obtain ⟨_, he⟩ := C29_keys_from_handshake c E hb s h pre post k a p hlog
  rw [hrole] at he
  obtain ⟨before, request, msg, used, lookup, rnd, sec, reply, rest', e1, e2, e3, e4, -, e5, e6, e7, _⟩ := he
  obtain ⟨u, l, hs⟩ := e5
  subst u
  exact ⟨request, reply, msg, rnd, by rw [e1]; simp [keyObs], by rw [e6]; simp, e2, e4, l, by rw [e7, hs]⟩

namespace LayerExample

/-- What kind of observation. -/
def tag : Obs → Nat
  | .recv _ => 0 | .lowerTx _ _ => 1 | .up .opened => 2 | .up .closed => 3 | .up .txReady => 4 | .up .rxReady => 5
  | .established _ _ _ => 6 | .startTx _ _ => 7 | .startRx _ => 8 | .keyUsed _ => 9 | .lowerReady _ => 10
  | .lowerOpen => 11 | .lowerClose => 12 | .rxCall => 13

/-- A responder that reads a request, installs keys and replies, reads the authentication, answers it and opens
its application. -/
example : ∃ s, Observed res anyEnv s ∧ s.log.map tag = [10, 11, 0, 6, 1, 10, 0, 1, 2] := by
  obtain ⟨s, h1, h2⟩ := Exec.exists_of_map configured (c := res) (E := .tame) (h := hs) (script := resAuth)
    (f := fun s => s.log.map tag) (a := [10, 11, 0, 6, 1, 10, 0, 1, 2]) (by decide +kernel)
  exact ⟨s, h1.any, h2⟩

/-- An initiator that does the same from its side. -/
example : ∃ s, Observed ini anyEnv s ∧ s.log.map tag = [10, 11, 1, 10, 0, 6, 1, 10, 0, 2] := by
  obtain ⟨s, h1, h2⟩ := Exec.exists_of_map configured (c := ini) (E := .tame) (h := hs) (script := iniOpen)
    (f := fun s => s.log.map tag) (a := [10, 11, 1, 10, 0, 6, 1, 10, 0, 2]) (by decide +kernel)
  exact ⟨s, h1.any, h2⟩

end LayerExample

end SSP21.Crypto
