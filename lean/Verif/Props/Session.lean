import Verif.Session
import Verif.Spec.Wire
import Verif.Toy
/-
  Properties C16 - C20, C22, C37: sessions.
-/
namespace SSP21

/-! ## Histories of a session -/

/-- What can be done with a session. -/
inductive SOp
  | init (alg : SessionAlgorithms) (param : SessionParam) (keys : SessionKeys)
  | reset
  | validateAuth (msg : SessionData) (now : Int) (destLen : Nat)
  | validateData (msg : SessionData) (now : Int) (destLen : Nat)
  | formatAuth (now : Int) (clear : Bytes)
  | formatData (now : Int) (clear : Bytes)

/-- What is observed. -/
inductive SEvent
  | initialized (alg : SessionAlgorithms) (param : SessionParam) (keys : SessionKeys)
  | notInitialized
  | wasReset
  | acceptedAuth (msg : SessionData) (payload : Bytes)
  | acceptedData (msg : SessionData) (payload : Bytes)
  | rejected (msg : SessionData) (e : Err)
  | sent (f : Formatted) (clear rest : Bytes)
  | notSent (e : Err)

/-- One operation. -/
def SOp.step (s : Session) (st : Stats) : SOp → Session × Stats × SEvent
  | .init alg param keys =>
    match s.initialize st alg param keys with
    | (s', st', true) => (s', st', .initialized alg param keys)
    | (s', st', false) => (s', st', .notInitialized)
  | .reset => (s.reset, st, .wasReset)
  | .validateAuth msg now d =>
    match s.validateAuth st msg now d with
    | (s', st', .ok p) => (s', st', .acceptedAuth msg p)
    | (s', st', .error e) => (s', st', .rejected msg e)
  | .validateData msg now d =>
    match s.validateData st msg now d with
    | (s', st', .ok p) => (s', st', .acceptedData msg p)
    | (s', st', .error e) => (s', st', .rejected msg e)
  | .formatAuth now clear =>
    match s.formatAuth now clear with
    | (s', rest, .ok f) => (s', st, .sent f clear rest)
    | (s', _, .error e) => (s', st, .notSent e)
  | .formatData now clear =>
    match s.formatData now clear with
    | (s', rest, .ok f) => (s', st, .sent f clear rest)
    | (s', _, .error e) => (s', st, .notSent e)

/-- A history: final state and events. -/
def runOps (s : Session) (st : Stats) : List SOp → Session × Stats × List SEvent
  | [] => (s, st, [])
  | op :: ops =>
    let (s', st', e) := op.step s st
    let (s'', st'', es) := runOps s' st' ops
    (s'', st'', e :: es)

/-- The events of a history of a newly constructed session. -/
def events (b : Backend) (fw : FrameWriter) (ttlPad : UInt32) (ops : List SOp) : List SEvent :=
  (runOps (Session.new b fw ttlPad) {} ops).2.2

def SEvent.isInit : SEvent → Bool
  | .initialized .. => true
  | _ => false

/-- The nonces of the messages transmitted. -/
def sentNonces (es : List SEvent) : List Nat :=
  es.filterMap fun | .sent f _ _ => some f.msg.metadata.nonce.toNat | _ => none

/-- The nonces of the authentication messages accepted. -/
def authNonces (es : List SEvent) : List Nat :=
  es.filterMap fun | .acceptedAuth m _ => some m.metadata.nonce.toNat | _ => none

/-- The nonces of the data messages accepted. -/
def dataNonces (es : List SEvent) : List Nat :=
  es.filterMap fun | .acceptedData m _ => some m.metadata.nonce.toNat | _ => none

/-- The nonces of data messages that were accepted, or refused only because they were empty. -/
def consumedNonces (es : List SEvent) : List Nat :=
  es.filterMap fun
    | .acceptedData m _ => some m.metadata.nonce.toNat
    | .rejected m (.crypto .empty_user_data) => some m.metadata.nonce.toNat
    | _ => none

/-! ## helper lemmas -/

theorem runOps_append (s : Session) (st : Stats) (xs ys : List SOp) :
    runOps s st (xs ++ ys) =
      ((runOps (runOps s st xs).1 (runOps s st xs).2.1 ys).1,
       (runOps (runOps s st xs).1 (runOps s st xs).2.1 ys).2.1,
       (runOps s st xs).2.2 ++ (runOps (runOps s st xs).1 (runOps s st xs).2.1 ys).2.2) := by
  induction xs generalizing s st with
  | nil => rfl
  | cons x xs ih => simp only [List.cons_append, runOps, ih]

theorem runOps_length (s : Session) (st : Stats) (ops : List SOp) : (runOps s st ops).2.2.length = ops.length := by
  induction ops generalizing s st with
  | nil => rfl
  | cons x xs ih => simp [runOps, ih]

/-- A split of the events is a split of the operations. -/
theorem runOps_split (s : Session) (st : Stats) (ops : List SOp) (es₁ es₂ : List SEvent)
    (h : (runOps s st ops).2.2 = es₁ ++ es₂) :
    ∃ o₁ o₂, ops = o₁ ++ o₂ ∧ (runOps s st o₁).2.2 = es₁ ∧
      (runOps (runOps s st o₁).1 (runOps s st o₁).2.1 o₂).2.2 = es₂ := by
  refine ⟨ops.take es₁.length, ops.drop es₁.length, (List.take_append_drop _ _).symm, ?_⟩
  have h1 := runOps_append s st (ops.take es₁.length) (ops.drop es₁.length)
  rw [List.take_append_drop] at h1
  have h2 := congrArg (fun x => x.2.2) h1
  simp only at h2
  rw [h] at h2
  have hl : (runOps s st (ops.take es₁.length)).2.2.length = es₁.length := by
    rw [runOps_length, List.length_take]
    have := runOps_length s st ops
    rw [h] at this
    simp at this
    omega
  have := List.append_inj h2 hl.symm
  exact ⟨this.1.symm, this.2.symm⟩

/-- The algorithms a session can be configured with (Algorithms::Session::configure accepts only these,
cpp/libs/ssp21/src/crypto/Algorithms.cpp:8-40). -/
def SessionAlgorithms.Standard (b : Backend) (alg : SessionAlgorithms) : Prop :=
  (alg.verifyNonce = verifyStrictIncrement ∨ alg.verifyNonce = verifyGreaterThanLast) ∧
  (alg.mode = .hmacSha256Trunc16 b ∨ alg.mode = .aes256Gcm b)

namespace Spec

/-- Which nonce may follow the last one accepted: in the strict mode the next one, in the other any greater one. -/
def NonceRule : SessionNonceMode → Nat → Nat → Prop
  | .strict_increment, last, new => new = last + 1
  | .greater_than_last_rx, last, new => last < new
  | .undefined, _, _ => False

/-- A session uses the algorithms that the suite names. -/
def SuiteOf (b : Backend) (suite : CryptoSpec) (alg : SessionAlgorithms) : Prop :=
  (∀ last new : UInt16, alg.verifyNonce last new = true ↔ NonceRule suite.session_nonce_mode last.toNat new.toNat) ∧
  ((suite.session_crypto_mode = .hmac_sha256_16 ∧ alg.mode = .hmacSha256Trunc16 b) ∨
   (suite.session_crypto_mode = .aes_256_gcm ∧ alg.mode = .aes256Gcm b))

end Spec

theorem read_not_empty_error {b : Backend} {mode : SessionMode}
    (h : mode = .hmacSha256Trunc16 b ∨ mode = .aes256Gcm b) (key : Bytes) (msg : SessionData) (d : Nat) :
    mode.read key msg d ≠ .error .empty_user_data := by
  unfold SessionMode.read
  split
  · simp
  · rcases h with rfl | rfl
    · simp only [SessionMode.hmacSha256Trunc16, aeadMacDecrypt]
      repeat' split
      all_goals simp
    · simp only [SessionMode.aes256Gcm, gcmDecrypt]
      repeat' split
      all_goals simp

theorem validateWith_cases (s : Session) (st : Stats) (msg : SessionData) (now : Int) (d : Nat)
    (v : UInt16 → UInt16 → Bool) :
    (∃ st' e, s.validateWith st msg now d v = (s, st', .error e) ∧
      (e = .crypto .empty_user_data → s.algorithms.mode.read s.keys.rxKey msg d = .error .empty_user_data)) ∨
    (∃ st' p, s.validateWith st msg now d v = ({ s with rxNonce := msg.metadata.nonce }, st', .ok p) ∧
      s.valid = true ∧ s.algorithms.mode.read s.keys.rxKey msg d = .ok p ∧ s.param.sessionStart ≤ now ∧
      now - s.param.sessionStart ≤ s.param.maxSessionTime ∧
      now - s.param.sessionStart ≤ ms msg.metadata.valid_until_ms ∧
      msg.metadata.nonce ≤ s.param.maxNonce ∧ v s.rxNonce msg.metadata.nonce = true) := by
  unfold Session.validateWith
  split
  · left; exact ⟨_, _, rfl, by simp⟩
  · rename_i hv
    split
    · rename_i e he
      left; refine ⟨_, _, rfl, ?_⟩
      intro h; cases h; exact he
    · rename_i p hp
      split
      · left; exact ⟨_, _, rfl, by simp⟩
      · split
        · left; exact ⟨_, _, rfl, by simp⟩
        · split
          · left; exact ⟨_, _, rfl, by simp⟩
          · split
            · left; exact ⟨_, _, rfl, by simp⟩
            · split
              · left; exact ⟨_, _, rfl, by simp⟩
              · right
                rename_i h1 h2 h3 h4 h5
                refine ⟨_, p, rfl, by simpa using hv, hp, by omega, by omega, by omega, ?_, by simpa using h5⟩
                exact UInt16.not_lt.mp h4

/-- `validateData`: refused without any effect on the session, refused as empty, or accepted. -/
theorem validateData_cases (s : Session) (st : Stats) (msg : SessionData) (now : Int) (d : Nat) :
    (∃ st' e, s.validateData st msg now d = (s, st', .error e) ∧
      (e = .crypto .empty_user_data → s.algorithms.mode.read s.keys.rxKey msg d = .error .empty_user_data)) ∨
    (∃ st' p r, s.validateData st msg now d = ({ s with rxNonce := msg.metadata.nonce }, st', r) ∧
      (r = if p = [] then .error (.crypto .empty_user_data) else .ok p) ∧
      s.valid = true ∧ s.algorithms.mode.read s.keys.rxKey msg d = .ok p ∧ s.param.sessionStart ≤ now ∧
      now - s.param.sessionStart ≤ s.param.maxSessionTime ∧
      now - s.param.sessionStart ≤ ms msg.metadata.valid_until_ms ∧
      msg.metadata.nonce ≤ s.param.maxNonce ∧ s.algorithms.verifyNonce s.rxNonce msg.metadata.nonce = true) := by
  unfold Session.validateData
  rcases validateWith_cases s st msg now d s.algorithms.verifyNonce with ⟨st', e, h, he⟩ | ⟨st', p, h, rest⟩
  · left; rw [h]; exact ⟨_, _, rfl, he⟩
  · right
    rw [h]
    by_cases hp : p = []
    · simp only [hp, if_true] at rest ⊢
      exact ⟨_, [], _, rfl, rfl, rest⟩
    · simp only [hp, if_false]
      exact ⟨_, p, _, rfl, by rw [if_neg hp], rest⟩

/-- `formatNoNonceCheck`: refused (nothing but the cleartext changes) or a message with the next nonce. -/
theorem format_cases (s : Session) (now : Int) (clear : Bytes) :
    (∃ rest e, s.formatNoNonceCheck now clear = (s, rest, .error e)) ∨
    (∃ f : Formatted, ∃ n, s.formatNoNonceCheck now clear = ({ s with txNonce := s.txNonce + 1 }, clear.drop n, .ok f) ∧
      s.valid = true ∧ s.param.sessionStart ≤ now ∧
      now - s.param.sessionStart + ms s.ttlPadMs ≤ s.param.maxSessionTime ∧
      s.keys.txKey.length = 32 ∧ s.encryptBufferLen ≠ 0 ∧
      n = min (min clear.length s.encryptBufferLen) 1024 ∧
      f.msg.metadata.nonce = s.txNonce ∧
      f.msg.metadata.valid_until_ms =
        UInt32.ofNat ((now - s.param.sessionStart + ms s.ttlPadMs).tdiv 1000000).toNat ∧
      s.algorithms.mode.encrypt s.keys.txKey f.msg.metadata.nonce (metadataBytes f.msg.metadata) (clear.take n)
        s.encryptBufferLen = .ok (f.msg.user_data, f.msg.auth_tag) ∧
      s.frameWriter.write f.msg.write = .ok f.frame) := by
  unfold Session.formatNoNonceCheck
  split
  · left; exact ⟨_, _, rfl⟩
  · split
    · left; exact ⟨_, _, rfl⟩
    · simp only
      split
      · left; exact ⟨_, _, rfl⟩
      · split
        · left; exact ⟨_, _, rfl⟩
        · rename_i hv hs ht hp
          split
          · left; exact ⟨_, _, rfl⟩
          · rename_i msg rest hw
            split
            · left; exact ⟨_, _, rfl⟩
            · rename_i frame hf
              unfold SessionMode.write at hw
              split at hw
              · cases hw
              · split at hw
                · cases hw
                · simp only at hw
                  split at hw
                  · cases hw
                  · rename_i hk hb _ ct tag he
                    cases hw
                    right
                    have hn : calcUserDataTxLength clear.length s.encryptBufferLen 1024 =
                        min (min clear.length s.encryptBufferLen) 1024 := by
                      unfold calcUserDataTxLength; omega
                    rw [hn] at he
                    exact ⟨⟨frame, _⟩, _, by rw [hn], by simpa using hv, by omega, by omega, by simpa using hk,
                      hb, rfl, rfl, rfl, he, hf⟩

/-- Everything `step` can do to the state, except a successful initialisation. -/
theorem step_cases (s : Session) (st : Stats) (op : SOp) :
    (∃ alg param keys, op = .init alg param keys ∧ keys.valid = true ∧
      (op.step s st).2.2 = .initialized alg param keys ∧
      (op.step s st).1 = { s with rxNonce := 0, txNonce := 0, algorithms := alg, param := param, keys := keys, valid := true }) ∨
    ((op.step s st).1 = s ∧ ((op.step s st).2.2 = .notInitialized ∨ ∃ e, (op.step s st).2.2 = .notSent e)) ∨
    ((op.step s st).1 = s.reset ∧ (op.step s st).2.2 = .wasReset) ∨
    ((op.step s st).1 = s ∧ ∃ m e d, (op.step s st).2.2 = .rejected m e ∧
      (e = .crypto .empty_user_data → s.algorithms.mode.read s.keys.rxKey m d = .error .empty_user_data)) ∨
    (∃ m p, (op.step s st).1 = { s with rxNonce := m.metadata.nonce } ∧ (op.step s st).2.2 = .acceptedAuth m p ∧
      s.valid = true ∧ m.metadata.nonce ≤ s.param.maxNonce ∧ equalToZero s.rxNonce m.metadata.nonce = true) ∨
    (∃ m, (op.step s st).1 = { s with rxNonce := m.metadata.nonce } ∧
      ((∃ p, p ≠ [] ∧ (op.step s st).2.2 = .acceptedData m p) ∨
        (op.step s st).2.2 = .rejected m (.crypto .empty_user_data)) ∧
      s.valid = true ∧ m.metadata.nonce ≤ s.param.maxNonce ∧
      s.algorithms.verifyNonce s.rxNonce m.metadata.nonce = true) ∨
    (∃ f clear rest, (op.step s st).1 = { s with txNonce := s.txNonce + 1 } ∧ (op.step s st).2.2 = .sent f clear rest ∧
      s.valid = true ∧ f.msg.metadata.nonce = s.txNonce ∧ (s.txNonce = 0 ∨ s.txNonce < s.param.maxNonce)) := by
  cases op with
  | init alg param keys =>
    simp only [SOp.step, Session.initialize]
    cases hk : keys.valid with
    | false => right; left; simp
    | true => left; exact ⟨alg, param, keys, rfl, hk, rfl, rfl⟩
  | reset => right; right; left; exact ⟨rfl, rfl⟩
  | validateAuth m now d =>
    simp only [SOp.step, Session.validateAuth]
    rcases validateWith_cases s st m now d equalToZero with ⟨st', e, h, he⟩ | ⟨st', p, h, h1, h2, h3, h4, h5, h6, h7⟩
    · rw [h]; right; right; right; left; exact ⟨rfl, m, e, d, rfl, he⟩
    · rw [h]; right; right; right; right; left; exact ⟨m, p, rfl, rfl, h1, h6, h7⟩
  | validateData m now d =>
    simp only [SOp.step]
    rcases validateData_cases s st m now d with ⟨st', e, h, he⟩ | ⟨st', p, r, h, h0, h1, h2, h3, h4, h5, h6, h7⟩
    · rw [h]; right; right; right; left; exact ⟨rfl, m, e, d, rfl, he⟩
    · rw [h]; right; right; right; right; right; left
      by_cases hp : p = []
      · rw [if_pos hp] at h0; subst h0
        exact ⟨m, rfl, Or.inr rfl, h1, h6, h7⟩
      · rw [if_neg hp] at h0; subst h0
        exact ⟨m, rfl, Or.inl ⟨p, hp, rfl⟩, h1, h6, h7⟩
  | formatAuth now clear =>
    simp only [SOp.step, Session.formatAuth]
    by_cases hz : s.txNonce ≠ 0
    · rw [if_pos hz]; right; left; exact ⟨rfl, Or.inr ⟨_, rfl⟩⟩
    · rw [if_neg hz]
      rcases format_cases s now clear with ⟨rest, e, h⟩ | ⟨f, n, h, h1, h2, h3, h4, h5, h6, h7, _⟩
      · rw [h]; right; left; exact ⟨rfl, Or.inr ⟨_, rfl⟩⟩
      · rw [h]; right; right; right; right; right; right
        exact ⟨f, clear, _, rfl, rfl, h1, h7, Or.inl (by simpa using hz)⟩
  | formatData now clear =>
    simp only [SOp.step, Session.formatData]
    by_cases hz : s.txNonce ≥ s.param.maxNonce
    · rw [if_pos hz]; right; left; exact ⟨rfl, Or.inr ⟨_, rfl⟩⟩
    · rw [if_neg hz]
      rcases format_cases s now clear with ⟨rest, e, h⟩ | ⟨f, n, h, h1, h2, h3, h4, h5, h6, h7, _⟩
      · rw [h]; right; left; exact ⟨rfl, Or.inr ⟨_, rfl⟩⟩
      · rw [h]; right; right; right; right; right; right
        exact ⟨f, clear, _, rfl, rfl, h1, h7, Or.inr (by
          rw [ge_iff_le, UInt16.not_le] at hz; exact hz)⟩

/-! ## C16 — transmitted nonces -/

theorem sent_from (ops : List SOp) : ∀ (s : Session) (st : Stats),
    (∀ e ∈ (runOps s st ops).2.2, e.isInit = false) →
    ∃ k, sentNonces (runOps s st ops).2.2 = List.range' s.txNonce.toNat k ∧
      s.txNonce.toNat + k ≤ max s.txNonce.toNat (max s.param.maxNonce.toNat 1) := by
  induction ops with
  | nil => intro s st _; exact ⟨0, rfl, by omega⟩
  | cons op ops ih =>
    intro s st h
    simp only [runOps] at h ⊢
    have h1 : (op.step s st).2.2.isInit = false := h _ (by simp)
    have h2 : ∀ e ∈ (runOps (op.step s st).1 (op.step s st).2.1 ops).2.2, e.isInit = false :=
      fun e he => h e (by simp [he])
    have ih := ih (op.step s st).1 (op.step s st).2.1 h2
    rcases step_cases s st op with ⟨_, _, _, _, _, h3, _⟩ | ⟨h3, h4⟩ | ⟨h3, h4⟩ | ⟨h3, _, _, _, h4, _⟩ |
      ⟨m, p, h3, h4, _⟩ | ⟨m, h3, h4, _⟩ | ⟨f, clear, rest, h3, h4, h5, h6, h7⟩
    · rw [h3] at h1; cases h1
    · rcases h4 with h4 | ⟨e, h4⟩ <;> rw [h3] at ih <;> rw [h3, h4] <;> exact ih
    · rw [h3] at ih; rw [h3, h4]; exact ih
    · rw [h3] at ih; rw [h3, h4]; exact ih
    · rw [h3] at ih; rw [h3, h4]; exact ih
    · rw [h3] at ih
      rcases h4 with ⟨p, _, h4⟩ | h4 <;> rw [h3, h4] <;> exact ih
    · rw [h3] at ih
      rw [h3, h4]
      obtain ⟨k, k1, k2⟩ := ih
      have hlt : s.txNonce.toNat < 65535 := by
        rcases h7 with h7 | h7
        · rw [h7]; decide
        · have := UInt16.lt_iff_toNat_lt.mp h7
          have := s.param.maxNonce.toNat_lt
          omega
      have hadd : (s.txNonce + 1).toNat = s.txNonce.toNat + 1 := by
        rw [UInt16.toNat_add]; simp; omega
      simp only [hadd] at k1 k2
      refine ⟨k + 1, ?_, ?_⟩
      · simp only [sentNonces, List.filterMap_cons] at k1 ⊢
        rw [k1, h6, List.range'_succ]
      · rcases h7 with h7 | h7
        · rw [h7] at k2 ⊢; simp at k2 ⊢; omega
        · have := UInt16.lt_iff_toNat_lt.mp h7
          omega

/-- The session at the beginning of a segment of a history. -/
theorem segment {b : Backend} {fw : FrameWriter} {ttlPad : UInt32} {ops : List SOp}
    {before between after : List SEvent} {alg : SessionAlgorithms} {param : SessionParam} {keys : SessionKeys}
    (h : events b fw ttlPad ops = before ++ .initialized alg param keys :: between ++ after) :
    ∃ s st ops', (runOps s st ops').2.2 = between ∧ s.rxNonce = 0 ∧ s.txNonce = 0 ∧ s.algorithms = alg ∧
      s.param = param ∧ s.keys = keys ∧ s.valid = true ∧ keys.valid = true := by
  unfold events at h
  rw [List.append_assoc, List.cons_append] at h
  obtain ⟨o₁, o₂, _, _, h2⟩ := runOps_split _ _ _ _ _ h
  cases o₂ with
  | nil => simp [runOps] at h2
  | cons op o₂ =>
    simp only [runOps, List.cons.injEq] at h2
    obtain ⟨h2, h3⟩ := h2
    obtain ⟨o₃, o₄, _, h4, _⟩ := runOps_split _ _ _ _ _ h3
    rcases step_cases (runOps (Session.new b fw ttlPad) {} o₁).1 (runOps (Session.new b fw ttlPad) {} o₁).2.1 op with
      ⟨alg', param', keys', _, g2, g3, g4⟩ | ⟨_, g3⟩ | ⟨_, g3⟩ | ⟨_, _, _, _, g3, _⟩ | ⟨m, p, _, g3, _⟩ |
      ⟨m, _, g3, _⟩ | ⟨f, clear, rest, _, g3, _⟩
    · rw [h2] at g3; cases g3
      rw [g4] at h4
      exact ⟨_, _, o₃, h4, rfl, rfl, rfl, rfl, rfl, rfl, g2⟩
    · rw [h2] at g3; rcases g3 with g3 | ⟨_, g3⟩ <;> cases g3
    · rw [h2] at g3; cases g3
    · rw [h2] at g3; cases g3
    · rw [h2] at g3; cases g3
    · rw [h2] at g3; rcases g3 with ⟨_, _, g3⟩ | g3 <;> cases g3
    · rw [h2] at g3; cases g3

/-- Between two successful initialisations the nonces transmitted are exactly 0, 1, 2, ..., in this order,
none of them at or above the negotiated maximum (except that the first message, number 0, is allowed by a
maximum of 0). -/
theorem C16_tx_nonces_count_up (b : Backend) (fw : FrameWriter) (ttlPad : UInt32) (ops : List SOp)
    (before between after : List SEvent) (alg : SessionAlgorithms) (param : SessionParam) (keys : SessionKeys)
    (h : events b fw ttlPad ops = before ++ .initialized alg param keys :: between ++ after)
    (hb : ∀ e ∈ between, e.isInit = false) :
    ∃ k, sentNonces between = List.range k ∧ k ≤ max param.maxNonce.toNat 1 := by
  obtain ⟨s, st, ops', h1, h2, h3, h4, h5, h6, h7, h8⟩ := segment h
  rw [← h1] at hb
  obtain ⟨k, k1, k2⟩ := sent_from ops' s st hb
  rw [h3, UInt16.toNat_zero] at k1 k2
  rw [h5] at k2
  exact ⟨k, by rw [← h1, k1, List.range_eq_range'], by omega⟩

/-- Consequently no two messages transmitted between two initialisations carry the same nonce. -/
theorem C16_tx_nonces_distinct (b : Backend) (fw : FrameWriter) (ttlPad : UInt32) (ops : List SOp)
    (before between after : List SEvent) (alg : SessionAlgorithms) (param : SessionParam) (keys : SessionKeys)
    (h : events b fw ttlPad ops = before ++ .initialized alg param keys :: between ++ after)
    (hb : ∀ e ∈ between, e.isInit = false) : (sentNonces between).Nodup := by
  obtain ⟨k, hk, _⟩ := C16_tx_nonces_count_up b fw ttlPad ops before between after alg param keys h hb
  rw [hk]; exact List.nodup_range

/-- Before the first initialisation nothing is transmitted and nothing is accepted. -/
theorem C16_nothing_before_initialisation (b : Backend) (fw : FrameWriter) (ttlPad : UInt32) (ops : List SOp)
    (before after : List SEvent) (h : events b fw ttlPad ops = before ++ after)
    (hb : ∀ e ∈ before, e.isInit = false) :
    sentNonces before = [] ∧ authNonces before = [] ∧ dataNonces before = [] := by
  obtain ⟨o₁, o₂, -, h1, -⟩ := runOps_split _ _ _ _ _ h
  subst h1
  clear h
  generalize hs : Session.new b fw ttlPad = s at hb ⊢
  have hv : s.valid = false := by rw [← hs]; rfl
  clear hs
  generalize ({} : Stats) = st at hb ⊢
  induction o₁ generalizing s st with
  | nil => exact ⟨rfl, rfl, rfl⟩
  | cons op ops ih =>
    simp only [runOps] at hb ⊢
    have h1 : (op.step s st).2.2.isInit = false := hb _ (by simp)
    have h2 : ∀ e ∈ (runOps (op.step s st).1 (op.step s st).2.1 ops).2.2, e.isInit = false :=
      fun e he => hb e (by simp [he])
    rcases step_cases s st op with ⟨_, _, _, _, _, h3, _⟩ | ⟨h3, h4⟩ | ⟨h3, h4⟩ | ⟨h3, _, _, _, h4, _⟩ |
      ⟨m, p, h3, h4, h5, _⟩ | ⟨m, h3, h4, h5, _⟩ | ⟨f, clear, rest, h3, h4, h5, h6, h7⟩
    · rw [h3] at h1; cases h1
    · have := ih _ (by rw [h3]; exact hv) _ h2
      rcases h4 with h4 | ⟨e, h4⟩ <;> rw [h4] <;> exact this
    · have := ih _ (by rw [h3]; rfl) _ h2
      rw [h4]; exact this
    · have := ih _ (by rw [h3]; exact hv) _ h2
      rw [h4]; exact this
    · rw [hv] at h5; cases h5
    · rw [hv] at h5; cases h5
    · rw [hv] at h5; cases h5

/-! ## C17 — accepted nonces -/

theorem strict_iff (last new : UInt16) : verifyStrictIncrement last new = true ↔ new.toNat = last.toNat + 1 := by
  unfold verifyStrictIncrement
  split
  · rename_i h
    subst h
    simp
    have := new.toNat_lt
    omega
  · simp

theorem greater_iff (last new : UInt16) : verifyGreaterThanLast last new = true ↔ last.toNat < new.toNat := by
  simp [verifyGreaterThanLast, UInt16.lt_iff_toNat_lt]

/-- A suite with strict nonces means strict nonces. -/
theorem Spec.SuiteOf.strict {b : Backend} {suite : CryptoSpec} {alg : SessionAlgorithms} (h : SuiteOf b suite alg)
    (hs : suite.session_nonce_mode = .strict_increment) : alg.verifyNonce = verifyStrictIncrement := by
  funext last new
  have h1 := h.1 last new
  rw [hs] at h1
  exact Bool.eq_iff_iff.mpr (h1.trans (strict_iff last new).symm)

theorem standard_lt {b : Backend} {alg : SessionAlgorithms} (h : alg.Standard b) {last new : UInt16}
    (hv : alg.verifyNonce last new = true) : last.toNat < new.toNat := by
  rcases h.1 with h | h <;> rw [h] at hv
  · rw [strict_iff] at hv; omega
  · rw [greater_iff] at hv; omega

theorem dataNonces_sublist (es : List SEvent) : (dataNonces es).Sublist (consumedNonces es) := by
  induction es with
  | nil => exact List.Sublist.refl _
  | cons e es ih =>
    cases e with
    | acceptedData m p => exact List.Sublist.cons_cons _ ih
    | rejected m e =>
      simp only [dataNonces, consumedNonces, List.filterMap_cons] at ih ⊢
      split
      · exact ih
      · exact List.Sublist.cons _ ih
    | _ => exact ih

theorem consumed_from (b : Backend) (ops : List SOp) : ∀ (s : Session) (st : Stats), s.algorithms.Standard b →
    (∀ e ∈ (runOps s st ops).2.2, e.isInit = false) →
    List.Pairwise (· < ·) (s.rxNonce.toNat :: consumedNonces (runOps s st ops).2.2) ∧
    (∀ n ∈ consumedNonces (runOps s st ops).2.2, n ≤ s.param.maxNonce.toNat) ∧
    (s.algorithms.verifyNonce = verifyStrictIncrement →
      ∃ k, consumedNonces (runOps s st ops).2.2 = List.range' (s.rxNonce.toNat + 1) k) ∧
    (∀ n ∈ authNonces (runOps s st ops).2.2, n = 0 ∧ s.rxNonce = 0) := by
  induction ops with
  | nil => intro s st hstd _; exact ⟨by simp [runOps, consumedNonces], by simp [runOps, consumedNonces],
      fun _ => ⟨0, rfl⟩, by simp [runOps, authNonces]⟩
  | cons op ops ih =>
    intro s st hstd h
    simp only [runOps] at h ⊢
    have h1 : (op.step s st).2.2.isInit = false := h _ (by simp)
    have h2 : ∀ e ∈ (runOps (op.step s st).1 (op.step s st).2.1 ops).2.2, e.isInit = false :=
      fun e he => h e (by simp [he])
    have ih := ih (op.step s st).1 (op.step s st).2.1
    rcases step_cases s st op with ⟨_, _, _, _, _, h3, _⟩ | ⟨h3, h4⟩ | ⟨h3, h4⟩ | ⟨h3, m, e, d, h4, he⟩ |
      ⟨m, p, h3, h4, h5, h6, h7⟩ | ⟨m, h3, h4, h5, h6, h7⟩ | ⟨f, clear, rest, h3, h4, h5, h6, h7⟩
    · rw [h3] at h1; cases h1
    · rw [h3] at ih h2; have ih := ih hstd h2
      rcases h4 with h4 | ⟨e, h4⟩ <;> rw [h3, h4] <;> exact ih
    · rw [h3] at ih h2; have ih := ih hstd h2
      rw [h3, h4]; exact ih
    · rw [h3] at ih h2; have ih := ih hstd h2
      rw [h3, h4]
      have hne : e ≠ .crypto .empty_user_data := fun hx => read_not_empty_error hstd.2 _ _ _ (he hx)
      have hc : consumedNonces (SEvent.rejected m e :: (runOps s (op.step s st).2.1 ops).2.2) =
          consumedNonces (runOps s (op.step s st).2.1 ops).2.2 := by
        simp only [consumedNonces, List.filterMap_cons]
        split
        · rfl
        · rename_i x hx
          split at hx
          · rename_i heq; cases heq
          · rename_i heq; cases heq; exact absurd rfl hne
          · cases hx
      rw [hc]; exact ih
    · rw [h3] at ih h2; have ih := ih hstd h2
      rw [h3, h4]
      simp only [equalToZero, Bool.and_eq_true, beq_iff_eq] at h7
      obtain ⟨h7, h8⟩ := h7
      simp only [h8] at ih ⊢
      refine ⟨by rw [h7]; exact ih.1, ih.2.1, by rw [h7]; exact ih.2.2.1, ?_⟩
      intro n hn
      simp only [authNonces, List.filterMap_cons, List.mem_cons] at hn
      rcases hn with hn | hn
      · rw [hn, h8]; exact ⟨rfl, h7⟩
      · exact ⟨(ih.2.2.2 n hn).1, h7⟩
    · rw [h3] at ih h2; have ih := ih hstd h2
      have hlt := standard_lt hstd h7
      have hc : consumedNonces ((op.step s st).2.2 :: (runOps { s with rxNonce := m.metadata.nonce } (op.step s st).2.1 ops).2.2) =
          m.metadata.nonce.toNat :: consumedNonces (runOps { s with rxNonce := m.metadata.nonce } (op.step s st).2.1 ops).2.2 := by
        rcases h4 with ⟨p, _, h4⟩ | h4 <;> rw [h4] <;> rfl
      have ha : authNonces ((op.step s st).2.2 :: (runOps { s with rxNonce := m.metadata.nonce } (op.step s st).2.1 ops).2.2) =
          authNonces (runOps { s with rxNonce := m.metadata.nonce } (op.step s st).2.1 ops).2.2 := by
        rcases h4 with ⟨p, _, h4⟩ | h4 <;> rw [h4] <;> rfl
      rw [h3, hc, ha]
      simp only at ih
      obtain ⟨i1, i2, i3, i4⟩ := ih
      refine ⟨?_, ?_, ?_, ?_⟩
      · rw [List.pairwise_cons]
        refine ⟨?_, i1⟩
        intro x hx
        rcases List.mem_cons.mp hx with rfl | hx
        · exact hlt
        · have := (List.pairwise_cons.mp i1).1 x hx
          omega
      · intro n hn
        rcases List.mem_cons.mp hn with rfl | hn
        · exact UInt16.le_iff_toNat_le.mp h6
        · exact i2 n hn
      · intro hs
        obtain ⟨k, hk⟩ := i3 hs
        rw [hs, strict_iff] at h7
        refine ⟨k + 1, ?_⟩
        rw [hk, List.range'_succ, h7]
      · intro n hn
        have := (i4 n hn).2
        rw [this] at hlt
        simp at hlt
    · rw [h3] at ih h2; have ih := ih hstd h2
      rw [h3, h4]; exact ih

/-- Between two successful initialisations, whatever is received: the nonces of the data messages accepted
are strictly increasing, positive and at most the negotiated maximum (so no message is accepted twice); in
strict mode the nonces consumed are exactly 1, 2, 3, ... (a gap only where an authentic but empty message
was refused); authentication messages are accepted with nonce 0 only. -/
theorem C17_rx_nonces_increase (b : Backend) (fw : FrameWriter) (ttlPad : UInt32) (ops : List SOp)
    (before between after : List SEvent) (alg : SessionAlgorithms) (param : SessionParam) (keys : SessionKeys)
    (h : events b fw ttlPad ops = before ++ .initialized alg param keys :: between ++ after)
    (hb : ∀ e ∈ between, e.isInit = false) (halg : alg.Standard b) :
    (dataNonces between).Pairwise (· < ·) ∧ (∀ n ∈ dataNonces between, 0 < n ∧ n ≤ param.maxNonce.toNat) ∧
    (alg.verifyNonce = verifyStrictIncrement → ∃ k, consumedNonces between = List.range' 1 k) ∧
    (∀ n ∈ authNonces between, n = 0) := by
  obtain ⟨s, st, ops', h1, h2, h3, h4, h5, h6, h7, h8⟩ := segment h
  rw [← h1] at hb
  obtain ⟨k1, k2, k3, k4⟩ := consumed_from b ops' s st (by rw [h4]; exact halg) hb
  rw [h1, h2, UInt16.toNat_zero] at k1 k3
  rw [h1] at k2 k4
  rw [h5] at k2
  rw [h4] at k3
  have hsub := dataNonces_sublist between
  rw [List.pairwise_cons] at k1
  exact ⟨k1.2.sublist hsub, fun n hn => ⟨k1.1 n (hsub.subset hn), k2 n (hsub.subset hn)⟩, by simpa using k3,
    fun n hn => (k4 n hn).1⟩

/-- Once a data message has been consumed, no authentication message is accepted any more. -/
theorem C17_auth_only_first (b : Backend) (fw : FrameWriter) (ttlPad : UInt32) (ops : List SOp)
    (before between₁ between₂ after : List SEvent) (alg : SessionAlgorithms) (param : SessionParam) (keys : SessionKeys)
    (h : events b fw ttlPad ops = before ++ .initialized alg param keys :: (between₁ ++ between₂) ++ after)
    (hb : ∀ e ∈ between₁ ++ between₂, e.isInit = false) (halg : alg.Standard b)
    (hd : dataNonces between₁ ≠ []) : authNonces between₂ = [] := by
  obtain ⟨s, st, ops', h1, h2, h3, h4, h5, h6, h7, h8⟩ := segment h
  obtain ⟨o₁, o₂, _, g1, g2⟩ := runOps_split _ _ _ _ _ h1
  have hrx : ∀ (ops : List SOp) (s : Session) (st : Stats), s.algorithms.Standard b →
      (∀ e ∈ (runOps s st ops).2.2, e.isInit = false) →
      ((runOps s st ops).1.algorithms = s.algorithms) ∧ s.rxNonce.toNat ≤ (runOps s st ops).1.rxNonce.toNat ∧
      (dataNonces (runOps s st ops).2.2 ≠ [] → (runOps s st ops).1.rxNonce ≠ 0) := by
    intro ops
    induction ops with
    | nil => intro s st _ _; exact ⟨rfl, Nat.le_refl _, by simp [runOps, dataNonces]⟩
    | cons op ops ih =>
      intro s st hstd h
      simp only [runOps] at h ⊢
      have h1 : (op.step s st).2.2.isInit = false := h _ (by simp)
      have h2 : ∀ e ∈ (runOps (op.step s st).1 (op.step s st).2.1 ops).2.2, e.isInit = false :=
        fun e he => h e (by simp [he])
      have ih := ih (op.step s st).1 (op.step s st).2.1
      rcases step_cases s st op with ⟨_, _, _, _, _, h3, _⟩ | ⟨h3, h4⟩ | ⟨h3, h4⟩ | ⟨h3, m, e, d, h4, he⟩ |
        ⟨m, p, h3, h4, h5, h6, h7⟩ | ⟨m, h3, h4, h5, h6, h7⟩ | ⟨f, clear, rest, h3, h4, h5, h6, h7⟩
      · rw [h3] at h1; cases h1
      · rw [h3] at ih h2; have ih := ih hstd h2
        rcases h4 with h4 | ⟨e, h4⟩ <;> rw [h3, h4] <;> exact ih
      · rw [h3] at ih h2; have ih := ih hstd h2
        rw [h3, h4]; exact ih
      · rw [h3] at ih h2; have ih := ih hstd h2
        rw [h3, h4]; exact ih
      · rw [h3] at ih h2; have ih := ih hstd h2
        rw [h3, h4]
        simp only [equalToZero, Bool.and_eq_true, beq_iff_eq] at h7
        refine ⟨ih.1, by rw [h7.1]; simp, ih.2.2⟩
      · rw [h3] at ih h2; have ih := ih hstd h2
        have hlt := standard_lt hstd h7
        rw [h3]
        refine ⟨ih.1, Nat.le_trans (Nat.le_of_lt hlt) ih.2.1, ?_⟩
        intro _ hz
        have := ih.2.1
        rw [hz] at this
        simp at this
        rw [this] at hlt
        simp at hlt
      · rw [h3] at ih h2; have ih := ih hstd h2
        rw [h3, h4]; exact ih
  have hb1 : ∀ e ∈ (runOps s st o₁).2.2, e.isInit = false := by rw [g1]; intro e he; exact hb e (by simp [he])
  obtain ⟨r1, _, r3⟩ := hrx o₁ s st (by rw [h4]; exact halg) hb1
  have r3 := r3 (by rw [g1]; exact hd)
  have hb2 : ∀ e ∈ (runOps (runOps s st o₁).1 (runOps s st o₁).2.1 o₂).2.2, e.isInit = false := by
    rw [g2]; intro e he; exact hb e (by simp [he])
  have key := (consumed_from b o₂ _ _ (by rw [r1, h4]; exact halg) hb2).2.2.2
  rw [g2] at key
  cases ha : authNonces between₂ with
  | nil => rfl
  | cons n ns => exact absurd (key n (by simp [ha])).2 r3

/-! ### a concrete history meeting the hypotheses of C16 and C17 -/

namespace SessionExample
def key : Bytes := List.replicate 32 1
def fw : FrameWriter := ⟨4092, id⟩
def alg : SessionAlgorithms := ⟨verifyStrictIncrement, .hmacSha256Trunc16 Toy.backend⟩
def param : SessionParam := ⟨0, 3, ms 60000⟩
/-- A message as another session with the same key would send it. -/
def message (n : UInt16) (data : Bytes) : SessionData :=
  ⟨⟨n, 10000⟩, data, (Toy.backend.hmac key (macInput (metadataBytes ⟨n, 10000⟩) data)).take 16⟩
def ops : List SOp :=
  [.formatData 0 [1], .init alg param ⟨key, key⟩, .formatAuth 5 [], .validateAuth (message 0 []) 6 100,
   .formatData 7 [1, 2], .validateData (message 1 [9]) 8 100, .validateData (message 1 [9]) 9 100,
   .validateData (message 2 [8]) 9 100, .formatData 10 [3], .formatData 11 [4]]

/-- Nonces 0, 1, 2 are sent (3 is the maximum), the replay is refused. -/
example :
    let es := events Toy.backend fw 10000 ops
    es.map SEvent.isInit = [false, true, false, false, false, false, false, false, false, false] ∧
    sentNonces (es.drop 2) = [0, 1, 2] ∧ authNonces (es.drop 2) = [0] ∧ dataNonces (es.drop 2) = [1, 2] ∧
    alg.Standard Toy.backend := by
  refine ⟨by decide +kernel, by decide +kernel, by decide +kernel, by decide +kernel, Or.inl rfl, Or.inl rfl⟩
end SessionExample

/-! ## C18 — authenticity, and refusal without effect -/

/-- The data that is authenticated besides the user data: nonce and time to live, big endian. -/
def Spec.associatedData (m : AuthMetadata) : Bytes := Spec.u16 m.nonce ++ Spec.u32 m.valid_until_ms

theorem metadataBytes_eq (m : AuthMetadata) : metadataBytes m = Spec.associatedData m := by
  unfold metadataBytes Spec.associatedData; rw [Spec.be2_eq, Spec.be4_eq]

/-- Data is handed out only if the session is valid and its authenticated decryption, under the receive key,
accepts exactly this message; the key has its full 32 bytes; and the data is never empty. -/
theorem C18_data_is_authentic (s s' : Session) (st st' : Stats) (m : SessionData) (now : Int) (destLen : Nat) (p : Bytes)
    (h : s.validateData st m now destLen = (s', st', .ok p)) :
    s.valid = true ∧ p ≠ [] ∧ s.keys.rxKey.length = 32 ∧
    s.algorithms.mode.decrypt s.keys.rxKey m.metadata.nonce (Spec.associatedData m.metadata) m.user_data m.auth_tag destLen = .ok p := by
  rcases validateData_cases s st m now destLen with ⟨st', e, h', he⟩ | ⟨st', p', r, h', h0, h1, h2, _⟩
  · rw [h] at h'; cases h'
  · rw [h] at h'
    cases h'
    by_cases hp : p' = []
    · rw [if_pos hp] at h0; cases h0
    · rw [if_neg hp] at h0; cases h0
      refine ⟨h1, hp, ?_⟩
      unfold SessionMode.read at h2
      split at h2
      · cases h2
      · rename_i hk
        rw [← metadataBytes_eq]; exact ⟨by simpa using hk, h2⟩

/-- The same for the authentication message. -/
theorem C18_auth_is_authentic (s s' : Session) (st st' : Stats) (m : SessionData) (now : Int) (destLen : Nat) (p : Bytes)
    (h : s.validateAuth st m now destLen = (s', st', .ok p)) :
    s.valid = true ∧ s.rxNonce = 0 ∧ m.metadata.nonce = 0 ∧ s.keys.rxKey.length = 32 ∧
    s.algorithms.mode.decrypt s.keys.rxKey m.metadata.nonce (Spec.associatedData m.metadata) m.user_data m.auth_tag destLen = .ok p := by
  rcases validateWith_cases s st m now destLen equalToZero with ⟨st', e, h', he⟩ | ⟨st', p', h', h1, h2, h3, h4, h5, h6, h7⟩
  · unfold Session.validateAuth at h; rw [h] at h'; cases h'
  · unfold Session.validateAuth at h; rw [h] at h'
    cases h'
    simp only [equalToZero, Bool.and_eq_true, beq_iff_eq] at h7
    refine ⟨h1, h7.1, h7.2, ?_⟩
    unfold SessionMode.read at h2
    split at h2
    · cases h2
    · rename_i hk
      rw [← metadataBytes_eq]; exact ⟨by simpa using hk, h2⟩

/-- In the HMAC mode this means: the tag is the truncated HMAC, under the receive key, of nonce, time to
live, length and data, and the data is the user data of the message. -/
theorem C18_hmac_mode (b : Backend) (key ad cipher tag p : Bytes) (nonce : UInt16) (destLen : Nat)
    (h : (SessionMode.hmacSha256Trunc16 b).decrypt key nonce ad cipher tag destLen = .ok p) :
    p = cipher ∧ tag = (b.hmac key (ad ++ Spec.u16 (UInt16.ofNat cipher.length) ++ cipher)).take 16 := by
  simp only [SessionMode.hmacSha256Trunc16, aeadMacDecrypt] at h
  split at h
  · cases h
  · split at h
    · cases h
    · rename_i hne
      cases h
      refine ⟨rfl, ?_⟩
      simp only [ne_eq, Decidable.not_not] at hne
      rw [← hne, macInput, Spec.be2_eq]

/-- In the AES-GCM mode: the AEAD opened the ciphertext under the receive key, with the nonce of the message
as its IV and with nonce and time to live as associated data. -/
theorem C18_gcm_mode (b : Backend) (key ad cipher tag p : Bytes) (nonce : UInt16) (destLen : Nat)
    (h : (SessionMode.aes256Gcm b).decrypt key nonce ad cipher tag destLen = .ok p) :
    b.gcmOpen key (List.replicate 10 0 ++ Spec.u16 nonce) ad cipher (tag.take 16) = some p := by
  simp only [SessionMode.aes256Gcm, gcmDecrypt] at h
  split at h
  · cases h
  · split at h
    · cases h
    · rename_i hm
      cases h
      rw [← Spec.be2_eq]; exact hm

/-- A refused message changes nothing in the session; the single exception is an authentic, timely,
in-sequence message without user data, which is refused but uses up its nonce. -/
theorem C18_refusal_has_no_effect (b : Backend) (s s' : Session) (st st' : Stats) (m : SessionData) (now : Int)
    (destLen : Nat) (e : Err) (halg : s.algorithms.Standard b)
    (h : s.validateData st m now destLen = (s', st', .error e) ∨ s.validateAuth st m now destLen = (s', st', .error e)) :
    s' = s ∨
    (e = .crypto .empty_user_data ∧ s' = { s with rxNonce := m.metadata.nonce } ∧ s.valid = true ∧
      s.algorithms.mode.decrypt s.keys.rxKey m.metadata.nonce (Spec.associatedData m.metadata) m.user_data m.auth_tag destLen = .ok [] ∧
      s.algorithms.verifyNonce s.rxNonce m.metadata.nonce = true) := by
  rcases h with h | h
  · rcases validateData_cases s st m now destLen with ⟨st', e, h', he⟩ | ⟨st', p', r, h', h0, h1, h2, h3, h4, h5, h6, h7⟩
    · rw [h] at h'; cases h'; exact Or.inl rfl
    · rw [h] at h'
      cases h'
      by_cases hp : p' = []
      · rw [if_pos hp] at h0; cases h0
        subst hp
        right
        refine ⟨rfl, rfl, h1, ?_, h7⟩
        unfold SessionMode.read at h2
        split at h2
        · cases h2
        · rw [← metadataBytes_eq]; exact h2
      · rw [if_neg hp] at h0; cases h0
  · unfold Session.validateAuth at h
    rcases validateWith_cases s st m now destLen equalToZero with ⟨st', e, h', he⟩ | ⟨st', p', h', _⟩
    · rw [h] at h'; cases h'; exact Or.inl rfl
    · rw [h] at h'; cases h'

/-! ## C19 — time -/

/-- Nothing is accepted before the session start, after the maximum session time, or after the message's
time to live. -/
theorem C19_accepted_in_time (s s' : Session) (st st' : Stats) (m : SessionData) (now : Int) (destLen : Nat) (p : Bytes)
    (h : s.validateData st m now destLen = (s', st', .ok p) ∨ s.validateAuth st m now destLen = (s', st', .ok p)) :
    s.param.sessionStart ≤ now ∧ now ≤ s.param.sessionStart + s.param.maxSessionTime ∧
    now ≤ s.param.sessionStart + m.metadata.valid_until_ms.toNat * 1000000 := by
  rcases h with h | h
  · rcases validateData_cases s st m now destLen with ⟨st', e, h', he⟩ | ⟨st', p', r, h', h0, h1, h2, h3, h4, h5, h6, h7⟩
    · rw [h] at h'; cases h'
    · unfold ms at h5; omega
  · unfold Session.validateAuth at h
    rcases validateWith_cases s st m now destLen equalToZero with ⟨st', e, h', he⟩ | ⟨st', p', h', h1, h2, h3, h4, h5, _⟩
    · rw [h] at h'; cases h'
    · unfold ms at h5; omega

/-- Formatting succeeds only inside the session lifetime, with room for the TTL padding. -/
theorem C19_formatted_in_time (s s' : Session) (now : Int) (clear rest : Bytes) (f : Formatted)
    (h : s.formatData now clear = (s', rest, .ok f) ∨ s.formatAuth now clear = (s', rest, .ok f)) :
    s.param.sessionStart ≤ now ∧ now + s.ttlPadMs.toNat * 1000000 ≤ s.param.sessionStart + s.param.maxSessionTime := by
  have h' : s.formatNoNonceCheck now clear = (s', rest, .ok f) := by
    rcases h with h | h
    · unfold Session.formatData at h; split at h
      · cases h
      · exact h
    · unfold Session.formatAuth at h; split at h
      · cases h
      · exact h
  rcases format_cases s now clear with ⟨r, e, g⟩ | ⟨f', n, g, h1, h2, h3, _⟩
  · rw [h'] at g; cases g
  · unfold ms at h3; omega

/-- The time to live written into a message is the session time plus the padding, in whole milliseconds; it
never wraps, when the session lifetime is one that a handshake can negotiate (32-bit milliseconds). -/
theorem C19_ttl_exact (s s' : Session) (now : Int) (clear rest : Bytes) (f : Formatted) (limit : UInt32)
    (hlim : s.param.maxSessionTime = ms limit)
    (h : s.formatData now clear = (s', rest, .ok f) ∨ s.formatAuth now clear = (s', rest, .ok f)) :
    let t := now - s.param.sessionStart + s.ttlPadMs.toNat * 1000000
    (f.msg.metadata.valid_until_ms.toNat : Int) * 1000000 ≤ t ∧
    t < (f.msg.metadata.valid_until_ms.toNat + 1) * 1000000 := by
  have h' : s.formatNoNonceCheck now clear = (s', rest, .ok f) := by
    rcases h with h | h
    · unfold Session.formatData at h; split at h
      · cases h
      · exact h
    · unfold Session.formatAuth at h; split at h
      · cases h
      · exact h
  intro t
  rcases format_cases s now clear with ⟨r, e, g⟩ | ⟨f', n, g, h1, h2, h3, h4, h5, h6, h7, h8, _⟩
  · rw [h'] at g; cases g
  · rw [h'] at g
    cases g
    rw [h8]
    rw [hlim] at h3
    have ht : now - s.param.sessionStart + ms s.ttlPadMs = t := rfl
    rw [ht] at h3 ⊢
    have ht0 : 0 ≤ t := by simp only [t]; omega
    have hl : ms limit < 4294967296 * 1000000 := by
      have := limit.toNat_lt
      unfold ms; omega
    rw [Int.tdiv_eq_ediv_of_nonneg ht0]
    have hq : (t / 1000000).toNat < 4294967296 := by omega
    have : (UInt32.ofNat (t / 1000000).toNat).toNat = (t / 1000000).toNat := by
      rw [UInt32.toNat_ofNat']; omega
    rw [this]
    omega

/-- A message is not refused for its TTL when the receiver's session time is at most the sender's session
time plus the padding, less one millisecond (the TTL is truncated to milliseconds). -/
theorem C19_ttl_padding_honoured (a a' r r' : Session) (st st' : Stats) (txNow rxNow : Int) (clear rest : Bytes)
    (f : Formatted) (limit : UInt32) (destLen : Nat) (res : Except Err Bytes)
    (hlim : a.param.maxSessionTime = ms limit)
    (h : a.formatData txNow clear = (a', rest, .ok f) ∨ a.formatAuth txNow clear = (a', rest, .ok f))
    (hv : r.validateData st f.msg rxNow destLen = (r', st', res) ∨ r.validateAuth st f.msg rxNow destLen = (r', st', res))
    (ht : rxNow - r.param.sessionStart < txNow - a.param.sessionStart + a.ttlPadMs.toNat * 1000000 - 999999) :
    st'.numTtlExpiration = st.numTtlExpiration := by
  have hx := C19_ttl_exact a a' txNow clear rest f limit hlim h
  simp only at hx
  have hle : ¬ (rxNow - r.param.sessionStart > ms f.msg.metadata.valid_until_ms) := by unfold ms; omega
  have key : ∀ v, (r.validateWith st f.msg rxNow destLen v).2.1.numTtlExpiration = st.numTtlExpiration := by
    intro v
    unfold Session.validateWith
    repeat' split
    all_goals first | rfl | exact absurd ‹_› hle
  rcases hv with hv | hv
  · have k := key r.algorithms.verifyNonce
    unfold Session.validateData at hv
    generalize r.validateWith st f.msg rxNow destLen r.algorithms.verifyNonce = x at k hv
    obtain ⟨x1, x2, x3⟩ := x
    cases x3 with
    | error e => cases hv; exact k
    | ok p =>
      simp only at hv
      split at hv <;> cases hv <;> exact k
  · have k := key equalToZero
    unfold Session.validateAuth at hv
    rw [hv] at k; exact k

/-! ## C20 — invalid sessions -/

/-- An invalid session accepts and formats nothing, and is not changed by trying. -/
theorem C20_invalid_session_is_inert (s : Session) (hs : s.valid = false) (st : Stats) (m : SessionData) (now : Int)
    (destLen : Nat) (clear : Bytes) :
    (s.validateData st m now destLen).1 = s ∧ (s.validateData st m now destLen).2.2 = .error (.crypto .no_valid_session) ∧
    (s.validateAuth st m now destLen).1 = s ∧ (s.validateAuth st m now destLen).2.2 = .error (.crypto .no_valid_session) ∧
    (∃ e, s.formatData now clear = (s, clear, .error e)) ∧ (∃ e, s.formatAuth now clear = (s, clear, .error e)) := by
  have hv : ∀ v, s.validateWith st m now destLen v =
      (s, { st with numUserDataWithoutSession := st.numUserDataWithoutSession + 1 }, .error (.crypto .no_valid_session)) := by
    intro v; simp [Session.validateWith, hs]
  have hf : s.formatNoNonceCheck now clear = (s, clear, .error (.crypto .no_valid_session)) := by
    simp [Session.formatNoNonceCheck, hs]
  refine ⟨by simp [Session.validateData, hv], by simp [Session.validateData, hv], by simp [Session.validateAuth, hv],
    by simp [Session.validateAuth, hv], ?_, ?_⟩
  · unfold Session.formatData; split
    · exact ⟨_, rfl⟩
    · exact ⟨_, hf⟩
  · unfold Session.formatAuth; split
    · exact ⟨_, rfl⟩
    · exact ⟨_, hf⟩

/-- `reset` makes a session invalid and erases both keys. -/
theorem C20_reset (s : Session) : s.reset.valid = false ∧ s.reset.keys.rxKey = [] ∧ s.reset.keys.txKey = [] :=
  ⟨rfl, rfl, rfl⟩

/-- Initialisation succeeds exactly with two 32-byte keys, and otherwise changes nothing. -/
theorem C20_initialize (s s' : Session) (st st' : Stats) (alg : SessionAlgorithms) (param : SessionParam)
    (keys : SessionKeys) (ok : Bool) (h : s.initialize st alg param keys = (s', st', ok)) :
    (ok = true ↔ keys.rxKey.length = 32 ∧ keys.txKey.length = 32) ∧
    (ok = false → s' = s ∧ st' = st) ∧
    (ok = true → s'.valid = true ∧ s'.keys = keys ∧ s'.txNonce = 0 ∧ s'.rxNonce = 0) := by
  unfold Session.initialize at h
  cases hk : keys.valid with
  | false =>
    rw [hk] at h
    cases h
    simp [SessionKeys.valid] at hk
    simpa using hk
  | true =>
    rw [hk] at h
    cases h
    simp [SessionKeys.valid] at hk
    simpa using hk

/-- In every history of a session: an invalid session holds no keys, a valid one holds two 32-byte keys. -/
theorem C20_keys_only_while_valid (b : Backend) (fw : FrameWriter) (ttlPad : UInt32) (ops : List SOp) :
    let s := (runOps (Session.new b fw ttlPad) {} ops).1
    (s.valid = false → s.keys.rxKey = [] ∧ s.keys.txKey = []) ∧
    (s.valid = true → s.keys.rxKey.length = 32 ∧ s.keys.txKey.length = 32) := by
  have key : ∀ (ops : List SOp) (s : Session) (st : Stats),
      ((s.valid = false → s.keys = .zeroed) ∧ (s.valid = true → s.keys.valid = true)) →
      (((runOps s st ops).1.valid = false → (runOps s st ops).1.keys = .zeroed) ∧
       ((runOps s st ops).1.valid = true → (runOps s st ops).1.keys.valid = true)) := by
    intro ops
    induction ops with
    | nil => intro s st h; exact h
    | cons op ops ih =>
      intro s st h
      simp only [runOps]
      apply ih
      rcases step_cases s st op with ⟨_, _, _, _, g2, g3, g4⟩ | ⟨h3, h4⟩ | ⟨h3, h4⟩ | ⟨h3, m, e, d, h4, he⟩ |
        ⟨m, p, h3, h4, h5, h6, h7⟩ | ⟨m, h3, h4, h5, h6, h7⟩ | ⟨f, clear, rest, h3, h4, h5, h6, h7⟩
      · rw [g4]; exact ⟨fun h => (nomatch h), fun _ => g2⟩
      · rw [h3]; exact h
      · rw [h3]; exact ⟨fun _ => rfl, fun h => (nomatch h)⟩
      · rw [h3]; exact h
      · rw [h3]; exact h
      · rw [h3]; exact h
      · rw [h3]; exact h
  have k := key ops (Session.new b fw ttlPad) {} ⟨fun _ => rfl, fun h => (nomatch h)⟩
  intro s
  refine ⟨fun h => ?_, fun h => ?_⟩
  · have : s.keys = .zeroed := k.1 h
    rw [this]; exact ⟨rfl, rfl⟩
  · have : s.keys.valid = true := k.2 h
    simpa [SessionKeys.valid] using this

/-! ## C22 — what is authenticated -/

/-- The MAC input determines nonce, time to live and data. -/
theorem C22_mac_input_injective (m₁ m₂ : AuthMetadata) (d₁ d₂ : Bytes)
    (h : macInput (metadataBytes m₁) d₁ = macInput (metadataBytes m₂) d₂) : m₁ = m₂ ∧ d₁ = d₂ := by
  unfold macInput metadataBytes at h
  rw [List.append_assoc, List.append_assoc, List.append_assoc, List.append_assoc] at h
  have l2 : ∀ n, (be 2 n).length = 2 := fun n => by simp [be]
  have l4 : ∀ n, (be 4 n).length = 4 := fun n => by simp [be]
  obtain ⟨h1, h⟩ := List.append_inj h (by rw [l2, l2])
  obtain ⟨h2, h⟩ := List.append_inj h (by rw [l4, l4])
  obtain ⟨_, h⟩ := List.append_inj h (by rw [l2, l2])
  refine ⟨?_, h⟩
  have e1 : m₁.nonce = m₂.nonce := UInt16.toNat.inj (be_inj (by have := m₁.nonce.toNat_lt; omega) (by have := m₂.nonce.toNat_lt; omega) h1)
  have e2 : m₁.valid_until_ms = m₂.valid_until_ms :=
    UInt32.toNat.inj (be_inj (by have := m₁.valid_until_ms.toNat_lt; omega) (by have := m₂.valid_until_ms.toNat_lt; omega) h2)
  cases m₁; cases m₂; simp_all

/-- Distinct session nonces give distinct AES-GCM nonces, of 12 bytes. -/
theorem C22_gcm_nonce_injective (n₁ n₂ : UInt16) : (gcmNonce n₁).length = 12 ∧ (gcmNonce n₁ = gcmNonce n₂ → n₁ = n₂) := by
  refine ⟨by simp [gcmNonce, be], fun h => ?_⟩
  have h := List.append_cancel_left h
  exact UInt16.toNat.inj (be_inj (by have := n₁.toNat_lt; omega) (by have := n₂.toNat_lt; omega) h)

/-- Every message a session formats carries, in the HMAC mode, the truncated HMAC of nonce, time to live,
length and data under the transmit key; in AES-GCM mode, the sealed data. -/
theorem C22_formatted_tag (b : Backend) (s s' : Session) (now : Int) (clear rest : Bytes) (f : Formatted)
    (h : s.formatData now clear = (s', rest, .ok f) ∨ s.formatAuth now clear = (s', rest, .ok f)) :
    (s.algorithms.mode = .hmacSha256Trunc16 b → clear = f.msg.user_data ++ rest ∧
      f.msg.auth_tag = (b.hmac s.keys.txKey (Spec.associatedData f.msg.metadata ++
        Spec.u16 (UInt16.ofNat f.msg.user_data.length) ++ f.msg.user_data)).take 16) ∧
    (s.algorithms.mode = .aes256Gcm b → ∃ chunk, clear = chunk ++ rest ∧
      b.gcmSeal s.keys.txKey (List.replicate 10 0 ++ Spec.u16 f.msg.metadata.nonce) (Spec.associatedData f.msg.metadata) chunk =
        some (f.msg.user_data, f.msg.auth_tag)) := by
  have h' : s.formatNoNonceCheck now clear = (s', rest, .ok f) := by
    rcases h with h | h
    · unfold Session.formatData at h; split at h
      · cases h
      · exact h
    · unfold Session.formatAuth at h; split at h
      · cases h
      · exact h
  rcases format_cases s now clear with ⟨r, e, g⟩ | ⟨f', n, g, h1, h2, h3, h4, h5, h6, h7, h8, h9, _⟩
  · rw [h'] at g; cases g
  · rw [h'] at g
    cases g
    refine ⟨fun hm => ?_, fun hm => ?_⟩
    · rw [hm] at h9
      simp only [SessionMode.hmacSha256Trunc16, aeadMacEncrypt] at h9
      split at h9
      · cases h9
      · simp only [Except.ok.injEq, Prod.mk.injEq] at h9
        refine ⟨by rw [← h9.1, List.take_append_drop], ?_⟩
        rw [← h9.2, macInput, h9.1, metadataBytes_eq, Spec.be2_eq]
    · rw [hm] at h9
      simp only [SessionMode.aes256Gcm, gcmEncrypt] at h9
      split at h9
      · cases h9
      · split at h9
        · cases h9
        · rename_i ct tag hx
          simp only [Except.ok.injEq, Prod.mk.injEq] at h9
          refine ⟨clear.take n, (List.take_append_drop _ _).symm, ?_⟩
          rw [← h9.1, ← h9.2, ← hx, gcmNonce, Spec.be2_eq, metadataBytes_eq]

/-! ## C37 — statistics -/

/-- The sum of all counters of received messages. -/
def Stats.received (st : Stats) : Nat :=
  st.numUserDataWithoutSession + st.numAuthFail + st.numTtlExpiration + st.numNonceFail + st.numSuccess

/-- The errors authenticated decryption can produce, in the standard modes. -/
theorem read_errors {b : Backend} {mode : SessionMode}
    (h : mode = .hmacSha256Trunc16 b ∨ mode = .aes256Gcm b) (key : Bytes) (msg : SessionData) (d : Nat) (e : CryptoError)
    (he : mode.read key msg d = .error e) :
    e ≠ .empty_user_data ∧ e ≠ .clock_rollback ∧ e ≠ .max_session_time_exceeded := by
  unfold SessionMode.read at he
  split at he
  · cases he; simp
  · rcases h with rfl | rfl
    · simp only [SessionMode.hmacSha256Trunc16, aeadMacDecrypt] at he
      repeat' split at he
      all_goals cases he
      all_goals simp
    · simp only [SessionMode.aes256Gcm, gcmDecrypt] at he
      repeat' split at he
      all_goals cases he
      all_goals simp

/-- How many of the "message received" counters one validation increments. -/
def countedTimes : Except Err Bytes → Nat
  | .error (.crypto .clock_rollback) => 0
  | .error (.crypto .max_session_time_exceeded) => 0
  | .error (.crypto .empty_user_data) => 2
  | _ => 1

/-- How many successes one validation counts. -/
def successTimes : Except Err Bytes → Nat
  | .ok _ => 1
  | .error (.crypto .empty_user_data) => 1
  | _ => 0

/-- Every validation of a data message increments exactly one counter, with two exceptions of the code:
messages refused because of the local clock or session age are not counted at all, and an authentic empty
message is counted twice (as a success and as an authentication failure). -/
theorem C37_each_message_counted_partial (b : Backend) (s s' : Session) (st st' : Stats) (m : SessionData) (now : Int)
    (destLen : Nat) (r : Except Err Bytes) (halg : s.algorithms.Standard b)
    (h : s.validateData st m now destLen = (s', st', r) ∨ s.validateAuth st m now destLen = (s', st', r)) :
    st'.received = st.received + countedTimes r ∧ st'.numSuccess = st.numSuccess + successTimes r ∧
    st'.numInit = st.numInit := by
  have key : ∀ v, ∀ x, s.validateWith st m now destLen v = x →
      x.2.1.received = st.received + countedTimes x.2.2 ∧ x.2.1.numSuccess = st.numSuccess + successTimes x.2.2 ∧
      x.2.1.numInit = st.numInit ∧ x.2.2 ≠ .error (.crypto .empty_user_data) := by
    intro v x hx
    subst hx
    unfold Session.validateWith
    split
    · simp [Stats.received, countedTimes, successTimes]; omega
    · split
      · rename_i e he
        have h3 := read_errors halg.2 _ _ _ e he
        cases e <;> simp [Stats.received, countedTimes, successTimes] at h3 ⊢ <;> omega
      · repeat' split
        all_goals simp [Stats.received, countedTimes, successTimes]
        all_goals omega
  rcases h with h | h
  swap
  · unfold Session.validateAuth at h
    have k := key equalToZero _ h
    exact ⟨k.1, k.2.1, k.2.2.1⟩
  unfold Session.validateData at h
  have k := key s.algorithms.verifyNonce _ rfl
  generalize s.validateWith st m now destLen s.algorithms.verifyNonce = x at k h
  obtain ⟨x1, x2, x3⟩ := x
  cases x3 with
  | error e => cases h; exact ⟨k.1, k.2.1, k.2.2.1⟩
  | ok p =>
    simp only at h k
    split at h
    · cases h
      simp [Stats.received, countedTimes, successTimes] at k ⊢
      omega
    · cases h; exact ⟨k.1, k.2.1, k.2.2.1⟩

/-- Witness of the violation: an authentic, timely, in-sequence message without data is counted both as a
success and as an authentication failure, and a message received before the session start is not counted. -/
theorem C37_violations :
    ∃ (b : Backend) (s : Session) (m : SessionData), s.valid = true ∧ s.algorithms.Standard b ∧
      (∃ s', s.validateData {} m 0 100 = (s', { numAuthFail := 1, numSuccess := 1 }, .error (.crypto .empty_user_data))) ∧
      (∃ s', s.validateData {} m (-1) 100 = (s', {}, .error (.crypto .clock_rollback))) := by
  refine ⟨Toy.backend, ⟨true, SessionExample.fw, 0, 0, 0, ⟨SessionExample.key, SessionExample.key⟩,
    SessionExample.alg, SessionExample.param⟩, SessionExample.message 1 [], rfl, ⟨Or.inl rfl, Or.inl rfl⟩, ⟨_, rfl⟩, ⟨_, rfl⟩⟩

/-- Concrete instances of the hypotheses of the theorems of C18, C19 and C22: a message is formatted with data
left over, accepted and counted; an altered one is refused; a late one has expired. -/
example :
    let s : Session := ⟨true, ⟨12, id⟩, 10000, 0, 0, ⟨SessionExample.key, SessionExample.key⟩,
      SessionExample.alg, SessionExample.param⟩
    let m := SessionExample.message 1 [9]
    (s.validateData {} m 10000000000 100).2.2 = .ok [9] ∧
    (s.validateData {} m 10000000001 100).2.2 = .error (.crypto .expired_ttl) ∧
    (s.validateData {} { m with user_data := [8] } 0 100).2.2 = .error (.crypto .mac_auth_fail) ∧
    (Session.formatData { s with frameWriter := ⟨40, id⟩ } 50000000000 (List.replicate 12 5)).2.1 = [] ∧
    (Session.formatData { s with frameWriter := ⟨40, id⟩ } 50000000001 [5]).2.2.toOption.isNone := by
  refine ⟨rfl, rfl, rfl, rfl, rfl⟩

end SSP21
