import Verif.TxState
import Verif.Props.Codec
import Verif.Props.Session
/-
  Properties C21 and C23: fragmentation and the session round trip.
-/
namespace SSP21

/-! ## what the two standard modes do -/

/-- Encryption in a standard mode always works, preserves the length, adds a 16-byte tag, and is undone by
decryption with the same key, nonce and associated data. -/
theorem mode_roundtrip (b : Backend) (hb : b.Lawful) (mode : SessionMode)
    (hm : mode = .hmacSha256Trunc16 b ∨ mode = .aes256Gcm b) (key : Bytes) (nonce : UInt16) (ad clear : Bytes)
    (bufLen : Nat) (h1 : clear.length ≤ bufLen) (h2 : clear.length ≤ 65535) :
    ∃ ct tag, mode.encrypt key nonce ad clear bufLen = .ok (ct, tag) ∧ ct.length = clear.length ∧ tag.length = 16 ∧
      ∀ destLen, clear.length ≤ destLen → destLen ≤ 65535 → mode.decrypt key nonce ad ct tag destLen = .ok clear := by
  rcases hm with rfl | rfl
  · refine ⟨clear, (b.hmac key (macInput ad clear)).take 16, ?_, rfl, ?_, ?_⟩
    · simp only [SessionMode.hmacSha256Trunc16, aeadMacEncrypt]; rw [if_neg (by omega)]
    · rw [List.length_take, hb.hmac_length]; rfl
    · intro d _ hd
      simp only [SessionMode.hmacSha256Trunc16, aeadMacDecrypt]
      rw [if_neg (by omega), if_neg (by simp)]
  · obtain ⟨ct, tag, e1, e2, e3, e4⟩ := hb.gcm_seal key (gcmNonce nonce) ad clear
    refine ⟨ct, tag, ?_, e2, e3, ?_⟩
    · simp only [SessionMode.aes256Gcm, gcmEncrypt]; rw [if_neg (by omega), e1]
    · intro d hd _
      simp only [SessionMode.aes256Gcm, gcmDecrypt]
      rw [if_neg (by omega), ← e3, List.take_length, e4]

theorem vlength_length (n : Nat) (h : n ≤ 65535) :
    (Spec.vlength n).length = if n ≤ 127 then 1 else if n ≤ 255 then 2 else 3 := by
  have h1 := (C01_vlength_size (UInt32.ofNat n)).1
  have hn : (UInt32.ofNat n).toNat = n := by rw [UInt32.toNat_ofNat']; omega
  rw [hn] at h1
  rw [← h1, VLength.size, VLength.numValueBytes_toNat, hn]
  repeat' split
  all_goals omega

/-- The size of a session message with `n` bytes of user data and a 16-byte tag. -/
def Spec.sessionMessageSize (n : Nat) : Nat :=
  1 + 2 + 4 + (if n ≤ 127 then 1 else if n ≤ 255 then 2 else 3) + n + 1 + 16

theorem sessionData_length (m : SessionData) (n : Nat) (h : m.user_data.length = n) (hn : n ≤ 65535)
    (ht : m.auth_tag.length = 16) : (Spec.sessionData m).length = Spec.sessionMessageSize n := by
  simp only [Spec.sessionData, Spec.field, Spec.u16, Spec.u32, List.length_append, List.length_cons, List.length_nil]
  rw [h, ht, vlength_length n hn, vlength_length 16 (by omega)]
  unfold Spec.sessionMessageSize
  rw [if_pos (show 16 ≤ 127 by omega)]
  omega

/-- How many bytes of the data go into the next message. -/
def Spec.chunkSize (maxPayload : Nat) (len : Nat) : Nat := min (min len (maxPayload - 9)) 1024

/-- The clock reading is inside the session lifetime, with room for the TTL padding. -/
def Session.inTime (s : Session) (now : Int) : Prop :=
  s.param.sessionStart ≤ now ∧ now - s.param.sessionStart + ms s.ttlPadMs ≤ s.param.maxSessionTime

/-- Formatting by a valid session, inside its lifetime, in a standard mode: exactly what happens. -/
theorem format_ok (b : Backend) (hb : b.Lawful) (s : Session) (now : Int) (clear : Bytes)
    (hs : s.algorithms.Standard b) (hv : s.valid = true) (hk : s.keys.txKey.length = 32) (ht : s.inTime now)
    (hbuf : 9 < s.frameWriter.maxPayload.toNat) :
    let n := Spec.chunkSize s.frameWriter.maxPayload.toNat clear.length
    ∃ msg : SessionData,
      msg.metadata.nonce = s.txNonce ∧
      msg.metadata.valid_until_ms = UInt32.ofNat ((now - s.param.sessionStart + ms s.ttlPadMs).tdiv 1000000).toNat ∧
      s.algorithms.mode.encrypt s.keys.txKey msg.metadata.nonce (metadataBytes msg.metadata) (clear.take n)
        s.encryptBufferLen = .ok (msg.user_data, msg.auth_tag) ∧
      (∀ d, n ≤ d → d ≤ 65535 → s.algorithms.mode.decrypt s.keys.txKey msg.metadata.nonce
        (metadataBytes msg.metadata) msg.user_data msg.auth_tag d = .ok (clear.take n)) ∧
      msg.user_data.length = n ∧ msg.auth_tag.length = 16 ∧
      s.formatNoNonceCheck now clear =
        if Spec.sessionMessageSize n ≤ s.frameWriter.maxPayload.toNat then
          ({ s with txNonce := s.txNonce + 1 }, clear.drop n, .ok ⟨s.frameWriter.wrap (Spec.sessionData msg), msg⟩)
        else (s, clear.drop n, .error (.format .insufficient_space)) := by
  intro n
  have hel : s.encryptBufferLen = s.frameWriter.maxPayload.toNat - 9 := by
    unfold Session.encryptBufferLen calcMaxCryptoPayloadLength; rw [if_pos hbuf]
  have hmp := s.frameWriter.maxPayload.toNat_lt
  have hn : n = min (min clear.length s.encryptBufferLen) 1024 := by rw [hel]; rfl
  have hnl : (clear.take n).length = n := by rw [List.length_take]; omega
  obtain ⟨ct, tag, e1, e2, e3, e4⟩ := mode_roundtrip b hb s.algorithms.mode hs.2 s.keys.txKey s.txNonce
    (metadataBytes ⟨s.txNonce, UInt32.ofNat ((now - s.param.sessionStart + ms s.ttlPadMs).tdiv 1000000).toNat⟩)
    (clear.take n) s.encryptBufferLen (by omega) (by omega)
  have hms : ∀ u, 0 ≤ ms u := fun u => by unfold ms; omega
  have hpad := hms s.ttlPadMs
  obtain ⟨t1, t2⟩ := ht
  refine ⟨⟨⟨s.txNonce, UInt32.ofNat ((now - s.param.sessionStart + ms s.ttlPadMs).tdiv 1000000).toNat⟩, ct, tag⟩, rfl, rfl, e1,
    fun d hd hd' => e4 d (by omega) hd', by rw [← hnl]; exact e2, e3, ?_⟩
  have hcalc : calcUserDataTxLength clear.length s.encryptBufferLen 1024 = n := by
    unfold calcUserDataTxLength; omega
  unfold Session.formatNoNonceCheck
  rw [if_neg (by simp [hv]), if_neg (by omega)]
  simp only
  rw [if_neg (by omega), if_neg (by omega)]
  unfold SessionMode.write
  rw [if_neg (by simp [hk]), if_neg (by omega)]
  simp only [hcalc, e1]
  unfold FrameWriter.write
  rw [C02_session_data_write _ ⟨by simp only [e2]; omega, by simp only [e3]; omega⟩,
    sessionData_length _ n (by rw [← hnl]; exact e2) (by omega) e3]
  by_cases hfit : Spec.sessionMessageSize n ≤ s.frameWriter.maxPayload.toNat
  · simp only [hfit, if_true]
  · simp only [hfit, if_false]

theorem sessionMessageSize_le (n : Nat) (h : n ≤ 1024) : Spec.sessionMessageSize n ≤ 1051 := by
  unfold Spec.sessionMessageSize; repeat' split
  all_goals omega

theorem le_sessionMessageSize (n : Nat) : n + 25 ≤ Spec.sessionMessageSize n := by
  unfold Spec.sessionMessageSize; repeat' split
  all_goals omega

/-! ## C21 — fragmentation -/

/-- One turn of the transmit loop of the crypto layer when the lower layer is ready: format the next chunk
(cpp/libs/ssp21/src/crypto/CryptoLayer.cpp:186-212), later the lower layer reports completion
(CryptoLayer.cpp:107). `none`: nothing to transmit. -/
def txTurn (s : Session) (tx : TxState) (now : Int) : Option (Session × TxState × Except Err (Formatted × Bool)) :=
  if !tx.isReadyTx then none
  else match s.formatData now tx.remainder with
  | (s', _, .error e) => some (s', tx, .error e)
  | (s', rest, .ok f) =>
    let (tx', complete) := (tx.beginTransmit rest).onTxComplete
    some (s', tx', .ok (f, complete))

/-- The transmit loop, one clock reading per turn: the messages sent, with the completion reported after
each; stops at the first error or when there is nothing to transmit. -/
def txLoop (s : Session) (tx : TxState) : List Int → Session × TxState × List (Formatted × Bool) × Option Err
  | [] => (s, tx, [], none)
  | now :: nows =>
    match txTurn s tx now with
    | none => (s, tx, [], none)
    | some (s', tx', .error e) => (s', tx', [], some e)
    | some (s', tx', .ok fc) =>
      let (s'', tx'', fs, e) := txLoop s' tx' nows
      (s'', tx'', fc :: fs, e)

/-- `data` cut into pieces of at most 1024 bytes. -/
def Spec.pieces (data : Bytes) : List Bytes :=
  if h : data = [] then [] else data.take 1024 :: Spec.pieces (data.drop 1024)
termination_by data.length
decreasing_by
  have : data.length ≠ 0 := by simpa using h
  simp only [List.length_drop]; omega

theorem pieces_spec (data : Bytes) :
    (Spec.pieces data).flatten = data ∧ (∀ p ∈ Spec.pieces data, p ≠ [] ∧ p.length ≤ 1024) := by
  induction h : data.length using Nat.strongRecOn generalizing data with
  | _ n ih =>
    rw [Spec.pieces]
    split
    · rename_i hd; subst hd; simp
    · rename_i hd
      have hl : data.length ≠ 0 := by simpa using hd
      obtain ⟨i1, i2⟩ := ih (data.drop 1024).length (by rw [List.length_drop]; omega) _ rfl
      refine ⟨by rw [List.flatten_cons, i1, List.take_append_drop], ?_⟩
      intro p hp
      rcases List.mem_cons.mp hp with rfl | hp
      · refine ⟨?_, by rw [List.length_take]; omega⟩
        intro h0
        have := congrArg List.length h0
        rw [List.length_take, List.length_nil] at this
        omega
      · exact i2 p hp

/-- The plaintext carried by a message that was formatted by a session. -/
def carries (s : Session) (f : Formatted) (p : Bytes) : Prop :=
  f.frame = s.frameWriter.wrap (Spec.sessionData f.msg) ∧
  (Spec.sessionData f.msg).length ≤ s.frameWriter.maxPayload.toNat ∧
  s.algorithms.mode.encrypt s.keys.txKey f.msg.metadata.nonce (Spec.associatedData f.msg.metadata) p s.encryptBufferLen =
    .ok (f.msg.user_data, f.msg.auth_tag) ∧
  ∀ d, p.length ≤ d → d ≤ 65535 →
    s.algorithms.mode.decrypt s.keys.txKey f.msg.metadata.nonce (Spec.associatedData f.msg.metadata)
      f.msg.user_data f.msg.auth_tag d = .ok p

/-- With a link payload limit of at least 1051 bytes: the transmit loop for any data sends exactly one
message per piece, in order, each within the limit and carrying that piece, with consecutive nonces;
completion is reported with the last message and not before, and nothing is left over. -/
theorem C21_fragmentation_partial (b : Backend) (hb : b.Lawful) (data : Bytes) :
    ∀ (s : Session) (nows : List Int), s.algorithms.Standard b → s.valid = true → s.keys.txKey.length = 32 →
    1051 ≤ s.frameWriter.maxPayload.toNat → (∀ t ∈ nows, s.inTime t) →
    nows.length = (Spec.pieces data).length →
    s.txNonce.toNat + (Spec.pieces data).length ≤ s.param.maxNonce.toNat →
    ∃ fs : List Formatted,
      txLoop s ⟨false, data⟩ nows =
        ({ s with txNonce := s.txNonce + UInt16.ofNat (Spec.pieces data).length }, ⟨false, []⟩,
          fs.zip ((List.replicate ((Spec.pieces data).length - 1) false) ++ [true]), none) ∧
      List.Forall₂ (carries s) fs (Spec.pieces data) ∧
      fs.map (fun f => f.msg.metadata.nonce.toNat) = List.range' s.txNonce.toNat (Spec.pieces data).length := by
  induction h : data.length using Nat.strongRecOn generalizing data with
  | _ n ih =>
    intro s nows hs hv hk hmax htime hlen hnonce
    by_cases hd : data = []
    · subst hd
      have hp : Spec.pieces ([] : Bytes) = [] := by rw [Spec.pieces]; simp
      rw [hp] at hlen hnonce ⊢
      rw [List.length_nil, List.length_eq_zero_iff] at hlen
      subst hlen
      refine ⟨[], ?_, List.Forall₂.nil, rfl⟩
      have : s.txNonce + UInt16.ofNat 0 = s.txNonce := by simp
      simp only [txLoop, List.length_nil, List.zip_nil_left]
      rw [this]
    · have hp : Spec.pieces data = data.take 1024 :: Spec.pieces (data.drop 1024) := by
        rw [Spec.pieces, dif_neg hd]
      have hl : data.length ≠ 0 := by simpa using hd
      rw [hp] at hlen hnonce ⊢
      simp only [List.length_cons] at hlen hnonce ⊢
      cases nows with
      | nil => simp at hlen
      | cons now nows =>
        simp only [List.length_cons, Nat.add_right_cancel_iff] at hlen
        obtain ⟨msg, m1, m2, m3, m4, m5, m6, m7⟩ :=
          format_ok b hb s now data hs hv hk (htime now (by simp)) (by omega)
        have hchunk : Spec.chunkSize s.frameWriter.maxPayload.toNat data.length = min data.length 1024 := by
          unfold Spec.chunkSize; omega
        have htake : data.take (min data.length 1024) = data.take 1024 := by
          rw [Nat.min_comm, ← List.take_eq_take_min]
        have hdrop : data.drop (min data.length 1024) = data.drop 1024 := by
          by_cases h1 : data.length ≤ 1024
          · rw [Nat.min_eq_left h1, List.drop_length, List.drop_of_length_le h1]
          · rw [Nat.min_eq_right (by omega)]
        rw [hchunk] at m3 m4 m5 m7
        rw [htake] at m3 m4
        rw [hdrop, if_pos (by have := sessionMessageSize_le (min data.length 1024) (by omega); omega)] at m7
        have hfd : s.formatData now data = s.formatNoNonceCheck now data := by
          unfold Session.formatData
          rw [if_neg]
          rw [ge_iff_le, UInt16.not_le, UInt16.lt_iff_toNat_lt]; omega
        let s' : Session := { s with txNonce := s.txNonce + 1 }
        have hs'n : s'.txNonce.toNat = s.txNonce.toNat + 1 := by
          have := s.param.maxNonce.toNat_lt
          show (s.txNonce + 1).toNat = _
          rw [UInt16.toNat_add]; simp; omega
        obtain ⟨fs, i1, i2, i3⟩ := ih (data.drop 1024).length (by rw [List.length_drop]; omega) (data.drop 1024) rfl
          s' nows hs hv hk hmax (fun t ht => htime t (by simp [ht])) hlen (by rw [hs'n]; show _ ≤ s.param.maxNonce.toNat; omega)
        refine ⟨⟨s.frameWriter.wrap (Spec.sessionData msg), msg⟩ :: fs, ?_, ?_, ?_⟩
        · have hturn : txTurn s ⟨false, data⟩ now = some (s', ⟨false, data.drop 1024⟩,
              .ok (⟨s.frameWriter.wrap (Spec.sessionData msg), msg⟩, (data.drop 1024).isEmpty)) := by
            unfold txTurn
            rw [if_neg (by simp [TxState.isReadyTx, hd])]
            simp only [hfd, m7, TxState.beginTransmit, TxState.onTxComplete]
            have : data.isEmpty = false := by simpa using hd
            simp only [this, Bool.false_eq_true, if_false, if_true]
            rfl
          simp only [txLoop, hturn, i1]
          have hfsl : fs.length = (Spec.pieces (data.drop 1024)).length := by
            have := congrArg List.length i3
            simpa using this
          refine Prod.ext ?_ (Prod.ext rfl (Prod.ext ?_ rfl))
          · show ({ s' with txNonce := s'.txNonce + _ } : Session) = _
            have : s'.txNonce + UInt16.ofNat (Spec.pieces (data.drop 1024)).length =
                s.txNonce + UInt16.ofNat ((Spec.pieces (data.drop 1024)).length + 1) := by
              show s.txNonce + 1 + _ = _
              rw [UInt16.ofNat_add, UInt16.add_assoc, UInt16.add_comm 1]; rfl
            rw [this]
          · show _ :: _ = _
            by_cases hrest : data.drop 1024 = []
            · have hp' : Spec.pieces (data.drop 1024) = [] := by rw [hrest, Spec.pieces]; simp
              rw [hp'] at hfsl ⊢
              rw [List.length_nil, List.length_eq_zero_iff] at hfsl
              subst hfsl
              simp [hrest]
            · have hp' : Spec.pieces (data.drop 1024) ≠ [] := by
                rw [Spec.pieces, dif_neg hrest]; simp
              have hne : (Spec.pieces (data.drop 1024)).length ≠ 0 := by simpa using hp'
              obtain ⟨k, hk'⟩ : ∃ k, (Spec.pieces (data.drop 1024)).length = k + 1 :=
                ⟨_, (Nat.succ_pred_eq_of_ne_zero hne).symm⟩
              have he : (data.drop 1024).isEmpty = false := by simpa using hrest
              rw [hk', he]
              simp [List.replicate_succ]
        · refine List.Forall₂.cons ?_ i2
          refine ⟨rfl, ?_, ?_, ?_⟩
          · rw [sessionData_length msg _ m5 (by omega) m6]
            have := sessionMessageSize_le (min data.length 1024) (by omega)
            omega
          · rw [← metadataBytes_eq]; exact m3
          · intro d hd1 hd2
            rw [← metadataBytes_eq]
            exact m4 d (by rw [List.length_take] at hd1; omega) hd2
        · rw [List.map_cons, i3, hs'n, List.range'_succ, m1]

/-- What is missing: with a smaller limit a long message cannot be sent at all. Exactly when the message that
carries the chunk does not fit, formatting fails (and the crypto layer then closes the session), because the
chunk size does not account for the tag and the length bytes. -/
theorem C21_chunk_fits_iff (b : Backend) (hb : b.Lawful) (s : Session) (now : Int) (data : Bytes)
    (hs : s.algorithms.Standard b) (hv : s.valid = true) (hk : s.keys.txKey.length = 32) (ht : s.inTime now)
    (hn : s.txNonce < s.param.maxNonce) (hbuf : 9 < s.frameWriter.maxPayload.toNat) :
    (∃ s' rest f, s.formatData now data = (s', rest, .ok f)) ↔
      Spec.sessionMessageSize (Spec.chunkSize s.frameWriter.maxPayload.toNat data.length) ≤ s.frameWriter.maxPayload.toNat := by
  obtain ⟨msg, m1, m2, m3, m4, m5, m6, m7⟩ := format_ok b hb s now data hs hv hk ht hbuf
  have hfd : s.formatData now data = s.formatNoNonceCheck now data := by
    unfold Session.formatData
    rw [if_neg (by rw [ge_iff_le, UInt16.not_le]; exact hn)]
  rw [hfd, m7]
  constructor
  · intro ⟨s', rest, f, h⟩
    by_cases hc : Spec.sessionMessageSize (Spec.chunkSize s.frameWriter.maxPayload.toNat data.length) ≤ s.frameWriter.maxPayload.toNat
    · exact hc
    · rw [if_neg hc] at h; cases h
  · intro hc
    rw [if_pos hc]
    exact ⟨_, _, _, rfl⟩

/-- For every limit below 1051, all data long enough to fill a chunk are refused, after the data was
already taken off the transmit queue. -/
theorem C21_small_limit_violation (b : Backend) (hb : b.Lawful) (s : Session) (now : Int) (data : Bytes)
    (hs : s.algorithms.Standard b) (hv : s.valid = true) (hk : s.keys.txKey.length = 32) (ht : s.inTime now)
    (hn : s.txNonce < s.param.maxNonce) (hbuf : 9 < s.frameWriter.maxPayload.toNat)
    (hsmall : s.frameWriter.maxPayload.toNat < 1051)
    (hlong : min (s.frameWriter.maxPayload.toNat - 9) 1024 ≤ data.length) :
    ∃ rest, rest.length < data.length ∧ s.formatData now data = (s, rest, .error (.format .insufficient_space)) := by
  obtain ⟨msg, m1, m2, m3, m4, m5, m6, m7⟩ := format_ok b hb s now data hs hv hk ht hbuf
  have hfd : s.formatData now data = s.formatNoNonceCheck now data := by
    unfold Session.formatData
    rw [if_neg (by rw [ge_iff_le, UInt16.not_le]; exact hn)]
  have hc : Spec.chunkSize s.frameWriter.maxPayload.toNat data.length = min (s.frameWriter.maxPayload.toNat - 9) 1024 := by
    unfold Spec.chunkSize; omega
  rw [hc] at m7
  refine ⟨data.drop (min (s.frameWriter.maxPayload.toNat - 9) 1024), by rw [List.length_drop]; omega, ?_⟩
  rw [hfd, m7, if_neg]
  by_cases h1 : s.frameWriter.maxPayload.toNat - 9 ≤ 1024
  · have := le_sessionMessageSize (min (s.frameWriter.maxPayload.toNat - 9) 1024)
    omega
  · rw [Nat.min_eq_right (by omega)]
    have : Spec.sessionMessageSize 1024 = 1051 := by unfold Spec.sessionMessageSize; simp
    omega

/-! ## C23 — session round trip -/

/-- The receiving session `r` is the counterpart of the sending session `a`. -/
structure Counterpart (a r : Session) : Prop where
  valid : r.valid = true
  key : r.keys.rxKey = a.keys.txKey
  mode : r.algorithms.mode = a.algorithms.mode
  limit : a.param.maxNonce.toNat ≤ r.param.maxNonce.toNat + 1

/-- A data message formatted by one session is parsed and accepted by its counterpart, yielding exactly the
data that was taken, when the receiver's nonce check passes and it arrives in time. -/
theorem C23_data_roundtrip (b : Backend) (hb : b.Lawful) (a a' r : Session) (st : Stats) (txNow rxNow : Int)
    (clear rest : Bytes) (f : Formatted) (destLen : Nat)
    (hs : a.algorithms.Standard b) (hc : Counterpart a r)
    (hf : a.formatData txNow clear = (a', rest, .ok f)) (hclear : clear ≠ [])
    (hd : 1024 ≤ destLen) (hd' : destLen ≤ 65535)
    (hnonce : r.algorithms.verifyNonce r.rxNonce f.msg.metadata.nonce = true)
    (ht0 : r.param.sessionStart ≤ rxNow) (ht1 : rxNow - r.param.sessionStart ≤ r.param.maxSessionTime)
    (ht2 : rxNow - r.param.sessionStart ≤ f.msg.metadata.valid_until_ms.toNat * 1000000) :
    ∃ payload bytes, payload ≠ [] ∧ clear = payload ++ rest ∧
      f.frame = a.frameWriter.wrap bytes ∧ SessionData.read bytes = .ok f.msg ∧
      r.validateData st f.msg rxNow destLen =
        ({ r with rxNonce := f.msg.metadata.nonce }, { st with numSuccess := st.numSuccess + 1 }, .ok payload) := by
  unfold Session.formatData at hf
  split at hf
  · cases hf
  rename_i hlt
  rw [ge_iff_le, UInt16.not_le, UInt16.lt_iff_toNat_lt] at hlt
  rcases format_cases a txNow clear with ⟨r', e, g⟩ | ⟨f', n, g, h1, h2, h3, h4, h5, h6, h7, h8, h9, h10⟩
  · rw [hf] at g; cases g
  clear g h6 h7 h8 h9 h10
  have hmp := a.frameWriter.maxPayload.toNat_lt
  have hel : 9 < a.frameWriter.maxPayload.toNat := by
    unfold Session.encryptBufferLen calcMaxCryptoPayloadLength at h5
    split at h5
    · assumption
    · exact absurd rfl h5
  obtain ⟨msg, m1, m2, m3, m4, m5, m6, m7⟩ := format_ok b hb a txNow clear hs h1 h4 ⟨h2, h3⟩ hel
  rw [hf] at m7
  split at m7
  swap
  · simp only [Prod.mk.injEq, reduceCtorEq, and_false] at m7
  cases m7
  simp only at ht2
  have hcl : clear.length ≠ 0 := by simpa using hclear
  have hcs : Spec.chunkSize a.frameWriter.maxPayload.toNat clear.length ≤ 1024 ∧
      0 < Spec.chunkSize a.frameWriter.maxPayload.toNat clear.length ∧
      Spec.chunkSize a.frameWriter.maxPayload.toNat clear.length ≤ clear.length := by
    unfold Spec.chunkSize; omega
  have hne : clear.take (Spec.chunkSize a.frameWriter.maxPayload.toNat clear.length) ≠ [] := by
    intro h0
    have := congrArg List.length h0
    rw [List.length_take, List.length_nil] at this
    omega
  have hwf : msg.WF := ⟨by omega, by omega⟩
  refine ⟨_, Spec.sessionData msg, hne, (List.take_append_drop _ _).symm, rfl, ?_, ?_⟩
  · exact (C03_session_data_canonical _ _).mpr ⟨hwf, rfl⟩
  · have hread : r.algorithms.mode.read r.keys.rxKey msg destLen =
        .ok (clear.take (Spec.chunkSize a.frameWriter.maxPayload.toNat clear.length)) := by
      unfold SessionMode.read
      rw [hc.key, hc.mode, if_neg (by simp [h4])]
      exact m4 destLen (by omega) hd'
    have hmax : ¬ msg.metadata.nonce > r.param.maxNonce := by
      rw [gt_iff_lt, UInt16.not_lt, UInt16.le_iff_toNat_le, m1]
      have := hc.limit
      omega
    unfold Session.validateData Session.validateWith
    simp only [hc.valid, Bool.not_true, Bool.false_eq_true, if_false, hread, ms]
    rw [if_neg (by omega), if_neg (by omega), if_neg (by omega), if_neg hmax]
    simp only at hnonce
    simp only [hnonce, Bool.not_true, Bool.false_eq_true, if_false, hne]

/-- The same for the message that authenticates a session (which may carry no data). -/
theorem C23_auth_roundtrip (b : Backend) (hb : b.Lawful) (a a' r : Session) (st : Stats) (txNow rxNow : Int)
    (clear rest : Bytes) (f : Formatted) (destLen : Nat)
    (hs : a.algorithms.Standard b) (hc : Counterpart a r)
    (hf : a.formatAuth txNow clear = (a', rest, .ok f))
    (hd : 1024 ≤ destLen) (hd' : destLen ≤ 65535) (hnonce : r.rxNonce = 0)
    (ht0 : r.param.sessionStart ≤ rxNow) (ht1 : rxNow - r.param.sessionStart ≤ r.param.maxSessionTime)
    (ht2 : rxNow - r.param.sessionStart ≤ f.msg.metadata.valid_until_ms.toNat * 1000000) :
    ∃ payload bytes, clear = payload ++ rest ∧ f.msg.metadata.nonce = 0 ∧
      f.frame = a.frameWriter.wrap bytes ∧ SessionData.read bytes = .ok f.msg ∧
      r.validateAuth st f.msg rxNow destLen = (r, { st with numSuccess := st.numSuccess + 1 }, .ok payload) := by
  unfold Session.formatAuth at hf
  split at hf
  · cases hf
  rename_i hz
  have hz : a.txNonce = 0 := by simpa using hz
  rcases format_cases a txNow clear with ⟨r', e, g⟩ | ⟨f', n, g, h1, h2, h3, h4, h5, h6, h7, h8, h9, h10⟩
  · rw [hf] at g; cases g
  clear g h6 h7 h8 h9 h10
  have hmp := a.frameWriter.maxPayload.toNat_lt
  have hel : 9 < a.frameWriter.maxPayload.toNat := by
    unfold Session.encryptBufferLen calcMaxCryptoPayloadLength at h5
    split at h5
    · assumption
    · exact absurd rfl h5
  obtain ⟨msg, m1, m2, m3, m4, m5, m6, m7⟩ := format_ok b hb a txNow clear hs h1 h4 ⟨h2, h3⟩ hel
  rw [hf] at m7
  split at m7
  swap
  · simp only [Prod.mk.injEq, reduceCtorEq, and_false] at m7
  cases m7
  simp only at ht2
  have hcs : Spec.chunkSize a.frameWriter.maxPayload.toNat clear.length ≤ 1024 := by
    unfold Spec.chunkSize; omega
  have hwf : msg.WF := ⟨by omega, by omega⟩
  refine ⟨_, Spec.sessionData msg, (List.take_append_drop _ _).symm, by rw [m1, hz], rfl, ?_, ?_⟩
  · exact (C03_session_data_canonical _ _).mpr ⟨hwf, rfl⟩
  · have hread : r.algorithms.mode.read r.keys.rxKey msg destLen =
        .ok (clear.take (Spec.chunkSize a.frameWriter.maxPayload.toNat clear.length)) := by
      unfold SessionMode.read
      rw [hc.key, hc.mode, if_neg (by simp [h4])]
      exact m4 destLen (by omega) hd'
    have hmax : ¬ msg.metadata.nonce > r.param.maxNonce := by
      rw [gt_iff_lt, UInt16.not_lt, UInt16.le_iff_toNat_le, m1, hz]; simp
    unfold Session.validateAuth Session.validateWith
    rw [if_neg (by simp [hc.valid])]
    simp only [hread, ms]
    rw [if_neg (by omega), if_neg (by omega), if_neg (by omega), if_neg hmax]
    have : equalToZero r.rxNonce msg.metadata.nonce = true := by simp [equalToZero, hnonce, m1, hz]
    simp only [this, Bool.not_true, Bool.false_eq_true, if_false]
    have hr : ({ r with rxNonce := msg.metadata.nonce } : Session) = r := by rw [m1, hz, ← hnonce]
    rw [hr]

/-! ### concrete cases meeting the hypotheses -/
namespace TransferExample
def a : Session := ⟨true, ⟨4092, id⟩, 10000, 0, 1, ⟨SessionExample.key, SessionExample.key⟩, SessionExample.alg, ⟨0, 100, ms 60000⟩⟩

theorem pieces_2500 : (Spec.pieces (List.replicate 2500 7)).length = 3 := by
  have h1 : ∀ n, 0 < n → Spec.pieces (List.replicate n 7) = List.replicate (min 1024 n) 7 :: Spec.pieces (List.replicate (n - 1024) 7) := by
    intro n hn
    rw [Spec.pieces, dif_neg (by simp; omega), List.take_replicate, List.drop_replicate]
  rw [h1 2500 (by omega), h1 1476 (by omega), h1 452 (by omega)]
  have : Spec.pieces (List.replicate (2500 - 1024 - 1024 - 1024) 7) = [] := by rw [Spec.pieces]; rfl
  simp only [List.length_cons]
  rw [this]; rfl

/-- 2500 bytes go out in three messages numbered 1, 2, 3. -/
example : ∃ fs, txLoop a ⟨false, List.replicate 2500 7⟩ [5, 6, 7] =
    ({ a with txNonce := 4 }, ⟨false, []⟩, fs, none) ∧ fs.map (fun x => (x.1.msg.metadata.nonce.toNat, x.2)) =
      [(1, false), (2, false), (3, true)] := by
  obtain ⟨fs, h1, h2, h3⟩ := C21_fragmentation_partial Toy.backend Toy.lawful (List.replicate 2500 7) a [5, 6, 7]
    ⟨Or.inl rfl, Or.inl rfl⟩ rfl rfl (by decide) (by simp [Session.inTime, a, ms]) (by rw [pieces_2500]; rfl) (by rw [pieces_2500]; decide)
  rw [pieces_2500] at h1 h3
  have hl : fs.length = 3 := by have := congrArg List.length h3; simpa using this
  match fs, hl with
  | [x, y, z], _ =>
    refine ⟨_, h1, ?_⟩
    simp [a, List.range'] at h3 ⊢
    exact h3

/-- With a limit of 200 bytes 191 or more bytes of data are refused, 100 are not. -/
example : ∀ n, 191 ≤ n → ∃ rest, rest.length < n ∧ Session.formatData { a with frameWriter := ⟨200, id⟩ } 5 (List.replicate n 7) =
    ({ a with frameWriter := ⟨200, id⟩ }, rest, .error (.format .insufficient_space)) := by
  intro n hn
  obtain ⟨rest, h1, h2⟩ := C21_small_limit_violation Toy.backend Toy.lawful { a with frameWriter := ⟨200, id⟩ } 5 (List.replicate n 7)
    ⟨Or.inl rfl, Or.inl rfl⟩ rfl rfl (by simp [Session.inTime, a, ms]) (by decide) (by decide) (by decide) (by simp; omega)
  exact ⟨rest, by simpa using h1, h2⟩
end TransferExample

end SSP21
