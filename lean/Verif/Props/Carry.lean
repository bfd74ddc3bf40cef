import Verif.Plays
import Verif.Props.Success
/-
  Property C58: data is carried from one station to the other.
-/
namespace SSP21.Crypto
open Spec

namespace CarryProof

/-! ### Sessions -/

theorem formatData_ok (b : Backend) (hb : b.Lawful) (a : Session) (now : Int) (clear : Bytes) (hs : a.algorithms.Standard b)
    (hv : a.valid = true) (hk : a.keys.txKey.length = 32) (hn : a.txNonce.toNat < a.param.maxNonce.toNat)
    (h1 : a.param.sessionStart ≤ now) (h2 : now - a.param.sessionStart + ms a.ttlPadMs ≤ a.param.maxSessionTime)
    (hm : ∃ n : UInt32, a.param.maxSessionTime = ms n) (hr : 1051 ≤ a.frameWriter.maxPayload.toNat) :
    ∃ f bytes, a.formatData now clear = ({ a with txNonce := a.txNonce + 1 }, clear.drop 1024, .ok f) ∧
      f.frame = a.frameWriter.wrap bytes ∧ SessionData.read bytes = .ok f.msg ∧ f.msg.metadata.nonce = a.txNonce ∧
      now - a.param.sessionStart + ms a.ttlPadMs < f.msg.metadata.valid_until_ms.toNat * 1000000 + 1000000 := by
  obtain ⟨msg, m1, m2, m3, m4, m5, m6, m7⟩ := format_ok b hb a now clear hs hv hk ⟨h1, h2⟩ (by omega)
  have hcs : Spec.chunkSize a.frameWriter.maxPayload.toNat clear.length = min clear.length 1024 := by unfold Spec.chunkSize; omega
  rw [hcs] at m5 m7
  have hsz : Spec.sessionMessageSize (min clear.length 1024) ≤ 1051 := by
    unfold Spec.sessionMessageSize
    split <;> (try split) <;> omega
  rw [if_pos (by omega)] at m7
  have hd : clear.drop (min clear.length 1024) = clear.drop 1024 := by
    by_cases h : clear.length ≤ 1024
    · rw [Nat.min_eq_left h, List.drop_length, List.drop_eq_nil_of_le h]
    · rw [Nat.min_eq_right (by omega)]
  rw [hd] at m7
  refine ⟨⟨_, msg⟩, Spec.sessionData msg, ?_, rfl, (C03_session_data_canonical _ _).mpr ⟨⟨(by dsimp only; omega), (by dsimp only; omega)⟩, rfl⟩, m1, ?_⟩
  · unfold Session.formatData
    rw [if_neg, m7]
    rw [ge_iff_le, UInt16.not_le, UInt16.lt_iff_toNat_lt]
    exact hn
  · obtain ⟨n, hn⟩ := hm
    have hnl := n.toNat_lt
    simp only [m2, ms] at *
    rw [hn] at h2
    have h3 : 0 ≤ now - a.param.sessionStart + (a.ttlPadMs.toNat : Int) * 1000000 := by omega
    rw [Int.tdiv_eq_ediv_of_nonneg h3]
    have h4 : (now - a.param.sessionStart + (a.ttlPadMs.toNat : Int) * 1000000) / 1000000 < 4294967296 := by omega
    simp only [UInt32.toNat_ofNat']
    rw [Nat.mod_eq_of_lt (by omega)]
    omega

/-- What is known of the active session of a layer. -/
structure Sound (c : Cfg) (a : Session) : Prop where
  std : a.algorithms.Standard c.backend
  key : a.keys.txKey.length = 32
  fw : a.frameWriter = c.fw
  ttl : a.ttlPadMs = c.ttlPadMs
  time : ∃ n : UInt32, a.param.maxSessionTime = ms n

theorem sound {c : Cfg} {E : Env} (hb : c.backend.Lawful) {s : Layer} (h : Observed c E s) (hv : s.active.valid = true) : Sound c s.active := by
  have hg := (RefineProof.inv h).good
  have ho := (OpenProof.atomic c E).observed h
  obtain ⟨before, m, after, payload, hlog, ⟨b1, a1, rfl, -⟩, -, -⟩ := ho.act hv
  have hest := C29_keys_from_handshake c E hb s h b1 _ _ _ _ (by rw [hlog, List.append_assoc, List.cons_append])
  refine ⟨hest.1, ?_, hg.fwa.1, hg.fwa.2, ?_⟩
  · cases hc : (view s).current with
    | none => rw [hg.noCur hc] at hv; cases hv
    | some n =>
      obtain ⟨-, -, -, ⟨⟨ops, e, -⟩, -⟩, -⟩ := hg.cur n hc
      have := (C20_keys_only_while_valid c.backend c.fw c.ttlPadMs ops).2
      rw [e] at this
      exact (this hv).2
  · obtain ⟨-, hest⟩ := hest
    split at hest
    · obtain ⟨_, _, msg, _, _, _, _, _, _, -, -, -, -, -, -, -, -, -, h, -⟩ := hest
      exact ⟨_, h⟩
    · obtain ⟨_, _, _, _, _, _, _, _, _, -, -, -, -, -, -, -, -, -, -, h, -⟩ := hest
      exact ⟨_, h⟩

/-- The message made of the first piece of `data`. -/
structure Made (c : Cfg) (a : Session) (now : Int) (data : Bytes) (out : Formatted) (bytes : Bytes) : Prop where
  made : a.formatData now data = ({ a with txNonce := a.txNonce + 1 }, data.drop 1024, .ok out)
  frame : out.frame = c.fw.wrap bytes
  read : SessionData.read bytes = .ok out.msg
  nonce : out.msg.metadata.nonce = a.txNonce
  ttl : now - a.param.sessionStart + ms c.ttlPadMs < out.msg.metadata.valid_until_ms.toNat * 1000000 + 1000000

section
variable {c : Cfg} {A : Fresh → Prop} {T : Int} {t : Int} {s : Layer}

theorem nonceChange (rx tx : UInt16) (h : ∀ params limits, c.role = .initiator params limits →
    tx.toNat < params.nonceTrigger.toNat ∧ rx.toNat < params.nonceTrigger.toNat) (s : Layer) :
    onSessionNonceChange c rx tx s = .done () s := by
  unfold onSessionNonceChange
  cases hrole : c.role with
  | initiator params limits =>
    have := h _ _ hrole
    dsimp only
    rw [if_neg]
    · rfl
    · rw [ge_iff_le, UInt16.not_le, UInt16.lt_iff_toNat_lt]
      show (if tx ≤ rx then rx else tx).toNat < _
      split
      · exact this.2
      · exact this.1
  | responder _ => rfl

theorem succ_toNat {n : UInt16} (h : n.toNat < 65535) : (n + 1).toNat = n.toNat + 1 := by
  rw [UInt16.toNat_add]
  simp
  omega

theorem checkTransmit_sends (hb : c.backend.Lawful) (S : Sound c s.active) (hv : s.active.valid = true) (hr : s.lowerReady = true) {data : Bytes}
    (hx : s.tx = ⟨false, data⟩) (hd : data ≠ []) (hn : s.active.txNonce.toNat < s.active.param.maxNonce.toNat)
    (h1 : s.active.param.sessionStart ≤ t) (h2 : T - s.active.param.sessionStart + ms c.ttlPadMs ≤ s.active.param.maxSessionTime)
    (hroom : 1051 ≤ c.fw.maxPayload.toNat) (hcalm : ∀ params limits, c.role = .initiator params limits →
      s.active.txNonce.toNat + 1 < params.nonceTrigger.toNat ∧ s.active.rxNonce.toNat < params.nonceTrigger.toNat)
    {Q : Int → Unit → Layer → Prop}
    (hq : ∀ now out bytes acts, t ≤ now → now ≤ T → Made c s.active now data out bytes →
      Q now () { s with active := { s.active with txNonce := s.active.txNonce + 1 }, tx := ⟨true, data.drop 1024⟩, acts := acts, log := s.log ++ [.lowerTx (c.fw.wrap bytes) true], lowerReady := false }) :
    (checkTransmit c).plays A T Q t s := by
  unfold checkTransmit
  have hc : canTransmit s = true := by simp [canTransmit, hv, hr, hx, TxState.isReadyTx, hd]
  simp only [pl_bind, pl_get, hc, Bool.not_true, Bool.false_eq_true, if_false, pl_getTime]
  intro f f1 f2 f3 f4
  obtain ⟨out, bytes, e1, e2, e3, e4, e5⟩ := formatData_ok c.backend hb s.active f.now data S.std hv S.key hn (by omega)
    (by rw [S.ttl]; omega) S.time (by rw [S.fw]; exact hroom)
  have hlt := s.active.param.maxNonce.toNat_lt
  simp only [hx, e1, pl_bind, pl_modify, pl_act, pl_lowerStartTx, hr, pl_get]
  rw [S.fw] at e2
  rw [S.ttl] at e5
  have := hq f.now out bytes (s.acts ++ [(s.log.length, .sent false out data (data.drop 1024))]) f3 f4 ⟨e1, e2, e3, e4, e5⟩
  unfold M.plays
  rw [nonceChange]
  · show Q _ _ _
    rw [← e2] at this
    have hbt : (TxState.mk false data).beginTransmit (data.drop 1024) = ⟨true, data.drop 1024⟩ := by simp [TxState.beginTransmit, hd]
    rw [hbt]
    exact this
  · intro params limits hrole
    rw [succ_toNat (by omega)]
    exact hcalm params limits hrole

end

/-! ### The sender -/

/-- A sender that is transmitting, with `rest` still to come. -/
structure Tx (c : Cfg) (a : Session) (n : UInt16) (rest : Bytes) (s : Layer) : Prop where
  isOpen : s.isOpen = true
  upperOpen : s.upperOpen = true
  active : s.active = { a with txNonce := n }
  tx : s.tx = ⟨true, rest⟩
  due : SuccessProof.NotDue c s

/-- What a sender needs to know to go on. -/
structure TxOk (c : Cfg) (a : Session) (t0 T : Int) : Prop where
  lawful : c.backend.Lawful
  sound : Sound c a
  valid : a.valid = true
  start : a.param.sessionStart ≤ t0
  time : T - a.param.sessionStart + ms c.ttlPadMs ≤ a.param.maxSessionTime
  room : 1051 ≤ c.fw.maxPayload.toNat

theorem Sound.nonce {c : Cfg} {a : Session} (h : Sound c a) (n : UInt16) : Sound c { a with txNonce := n } :=
  ⟨h.std, h.key, h.fw, h.ttl, h.time⟩

/-- The message with the first piece of `data` is the next one. -/
structure Sent (c : Cfg) (a : Session) (n : UInt16) (t0 : Int) (data m : Bytes) : Prop where
  msg : ∃ now out, t0 ≤ now ∧ Made c { a with txNonce := n } now data out m

section
variable {c : Cfg} {A : Fresh → Prop} {T t0 : Int} {t : Int} {s : Layer} {a : Session} {n : UInt16}

def Fits (c : Cfg) (a : Session) (n : UInt16) (k : Nat) : Prop :=
  n.toNat + k ≤ a.param.maxNonce.toNat ∧ ∀ params limits, c.role = .initiator params limits →
    n.toNat + k < params.nonceTrigger.toNat ∧ a.rxNonce.toNat < params.nonceTrigger.toNat

theorem Fits.next {k : Nat} (h : Fits c a n (k + 1)) : Fits c a (n + 1) k := by
  have := a.param.maxNonce.toNat_lt
  have e := succ_toNat (n := n) (by have := h.1; omega)
  refine ⟨by rw [e]; have := h.1; omega, fun p l hr => ?_⟩
  have := h.2 p l hr
  rw [e]
  omega

theorem transmits {data : Bytes} (O : TxOk c a t0 T) (ht0 : t0 ≤ t) (hopen : s.isOpen = true) (hup : s.upperOpen = true) (hact : s.active = { a with txNonce := n })
    (htx : s.tx = ⟨false, data⟩) (hdue : SuccessProof.NotDue c s) (hr : s.lowerReady = true) (hd : data ≠ []) (hf : Fits c a n 1) :
    (checkTransmit c).plays A T (fun t' _ s' => t ≤ t' ∧ ∃ m, Sent c a n t0 data m ∧ Tx c a (n + 1) (data.drop 1024) s' ∧
      s'.log = s.log ++ [.lowerTx (c.fw.wrap m) true]) t s := by
  refine checkTransmit_sends O.lawful (by rw [hact]; exact O.sound.nonce n) (by rw [hact]; exact O.valid) hr htx hd
    (by rw [hact]; exact hf.1) (by rw [hact]; have := O.start; dsimp only; omega) (by rw [hact]; exact O.time) O.room
    (by rw [hact]; exact hf.2) ?_
  intro now out bytes acts h1 h2 hm
  rw [hact] at hm ⊢
  exact ⟨h1, bytes, ⟨now, out, by omega, hm⟩, ⟨hopen, hup, rfl, rfl, hdue⟩, rfl⟩

theorem timesReady_append (l l' : List Obs) : timesReady (l ++ l') = timesReady l + timesReady l' := List.countP_append ..
theorem piecesRead_append (l l' : List Obs) : piecesRead (l ++ l') = piecesRead l ++ piecesRead l' := List.filterMap_append ..

theorem pre_plays (h : SuccessProof.NotDue c s) : (onPreTxReady c).plays A T (fun t' _ s' => t ≤ t' ∧ s' = s) t s :=
  Run.Through.plays (S := fun _ _ => False) (SuccessProof.pre_through h)

theorem txReady_run (ho : s.isOpen = true) : Event.lowerTxReady.run c s =
    ((onPreTxReady c) { s with lowerReady := true, log := s.log ++ [.lowerReady true], tx := s.tx.onTxComplete.1 }).bind
      fun _ s' => ((if s.tx.onTxComplete.2 then upperOnTxReady else pure () : M Unit) s').bind
        fun _ s'' => .loop s'' fun s3 => checkTransmit c s3 := by
  obtain ⟨isOpen, upperOpen, rxFlag, lowerReady, active, pending, stats, tx, buf, payloadLen, ini, inAuth, log, acts⟩ := s
  cases ho
  obtain ⟨transmitting, remainder⟩ := tx
  cases transmitting <;> cases remainder <;> rfl

/-- Nothing is waiting below: the receive loop changes nothing. -/
theorem loop_nothing {k : Layer → Run Unit} {Q : Int → List Bytes → Unit → Layer → Prop} (ht : t ≤ T)
    (hk : ∀ t' b, t ≤ t' → t' ≤ T → (k { s with buf := b }).Served c A T Q t' []) : (Run.loop s k).Served c A T Q t [] := by
  cases hr : s.lowerReady with
  | false => exact served_stop (.inl hr) (hk t s.buf (Int.le_refl _) ht)
  | true =>
    by_cases hp : s.payloadLen = 0
    · exact served_empty ht hr hp fun f f1 f2 f3 f4 => hk f.now f.scratch f3 f4
    · exact served_stop (.inr hp) (hk t s.buf (Int.le_refl _) ht)

/-- The transmission of one message is complete and there is more. -/
theorem goes_on {rest : Bytes} (hA : ∀ t, t ≤ T → ∃ f : Fresh, f.ok ∧ A f ∧ f.now = t) (O : TxOk c a t0 T) (X : Tx c a n rest s) (hd : rest ≠ [])
    (hf : Fits c a n 1) (ht : t ≤ T) (ht0 : t0 ≤ t) :
    Serves c A T (Event.lowerTxReady.run c) t [] s fun t' _ s' => t' ≤ T ∧ t0 ≤ t' ∧ timesReady s'.log = timesReady s.log ∧
      ∃ m, Sent c a n t0 rest m ∧ Tx c a (n + 1) (rest.drop 1024) s' ∧ SendsOne c s s' m := by
  refine Serves.of hA ht ?_
  rw [txReady_run X.isOpen, X.tx]
  have hc : (TxState.mk true rest).onTxComplete = (⟨false, rest⟩, false) := by simp [TxState.onTxComplete, hd]
  rw [hc]
  dsimp only
  refine Run.Served.bind ?_ (Run.Plays.served ht [] (pre_plays (s := { s with lowerReady := true, log := s.log ++ [.lowerReady true], tx := ⟨false, rest⟩ }) X.due))
  rintro t1 ms1 _ s1 ⟨rfl, h1, h2, rfl⟩
  refine loop_nothing h1 fun t2 b h3 h4 => ?_
  refine Run.Served.mono ?_ (Run.Plays.served h4 [] (transmits (s := { s with lowerReady := true, log := s.log ++ [.lowerReady true], tx := ⟨false, rest⟩, buf := b }) O (by omega) X.isOpen X.upperOpen X.active rfl X.due rfl hd hf))
  rintro t3 ms3 _ s3 ⟨-, h5, h6, m, h7, h8, h9⟩ -
  refine ⟨h5, by omega, ?_, m, h7, h8, ?_⟩
  · rw [h9]; simp [timesReady_append, timesReady]
  · unfold SendsOne
    rw [h9]; simp [SuccessProof.framesSent_append, framesSent]

/-- The transmission of the last message is complete. -/
theorem completes (hA : ∀ t, t ≤ T → ∃ f : Fresh, f.ok ∧ A f ∧ f.now = t) (X : Tx c a n [] s) (ht : t ≤ T) :
    Serves c A T (Event.lowerTxReady.run c) t [] s fun _ _ s' => framesSent s'.log = framesSent s.log ∧
      timesReady s'.log = timesReady s.log + 1 ∧ s'.tx.isIdle = true := by
  refine Serves.of hA ht ?_
  rw [txReady_run X.isOpen, X.tx]
  have hc : (TxState.mk true []).onTxComplete = (⟨false, []⟩, true) := rfl
  rw [hc]
  dsimp only
  refine Run.Served.bind ?_ (Run.Plays.served ht [] (pre_plays (s := { s with lowerReady := true, log := s.log ++ [.lowerReady true], tx := ⟨false, []⟩ }) X.due))
  rintro t1 ms1 _ s1 ⟨rfl, h1, h2, rfl⟩
  rw [if_pos rfl]
  have hu : (upperOnTxReady).plays A T (fun t' _ s' => t1 ≤ t' ∧ s' = { s with lowerReady := true, log := s.log ++ [.lowerReady true] ++ [.up .txReady], tx := ⟨false, []⟩ }) t1
      { s with lowerReady := true, log := s.log ++ [.lowerReady true], tx := ⟨false, []⟩ } := by
    unfold upperOnTxReady
    simp only [pl_bind, pl_get, X.upperOpen, if_true]
    exact pl_txReady _ _ ⟨Int.le_refl _, rfl⟩
  refine Run.Served.bind ?_ (Run.Plays.served h1 [] hu)
  rintro t2 ms2 _ s2 ⟨rfl, h3, h4, rfl⟩
  refine loop_nothing h3 fun t3 b h5 h6 => ?_
  rw [SuccessProof.checkTransmit_idle rfl]
  refine .done fun _ => ⟨?_, ?_, rfl⟩
  · simp [SuccessProof.framesSent_append, framesSent]
  · simp [timesReady_append, timesReady]

/-- The application asks for the transmission of data. -/
theorem begins {data : Bytes} (hA : ∀ t, t ≤ T → ∃ f : Fresh, f.ok ∧ A f ∧ f.now = t) (O : TxOk c a t0 T) (hu : Up s) (hi : s.tx.isIdle = true)
    (hact : s.active = { a with txNonce := n }) (hdue : SuccessProof.NotDue c s) (hd : data ≠ []) (hf : Fits c a n 1) (ht : t0 ≤ T) :
    Serves c A T (Api.run c (.startTx data)) t0 [] s fun t' _ s' => t' ≤ T ∧ t0 ≤ t' ∧
      ∃ m, Sent c a n t0 data m ∧ Tx c a (n + 1) (data.drop 1024) s' ∧ SendsOne c s s' m := by
  refine Serves.of hA ht ?_
  have hp : (startTx c data).plays A T (fun t' _ s' => t0 ≤ t' ∧ ∃ m, Sent c a n t0 data m ∧ Tx c a (n + 1) (data.drop 1024) s' ∧ SendsOne c s s' m) t0 s := by
    unfold startTx
    have hready : isTxReady s = true := by simp [isTxReady, hu.isOpen, hu.upperOpen, hi]
    simp only [pl_bind, pl_get, pl_note, hready, if_true, pl_modify]
    refine M.plays_mono ?_ (transmits (s := { s with log := s.log ++ [.startTx data true], tx := ⟨false, data⟩ }) O (Int.le_refl _) hu.isOpen hu.upperOpen hact rfl hdue hu.ready hd hf)
    rintro t' _ s' h1 ⟨-, m, h2, h3, h4⟩
    refine ⟨h1, m, h2, h3, ?_⟩
    unfold SendsOne
    rw [h4]; simp [SuccessProof.framesSent_append, framesSent]
  refine Run.Served.mono ?_ (Run.Plays.served ht [] hp)
  rintro t3 ms3 _ s3 ⟨-, h5, h6, h7⟩ -
  exact ⟨h5, h6, h7⟩

end

/-! ### The receiver -/

/-- A receiver whose last message had the nonce `n`; its application has taken everything. -/
structure Rx (b : Session) (n : UInt16) (r : Layer) : Prop where
  isOpen : r.isOpen = true
  upperOpen : r.upperOpen = true
  ready : r.lowerReady = true
  active : r.active = { b with rxNonce := n }
  taken : r.rxFlag = true ↔ r.payloadLen ≠ 0

/-- What a receiver needs to know to go on. -/
structure RxOk (c c' : Cfg) (a b : Session) (t0 u0 U : Int) : Prop where
  lawful : c.backend.Lawful
  std : a.algorithms.Standard c.backend
  fw : a.frameWriter = c.fw
  valid : b.valid = true
  key : b.keys.rxKey = a.keys.txKey
  algorithms : b.algorithms = a.algorithms
  limit : b.param.maxNonce = a.param.maxNonce
  buffer : 1024 ≤ c'.bufLen ∧ c'.bufLen ≤ 65535
  start : b.param.sessionStart ≤ u0
  time : U - b.param.sessionStart ≤ b.param.maxSessionTime
  inTime : U - b.param.sessionStart + 1000000 ≤ t0 - a.param.sessionStart + ms c.ttlPadMs

def FitsRx (c : Cfg) (b : Session) (n : UInt16) : Prop :=
  ∀ params limits, c.role = .initiator params limits → b.txNonce.toNat < params.nonceTrigger.toNat ∧ n.toNat < params.nonceTrigger.toNat

section
variable {c c' : Cfg} {A : Fresh → Prop} {U t0 u0 : Int} {u : Int} {r : Layer} {a b : Session} {n k : UInt16} {data m : Bytes}

theorem split_piece {payload : Bytes} (h : data = payload ++ data.drop 1024) : payload = data.take 1024 := by
  have := h.symm.trans (List.take_append_drop 1024 data).symm
  exact List.append_cancel_right this

theorem process_data (O : RxOk c c' a b t0 u0 U) (M : Sent c a n t0 data m) (hd : data ≠ []) (hk : n.toNat = k.toNat + 1)
    (hact : r.active = { b with rxNonce := k }) (hup : r.upperOpen = true) (hfl : r.rxFlag = false) (hu : u0 ≤ u) (hf : FitsRx c' b n)
    (hopen : r.isOpen = true) (hready : r.lowerReady = true) :
    (process c' m).plays A U (fun u' _ r' => u ≤ u' ∧ Rx b n r' ∧ r'.payloadLen ≠ 0 ∧ piecesRead r'.log = piecesRead r.log ++ [data.take 1024]) u r := by
  obtain ⟨now, out, hnow, hm⟩ := M
  rw [(SuccessProof.process_session (c := c') hm.read).1]
  simp only [pl_bind, pl_getTime]
  intro f f1 f2 f3 f4
  unfold onSessionMessage
  have hn0 : out.msg.metadata.nonce ≠ 0 := by
    rw [hm.nonce]
    intro h
    rw [show n = 0 from h] at hk
    simp at hk
  rw [if_neg hn0]
  unfold onSessionData validateActiveData
  simp only [pl_bind, pl_ask, pl_get, pl_modify, pl_act, pl_pure]
  intro g g1 g2 g3 g4
  have hnm : n.toNat ≤ 65535 := by have := n.toNat_lt; omega
  have v1 : b.algorithms.verifyNonce k out.msg.metadata.nonce = true := by
    rw [hm.nonce, O.algorithms]
    rcases O.std.1 with h | h <;> rw [h]
    · unfold verifyStrictIncrement
      rw [if_neg]
      · simpa using hk
      · intro h
        rw [h] at hk
        have := n.toNat_lt
        simp at hk
        omega
    · unfold verifyGreaterThanLast
      rw [decide_eq_true_eq, gt_iff_lt, UInt16.lt_iff_toNat_lt]
      show _ < n.toNat
      omega
  have v2 : b.param.sessionStart ≤ f.now := by have := O.start; omega
  have v3 : f.now - b.param.sessionStart ≤ b.param.maxSessionTime := by have := O.time; omega
  have v4 : f.now - b.param.sessionStart ≤ out.msg.metadata.valid_until_ms.toNat * 1000000 := by
    have := O.inTime; have := hm.ttl; dsimp only at *; omega
  obtain ⟨payload, bytes, e1, e2, e3, e4, e5⟩ := C23_data_roundtrip c.backend O.lawful { a with txNonce := n } _ { b with rxNonce := k } r.stats now f.now data _ out c'.bufLen
    O.std ⟨O.valid, O.key, by rw [O.algorithms], by dsimp only; rw [O.limit]; omega⟩ hm.made hd O.buffer.1 O.buffer.2 v1 v2 v3 v4
  have hpay := split_piece e2
  subst hpay
  rw [hact, e5]
  simp only [pl_bind, pl_modify, pl_get]
  unfold M.plays
  rw [nonceChange]
  swap
  · intro params limits hrole
    have := hf params limits hrole
    rw [hm.nonce]
    exact this
  show (upperOnRxReady).plays A U _ _ _
  unfold upperOnRxReady
  simp only [pl_bind, pl_get, hup, if_true]
  refine pl_rxReady _ _ hfl (by simpa using e1) ?_
  have hne : (data.take 1024).length ≠ 0 := by simpa using e1
  refine ⟨by omega, ⟨hopen, rfl, hready, by rw [← show out.msg.metadata.nonce = n from hm.nonce]; rfl, ⟨fun _ => hne, fun _ => rfl⟩⟩, hne, ?_⟩
  have hlog : ∀ x : Bytes, x ≠ [] → piecesRead [.up .rxReady, .rxCall, .startRx x] = [x] := by
    intro x hx
    cases x with
    | nil => exact absurd rfl hx
    | cons y ys => rfl
  simp only [Layer.givenOut, Layer.payload, bufferAfter, List.take_left', List.append_assoc, List.cons_append, List.nil_append,
    piecesRead_append, hlog _ e1]

theorem startRx_asks (h : r.rxFlag = true ↔ r.payloadLen ≠ 0) :
    Api.run c' .startRx r = .loop { r with log := r.log ++ [.rxCall], payloadLen := 0, rxFlag := false } fun r' => .done () { r' with log := r'.log ++ [.startRx []] } := by
  obtain ⟨isOpen, upperOpen, rxFlag, lowerReady, active, pending, stats, tx, buf, payloadLen, ini, inAuth, log, acts⟩ := r
  dsimp only at h
  cases rxFlag with
  | true => rfl
  | false =>
    have h0 : payloadLen = 0 := by
      by_cases h0 : payloadLen = 0
      · exact h0
      · exact absurd (h.mpr h0) (by simp)
    subst h0
    rfl

/-- A message is read. -/
theorem loop_data (O : RxOk c c' a b t0 u0 U) (M : Sent c a n t0 data m) (hd : data ≠ []) (hk : n.toNat = k.toNat + 1)
    (R : Rx b k r) (hp : r.payloadLen = 0) (hu : u0 ≤ u) (hU : u ≤ U) (hf : FitsRx c' b n) {K : Layer → Run Unit} {Q : Int → List Bytes → Unit → Layer → Prop}
    (hK : ∀ u' r', u ≤ u' → u' ≤ U → Rx b n r' → piecesRead r'.log = piecesRead r.log ++ [data.take 1024] → (K r').Served c' A U Q u' []) :
    (Run.loop r K).Served c' A U Q u [m] := by
  have hm : m ≠ [] := by
    obtain ⟨now, out, hnow, hm⟩ := M
    exact (SuccessProof.process_session (c := c') hm.read).2
  have hfl : r.rxFlag = false := by
    cases h : r.rxFlag with
    | false => rfl
    | true => exact absurd hp (R.taken.mp h)
  refine served_message hU R.ready hp hm (P := fun u' r' => u ≤ u' ∧ Rx b n r' ∧ r'.payloadLen ≠ 0 ∧ piecesRead r'.log = piecesRead r.log ++ [data.take 1024]) ?_ ?_
  · intro f f1 f2 f3 f4
    refine Crypto.M.plays_mono ?_ (process_data (r := { r with buf := f.scratch, log := r.log ++ [.recv m] }) O M hd hk R.active R.upperOpen hfl (by omega) hf R.isOpen R.ready)
    rintro t' _ r' h1 ⟨h2, h3, h4, h5⟩
    refine ⟨by omega, h3, h4, ?_⟩
    rw [h5]
    simp [piecesRead_append, piecesRead]
  · rintro t' r' h1 ⟨h2, h3, h4, h5⟩
    exact served_stop (.inr h4) (hK t' r' h2 h1 h3 h5)

theorem rx_asked (R : Rx b k r) : Rx b k { r with log := r.log ++ [.rxCall], payloadLen := 0, rxFlag := false } :=
  ⟨R.isOpen, R.upperOpen, R.ready, R.active, by simp⟩

theorem Rx.buf (R : Rx b k r) (x : Bytes) (l : List Obs) : Rx b k { r with buf := x, log := l } :=
  ⟨R.isOpen, R.upperOpen, R.ready, R.active, R.taken⟩

/-- The application gets the piece. -/
theorem takes (hA : ∀ t, t ≤ U → ∃ f : Fresh, f.ok ∧ A f ∧ f.now = t) (O : RxOk c c' a b t0 u0 U) (M : Sent c a n t0 data m) (hd : data ≠ []) (hk : n.toNat = k.toNat + 1)
    (R : Rx b k r) (hu : u0 ≤ u) (hU : u ≤ U) (hf : FitsRx c' b n) (early : Bool) :
    Takes c' A U early u m r fun u' r' => u ≤ u' ∧ u' ≤ U ∧ Rx b n r' ∧ piecesRead r'.log = piecesRead r.log ++ [data.take 1024] := by
  unfold Takes
  have hquiet : ∀ l, piecesRead (l ++ [.rxCall]) = piecesRead l := fun l => by simp [piecesRead_append, piecesRead]
  have hquiet' : ∀ l, piecesRead (l ++ [.startRx []]) = piecesRead l := fun l => by simp [piecesRead_append, piecesRead]
  cases early with
  | false =>
    rw [if_neg (by simp)]
    refine Serves.of hA hU ?_
    rw [startRx_asks R.taken]
    refine loop_nothing hU fun u1 x h1 h2 => .done fun _ => ⟨rfl, ?_⟩
    refine Serves.of hA h2 ?_
    rw [SuccessProof.rxReady_run (by exact R.isOpen)]
    refine loop_data O M hd hk ((rx_asked R).buf _ _) rfl (by omega) h2 hf fun u2 r2 h3 h4 h5 h6 => .done fun _ => ⟨rfl, by omega, h4, h5, ?_⟩
    rw [h6, hquiet', hquiet]
  | true =>
    rw [if_pos rfl]
    refine Serves.of hA hU ?_
    rw [SuccessProof.rxReady_run R.isOpen]
    by_cases hp : r.payloadLen = 0
    · refine loop_data O M hd hk R hp hu hU hf fun u2 r2 h3 h4 h5 h6 => .done fun _ => ?_
      refine Serves.of hA h4 ?_
      rw [startRx_asks h5.taken]
      refine loop_nothing h4 fun u3 x h7 h8 => .done fun _ => ⟨rfl, by omega, h8, (rx_asked h5).buf _ _, ?_⟩
      rw [hquiet', hquiet, h6]
    · refine served_stop (.inr hp) (.done fun _ => ?_)
      refine Serves.of hA hU ?_
      rw [startRx_asks R.taken]
      refine loop_data O M hd hk (rx_asked R) rfl hu hU hf fun u2 r2 h3 h4 h5 h6 => .done fun _ => ⟨rfl, h3, h4, ⟨h5.isOpen, h5.upperOpen, h5.ready, h5.active, h5.taken⟩, ?_⟩
      rw [hquiet', h6, hquiet]

end

/-! ### Both -/

theorem _root_.SSP21.Crypto.Spec.Serves.mono {c : Cfg} {A : Fresh → Prop} {T : Int} {call : M Unit} {t : Int} {ms : List Bytes} {s : Layer} {Q Q' : Int → List Bytes → Layer → Prop}
    (h : ∀ t ms s, Q t ms s → Q' t ms s) (hl : Serves c A T call t ms s Q) : Serves c A T call t ms s Q' :=
  Spec.Inevitable.mono (fun _ hx => hx.elim fun s' hs => ⟨s', hs.1, h _ _ _ hs.2⟩) hl

theorem _root_.SSP21.Crypto.Spec.Takes.mono {c : Cfg} {A : Fresh → Prop} {T : Int} {early : Bool} {t : Int} {m : Bytes} {s : Layer} {Q Q' : Int → Layer → Prop}
    (h : ∀ t s, Q t s → Q' t s) (hl : Takes c A T early t m s Q) : Takes c A T early t m s Q' := by
  unfold Takes at *
  cases early with
  | false =>
    rw [if_neg (by simp)] at hl ⊢
    exact Spec.Serves.mono (fun _ _ _ h1 => ⟨h1.1, Spec.Serves.mono (fun _ _ _ h2 => ⟨h2.1, h _ _ h2.2⟩) h1.2⟩) hl
  | true =>
    rw [if_pos rfl] at hl ⊢
    exact Spec.Serves.mono (fun _ _ _ h1 => Spec.Serves.mono (fun _ _ _ h2 => ⟨h2.1, h _ _ h2.2⟩) h1) hl

section
variable {c c' : Cfg} {A A' : Fresh → Prop} {T U t0 u0 : Int} {a b : Session}

theorem pieces_cons {data : Bytes} (h : data ≠ []) : Spec.pieces data = data.take 1024 :: Spec.pieces (data.drop 1024) := by
  rw [Spec.pieces, dif_neg h]

theorem pieces_nil : Spec.pieces [] = [] := by rw [Spec.pieces]; simp

theorem pieces_eq_nil {data : Bytes} : Spec.pieces data = [] ↔ data = [] := by
  by_cases h : data = []
  · simp [h, pieces_nil]
  · simp [pieces_cons h, h]

theorem pieces_count (data : Bytes) : (Spec.pieces data).length = (data.length + 1023) / 1024 := by
  induction h : data.length using Nat.strongRecOn generalizing data with
  | _ n ih =>
    by_cases hd : data = []
    · subst hd
      rw [pieces_nil, ← h]
      rfl
    · have hl : 0 < data.length := List.length_pos_iff.mpr hd
      rw [pieces_cons hd, List.length_cons, ih _ (by rw [← h, List.length_drop]; omega) (data.drop 1024) rfl, List.length_drop, ← h]
      omega

theorem carry_all (hA : ∀ t, t ≤ T → ∃ f : Fresh, f.ok ∧ A f ∧ f.now = t) (hA' : ∀ t, t ≤ U → ∃ f : Fresh, f.ok ∧ A' f ∧ f.now = t)
    (O : TxOk c a t0 T) (O' : RxOk c c' a b t0 u0 U) (early : Nat → Bool) {N : Nat} (hN : ∀ params limits, c'.role = .initiator params limits →
      b.txNonce.toNat < params.nonceTrigger.toNat ∧ N ≤ params.nonceTrigger.toNat) (len : Nat) :
    ∀ (data m : Bytes) (n k : UInt16) (t u : Int) (s r : Layer), (Spec.pieces data).length = len + 1 → Sent c a n t0 data m → Tx c a (n + 1) (data.drop 1024) s →
      Rx b k r → n.toNat = k.toNat + 1 → Fits c a n (len + 1) → n.toNat + (len + 1) ≤ N →
      t0 ≤ t → t ≤ T → u0 ≤ u → u ≤ U → Carried c c' A A' T U early (Spec.pieces data) t m s u r := by
  induction len with
  | zero =>
    intro data m n k t u s r hlen M X R hk hf hn ht0 ht hu0 hu
    have hd : data ≠ [] := by rintro rfl; rw [pieces_nil] at hlen; cases hlen
    rw [pieces_cons hd] at hlen ⊢
    have hnil : Spec.pieces (data.drop 1024) = [] := by simpa using hlen
    rw [hnil]
    have hdr := pieces_eq_nil.mp hnil
    rw [hdr] at X
    unfold Carried
    refine Takes.mono ?_ (takes hA' O' M hd hk R hu0 hu (fun p l h => ⟨(hN p l h).1, by have := (hN p l h).2; omega⟩) _)
    rintro u' r' ⟨h1, h2, h3, h4⟩
    refine ⟨h4, Serves.mono ?_ (completes hA X ht)⟩
    intro t' ms' s' h5
    exact ⟨fun _ => h5, fun h => absurd rfl h⟩
  | succ len ih =>
    intro data m n k t u s r hlen M X R hk hf hn ht0 ht hu0 hu
    have hd : data ≠ [] := by rintro rfl; rw [pieces_nil] at hlen; cases hlen
    rw [pieces_cons hd] at hlen ⊢
    have hlen' : (Spec.pieces (data.drop 1024)).length = len + 1 := by simpa using hlen
    have hdr : data.drop 1024 ≠ [] := by intro h; rw [h, pieces_nil] at hlen'; cases hlen'
    have hne : Spec.pieces (data.drop 1024) ≠ [] := fun h => hdr (pieces_eq_nil.mp h)
    have hmax := a.param.maxNonce.toNat_lt
    have hsucc := succ_toNat (n := n) (by have := hf.1; omega)
    unfold Carried
    refine Takes.mono ?_ (takes hA' O' M hd hk R hu0 hu (fun p l h => ⟨(hN p l h).1, by have := (hN p l h).2; omega⟩) _)
    rintro u' r' ⟨h1, h2, h3, h4⟩
    refine ⟨h4, Serves.mono ?_ (goes_on hA O X hdr ?_ ht ht0)⟩
    · rintro t' ms' s' ⟨h5, h6, h7, m', h8, h9, h10⟩
      refine ⟨fun h => absurd h hne, fun _ => ⟨h7, m', h10, ?_⟩⟩
      exact ih _ m' (n + 1) n t' u' s' r' hlen' h8 h9 h3 hsucc hf.next (by omega) h6 h5 (by omega) h2
    · obtain ⟨g1, g2⟩ := hf.next
      exact ⟨by omega, fun p l h => by have := g2 p l h; omega⟩

end

/-- Data is carried from `s` to `r`. -/
theorem carriesData {c c' : Cfg} {T U t0 u0 : Int} (hb : c.backend.Lawful) {s r : Layer} (S : Sound c s.active)
    (hl : Linked s r) (hus : Up s) (hur : Up r) (hidle : s.tx.isIdle = true) (htaken : r.rxFlag = true ↔ r.payloadLen ≠ 0)
    {data : Bytes} (hd : data ≠ []) (hroom : 1051 ≤ c.fw.maxPayload.toNat) (hbuf : 1024 ≤ c'.bufLen ∧ c'.bufLen ≤ 65535)
    (hnonce : s.active.txNonce.toNat + (Spec.pieces data).length ≤ s.active.param.maxNonce.toNat)
    (hset : Settled c s (Spec.pieces data).length) (hset' : Settled c' r (Spec.pieces data).length)
    (ht : t0 ≤ T) (hu : u0 ≤ U) (hts : s.active.param.sessionStart ≤ t0) (hus' : r.active.param.sessionStart ≤ u0)
    (hT : T - s.active.param.sessionStart + ms c.ttlPadMs ≤ s.active.param.maxSessionTime)
    (hU : U - r.active.param.sessionStart ≤ r.active.param.maxSessionTime)
    (hU' : U - r.active.param.sessionStart + 1000000 ≤ t0 - s.active.param.sessionStart + ms c.ttlPadMs) (early : Nat → Bool) :
    Serves c anyAnswer T (Api.run c (.startTx data)) t0 [] s fun t1 _ s1 => ∃ m, SendsOne c s s1 m ∧
      Carried c c' anyAnswer anyAnswer T U early (Spec.pieces data) t1 m s1 u0 r := by
  have hA : ∀ (T t : Int), t ≤ T → ∃ f : Fresh, f.ok ∧ anyAnswer f ∧ f.now = t := fun T t _ =>
    ⟨⟨t, List.replicate 32 0, none, fun _ => none, []⟩, by simp [Fresh.ok], trivial, rfl⟩
  have O : TxOk c s.active t0 T := ⟨hb, S, hl.valid, hts, hT, hroom⟩
  have O' : RxOk c c' s.active r.active t0 u0 U := ⟨hb, S.std, S.fw, hl.valid', hl.key, hl.algorithms, hl.limit, hbuf, hus', hU, hU'⟩
  have hpl : 0 < (Spec.pieces data).length := List.length_pos_iff.mpr fun h => hd (pieces_eq_nil.mp h)
  obtain ⟨len, hlen⟩ : ∃ len, (Spec.pieces data).length = len + 1 := ⟨_, (Nat.succ_pred (by omega)).symm⟩
  rw [hlen] at hnonce hset hset'
  have hf : Fits c s.active s.active.txNonce (len + 1) := ⟨hnonce, fun p l h => by have := hset p l h; omega⟩
  refine Serves.mono ?_ (begins (a := s.active) (n := s.active.txNonce) (hA T) O hus hidle rfl (fun p l h => (hset p l h).1) hd ⟨by omega, fun p l h => by have := hf.2 p l h; omega⟩ ht)
  rintro t1 ms1 s1 ⟨h1, h2, m, h3, h4, h5⟩
  refine ⟨m, h5, carry_all (hA T) (hA U) O O' early (N := s.active.txNonce.toNat + (len + 1)) (fun p l h => ?_) len data m s.active.txNonce r.active.rxNonce t1 u0 s1 r hlen h3 h4
    ⟨hur.isOpen, hur.upperOpen, hur.ready, rfl, htaken⟩ hl.next hf (Nat.le_refl _) h2 h1 (Int.le_refl _) hu⟩
  have := hset' p l h
  have := hl.next
  omega

end CarryProof

open CarryProof

/-- C58. Data is carried from one station to the other. -/
theorem C58_data_carried {c c' : Cfg} {E E' : Env} (hb : c.backend.Lawful) {s r : Layer} (hs : Quiet c E s) (hr : Quiet c' E' r)
    (hl : Linked s r) (hus : Up s) (hur : Up r) (hidle : s.tx.isIdle = true) (htaken : r.rxFlag = true ↔ r.payloadLen ≠ 0)
    {data : Bytes} (hd : data ≠ []) (hroom : 1051 ≤ c.fw.maxPayload.toNat) (hbuf : 1024 ≤ c'.bufLen ∧ c'.bufLen ≤ 65535)
    (hnonce : s.active.txNonce.toNat + (Spec.pieces data).length ≤ s.active.param.maxNonce.toNat)
    (hset : Settled c s (Spec.pieces data).length) (hset' : Settled c' r (Spec.pieces data).length)
    {t0 T u0 U : Int} (ht : t0 ≤ T) (hu : u0 ≤ U) (hts : s.active.param.sessionStart ≤ t0) (hus' : r.active.param.sessionStart ≤ u0)
    (hT : T - s.active.param.sessionStart + ms c.ttlPadMs ≤ s.active.param.maxSessionTime)
    (hU : U - r.active.param.sessionStart ≤ r.active.param.maxSessionTime)
    (hU' : U - r.active.param.sessionStart + 1000000 ≤ t0 - s.active.param.sessionStart + ms c.ttlPadMs) (early : Nat → Bool) :
    Serves c anyAnswer T (Api.run c (.startTx data)) t0 [] s fun t1 _ s1 => ∃ m, SendsOne c s s1 m ∧
      Carried c c' anyAnswer anyAnswer T U early (Spec.pieces data) t1 m s1 u0 r :=
  carriesData hb (sound hb (.inl ⟨[], hs⟩) hl.valid) hl hus hur hidle htaken hd hroom hbuf hnonce hset hset' ht hu hts hus' hT hU hU' early

/-- The two ends of a new association belong together, in both directions. -/
theorem C58_connected_linked {c : Cfg} {limits : SessionLimits} {s r : Layer} (h : Connected c limits s r) : Linked s r ∧ Linked r s := by
  have hn := h.nonces
  refine ⟨⟨h.validI, h.validR, h.toResponder.symm, h.algorithms.symm, by rw [h.maxNonce.1, h.maxNonce.2], by rw [hn.1, hn.2.2.2]; rfl⟩,
    ⟨h.validR, h.validI, h.toInitiator, h.algorithms, by rw [h.maxNonce.1, h.maxNonce.2], by rw [hn.2.2.1, hn.2.1]; rfl⟩⟩

/-! ### Concrete cases meeting the hypotheses -/

namespace LayerExample

open Exec

/-- Session limits with room for a long transfer. -/
def params58 : Params := ⟨30000, 900⟩
def limits58 : SessionLimits := ⟨1000, 60000⟩
def ini58 : Cfg := { ini with role := .initiator params58 limits58 }
def request58 : Bytes := lastTx (final ini58 .tame hs iniRequest)
def resReply58 : List Choice := [.event (.lowerOpen true), .event .lowerRxReady, .recv request58, ans 6 8, ans 6 8, ans 6 8]
def reply58 : Bytes := lastTx (final res .tame hs resReply58)
def iniAuth58 : List Choice := iniRequest ++ [.event .lowerTxReady, .recv reply58, ans 7, ans 7, ans 7]
def auth58 : Bytes := lastTx (final ini58 .tame hs iniAuth58)
def resAuth58 : List Choice := resReply58 ++ [.event .lowerTxReady, .recv auth58, ans 8, ans 8, ans 8, ans 8, .ret, .event .lowerTxReady, .recv [], ans 9]
def authReply58 : Bytes := lastTx (final res .tame hs resAuth58)
def iniOpen58 : List Choice := iniAuth58 ++ [.event .lowerTxReady, .recv authReply58, ans 9, ans 9, ans 9, .ret, .recv [], ans 9]

def keys58 : SessionKeys := ((final ini58 .tame hs iniOpen58).map (·.active.keys)).getD ⟨[], []⟩

set_option maxRecDepth 1000000 in
/-- An initiator and a responder after their handshake: 100 000 bytes may be sent, in 98 messages, by either side. -/
example : ∃ s r, Quiet ini58 EnvB.tame.env s ∧ Quiet res EnvB.tame.env r ∧ Linked s r ∧ Linked r s ∧ Up s ∧ Up r ∧ s.tx.isIdle = true ∧ r.tx.isIdle = true ∧
    (r.rxFlag = true ↔ r.payloadLen ≠ 0) ∧ (s.rxFlag = true ↔ s.payloadLen ≠ 0) ∧ 1051 ≤ ini58.fw.maxPayload.toNat ∧ 1051 ≤ res.fw.maxPayload.toNat ∧
    s.active.txNonce.toNat + 98 ≤ s.active.param.maxNonce.toNat ∧ r.active.txNonce.toNat + 98 ≤ r.active.param.maxNonce.toNat ∧
    Settled ini58 s 98 ∧ Settled res r 98 ∧ (∀ data : Bytes, data.length = 100000 → (Spec.pieces data).length = 98) ∧
    s.active.param.sessionStart ≤ 10 ∧ 1000000000 - s.active.param.sessionStart + ms ini58.ttlPadMs ≤ s.active.param.maxSessionTime ∧
    r.active.param.sessionStart ≤ 10 ∧ 1000000000 - r.active.param.sessionStart ≤ r.active.param.maxSessionTime ∧
    1000000000 - r.active.param.sessionStart + 1000000 ≤ 10 - s.active.param.sessionStart + ms ini58.ttlPadMs := by
  obtain ⟨s, h1, h2⟩ := Exec.exists_of_map configured (c := ini58) (E := .tame) (h := hs) (script := iniOpen58)
    (f := fun s => ((s.isOpen, s.upperOpen, s.lowerReady, s.rxFlag, s.payloadLen, s.tx.isIdle), (s.active.valid, s.active.keys, s.active.algorithms, s.active.param),
      (s.active.txNonce, s.active.rxNonce), s.ini.required))
    (a := ((true, true, true, false, 0, true), (true, keys58, hs.algorithms.session, ⟨6, 1000, 60000000000⟩), (1, 0), false)) rfl
  obtain ⟨r, h1', h2'⟩ := Exec.exists_of_map configured (c := res) (E := .tame) (h := hs) (script := resAuth58)
    (f := fun s => ((s.isOpen, s.upperOpen, s.lowerReady, s.rxFlag, s.payloadLen, s.tx.isIdle), (s.active.valid, s.active.keys, s.active.algorithms, s.active.param),
      (s.active.txNonce, s.active.rxNonce), s.ini.required))
    (a := ((true, true, true, false, 0, true), (true, ⟨keys58.txKey, keys58.rxKey⟩, hs.algorithms.session, ⟨6, 1000, 60000000000⟩), (1, 0), false)) rfl
  simp only [Prod.mk.injEq] at h2 h2'
  obtain ⟨⟨a1, a2, a3, a4, a5, a6⟩, ⟨b1, b2, b3, b4⟩, ⟨c1, c2⟩, d1⟩ := h2
  obtain ⟨⟨a1', a2', a3', a4', a5', a6'⟩, ⟨b1', b2', b3', b4'⟩, ⟨c1', c2'⟩, d1'⟩ := h2'
  refine ⟨s, r, h1, h1', ⟨b1, b1', by rw [b2, b2'], by rw [b3, b3'], by rw [b4, b4'], by rw [c1, c2']; rfl⟩,
    ⟨b1', b1, by rw [b2, b2'], by rw [b3, b3'], by rw [b4, b4'], by rw [c1', c2]; rfl⟩, ⟨a1, a2, a3⟩, ⟨a1', a2', a3'⟩, a6, a6', by simp [a4', a5'], by simp [a4, a5],
    by decide, by decide, by rw [c1, b4]; decide, by rw [c1', b4']; decide, ?_, ?_, ?_, ?_⟩
  · rintro p l h
    cases h
    exact ⟨by simp [d1], by rw [c1]; decide, by rw [c2]; decide⟩
  · rintro p l h
    cases h
  · intro data h
    rw [pieces_count, h]
  · rw [b4, b4']
    decide

end LayerExample

end SSP21.Crypto
