import Verif.Spec.Success
import Verif.Ends
import Verif.Props.Liveness
/-
  Property C57: a handshake over a faithful network succeeds.
-/
namespace SSP21.Crypto
open Spec

namespace SuccessProof

/-! ### Sessions -/

/-- A new session can be authenticated, with an empty message. -/
theorem formatAuth_ok (b : Backend) (hb : b.Lawful) (a : Session) (now : Int) (hs : a.algorithms.Standard b) (hv : a.valid = true)
    (hk : a.keys.txKey.length = 32) (hz : a.txNonce = 0) (h1 : a.param.sessionStart ≤ now)
    (h2 : now - a.param.sessionStart + ms a.ttlPadMs ≤ a.param.maxSessionTime) (hm : ∃ n : UInt32, a.param.maxSessionTime = ms n)
    (hr : 25 ≤ a.frameWriter.maxPayload.toNat) :
    ∃ f bytes, a.formatAuth now [] = ({ a with txNonce := 1 }, [], .ok f) ∧ f.frame = a.frameWriter.wrap bytes ∧
      SessionData.read bytes = .ok f.msg ∧ f.msg.metadata.nonce = 0 ∧ ms a.ttlPadMs ≤ f.msg.metadata.valid_until_ms.toNat * 1000000 := by
  obtain ⟨msg, m1, m2, m3, m4, m5, m6, m7⟩ := format_ok b hb a now [] hs hv hk ⟨h1, h2⟩ (by omega)
  have hn : Spec.chunkSize a.frameWriter.maxPayload.toNat ([] : Bytes).length = 0 := by simp [Spec.chunkSize]
  rw [hn] at m5 m7
  rw [if_pos (by simp [Spec.sessionMessageSize]; omega), List.drop_nil] at m7
  refine ⟨⟨_, msg⟩, Spec.sessionData msg, ?_, rfl, (C03_session_data_canonical _ _).mpr ⟨⟨(by dsimp only; omega), (by dsimp only; omega)⟩, rfl⟩, by rw [m1, hz], ?_⟩
  · unfold Session.formatAuth
    rw [if_neg (by simp [hz]), m7, hz]
    rfl
  · obtain ⟨n, hn⟩ := hm
    have hnl := n.toNat_lt
    simp only [m2, ms] at *
    rw [hn] at h2
    have h3 : 0 ≤ now - a.param.sessionStart + (a.ttlPadMs.toNat : Int) * 1000000 := by omega
    rw [Int.tdiv_eq_ediv_of_nonneg h3]
    have h4 : (now - a.param.sessionStart + (a.ttlPadMs.toNat : Int) * 1000000) / 1000000 < 4294967296 := by omega
    simp only [UInt32.toNat_ofNat']
    rw [Nat.mod_eq_of_lt (by omega)]
    omega

/-! ### The request -/

theorem field_length (d : Bytes) (h : d.length < 2 ^ 32) : (Spec.field d).length ≤ 5 + d.length := by
  have := C01_vlength_size (UInt32.ofNat d.length)
  have e : (UInt32.ofNat d.length).toNat = d.length := by simp; omega
  rw [e] at this
  simp only [Spec.field, List.length_append]
  omega

theorem request_length (m : RequestHandshakeBegin) (h : m.WF) (he : m.mode_ephemeral.length ≤ 32) :
    (Spec.request m).length ≤ 55 + m.mode_data.length := by
  have h1 := field_length m.mode_data h.2.2.2
  have h2 : (Spec.field m.mode_ephemeral).length = 1 + m.mode_ephemeral.length := by
    simp only [Spec.field, Spec.vlength, List.length_append]
    rw [if_pos (by omega)]
    rfl
  simp only [Spec.request, Spec.u16, Spec.u32, List.length_append, List.length_cons, List.length_nil]
  omega

theorem request_ok (m : RequestHandshakeBegin) (h : m.WF) (he : m.mode_ephemeral.length ≤ 32) (cap : Nat)
    (hc : 55 + m.mode_data.length ≤ cap) : ∃ w, m.write cap = .ok w := by
  have := request_length m h he
  rw [C02_request_write m h, if_pos (by omega)]
  exact ⟨_, rfl⟩

/-- What an initiator needs from its environment it gets, its request fits in a frame, and the responder will answer it. -/
theorem begin_answered {b : Backend} (hb : b.Lawful) {caps : Caps} {h0 h : InitiatorHandshake} {rh : ResponderHandshake}
    (hc : Credentials b caps caps h0 rh) (hs : SameConfiguration h0 h) (hx : ∀ x y, (b.dhRaw x (b.dhPublic y)).isSome)
    {record : Option (UInt64 × Bytes)} (hq : rh = .qkd → record.isSome) (rnd : Bytes) (hr : rnd.length = 32) (limits : SessionLimits)
    (fw fw' : FrameWriter) (room : 64 + (certificatesI h0).length ≤ fw.maxPayload.toNat)
    (room' : 64 + (certificatesR rh).length ≤ fw'.maxPayload.toNat) :
    ∃ suite h1 eph data w, h.initializeNew b rnd record = (h1, some (eph, data)) ∧
      (h1.buildRequest limits eph data).write fw.maxPayload.toNat = .ok w ∧
      ∀ (lookup : UInt64 → Option Bytes) (rnd' : Bytes) (t0 now1 : Int) (sR : Session) (stR : Stats), rnd'.length = 32 →
        (∀ id key, record = some (id, key) → lookup id = some key) →
        SSP21.Spec.Answered b caps suite h1 rh limits w lookup rnd' t0 now1 fw' sR stR := by
  have hm := fw.maxPayload.toNat_lt
  have hm' := fw'.maxPayload.toNat_lt
  obtain ⟨e1, e2, e3⟩ := hs
  obtain ⟨mode, suite, algs, tt, hh⟩ := h
  dsimp only at e1 e2 e3
  subst e1 e2
  cases hc with
  | sharedSecret suite key _ hmk =>
    have hmk' := hmk
    unfold InitiatorHandshake.mkSharedSecret at hmk'
    split at hmk'
    · cases hmk'
    rename_i a hcf
    cases hmk'
    obtain ⟨c1, c2, c2', c3, c4, c5, c6⟩ := configure_ok hcf
    cases mode with
    | qkd _ => exact absurd e3 id
    | publicKey _ _ _ => exact absurd e3 id
    | sharedSecret key' n =>
      dsimp only at e3
      subst e3
      have hwf : (InitiatorHandshake.buildRequest ⟨.sharedSecret key' rnd, { suite with handshake_ephemeral := .nonce }, a, tt, hh⟩
          limits rnd []).WF := by
        refine ⟨⟨?_, c3, c4, c5, c6⟩, ?_, ?_, ?_⟩ <;> simp [InitiatorHandshake.buildRequest, InitiatorHandshake.handshakeMode, hr]
      obtain ⟨w, hw⟩ := request_ok _ hwf (by simp [InitiatorHandshake.buildRequest, hr]) fw.maxPayload.toNat
        (by simp only [InitiatorHandshake.buildRequest, List.length_nil]; omega)
      refine ⟨suite, _, _, _, w, rfl, hw, fun lookup rnd' t0 now1 sR stR hr' _ => ?_⟩
      exact answered_shared_secret b hb caps suite key' _ _ hmk rnd rnd' hr hr' none _ _ rfl limits fw.maxPayload.toNat w hw lookup t0 now1
        fw' (by omega) sR stR
  | qkd suite _ hmk =>
    have hmk' := hmk
    unfold InitiatorHandshake.mkQkd at hmk'
    split at hmk'
    · cases hmk'
    rename_i a hcf
    cases hmk'
    obtain ⟨c1, c2, c2', c3, c4, c5, c6⟩ := configure_ok hcf
    obtain ⟨⟨id, key⟩, rfl⟩ := Option.isSome_iff_exists.mp (hq rfl)
    cases mode with
    | sharedSecret _ _ => exact absurd e3 _root_.id
    | publicKey _ _ _ => exact absurd e3 _root_.id
    | qkd k =>
      have hb8 : (be 8 id.toNat).length = 8 := by simp [be_length]
      have hwf : (InitiatorHandshake.buildRequest ⟨.qkd (some key), { suite with handshake_ephemeral := .none }, a, tt, hh⟩
          limits [] (be 8 id.toNat)).WF := by
        refine ⟨⟨?_, c3, c4, c5, c6⟩, ?_, ?_, ?_⟩ <;>
          simp [InitiatorHandshake.buildRequest, InitiatorHandshake.handshakeMode, hb8]
      obtain ⟨w, hw⟩ := request_ok _ hwf (by simp [InitiatorHandshake.buildRequest]) fw.maxPayload.toNat
        (by simp only [InitiatorHandshake.buildRequest, hb8]; omega)
      refine ⟨suite, _, _, _, w, rfl, hw, fun lookup rnd' t0 now1 sR stR hr' hl => ?_⟩
      exact answered_qkd b hb caps suite _ _ hmk rnd rnd' id key _ _ rfl limits fw.maxPayload.toNat w hw lookup (hl _ _ rfl) t0 now1
        fw' (by omega) sR stR
  | publicKey suite sp sp' certs certs' _ hmk hv hv' =>
    have hmk' := hmk
    unfold InitiatorHandshake.mkPublicKey at hmk'
    split at hmk'
    · cases hmk'
    rename_i a hcf
    split at hmk'
    · cases hmk'
    rename_i hdh
    split at hmk'
    case isFalse => cases hmk'
    rename_i hed
    cases hmk'
    obtain ⟨c1, c2, c2', c3, c4, c5, c6⟩ := configure_ok hcf
    have he : suite.handshake_ephemeral ≠ .undefined := by
      intro h; rw [h] at hdh; simp [dhConfigure] at hdh
    cases mode with
    | sharedSecret _ _ => exact absurd e3 id
    | qkd _ => exact absurd e3 id
    | publicKey sp2 certs2 eph2 =>
      dsimp only at e3
      obtain ⟨rfl, rfl⟩ := e3
      have hpl := hb.dhPublic_length rnd
      simp only [certificatesI, certificatesR] at room room'
      have hwf : (InitiatorHandshake.buildRequest ⟨.publicKey sp2 certs2 (b.genKeyPair rnd), suite, a, tt, hh⟩
          limits (b.genKeyPair rnd).pub certs2.data).WF := by
        refine ⟨⟨he, c3, c4, c5, c6⟩, ?_, ?_, ?_⟩
        · cases certs2 <;> simp [InitiatorHandshake.buildRequest, InitiatorHandshake.handshakeMode, CertHandler.mode]
        · simp [InitiatorHandshake.buildRequest, Backend.genKeyPair, hpl]
        · simp only [InitiatorHandshake.buildRequest]; omega
      obtain ⟨w, hw⟩ := request_ok _ hwf (by simp [InitiatorHandshake.buildRequest, Backend.genKeyPair, hpl]) fw.maxPayload.toNat
        (by simp only [InitiatorHandshake.buildRequest]; omega)
      refine ⟨suite, _, _, _, w, rfl, hw, fun lookup rnd' t0 now1 sR stR hr' _ => ?_⟩
      exact answered_public_key b hb caps suite sp2 sp' certs2 certs' hv hv' (by omega) (by omega) _ _ hmk rnd rnd' none
        (hx _ _) (hx _ _) (hx _ _) _ _ rfl limits fw.maxPayload.toNat w hw lookup t0 now1 fw' (by omega) sR stR

/-! ### Events -/

theorem idle_eq {x : TxState} (h : x.isIdle = true) : x = ⟨false, []⟩ := by
  obtain ⟨a, b⟩ := x
  simp only [TxState.isIdle, Bool.and_eq_true, Bool.not_eq_true', List.isEmpty_iff] at h
  rw [h.1, h.2]

theorem framesSent_append (l l' : List Obs) : framesSent (l ++ l') = framesSent l ++ framesSent l' := List.filterMap_append ..

/-- The same layer, ready to transmit, a little later. -/
def Like (s s' : Layer) : Prop :=
  ∃ b l, s' = { s with buf := b, lowerReady := true, log := s.log ++ l } ∧ framesSent l = []

theorem Like.trans {s s' s'' : Layer} (h : Like s s') (h' : Like s' s'') : Like s s'' := by
  obtain ⟨b, l, rfl, h1⟩ := h
  obtain ⟨b', l', rfl, h2⟩ := h'
  exact ⟨b', l ++ l', by simp, by rw [framesSent_append, h1, h2]; rfl⟩

section
variable {c : Cfg} {A : Fresh → Prop} {T : Int} {P : Int → Layer → Prop} {t : Int} {s : Layer}

/-- Nothing is due before data is transmitted. -/
def NotDue (c : Cfg) (s : Layer) : Prop := ∀ params limits, c.role = .initiator params limits → s.ini.required = true → s.ini.hs ≠ .idle

theorem pre_through {S : Int → Layer → Prop} (h : NotDue c s) :
    (onPreTxReady c).through A T S (fun t' _ s' => t ≤ t' ∧ s' = s) t s := by
  unfold onPreTxReady
  split
  · rename_i params limits hrole
    simp only [th_bind, th_get, th_ite, th_pure]
    refine ⟨fun hr => ?_, fun _ => ⟨Int.le_refl _, trivial⟩⟩
    have hi := h params limits hrole hr
    unfold onHandshakeRequired
    simp only [th_bind, th_getTime, th_get]
    intro f h1 h2 h3 h4
    cases hs : s.ini.hs with
    | idle => exact absurd hs hi
    | _ =>
      simp only [setState, th_bind, th_modifyIni]
      refine ⟨h3, ?_⟩
      obtain ⟨isOpen, upperOpen, rxFlag, lowerReady, active, pending, stats, tx, buf, payloadLen,
        ⟨hs', handshake, respTimer, sessTimer, orphans, required⟩, inAuth, log⟩ := s
      dsimp only at hr hs ⊢
      rw [hr, hs]
  · exact ⟨Int.le_refl _, rfl⟩

theorem checkTransmit_idle (h : s.tx = ⟨false, []⟩) : checkTransmit c s = .done () s := by
  unfold checkTransmit
  show (if !canTransmit s then _ else _ : M Unit) s = _
  rw [if_pos (by simp [canTransmit, TxState.isReadyTx, h])]
  rfl

theorem txReady_run (ho : s.isOpen = true) (hx : s.tx = ⟨false, []⟩) :
    Event.lowerTxReady.run c s =
      ((onPreTxReady c) { s with lowerReady := true, log := s.log ++ [.lowerReady true] }).bind
        fun _ s' => .loop s' fun s'' => checkTransmit c s'' := by
  obtain ⟨isOpen, upperOpen, rxFlag, lowerReady, active, pending, stats, tx, buf, payloadLen, ini, inAuth, log⟩ := s
  cases ho
  cases hx
  rfl

theorem rxReady_run (ho : s.isOpen = true) : Event.lowerRxReady.run c s = .loop s fun s' => .done () s' := by
  obtain ⟨isOpen, upperOpen, rxFlag, lowerReady, active, pending, stats, tx, buf, payloadLen, ini, inAuth, log⟩ := s
  cases ho
  rfl

/-- What the processing of the message must establish. -/
def Handles (c : Cfg) (A : Fresh → Prop) (T : Int) (t : Int) (s : Layer) (m : Bytes) (P : Int → Layer → Prop) : Prop :=
  ∀ t' s', t ≤ t' → t' ≤ T → Like s s' →
    (process c m).through A T P (fun t'' _ s'' => s''.tx = ⟨false, []⟩ ∧ s''.payloadLen = 0 ∧ P t'' s'') t' s'

/-- What is claimed does not depend on the buffer, and remains true. -/
def Stable (P : Int → Layer → Prop) : Prop := ∀ t t' s b, t ≤ t' → P t s → P t' { s with buf := b }

theorem loop_one {m : Bytes} (ht : t ≤ T) {s1 : Layer} (hl : Like s s1) (hp : s1.payloadLen = 0) (hm : m ≠ [])
    (hh : Handles c A T t s m P) (hP : Stable P) {k : Layer → Run Unit} (hk : ∀ s, s.tx = ⟨false, []⟩ → k s = .done () s) {t1 : Int}
    (ht1 : t ≤ t1) (ht1' : t1 ≤ T) : (Run.loop s1 k).Ends c A T P (fun t ms _ s => ms = [] ∧ P t s) t1 [m] := by
  refine loop_message ht1' ?_ hp hm (P := fun t s => s.tx = ⟨false, []⟩ ∧ s.payloadLen = 0 ∧ P t s) ?_ ?_
  · obtain ⟨b, l, rfl, h⟩ := hl; rfl
  · intro f h1 h2 h3 h4
    refine hh f.now _ (by omega) h4 (hl.trans ⟨f.scratch, [.recv m], ?_, rfl⟩)
    obtain ⟨b, l, rfl, h⟩ := hl
    rfl
  · rintro t' s' h1 ⟨h2, h3, h4⟩
    cases hr : s'.lowerReady with
    | false =>
      refine loop_stop (.inl hr) ?_
      rw [hk s' h2]
      exact .done ⟨rfl, h4⟩
    | true =>
      refine loop_empty h1 hr h3 fun f f1 f2 f3 f4 => ?_
      rw [hk _ (by exact h2)]
      exact .done ⟨rfl, hP _ _ _ _ f3 h4⟩

/-- From `Ends` to `Leads`. -/
theorem leads_of (hA : ∀ t, t ≤ T → ∃ f : Fresh, f.ok ∧ A f ∧ f.now = t) {e : Event} {ms : List Bytes} (ht : t ≤ T)
    (h : (e.run c s).Ends c A T P (fun t ms _ s => ms = [] ∧ P t s) t ms) : Leads c A T e t ms s fun t s => t ≤ T ∧ P t s :=
  Run.Ends.inevitable (P := fun t s => t ≤ T ∧ P t s) hA [] ht h (fun _ _ h h' => ⟨h, h'⟩) (fun _ _ _ h h' => ⟨h, h'.2⟩)

theorem ends_rx {m : Bytes} (ht : t ≤ T) (ho : s.isOpen = true)
    (hr : s.lowerReady = true) (hp : s.payloadLen = 0) (hm : m ≠ []) (hh : Handles c A T t s m P) (hP : Stable P) :
    (Event.lowerRxReady.run c s).Ends c A T P (fun t ms _ s => ms = [] ∧ P t s) t [m] := by
  rw [rxReady_run ho]
  refine loop_one ht ?_ hp hm hh hP (fun _ _ => rfl) (Int.le_refl t) ht
  refine ⟨s.buf, [], ?_, rfl⟩
  rw [List.append_nil, ← hr]

theorem leads_rx (hA : ∀ t, t ≤ T → ∃ f : Fresh, f.ok ∧ A f ∧ f.now = t) {m : Bytes} (ht : t ≤ T) (ho : s.isOpen = true)
    (hr : s.lowerReady = true) (hp : s.payloadLen = 0) (hm : m ≠ []) (hh : Handles c A T t s m P) (hP : Stable P) :
    Leads c A T .lowerRxReady t [m] s fun t s => t ≤ T ∧ P t s := leads_of hA ht (ends_rx ht ho hr hp hm hh hP)

theorem Handles.like {m : Bytes} {s1 : Layer} {t1 : Int} (hh : Handles c A T t s m P) (ht : t ≤ t1) (hl : Like s s1) :
    Handles c A T t1 s1 m P := fun t' s' h1 h2 h3 => hh t' s' (by omega) h2 (hl.trans h3)

theorem ends_tx {m : Bytes} (ht : t ≤ T) (ho : s.isOpen = true)
    (hp : s.payloadLen = 0) (hx : s.tx = ⟨false, []⟩) (hd : NotDue c s) (hm : m ≠ []) (hh : Handles c A T t s m P) (hP : Stable P) :
    (Event.lowerTxReady.run c s).Ends c A T P (fun t ms _ s => ms = [] ∧ P t s) t [m] := by
  rw [txReady_run ho hx]
  refine Run.Ends.bind ?_ (Run.Through.ends ht [m] (pre_through (s := { s with lowerReady := true, log := s.log ++ [.lowerReady true] }) hd))
  rintro t' ms' _ s' ⟨rfl, h1, h2, rfl⟩
  exact loop_one ht (s := s) ⟨s.buf, [.lowerReady true], rfl, rfl⟩ hp hm hh hP (fun _ h => checkTransmit_idle h) h2 h1

theorem leads_tx (hA : ∀ t, t ≤ T → ∃ f : Fresh, f.ok ∧ A f ∧ f.now = t) {m : Bytes} (ht : t ≤ T) (ho : s.isOpen = true)
    (hp : s.payloadLen = 0) (hx : s.tx = ⟨false, []⟩) (hd : NotDue c s) (hm : m ≠ []) (hh : Handles c A T t s m P) (hP : Stable P) :
    Leads c A T .lowerTxReady t [m] s fun t s => t ≤ T ∧ P t s := leads_of hA ht (ends_tx ht ho hp hx hd hm hh hP)

theorem ends_tx_none (ht : t ≤ T) (ho : s.isOpen = true)
    (hp : s.payloadLen = 0) (hx : s.tx = ⟨false, []⟩) (hd : NotDue c s) :
    (Event.lowerTxReady.run c s).Ends c A T (fun _ _ => False) (fun t' ms _ s' => ms = [] ∧ t ≤ t' ∧ t' ≤ T ∧ Like s s') t [] := by
  rw [txReady_run ho hx]
  refine Run.Ends.bind ?_ (Run.Through.ends ht [] (pre_through (s := { s with lowerReady := true, log := s.log ++ [.lowerReady true] }) hd))
  rintro t' ms' _ s' ⟨rfl, h1, h2, rfl⟩
  refine loop_empty h1 rfl hp fun f f1 f2 f3 f4 => ?_
  rw [checkTransmit_idle (by exact hx)]
  exact .done ⟨rfl, by omega, f4, f.scratch, [.lowerReady true], rfl, rfl⟩

theorem leads_tx_none (hA : ∀ t, t ≤ T → ∃ f : Fresh, f.ok ∧ A f ∧ f.now = t) (ht : t ≤ T) (ho : s.isOpen = true)
    (hp : s.payloadLen = 0) (hx : s.tx = ⟨false, []⟩) (hd : NotDue c s) :
    Leads c A T .lowerTxReady t [] s fun t' s' => t ≤ t' ∧ t' ≤ T ∧ Like s s' :=
  Run.Ends.inevitable hA [] ht (ends_tx_none ht ho hp hx hd) (fun _ _ _ h => absurd h id) (fun _ _ _ _ h => h.2)

/-- A message that the layer handles as claimed leads to what is claimed, whether it comes early or late. -/
theorem arrives (hA : ∀ t, t ≤ T → ∃ f : Fresh, f.ok ∧ A f ∧ f.now = t) {m : Bytes} (ht : t ≤ T) (ho : s.isOpen = true)
    (hp : s.payloadLen = 0) (hx : s.tx = ⟨false, []⟩) (hd : NotDue c s) (hm : m ≠ []) (hh : Handles c A T t s m P) (hP : Stable P)
    (late : Bool) : Arrives c A T late t m s fun t s => t ≤ T ∧ P t s := by
  unfold Arrives
  cases late with
  | false => exact leads_tx hA ht ho hp hx hd hm hh hP
  | true =>
    refine (leads_tx_none hA ht ho hp hx hd).mono ?_
    rintro x ⟨s', h1, h2, h3, h4⟩
    refine ⟨s', h1, ?_⟩
    refine leads_rx hA h3 ?_ ?_ ?_ hm (hh.like h2 h4) hP
    all_goals obtain ⟨b, l, rfl, h⟩ := h4
    · exact ho
    · rfl
    · exact hp

end

/-! ### Messages -/

theorem process_request {c : Cfg} {h : ResponderHandshake} (hrole : c.role = .responder h) {m : Bytes} {msg : RequestHandshakeBegin}
    (hr : RequestHandshakeBegin.read m = .ok msg) : process c m = (getTime >>= fun now => onRequestBegin c h msg m now) ∧ m ≠ [] := by
  have h0 := (C03_function_code m).1 msg hr
  cases m with
  | nil => cases h0
  | cons x xs =>
    cases h0
    refine ⟨?_, by simp⟩
    unfold process
    simp [Function.fromType, supports, hrole, hr]

theorem process_reply {c : Cfg} {params : Params} {limits : SessionLimits} (hrole : c.role = .initiator params limits) {m : Bytes}
    {msg : ReplyHandshakeBegin} (hr : ReplyHandshakeBegin.read m = .ok msg) :
    process c m = (getTime >>= fun now => onReplyBegin c limits msg m now) ∧ m ≠ [] := by
  have h0 := (C03_function_code m).2.1 msg hr
  cases m with
  | nil => cases h0
  | cons x xs =>
    cases h0
    refine ⟨?_, by simp⟩
    unfold process
    simp [Function.fromType, supports, hrole, hr]

theorem process_session {c : Cfg} {m : Bytes} {msg : SessionData} (hr : SessionData.read m = .ok msg) :
    process c m = (getTime >>= fun now => onSessionMessage c msg now) ∧ m ≠ [] := by
  have h0 := (C03_function_code m).2.2.2 msg hr
  cases m with
  | nil => cases h0
  | cons x xs =>
    cases h0
    refine ⟨?_, by simp⟩
    unfold process
    cases hrole : c.role <;> simp [Function.fromType, supports, hrole, hr]

section
variable {c : Cfg} {A : Fresh → Prop} {T : Int} {S : Int → Layer → Prop} {t : Int} {s : Layer}

/-- `a` can be authenticated until `T`: the message, the frame and what is known about them. -/
structure Auth (c : Cfg) (a : Session) (now : Int) (out : Formatted) (bytes : Bytes) : Prop where
  made : a.formatAuth now [] = ({ a with txNonce := 1 }, [], .ok out)
  frame : out.frame = c.fw.wrap bytes
  read : SessionData.read bytes = .ok out.msg
  nonce : out.msg.metadata.nonce = 0
  pad : ms c.ttlPadMs ≤ out.msg.metadata.valid_until_ms.toNat * 1000000

theorem transmit_pending (hx : s.tx = ⟨false, []⟩) (hr : s.lowerReady = true)
    (hf : ∀ now, t ≤ now → now ≤ T → ∃ out bytes, Auth c s.pending now out bytes) {Q : Int → Bool → Layer → Prop}
    (hq : ∀ now out bytes acts, t ≤ now → now ≤ T → Auth c s.pending now out bytes →
      Q now true { s with pending := { s.pending with txNonce := 1 }, acts := acts, log := s.log ++ [.lowerTx (c.fw.wrap bytes) true], lowerReady := false }) :
    (transmitSessionAuth true).through A T S Q t s := by
  unfold transmitSessionAuth
  simp only [th_bind, th_getTime, th_get, th_modify]
  intro f f1 f2 f3 f4
  obtain ⟨out, bytes, h⟩ := hf f.now f3 f4
  have hm := h.made
  simp only [hx, if_true, hm]
  simp only [th_bind, th_act, ne_eq, not_true_eq_false, if_false, th_pure, th_lowerStartTx, hr]
  have := hq f.now out bytes (s.acts ++ [(s.log.length, .sent true out [] [])]) f3 f4 h
  rw [← h.frame, hx] at this
  exact this

theorem transmit_active (hx : s.tx = ⟨false, []⟩) (hr : s.lowerReady = true)
    (hf : ∀ now, t ≤ now → now ≤ T → ∃ out bytes, Auth c s.active now out bytes) {Q : Int → Bool → Layer → Prop}
    (hq : ∀ now out bytes acts, t ≤ now → now ≤ T → Auth c s.active now out bytes →
      Q now true { s with active := { s.active with txNonce := 1 }, acts := acts, log := s.log ++ [.lowerTx (c.fw.wrap bytes) true], lowerReady := false }) :
    (transmitSessionAuth false).through A T S Q t s := by
  unfold transmitSessionAuth
  simp only [th_bind, th_getTime, th_get, th_modify]
  intro f f1 f2 f3 f4
  obtain ⟨out, bytes, h⟩ := hf f.now f3 f4
  have hm := h.made
  simp only [hx, Bool.false_eq_true, if_false, hm]
  simp only [th_bind, th_act, ne_eq, not_true_eq_false, if_false, th_pure, th_lowerStartTx, hr]
  have := hq f.now out bytes (s.acts ++ [(s.log.length, .sent false out [] [])]) f3 f4 h
  rw [← h.frame, hx] at this
  exact this

theorem noteEstablished_through (n : Nat) {Q : Int → Unit → Layer → Prop}
    (hq : ∀ l, framesSent l = [] → Q t () { s with log := s.log ++ l }) : (noteEstablished n).through A T S Q t s := by
  unfold noteEstablished
  simp only [th_bind, th_get, th_ite, th_note, th_pure]
  refine ⟨fun _ => hq _ rfl, fun _ => ?_⟩
  have := hq [] rfl
  rw [List.append_nil] at this
  exact this

theorem noteKeyUsed_through (o : Option (UInt64 × Bytes)) : ∃ l1, framesSent l1 = [] ∧
    ∀ {A : Fresh → Prop} {T : Int} {S : Int → Layer → Prop} (Q : Int → Unit → Layer → Prop) (s : Layer) (k : M Unit) (t : Int),
      k.through A T S Q t { s with log := s.log ++ l1 } →
      (match o with | some id => (do note (.keyUsed id); k) | none => (do pure (); k) : M Unit).through A T S Q t s := by
  cases o with
  | some id => exact ⟨[.keyUsed id], rfl, fun Q s k t h => h⟩
  | none => exact ⟨[], rfl, fun Q s k t h => by rw [List.append_nil] at h; exact h⟩

end

/-! ### The steps of the handshake -/

section
variable {c c' : Cfg} {limits : SessionLimits} {suite : CryptoSpec}

/-- The responder has answered the request that the initiator sent at time `t0`. -/
structure Replied (c c' : Cfg) (limits : SessionLimits) (suite : CryptoSpec) (ih : InitiatorHandshake) (m1 : Bytes) (t0 u0 : Int) (r : Layer)
    (m2 : Bytes) (reply : ReplyHandshakeBegin) (u : Int) (r' : Layer) : Prop where
  sends : SendsOne c' r r' m2
  reads : ReplyHandshakeBegin.read m2 = .ok reply
  isOpen : r'.isOpen = true
  idle : r'.tx = ⟨false, []⟩
  empty : r'.payloadLen = 0
  upper : r'.upperOpen = r.upperOpen
  fw : r'.pending.frameWriter = c'.fw
  ttl : r'.pending.ttlPadMs = c'.ttlPadMs
  start : u0 ≤ r'.pending.param.sessionStart ∧ r'.pending.param.sessionStart ≤ u
  flag : r'.rxFlag = r.rxFlag
  accept : ∀ now2 sI stI, t0 ≤ now2 → ∃ ih' sI' stI',
      (ih.finalizeRequestTx m1 t0).initializeSession c.backend c.caps reply m2 limits now2 sI stI = (ih', sI', stI', .ok) ∧
      SSP21.Spec.Agree c.backend suite limits sI' r'.pending ∧ t0 ≤ sI'.param.sessionStart ∧ sI'.param.sessionStart ≤ now2 ∧
      sI'.frameWriter = sI.frameWriter ∧ sI'.ttlPadMs = sI.ttlPadMs

theorem handles_request (hb : c'.backend = c.backend) (hcaps : c'.caps = c.caps) {rh : ResponderHandshake} (hrole : c'.role = .responder rh)
    {ih : InitiatorHandshake} {m1 : Bytes} {t0 u0 U : Int} {A : Fresh → Prop}
    (ha : ∀ (f : Fresh) now1 sR stR, f.ok → A f → SSP21.Spec.Answered c.backend c.caps suite ih rh limits m1 f.lookup f.rnd t0 now1 c'.fw sR stR)
    {msg : RequestHandshakeBegin} (hread : RequestHandshakeBegin.read m1 = .ok msg)
    {r : Layer} (ho : r.isOpen = true) (hx : r.tx = ⟨false, []⟩) (hp : r.payloadLen = 0) (hfw : r.pending.frameWriter = c'.fw ∧ r.pending.ttlPadMs = c'.ttlPadMs) :
    Handles c' A U u0 r m1 fun u r' => ∃ m2 reply, Replied c c' limits suite ih m1 t0 u0 r m2 reply u r' := by
  intro u1 r1 h1 h2 hl
  rw [(process_request hrole hread).1]
  unfold onRequestBegin
  simp only [th_bind, th_getTime]
  intro f f1 f2 f3 f4
  obtain ⟨b, l, rfl, hlog⟩ := hl
  obtain ⟨msg', -, -, -, -, -, g1, g2, -⟩ := ha f f.now r.pending r.stats f1 f2
  rw [hread] at g1
  cases g1
  rw [if_neg (by rw [g2]; decide)]
  simp only [th_bind, th_ask, th_get]
  intro f' f1' f2' f3' f4'
  obtain ⟨msg', reply, m2, sR', stR', consumed, g1, -, g3, g4, g5, g6, g7, g8⟩ := ha f' f.now r.pending r.stats f1' f2'
  rw [hread] at g1
  cases g1
  rw [hb, hcaps, g3]
  simp only [th_bind, th_modify]
  obtain ⟨l1, hl1, key⟩ := noteKeyUsed_through consumed
  refine key _ _ _ _ ?_
  simp only [th_bind]
  refine noteEstablished_through _ fun l2 hl2 => ?_
  simp only [th_lowerStartTx, th_pure]
  refine ⟨hx, hp, m2, reply, ?_⟩
  refine ⟨?_, g4, ho, hx, hp, rfl, g6.trans hfw.1, g7.trans hfw.2, ?_, rfl, ?_⟩
  · simp only [SendsOne, framesSent_append, hlog, hl1, hl2, List.append_nil]
    rfl
  · dsimp only; rw [g5]; omega
  · exact fun now2 sI stI ht => g8 now2 sI stI ht

/-- The initiator has sent the request `w`, made with the handshake object `ih`, at time `τ`. -/
structure Requested (c : Cfg) (t0 : Int) (s : Layer) (ih : InitiatorHandshake) (w : Bytes) (τ : Int) (t : Int) (s' : Layer) : Prop where
  sends : SendsOne c s s' w
  isOpen : s'.isOpen = true
  state : s'.ini.hs = .waitForBeginReply
  idle : s'.tx = ⟨false, []⟩
  empty : s'.payloadLen = 0
  upper : s'.upperOpen = s.upperOpen
  handshake : s'.ini.handshake = ih.finalizeRequestTx w τ
  busy : s'.lowerReady = false
  time : t0 ≤ τ ∧ τ ≤ t
  flag : s'.rxFlag = s.rxFlag
  fw : s'.pending.frameWriter = c.fw
  ttl : s'.pending.ttlPadMs = c.ttlPadMs

theorem request_through {A : Fresh → Prop} {T : Int} {S : Int → Layer → Prop} {t t0 : Int} {s s0 : Layer} {P : InitiatorHandshake → Bytes → Prop}
    (hi : s0.ini.hs = .idle) (hr : s0.lowerReady = true) (ho : s0.isOpen = true) (hx : s0.tx = ⟨false, []⟩) (hp : s0.payloadLen = 0)
    (hu : s0.upperOpen = s.upperOpen) (hf : s0.rxFlag = s.rxFlag) (hl : framesSent s0.log = framesSent s.log) (hfw : s0.pending.frameWriter = c.fw ∧ s0.pending.ttlPadMs = c.ttlPadMs)
    (ht : t0 ≤ t)
    (ha : ∀ f : Fresh, f.ok → A f → ∃ h1 eph data w, s0.ini.handshake.initializeNew c.backend f.rnd f.record = (h1, some (eph, data)) ∧
      (h1.buildRequest limits eph data).write c.fw.maxPayload.toNat = .ok w ∧ P h1 w) :
    (onHandshakeRequired c limits).through A T S (fun t' _ s' => ∃ ih w τ, P ih w ∧ Requested c t0 s ih w τ t' s') t s0 := by
  unfold onHandshakeRequired
  simp only [th_bind, th_getTime, th_get, hi]
  intro f f1 f2 f3 f4
  unfold idleOnHandshakeRequired
  simp only [th_bind, th_get, th_ite, hr, Bool.not_true, Bool.false_eq_true, false_implies, true_and, not_false_eq_true, true_implies, th_ask]
  intro g g1 g2 g3 g4
  obtain ⟨h1, eph, data, w, e1, e2, e3⟩ := ha g g1 g2
  simp only [e1, th_modifyIni]
  have key : ∃ l, framesSent l = [] ∧ ∀ (Q : Int → Unit → Layer → Prop) (s : Layer) (t : Int),
      Q t () { s with log := s.log ++ l } → (noteKey (s0.ini.handshake.usedRecord g.record)).through A T S Q t s := by
    cases s0.ini.handshake.usedRecord g.record with
    | some id => exact ⟨[.keyUsed id], rfl, fun Q s t h => h⟩
    | none => exact ⟨[], rfl, fun Q s t h => by rw [List.append_nil] at h; exact h⟩
  obtain ⟨l, hll, key⟩ := key
  apply key
  simp only [e2, th_bind, th_modifyIni, th_lowerStartTx, startTimer, th_pure, setState]
  refine ⟨h1, w, f.now, e3, ?_⟩
  refine ⟨?_, ho, rfl, hx, hp, hu, rfl, rfl, ⟨by omega, by omega⟩, hf, hfw.1, hfw.2⟩
  simp only [SendsOne, framesSent_append, hll, hl, List.append_nil, hr]
  rfl

/-- The beginning: whatever makes the initiator begin, it sends its request. -/
theorem ends_begin {E : Env} {params : Params} (hE : ReadsAtOnce c E) (hrole : c.role = .initiator params limits) {s : Layer} (h : Quiet c E s)
    {e : Event} (he : BeginsAt s e) (hn : Unoccupied s) {A : Fresh → Prop} {T t0 : Int} (ht : t0 ≤ T)
    {P : InitiatorHandshake → Bytes → Prop}
    (ha : ∀ f : Fresh, f.ok → A f → ∃ h1 eph data w, s.ini.handshake.initializeNew c.backend f.rnd f.record = (h1, some (eph, data)) ∧
      (h1.buildRequest limits eph data).write c.fw.maxPayload.toNat = .ok w ∧ P h1 w) :
    (e.run c s).Ends c A T (fun _ _ => False) (fun t ms _ s' => ms = [] ∧ t ≤ T ∧ ∃ ih w τ, P ih w ∧ Requested c t0 s ih w τ t s') t0 [] := by
  have hg := LivenessProof.quiet hE hrole h
  have hfw := (RefineProof.inv (.inl ⟨[], h⟩)).good.fwp
  have hx : s.tx = ⟨false, []⟩ := idle_eq hn.1
  have hp := hn.2
  have fin : ∀ r : Run Unit, r.Through A T (fun _ _ => False) (fun t _ s' => ∃ ih w τ, P ih w ∧ Requested c t0 s ih w τ t s') t0 →
      r.Ends c A T (fun _ _ => False) (fun t ms _ s' => ms = [] ∧ t ≤ T ∧ ∃ ih w τ, P ih w ∧ Requested c t0 s ih w τ t s') t0 [] :=
    fun r hr => hr.ends ht []
  cases he with
  | opening ho =>
    obtain ⟨c1, c2, c3, c4⟩ := hg.closed ho
    have e : (Event.lowerOpen true).run c s =
        onHandshakeRequired c limits { s with lowerReady := true, isOpen := true, log := s.log ++ [.lowerReady true] ++ [.lowerOpen] } := by
      obtain ⟨isOpen, upperOpen, rxFlag, lowerReady, active, pending, stats, tx, buf, payloadLen, ini, inAuth, log⟩ := s
      cases ho
      unfold Event.run onLowerOpen
      rw [hrole]
      rfl
    rw [e]
    refine fin _ (request_through ?_ rfl rfl hx hp rfl rfl ?_ hfw (Int.le_refl _) ha)
    · exact c1
    · simp only [framesSent_append]; simp [framesSent]
  | retry ho hr ht' =>
    have hs : s.ini.hs = .waitForRetry := by
      have := hg.timer
      rw [show s.ini.respTimer = some .retry from ht'] at this
      revert this
      cases s.ini.hs <;> simp [LivenessProof.timerOf]
    have e : (Event.expiry .retry).run c s =
        onHandshakeRequired c limits { s with ini := { s.ini with respTimer := none, hs := .idle } } := by
      obtain ⟨isOpen, upperOpen, rxFlag, lowerReady, active, pending, stats, tx, buf, payloadLen,
        ⟨hs', handshake, respTimer, sessTimer, orphans, required⟩, inAuth, log⟩ := s
      cases hs
      show (onExpiry c .retry) _ = _
      unfold onExpiry
      rw [hrole]
      rfl
    rw [e]
    exact fin _ (request_through rfl hr ho hx hp rfl rfl rfl hfw (Int.le_refl _) ha)
  | session ho hr ht' =>
    have hs : s.ini.hs = .idle := by
      by_cases hs : s.ini.hs = .idle
      · exact hs
      · have ht' : s.ini.sessTimer.isSome := ht'
        rw [hg.busy hs] at ht'
        cases ht'
    have e : (Event.expiry .session).run c s =
        onHandshakeRequired c limits { s with ini := { s.ini with sessTimer := none } } := by
      show (onExpiry c .session) _ = _
      unfold onExpiry
      rw [hrole]
      rfl
    rw [e]
    exact fin _ (request_through hs hr ho hx hp rfl rfl rfl hfw (Int.le_refl _) ha)
  | due ho hi hr =>
    rw [txReady_run ho hx]
    have e : (onPreTxReady c) { s with lowerReady := true, log := s.log ++ [.lowerReady true] } =
        onHandshakeRequired c limits { s with lowerReady := true, log := s.log ++ [.lowerReady true] } := by
      unfold onPreTxReady
      rw [hrole]
      show (if s.ini.required then _ else _ : M Unit) _ = _
      rw [if_pos hr]
    rw [e]
    refine Run.Ends.bind ?_ (Run.Through.ends ht [] (request_through (s := s) (t0 := t0) (P := P) hi rfl ho hx hp rfl rfl ?_ hfw (Int.le_refl _) ha))
    · rintro t ms _ s' ⟨rfl, h1, ih, w, τ, h4, h5⟩
      refine loop_stop (.inl h5.busy) ?_
      rw [checkTransmit_idle h5.idle]
      exact .done ⟨rfl, h1, ih, w, τ, h4, h5⟩
    · simp only [framesSent_append]; simp [framesSent]

theorem begins {E : Env} {params : Params} (hE : ReadsAtOnce c E) (hrole : c.role = .initiator params limits) {s : Layer} (h : Quiet c E s)
    {e : Event} (he : BeginsAt s e) (hn : Unoccupied s) {A : Fresh → Prop} {T t0 : Int} (ht : t0 ≤ T)
    (hA : ∀ t, t ≤ T → ∃ f : Fresh, f.ok ∧ A f ∧ f.now = t) {P : InitiatorHandshake → Bytes → Prop}
    (ha : ∀ f : Fresh, f.ok → A f → ∃ h1 eph data w, s.ini.handshake.initializeNew c.backend f.rnd f.record = (h1, some (eph, data)) ∧
      (h1.buildRequest limits eph data).write c.fw.maxPayload.toNat = .ok w ∧ P h1 w) :
    Leads c A T e t0 [] s fun t s' => t ≤ T ∧ ∃ ih w τ, P ih w ∧ Requested c t0 s ih w τ t s' :=
  Run.Ends.inevitable (P := fun t s' => t ≤ T ∧ ∃ ih w τ, P ih w ∧ Requested c t0 s ih w τ t s') hA [] ht (ends_begin hE hrole h he hn ht ha)
    (fun _ _ _ h => absurd h id) (fun _ _ _ _ h => h.2)

/-- The initiator has accepted the reply, which gave it the session `sI`, and has sent its authentication `m3`; `rp` is the session
of the responder. -/
structure Authing (c : Cfg) (limits : SessionLimits) (suite : CryptoSpec) (t0 : Int) (s : Layer) (rp : Session) (m3 : Bytes) (sI : Session)
    (now : Int) (out : Formatted) (t : Int) (s' : Layer) : Prop where
  sends : SendsOne c s s' m3
  auth : Auth c sI now out m3
  pend : s'.pending = { sI with txNonce := 1 }
  isOpen : s'.isOpen = true
  state : s'.ini.hs = .waitForAuthReply
  idle : s'.tx = ⟨false, []⟩
  empty : s'.payloadLen = 0
  upper : s'.upperOpen = s.upperOpen
  flag : s'.rxFlag = s.rxFlag
  fw : sI.frameWriter = c.fw
  ttl : sI.ttlPadMs = c.ttlPadMs
  agree : SSP21.Spec.Agree c.backend suite limits sI rp
  start : t0 ≤ sI.param.sessionStart ∧ sI.param.sessionStart ≤ t

theorem auth_ok {b : Backend} (hb : b.Lawful) {a : Session} (hs : a.algorithms.Standard b) (hv : a.valid = true)
    (hk : a.keys.txKey.length = 32) (hz : a.txNonce = 0) (hm : a.param.maxSessionTime = ms limits.maxSessionTimeMs)
    (hfw : a.frameWriter = c.fw) (httl : a.ttlPadMs = c.ttlPadMs) (hr : 25 ≤ c.fw.maxPayload.toNat) {now t0 T : Int}
    (h0 : t0 ≤ a.param.sessionStart) (h1 : a.param.sessionStart ≤ now) (h2 : now ≤ T) (h3 : T - t0 + ms c.ttlPadMs ≤ ms limits.maxSessionTimeMs) :
    ∃ out bytes, Auth c a now out bytes := by
  obtain ⟨out, bytes, e1, e2, e3, e4, e5⟩ := formatAuth_ok b hb a now hs hv hk hz h1 (by rw [httl, hm]; omega) ⟨_, hm⟩ (by rw [hfw]; exact hr)
  exact ⟨out, bytes, e1, by rw [e2, hfw], e3, e4, by rw [← httl]; exact e5⟩

theorem handles_reply (hb : c.backend.Lawful) {params : Params} (hrole : c.role = .initiator params limits) {s s1 r r1 : Layer}
    {ih : InitiatorHandshake} {m1 m2 : Bytes} {reply : ReplyHandshakeBegin} {t0 t1 τ u0 u T : Int} {A : Fresh → Prop}
    (R : Requested c t0 s ih m1 τ t1 s1) (Q : Replied c c' limits suite ih m1 τ u0 r m2 reply u r1)
    (hr : 25 ≤ c.fw.maxPayload.toNat) (hT : T - t0 + ms c.ttlPadMs ≤ ms limits.maxSessionTimeMs) :
    Handles c A T t1 s1 m2 fun t s' => ∃ m3 sI now out, Authing c limits suite t0 s1 r1.pending m3 sI now out t s' := by
  intro t s2 h1 h2 hl
  rw [(process_reply hrole Q.reads).1]
  unfold onReplyBegin
  obtain ⟨b, l, rfl, hlog⟩ := hl
  have ht := R.time
  simp only [th_bind, th_getTime, th_get, R.state, cancelTimer, th_modifyIni]
  intro f f1 f2 f3 f4
  obtain ⟨ih', sI, stI, g1, g2, g3, g4, g5, g6⟩ := Q.accept f.now s1.pending s1.stats (by omega)
  rw [R.handshake, g1]
  simp only [th_bind, th_modify]
  refine noteEstablished_through _ fun l2 hl2 => ?_
  refine transmit_pending (c := c) (by exact R.idle) rfl ?_ ?_
  · intro now hn hn'
    exact auth_ok hb g2.standard g2.validI g2.keyLengths.1 g2.fresh.1 g2.maxTime.1 (g5.trans R.fw) (g6.trans R.ttl) hr (by omega) (by omega) hn' hT
  · intro now out bytes acts hn hn' hau
    simp only [Bool.not_true, Bool.false_eq_true, if_false, th_bind, startTimer, th_modifyIni, setState]
    refine ⟨R.idle, R.empty, bytes, sI, now, out, ?_⟩
    refine ⟨?_, hau, rfl, R.isOpen, rfl, R.idle, R.empty, rfl, rfl, g5.trans R.fw, g6.trans R.ttl, g2, ⟨by omega, by omega⟩⟩
    simp only [SendsOne, framesSent_append, hlog, hl2, List.append_nil]
    rfl

/-- The responder has accepted the authentication, has sent its own, `m4`, and has opened its application. -/
structure Accepted (c' : Cfg) (r : Layer) (m4 : Bytes) (now : Int) (out : Formatted) (r' : Layer) : Prop where
  sends : SendsOne c' r r' m4
  auth : Auth c' r.pending now out m4
  act : r'.active = { r.pending with txNonce := 1 }
  upper : r'.upperOpen = true
  isOpen : r'.isOpen = true
  idle : r'.tx = ⟨false, []⟩
  empty : r'.payloadLen = 0
  flag : r'.rxFlag = r.rxFlag
  told : r.upperOpen = false → r'.log.getLast? = some (.up .opened)

theorem upperOnOpen_through {A : Fresh → Prop} {T : Int} {S : Int → Layer → Prop} {t : Int} {s : Layer} {Q : Int → Unit → Layer → Prop}
    (h1 : s.upperOpen = true → Q t () s) (h2 : s.upperOpen = false → S t { s with upperOpen := true, log := s.log ++ [.up .opened] } ∧
      Q t () { s with upperOpen := true, log := s.log ++ [.up .opened] }) :
    upperOnOpen.through A T S Q t s := by
  unfold upperOnOpen
  simp only [th_bind, th_get, th_ite, th_pure, th_modify, th_upcall]
  exact ⟨h1, fun h => ⟨(h2 (by simpa using h)).1, by decide, (h2 (by simpa using h)).2⟩⟩

theorem handles_auth (hb : c.backend.Lawful) {rh : ResponderHandshake} (hrole : c'.role = .responder rh) {s1 s2 r r1 : Layer}
    {ih : InitiatorHandshake} {m1 m2 m3 : Bytes} {reply : ReplyHandshakeBegin} {t0 t τ u0 u1 U now : Int} {A : Fresh → Prop} {sI : Session} {out : Formatted}
    (Q : Replied c c' limits suite ih m1 τ u0 r m2 reply u1 r1) (B : Authing c limits suite t0 s1 r1.pending m3 sI now out t s2)
    (hr : 25 ≤ c'.fw.maxPayload.toNat) (hbuf : 1024 ≤ c'.bufLen ∧ c'.bufLen ≤ 65535)
    (hU : U - u0 + ms c'.ttlPadMs ≤ ms limits.maxSessionTimeMs) (hU' : U - u0 ≤ ms c.ttlPadMs) :
    Handles c' A U u1 r1 m3 fun _ r' => ∃ m4 now out, Accepted c' r1 m4 now out r' := by
  intro u r2 h1 h2 hl
  rw [(process_session B.auth.read).1]
  obtain ⟨b, l, rfl, hlog⟩ := hl
  have hg := B.agree
  have hst := Q.start
  simp only [th_bind, th_getTime]
  intro f f1 f2 f3 f4
  unfold onSessionMessage
  rw [if_pos B.auth.nonce, hrole]
  unfold responderOnAuth
  have hpad : 0 ≤ ms c'.ttlPadMs := by unfold ms; omega
  have hmax := hg.maxTime.2
  have hpa := B.auth.pad
  simp only [th_bind, th_get]
  rw [if_neg (by simp [hg.validR])]
  unfold validatePendingAuth
  simp only [th_bind, th_ask, th_get, th_modify, th_act, th_pure]
  intro g g1 g2 g3 g4
  obtain ⟨payload, bytes, e1, e2, e3, e4, e5⟩ := C23_auth_roundtrip c.backend hb sI _ r1.pending r1.stats now f.now [] [] out c'.bufLen hg.standard
    (C24_agree_counterpart _ _ _ _ _ hg).1 B.auth.made hbuf.1 hbuf.2 hg.fresh.2.2.2 (by omega)
    (by rw [hmax]; simp only [ms] at *; omega) (by omega)
  have hpl : payload = [] := (List.append_eq_nil_iff.mp e1.symm).1
  subst hpl
  simp only [e5, activatePending, th_bind, th_modify]
  refine transmit_active (c := c') (by exact Q.idle) rfl ?_ ?_
  · intro now hn hn'
    refine auth_ok hb (limits := limits) (by rw [← hg.algorithms]; exact hg.standard) hg.validR (by rw [← hg.toInitiator]; exact hg.keyLengths.2)
      hg.fresh.2.2.1 hg.maxTime.2 Q.fw Q.ttl hr hst.1 (by omega) hn' hU
  · intro now' out' bytes' acts hn hn' hau
    rw [if_neg (by simp)]
    simp only [th_bind]
    have hs : ∀ l', framesSent l' = [] → framesSent (r1.log ++ l ++ [.lowerTx (c'.fw.wrap bytes') true] ++ l') = framesSent r1.log ++ [c'.fw.wrap bytes'] := by
      intro l' hl'
      simp only [framesSent_append, hlog, hl', List.append_nil]
      rfl
    refine upperOnOpen_through (fun hu => ?_) (fun hu => ?_)
    · rw [if_neg (by simp)]
      refine ⟨Q.idle, Q.empty, bytes', now', out', ⟨?_, hau, rfl, hu, Q.isOpen, Q.idle, Q.empty, rfl, fun h => ?_⟩⟩
      · have := hs [] rfl
        rw [List.append_nil] at this
        exact this
      · rw [show r1.upperOpen = true from hu] at h; cases h
    · refine ⟨⟨bytes', now', out', ⟨hs [.up .opened] rfl, hau, rfl, rfl, Q.isOpen, Q.idle, Q.empty, rfl, fun _ => by simp⟩⟩, ?_⟩
      rw [if_neg (by simp)]
      exact ⟨Q.idle, Q.empty, bytes', now', out', ⟨hs [.up .opened] rfl, hau, rfl, rfl, Q.isOpen, Q.idle, Q.empty, rfl, fun _ => by simp⟩⟩

/-- The initiator has accepted the authentication of the responder. -/
structure Finished (c : Cfg) (sI : Session) (s s' : Layer) : Prop where
  active : s'.active = { sI with txNonce := 1 }
  upper : s'.upperOpen = true
  isOpen : s'.isOpen = true
  ready : s'.lowerReady = true
  idle : s'.tx = ⟨false, []⟩
  empty : s'.payloadLen = 0
  flag : s'.rxFlag = s.rxFlag
  required : s'.ini.required = false
  told : s.upperOpen = false → s'.log.getLast? = some (.up .opened)
  quiet : framesSent s'.log = framesSent s.log

theorem connected {limits : SessionLimits} {suite : CryptoSpec} {sI : Session} {s s' r1 r2 : Layer} {m4 : Bytes} {now : Int} {out : Formatted}
    (hg : SSP21.Spec.Agree c.backend suite limits sI r1.pending)
    (F : Finished c sI s s') (D : Accepted c' r1 m4 now out r2) : Connected c limits s' r2 := by
  refine ⟨F.upper, D.upper, ?_, ?_, ?_, ?_, ?_, ?_, ?_, ?_, ?_⟩ <;> (try rw [F.active]) <;> try rw [D.act]
  · exact hg.validI
  · exact hg.validR
  · exact hg.toResponder
  · exact hg.toInitiator
  · exact hg.algorithms
  · exact hg.standard
  · exact hg.maxNonce
  · exact hg.maxTime
  · exact ⟨rfl, hg.fresh.2.1, rfl, hg.fresh.2.2.2⟩

theorem handles_auth_reply (hb : c.backend.Lawful) {params : Params} (hrole : c.role = .initiator params limits) {s1 s2 r1 r2 : Layer}
    {m3 m4 : Bytes} {t0 t T now now' : Int} {A : Fresh → Prop} {sI : Session} {out out' : Formatted}
    (B : Authing c limits suite t0 s1 r1.pending m3 sI now out t s2) (D : Accepted c' r1 m4 now' out' r2)
    (hbuf : 1024 ≤ c.bufLen ∧ c.bufLen ≤ 65535)
    (hT : T - t0 + ms c.ttlPadMs ≤ ms limits.maxSessionTimeMs) (hT' : T - t0 ≤ ms c'.ttlPadMs) :
    Handles c A T t s2 m4 fun _ s' => Finished c sI s2 s' := by
  intro u s3 h1 h2 hl
  rw [(process_session D.auth.read).1]
  obtain ⟨b, l, rfl, hlog⟩ := hl
  have hg := B.agree
  have hst := B.start
  simp only [th_bind, th_getTime]
  intro f f1 f2 f3 f4
  unfold onSessionMessage
  rw [if_pos D.auth.nonce, hrole]
  unfold initiatorOnAuth
  have hpad : 0 ≤ ms c.ttlPadMs := by unfold ms; omega
  have hmax := hg.maxTime.1
  have hpa := D.auth.pad
  simp only [th_bind, th_get, B.state, cancelTimer, th_modifyIni]
  unfold validatePendingAuth
  simp only [th_bind, th_ask, th_get, th_modify, th_act, th_pure]
  intro g g1 g2 g3 g4
  have hcp := (C24_agree_counterpart _ _ _ _ _ hg).2
  obtain ⟨payload, bytes, e1, e2, e3, e4, e5⟩ := C23_auth_roundtrip c.backend hb r1.pending _ { sI with txNonce := 1 } s2.stats now' f.now [] [] out' c.bufLen
    (by rw [← hg.algorithms]; exact hg.standard) ⟨hcp.valid, hcp.key, hcp.mode, hcp.limit⟩ D.auth.made hbuf.1 hbuf.2 hg.fresh.2.1 (by dsimp only; omega)
    (by dsimp only; rw [hmax]; simp only [ms] at *; omega) (by dsimp only; omega)
  have hpl : payload = [] := (List.append_eq_nil_iff.mp e1.symm).1
  subst hpl
  simp only [B.pend, e5, activatePending, th_bind, th_modify, th_modifyIni, startSessionTimer, th_get]
  refine upperOnOpen_through (fun hu => ?_) (fun hu => ?_)
  · rw [if_neg (by simp)]
    simp only [th_bind, th_modify, setState, th_modifyIni]
    refine ⟨B.idle, B.empty, rfl, hu, B.isOpen, rfl, B.idle, B.empty, rfl, rfl, fun h => ?_, ?_⟩
    · rw [show s2.upperOpen = true from hu] at h
      cases h
    · simp only [framesSent_append, hlog, List.append_nil]
  · refine ⟨⟨rfl, rfl, B.isOpen, rfl, B.idle, B.empty, rfl, rfl, fun _ => by simp, ?_⟩, ?_⟩
    · simp only [framesSent_append, hlog]; simp [framesSent]
    · rw [if_neg (by simp)]
      simp only [th_bind, th_modify, setState, th_modifyIni]
      refine ⟨B.idle, B.empty, rfl, rfl, B.isOpen, rfl, B.idle, B.empty, rfl, rfl, fun _ => by simp, ?_⟩
      simp only [framesSent_append, hlog]; simp [framesSent]

end

end SuccessProof

open SuccessProof

theorem Spec.Leads.mono {c : Cfg} {A : Fresh → Prop} {T : Int} {e : Event} {t : Int} {ms : List Bytes} {s : Layer} {Q Q' : Int → Layer → Prop}
    (h : ∀ t s, Q t s → Q' t s) (hl : Leads c A T e t ms s Q) : Leads c A T e t ms s Q' :=
  Spec.Inevitable.mono (fun _ hx => hx.elim fun s' hs => ⟨s', hs.1, h _ _ hs.2⟩) hl

theorem Spec.Arrives.mono {c : Cfg} {A : Fresh → Prop} {T : Int} {late : Bool} {t : Int} {m : Bytes} {s : Layer} {Q Q' : Int → Layer → Prop}
    (h : ∀ t s, Q t s → Q' t s) (hl : Arrives c A T late t m s Q) : Arrives c A T late t m s Q' := by
  unfold Arrives at *
  cases late with
  | false => exact Spec.Leads.mono h hl
  | true => exact Spec.Leads.mono (Q := fun t' s' => Leads c A T .lowerRxReady t' [m] s' Q) (fun _ _ => Spec.Leads.mono h) hl

/-- C57. A handshake over a faithful network succeeds. -/
theorem C57_handshake_succeeds {c c' : Cfg} {E E' : Env} {limits : SessionLimits} {record : Option (UInt64 × Bytes)}
    (H : Equipped c c' E limits record) (hE : ReadsAtOnce c E) {s r : Layer} (hs : Quiet c E s) (hr : Quiet c' E' r)
    {e : Event} (he : BeginsAt s e) (hn : Unoccupied s) (hro : r.isOpen = true) (hrr : r.lowerReady = true) (hrn : Unoccupied r)
    {t0 T u0 U : Int} (ht : t0 ≤ T) (hu : u0 ≤ U)
    (hT : T - t0 + ms c.ttlPadMs ≤ ms limits.maxSessionTimeMs) (hT' : T - t0 ≤ ms c'.ttlPadMs)
    (hU : U - u0 + ms c'.ttlPadMs ≤ ms limits.maxSessionTimeMs) (hU' : U - u0 ≤ ms c.ttlPadMs) (late1 late2 late3 : Bool) :
    Leads c (Source record) T e t0 [] s fun t1 s1 => ∃ m1, SendsOne c s s1 m1 ∧
    Leads c' (Store record) U .lowerRxReady u0 [m1] r fun u1 r1 => ∃ m2, SendsOne c' r r1 m2 ∧
    Arrives c (Source record) T late1 t1 m2 s1 fun t2 s2 => ∃ m3, SendsOne c s1 s2 m3 ∧
    Arrives c' (Store record) U late2 u1 m3 r1 fun _ r2 => ∃ m4, SendsOne c' r1 r2 m4 ∧
    Arrives c (Source record) T late3 t2 m4 s2 fun _ s3 => Connected c limits s3 r2 ∧
      (s.upperOpen = false → s3.log.getLast? = some (.up .opened)) ∧ (r.upperOpen = false → r2.log.getLast? = some (.up .opened)) := by
  obtain ⟨params, hrole⟩ := H.peers.initiator
  obtain ⟨rh, hrole', hcred, -, -⟩ := H.peers.responder
  have hb := H.peers.lawful
  have hA : ∀ t, t ≤ T → ∃ f : Fresh, f.ok ∧ Source record f ∧ f.now = t := fun t _ =>
    ⟨⟨t, List.replicate 32 0, record, fun _ => none, []⟩, by simp [Fresh.ok], rfl, rfl⟩
  have hA' : ∀ t, t ≤ U → ∃ f : Fresh, f.ok ∧ Store record f ∧ f.now = t := fun t _ =>
    ⟨⟨t, List.replicate 32 0, none, fun _ => record.map (·.2), []⟩, by simp [Fresh.ok], (fun id key h => by rw [h]; rfl), rfl⟩
  obtain ⟨h0, hc0, hconf, hsame⟩ := ((OpenProof.atomic c E).observed (.inl ⟨[], hs⟩)).own
  have hcr := hcred h0 hc0
  rw [H.caps] at hcr
  have room := H.room h0 hc0
  have room' := H.room' rh hrole'
  have hfw' := (RefineProof.inv (.inl ⟨[], hr⟩)).good.fwp
  have hrx : r.tx = ⟨false, []⟩ := idle_eq hrn.1
  have hq : rh = .qkd → record.isSome := fun h => H.quantum (by rw [hrole', h])
  refine Spec.Leads.mono ?_ (begins hE hrole hs he hn ht hA
    (P := fun h1 w => ∃ suite, ∀ (lookup : UInt64 → Option Bytes) (rnd' : Bytes) (t0 now1 : Int) (sR : Session) (stR : Stats), rnd'.length = 32 →
        (∀ id key, record = some (id, key) → lookup id = some key) →
        SSP21.Spec.Answered c.backend c.caps suite h1 rh limits w lookup rnd' t0 now1 c'.fw sR stR) ?_)
  swap
  · intro f f1 f2
    obtain ⟨suite, h1, eph, data, w, e1, e2, e3⟩ := begin_answered hb hcr hsame H.exchange hq f.rnd f1 limits c.fw c'.fw room room'
    rw [show f.record = record from f2]
    exact ⟨h1, eph, data, w, e1, e2, suite, e3⟩
  rintro t1 s1 ⟨ht1, ih, m1, τ, ⟨suite, hans⟩, R⟩
  refine ⟨m1, R.sends, ?_⟩
  obtain ⟨msg, -, -, -, -, -, hread, -⟩ := hans (fun _ => record.map (·.2)) (List.replicate 32 0) τ 0 r.pending r.stats (by simp) (fun id key h => by rw [h]; rfl)
  refine Spec.Leads.mono ?_ (leads_rx hA' hu hro hrr hrn.2 (process_request hrole' hread).2
    (handles_request (c := c) H.peers.backend H.caps hrole' (t0 := τ) (fun f now1 sR stR f1 f2 => hans f.lookup f.rnd τ now1 sR stR f1 f2) hread
      hro hrx hrn.2 hfw') ?_)
  swap
  · rintro t t' s b htt ⟨m2, reply, Q⟩
    exact ⟨m2, reply, ⟨Q.sends, Q.reads, Q.isOpen, Q.idle, Q.empty, Q.upper, Q.fw, Q.ttl, ⟨Q.start.1, Int.le_trans Q.start.2 htt⟩, Q.flag, Q.accept⟩⟩
  rintro u1 r1 ⟨hu1, m2, reply, Q⟩
  refine ⟨m2, Q.sends, ?_⟩
  refine Spec.Arrives.mono ?_ (arrives hA ht1 R.isOpen R.empty R.idle (fun _ _ _ _ => by rw [R.state]; simp) (process_reply hrole Q.reads).2
    (handles_reply hb hrole R Q (by omega) hT) ?_ late1)
  swap
  · rintro t t' s b htt ⟨m3, sI, now, out, B⟩
    exact ⟨m3, sI, now, out, ⟨B.sends, B.auth, B.pend, B.isOpen, B.state, B.idle, B.empty, B.upper, B.flag, B.fw, B.ttl, B.agree, ⟨B.start.1, Int.le_trans B.start.2 htt⟩⟩⟩
  rintro t2 s2 ⟨ht2, m3, sI, now, out, B⟩
  refine ⟨m3, B.sends, ?_⟩
  refine Spec.Arrives.mono ?_ (arrives hA' hu1 Q.isOpen Q.empty Q.idle (fun _ _ h => by rw [hrole'] at h; cases h) (process_session (c := c') B.auth.read).2
    (handles_auth hb hrole' Q B (by omega) H.buffer' hU hU') ?_ late2)
  swap
  · rintro t t' s b htt ⟨m4, now', out', D⟩
    exact ⟨m4, now', out', ⟨D.sends, D.auth, D.act, D.upper, D.isOpen, D.idle, D.empty, D.flag, D.told⟩⟩
  rintro u2 r2 ⟨hu2, m4, now', out', D⟩
  refine ⟨m4, D.sends, ?_⟩
  refine Spec.Arrives.mono ?_ (arrives hA ht2 B.isOpen B.empty B.idle (fun _ _ _ _ => by rw [B.state]; simp) (process_session (c := c) D.auth.read).2
    (handles_auth_reply hb hrole B D H.buffer hT hT') ?_ late3)
  swap
  · rintro t t' s b htt F
    exact ⟨F.active, F.upper, F.isOpen, F.ready, F.idle, F.empty, F.flag, F.required, F.told, F.quiet⟩
  rintro t3 s3 ⟨ht3, F⟩
  exact ⟨connected B.agree F D, fun h => F.told (B.upper.trans (R.upper.trans h)), fun h => D.told (Q.upper.trans h)⟩

/-! ### Concrete cases meeting the hypotheses -/

namespace LayerExample

theorem dh_total : ∀ x y, (Toy.strong.dhRaw x (Toy.strong.dhPublic y)).isSome := fun _ _ => rfl

/-- Shared secrets. -/
theorem equipped : Equipped ini res (EnvB.tame.only (· = hs)) limits none where
  peers := peers
  caps := rfl
  exchange := dh_total
  room := by rintro _ rfl; decide
  room' := by intro rh h; cases h; decide
  buffer := by decide
  buffer' := by decide
  quantum := by intro h; cases h

/-- Quantum keys. -/
theorem qequipped : Equipped ini qres (EnvB.tame.only (· = qhs)) limits (some (1, List.replicate 32 1)) where
  peers := qpeers
  caps := rfl
  exchange := dh_total
  room := by rintro _ rfl; decide
  room' := by intro rh h; cases h; decide
  buffer := by decide
  buffer' := by decide
  quantum := fun _ => rfl

set_option maxRecDepth 1000000 in
/-- A new initiator, when its lower layer opens, and a responder that has been opened: the handshake may take 10 seconds by
both clocks. -/
example : ∃ s r, Quiet ini (EnvB.tame.only (· = hs)) s ∧ Quiet res EnvB.tame.env r ∧ Equipped ini res (EnvB.tame.only (· = hs)) limits none ∧
    ReadsAtOnce ini (EnvB.tame.only (· = hs)) ∧ BeginsAt s (.lowerOpen true) ∧ Unoccupied s ∧ r.isOpen = true ∧ r.lowerReady = true ∧ Unoccupied r ∧
    ∀ t0 : Int, (t0 + 10000000000) - t0 + ms ini.ttlPadMs ≤ ms limits.maxSessionTimeMs ∧ (t0 + 10000000000) - t0 ≤ ms res.ttlPadMs := by
  obtain ⟨s, h1, h2⟩ := Exec.exists_only configured (c := ini) (E := .tame) (h := hs) (script := [])
    (f := fun s => (s.isOpen, s.tx.isIdle, s.payloadLen)) (a := (false, true, 0)) rfl
  obtain ⟨r, h1', h2'⟩ := Exec.exists_of_map configured (c := res) (E := .tame) (h := hs) (script := [.event (.lowerOpen true)])
    (f := fun s => (s.isOpen, s.lowerReady, s.tx.isIdle, s.payloadLen)) (a := (true, true, true, 0)) rfl
  simp only [Prod.mk.injEq] at h2 h2'
  exact ⟨s, r, h1, h1', equipped, readsAtOnce_of_noNestedRx _ EnvB.tame_noNestedRx, .opening h2.1, h2.2, h2'.1, h2'.2.1, h2'.2.2,
    fun t0 => by rw [show ms ini.ttlPadMs = 10000000000 from rfl, show ms limits.maxSessionTimeMs = 60000000000 from rfl, show ms res.ttlPadMs = 10000000000 from rfl]; omega⟩

set_option maxRecDepth 1000000 in
/-- A renegotiation: the session timer of a connected initiator may expire, the responder is still connected. -/
example : ∃ s r, Quiet ini (EnvB.tame.only (· = hs)) s ∧ Quiet res EnvB.tame.env r ∧ BeginsAt s (.expiry .session) ∧ Unoccupied s ∧
    r.isOpen = true ∧ r.lowerReady = true ∧ Unoccupied r ∧ s.upperOpen = true ∧ r.upperOpen = true ∧ s.active.valid = true := by
  obtain ⟨s, h1, h2⟩ := Exec.exists_only configured (c := ini) (E := .tame) (h := hs) (script := iniOpen)
    (f := fun s => (s.isOpen, s.lowerReady, s.ini.sessTimer.isSome, s.upperOpen, s.active.valid, s.tx.isIdle, s.payloadLen))
    (a := (true, true, true, true, true, true, 0)) rfl
  obtain ⟨r, h1', h2'⟩ := Exec.exists_of_map configured (c := res) (E := .tame) (h := hs) (script := resAuth ++ [.event .lowerTxReady, .recv [], ans 9])
    (f := fun s => (s.isOpen, s.lowerReady, s.upperOpen, s.tx.isIdle, s.payloadLen)) (a := (true, true, true, true, 0)) rfl
  simp only [Prod.mk.injEq] at h2 h2'
  exact ⟨s, r, h1, h1', .session h2.1 h2.2.1 h2.2.2.1, h2.2.2.2.2.2, h2'.1, h2'.2.1, h2'.2.2.2, h2.2.2.2.1, h2'.2.2.1, h2.2.2.2.2.1⟩

end LayerExample

end SSP21.Crypto
