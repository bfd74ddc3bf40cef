import Verif.Spec.Start
import Verif.Props.Carry
/-
  C59. From nothing to the exchange of data.
-/
namespace SSP21.Crypto
open Spec SuccessProof

namespace StartProof

section
variable {c : Cfg} {A : Fresh → Prop} {T : Int} {P : Int → Layer → Prop} {S : Int → Layer → Prop} {t : Int} {s : Layer}

theorem serves_of (hA : ∀ t, t ≤ T → ∃ f : Fresh, f.ok ∧ A f ∧ f.now = t) {e : Event} {ms : List Bytes} (ht : t ≤ T)
    {Q : Int → List Bytes → Unit → Layer → Prop} (h : (e.run c s).Ends c A T S Q t ms) :
    Serves c A T (e.run c) t ms s fun t ms s => t ≤ T ∧ Q t ms () s :=
  Spec.Serves.of hA ht (h.served.mono fun _ _ _ _ h' h'' => ⟨h'', h'⟩)

theorem comes (hA : ∀ t, t ≤ T → ∃ f : Fresh, f.ok ∧ A f ∧ f.now = t) {m : Bytes} (ht : t ≤ T) (ho : s.isOpen = true)
    (hp : s.payloadLen = 0) (hx : s.tx = ⟨false, []⟩) (hd : NotDue c s) (hm : m ≠ []) (hh : Handles c A T t s m P) (hP : Stable P)
    (late : Bool) : Comes c A T late t m s fun t s => t ≤ T ∧ P t s := by
  unfold Comes
  cases late with
  | false =>
    rw [if_neg (by simp)]
    exact (serves_of hA ht (ends_tx ht ho hp hx hd hm hh hP)).mono fun _ _ _ ⟨h1, h2, h3⟩ => ⟨h2, h1, h3⟩
  | true =>
    rw [if_pos rfl]
    refine (serves_of hA ht (ends_tx_none ht ho hp hx hd)).mono ?_
    rintro t' ms' s' ⟨-, h1, h2, h3, h4⟩
    refine ⟨h1, (serves_of hA h3 (ends_rx (P := P) h3 ?_ ?_ ?_ hm (hh.like h2 h4) hP)).mono fun _ _ _ ⟨h1, h2, h3⟩ => ⟨h2, h1, h3⟩⟩
    all_goals obtain ⟨b, l, rfl, h⟩ := h4
    · exact ho
    · rfl
    · exact hp

/-- Time goes by. -/
theorem through_later {α : Type} {m : M α} {Q : Int → α → Layer → Prop} (h : m.through A T S Q t s) :
    m.through A T (fun t' s => t ≤ t' ∧ S t' s) (fun t' a s => t ≤ t' ∧ Q t' a s) t s := by
  unfold M.through at *
  generalize m s = r at *
  suffices ∀ t1, t ≤ t1 → r.Through A T S Q t1 → r.Through A T (fun t' s => t ≤ t' ∧ S t' s) (fun t' a s => t ≤ t' ∧ Q t' a s) t1 from this t (Int.le_refl _) h
  clear h
  induction r with
  | done a s => exact fun t1 h1 h => ⟨h1, h⟩
  | ask k ih => exact fun t1 h1 h f f1 f2 f3 f4 => ih f f.now (Int.le_trans h1 f3) (h f f1 f2 f3 f4)
  | fault => exact fun _ _ h => h
  | up cb s k ih => exact fun t1 h1 h => ⟨⟨h1, h.1⟩, h.2.1, ih s t1 h1 h.2.2⟩
  | recv s k ih => exact fun _ _ h => h
  | loop s k ih => exact fun _ _ h => h

theorem handles_later {m : Bytes} (h : Handles c A T t s m P) : Handles c A T t s m fun t' s' => t ≤ t' ∧ P t' s' := by
  intro t1 s1 h1 h2 h3
  have key : ∀ {α : Type} {m : M α} {Q Q' : Int → α → Layer → Prop} {S S' : Int → Layer → Prop} {t : Int} {s : Layer},
      (∀ t s, S t s → S' t s) → (∀ t a s, Q t a s → Q' t a s) → m.through A T S Q t s → m.through A T S' Q' t s := by
    intro α m Q Q' S S' t s hS hQ h
    unfold M.through at *
    generalize m s = r at *
    induction r generalizing t with
    | done a s => exact hQ _ _ _ h
    | ask k ih => exact fun f f1 f2 f3 f4 => ih f (h f f1 f2 f3 f4)
    | fault => exact h
    | up cb s k ih => exact ⟨hS _ _ h.1, h.2.1, ih s h.2.2⟩
    | recv s k ih => exact h
    | loop s k ih => exact h
  exact key (fun t' s' h' => ⟨Int.le_trans h1 h'.1, h'.2⟩) (fun t' a s' ⟨g1, g2, g3, g4⟩ => ⟨g2, g3, Int.le_trans h1 g1, g4⟩) (through_later (h t1 s1 h1 h2 h3))

theorem stable_later {t1 : Int} (h : Stable P) : Stable fun t' s' => t1 ≤ t' ∧ P t' s' :=
  fun t t' s b ht ⟨h1, h2⟩ => ⟨Int.le_trans h1 ht, h t t' s b ht h2⟩

end

end StartProof

open StartProof

theorem Spec.Comes.mono {c : Cfg} {A : Fresh → Prop} {T : Int} {late : Bool} {t : Int} {m : Bytes} {s : Layer} {Q Q' : Int → Layer → Prop}
    (h : ∀ t s, Q t s → Q' t s) (hl : Comes c A T late t m s Q) : Comes c A T late t m s Q' := by
  unfold Comes at *
  cases late with
  | false =>
    rw [if_neg (by simp)] at *
    exact Spec.Serves.mono (fun _ _ _ ⟨h1, h2⟩ => ⟨h1, h _ _ h2⟩) hl
  | true =>
    rw [if_pos rfl] at *
    exact Spec.Serves.mono (fun _ _ _ ⟨h1, h2⟩ => ⟨h1, Spec.Serves.mono (fun _ _ _ ⟨h1, h2⟩ => ⟨h1, h _ _ h2⟩) h2⟩) hl

/-- C59. From nothing to the exchange of data. -/
theorem C59_start_to_data {c c' : Cfg} {E E' : Env} {limits : SessionLimits} {record : Option (UInt64 × Bytes)}
    (H : Equipped c c' E limits record) (hE : ReadsAtOnce c E) {s r : Layer} (hs : Quiet c E s) (hr : Quiet c' E' r)
    {e : Event} (he : BeginsAt s e) (hn : Unoccupied s) (hro : r.isOpen = true) (hrr : r.lowerReady = true) (hrn : Unoccupied r)
    (hsa : Acknowledged s) (hra : Acknowledged r) (hroom : 1051 ≤ c.fw.maxPayload.toNat) (hroom' : 1051 ≤ c'.fw.maxPayload.toNat)
    {n : Nat} (hnonce : 1 + n ≤ limits.maxNonce.toNat)
    (htrigger : ∀ params limits, c.role = .initiator params limits → 1 + n < params.nonceTrigger.toNat)
    {t0 T u0 U : Int} (ht : t0 ≤ T) (hu : u0 ≤ U)
    (hT : T - t0 + ms c.ttlPadMs ≤ ms limits.maxSessionTimeMs) (hT' : T - t0 + 1000000 ≤ ms c'.ttlPadMs)
    (hU : U - u0 + ms c'.ttlPadMs ≤ ms limits.maxSessionTimeMs) (hU' : U - u0 + 1000000 ≤ ms c.ttlPadMs) (late1 late2 late3 : Bool) :
    Serves c (Source record) T (e.run c) t0 [] s fun t1 _ s1 => ∃ m1, SendsOne c s s1 m1 ∧
    Serves c' (Store record) U (Event.lowerRxReady.run c') u0 [m1] r fun u1 ms r1 => ms = [] ∧ ∃ m2, SendsOne c' r r1 m2 ∧
    Comes c (Source record) T late1 t1 m2 s1 fun t2 s2 => ∃ m3, SendsOne c s1 s2 m3 ∧
    Comes c' (Store record) U late2 u1 m3 r1 fun u2 r2 => ∃ m4, SendsOne c' r1 r2 m4 ∧ (r.upperOpen = false → r2.log.getLast? = some (.up .opened)) ∧
    Comes c (Source record) T late3 t2 m4 s2 fun t3 s3 => framesSent s3.log = framesSent s2.log ∧ (s.upperOpen = false → s3.log.getLast? = some (.up .opened)) ∧
    Serves c' (Store record) U (Event.lowerTxReady.run c') u2 [] r2 fun u3 _ r3 => framesSent r3.log = framesSent r2.log ∧
      Connected c limits s3 r3 ∧ Delivers c c' T U n t3 s3 u3 r3 ∧ Delivers c' c U T n u3 r3 t3 s3 := by
  obtain ⟨params, hrole⟩ := H.peers.initiator
  obtain ⟨rh, hrole', hcred, -, -⟩ := H.peers.responder
  have hb := H.peers.lawful
  have hA : ∀ t, t ≤ T → ∃ f : Fresh, f.ok ∧ Source record f ∧ f.now = t := fun t _ =>
    ⟨⟨t, List.replicate 32 0, record, fun _ => none, []⟩, by simp [Fresh.ok], rfl, rfl⟩
  have hA' : ∀ t, t ≤ U → ∃ f : Fresh, f.ok ∧ Store record f ∧ f.now = t := fun t _ =>
    ⟨⟨t, List.replicate 32 0, none, fun _ => record.map (·.2), []⟩, by simp [Fresh.ok], (fun id key h => by rw [h]; rfl), rfl⟩
  obtain ⟨h0, hc0, hconf, hsame⟩ := ((OpenProof.atomic c E).observed (.inl ⟨[], hs⟩)).own
  have hcr := hcred h0 hc0
  rw [H.caps] at hcr
  have room := H.room h0 hc0
  have room' := H.room' rh hrole'
  have hfw' := (RefineProof.inv (.inl ⟨[], hr⟩)).good.fwp
  have hrx : r.tx = ⟨false, []⟩ := idle_eq hrn.1
  have hq : rh = .qkd → record.isSome := fun h => H.quantum (by rw [hrole', h])
  refine (serves_of hA ht (ends_begin hE hrole hs he hn ht
    (P := fun h1 w => ∃ suite, ∀ (lookup : UInt64 → Option Bytes) (rnd' : Bytes) (t0 now1 : Int) (sR : Session) (stR : Stats), rnd'.length = 32 →
        (∀ id key, record = some (id, key) → lookup id = some key) →
        SSP21.Spec.Answered c.backend c.caps suite h1 rh limits w lookup rnd' t0 now1 c'.fw sR stR) ?_)).mono ?_
  · intro f f1 f2
    obtain ⟨suite, h1, eph, data, w, e1, e2, e3⟩ := begin_answered hb hcr hsame H.exchange hq f.rnd f1 limits c.fw c'.fw room room'
    rw [show f.record = record from f2]
    exact ⟨h1, eph, data, w, e1, e2, suite, e3⟩
  rintro t1 ms1 s1 ⟨ht1, -, -, ih, m1, τ, ⟨suite, hans⟩, R⟩
  refine ⟨m1, R.sends, ?_⟩
  obtain ⟨msg, -, -, -, -, -, hread, -⟩ := hans (fun _ => record.map (·.2)) (List.replicate 32 0) τ 0 r.pending r.stats (by simp) (fun id key h => by rw [h]; rfl)
  refine (serves_of hA' hu (ends_rx hu hro hrr hrn.2 (process_request hrole' hread).2
    (handles_request (c := c) H.peers.backend H.caps hrole' (t0 := τ) (fun f now1 sR stR f1 f2 => hans f.lookup f.rnd τ now1 sR stR f1 f2) hread
      hro hrx hrn.2 hfw') ?_)).mono ?_
  · rintro t t' s b htt ⟨m2, reply, Q⟩
    exact ⟨m2, reply, ⟨Q.sends, Q.reads, Q.isOpen, Q.idle, Q.empty, Q.upper, Q.fw, Q.ttl, ⟨Q.start.1, Int.le_trans Q.start.2 htt⟩, Q.flag, Q.accept⟩⟩
  rintro u1 ms2 r1 ⟨hu1, hms2, m2, reply, Q⟩
  refine ⟨hms2, m2, Q.sends, ?_⟩
  refine Spec.Comes.mono ?_ (comes hA ht1 R.isOpen R.empty R.idle (fun _ _ _ _ => by rw [R.state]; simp) (process_reply hrole Q.reads).2
    (handles_reply hb hrole R Q (by omega) hT) ?_ late1)
  swap
  · rintro t t' s b htt ⟨m3, sI, now, out, B⟩
    exact ⟨m3, sI, now, out, ⟨B.sends, B.auth, B.pend, B.isOpen, B.state, B.idle, B.empty, B.upper, B.flag, B.fw, B.ttl, B.agree, ⟨B.start.1, Int.le_trans B.start.2 htt⟩⟩⟩
  rintro t2 s2 ⟨ht2, m3, sI, now, out, B⟩
  refine ⟨m3, B.sends, ?_⟩
  refine Spec.Comes.mono ?_ (comes hA' hu1 Q.isOpen Q.empty Q.idle (fun _ _ h => by rw [hrole'] at h; cases h) (process_session (c := c') B.auth.read).2
    (handles_later (handles_auth hb hrole' Q B (by omega) H.buffer' hU (by omega))) (stable_later ?_) late2)
  swap
  · rintro t t' s b htt ⟨m4, now', out', D⟩
    exact ⟨m4, now', out', ⟨D.sends, D.auth, D.act, D.upper, D.isOpen, D.idle, D.empty, D.flag, D.told⟩⟩
  rintro u2 r2 ⟨hu2, hu12, m4, now', out', D⟩
  refine ⟨m4, D.sends, fun h => D.told (Q.upper.trans h), ?_⟩
  refine Spec.Comes.mono ?_ (comes hA ht2 B.isOpen B.empty B.idle (fun _ _ _ _ => by rw [B.state]; simp) (process_session (c := c) D.auth.read).2
    (handles_later (handles_auth_reply hb hrole B D H.buffer hT (by omega))) (stable_later ?_) late3)
  swap
  · rintro t t' s b htt F
    exact ⟨F.active, F.upper, F.isOpen, F.ready, F.idle, F.empty, F.flag, F.required, F.told, F.quiet⟩
  rintro t3 s3 ⟨ht3, ht23, F⟩
  refine ⟨F.quiet, fun h => F.told (B.upper.trans (R.upper.trans h)), ?_⟩
  refine (serves_of hA' hu2 (ends_tx_none hu2 D.isOpen D.empty D.idle (fun _ _ h => by rw [hrole'] at h; cases h))).mono ?_
  rintro u3 ms3 r3 ⟨hu3, -, hu23, -, b, l, rfl, hl⟩
  have hg := B.agree
  have hsI := B.start
  have hsR := Q.start
  have ea : s3.active.param = sI.param := by rw [F.active]
  have eb : r2.active.param = r1.pending.param := by rw [D.act]
  have hmax := hg.maxTime
  have hpad : 0 ≤ ms c.ttlPadMs := by unfold ms; omega
  have hpad' : 0 ≤ ms c'.ttlPadMs := by unfold ms; omega
  have hbb := H.peers.backend
  have fl : s3.rxFlag = false := F.flag.trans (B.flag.trans (R.flag.trans hsa))
  have fl' : r2.rxFlag = false := D.flag.trans (Q.flag.trans hra)
  have snd : CarryProof.Sound c s3.active := by
    rw [F.active]
    exact ⟨hg.standard, hg.keyLengths.1, B.fw, B.ttl, ⟨_, hmax.1⟩⟩
  have snd' : CarryProof.Sound c' r2.active := by
    rw [D.act]
    exact ⟨by rw [hbb, ← hg.algorithms]; exact hg.standard, by rw [← hg.toInitiator]; exact hg.keyLengths.2, Q.fw, Q.ttl, ⟨_, hmax.2⟩⟩
  have set : ∀ k, k ≤ n → Settled c s3 k := by
    intro k hk p l h
    refine ⟨(fun h => by rw [F.required] at h; cases h), ?_⟩
    have := htrigger p l h
    rw [F.active]
    dsimp only
    rw [hg.fresh.2.1]
    exact ⟨by show 1 + k < _; omega, by show 0 + k < _; omega⟩
  have set' : ∀ (x : Layer) k, Settled c' x k := fun x k p l h => by rw [hrole'] at h; cases h
  have C := connected B.agree F D
  have C' : Connected c limits s3 { r2 with buf := b, lowerReady := true, log := r2.log ++ l } :=
    ⟨C.openI, C.openR, C.validI, C.validR, C.toResponder, C.toInitiator, C.algorithms, C.standard, C.maxNonce, C.maxTime, C.nonces⟩
  refine ⟨by simp only [framesSent_append, hl, List.append_nil], C', ?_, ?_⟩
  · intro data early hd hlen
    refine CarryProof.carriesData hb snd (C58_connected_linked C').1 ⟨F.isOpen, F.upper, F.ready⟩ ⟨D.isOpen, D.upper, rfl⟩ (by rw [F.idle]; rfl) ?_ hd hroom H.buffer' ?_
      (set _ hlen) (set' _ _) ht3 hu3 ?_ ?_ ?_ ?_ ?_ early
    · simp [fl', D.empty]
    · rw [ea, hg.maxNonce.1, F.active]
      show 1 + _ ≤ _
      omega
    all_goals try dsimp only
    all_goals try rw [ea]
    all_goals try rw [eb]
    all_goals try rw [hmax.1]
    all_goals try rw [hmax.2]
    all_goals simp only [ms] at *
    all_goals omega
  · intro data early hd hlen
    refine CarryProof.carriesData (s := { r2 with buf := b, lowerReady := true, log := r2.log ++ l }) (hbb ▸ hb) snd' (C58_connected_linked C').2 ⟨D.isOpen, D.upper, rfl⟩ ⟨F.isOpen, F.upper, F.ready⟩ (by dsimp only; rw [D.idle]; rfl) ?_ hd hroom' H.buffer ?_
      (set' _ _) (set _ hlen) hu3 ht3 ?_ ?_ ?_ ?_ ?_ early
    · simp [fl, F.empty]
    · dsimp only
      rw [eb, hg.maxNonce.2, D.act]
      show 1 + _ ≤ _
      omega
    all_goals try dsimp only
    all_goals try rw [ea]
    all_goals try rw [eb]
    all_goals try rw [hmax.1]
    all_goals try rw [hmax.2]
    all_goals simp only [ms] at *
    all_goals omega

/-! ### Concrete cases meeting the hypotheses -/

namespace LayerExample

open Exec

/-- Shared secrets. -/
theorem equipped58 : Equipped ini58 res (EnvB.tame.only (· = hs)) limits58 none :=
  { equipped with peers := { peers with initiator := ⟨_, rfl⟩ } }

/-- Quantum keys. -/
theorem qequipped58 : Equipped ini58 qres (EnvB.tame.only (· = qhs)) limits58 (some (1, List.replicate 32 1)) :=
  { qequipped with peers := { qpeers with initiator := ⟨_, rfl⟩ } }

/-- Public keys that were exchanged beforehand. -/
def psuite : CryptoSpec := { suite with handshake_ephemeral := .x25519, session_crypto_mode := .aes_256_gcm }
def privI : Bytes := List.replicate 32 11
def privR : Bytes := List.replicate 32 12
def algorithmsP : CommonAlgorithms := ⟨⟨Toy.strong.hash, Toy.strong.hkdf⟩, ⟨verifyStrictIncrement, .aes256Gcm Toy.strong⟩⟩
def phs : InitiatorHandshake := ⟨.publicKey privI (.preshared (Toy.strong.dhPublic privR)) ⟨[], []⟩, psuite, algorithmsP, 0, []⟩
def pres : Cfg := { res with role := .responder (.publicKey privR (.preshared (Toy.strong.dhPublic privI))) }
theorem pmade : InitiatorHandshake.mkPublicKey Toy.strong caps psuite privI (.preshared (Toy.strong.dhPublic privR)) = some phs := rfl
theorem pconfigured : phs.Configured Toy.strong caps := rfl

theorem pequipped : Equipped ini58 pres (EnvB.tame.only (· = phs)) limits58 none where
  peers :=
    { lawful := Toy.strong_lawful
      backend := rfl
      initiator := ⟨_, rfl⟩
      responder := ⟨_, rfl, fun h he => he ▸ .publicKey psuite privI privR _ _ phs pmade rfl rfl, C52_writers_faithful none, C52_writers_faithful none⟩ }
  caps := rfl
  exchange := dh_total
  room := by rintro _ rfl; decide
  room' := by intro rh h; cases h; decide
  buffer := by decide
  buffer' := by decide
  quantum := by intro h; cases h

/-- Certificates of the industrial kind: a common root, the responder behind an intermediate authority. -/
def leafI : CertificateBody := ⟨20, 80, 0, .X25519, Toy.strong.dhPublic privI, []⟩
def leafR : CertificateBody := ⟨20, 80, 0, .X25519, Toy.strong.dhPublic privR, []⟩
def chainI : Bytes := SSP21.Spec.chain [ChainExample.issue leafI ChainExample.anchor]
def chainR : Bytes := SSP21.Spec.chain [ChainExample.issue ChainExample.mid ChainExample.anchor, ChainExample.issue leafR ChainExample.mid]
def chs : InitiatorHandshake := ⟨.publicKey privI (.industrial ChainExample.anchor chainI) ⟨[], []⟩, psuite, algorithmsP, 0, []⟩
def cres : Cfg := { res with role := .responder (.publicKey privR (.industrial ChainExample.anchor chainR)) }
theorem cmade : InitiatorHandshake.mkPublicKey Toy.strong caps psuite privI (.industrial ChainExample.anchor chainI) = some chs := rfl
theorem cconfigured : chs.Configured Toy.strong caps := rfl

theorem cequipped : Equipped ini58 cres (EnvB.tame.only (· = chs)) limits58 none where
  peers :=
    { lawful := Toy.strong_lawful
      backend := rfl
      initiator := ⟨_, rfl⟩
      responder := ⟨_, rfl, fun h he => he ▸ .publicKey psuite privI privR _ _ chs cmade (by decide +kernel) (by decide +kernel), C52_writers_faithful none, C52_writers_faithful none⟩ }
  caps := rfl
  exchange := dh_total
  room := by rintro _ rfl; decide +kernel
  room' := by intro rh h; cases h; decide +kernel
  buffer := by decide
  buffer' := by decide
  quantum := by intro h; cases h

/-- A new initiator and a responder that has just been opened, in the given configurations. -/
def Begins (c c' : Cfg) (h : InitiatorHandshake) (record : Option (UInt64 × Bytes)) : Prop :=
  ∃ s r, Quiet c (EnvB.tame.only (· = h)) s ∧ Quiet c' EnvB.tame.env r ∧ Equipped c c' (EnvB.tame.only (· = h)) limits58 record ∧
    ReadsAtOnce c (EnvB.tame.only (· = h)) ∧ BeginsAt s (.lowerOpen true) ∧ Unoccupied s ∧ r.isOpen = true ∧ r.lowerReady = true ∧ Unoccupied r ∧
    Acknowledged s ∧ Acknowledged r ∧ s.upperOpen = false ∧ r.upperOpen = false ∧ 1051 ≤ c.fw.maxPayload.toNat ∧ 1051 ≤ c'.fw.maxPayload.toNat

set_option maxRecDepth 1000000 in
theorem begins_of {c' : Cfg} {h : InitiatorHandshake} {record : Option (UInt64 × Bytes)} (hb' : c'.backend = Toy.strong) (hc' : c'.caps = caps)
    (hfw : c'.fw = ⟨4092, id⟩) (hconf : h.Configured Toy.strong caps)
    (he : Equipped ini58 c' (EnvB.tame.only (· = h)) limits58 record) (hr : (final c' .tame hs [.event (.lowerOpen true)]).map (fun s => (s.isOpen, s.lowerReady, s.tx.isIdle, s.payloadLen, s.rxFlag, s.upperOpen)) =
      some (true, true, true, 0, false, false)) : Begins ini58 c' h record := by
  obtain ⟨s, h1, h2⟩ := Exec.exists_only hconf (c := ini58) (E := .tame) (h := h) (script := [])
    (f := fun s => (s.isOpen, s.tx.isIdle, s.payloadLen, s.rxFlag, s.upperOpen)) (a := (false, true, 0, false, false)) rfl
  obtain ⟨r, h1', h2'⟩ := Exec.exists_of_map (hb' ▸ hc' ▸ configured) (c := c') (E := .tame) (h := hs) (script := [.event (.lowerOpen true)])
    (f := fun s => (s.isOpen, s.lowerReady, s.tx.isIdle, s.payloadLen, s.rxFlag, s.upperOpen)) (a := (true, true, true, 0, false, false)) hr
  simp only [Prod.mk.injEq] at h2 h2'
  obtain ⟨a1, a2, a3, a4, a5⟩ := h2
  obtain ⟨b1, b2, b3, b4, b5, b6⟩ := h2'
  exact ⟨s, r, h1, h1', he, readsAtOnce_of_noNestedRx _ EnvB.tame_noNestedRx, .opening a1, ⟨a2, a3⟩, b1, b2, ⟨b3, b4⟩, a4, b5, a5, b6, by decide, by rw [hfw]; decide⟩

/-- With a shared secret, with a quantum key, with public keys, with certificates. -/
example : Begins ini58 res hs none := begins_of rfl rfl rfl configured equipped58 rfl
example : Begins ini58 qres qhs (some (1, List.replicate 32 1)) := begins_of rfl rfl rfl qconfigured qequipped58 rfl
example : Begins ini58 pres phs none := begins_of rfl rfl rfl pconfigured pequipped rfl
example : Begins ini58 cres chs none := begins_of rfl rfl rfl cconfigured cequipped rfl

/-- The numbers: 98 messages, 9 seconds by both clocks. -/
example : 1 + 98 ≤ limits58.maxNonce.toNat ∧ (∀ params limits, ini58.role = .initiator params limits → 1 + 98 < params.nonceTrigger.toNat) ∧
    ∀ t0 : Int, (t0 + 9000000000) - t0 + ms ini58.ttlPadMs ≤ ms limits58.maxSessionTimeMs ∧ (t0 + 9000000000) - t0 + 1000000 ≤ ms res.ttlPadMs := by
  refine ⟨by decide, fun p l h => by cases h; decide, fun t0 => ?_⟩
  rw [show ms ini58.ttlPadMs = 10000000000 from rfl, show ms limits58.maxSessionTimeMs = 60000000000 from rfl, show ms res.ttlPadMs = 10000000000 from rfl]
  omega

end LayerExample

end SSP21.Crypto
