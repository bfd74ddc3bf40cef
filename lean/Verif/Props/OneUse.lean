import Verif.Props.Open
import Verif.LayerExample
/-
  C27 for the layer: every session installed with quantum keys uses a key that was taken from the store for it alone.
  (Props/KeyStore.lean: the store gives every key at most once.)
-/
namespace SSP21.Crypto

/-- An initiator that uses quantum keys: whenever keys are installed, the initiator had taken a key from its source,
sent a request with the id of that key immediately afterwards, not installed any other keys and not taken another quantum key since, and the keys are
derived from that key, that request and the reply just read. -/
theorem C27_initiator_uses_key (c : Cfg) (E : Env) (hb : c.backend.Lawful) (params : Params) (limits : SessionLimits)
    (hrole : c.role = .initiator params limits) (hcfg : ∀ h, E.config h → ∃ k, h.mode = .qkd k) (s : Layer)
    (h : Observed c E s) (pre post : List Obs) (k : SessionKeys) (a : SessionAlgorithms) (p : SessionParam)
    (hlog : s.log = pre ++ .established k a p :: post) :
    ∃ l1 id key message request l2 reply,
      pre = l1 ++ .keyUsed (id, key) :: .lowerTx (c.fw.wrap request) true :: l2 ++ [.recv reply] ∧
      (∀ k' a' p', Obs.established k' a' p' ∉ l2) ∧ Obs.lowerClose ∉ l2 ∧ (∀ r, Obs.keyUsed r ∉ l2) ∧
      message.mode_data = be 8 id.toNat ∧ RequestHandshakeBegin.write message c.fw.maxPayload.toNat = .ok request ∧
      k = ⟨(Spec.derive c.backend (Spec.salt c.backend request reply) key).2,
        (Spec.derive c.backend (Spec.salt c.backend request reply) key).1⟩ := by
  obtain ⟨_, he⟩ := C29_keys_from_handshake c E hb s h pre post k a p hlog
  rw [hrole] at he
  obtain ⟨l1, l2, request, reply, msg, h0, mode, used, sec, e1, e2, e9, e3, e4, e5, -, e6, e7, -, -, -, e8⟩ := he
  obtain ⟨k0, hk0⟩ := hcfg h0 e4
  obtain ⟨h1, h2, rnd, record, eph, data, r1, r2, r3, r4, r5, r6⟩ := e5
  have hm1 : ∃ k1, h1.mode = .qkd k1 := by
    have := r1.2.2
    rw [hk0] at this
    cases hm : h1.mode <;> rw [hm] at this
    · exact this.elim
    · exact ⟨_, rfl⟩
    · exact this.elim
  obtain ⟨k1, hm1⟩ := hm1
  unfold InitiatorHandshake.initializeNew at r3
  simp only [hm1] at r3
  cases hrec : record with
  | none => simp [hrec] at r3
  | some r =>
    obtain ⟨id, key⟩ := r
    simp only [hrec, Prod.mk.injEq, Option.some.injEq] at r3
    obtain ⟨rfl, rfl, rfl⟩ := r3
    subst r4
    simp only [hrec, Option.map_some] at r6
    obtain ⟨rfl, -⟩ := r6
    simp only [Spec.InitiatorSecret, Option.some.injEq] at e6
    subst e6
    exact ⟨l1, id, key, _, request, l2, reply, by rw [e1]; simp [keyObs], e9, e2, e8, rfl, r5, e7⟩

/-- A responder that uses quantum keys: whenever keys are installed, the responder had just read a request and taken
the key with the id in that request from its store, and the keys are derived from that key, the request and the reply
it sends. -/
theorem C27_responder_uses_key (c : Cfg) (E : Env) (hb : c.backend.Lawful)
    (hrole : c.role = .responder .qkd) (s : Layer)
    (h : Observed c E s) (pre post : List Obs) (k : SessionKeys) (a : SessionAlgorithms) (p : SessionParam)
    (hlog : s.log = pre ++ .established k a p :: post) :
    ∃ before request message id key reply,
      pre = before ++ [.recv request, .keyUsed (id, key)] ∧ RequestHandshakeBegin.read request = .ok message ∧
      message.mode_data = be 8 id.toNat ∧
      post.head? = some (.lowerTx (c.fw.wrap reply) true) ∧
      k = ⟨(Spec.derive c.backend (Spec.salt c.backend request reply) key).1,
        (Spec.derive c.backend (Spec.salt c.backend request reply) key).2⟩ := by
  obtain ⟨_, he⟩ := C29_keys_from_handshake c E hb s h pre post k a p hlog
  rw [hrole] at he
  obtain ⟨before, request, msg, used, lookup, rnd, sec, reply, rest', e1, e2, e3, e4, -, e5, e6, e7, _⟩ := he
  obtain ⟨id, rfl, h2, h3⟩ := e5
  exact ⟨before, request, msg, id, sec, reply, by rw [e1]; rfl, e2, h2, by rw [e6]; rfl, e7⟩

theorem split_at {α : Type} {a b l1 l2 : List α} {x y : α} (h : a ++ x :: b = l1 ++ y :: l2) (hx : x ∉ l2) (hne : x ≠ y) :
    ∃ m, b = m ++ y :: l2 := by
  rw [List.append_eq_append_iff] at h
  rcases h with ⟨z, rfl, hz⟩ | ⟨z, rfl, hz⟩
  · cases z with
    | nil =>
      simp only [List.nil_append, List.cons.injEq] at hz
      exact absurd hz.1 hne
    | cons w z =>
      simp only [List.cons_append, List.cons.injEq] at hz
      exact ⟨z, hz.2⟩
  · cases z with
    | nil =>
      simp only [List.nil_append, List.cons.injEq] at hz
      exact absurd hz.1.symm hne
    | cons w z =>
      simp only [List.cons_append, List.cons.injEq] at hz
      exact absurd (by rw [hz.2]; simp) hx

/-- No key serves two sessions: between any two installations of keys, another key is taken from the store. -/
theorem C27_new_key_for_each_session (c : Cfg) (E : Env) (hb : c.backend.Lawful)
    (hrole : match c.role with
      | .initiator _ _ => ∀ h, E.config h → ∃ k, h.mode = .qkd k
      | .responder m => m = .qkd)
    (s : Layer) (h : Observed c E s) (l1 l2 l3 : List Obs) (k k' : SessionKeys) (a a' : SessionAlgorithms)
    (p p' : SessionParam) (hlog : s.log = l1 ++ .established k a p :: l2 ++ .established k' a' p' :: l3) :
    ∃ record, Obs.keyUsed record ∈ l2 := by
  cases hr : c.role with
  | initiator params limits =>
    rw [hr] at hrole
    obtain ⟨x, id, key, msg, request, y, reply, h1, h2, -⟩ :=
      C27_initiator_uses_key c E hb params limits hr hrole s h _ _ k' a' p' hlog
    have h1' : l1 ++ .established k a p :: l2 =
        x ++ Obs.keyUsed (id, key) :: (.lowerTx (c.fw.wrap request) true :: y ++ [.recv reply]) := by rw [h1]; simp
    obtain ⟨m, rfl⟩ := split_at h1' (by simpa using h2 k a p) (by simp)
    exact ⟨(id, key), by simp⟩
  | responder m =>
    rw [hr] at hrole
    simp only at hrole
    subst hrole
    obtain ⟨x, request, msg, id, key, reply, h1, -⟩ := C27_responder_uses_key c E hb hr s h _ _ k' a' p' hlog
    have h1' : l1 ++ .established k a p :: l2 = (x ++ [Obs.recv request]) ++ Obs.keyUsed (id, key) :: [] := by rw [h1]; simp
    obtain ⟨m, rfl⟩ := split_at h1' (by simp) (by simp)
    exact ⟨(id, key), by simp⟩

/-- In every mode: between any two sessions an initiator installs, it sends a request with fresh material of its own. -/
theorem C27_new_request_for_each_session (c : Cfg) (E : Env) (hb : c.backend.Lawful) (params : Params) (limits : SessionLimits)
    (hrole : c.role = .initiator params limits) (s : Layer) (h : Observed c E s) (l1 l2 l3 : List Obs)
    (k k' : SessionKeys) (a a' : SessionAlgorithms) (p p' : SessionParam)
    (hlog : s.log = l1 ++ .established k a p :: l2 ++ .established k' a' p' :: l3) :
    ∃ y1 y2 request reply h0 mode used msg secret, l2 = y1 ++ .lowerTx (c.fw.wrap request) true :: y2 ++ [.recv reply] ∧
      E.config h0 ∧ Spec.RequestOf c limits h0 mode used request ∧ ReplyHandshakeBegin.read reply = .ok msg ∧
      Spec.InitiatorSecret c.backend c.caps mode msg secret ∧
      k' = ⟨(Spec.derive c.backend (Spec.salt c.backend request reply) secret).2,
        (Spec.derive c.backend (Spec.salt c.backend request reply) secret).1⟩ := by
  obtain ⟨_, he⟩ := C29_keys_from_handshake c E hb s h _ _ k' a' p' hlog
  rw [hrole] at he
  obtain ⟨x, y, request, reply, msg, h0, mode, used, sec, e1, e2, e9, e3, e4, e5, -, e6, e7, e8⟩ := he
  have h1' : l1 ++ .established k a p :: l2 =
      (x ++ keyObs used) ++ Obs.lowerTx (c.fw.wrap request) true :: (y ++ [.recv reply]) := by rw [e1]; simp
  obtain ⟨m, rfl⟩ := split_at h1' (by simpa using e9 k a p) (by simp)
  exact ⟨m, y, request, reply, h0, mode, used, msg, sec, by simp, e4, e5, e3, e6, e7⟩

namespace LayerExample
open Exec

/-! An initiator and a responder with quantum keys: two sessions, the second after the session timer of the initiator
has expired. -/

def qsuite : CryptoSpec := { suite with handshake_ephemeral := .none }
def qhs : InitiatorHandshake :=
  ⟨.qkd none, qsuite,
    ⟨⟨Toy.strong.hash, Toy.strong.hkdf⟩, ⟨verifyStrictIncrement, .hmacSha256Trunc16 Toy.strong⟩⟩, 0, []⟩
theorem qconfigured : qhs.Configured Toy.strong caps := rfl
def qres : Cfg := { res with role := .responder .qkd }
/-- The environment answers a query at time `t` with the key `n`. -/
def qans (t : Int) (n : UInt8) : Choice :=
  .fresh ⟨t, List.replicate 32 0, some (n.toUInt64, List.replicate 32 n), fun id => if id = n.toUInt64 then some (List.replicate 32 n) else none, []⟩

def q1 : List Choice := [.event (.lowerOpen true), qans 5 1, qans 5 1]
def r1 : List Choice := [.event (.lowerOpen true), .event .lowerRxReady, .recv (lastTx (final ini .tame qhs q1)), ans 6, ans 6 8, qans 6 1]
def q2 : List Choice := q1 ++ [.event .lowerTxReady, .recv (lastTx (final qres .tame qhs r1)), ans 7, ans 7, ans 7]
def r2 : List Choice := r1 ++ [.event .lowerTxReady, .recv (lastTx (final ini .tame qhs q2)), ans 8, ans 8, ans 8, ans 8, .ret]
def q3 : List Choice := q2 ++ [.event .lowerTxReady, .recv (lastTx (final qres .tame qhs r2)), ans 9, ans 9, ans 9, .ret, .recv [], ans 9]
def q4 : List Choice := q3 ++ [.event (.expiry .session), qans 30005 2, qans 30005 2]
def r3 : List Choice := r2 ++ [.event .lowerTxReady, .recv (lastTx (final ini .tame qhs q4)), ans 30006, ans 30006 8, qans 30006 2]
def q5 : List Choice := q4 ++ [.event .lowerTxReady, .recv (lastTx (final qres .tame qhs r3)), ans 30007, ans 30007, ans 30007]

/-- The ids of the keys used and the sessions installed. -/
def uses (log : List Obs) : List (Option UInt64) :=
  log.filterMap fun o => match o with | .keyUsed record => some (some record.1) | .established _ _ _ => some none | _ => none

example : ∃ E s, Observed ini E s ∧ (∀ h, E.config h → ∃ k, h.mode = .qkd k) ∧ uses s.log = [some 1, none, some 2, none] := by
  obtain ⟨s, h1, h2⟩ := Exec.exists_only qconfigured (c := ini) (E := .tame) (h := qhs) (script := q5)
    (f := fun s => uses s.log) (a := [some 1, none, some 2, none]) (by decide +kernel)
  exact ⟨_, s, h1.observed, fun h he => ⟨none, by rw [show h = qhs from he]; rfl⟩, h2⟩

example : ∃ s, Observed qres anyEnv s ∧ uses s.log = [some 1, none, some 2, none] := by
  obtain ⟨s, h1, h2⟩ := Exec.exists_of_map qconfigured (c := qres) (E := .tame) (h := qhs) (script := r3)
    (f := fun s => uses s.log) (a := [some 1, none, some 2, none]) (by decide +kernel)
  exact ⟨s, h1.any, h2⟩

end LayerExample

end SSP21.Crypto
