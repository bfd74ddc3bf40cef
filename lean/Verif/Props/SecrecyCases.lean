import Verif.Props.Secrecy
import Verif.LayerExample
/-
  C64, in two closed cases: for each shared secret, and for each static private key, there are primitives with which a station
  that has any other secret does what it does with this one. And an execution in which the secret matters.
-/
namespace SSP21.Crypto

namespace Spec

/-- Primitives that treat `k'` in the key derivation from a shared secret (the secret and two nonces, 96 bytes in all) as the given ones treat
`k`. (An input of 96 bytes with 0, 88 at place 6 is that of a MAC of 88 bytes of data.) -/
def instead (b : Backend) (k k' : Bytes) : Backend :=
  { b with hmac := fun key m =>
      if m.length = 96 ∧ m.take 32 = k' ∧ (m.drop 6).take 2 ≠ [0, 88] then b.hmac key (k ++ m.drop 32) else b.hmac key m }

/-- One private key for another. -/
def exchanged (x y k : Bytes) : Bytes := if k = x then y else if k = y then x else k

/-- Primitives that treat the private key `sp'` as the given ones treat `sp`, and the other way round. -/
def exchangedKeys (b : Backend) (sp sp' : Bytes) : Backend :=
  { b with dhRaw := fun x p => b.dhRaw (exchanged sp sp' x) p, dhPublic := fun x => b.dhPublic (exchanged sp sp' x) }

end Spec

open Spec

namespace SecrecyProof

theorem instead_mac (b : Backend) (k k' key ad data : Bytes) (h : ad.length = 6) :
    (instead b k k').hmac key (macInput ad data) = b.hmac key (macInput ad data) := by
  unfold instead
  dsimp only
  rw [if_neg]
  rintro ⟨h1, _, h3⟩
  apply h3
  simp only [macInput, List.length_append, h, be_length] at h1
  have hd : data.length = 88 := by omega
  have h6 : 6 = ad.length := h.symm
  unfold macInput
  rw [List.append_assoc, h6, List.drop_left, hd]
  rfl

theorem instead_key (b : Backend) (k k' key : Bytes) : KeySame b (instead b k k') key key :=
  ⟨rfl, fun ad data h => by rw [instead_mac b k k' key ad data h], fun _ _ _ => rfl, fun _ _ _ _ => rfl⟩

theorem take_drop_two (l r : Bytes) (h : l.length = 32) : ((l ++ r).drop 6).take 2 = (l.drop 6).take 2 := by
  rw [List.drop_append_of_le_length (by omega), List.take_append_of_le_length (by simp; omega)]

theorem instead_same (b : Backend) (hb : ∀ k m, (b.hmac k m).length = 32) (k k' : Bytes) (h : k'.length = 32)
    (hk : (k'.drop 6).take 2 ≠ [0, 88]) : SharedSame b (instead b k k') k k' := by
  intro salt x y hx hy
  have e : (instead b k k').hkdf salt [k', x, y] = b.hkdf salt [k, x, y] := by
    have e1 : (instead b k k').hmac salt ([k', x, y].flatten) = b.hmac salt ([k, x, y].flatten) := by
      unfold instead
      dsimp only
      rw [if_pos]
      · congr 1
        simp [List.drop_append, h]
      · refine ⟨by simp [h, hx, hy], by simp [List.take_append, h], ?_⟩
        rw [List.flatten_cons, take_drop_two _ _ h]
        exact hk
    have e2 : ∀ t, (instead b k k').hmac t [0x01] = b.hmac t [0x01] := by
      intro t
      unfold instead
      dsimp only
      rw [if_neg]
      rintro ⟨h1, _⟩
      simp at h1
    have e3 : ∀ t t' m, (instead b k k').hmac t (b.hmac t' m ++ [0x02]) = b.hmac t (b.hmac t' m ++ [0x02]) := by
      intro t t' m
      unfold instead
      dsimp only
      rw [if_neg]
      rintro ⟨h1, _⟩
      rw [List.length_append, hb] at h1
      simp at h1
    unfold Backend.hkdf
    dsimp only
    rw [e1, e2, e3]
  rw [e]
  exact ⟨instead_key _ _ _ _, instead_key _ _ _ _⟩

theorem exchanged_exchanged (x y k : Bytes) : exchanged x y (exchanged x y k) = k := by
  unfold exchanged
  by_cases h1 : k = x
  · subst h1
    by_cases h2 : y = k
    · subst h2; simp
    · simp [h2]
  · by_cases h2 : k = y
    · subst h2; simp [h1]
    · simp [h1, h2]

theorem exchanged_length (x y k : Bytes) (h : y.length = x.length) : (exchanged x y k).length = k.length := by
  unfold exchanged
  split
  · rename_i e; rw [e, h]
  · split
    · rename_i e; rw [e, h]
    · rfl

theorem exchanged_pair (b : Backend) (sp sp' r : Bytes) : PairSame b (exchangedKeys b sp sp') sp sp' r (exchanged sp sp' r) := by
  have hk : ∀ key, KeySame b (exchangedKeys b sp sp') key key := fun key => ⟨rfl, fun _ _ _ => rfl, fun _ _ _ => rfl, fun _ _ _ _ => rfl⟩
  have e1 : ∀ x p, (exchangedKeys b sp sp').dh (exchanged sp sp' x) p = b.dh x p := by
    intro x p
    simp only [Backend.dh, exchangedKeys, exchanged_exchanged]
  have e2 : exchanged sp sp' sp = sp' := by simp [exchanged]
  have e3 : ∀ remote eph, tripleDH (exchangedKeys b sp sp') sp' (exchanged sp sp' r) remote eph = tripleDH b sp r remote eph := by
    intro remote eph
    have e4 : (exchangedKeys b sp sp').dh sp' eph = b.dh sp eph := by rw [← e1 sp eph, e2]
    simp only [tripleDH, e1, e4]
  refine ⟨by simp only [exchangedKeys, exchanged_exchanged], fun remote eph => ?_⟩
  rw [e3]
  cases tripleDH b sp r remote eph with
  | error e => rfl
  | ok d => exact fun salt => ⟨⟨hk _, hk _⟩, hk _, hk _⟩

/-- With the other primitives the same handshake object can be made. -/
theorem configured_with (b b' : Backend) (caps : Caps) (h : InitiatorHandshake) (hc : h.Configured b caps) (m : InitiatorMode) :
    ∃ h' : InitiatorHandshake, h'.Configured b' caps ∧ h'.suite = h.suite ∧ h'.timeRequestTx = h.timeRequestTx ∧ h'.handshakeHash = h.handshakeHash ∧ h'.mode = m := by
  rcases configure_same b b' caps h.suite with ⟨e, c1, -⟩ | ⟨a, a', -, c2, -⟩
  · unfold InitiatorHandshake.Configured at hc
    rw [hc] at c1
    cases c1
  · exact ⟨{ h with mode := m, algorithms := a' }, c2, rfl, rfl, rfl, rfl⟩

theorem reachable_started {c : Cfg} {x : Config} (h : Reachable c anyEnv x) :
    ∃ hs, hs.Configured c.backend c.caps ∧ Reachable c (startedWith hs) x := by
  induction h with
  | init handshake hc _ => exact ⟨handshake, hc, .init handshake hc rfl⟩
  | @step x y _ hst ih =>
    obtain ⟨hs, hc, hr⟩ := ih
    refine ⟨hs, hc, hr.step ?_⟩
    cases hst
    all_goals first | exact .event _ _ ‹_› | exact .api _ _ | exact .nestedApi _ _ _ _ trivial | exact .ret _ _ _ | exact .done _ _ |
      exact .up _ _ _ _ | exact .ask _ _ _ ‹_› | exact .recv _ _ _ _ trivial | exact .loop _ _ _

theorem started_reachable {c : Cfg} {hs : InitiatorHandshake} {x : Config} (h : Reachable c (startedWith hs) x) : Reachable c anyEnv x := by
  induction h with
  | init handshake hc _ => exact .init handshake hc trivial
  | @step x y _ hst ih =>
    refine ih.step ?_
    cases hst
    all_goals first | exact .event _ _ ‹_› | exact .api _ _ | exact .nestedApi _ _ _ _ trivial | exact .ret _ _ _ | exact .done _ _ |
      exact .up _ _ _ _ | exact .ask _ _ _ ‹_› | exact .recv _ _ _ _ trivial | exact .loop _ _ _

end SecrecyProof

/-- **C64, responder with a shared secret.** Whatever it can be seen to do, a responder with any other secret `k'` (with 88 not
at place 7 after 0) can be seen to do too, with primitives that differ only in the key derivation from `k'`. -/
theorem C64_responder_shared (c : Cfg) (k k' : Bytes) (hr : c.role = .responder (.sharedSecret k)) (hb : ∀ k m, (c.backend.hmac k m).length = 32)
    (h : k'.length = 32) (hk : (k'.drop 6).take 2 ≠ [0, 88]) {s : Layer} (hs : Quiet c anyEnv s) :
    ∃ s', Quiet { c with backend := instead c.backend k k', role := .responder (.sharedSecret k') } anyEnv s' ∧ Indistinguishable s s' := by
  obtain ⟨x, hx, hq⟩ := SecrecyProof.reachable_started hs
  obtain ⟨x', h1, h2, h3, h4, -⟩ := SecrecyProof.configured_with c.backend (instead c.backend k k') c.caps x hx x.mode
  have T : Twins c { c with backend := instead c.backend k k', role := .responder (.sharedSecret k') } x x' := by
    refine ⟨rfl, rfl, rfl, rfl, rfl, rfl, rfl, ?_, hx, h1, h2, h3, h4, ?_, ?_⟩
    · rw [hr]; trivial
    · rintro ⟨p, l, e⟩; rw [hr] at e; cases e
    · simp only [secretOf, hr]; exact SecrecyProof.instead_same c.backend hb k k' h hk
  obtain ⟨s', q, hi⟩ := C64_shared_secret T (k := k) (by simp only [secretOf, hr]) hq
  exact ⟨s', SecrecyProof.started_reachable q, hi⟩

/-- **C64, initiator with a shared secret.** -/
theorem C64_initiator_shared (c : Cfg) (k k' : Bytes) {p : Params} {l : SessionLimits} (hr : c.role = .initiator p l)
    (hb : ∀ k m, (c.backend.hmac k m).length = 32) (h : k'.length = 32) (hk : (k'.drop 6).take 2 ≠ [0, 88]) {suite : CryptoSpec}
    {hs : InitiatorHandshake} (hm : InitiatorHandshake.mkSharedSecret c.backend c.caps suite k = some hs) :
    ∃ hs', InitiatorHandshake.mkSharedSecret (instead c.backend k k') c.caps suite k' = some hs' ∧
      ∀ s, Quiet c (startedWith hs) s →
        ∃ s', Quiet { c with backend := instead c.backend k k' } (startedWith hs') s' ∧ Indistinguishable s s' := by
  have hx := InitiatorHandshake.configured_of_make c.backend c.caps suite k (.preshared []) hs (.inl hm)
  unfold InitiatorHandshake.mkSharedSecret at hm ⊢
  rcases SecrecyProof.configure_same c.backend (instead c.backend k k') c.caps suite with ⟨e, c1, -⟩ | ⟨a, a', c1, c2, -⟩
  · rw [c1] at hm; cases hm
  rw [c1] at hm
  cases hm
  rw [c2]
  refine ⟨_, rfl, fun s hq => ?_⟩
  refine C64_shared_secret (k := k) (c := c) (c' := { c with backend := instead c.backend k k' })
    (hs := ⟨.sharedSecret k (List.replicate 32 0), { suite with handshake_ephemeral := .nonce }, a, 0, []⟩)
    (hs' := ⟨.sharedSecret k' (List.replicate 32 0), { suite with handshake_ephemeral := .nonce }, a', 0, []⟩) ⟨rfl, rfl, rfl, rfl, rfl, rfl, rfl, ?_, hx, c2, rfl, rfl, rfl, fun _ => rfl, ?_⟩ ?_ hq
  · show RoleSame c.role c.role
    rw [hr]
    exact ⟨rfl, rfl⟩
  · simp only [secretOf, hr]; exact SecrecyProof.instead_same c.backend hb k k' h hk
  · simp only [secretOf, hr]

/-- **C64, responder with a static private key.** Whatever it can be seen to do, a responder with any other private key (and the same
certificates) can be seen to do too, with primitives in which the two private keys change places. -/
theorem C64_responder_private_key (c : Cfg) (sp sp' : Bytes) (certs : CertHandler) (hr : c.role = .responder (.publicKey sp certs))
    (h : sp'.length = sp.length) {s : Layer} (hs : Quiet c anyEnv s) :
    ∃ s', Quiet { c with backend := exchangedKeys c.backend sp sp', role := .responder (.publicKey sp' certs) } anyEnv s' ∧
      Indistinguishable s s' := by
  obtain ⟨x, hx, hq⟩ := SecrecyProof.reachable_started hs
  obtain ⟨x', h1, h2, h3, h4, -⟩ := SecrecyProof.configured_with c.backend (exchangedKeys c.backend sp sp') c.caps x hx x.mode
  have T : Twins c { c with backend := exchangedKeys c.backend sp sp', role := .responder (.publicKey sp' certs) } x x' := by
    refine ⟨rfl, rfl, rfl, rfl, rfl, rfl, rfl, ?_, hx, h1, h2, h3, h4, ?_, ?_⟩
    · rw [hr]; rfl
    · rintro ⟨p, l, e⟩; rw [hr] at e; cases e
    · simp only [secretOf, hr]; trivial
  obtain ⟨s', q, hi⟩ := C64_possible T (fun f hf => by
    refine ⟨{ f with rnd := exchanged sp sp' f.rnd }, ?_, rfl, rfl, ?_⟩
    · exact (SecrecyProof.exchanged_length sp sp' f.rnd h).trans hf
    · simp only [secretOf, hr]; exact SecrecyProof.exchanged_pair c.backend sp sp' f.rnd) hq
  exact ⟨s', SecrecyProof.started_reachable q, hi⟩

/-- **C64, initiator with a static private key.** -/
theorem C64_initiator_private_key (c : Cfg) (sp sp' : Bytes) (certs : CertHandler) {p : Params} {l : SessionLimits}
    (hr : c.role = .initiator p l) (h : sp'.length = sp.length) {suite : CryptoSpec} {hs : InitiatorHandshake}
    (hm : InitiatorHandshake.mkPublicKey c.backend c.caps suite sp certs = some hs) :
    ∃ hs', InitiatorHandshake.mkPublicKey (exchangedKeys c.backend sp sp') c.caps suite sp' certs = some hs' ∧
      ∀ s, Quiet c (startedWith hs) s →
        ∃ s', Quiet { c with backend := exchangedKeys c.backend sp sp' } (startedWith hs') s' ∧ Indistinguishable s s' := by
  have hx := InitiatorHandshake.configured_of_make c.backend c.caps suite sp certs hs (.inr (.inr hm))
  unfold InitiatorHandshake.mkPublicKey at hm ⊢
  rcases SecrecyProof.configure_same c.backend (exchangedKeys c.backend sp sp') c.caps suite with ⟨e, c1, -⟩ | ⟨a, a', c1, c2, -⟩
  · rw [c1] at hm; cases hm
  rw [c1] at hm
  rw [c2]
  dsimp only at hm ⊢
  cases hd : dhConfigure c.caps suite.handshake_ephemeral with
  | error e => rw [hd] at hm; cases hm
  | ok u =>
    rw [hd] at hm
    dsimp only at hm ⊢
    cases he : c.caps.ed25519 with
    | false => rw [he] at hm; cases hm
    | true =>
      rw [he] at hm
      cases hm
      refine ⟨_, rfl, fun s hq => ?_⟩
      refine C64_possible (c := c) (c' := { c with backend := exchangedKeys c.backend sp sp' })
        (hs := ⟨.publicKey sp certs ⟨[], []⟩, suite, a, 0, []⟩) (hs' := ⟨.publicKey sp' certs ⟨[], []⟩, suite, a', 0, []⟩)
        ⟨rfl, rfl, rfl, rfl, rfl, rfl, rfl, ?_, hx, c2, rfl, rfl, rfl, fun _ => rfl, ?_⟩ (fun f hf => ?_) hq
      · show RoleSame c.role c.role
        rw [hr]
        exact ⟨rfl, rfl⟩
      · simp only [secretOf, hr]; trivial
      · refine ⟨{ f with rnd := exchanged sp sp' f.rnd }, ?_, rfl, rfl, ?_⟩
        · exact (SecrecyProof.exchanged_length sp sp' f.rnd h).trans hf
        · simp only [secretOf, hr]; exact SecrecyProof.exchanged_pair c.backend sp sp' f.rnd

/-! ## Example -/

namespace SecrecyExample
open LayerExample Exec

def key2 : Bytes := List.replicate 32 3
def hs2 : InitiatorHandshake := { hs with mode := .sharedSecret key2 (List.replicate 32 0) }

/-- The secret is not without effect: with the same primitives and another secret the initiator sends another authentication message
in the same handshake. -/
example : lastTx (final ini .tame hs2 iniAuth) ≠ auth1 ∧ auth1.length = (lastTx (final ini .tame hs2 iniAuth)).length ∧
    0 < auth1.length := by decide +kernel

/-- The initiator that has sent data has done so in an execution to which the theorem applies. -/
example : ∃ hs' s s', InitiatorHandshake.mkSharedSecret (instead Toy.strong key key2) caps suite key2 = some hs' ∧
    Quiet ini (startedWith hs) s ∧ s.log.length ≠ 0 ∧ s.upperOpen = true ∧
    Quiet { ini with backend := instead Toy.strong key key2 } (startedWith hs') s' ∧ s'.upperOpen = true ∧ visible s'.log = visible s.log := by
  obtain ⟨hs', h1, h2⟩ := C64_initiator_shared ini key key2 (p := params) (l := limits) rfl (fun _ _ => Toy.sum_length _) rfl
    (by decide) made
  obtain ⟨s, h3, h4⟩ := Exec.exists_only configured (c := ini) (E := .any) (h := hs) (script := iniData)
    (f := fun s => (decide (s.log.length ≠ 0), s.upperOpen)) (a := (true, true)) (by decide +kernel)
  have h3 : Quiet ini (startedWith hs) s := by
    refine Reachable.mono ?_ ?_ ?_ h3 <;> intros <;> trivial
  obtain ⟨s', h5, h6⟩ := h2 s h3
  have e1 := congrArg Prod.fst h4
  have e2 := congrArg Prod.snd h4
  exact ⟨hs', s, s', h1, h3, of_decide_eq_true e1, e2, h5, h6.upperOpen.trans e2, h6.log⟩

end SecrecyExample
end SSP21.Crypto
