import Verif.Props.Config
import Verif.Props.LinkLayer
import Verif.Props.KeyStore
import Verif.Props.Handshake
/-
  C49: the configuration file of a proxy is obeyed. The helper lemmas are in Verif/Props/Config.lean.
-/
namespace SSP21.Config
open Tool (Outcome)
open Spec

/-! ### every setting means what it says -/

theorem forall₂_imp {α β : Type} {P Q : α → β → Prop} (f : ∀ a b, P a b → Q a b) {l : List α} {m : List β}
    (h : List.Forall₂ P l m) : List.Forall₂ Q l m := by
  induction h with
  | nil => exact .nil
  | cons a _ ih => exact .cons (f _ _ a) ih

/-- **The file is obeyed.** When the proxy accepts a file, then the proxies that it runs are exactly those that the file
describes, in the same order: each setting that is read has the value that the file gives or, where a setting may be left
out, the documented default. -/
theorem C49_file_means (w : World) (root : Yaml) (ps : List Proxy) (reg : Registry) (h : read w root = .ok (ps, reg)) :
    ∃ ss, entry root "sessions" = some (.seq ss) ∧ ps ≠ [] ∧ List.Forall₂ (SessionMeans w) ss ps := by
  obtain ⟨qs, ss, reg0, -, h2, -, h4, h5⟩ := read_ok h
  exact ⟨ss, h2, h5, forall₂_imp (fun n p ⟨r, r', h⟩ => (session_ok h).1) (readSessions_ok h4)⟩

/-- **Exactly the meaningful parameters are accepted**: the reader accepts the parameters of an initiator with the given
values iff these are what the file means, so nothing out of range is cut off and nothing in range is refused. -/
theorem C49_parameters (w : World) (handshake session : Yaml) :
    (∀ c, getInitiatorConfig w handshake session = .ok c ↔ InitiatorParameters w handshake session c) ∧
    (∀ c, getLayerConfig w session = .ok c ↔ LayerParameters w session c) :=
  ⟨fun _ => initiatorConfig_ok, fun _ => layerConfig_ok⟩

/-- **Keys**: exactly the containers of the right type with 32 bytes are accepted as keys, and the key is what the container
holds. -/
theorem C49_keys (w : World) (path : String) (type : ContainerEntryType) (key : Bytes) :
    getCryptoKey w path type = .ok key ↔ KeyFile w path type key := getCryptoKey_ok

/-- A TCP proxy always has a link layer, so that its stream of bytes is divided into frames. -/
theorem C49_tcp_has_link (w : World) (root : Yaml) (ps : List Proxy) (reg : Registry) (h : read w root = .ok (ps, reg))
    (p : Proxy) (hp : p ∈ ps) (m : UInt16) (l c : Endpoint) (ht : p.transport = .tcp m l c) : ∃ a, p.addresses = some a := by
  obtain ⟨qs, ss, reg0, -, h2, -, h4, h5⟩ := read_ok h
  have := readSessions_ok h4
  clear h h2 h4 h5
  induction this with
  | nil => cases hp
  | cons hd tl ih =>
    rcases List.mem_cons.1 hp with rfl | hp
    · obtain ⟨r, r', hs⟩ := hd
      exact Option.ne_none_iff_exists'.1 ((session_ok hs).2.1 ⟨_, _, _, ht⟩)
    · exact ih hp

/-! ### addresses -/

theorem linkWriter_wrap (a : Link.Addresses) (m : Bytes) (h : m.length ≤ 4092) :
    (linkWriter a).wrap m = SSP21.Spec.frame a.destination a.source m := by
  obtain ⟨w, w', h1, h2⟩ := Link.C08_writer_emits_frame a 4092 [] (by simp) (emit m) m (fun cap => rfl)
  cases h1
  rw [if_pos (by simpa using h)] at h2
  unfold linkWriter
  dsimp only
  rw [h2]

theorem required_unique {n : Yaml} {k : String} {α : Type} {P : Yaml → α → Prop} (hP : ∀ m a b, P m a → P m b → a = b) {a b : α}
    (ha : Required P n k a) (hb : Required P n k b) : a = b := by
  obtain ⟨m, h1, h2⟩ := ha
  obtain ⟨m', h3, h4⟩ := hb
  rw [h1] at h3
  cases h3
  exact hP _ _ _ h2 h4

theorem number_unique {w : World} {lo hi : Int} {m : Yaml} {a b : Int} (h : Number w lo hi m a) (h' : Number w lo hi m b) :
    a = b := by
  obtain ⟨s, rfl, h1, -⟩ := h
  obtain ⟨s', h2, h3, -⟩ := h'
  cases h2
  rw [h1] at h3
  exact Option.some.inj h3

/-- The addresses of a link layer that a session of the file asks for. -/
def Spec.Link (w : World) (node : Yaml) (loc remote : UInt16) : Prop :=
  ∃ address t, at' node ["link_layer", "enabled"] = some (.scalar t) ∧ w.bool t = some true ∧
    at' node ["link_layer", "address"] = some address ∧ Required (Number w 0 65535) address "local" (loc.toNat : Int) ∧
    Required (Number w 0 65535) address "remote" (remote.toNat : Int)

theorem link_addresses {w : World} {node : Yaml} {reg reg' : Registry} {p : Proxy} (h : getSession w node reg = .ok (p, reg'))
    {loc remote : UInt16} (hl : Spec.Link w node loc remote) : p.addresses = some ⟨remote, loc⟩ := by
  obtain ⟨-, ⟨l, h1, h2⟩, -⟩ := (session_ok h).1
  obtain ⟨ad, t, h3, h4, h5, h6, h7⟩ := hl
  have e1 : entry l "enabled" = some (.scalar t) := by simpa [at', h1] using h3
  have e2 : entry l "address" = some ad := by simpa [at', h1] using h5
  unfold LinkMeans at h2
  split at h2
  · obtain ⟨t', ⟨m, h8, h9⟩, h10⟩ := h2
    rw [e1] at h8
    cases h8
    cases h9
    rw [h4] at h10
    cases h10
  · rename_i a ha
    obtain ⟨t', ad', -, -, h8, h9, h10⟩ := h2
    rw [e2] at h8
    cases h8
    have e3 := toNat16_inj _ _ (required_unique (P := Number w 0 65535) (fun _ _ _ => number_unique) h9 h6)
    have e4 := toNat16_inj _ _ (required_unique (P := Number w 0 65535) (fun _ _ _ => number_unique) h10 h7)
    rw [ha, ← e3, ← e4]

theorem makeStack_link {b : Backend} {caps : Caps} {a : Option Link.Addresses} {s : StackSpec} {st : Stack}
    (h : makeStack b caps a s = .ok st) : st.cfg.fw = frameWriter a ∧ st.link = a.map fun a => Link.Layer.new a.source := by
  unfold makeStack at h
  cases s <;> dsimp only at h <;> simp only [bind_ok] at h
  all_goals
    obtain ⟨x, -, h2⟩ := h
    cases h2
    exact ⟨rfl, rfl⟩

/-- **Addresses.** With the link layer enabled, every message goes out in a frame addressed to the configured remote station,
from the configured local one, and only the configured local address is listened to. -/
theorem C49_addresses (w : World) (node : Yaml) (reg reg' : Registry) (p : Proxy) (h : getSession w node reg = .ok (p, reg'))
    (loc remote : UInt16) (hl : Spec.Link w node loc remote) (b : Backend) (caps : Caps) (st : Stack)
    (hs : makeStack b caps p.addresses p.stack = .ok st) :
    (∀ m : Bytes, m.length ≤ 4092 → st.cfg.fw.wrap m = SSP21.Spec.frame remote loc m) ∧
    ∃ l, st.link = some l ∧ l.localAddr = loc := by
  obtain ⟨h1, h2⟩ := makeStack_link hs
  rw [link_addresses h hl] at h1 h2
  refine ⟨fun m hm => ?_, _, h2, rfl⟩
  rw [h1]
  exact linkWriter_wrap _ _ hm

/-- **Mirrored files work together.** When the remote address of one session is the local one of another, the messages
that the first writes, delivered in any chunks, arrive in order at the layer above the link layer of the second, which
makes reads at any moments: at any moment a prefix of them was read, and one read for each yields all of them. -/
theorem C49_mirrored (w w' : World) (n n' : Yaml) (r r' q q' : Registry) (p p' : Proxy) (h : getSession w n r = .ok (p, r'))
    (h' : getSession w' n' q = .ok (p', q')) (loc remote : UInt16) (hl : Spec.Link w n loc remote)
    (hl' : Spec.Link w' n' remote loc) (b b' : Backend) (caps caps' : Caps) (st st' : Stack)
    (hs : makeStack b caps p.addresses p.stack = .ok st) (hs' : makeStack b' caps' p'.addresses p'.stack = .ok st')
    (ms : List Bytes) (hm : ∀ m ∈ ms, m ≠ [] ∧ m.length ≤ 4092) (es : List Link.Ev) (hc : ∀ e ∈ es, e.calm)
    (ha : Link.arrivals es = (ms.map st.cfg.fw.wrap).flatten) :
    ∃ l, st'.link = some l ∧ ∃ v out, Link.exec ⟨l, [], []⟩ es = some (v, out) ∧
      Link.payloads out <+: ms ∧ ∃ v' out', Link.exec v (List.replicate ms.length .upperRead) = some (v', out') ∧
        Link.payloads out ++ Link.payloads out' = ms := by
  obtain ⟨h1, -⟩ := C49_addresses w n r r' p h loc remote hl b caps st hs
  obtain ⟨-, h2⟩ := makeStack_link hs'
  rw [link_addresses h' hl'] at h2
  refine ⟨_, h2, ?_⟩
  have hmap : ms.map st.cfg.fw.wrap = (ms.map fun m => (loc, m)).map (Link.Sent.frame remote) := by
    rw [List.map_map]
    refine List.map_congr_left fun m hx => ?_
    rw [h1 m (hm m hx).2]
    rfl
  rw [hmap] at ha
  have := Link.C13_in_order_delivery remote (ms.map fun m => (loc, m)) (by simpa using hm) es hc ha
  rw [List.map_map, List.length_map] at this
  have e : Prod.snd ∘ (fun m : Bytes => (loc, m)) = id := rfl
  rw [e, List.map_id] at this
  exact this

/-! ### what is negotiated -/

theorem makeInitiator_ok {b : Backend} {caps : Caps} {k : InitiatorKeys} {h : InitiatorHandshake}
    (hm : makeInitiator b caps k = .ok h) :
    h.Configured b caps ∧ h.suite.session_crypto_mode = (Spec.suite k).session_crypto_mode ∧
    h.handshakeMode = match k with
      | .sharedSecret .. => .shared_secret | .qkd .. => .quantum_key_distribution | .preshared .. => .public_keys
      | .certificates .. => .industrial_certificates := by
  have orThrow_ok : ∀ {α : Type} {o : Option α} {a : α}, orThrow o = .ok a → o = some a := by
    intro α o a ho
    cases o <;> simp [orThrow] at ho
    rw [ho]
  unfold makeInitiator at hm
  split at hm
  · have hm := orThrow_ok hm
    refine ⟨InitiatorHandshake.configured_of_make b caps _ _ (.preshared []) h (.inl hm), ?_⟩
    unfold InitiatorHandshake.mkSharedSecret at hm
    split at hm <;> cases hm
    exact ⟨rfl, rfl⟩
  · have hm := orThrow_ok hm
    refine ⟨InitiatorHandshake.configured_of_make b caps _ [] (.preshared []) h (.inr (.inl hm)), ?_⟩
    unfold InitiatorHandshake.mkQkd at hm
    split at hm <;> cases hm
    exact ⟨rfl, rfl⟩
  · have hm := orThrow_ok hm
    refine ⟨InitiatorHandshake.configured_of_make b caps _ _ _ h (.inr (.inr hm)), ?_⟩
    unfold InitiatorHandshake.mkPublicKey at hm
    split at hm
    · cases hm
    split at hm
    · cases hm
    split at hm <;> cases hm
    exact ⟨rfl, rfl⟩
  · simp only [bind_ok] at hm
    obtain ⟨certs, h1, hm⟩ := hm
    have hc := orThrow_ok h1
    have hm := orThrow_ok hm
    refine ⟨InitiatorHandshake.configured_of_make b caps _ _ _ h (.inr (.inr hm)), ?_⟩
    unfold InitiatorHandshake.mkPublicKey at hm
    split at hm
    · cases hm
    split at hm
    · cases hm
    split at hm <;> cases hm
    unfold CertHandler.mkIndustrial at hc
    split at hc
    · cases hc
    split at hc <;> cases hc
    exact ⟨rfl, rfl⟩

/-- How the types of handshakes are named. -/
def Spec.types : List (String × HandshakeMode) :=
  [("shared_secret", .shared_secret), ("qkd", .quantum_key_distribution), ("preshared_public_key", .public_keys),
   ("certificate", .industrial_certificates)]

/-- **The request.** The requests of the crypto layer of an initiator carry the limits of the file and the type of
handshake that it names. -/
theorem C49_request (w : World) (node : Yaml) (reg reg' : Registry) (p : Proxy) (h : getSession w node reg = .ok (p, reg'))
    (b : Backend) (caps : Caps) (st : Stack) (hs : makeStack b caps p.addresses p.stack = .ok st) (ih : InitiatorHandshake)
    (hi : st.handshake = some ih) :
    ih.Configured b caps ∧ ∃ params limits session handshake, st.cfg.role = .initiator params limits ∧
      at' node ["security", "session"] = some session ∧ at' node ["security", "handshake"] = some handshake ∧
      ∀ ephemeral data, ∃ type, Required Text handshake "type" type ∧
        let q := ih.buildRequest limits ephemeral data
        (type, q.handshake_mode) ∈ Spec.types ∧
        Optional (Number w 0 65535) session "max_nonce_value" 32768 (q.constraints.max_nonce.toNat : Int) ∧
        Optional (Number w 0 4294967295) session "max_session_time_ms" 3600000 (q.constraints.max_session_duration.toNat : Int) := by
  obtain ⟨⟨se, h1, hm⟩, -, -⟩ := (session_ok h).1
  obtain ⟨hsk, ss, h2, h3, h4⟩ := hm
  revert h4
  cases hp : p.stack with
  | responder c keys =>
    rw [hp] at hs
    unfold makeStack at hs
    simp only [bind_ok] at hs
    obtain ⟨x, -, hs⟩ := hs
    cases hs
    cases hi
  | initiator c keys =>
    rw [hp] at hs
    unfold makeStack at hs
    simp only [bind_ok] at hs
    obtain ⟨x, hx, hs⟩ := hs
    cases hs
    cases hi
    rintro ⟨-, h5, h6⟩
    obtain ⟨hc, -, hmode⟩ := makeInitiator_ok hx
    refine ⟨hc, _, _, ss, hsk, rfl, by simp [at', h1, h3], by simp [at', h1, h2], fun e d => ?_⟩
    obtain ⟨-, h7, h8, -⟩ := h5
    cases keys <;> exact ⟨_, h6.1, by simp [InitiatorHandshake.buildRequest, hmode, Spec.types], h7, h8⟩

/-- How the other station is recognised: by its public key or by certificates of an authority, together with those that are
presented to it. -/
def Spec.Trust (b : Backend) (caps : Caps) (w : World) (handshake : Yaml) (certs : CertHandler) : Prop :=
  (Required Text handshake "type" "preshared_public_key" ∧
    ∃ key, Key w handshake "remote_public_key_path" .x25519_public_key key ∧ certs = .preshared key) ∨
  (Required Text handshake "type" "certificate" ∧ ∃ anchor chain, Contents w handshake "authority_cert_path" anchor ∧
    Contents w handshake "local_cert_path" chain ∧ CertHandler.mkIndustrial b caps anchor chain = some certs)

/-- **The keys in use.** The handshakes of an initiator and of a responder use the keys of the file for the type of
handshake that it names. -/
theorem C49_keys_in_use (w : World) (node : Yaml) (reg reg' : Registry) (p : Proxy) (h : getSession w node reg = .ok (p, reg'))
    (b : Backend) (caps : Caps) (st : Stack) (hs : makeStack b caps p.addresses p.stack = .ok st) :
    ∃ handshake, at' node ["security", "handshake"] = some handshake ∧
      ((∃ ih params limits, st.handshake = some ih ∧ st.cfg.role = .initiator params limits ∧
          match ih.mode with
          | .sharedSecret key _ => Required Text handshake "type" "shared_secret" ∧ Key w handshake "shared_secret_key_path" .shared_secret key
          | .qkd key => Required Text handshake "type" "qkd" ∧ key = none
          | .publicKey priv certs _ =>
            Key w handshake "local_private_key_path" .x25519_private_key priv ∧ Spec.Trust b caps w handshake certs) ∨
       (∃ rh, st.handshake = none ∧ st.cfg.role = .responder rh ∧
          match rh with
          | .sharedSecret key => Required Text handshake "type" "shared_secret" ∧ Key w handshake "shared_secret_key_path" .shared_secret key
          | .qkd => Required Text handshake "type" "qkd"
          | .publicKey priv certs =>
            Key w handshake "local_private_key_path" .x25519_private_key priv ∧ Spec.Trust b caps w handshake certs)) := by
  have orThrow_ok : ∀ {α : Type} {o : Option α} {a : α}, orThrow o = .ok a → o = some a := by
    intro α o a ho
    cases o <;> simp [orThrow] at ho
    rw [ho]
  obtain ⟨⟨se, h1, hm⟩, -, -⟩ := (session_ok h).1
  obtain ⟨hsk, ss, h2, h3, h4⟩ := hm
  refine ⟨hsk, by simp [at', h1, h2], ?_⟩
  revert h4
  cases hp : p.stack with
  | initiator c keys =>
    rw [hp] at hs
    unfold makeStack at hs
    simp only [bind_ok] at hs
    obtain ⟨x, hx, hs⟩ := hs
    cases hs
    rintro ⟨-, -, h6⟩
    refine .inl ⟨x, _, _, rfl, rfl, ?_⟩
    unfold makeInitiator at hx
    split at hx
    · have hx := orThrow_ok hx
      unfold InitiatorHandshake.mkSharedSecret at hx
      split at hx <;> cases hx
      exact h6
    · have hx := orThrow_ok hx
      unfold InitiatorHandshake.mkQkd at hx
      split at hx <;> cases hx
      exact ⟨h6.1, rfl⟩
    · have hx := orThrow_ok hx
      unfold InitiatorHandshake.mkPublicKey at hx
      split at hx
      · cases hx
      split at hx
      · cases hx
      split at hx <;> cases hx
      exact ⟨h6.2.1.2, .inl ⟨h6.1, _, h6.2.2, rfl⟩⟩
    · simp only [bind_ok] at hx
      obtain ⟨certs, hc, hx⟩ := hx
      have hc := orThrow_ok hc
      have hx := orThrow_ok hx
      unfold InitiatorHandshake.mkPublicKey at hx
      split at hx
      · cases hx
      split at hx
      · cases hx
      split at hx <;> cases hx
      exact ⟨h6.2.1.2, .inr ⟨h6.1, _, _, h6.2.2.1, h6.2.2.2, hc⟩⟩
  | responder c keys =>
    rw [hp] at hs
    unfold makeStack at hs
    simp only [bind_ok] at hs
    obtain ⟨x, hx, hs⟩ := hs
    cases hs
    rintro ⟨-, -, h6⟩
    refine .inr ⟨x, rfl, rfl, ?_⟩
    unfold makeResponder at hx
    split at hx
    · cases hx
      exact h6
    · cases hx
      exact h6.1
    · cases hx
      exact ⟨h6.2.1.2, .inl ⟨h6.1, _, h6.2.2, rfl⟩⟩
    · simp only [bind_ok] at hx
      obtain ⟨certs, hc, hx⟩ := hx
      cases hx
      exact ⟨h6.2.1.2, .inr ⟨h6.1, _, _, h6.2.2.1, h6.2.2.2, orThrow_ok hc⟩⟩

/-- **The parameters in use.** Lifetime of messages, size of the buffer and, for an initiator, the triggers of a new
handshake are those of the file. -/
theorem C49_parameters_in_use (w : World) (node : Yaml) (reg reg' : Registry) (p : Proxy)
    (h : getSession w node reg = .ok (p, reg')) (b : Backend) (caps : Caps) (st : Stack)
    (hs : makeStack b caps p.addresses p.stack = .ok st) :
    st.cfg.backend = b ∧ st.cfg.caps = caps ∧ ∃ session, at' node ["security", "session"] = some session ∧
      Optional (Millis w) session "ttl_pad" 10000 (st.cfg.ttlPadMs.toNat : Int) ∧
      Optional (Number w 0 65535) session "max_payload_size" 4092 (st.cfg.bufLen : Int) ∧
      ∀ params limits, st.cfg.role = .initiator params limits →
        Optional (Number w 0 65535) session "nonce_renegotiation_trigger_value" 32640 (params.nonceTrigger.toNat : Int) ∧
        Optional (Millis w) session "session_time_renegotiation_trigger_ms" 3540000 (params.sessionTimeTriggerMs.toNat : Int) := by
  obtain ⟨⟨se, h1, hm⟩, -, -⟩ := (session_ok h).1
  obtain ⟨hsk, ss, h2, h3, h4⟩ := hm
  revert h4
  cases hp : p.stack with
  | initiator c keys =>
    rw [hp] at hs
    unfold makeStack at hs
    simp only [bind_ok] at hs
    obtain ⟨x, hx, hs⟩ := hs
    cases hs
    rintro ⟨-, ⟨⟨h5, h6⟩, -, -, h7, h8, -⟩, -⟩
    refine ⟨rfl, rfl, ss, by simp [at', h1, h3], h6, h5, fun params limits hr => ?_⟩
    cases hr
    exact ⟨h7, h8⟩
  | responder c keys =>
    rw [hp] at hs
    unfold makeStack at hs
    simp only [bind_ok] at hs
    obtain ⟨x, hx, hs⟩ := hs
    cases hs
    rintro ⟨-, ⟨h5, h6⟩, -⟩
    refine ⟨rfl, rfl, ss, by simp [at', h1, h3], h6, h5, fun params limits hr => ?_⟩
    cases hr

theorem stackFactory_initiator {w : World} {n : Yaml} {reg reg' : Registry} {a : Option Link.Addresses} {c : InitiatorConfig}
    {k : InitiatorKeys} (h : getStackFactory w n reg = .ok ((a, .initiator c k), reg')) :
    ∃ hs m, at' n ["security", "handshake"] = some hs ∧ getHandshakeMode hs = .ok m ∧ getInitiatorKeys w hs m reg = .ok (k, reg') := by
  unfold getStackFactory at h
  simp only [bind_ok, require_ok, requireBool_ok] at h
  obtain ⟨l, h1, se, h2, t, h3, b, -, h6⟩ := h
  have key : getStack w se t reg = .ok (.initiator c k, reg') := by
    split at h6 <;> simp only [bind_ok] at h6
    · obtain ⟨_, _, _, _, ⟨s', reg1⟩, h9, h10⟩ := h6
      cases h10
      exact h9
    · obtain ⟨⟨s', reg1⟩, h9, h10⟩ := h6
      cases h10
      exact h9
  unfold getStack at key
  simp only [bind_ok, require_ok] at key
  obtain ⟨hs, h7, se', h8, h9⟩ := key
  cases t <;> dsimp only at h9 <;> simp only [bind_ok] at h9
  all_goals
    obtain ⟨c', h10, m, h11, ⟨k', reg1⟩, h12, h13⟩ := h9
    cases h13
  exact ⟨hs, m, by simp [at', h2, h7], h11, h12⟩

/-- **Protection of the session.** With shared secrets, quantum keys or public keys, the initiator asks for the protection
that the file names. (`_partial`: the property is about all types of handshakes, see
`C49_certificate_protection_violation`.) -/
theorem C49_protection_partial (w : World) (node : Yaml) (reg reg' : Registry) (p : Proxy)
    (h : getSession w node reg = .ok (p, reg')) (b : Backend) (caps : Caps) (st : Stack)
    (hs : makeStack b caps p.addresses p.stack = .ok st) (ih : InitiatorHandshake) (hi : st.handshake = some ih)
    (handshake : Yaml) (hh : at' node ["security", "handshake"] = some handshake)
    (ht : ¬ Required Text handshake "type" "certificate") :
    ∃ m, Protection handshake m ∧ ∀ limits ephemeral data, (ih.buildRequest limits ephemeral data).spec.session_crypto_mode = m := by
  have hf := (session_ok h).2.2
  cases hp : p.stack with
  | responder c keys =>
    rw [hp] at hs
    unfold makeStack at hs
    simp only [bind_ok] at hs
    obtain ⟨x, -, hs⟩ := hs
    cases hs
    cases hi
  | initiator c keys =>
    rw [hp] at hf hs
    unfold makeStack at hs
    simp only [bind_ok] at hs
    obtain ⟨x, hx, hs⟩ := hs
    cases hs
    cases hi
    obtain ⟨hsk, m, h1, h2, h3⟩ := stackFactory_initiator hf
    rw [hh] at h1
    cases h1
    obtain ⟨h4, h5, -⟩ := initiatorKeys_ok h2 h3
    refine ⟨_, h5 (fun s a b c hk => ?_), fun _ _ _ => (makeInitiator_ok hx).2.1⟩
    subst hk
    exact ht h4.1

theorem keyFile_unique {w : World} {path : String} {t : ContainerEntryType} {a b : Bytes} (h : KeyFile w path t a)
    (h' : KeyFile w path t b) : a = b := by
  obtain ⟨d, h1, -, -, h2⟩ := h
  obtain ⟨d', h3, -, -, h4⟩ := h'
  rw [h1] at h3
  cases h3
  rw [h2] at h4
  cases h4
  rfl

theorem key_unique {w : World} {n : Yaml} {k : String} {t : ContainerEntryType} {a b : Bytes} (h : Key w n k t a)
    (h' : Key w n k t b) : a = b := by
  obtain ⟨p, h1, h2⟩ := h
  obtain ⟨p', h3, h4⟩ := h'
  cases required_unique (P := Text) (fun m x y h h' => by cases h; cases h'; rfl) h1 h3
  exact keyFile_unique h2 h4

theorem type_unique {n : Yaml} {a b : String} (h : Required Text n "type" a) (h' : Required Text n "type" b) : a = b :=
  required_unique (P := Text) (fun m x y h h' => by cases h; cases h'; rfl) h h'

/-- **Mirrored files agree on sessions.** An initiator and a responder whose files name containers with the same shared
secret agree on a session in every handshake, with the protection and the limits that the file of the initiator names. -/
theorem C49_mirrored_secrets (w w' : World) (n n' : Yaml) (r r' q q' : Registry) (p p' : Proxy)
    (h : getSession w n r = .ok (p, r')) (h' : getSession w' n' q = .ok (p', q')) (b : Backend) (hb : b.Lawful) (caps : Caps)
    (st st' : Stack) (hs : makeStack b caps p.addresses p.stack = .ok st)
    (hs' : makeStack b caps p'.addresses p'.stack = .ok st') (handshake handshake' : Yaml)
    (hh : at' n ["security", "handshake"] = some handshake) (hh' : at' n' ["security", "handshake"] = some handshake')
    (ht : Required Text handshake "type" "shared_secret") (ht' : Required Text handshake' "type" "shared_secret")
    (secret : Bytes) (hk : Key w handshake "shared_secret_key_path" .shared_secret secret)
    (hk' : Key w' handshake' "shared_secret_key_path" .shared_secret secret)
    (hi : ∃ security, entry n "security" = some security ∧ Required Text security "mode" "initiator")
    (hr : ∃ security, entry n' "security" = some security ∧ Required Text security "mode" "responder") :
    ∃ ih params limits rh suite, st.handshake = some ih ∧ st.cfg.role = .initiator params limits ∧ st'.cfg.role = .responder rh ∧
      Protection handshake suite.session_crypto_mode ∧
      ∀ (rndI rndR : Bytes), rndI.length = 32 → rndR.length = 32 → ∀ record ih1 eph data,
        ih.initializeNew b rndI record = (ih1, some (eph, data)) → ∀ cap reqBytes,
        (ih1.buildRequest limits eph data).write cap = .ok reqBytes → ∀ lookup (t0 now1 now2 : Int), t0 ≤ now2 →
        ∀ sI sR stI stR, ∃ sI' sR', SSP21.Spec.Exchange b caps ih1 rh limits reqBytes lookup rndR t0 now1 now2 st'.cfg.fw
            sI sR stI stR sI' sR' ∧ SSP21.Spec.Agree b suite limits sI' sR' := by
  have orThrow_ok : ∀ {α : Type} {o : Option α} {a : α}, orThrow o = .ok a → o = some a := by
    intro α o a ho
    cases o <;> simp [orThrow] at ho
    rw [ho]
  have mode : ∀ {n : Yaml} {x y : String}, (∃ security, entry n "security" = some security ∧ Required Text security "mode" x) →
      (∃ security, entry n "security" = some security ∧ Required Text security "mode" y) → x = y := by
    rintro n x y ⟨s, h1, h2⟩ ⟨s', h3, h4⟩
    rw [h1] at h3
    cases h3
    exact required_unique (P := Text) (fun m x y h h' => by cases h; cases h'; rfl) h2 h4
  have hf := (session_ok h).2.2
  obtain ⟨⟨se, e1, hsk, ss, e2, e3, e4⟩, -, -⟩ := (session_ok h).1
  obtain ⟨⟨se', e1', hsk', ss', e2', e3', e4'⟩, -, -⟩ := (session_ok h').1
  have hh : some hsk = some handshake := by rw [← hh]; simp [at', e1, e2]
  have hh' : some hsk' = some handshake' := by rw [← hh']; simp [at', e1', e2']
  cases hh
  cases hh'
  have hfw : st'.cfg.fw.maxPayload = 4092 := by
    rw [(makeStack_link hs').1]
    cases p'.addresses <;> rfl
  cases hp : p.stack with
  | responder c keys =>
    rw [hp] at e4
    exact absurd (mode hi ⟨se, e1, e4.1⟩) (by simp)
  | initiator c keys =>
    cases hp' : p'.stack with
    | initiator c' keys' =>
      rw [hp'] at e4'
      exact absurd (mode hr ⟨se', e1', e4'.1⟩) (by simp)
    | responder c' keys' =>
      rw [hp] at e4 hf hs
      rw [hp'] at e4' hs'
      unfold makeStack at hs hs'
      simp only [bind_ok] at hs hs'
      obtain ⟨x, hx, hs⟩ := hs
      obtain ⟨x', hx', hs'⟩ := hs'
      cases hs
      cases hs'
      obtain ⟨hk1, m, f1, f2, f3⟩ := stackFactory_initiator hf
      rw [hh] at f1
      cases f1
      have hprot := (initiatorKeys_ok f2 f3).2.1
      cases keys with
      | qkd s st => exact absurd (type_unique ht e4.2.2.1) (by simp)
      | preshared s k r => exact absurd (type_unique ht e4.2.2.1) (by simp)
      | certificates s k a c => exact absurd (type_unique ht e4.2.2.1) (by simp)
      | sharedSecret suite key =>
        cases keys' with
        | qkd s => exact absurd (type_unique ht' e4'.2.2.1) (by simp)
        | preshared k r => exact absurd (type_unique ht' e4'.2.2.1) (by simp)
        | certificates k a c => exact absurd (type_unique ht' e4'.2.2.1) (by simp)
        | sharedSecret key' =>
          cases hx'
          have k1 : key = secret := key_unique e4.2.2.2 hk
          have k2 : key' = secret := key_unique e4'.2.2.2 hk'
          subst k1
          subst k2
          refine ⟨x, _, _, _, suite, rfl, rfl, rfl, hprot (by simp), ?_⟩
          intro rndI rndR hI hR record ih1 eph data hinit cap reqBytes hw lookup t0 now1 now2 hle sI sR stI stR
          obtain ⟨sI', sR', g1, g2, -⟩ := C24_shared_secret b hb caps suite key' x ih1 (orThrow_ok hx) rndI rndR hI hR record
            eph data hinit _ cap reqBytes hw lookup t0 now1 now2 hle _ (by rw [hfw]; decide) sI sR stI stR
          exact ⟨sI', sR', g1, g2⟩

/-- **The code violates the property for certificates**: an initiator with certificates always asks for
`hmac_sha256_16` (which does not encrypt), whatever the file names. -/
theorem C49_certificate_protection_violation (w : World) (node : Yaml) (reg reg' : Registry) (p : Proxy)
    (h : getSession w node reg = .ok (p, reg')) (b : Backend) (caps : Caps) (st : Stack)
    (hs : makeStack b caps p.addresses p.stack = .ok st) (ih : InitiatorHandshake) (hi : st.handshake = some ih)
    (handshake : Yaml) (hh : at' node ["security", "handshake"] = some handshake)
    (ht : Required Text handshake "type" "certificate") :
    ∀ limits ephemeral data, (ih.buildRequest limits ephemeral data).spec.session_crypto_mode = .hmac_sha256_16 := by
  have hf := (session_ok h).2.2
  cases hp : p.stack with
  | responder c keys =>
    rw [hp] at hs
    unfold makeStack at hs
    simp only [bind_ok] at hs
    obtain ⟨x, -, hs⟩ := hs
    cases hs
    cases hi
  | initiator c keys =>
    rw [hp] at hf hs
    unfold makeStack at hs
    simp only [bind_ok] at hs
    obtain ⟨x, hx, hs⟩ := hs
    cases hs
    cases hi
    obtain ⟨hsk, m, h1, h2, h3⟩ := stackFactory_initiator hf
    rw [hh] at h1
    cases h1
    have hm : m = .industrial_certificates := by
      obtain ⟨_, e1, e2⟩ := ht
      cases e2
      rcases handshakeMode_ok h2 with ⟨-, _, e3, e4⟩ | ⟨-, _, e3, e4⟩ | ⟨-, _, e3, e4⟩ | ⟨rfl, -⟩
      · cases e4; rw [e1] at e3; simp at e3
      · cases e4; rw [e1] at e3; simp at e3
      · cases e4; rw [e1] at e3; simp at e3
      · rfl
    subst hm
    unfold getInitiatorKeys at h3
    simp only [bind_ok] at h3
    obtain ⟨_, _, _, _, _, _, _, _, h4⟩ := h3
    cases h4
    exact fun _ _ _ => (makeInitiator_ok hx).2.1

/-! ### stores of quantum keys -/

/-- The store was handed out. -/
def Bound (reg : Registry) (s : String × UInt16) : Prop :=
  ∃ source, reg.find? (·.1 = s.1) = some (s.1, source) ∧ ∃ x ∈ source.subscribers, x.1 = s.2

theorem find_map {reg : Registry} {id : String} {source' : Qix.Router} {id' : String} {source : Qix.Router}
    (h : reg.find? (·.1 = id') = some (id', source)) :
    (reg.map fun x => if x.1 = id then (x.1, source') else x).find? (·.1 = id') =
      some (id', if id' = id then source' else source) := by
  induction reg with
  | nil => cases h
  | cons x reg ih =>
    obtain ⟨i, r⟩ := x
    by_cases hi : i = id'
    · subst hi
      simp at h
      subst h
      by_cases hd : i = id <;> simp [hd]
    · rw [List.find?_cons_of_neg (by simpa using hi)] at h
      rw [List.map_cons, List.find?_cons_of_neg (by split <;> simpa using hi)]
      exact ih h

theorem bind_sub {r r' : Qix.Router} {i m : UInt16} (h : r.bind i m = some r') :
    (∀ x ∈ r.subscribers, x.1 ≠ i) ∧ r'.subscribers = r.subscribers ++ [(i, ⟨m, []⟩)] := by
  unfold Qix.Router.bind at h
  split at h
  · cases h
  · rename_i hn
    cases h
    exact ⟨fun x hx he => hn (by simp only [List.any_eq_true, decide_eq_true_eq]; exact ⟨x, hx, he⟩), rfl⟩

theorem bindKeyStore_bound {w : World} {n : Yaml} {reg reg' : Registry} {s : String × UInt16}
    (h : bindKeyStore w n reg = .ok (s, reg')) : ¬ Bound reg s ∧ Bound reg' s ∧ ∀ t, Bound reg t → Bound reg' t := by
  obtain ⟨-, source, source', m, h1, h2, rfl⟩ := bindKeyStore_ok h
  obtain ⟨h3, h4⟩ := bind_sub h2
  refine ⟨?_, ?_, ?_⟩
  · rintro ⟨so, h5, x, h6, h7⟩
    rw [h1] at h5
    cases h5
    exact h3 x h6 h7
  · refine ⟨source', ?_, (s.2, ⟨m, []⟩), by simp [h4], rfl⟩
    rw [find_map h1, if_pos rfl]
  · rintro t ⟨so, h5, x, h6, h7⟩
    refine ⟨_, find_map h5, ?_⟩
    split
    · rename_i ht
      rw [ht] at h5
      rw [h1] at h5
      cases h5
      exact ⟨x, by simp [h4, h6], h7⟩
    · exact ⟨x, h6, h7⟩

theorem keys_bound {w : World} {n : Yaml} {reg reg' : Registry} {m : HandshakeMode} :
    (∀ k, getInitiatorKeys w n m reg = .ok (k, reg') →
      (∀ s, (match k with | .qkd _ s => some s | _ => none) = some s → ¬ Bound reg s ∧ Bound reg' s) ∧ ∀ t, Bound reg t → Bound reg' t) ∧
    (∀ k, getResponderKeys w n m reg = .ok (k, reg') →
      (∀ s, (match k with | .qkd s => some s | _ => none) = some s → ¬ Bound reg s ∧ Bound reg' s) ∧ ∀ t, Bound reg t → Bound reg' t) := by
  constructor
  all_goals
    intro k h
    first | unfold getInitiatorKeys at h | unfold getResponderKeys at h
    cases m <;> dsimp only at h <;> try simp only [bind_ok] at h
  case left.shared_secret =>
    obtain ⟨_, _, _, _, _, _, h⟩ := h
    cases h
    exact ⟨by simp, fun _ h => h⟩
  case left.public_keys =>
    obtain ⟨_, _, _, _, _, _, _, _, h⟩ := h
    cases h
    exact ⟨by simp, fun _ h => h⟩
  case left.industrial_certificates =>
    obtain ⟨_, _, _, _, _, _, _, _, h⟩ := h
    cases h
    exact ⟨by simp, fun _ h => h⟩
  case left.quantum_key_distribution =>
    obtain ⟨⟨s, r⟩, h1, _, _, h⟩ := h
    cases h
    obtain ⟨a, b, c⟩ := bindKeyStore_bound h1
    exact ⟨fun s' hs => by cases hs; exact ⟨a, b⟩, c⟩
  case left.undefined => cases h
  case right.shared_secret =>
    obtain ⟨_, _, _, _, h⟩ := h
    cases h
    exact ⟨by simp, fun _ h => h⟩
  case right.public_keys =>
    obtain ⟨_, _, _, _, _, _, h⟩ := h
    cases h
    exact ⟨by simp, fun _ h => h⟩
  case right.industrial_certificates =>
    obtain ⟨_, _, _, _, _, _, h⟩ := h
    cases h
    exact ⟨by simp, fun _ h => h⟩
  case right.quantum_key_distribution =>
    obtain ⟨⟨s, r⟩, h1, h⟩ := h
    cases h
    obtain ⟨a, b, c⟩ := bindKeyStore_bound h1
    exact ⟨fun s' hs => by cases hs; exact ⟨a, b⟩, c⟩
  case right.undefined => cases h

theorem stackFactory_bound {w : World} {n : Yaml} {reg reg' : Registry} {a : Option Link.Addresses} {s : StackSpec}
    (h : getStackFactory w n reg = .ok ((a, s), reg')) :
    (∀ t, Spec.store s = some t → ¬ Bound reg t ∧ Bound reg' t) ∧ ∀ t, Bound reg t → Bound reg' t := by
  unfold getStackFactory at h
  simp only [bind_ok, require_ok, requireBool_ok] at h
  obtain ⟨l, h1, se, h2, t, h3, b, -, h6⟩ := h
  have key : getStack w se t reg = .ok (s, reg') := by
    split at h6 <;> simp only [bind_ok] at h6
    · obtain ⟨_, _, _, _, ⟨s', reg1⟩, h9, h10⟩ := h6
      cases h10
      exact h9
    · obtain ⟨⟨s', reg1⟩, h9, h10⟩ := h6
      cases h10
      exact h9
  unfold getStack at key
  simp only [bind_ok, require_ok] at key
  obtain ⟨hs, h7, se', h8, h9⟩ := key
  cases t <;> dsimp only at h9 <;> simp only [bind_ok] at h9
  all_goals
    obtain ⟨c', h10, m, h11, ⟨k', reg1⟩, h12, h13⟩ := h9
    cases h13
  · obtain ⟨a, b⟩ := keys_bound.1 _ h12
    refine ⟨fun t ht => a t ?_, b⟩
    cases k' <;> exact ht
  · obtain ⟨a, b⟩ := keys_bound.2 _ h12
    refine ⟨fun t ht => a t ?_, b⟩
    cases k' <;> exact ht

theorem readSessions_bound {w : World} {l : List Yaml} {reg reg' : Registry} {ps : List Proxy}
    (h : readSessions w l reg = .ok (ps, reg')) :
    (ps.filterMap fun p => Spec.store p.stack).Nodup ∧ (∀ s ∈ ps.filterMap fun p => Spec.store p.stack, ¬ Bound reg s ∧ Bound reg' s) ∧
    ∀ t, Bound reg t → Bound reg' t := by
  induction l generalizing reg ps with
  | nil =>
    cases h
    exact ⟨List.nodup_nil, by simp, fun _ h => h⟩
  | cons n l ih =>
    unfold readSessions at h
    simp only [bind_ok] at h
    obtain ⟨⟨p, r1⟩, h1, ⟨ps', r2⟩, h2, h3⟩ := h
    cases h3
    obtain ⟨a, b, c⟩ := ih h2
    obtain ⟨d, e⟩ := stackFactory_bound (session_ok h1).2.2
    rw [List.filterMap_cons]
    cases hs : Spec.store p.stack with
    | none => exact ⟨a, fun s hm => ⟨fun hb => (b s hm).1 (e s hb), (b s hm).2⟩, fun t ht => c t (e t ht)⟩
    | some t =>
      obtain ⟨f, g⟩ := d t hs
      refine ⟨List.nodup_cons.2 ⟨fun hm => (b t hm).1 g, a⟩, fun s hm => ?_, fun t ht => c t (e t ht)⟩
      rcases List.mem_cons.1 hm with rfl | hm
      · exact ⟨f, c _ g⟩
      · exact ⟨fun hb => (b s hm).1 (e s hb), (b s hm).2⟩

/-- **No two proxies share quantum keys**: the stores of the proxies of an accepted file are pairwise different, and each
is registered with the source that the file names. -/
theorem C49_stores_distinct (w : World) (root : Yaml) (ps : List Proxy) (reg : Registry) (h : read w root = .ok (ps, reg)) :
    (ps.filterMap fun p => Spec.store p.stack).Nodup ∧
    ∀ p ∈ ps, ∀ s, Spec.store p.stack = some s → ∃ source, (s.1, source) ∈ reg ∧ ∃ x ∈ source.subscribers, x.1 = s.2 := by
  obtain ⟨qs, ss, reg0, -, h2, -, h4, h5⟩ := read_ok h
  obtain ⟨a, b, -⟩ := readSessions_bound h4
  refine ⟨a, fun p hp s hs => ?_⟩
  obtain ⟨-, source, h6, h7⟩ := b s (List.mem_filterMap.2 ⟨p, hp, hs⟩)
  exact ⟨source, List.mem_of_find?_eq_some h6, h7⟩

end SSP21.Config
