import Verif.Props.ConfigTotal
import Verif.LayerExample
import Verif.Props.Chain
/-
  C49: concrete configuration files, and where the code does not do what the file says.
-/
namespace SSP21.Config
open Tool (Outcome)
open Spec

namespace Example

/-- A container with a key of 32 bytes. -/
def container (t : ContainerEntryType) : Bytes :=
  match ContainerFile.codec.write ⟨t, List.replicate 32 7⟩ 4096 with
  | .ok d => d
  | .error _ => []

def world : World where
  int
    | "0" => some 0 | "1" => some 1 | "2" => some 2 | "5" => some 5 | "7" => some 7 | "10" => some 10 | "59" => some 59 | "100" => some 100
    | "4096" => some 4096 | "9600" => some 9600 | "20000" => some 20000 | "20001" => some 20001 | "32700" => some 32700
    | "32768" => some 32768 | "70000" => some 70000 | "2562047" => some 2562047 | "2562048" => some 2562048 | _ => none
  bool
    | "true" => some true | "false" => some false | _ => none
  file
    | "secret" => some (container .shared_secret) | "public" => some (container .x25519_public_key)
    | "private" => some (container .x25519_private_key) 
    | "anchor" => some (SSP21.Spec.container ⟨.certificate_chain, SSP21.Spec.chain [⟨[], SSP21.Spec.certificateBody ChainExample.anchor⟩]⟩)
    | "chain" => some (SSP21.Spec.container ⟨.certificate_chain, SSP21.Spec.chain
        [ChainExample.issue ChainExample.mid ChainExample.anchor, ChainExample.issue ChainExample.leaf ChainExample.mid]⟩)
    | _ => none

def time (v u : String) : Yaml := .map [("value", .scalar v), ("unit", .scalar u)]
def endpoint (port : String) : Yaml := .map [("address", .scalar "127.0.0.1"), ("port", .scalar port)]

/-- The session section of config/proxy/shared_secret/tcp/initiator.yml. -/
def session (duration : Yaml) : Yaml :=
  .map [("max_payload_size", .scalar "4096"), ("ttl_pad", time "10" "seconds"), ("max_nonce_value", .scalar "32768"),
    ("nonce_renegotiation_trigger_value", .scalar "32700"), ("max_session_duration", duration),
    ("session_time_renegotiation_trigger", time "59" "minutes")]

def sharedSecret : List (String × Yaml) :=
  [("type", .scalar "shared_secret"), ("shared_secret_key_path", .scalar "secret")]
def certificate : List (String × Yaml) :=
  [("type", .scalar "certificate"), ("local_public_key_path", .scalar "public"), ("local_private_key_path", .scalar "private"),
   ("authority_cert_path", .scalar "anchor"), ("local_cert_path", .scalar "chain")]
def qkd (subscriber : String) : List (String × Yaml) :=
  [("type", .scalar "qkd"), ("key_source_id", .scalar "source1"), ("subscriber_id", .scalar subscriber),
   ("max_key_cache_size", .scalar "100")]

def handshake (mode : String) (response : Yaml) (keys : List (String × Yaml)) : Yaml :=
  .map ([("algorithms", .map [("session_crypto_mode", .scalar mode)]), ("response_timeout", response),
    ("retry_timeout", time "5" "seconds")] ++ keys)

/-- An item of `sessions`. -/
def item (role loc remote : String) (session handshake : Yaml) : Yaml :=
  .map [("id", .scalar "session1"), ("levels", .scalar "iwemf"),
    ("link_layer", .map [("enabled", .scalar "true"), ("address", .map [("local", .scalar loc), ("remote", .scalar remote)])]),
    ("security", .map [("mode", .scalar role), ("session", session), ("handshake", handshake)]),
    ("transport", .map [("type", .scalar "tcp"), ("max_sessions", .scalar "1"), ("listen", endpoint "20000"),
      ("connect", endpoint "20001")])]

def source (n : String) : Yaml :=
  .map [("qkd_source_id", .scalar "source1"), ("type", .scalar "qix"), ("num_subscribers", .scalar n),
    ("metrics", .map [("bin_size", .scalar "10"), ("update_period", time "5" "seconds")]),
    ("serial", .map [("device", .scalar "/dev/pts/2"), ("baud", .scalar "9600"), ("data_bits", .scalar "5"),
      ("flow_control", .scalar "none"), ("stop_bits", .scalar "one")])]

def root (sources sessions : List Yaml) : Yaml := .map [("qkd_sources", .seq sources), ("sessions", .seq sessions)]

/-- The shipped file config/proxy/shared_secret/tcp/initiator.yml. -/
def shipped : Yaml :=
  root [] [item "initiator" "10" "1" (session (time "1" "hours")) (handshake "hmac_sha256_16" (time "2" "seconds") sharedSecret)]

/-- What the proxy makes of it. -/
def proxy : Proxy :=
  ⟨some ⟨1, 10⟩, .initiator ⟨⟨4096, 10000⟩, 32768, 3600000, 32700, 3540000, 2000000000, 5000000000⟩
    (.sharedSecret defaultSuite (List.replicate 32 7)), .tcp 1 ⟨"127.0.0.1", 20000⟩ ⟨"127.0.0.1", 20001⟩⟩

end Example

open Example

def proxies : Outcome (List Proxy × Registry) → Option (List Proxy)
  | .ok (ps, _) => some ps
  | _ => none

theorem shipped_read : proxies (read world shipped) = some [proxy] := by decide +kernel

/-- The shipped file satisfies the hypothesis of `C49_file_means`, `C49_tcp_has_link` and `C49_stores_distinct`. -/
theorem shipped_accepted : ∃ reg, read world shipped = .ok ([proxy], reg) := by
  have h := shipped_read
  unfold proxies at h
  split at h
  · rename_i ps reg hr
    cases h
    exact ⟨reg, hr⟩
  · cases h

/-- Its times fit, as `C49_reading_safe_partial` requires; here for the parts that are times. -/
example : ∀ ns, Time world (time "1" "hours") ns → int64 ns := by
  rintro ns ⟨a, v, u, k, h1, ⟨s, h2, h3, -⟩, h5, h6, rfl⟩
  cases h1
  cases h2
  cases h5
  cases h3
  simp only [units, List.mem_cons, Prod.mk.injEq, List.not_mem_nil, or_false] at h6
  rcases h6 with ⟨h, -⟩ | ⟨h, -⟩ | ⟨h, -⟩ | ⟨-, rfl⟩
  · simp at h
  · simp at h
  · simp at h
  · unfold int64; omega

/-- A number out of range is refused, and so is a key of the wrong type. -/
example : (match getInitiatorConfig world (.map []) (.map [("max_nonce_value", .scalar "70000")]) with
    | .throw => true | _ => false) = true := by decide +kernel
example : (match getCryptoKey world "public" .x25519_private_key with | .throw => true | _ => false) = true := by decide +kernel
example : (match getCryptoKey world "private" .x25519_private_key with | .ok k => decide (k = List.replicate 32 7) | _ => false) = true := by
  decide +kernel

def stackOf (b : Backend) (caps : Caps) : Option (List Proxy) → Option (Crypto.Role × SessionCryptoMode × Link.Addresses)
  | some [p] => match makeStack b caps p.addresses p.stack with
    | .ok st => match st.handshake, p.addresses with
      | some h, some a => some (st.cfg.role, h.suite.session_crypto_mode, a)
      | _, _ => none
    | _ => none
  | _ => none

theorem stackOf_some {b : Backend} {caps : Caps} {w : World} {n : Yaml} {x : Crypto.Role × SessionCryptoMode × Link.Addresses}
    (h : stackOf b caps (proxies (read w (root [] [n]))) = some x) :
    ∃ p reg st ih, getSession w n [] = .ok (p, reg) ∧ makeStack b caps p.addresses p.stack = .ok st ∧ st.handshake = some ih ∧
      ih.suite.session_crypto_mode = x.2.1 ∧ p.addresses = some x.2.2 := by
  unfold stackOf at h
  split at h
  · rename_i p hp
    unfold proxies at hp
    split at hp
    · rename_i ps reg hr
      cases hp
      have hr : (do
        let (ps, reg) ← readSessions w [n] []
        if ps.isEmpty then Outcome.throw else .ok (ps, reg)) = .ok ([p], reg) := hr
      simp only [bind_ok, readSessions] at hr
      obtain ⟨⟨ps', reg'⟩, ⟨⟨p', reg1⟩, h1, ⟨ps2, reg2⟩, h2, h3⟩, h4⟩ := hr
      cases h2
      cases h3
      dsimp only at h4
      split at h4
      · cases h4
      cases h4
      split at h
      · split at h
        · cases h
          exact ⟨p, _, _, _, h1, ‹_›, ‹_›, rfl, ‹_›⟩
        · cases h
      · cases h
    · cases hp
  · cases h

/-- The stack of the shipped file, and one of a responder with the mirrored addresses: hypotheses of `C49_addresses`,
`C49_mirrored`, `C49_request` and `C49_protection_partial`. -/
example : ∃ p reg st ih, getSession world (item "initiator" "10" "1" (session (time "1" "hours"))
      (handshake "aes_256_gcm" (time "2" "seconds") sharedSecret)) [] = .ok (p, reg) ∧
    makeStack Toy.strong Crypto.LayerExample.caps p.addresses p.stack = .ok st ∧ st.handshake = some ih ∧
    ih.suite.session_crypto_mode = .aes_256_gcm ∧ p.addresses = some ⟨1, 10⟩ :=
  stackOf_some (x := (_, .aes_256_gcm, ⟨1, 10⟩)) (w := world)
    (n := item "initiator" "10" "1" (session (time "1" "hours")) (handshake "aes_256_gcm" (time "2" "seconds") sharedSecret))
    (b := Toy.strong) (caps := Crypto.LayerExample.caps) rfl

example : Spec.Link world (item "initiator" "10" "1" (session .null) .null) 10 1 ∧
    Spec.Link world (item "responder" "1" "10" (session .null) .null) 1 10 := by
  constructor <;> refine ⟨_, _, rfl, rfl, rfl, ⟨_, rfl, _, rfl, rfl, ?_, ?_⟩, _, rfl, _, rfl, rfl, ?_, ?_⟩ <;> decide

/-- The hypotheses of `C49_mirrored_secrets` and `C49_keys_in_use`: two files with the same secret. -/
example : let hs := handshake "aes_256_gcm" (time "2" "seconds") sharedSecret
    let n := item "initiator" "10" "1" (session (time "1" "hours")) hs
    let n' := item "responder" "1" "10" (session (time "1" "hours")) hs
    (∃ p reg, getSession world n [] = .ok (p, reg) ∧ ∃ st, makeStack Toy.strong Crypto.LayerExample.caps p.addresses p.stack = .ok st) ∧
    (∃ p reg, getSession world n' [] = .ok (p, reg) ∧ ∃ st, makeStack Toy.strong Crypto.LayerExample.caps p.addresses p.stack = .ok st) ∧
    at' n ["security", "handshake"] = some hs ∧ at' n' ["security", "handshake"] = some hs ∧
    Required Text hs "type" "shared_secret" ∧ Key world hs "shared_secret_key_path" .shared_secret (List.replicate 32 7) :=
  ⟨⟨_, _, rfl, _, rfl⟩, ⟨_, _, rfl, _, rfl⟩, rfl, rfl, ⟨_, rfl, rfl⟩, _, ⟨_, rfl, rfl⟩, _, rfl, by decide +kernel, by decide +kernel, by rfl⟩

/-! ### where the code does not do what the file says -/

/-- The settings of the session that an initiator reads. -/
def Spec.known : List String :=
  ["max_payload_size", "ttl_pad", "max_nonce_value", "max_session_time_ms", "nonce_renegotiation_trigger_value",
   "session_time_renegotiation_trigger_ms"]

theorem get_cons {k key : String} {v : Yaml} {es : List (String × Yaml)} (h : k ≠ key) :
    Yaml.get (.map ((k, v) :: es)) key = Yaml.get (.map es) key := by
  simp [Yaml.get, find, h]

/-- **Unknown settings are ignored**: a misspelt setting is not refused, the default is used instead. -/
theorem C49_unknown_settings_violation (w : World) (handshake : Yaml) (es : List (String × Yaml)) (k : String) (v : Yaml)
    (hk : k ∉ Spec.known) :
    getInitiatorConfig w handshake (.map ((k, v) :: es)) = getInitiatorConfig w handshake (.map es) := by
  simp only [Spec.known, List.mem_cons, List.not_mem_nil, or_false, not_or] at hk
  obtain ⟨h1, h2, h3, h4, h5, h6⟩ := hk
  unfold getInitiatorConfig getLayerConfig getOptionalMs optionalUInt16 optionalUInt32
  unfold optionalDuration
  simp only [get_cons h1, get_cons h2, get_cons h3, get_cons h4, get_cons h5, get_cons h6]

/-- **The code violates the property for the shipped files**: all of them limit the sessions by `max_session_duration`, and
whatever is written there, sessions may last an hour. -/
theorem C49_session_duration_violation (duration : Yaml) :
    ∃ reg, read world (root [] [item "initiator" "10" "1" (session duration)
      (handshake "hmac_sha256_16" (time "2" "seconds") sharedSecret)]) = .ok ([proxy], reg) := by
  refine ⟨[], ?_⟩
  rfl

/-- The hypotheses of `C49_certificate_protection_violation` are met by a file that asks for encryption. -/
example : let n := item "initiator" "10" "1" (session (time "1" "hours")) (handshake "aes_256_gcm" (time "2" "seconds") certificate)
    (∃ p reg st ih, getSession world n [] = .ok (p, reg) ∧
      makeStack Toy.backend ChainExample.caps p.addresses p.stack = .ok st ∧ st.handshake = some ih) ∧
    ∃ h, at' n ["security", "handshake"] = some h ∧ Required Text h "type" "certificate" ∧ Protection h .aes_256_gcm := by
  intro n
  refine ⟨?_, _, rfl, ⟨_, rfl, rfl⟩, _, rfl, by decide⟩
  have h : (stackOf Toy.backend ChainExample.caps (proxies (read world (root [] [n])))).isSome = true := by decide +kernel
  obtain ⟨x, hx⟩ := Option.isSome_iff_exists.1 h
  obtain ⟨p, reg, st, ih, h1, h2, h3, -⟩ := stackOf_some hx
  exact ⟨p, reg, st, ih, h1, h2, h3⟩

/-- **Undefined behaviour**: a time of 2562048 hours overflows, 2562047 hours do not. -/
theorem C49_overflow_violation :
    read world (root [] [item "initiator" "10" "1" (session .null)
      (handshake "hmac_sha256_16" (time "2562048" "hours") sharedSecret)]) = .fault ∧
    ∃ r, read world (root [] [item "initiator" "10" "1" (session .null)
      (handshake "hmac_sha256_16" (time "2562047" "hours") sharedSecret)]) = .ok r :=
  ⟨rfl, _, rfl⟩

/-- What happens to a source of quantum keys. -/
abbrev Spec.Run (n : UInt16) (ops : List Qix.Spec.SourceOp) (log : List Qix.Spec.SourceEntry) : Prop :=
  ∃ r, Qix.Spec.sourceRun ⟨n, []⟩ ops = some (r, log)

/-- **A subscriber beyond the number of subscribers is accepted and never gets a key**, whatever the source delivers: the
proxy never establishes a session. -/
theorem C49_subscriber_range_violation :
    (∃ ps reg, read world (root [source "1"] [item "initiator" "10" "1" (session .null)
      (handshake "hmac_sha256_16" (time "2" "seconds") (qkd "1"))]) = .ok (ps, reg) ∧
      ∃ p ∈ ps, Spec.store p.stack = some ("source1", 1)) ∧
    ∀ (n user : UInt16), n ≠ 0 → n ≤ user → ∀ ops log, Spec.Run n ops log → ∀ id key, Qix.Spec.SourceEntry.returned user id key ∉ log := by
  refine ⟨⟨_, _, rfl, _, List.mem_cons_self, rfl⟩, ?_⟩
  rintro n user hn h ops log ⟨r, hr⟩ id key hm
  obtain ⟨a, b, rfl⟩ := List.append_of_mem hm
  have := (Qix.C27_one_user n ops r _ hr a b user id key rfl).1
  have hlt : id.toNat % n.toNat < n.toNat := by
    apply Nat.mod_lt
    have : n.toNat ≠ 0 := fun h0 => hn (UInt16.toNat_inj.1 (by simpa using h0))
    omega
  have : n.toNat ≤ user.toNat := h
  omega

/-- **A source without subscribers is accepted**, and the first good key that it delivers is a division by zero. -/
theorem C49_zero_subscribers_violation :
    (∃ ps reg, read world (root [source "0"] [item "initiator" "10" "1" (session .null)
      (handshake "hmac_sha256_16" (time "2" "seconds") (qkd "0"))]) = .ok (ps, reg) ∧
      ∃ source, ("source1", source) ∈ reg ∧ ∀ (id : UInt64) (key : Bytes), key.length = 32 →
        source.handle ⟨id, key, .ok⟩ = .fault) := by
  refine ⟨_, _, rfl, _, List.mem_cons_self, fun id key hk => ?_⟩
  unfold Qix.Router.handle
  rw [if_neg (by simp), if_neg (by simp [hk])]
  rfl

/-- Two proxies with the same store are refused, with different ones they are accepted. -/
example : read world (root [source "2"] [item "initiator" "10" "1" (session .null) (handshake "hmac_sha256_16" (time "2" "seconds") (qkd "0")),
      item "responder" "10" "1" (session .null) (handshake "hmac_sha256_16" (time "2" "seconds") (qkd "0"))]) = .throw ∧
    ∃ r, read world (root [source "2"] [item "initiator" "10" "1" (session .null)
        (handshake "hmac_sha256_16" (time "2" "seconds") (qkd "0")),
      item "responder" "10" "1" (session .null) (handshake "hmac_sha256_16" (time "2" "seconds") (qkd "1"))]) = .ok r :=
  ⟨rfl, _, rfl⟩

end SSP21.Config
