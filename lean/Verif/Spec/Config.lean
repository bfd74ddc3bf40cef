import Verif.Config
/-
  What the settings of a configuration file mean, independently of the reader: the relation between a section of the file
  and the value that a user expects.
-/
namespace SSP21.Config.Spec

/-- The entry of a section with the given name (the first one, if there are several). -/
def entry (node : Yaml) (key : String) : Option Yaml :=
  match node with
  | .map es => (es.find? (·.1 = key)).map (·.2)
  | _ => none

/-- The entry at the end of a path. -/
def at' (node : Yaml) : List String → Option Yaml
  | [] => some node
  | k :: ks => (entry node k).bind (at' · ks)

/-- A section must not be a plain text (an empty section is allowed). -/
def IsSection (node : Yaml) : Prop := ∀ s, node ≠ .scalar s

/-- The node is a text. -/
def Text (node : Yaml) (s : String) : Prop := node = .scalar s

/-- The node is a whole number within bounds. -/
def Number (w : World) (lo hi : Int) (node : Yaml) (v : Int) : Prop :=
  ∃ s, node = .scalar s ∧ w.int s = some v ∧ lo ≤ v ∧ v ≤ hi

/-- The units of time, in nanoseconds. -/
def units : List (String × Int) :=
  [("milliseconds", 1000000), ("seconds", 1000 * 1000000), ("minutes", 60 * 1000 * 1000000), ("hours", 60 * 60 * 1000 * 1000000)]

/-- What fits into 64 bits. -/
def int64 (n : Int) : Prop := -2 ^ 63 ≤ n ∧ n < 2 ^ 63

/-- A time: a section with a value and a unit. -/
def Time (w : World) (node : Yaml) (ns : Int) : Prop :=
  ∃ a v u k, entry node "value" = some a ∧ Number w (-2 ^ 63) (2 ^ 63 - 1) a v ∧ entry node "unit" = some (.scalar u) ∧
    (u, k) ∈ units ∧ ns = v * k

/-- A time of whole milliseconds. -/
def Millis (w : World) (node : Yaml) (ms : Int) : Prop := Time w node (ms * 1000000) ∧ 0 ≤ ms ∧ ms < 2 ^ 32

/-- An entry that must be there. -/
def Required (P : Yaml → α → Prop) (sect : Yaml) (key : String) (v : α) : Prop := ∃ n, entry sect key = some n ∧ P n v

/-- An entry that may be there, with the value that is used otherwise. -/
def Optional (P : Yaml → α → Prop) (sect : Yaml) (key : String) (default v : α) : Prop :=
  IsSection sect ∧ match entry sect key with
    | none => v = default
    | some n => P n v

/-- The file `path` is a container of the given type with a key of 32 bytes. -/
def KeyFile (w : World) (path : String) (type : ContainerEntryType) (key : Bytes) : Prop :=
  ∃ data, w.file path = some data ∧ data.length ≤ 4096 ∧ key.length = 32 ∧
    Codec.readAll ContainerFile.codec data = .ok ⟨type, key⟩

/-- The entry is the path of such a file. -/
def Key (w : World) (sect : Yaml) (name : String) (type : ContainerEntryType) (key : Bytes) : Prop :=
  ∃ path, Required Text sect name path ∧ KeyFile w path type key

/-- The entry is the path of a file with these contents. -/
def Contents (w : World) (sect : Yaml) (name : String) (data : Bytes) : Prop :=
  ∃ path, Required Text sect name path ∧ w.file path = some data ∧ 0 < data.length ∧ data.length ≤ 4096

/-- How the protection of a session is named. -/
def modes : List (String × SessionCryptoMode) := [("hmac_sha256_16", .hmac_sha256_16), ("aes_256_gcm", .aes_256_gcm)]

/-- The protection of the session that a handshake section asks for. -/
def Protection (handshake : Yaml) (m : SessionCryptoMode) : Prop :=
  ∃ s, at' handshake ["algorithms", "session_crypto_mode"] = some (.scalar s) ∧ (s, m) ∈ modes

end SSP21.Config.Spec

namespace SSP21.Config.Spec

/-- The parameters of a crypto layer. -/
def LayerParameters (w : World) (session : Yaml) (c : LayerConfig) : Prop :=
  Optional (Number w 0 65535) session "max_payload_size" 4092 (c.maxPayload.toNat : Int) ∧
  Optional (Millis w) session "ttl_pad" 10000 (c.ttlPadMs.toNat : Int)

/-- A time that can be represented. -/
def Timeout (w : World) (node : Yaml) (ns : Int) : Prop := Time w node ns ∧ int64 ns

/-- The parameters of an initiator. -/
def InitiatorParameters (w : World) (handshake session : Yaml) (c : InitiatorConfig) : Prop :=
  LayerParameters w session c.layer ∧
  Optional (Number w 0 65535) session "max_nonce_value" 32768 (c.maxNonce.toNat : Int) ∧
  Optional (Number w 0 4294967295) session "max_session_time_ms" (60 * 60 * 1000) (c.maxSessionTimeMs.toNat : Int) ∧
  Optional (Number w 0 65535) session "nonce_renegotiation_trigger_value" (32768 - 128) (c.nonceTrigger.toNat : Int) ∧
  Optional (Millis w) session "session_time_renegotiation_trigger_ms" (59 * 60 * 1000) (c.sessionTimeTriggerMs.toNat : Int) ∧
  Optional (Timeout w) handshake "response_timeout" (2 * 1000 * 1000000) c.responseTimeout ∧
  Optional (Timeout w) handshake "retry_timeout" (5 * 1000 * 1000000) c.retryTimeout

/-- The key pair of a station. -/
def OwnKeys (w : World) (handshake : Yaml) (keys : StaticKeys) : Prop :=
  Key w handshake "local_public_key_path" .x25519_public_key keys.pub ∧
  Key w handshake "local_private_key_path" .x25519_private_key keys.priv

/-- A store of quantum keys. -/
def Store (w : World) (handshake : Yaml) (store : String × UInt16) : Prop :=
  Required Text handshake "key_source_id" store.1 ∧
  Required (Number w 0 65535) handshake "subscriber_id" (store.2.toNat : Int)

/-- The type of handshake and the keys of an initiator (without the protection of the session). -/
def InitiatorSecrets (w : World) (handshake : Yaml) : InitiatorKeys → Prop
  | .sharedSecret _ key =>
    Required Text handshake "type" "shared_secret" ∧ Key w handshake "shared_secret_key_path" .shared_secret key
  | .qkd _ store => Required Text handshake "type" "qkd" ∧ Store w handshake store
  | .preshared _ keys remote =>
    Required Text handshake "type" "preshared_public_key" ∧ OwnKeys w handshake keys ∧
      Key w handshake "remote_public_key_path" .x25519_public_key remote
  | .certificates _ keys anchor chain =>
    Required Text handshake "type" "certificate" ∧ OwnKeys w handshake keys ∧
      Contents w handshake "authority_cert_path" anchor ∧ Contents w handshake "local_cert_path" chain

/-- The same for a responder. -/
def ResponderSecrets (w : World) (handshake : Yaml) : ResponderKeys → Prop
  | .sharedSecret key =>
    Required Text handshake "type" "shared_secret" ∧ Key w handshake "shared_secret_key_path" .shared_secret key
  | .qkd store => Required Text handshake "type" "qkd" ∧ Store w handshake store
  | .preshared keys remote =>
    Required Text handshake "type" "preshared_public_key" ∧ OwnKeys w handshake keys ∧
      Key w handshake "remote_public_key_path" .x25519_public_key remote
  | .certificates keys anchor chain =>
    Required Text handshake "type" "certificate" ∧ OwnKeys w handshake keys ∧
      Contents w handshake "authority_cert_path" anchor ∧ Contents w handshake "local_cert_path" chain

/-- The security section. -/
def SecurityMeans (w : World) (security : Yaml) (s : StackSpec) : Prop :=
  ∃ handshake session, entry security "handshake" = some handshake ∧ entry security "session" = some session ∧
    match s with
    | .initiator c keys =>
      Required Text security "mode" "initiator" ∧ InitiatorParameters w handshake session c ∧ InitiatorSecrets w handshake keys
    | .responder c keys =>
      Required Text security "mode" "responder" ∧ LayerParameters w session c ∧ ResponderSecrets w handshake keys

/-- The section about the link layer. -/
def LinkMeans (w : World) (link : Yaml) (a : Option Link.Addresses) : Prop :=
  match a with
  | none => ∃ t, Required Text link "enabled" t ∧ w.bool t = some false
  | some a => ∃ t address, Required Text link "enabled" t ∧ w.bool t = some true ∧ entry link "address" = some address ∧
      Required (Number w 0 65535) address "local" (a.source.toNat : Int) ∧
      Required (Number w 0 65535) address "remote" (a.destination.toNat : Int)

/-- An address and a port. -/
def EndpointMeans (w : World) (node : Yaml) (e : Endpoint) : Prop :=
  Required Text node "address" e.address ∧ Required (Number w 0 65535) node "port" (e.port.toNat : Int)

/-- The section about the transport. -/
def TransportMeans (w : World) (node : Yaml) : TransportConfig → Prop
  | .tcp n listen connect =>
    Required Text node "type" "tcp" ∧ Required (Number w 0 65535) node "max_sessions" (n.toNat : Int) ∧
      Required (EndpointMeans w) node "listen" listen ∧ Required (EndpointMeans w) node "connect" connect
  | .udp rawRx rawTx secureRx secureTx =>
    Required Text node "type" "udp" ∧ Required (EndpointMeans w) node "raw_rx" rawRx ∧
      Required (EndpointMeans w) node "raw_tx" rawTx ∧ Required (EndpointMeans w) node "secure_rx" secureRx ∧
      Required (EndpointMeans w) node "secure_tx" secureTx

/-- An item of `sessions`. -/
def SessionMeans (w : World) (node : Yaml) (p : Proxy) : Prop :=
  Required (SecurityMeans w) node "security" p.stack ∧ Required (LinkMeans w) node "link_layer" p.addresses ∧
  Required (TransportMeans w) node "transport" p.transport

/-- The protection of the sessions that an initiator negotiates. -/
def suite : InitiatorKeys → CryptoSpec
  | .sharedSecret s _ | .qkd s _ | .preshared s _ _ | .certificates s _ _ _ => s

/-- The store of quantum keys that a proxy uses. -/
def store : StackSpec → Option (String × UInt16)
  | .initiator _ (.qkd _ s) | .responder _ (.qkd s) => some s
  | _ => none

/-! ### Which files are accepted -/

/-- How the flow control of a serial line is named. -/
def flowControls : List (String × FlowControl) := [("none", .none), ("hardware", .hardware), ("software", .software)]

/-- How the stop bits of a serial line are named. -/
def stopBits : List (String × StopBits) := [("one", .one), ("onepointfive", .onepointfive), ("two", .two)]

/-- The settings of a serial line: only the device has no default. -/
def SerialMeans (w : World) (node : Yaml) (s : SerialSettings) : Prop :=
  Required Text node "device" s.device ∧
  Optional (Number w 0 4294967295) node "baud_rate" 9600 (s.baud.toNat : Int) ∧
  Optional (Number w 0 4294967295) node "data_bits" 8 (s.dataBits.toNat : Int) ∧
  (∃ t, Optional Text node "flow_control" "none" t ∧ (t, s.flowControl) ∈ flowControls) ∧
  (∃ t, Optional Text node "stop_bits" "one" t ∧ (t, s.stopBits) ∈ stopBits)

/-- An item of `qkd_sources`: a source by its name and the number of its subscribers; no store has been handed out. -/
def SourceMeans (w : World) (node : Yaml) (s : String × Qix.Router) : Prop :=
  Required Text node "qkd_source_id" s.1 ∧ Required Text node "type" "qix" ∧
  Required (Number w 0 65535) node "num_subscribers" (s.2.numSubscribers.toNat : Int) ∧ s.2.subscribers = [] ∧
  (∃ metrics period bin, entry node "metrics" = some metrics ∧ Required (Timeout w) metrics "update_period" period ∧
    Required (Number w 0 65535) metrics "bin_size" bin) ∧
  ∃ line, Required (SerialMeans w) node "serial" line

/-- The letters of the levels of logging. -/
def logLevels : List Char := ['v', 'e', 'w', 'i', 'd', 'c', 'f', 'm']

/-- The settings of the log of a session. -/
def LogMeans (node : Yaml) : Prop :=
  ∃ id levels, Required Text node "id" id ∧ Required Text node "levels" levels ∧ ∀ c ∈ levels.toList, c ∈ logLevels

/-- The algorithms that an initiator proposes: those of the section; with certificates it must be there but the default is
used (finding of C49_certificate_protection_violation). -/
def AlgorithmsMean (handshake : Yaml) (keys : InitiatorKeys) : Prop :=
  suite keys = { defaultSuite with session_crypto_mode := (suite keys).session_crypto_mode } ∧
  match keys with
  | .certificates s _ _ _ => (∃ a, entry handshake "algorithms" = some a) ∧ s.session_crypto_mode = .hmac_sha256_16
  | k => Protection handshake (suite k).session_crypto_mode

/-- The number of keys that the store of a session may hold, if it uses one. -/
def CacheMeans (w : World) (handshake : Yaml) (stack : StackSpec) : Prop :=
  store stack ≠ none → ∃ n : UInt16, Required (Number w 0 65535) handshake "max_key_cache_size" (n.toNat : Int)

/-- An item of `sessions` that describes the proxy, complete and without contradictions. -/
def SessionComplete (w : World) (node : Yaml) (p : Proxy) : Prop :=
  SessionMeans w node p ∧ LogMeans node ∧
  (∃ handshake, at' node ["security", "handshake"] = some handshake ∧ CacheMeans w handshake p.stack ∧
    ∀ c keys, p.stack = .initiator c keys → AlgorithmsMean handshake keys) ∧
  ((∃ m l c, p.transport = .tcp m l c) → p.addresses ≠ none)

/-- A file that describes these proxies: sources with different names, at least one session, and each store of quantum keys
used by one session only and of a known source. -/
def FileMeans (w : World) (root : Yaml) (ps : List Proxy) : Prop :=
  ∃ qs ss sources, entry root "qkd_sources" = some (.seq qs) ∧ entry root "sessions" = some (.seq ss) ∧
    List.Forall₂ (SourceMeans w) qs sources ∧ (sources.map (·.1)).Nodup ∧
    ss ≠ [] ∧ List.Forall₂ (SessionComplete w) ss ps ∧
    (ps.filterMap fun p => store p.stack).Nodup ∧
    ∀ p ∈ ps, ∀ s, store p.stack = some s → s.1 ∈ sources.map (·.1)

end SSP21.Config.Spec
