import Verif.Tool
import Verif.Qix
import Verif.LinkLayer
import Verif.CryptoLayer
/-
  The configuration file of the proxies: cpp/exe/proxy/src/{YAMLHelpers,StackConfigReader,ConfigReader,ProxyConfig}.cpp,
  QKDSourceRegistry.cpp, and what is made of it: cpp/libs/ssp21/src/stack/{Factory.cpp,LinkCryptoStack.h}.

  Simplifications. The parser of yaml-cpp is not modelled: a file is a tree (`Yaml`). Texts of exceptions, log settings
  and IP addresses beyond their text are left out (except that unknown log levels are refused), and so is opening the serial port of a QKD source.
  `exe4cpp::duration_t` is `std::chrono::steady_clock::duration`: nanoseconds in 64 bits.
-/
namespace SSP21.Config
open Tool (Outcome)

/-! ### The file -/

/-- A node of yaml-cpp. -/
inductive Yaml
  | null
  | scalar (text : String)
  | seq (items : List Yaml)
  | map (entries : List (String × Yaml))

/-- What reading depends on: the meaning of a scalar as a number (`as<int64_t>`) or truth value (`as<bool>`), and the
files. -/
structure World where
  int : String → Option Int
  bool : String → Option Bool
  file : String → Option Bytes

/-- The value of a key in the entries of a map. -/
def find (key : String) : List (String × Yaml) → Option Yaml
  | [] => none
  | (k, v) :: rest => if k = key then some v else find key rest

/-- `node[key]` of yaml-cpp on a constant node: subscripting a scalar throws, nodes without the key (a null node or a
sequence) give an undefined node. -/
def Yaml.get (node : Yaml) (key : String) : Outcome (Option Yaml) :=
  match node with
  | .map es => .ok (find key es)
  | .scalar _ => .throw
  | _ => .ok none

/-- `yaml::require`, YAMLHelpers.cpp:50-67. -/
def require (node : Yaml) (key : String) : Outcome Yaml :=
  match node with
  | .map es => match find key es with
    | none => .throw
    | some v => .ok v
  | _ => .throw

/-- `yaml::require_bool`, YAMLHelpers.cpp:69-72. -/
def requireBool (w : World) (node : Yaml) (key : String) : Outcome Bool := do
  match ← require node key with
  | .scalar s => match w.bool s with
    | none => .throw
    | some b => .ok b
  | _ => .throw

/-- `yaml::require_string`, YAMLHelpers.cpp:74-83. -/
def requireString (node : Yaml) (key : String) : Outcome String := do
  match ← require node key with
  | .scalar s => .ok s
  | _ => .throw

/-- `yaml::optional_string`, YAMLHelpers.cpp:85-102. -/
def optionalString (node : Yaml) (key : String) (default : String) : Outcome String := do
  match ← node.get key with
  | none => .ok default
  | some (.scalar s) => .ok s
  | some _ => .throw

/-- `yaml::extract_integer<T>`, YAMLHelpers.h:43-59, for a type with the values `lo` to `hi`. -/
def extractInteger (w : World) (lo hi : Int) (node : Yaml) : Outcome Int :=
  match node with
  | .scalar s => match w.int s with
    | none => .throw
    | some n =>
      if n < -9223372036854775808 ∨ 9223372036854775807 < n then .throw
      else if n < lo then .throw else if hi < n then .throw else .ok n
  | _ => .throw

/-- `yaml::require_integer<uint16_t>`, YAMLHelpers.h:61-65. -/
def requireUInt16 (w : World) (node : Yaml) (key : String) : Outcome UInt16 := do
  let n ← extractInteger w 0 65535 (← require node key)
  .ok (UInt16.ofNat n.toNat)

/-- `yaml::optional_integer<uint16_t>`, YAMLHelpers.h:67-81. -/
def optionalUInt16 (w : World) (node : Yaml) (key : String) (default : UInt16) : Outcome UInt16 := do
  match ← node.get key with
  | none => .ok default
  | some child => do
    let n ← extractInteger w 0 65535 child
    .ok (UInt16.ofNat n.toNat)

/-- `yaml::optional_integer<uint32_t>`, YAMLHelpers.h:67-81. -/
def optionalUInt32 (w : World) (node : Yaml) (key : String) (default : UInt32) : Outcome UInt32 := do
  match ← node.get key with
  | none => .ok default
  | some child => do
    let n ← extractInteger w 0 4294967295 child
    .ok (UInt32.ofNat n.toNat)

/-- `get_time_unit`, YAMLHelpers.cpp:27-48: the nanoseconds of a unit. -/
def getTimeUnit (node : Yaml) : Outcome Int := do
  match ← requireString node "unit" with
  | "milliseconds" => .ok 1000000
  | "seconds" => .ok 1000000000
  | "minutes" => .ok 60000000000
  | "hours" => .ok 3600000000000
  | _ => .throw

/-- The conversion of `std::chrono::hours` and so on to `duration_t` multiplies in 64 bits: overflow is undefined
behaviour. -/
def toNanoseconds (n : Int) : Outcome Int :=
  if -9223372036854775808 ≤ n ∧ n ≤ 9223372036854775807 then .ok n else .fault

/-- `get_duration_value`, YAMLHelpers.cpp:104-118. -/
def getDurationValue (w : World) (node : Yaml) : Outcome Int := do
  let value ← extractInteger w (-9223372036854775808) 9223372036854775807 (← require node "value")
  let unit ← getTimeUnit node
  toNanoseconds (value * unit)

/-- `yaml::require_duration`, YAMLHelpers.cpp:120-123. -/
def requireDuration (w : World) (node : Yaml) (key : String) : Outcome Int := do
  getDurationValue w (← require node key)

/-- `yaml::optional_duration`, YAMLHelpers.cpp:125-138. -/
def optionalDuration (w : World) (node : Yaml) (key : String) (default : Int) : Outcome Int := do
  match ← node.get key with
  | none => .ok default
  | some d => getDurationValue w d

/-! ### Parameters of the stack -/

/-- `get_addresses`, StackConfigReader.cpp:26-31. -/
def getAddresses (w : World) (node : Yaml) : Outcome Link.Addresses := do
  let remote ← requireUInt16 w node "remote"
  let loc ← requireUInt16 w node "local"
  .ok ⟨remote, loc⟩

/-- `StackType`, cpp/exe/proxy/src/StackFactory.h:14-17. -/
inductive StackType
  | initiator | responder
  deriving DecidableEq, Repr

/-- `get_stack_type`, StackConfigReader.cpp:33-44. -/
def getStackType (node : Yaml) : Outcome StackType := do
  match ← requireString node "mode" with
  | "initiator" => .ok .initiator
  | "responder" => .ok .responder
  | _ => .throw

/-- `get_handshake_mode`, StackConfigReader.cpp:46-61. -/
def getHandshakeMode (node : Yaml) : Outcome HandshakeMode := do
  match ← requireString node "type" with
  | "shared_secret" => .ok .shared_secret
  | "qkd" => .ok .quantum_key_distribution
  | "preshared_public_key" => .ok .public_keys
  | "certificate" => .ok .industrial_certificates
  | _ => .throw

/-- `SecureFile::read`, cpp/libs/ssp21/src/util/SecureFile.cpp:8-35. -/
def readFile (w : World) (path : String) : Outcome Bytes :=
  match w.file path with
  | none => .throw
  | some data => Tool.secureRead data

/-- `get_crypto_key`, StackConfigReader.cpp:63-88. -/
def getCryptoKey (w : World) (path : String) (expected : ContainerEntryType) : Outcome Bytes := do
  let file ← Tool.parseOrThrow ContainerFile.codec (← readFile w path)
  if file.container_entry_type ≠ expected then .throw
  else if file.payload.length ≠ 32 then .throw
  else .ok file.payload

/-- `get_file_data`, StackConfigReader.cpp:90-93. -/
def getFileData (w : World) (node : Yaml) (key : String) : Outcome Bytes := do readFile w (← requireString node key)

/-- `get_optional_ms_from_duration`, StackConfigReader.cpp:100-114. -/
def getOptionalMs (w : World) (node : Yaml) (key : String) (default : UInt32) : Outcome UInt32 := do
  let duration ← optionalDuration w node key (default.toNat * 1000000)
  let ms := duration.tdiv 1000000
  if ms < 0 then .throw else if 4294967295 < ms then .throw else .ok (UInt32.ofNat ms.toNat)

/-- `ResponderConfig`, cpp/libs/ssp21/include/ssp21/crypto/CryptoLayerConfig.h:11-31. -/
structure LayerConfig where
  maxPayload : UInt16
  ttlPadMs : UInt32
  deriving DecidableEq, Repr

/-- `InitiatorConfig`, CryptoLayerConfig.h:33-61; timeouts in nanoseconds. -/
structure InitiatorConfig where
  layer : LayerConfig
  maxNonce : UInt16
  maxSessionTimeMs : UInt32
  nonceTrigger : UInt16
  sessionTimeTriggerMs : UInt32
  responseTimeout : Int
  retryTimeout : Int
  deriving DecidableEq, Repr

/-- `get_crypto_layer_config` and `get_session_config`, StackConfigReader.cpp:126-142; the defaults are in
CryptoLayerConfig.h:11-26 and Constants.h:40. -/
def getLayerConfig (w : World) (session : Yaml) : Outcome LayerConfig := do
  let maxPayload ← optionalUInt16 w session "max_payload_size" 4092
  let ttlPadMs ← getOptionalMs w session "ttl_pad" 10000
  .ok ⟨maxPayload, ttlPadMs⟩

/-- `get_initiator_config`, StackConfigReader.cpp:116-124, 144-167; the defaults are in Constants.h:43-52. -/
def getInitiatorConfig (w : World) (handshake session : Yaml) : Outcome InitiatorConfig := do
  let layer ← getLayerConfig w session
  let maxNonce ← optionalUInt16 w session "max_nonce_value" 32768
  let maxSessionTimeMs ← optionalUInt32 w session "max_session_time_ms" 3600000
  let nonceTrigger ← optionalUInt16 w session "nonce_renegotiation_trigger_value" 32640
  let responseTimeout ← optionalDuration w handshake "response_timeout" 2000000000
  let retryTimeout ← optionalDuration w handshake "retry_timeout" 5000000000
  let sessionTimeTriggerMs ← getOptionalMs w session "session_time_renegotiation_trigger_ms" 3540000
  .ok ⟨layer, maxNonce, maxSessionTimeMs, nonceTrigger, sessionTimeTriggerMs, responseTimeout, retryTimeout⟩

/-- `StaticKeys`, cpp/libs/ssp21/include/ssp21/crypto/StaticKeys.h. -/
structure StaticKeys where
  pub : Bytes
  priv : Bytes
  deriving DecidableEq, Repr

/-- `get_local_static_keys`, StackConfigReader.cpp:180-185. -/
def getLocalStaticKeys (w : World) (node : Yaml) : Outcome StaticKeys := do
  let pub ← getCryptoKey w (← requireString node "local_public_key_path") .x25519_public_key
  let priv ← getCryptoKey w (← requireString node "local_private_key_path") .x25519_private_key
  .ok ⟨pub, priv⟩

/-- `get_session_crypto_mode`, StackConfigReader.cpp:187-200. -/
def getSessionCryptoMode (node : Yaml) : Outcome SessionCryptoMode := do
  match ← requireString node "session_crypto_mode" with
  | "hmac_sha256_16" => .ok .hmac_sha256_16
  | "aes_256_gcm" => .ok .aes_256_gcm
  | _ => .throw

/-- The default `CryptoSuite` (cpp/libs/ssp21/include/ssp21/crypto/CryptoSuite.h:33-36) with the ephemeral type that the
factory adds for public keys (Factory.cpp:248; the other modes replace it). -/
def defaultSuite : CryptoSpec := ⟨.x25519, .sha256, .hkdf_sha256, .strict_increment, .hmac_sha256_16⟩

/-- `get_crypto_suite`, StackConfigReader.cpp:202-209. -/
def getCryptoSuite (node : Yaml) : Outcome CryptoSpec := do
  let mode ← getSessionCryptoMode (← require node "algorithms")
  .ok { defaultSuite with session_crypto_mode := mode }

/-! ### Sources of quantum keys -/

/-- `QKDSourceRegistry::sources`: the sources by name, each with its subscribers. -/
abbrev Registry := List (String × Qix.Router)

/-- `asio::serial_port::flow_control::type`. -/
inductive FlowControl
  | none | hardware | software
  deriving DecidableEq, Repr

/-- `asio::serial_port::stop_bits::type`. -/
inductive StopBits
  | one | onepointfive | two
  deriving DecidableEq, Repr

/-- `SerialSettings`, cpp/libs/qix/include/qix/SerialSettings.h:6-30. -/
structure SerialSettings where
  device : String
  baud : UInt32
  dataBits : UInt32
  flowControl : FlowControl
  stopBits : StopBits
  deriving DecidableEq, Repr

/-- `get_flow_control`, cpp/exe/proxy/src/qkd/QIXQKDSource.cpp:15-32. -/
def getFlowControl (node : Yaml) : Outcome FlowControl := do
  match ← optionalString node "flow_control" "none" with
  | "none" => .ok .none
  | "hardware" => .ok .hardware
  | "software" => .ok .software
  | _ => .throw

/-- `get_stop_bits`, QIXQKDSource.cpp:34-51. -/
def getStopBits (node : Yaml) : Outcome StopBits := do
  match ← optionalString node "stop_bits" "one" with
  | "one" => .ok .one
  | "onepointfive" => .ok .onepointfive
  | "two" => .ok .two
  | _ => .throw

/-- `read_serial_settings`, QIXQKDSource.cpp:53-61. -/
def readSerialSettings (w : World) (node : Yaml) : Outcome SerialSettings := do
  let device ← requireString node "device"
  let baud ← optionalUInt32 w node "baud_rate" 9600
  let dataBits ← optionalUInt32 w node "data_bits" 8
  let flowControl ← getFlowControl node
  let stopBits ← getStopBits node
  .ok ⟨device, baud, dataBits, flowControl, stopBits⟩

/-- `create_qkd_source`, QKDSourceRegistry.cpp:31-40, and the constructors QIXQKDSource.cpp:63-70, 209-215. The settings of
the line and of the metrics are only used by the reader of the port, which is not part of the registry. -/
def createQkdSource (w : World) (node : Yaml) : Outcome Qix.Router := do
  match ← requireString node "type" with
  | "qix" =>
    let metrics ← require node "metrics"
    let n ← requireUInt16 w node "num_subscribers"
    let _ ← requireDuration w metrics "update_period"
    let _ ← requireUInt16 w metrics "bin_size"
    let _ ← readSerialSettings w (← require node "serial")
    .ok { numSubscribers := n }
  | _ => .throw

/-- `configure_qkd_source`, QKDSourceRegistry.cpp:10-19. -/
def configureQkdSource (w : World) (node : Yaml) (reg : Registry) : Outcome Registry := do
  let id ← requireString node "qkd_source_id"
  if reg.any (·.1 = id) then .throw
  else do
    let source ← createQkdSource w node
    .ok (reg ++ [(id, source)])

/-- `get_initiator_key_source` and `get_responder_key_lookup`, QKDSourceRegistry.cpp:21-29, 42-60, with
`bind_key_store`, QIXQKDSource.cpp:217-227: the name of the source and the number of the subscriber. -/
def bindKeyStore (w : World) (node : Yaml) (reg : Registry) : Outcome ((String × UInt16) × Registry) := do
  let id ← requireString node "key_source_id"
  match reg.find? (·.1 = id) with
  | none => .throw
  | some (_, source) => do
    let subscriber ← requireUInt16 w node "subscriber_id"
    let maxCached ← requireUInt16 w node "max_key_cache_size"
    match source.bind subscriber maxCached with
    | none => .throw
    | some source' => .ok ((id, subscriber), reg.map fun x => if x.1 = id then (x.1, source') else x)

/-! ### The stack -/

/-- What the closures made by the `get_initiator_…_factory` functions have captured (StackConfigReader.cpp:211-333). A
store of quantum keys is the name of its source and its number there. -/
inductive InitiatorKeys
  | sharedSecret (suite : CryptoSpec) (key : Bytes)
  | qkd (suite : CryptoSpec) (store : String × UInt16)
  | preshared (suite : CryptoSpec) (keys : StaticKeys) (remote : Bytes)
  | certificates (suite : CryptoSpec) (keys : StaticKeys) (anchor chain : Bytes)
  deriving DecidableEq, Repr

/-- The same for the `get_responder_…_factory` functions (StackConfigReader.cpp:357-464). -/
inductive ResponderKeys
  | sharedSecret (key : Bytes)
  | qkd (store : String × UInt16)
  | preshared (keys : StaticKeys) (remote : Bytes)
  | certificates (keys : StaticKeys) (anchor chain : Bytes)
  deriving DecidableEq, Repr

/-- A `stack_factory_t` by what it has captured. -/
inductive StackSpec
  | initiator (config : InitiatorConfig) (keys : InitiatorKeys)
  | responder (config : LayerConfig) (keys : ResponderKeys)
  deriving DecidableEq, Repr

/-- `get_initiator_shared_secret_factory`, `…_qkd_…`, `…_preshared_public_key_…`, `…_certificate_mode_…`,
StackConfigReader.cpp:211-333. In certificate mode the algorithms must be present but are not read (line 306), the
factory gets the default suite (lines 316, 327). -/
def getInitiatorKeys (w : World) (node : Yaml) (mode : HandshakeMode) (reg : Registry) :
    Outcome (InitiatorKeys × Registry) :=
  match mode with
  | .shared_secret => do
    let key ← getCryptoKey w (← requireString node "shared_secret_key_path") .shared_secret
    let suite ← getCryptoSuite node
    .ok (.sharedSecret suite key, reg)
  | .quantum_key_distribution => do
    let (store, reg) ← bindKeyStore w node reg
    let suite ← getCryptoSuite node
    .ok (.qkd suite store, reg)
  | .public_keys => do
    let keys ← getLocalStaticKeys w node
    let remote ← getCryptoKey w (← requireString node "remote_public_key_path") .x25519_public_key
    let suite ← getCryptoSuite node
    .ok (.preshared suite keys remote, reg)
  | .industrial_certificates => do
    let keys ← getLocalStaticKeys w node
    let anchor ← getFileData w node "authority_cert_path"
    let chain ← getFileData w node "local_cert_path"
    let _ ← require node "algorithms"
    .ok (.certificates defaultSuite keys anchor chain, reg)
  | .undefined => .throw

/-- `get_responder_shared_secret_factory` and so on, StackConfigReader.cpp:357-464. -/
def getResponderKeys (w : World) (node : Yaml) (mode : HandshakeMode) (reg : Registry) :
    Outcome (ResponderKeys × Registry) :=
  match mode with
  | .shared_secret => do
    let key ← getCryptoKey w (← requireString node "shared_secret_key_path") .shared_secret
    .ok (.sharedSecret key, reg)
  | .quantum_key_distribution => do
    let (store, reg) ← bindKeyStore w node reg
    .ok (.qkd store, reg)
  | .public_keys => do
    let keys ← getLocalStaticKeys w node
    let remote ← getCryptoKey w (← requireString node "remote_public_key_path") .x25519_public_key
    .ok (.preshared keys remote, reg)
  | .industrial_certificates => do
    let keys ← getLocalStaticKeys w node
    let anchor ← getFileData w node "authority_cert_path"
    let chain ← getFileData w node "local_cert_path"
    .ok (.certificates keys anchor chain, reg)
  | .undefined => .throw

/-- `get_initiator_factory` and `get_responder_factory`, StackConfigReader.cpp:335-355, 466-485. -/
def getStack (w : World) (node : Yaml) (type : StackType) (reg : Registry) : Outcome (StackSpec × Registry) := do
  let handshake ← require node "handshake"
  let session ← require node "session"
  match type with
  | .initiator => do
    let config ← getInitiatorConfig w handshake session
    let mode ← getHandshakeMode handshake
    let (keys, reg) ← getInitiatorKeys w handshake mode reg
    .ok (.initiator config keys, reg)
  | .responder => do
    let config ← getLayerConfig w session
    let mode ← getHandshakeMode handshake
    let (keys, reg) ← getResponderKeys w handshake mode reg
    .ok (.responder config keys, reg)

/-- `get_stack_factory`, StackConfigReader.cpp:487-507: the addresses if there is a link layer, and the rest. -/
def getStackFactory (w : World) (node : Yaml) (reg : Registry) :
    Outcome ((Option Link.Addresses × StackSpec) × Registry) := do
  let linkLayer ← require node "link_layer"
  let security ← require node "security"
  let type ← getStackType security
  if ← requireBool w linkLayer "enabled" then do
    let addresses ← getAddresses w (← require linkLayer "address")
    let (spec, reg) ← getStack w security type reg
    .ok ((some addresses, spec), reg)
  else do
    let (spec, reg) ← getStack w security type reg
    .ok ((none, spec), reg)

/-! ### The proxy -/

/-- `IPEndpoint`, cpp/exe/proxy/src/IPEndpoint.cpp:5-9. -/
structure Endpoint where
  address : String
  port : UInt16
  deriving DecidableEq, Repr

def getEndpoint (w : World) (node : Yaml) : Outcome Endpoint := do
  let address ← requireString node "address"
  let port ← requireUInt16 w node "port"
  .ok ⟨address, port⟩

/-- `TcpConfig` (tcp/TcpConfig.cpp:5-10) or `UdpConfig` (udp/UdpConfig.cpp:5-11). -/
inductive TransportConfig
  | tcp (maxSessions : UInt16) (listen connect : Endpoint)
  | udp (rawRx rawTx secureRx secureTx : Endpoint)
  deriving DecidableEq, Repr

/-- What a `proxy_session_factory_t` has captured. -/
structure Proxy where
  addresses : Option Link.Addresses
  stack : StackSpec
  transport : TransportConfig
  deriving DecidableEq, Repr

/-- The constructor of `LogConfig`, cpp/exe/proxy/src/LogConfig.cpp:7-47: the levels must be known. -/
def checkLog (node : Yaml) : Outcome Unit := do
  let _ ← requireString node "id"
  let levels ← requireString node "levels"
  if levels.toList.all (['v', 'e', 'w', 'i', 'd', 'c', 'f', 'm'].contains ·) then .ok () else .throw

/-- `get_session_factory`, cpp/exe/proxy/src/ConfigReader.cpp:21-34, 36-72. -/
def getSession (w : World) (node : Yaml) (reg : Registry) : Outcome (Proxy × Registry) := do
  checkLog node
  let ((addresses, stack), reg) ← getStackFactory w node reg
  let transport ← require node "transport"
  match ← requireString transport "type" with
  | "tcp" =>
    if addresses.isNone then .throw
    else do
      let maxSessions ← requireUInt16 w transport "max_sessions"
      let listen ← getEndpoint w (← require transport "listen")
      let connect ← getEndpoint w (← require transport "connect")
      .ok (⟨addresses, stack, .tcp maxSessions listen connect⟩, reg)
  | "udp" => do
    let rawRx ← getEndpoint w (← require transport "raw_rx")
    let rawTx ← getEndpoint w (← require transport "raw_tx")
    let secureRx ← getEndpoint w (← require transport "secure_rx")
    let secureTx ← getEndpoint w (← require transport "secure_tx")
    .ok (⟨addresses, stack, .udp rawRx rawTx secureRx secureTx⟩, reg)
  | _ => .throw

/-- `yaml::foreach`, YAMLHelpers.h:83-97: the items of a sequence. -/
def items (node : Yaml) : Outcome (List Yaml) :=
  match node with
  | .seq l => .ok l
  | _ => .throw

/-- The loop over `qkd_sources`, ProxyConfig.cpp:15-19. -/
def readSources (w : World) : List Yaml → Registry → Outcome Registry
  | [], reg => .ok reg
  | n :: rest, reg => do readSources w rest (← configureQkdSource w n reg)

/-- The loop over `sessions`, ProxyConfig.cpp:23-27. -/
def readSessions (w : World) : List Yaml → Registry → Outcome (List Proxy × Registry)
  | [], reg => .ok ([], reg)
  | n :: rest, reg => do
    let (p, reg) ← getSession w n reg
    let (ps, reg) ← readSessions w rest reg
    .ok (p :: ps, reg)

/-- `config::read`, ProxyConfig.cpp:11-30, and the check in `configure_sessions`, cpp/exe/proxy/src/main.cpp:57-77. -/
def read (w : World) (root : Yaml) : Outcome (List Proxy × Registry) := do
  let reg ← readSources w (← items (← require root "qkd_sources")) []
  let (ps, reg) ← readSessions w (← items (← require root "sessions")) reg
  if ps.isEmpty then .throw else .ok (ps, reg)

/-! ### Making the stack -/

/-- A stack of LinkCryptoStack.h: the constants of its crypto layer, the handshake of an initiator, and the link layer. -/
structure Stack where
  cfg : Crypto.Cfg
  handshake : Option InitiatorHandshake
  link : Option Link.Layer

/-- `RawFrameWriter`, cpp/libs/ssp21/src/RawFrameWriter.cpp:8-25: a frame is the message. -/
def rawWriter : FrameWriter := ⟨4092, id⟩

/-- `LinkFrameWriter` as a frame writer that has written nothing yet (C08_writer_emits_frame: what it wrote before does not
matter). -/
def linkWriter (a : Link.Addresses) : FrameWriter :=
  ⟨4092, fun p =>
    match (Link.Writer.new a 4092).write (emit p) with
    | some (.ok (frame, _), _) => frame
    | _ => []⟩

/-- `get_frame_writer` of the four stacks, LinkCryptoStack.h:96-99, 128-131, 162-165, 194-197. -/
def frameWriter : Option Link.Addresses → FrameWriter
  | some a => linkWriter a
  | none => rawWriter

/-- An exception of a constructor. -/
def orThrow {α : Type} : Option α → Outcome α
  | some a => .ok a
  | none => .throw

/-- The handshake of an initiator, Factory.cpp:160-314 with InitiatorHandshakes.cpp and ICertificateHandler.cpp. -/
def makeInitiator (b : Backend) (caps : Caps) : InitiatorKeys → Outcome InitiatorHandshake
  | .sharedSecret suite key => orThrow (InitiatorHandshake.mkSharedSecret b caps suite key)
  | .qkd suite _ => orThrow (InitiatorHandshake.mkQkd b caps suite)
  | .preshared suite keys remote => orThrow (InitiatorHandshake.mkPublicKey b caps suite keys.priv (.preshared remote))
  | .certificates suite keys anchor chain => do
    let certs ← orThrow (CertHandler.mkIndustrial b caps anchor chain)
    orThrow (InitiatorHandshake.mkPublicKey b caps suite keys.priv certs)

/-- The handshake of a responder, Factory.cpp:11-156 with ResponderHandshakes.cpp and ICertificateHandler.cpp. -/
def makeResponder (b : Backend) (caps : Caps) : ResponderKeys → Outcome ResponderHandshake
  | .sharedSecret key => .ok (.sharedSecret key)
  | .qkd _ => .ok .qkd
  | .preshared keys remote => .ok (.publicKey keys.priv (.preshared remote))
  | .certificates keys anchor chain => do
    let certs ← orThrow (CertHandler.mkIndustrial b caps anchor chain)
    .ok (.publicKey keys.priv certs)

/-- `create_stack` (StackFactory.h:28-31): the factory functions of Factory.cpp and the constructors of
LinkCryptoStack.h:70-201. The link layer gets source as its own and destination as the remote address. -/
def makeStack (b : Backend) (caps : Caps) (addresses : Option Link.Addresses) : StackSpec → Outcome Stack
  | .initiator config keys => do
    let h ← makeInitiator b caps keys
    .ok ⟨⟨b, caps, frameWriter addresses, config.layer.ttlPadMs, config.layer.maxPayload.toNat,
      .initiator ⟨config.sessionTimeTriggerMs, config.nonceTrigger⟩ ⟨config.maxNonce, config.maxSessionTimeMs⟩, true⟩,
      some h, addresses.map fun a => Link.Layer.new a.source⟩
  | .responder config keys => do
    let h ← makeResponder b caps keys
    .ok ⟨⟨b, caps, frameWriter addresses, config.ttlPadMs, config.maxPayload.toNat, .responder h, true⟩, none,
      addresses.map fun a => Link.Layer.new a.source⟩

end SSP21.Config
