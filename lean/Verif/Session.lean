import Verif.Primitives
/-
  `Session`: nonces, time limits and authenticated encryption of one security association.

  Time: `std::chrono::steady_clock` time points and durations are integers counting nanoseconds (`Int`,
  the 64-bit overflow after 292 years is not modelled).
-/
namespace SSP21

/-- A `std::error_code`: a crypto or a format error. -/
inductive Err
  | crypto (e : CryptoError)
  | format (e : FormatError)
  deriving DecidableEq, Repr

/-- `std::chrono::milliseconds(n)` in clock ticks. -/
def ms (n : UInt32) : Int := (n.toNat : Int) * 1000000

/-- `IFrameWriter` (cpp/libs/ssp21/src/IFrameWriter.h:40-54). All three implementations
(LinkFrameWriter.cpp:17-51, RawFrameWriter.cpp:15-25, MessageOnlyFrameWriter.h:26-36) let the message write
itself into at most `max_payload_size` bytes and return a frame that depends on the message bytes only; for
the link frame writer this is theorem C08_writer_emits_frame. -/
structure FrameWriter where
  maxPayload : UInt16
  wrap : Bytes → Bytes

/-- `IFrameWriter::write`, cpp/libs/ssp21/src/IFrameWriter.cpp:15-32. -/
def FrameWriter.write (fw : FrameWriter) (payload : Nat → Except FormatError Bytes) : Except FormatError Bytes :=
  match payload fw.maxPayload.toNat with
  | .error e => .error e
  | .ok p => .ok (fw.wrap p)

/-- `NonceFunctions::verify_strict_increment`, cpp/libs/ssp21/src/crypto/NonceFunctions.h:19-27 (the sum is
computed as `int`). -/
def verifyStrictIncrement (last new : UInt16) : Bool :=
  if last = 65535 then false else new.toNat == last.toNat + 1

/-- `NonceFunctions::verify_greater_than_last`, NonceFunctions.h:29-32. -/
def verifyGreaterThanLast (last new : UInt16) : Bool := decide (new > last)

/-- `NonceFunctions::equal_to_zero`, NonceFunctions.h:34-37. -/
def equalToZero (last new : UInt16) : Bool := last == 0 && new == 0

/-- `Algorithms::Session`, cpp/libs/ssp21/src/crypto/Algorithms.h:23-34. -/
structure SessionAlgorithms where
  verifyNonce : UInt16 → UInt16 → Bool
  mode : SessionMode

/-- The defaults, Algorithms.h:32-33. -/
def SessionAlgorithms.default (b : Backend) : SessionAlgorithms :=
  ⟨verifyStrictIncrement, .hmacSha256Trunc16 b⟩

/-- `Session::Param`, cpp/libs/ssp21/src/crypto/Session.h:25-43. -/
structure SessionParam where
  sessionStart : Int
  maxNonce : UInt16
  maxSessionTime : Int

/-- The defaults, Session.h:36-42 and cpp/libs/ssp21/include/ssp21/crypto/Constants.h:45-48. -/
def SessionParam.default : SessionParam := ⟨0, 32768, ms 3600000⟩

/-- `SessionKeys`, cpp/libs/ssp21/include/ssp21/crypto/BufferTypes.h:106-126: the key bytes (empty when the
buffer is empty). -/
structure SessionKeys where
  rxKey : Bytes
  txKey : Bytes

/-- BufferTypes.h:122-125 -/
def SessionKeys.valid (k : SessionKeys) : Bool := k.rxKey.length == 32 && k.txKey.length == 32
/-- BufferTypes.h:110-114, SecureBuffer::zero (cpp/libs/ssp21/src/crypto/BufferTypes.cpp:60-64). -/
def SessionKeys.zeroed : SessionKeys := ⟨[], []⟩

/-- `SessionStatistics`, cpp/libs/ssp21/include/ssp21/crypto/Statistics.h:23-30 (counters as `Nat`). -/
structure Stats where
  numInit : Nat := 0
  numUserDataWithoutSession : Nat := 0
  numAuthFail : Nat := 0
  numTtlExpiration : Nat := 0
  numNonceFail : Nat := 0
  numSuccess : Nat := 0
  deriving DecidableEq, Repr

/-- `Session`, cpp/libs/ssp21/src/crypto/Session.h:22-104. The encryption buffer is represented by its length
(`encryptBufferLen`). -/
structure Session where
  valid : Bool
  frameWriter : FrameWriter
  ttlPadMs : UInt32
  rxNonce : UInt16
  txNonce : UInt16
  keys : SessionKeys
  algorithms : SessionAlgorithms
  param : SessionParam

/-- `Session::calc_max_crypto_payload_length`, cpp/libs/ssp21/src/crypto/Session.cpp:21-24
(`SessionData::min_size_bytes` is 9, cpp/libs/ssp21/src/crypto/gen/SessionData.h:43). -/
def calcMaxCryptoPayloadLength (maxLinkPayload : Nat) : Nat :=
  if maxLinkPayload > 9 then maxLinkPayload - 9 else 0

/-- The length of `encrypt_buffer`, Session.cpp:17. -/
def Session.encryptBufferLen (s : Session) : Nat := calcMaxCryptoPayloadLength s.frameWriter.maxPayload.toNat

/-- The constructor, cpp/libs/ssp21/src/crypto/Session.cpp:13-19. -/
def Session.new (b : Backend) (fw : FrameWriter) (ttlPadMs : UInt32) : Session where
  valid := false
  frameWriter := fw
  ttlPadMs := ttlPadMs
  rxNonce := 0
  txNonce := 0
  keys := .zeroed
  algorithms := .default b
  param := .default

/-- `Session::initialize`, cpp/libs/ssp21/src/crypto/Session.cpp:26-42. -/
def Session.initialize (s : Session) (st : Stats) (alg : SessionAlgorithms) (param : SessionParam)
    (keys : SessionKeys) : Session × Stats × Bool :=
  if !keys.valid then (s, st, false)
  else ({ s with rxNonce := 0, txNonce := 0, algorithms := alg, param := param, keys := keys, valid := true },
    { st with numInit := st.numInit + 1 }, true)

/-- `Session::reset`, cpp/libs/ssp21/src/crypto/Session.cpp:44-48. -/
def Session.reset (s : Session) : Session := { s with valid := false, keys := .zeroed }

/-- `Session::validate_session_data_with_nonce_func`, cpp/libs/ssp21/src/crypto/Session.cpp:91-144. -/
def Session.validateWith (s : Session) (st : Stats) (msg : SessionData) (now : Int) (destLen : Nat)
    (verify : UInt16 → UInt16 → Bool) : Session × Stats × Except Err Bytes :=
  if !s.valid then
    (s, { st with numUserDataWithoutSession := st.numUserDataWithoutSession + 1 }, .error (.crypto .no_valid_session))
  else match s.algorithms.mode.read s.keys.rxKey msg destLen with
  | .error e => (s, { st with numAuthFail := st.numAuthFail + 1 }, .error (.crypto e))
  | .ok payload =>
    if now < s.param.sessionStart then (s, st, .error (.crypto .clock_rollback))
    else if now - s.param.sessionStart > s.param.maxSessionTime then
      (s, st, .error (.crypto .max_session_time_exceeded))
    else if now - s.param.sessionStart > ms msg.metadata.valid_until_ms then
      (s, { st with numTtlExpiration := st.numTtlExpiration + 1 }, .error (.crypto .expired_ttl))
    else if msg.metadata.nonce > s.param.maxNonce then
      (s, { st with numNonceFail := st.numNonceFail + 1 }, .error (.crypto .max_nonce_exceeded))
    else if !verify s.rxNonce msg.metadata.nonce then
      (s, { st with numNonceFail := st.numNonceFail + 1 }, .error (.crypto .nonce_replay))
    else ({ s with rxNonce := msg.metadata.nonce }, { st with numSuccess := st.numSuccess + 1 }, .ok payload)

/-- `Session::validate_session_auth`, Session.cpp:50-53. -/
def Session.validateAuth (s : Session) (st : Stats) (msg : SessionData) (now : Int) (destLen : Nat) :
    Session × Stats × Except Err Bytes := s.validateWith st msg now destLen equalToZero

/-- `Session::validate_session_data`, Session.cpp:55-69. -/
def Session.validateData (s : Session) (st : Stats) (msg : SessionData) (now : Int) (destLen : Nat) :
    Session × Stats × Except Err Bytes :=
  match s.validateWith st msg now destLen s.algorithms.verifyNonce with
  | (s', st', .error e) => (s', st', .error e)
  | (s', st', .ok payload) =>
    if payload = [] then (s', { st' with numAuthFail := st'.numAuthFail + 1 }, .error (.crypto .empty_user_data))
    else (s', st', .ok payload)

/-- What a format function yields: the frame, the message inside it (ghost: the frame is the frame writer
applied to it), the user data still to be sent (the `cleartext` reference parameter), or an error. -/
structure Formatted where
  frame : Bytes
  msg : SessionData

/-- `Session::format_session_data_no_nonce_check`, cpp/libs/ssp21/src/crypto/Session.cpp:146-195. Returns the
session, what is left of the cleartext (which is advanced even when the frame writer then fails), and the
result. `duration_cast` to milliseconds truncates; the value is cast to 32 bits. -/
def Session.formatNoNonceCheck (s : Session) (now : Int) (clear : Bytes) :
    Session × Bytes × Except Err Formatted :=
  if !s.valid then (s, clear, .error (.crypto .no_valid_session))
  else if now < s.param.sessionStart then (s, clear, .error (.crypto .clock_rollback))
  else
    let sessionTime := now - s.param.sessionStart
    if sessionTime > s.param.maxSessionTime then (s, clear, .error (.crypto .max_session_time_exceeded))
    else if s.param.maxSessionTime - sessionTime < ms s.ttlPadMs then
      (s, clear, .error (.crypto .max_session_time_exceeded))
    else
      let metadata : AuthMetadata :=
        ⟨s.txNonce, UInt32.ofNat ((sessionTime + ms s.ttlPadMs).tdiv 1000000).toNat⟩
      match s.algorithms.mode.write s.keys.txKey metadata clear s.encryptBufferLen with
      | .error e => (s, clear, .error (.crypto e))
      | .ok (msg, rest) =>
        match s.frameWriter.write msg.write with
        | .error e => (s, rest, .error (.format e))
        | .ok frame => ({ s with txNonce := s.txNonce + 1 }, rest, .ok ⟨frame, msg⟩)

/-- `Session::format_session_auth`, Session.cpp:71-79. -/
def Session.formatAuth (s : Session) (now : Int) (clear : Bytes) : Session × Bytes × Except Err Formatted :=
  if s.txNonce ≠ 0 then (s, clear, .error (.crypto .max_nonce_exceeded))
  else s.formatNoNonceCheck now clear

/-- `Session::format_session_data`, Session.cpp:81-89. -/
def Session.formatData (s : Session) (now : Int) (clear : Bytes) : Session × Bytes × Except Err Formatted :=
  if s.txNonce ≥ s.param.maxNonce then (s, clear, .error (.crypto .max_nonce_exceeded))
  else s.formatNoNonceCheck now clear

end SSP21
