import Verif.Spec.Inevitable
import Verif.Props.Agreement
/-
  What it means that a handshake over a faithful network succeeds (property C57).
-/
namespace SSP21.Crypto

namespace Spec

/-- The frames that the layer below accepted for transmission. -/
def framesSent (log : List Obs) : List Bytes :=
  log.filterMap fun | .lowerTx f true => some f | _ => none

/-- Between `s` and `s'` the layer transmitted exactly one frame; the message in it is `m`. -/
def SendsOne (c : Cfg) (s s' : Layer) (m : Bytes) : Prop :=
  framesSent s'.log = framesSent s.log ++ [c.fw.wrap m]

/-- The message `m` arrives at a layer whose last transmission is being completed: it is there when the layer below says so,
or (`late`) it comes some time afterwards. -/
def Arrives (c : Cfg) (A : Fresh → Prop) (T : Int) (late : Bool) (t : Int) (m : Bytes) (s : Layer) (Q : Int → Layer → Prop) : Prop :=
  if late then Leads c A T .lowerTxReady t [] s fun t' s' => Leads c A T .lowerRxReady t' [m] s' Q
  else Leads c A T .lowerTxReady t [m] s Q

/-- The application has nothing to do with the layer at the moment: no data is being transmitted, none waits to be read. -/
def Unoccupied (s : Layer) : Prop := s.tx.isIdle = true ∧ s.payloadLen = 0

/-- The events that make an initiator begin a handshake at once: the layer below opens, ready to transmit; the retry timer
or the session timer expires while the layer below is ready; it becomes ready when a handshake is due. -/
inductive BeginsAt (s : Layer) : Event → Prop
  | opening : s.isOpen = false → BeginsAt s (.lowerOpen true)
  | retry : s.isOpen = true → s.lowerReady = true → (Event.expiry .retry).enabled s → BeginsAt s (.expiry .retry)
  | session : s.isOpen = true → s.lowerReady = true → (Event.expiry .session).enabled s → BeginsAt s (.expiry .session)
  | due : s.isOpen = true → s.ini.hs = .idle → s.ini.required = true → BeginsAt s .lowerTxReady

/-- What a station shows of its identity: the certificate data of the public key modes. -/
def certificatesI (h : InitiatorHandshake) : Bytes :=
  match h.mode with
  | .publicKey _ certs _ => certs.data
  | _ => []
def certificatesR : ResponderHandshake → Bytes
  | .publicKey _ certs => certs.data
  | _ => []

/-- An initiator and a responder that have what it takes: matching credentials, the same algorithms available, public keys
that can be combined with private ones, frames that have room for the handshake messages, buffers of the usual
size and, with quantum keys, a key (`record`) from the source. -/
structure Equipped (c c' : Cfg) (E : Env) (limits : SessionLimits) (record : Option (UInt64 × Bytes)) : Prop where
  peers : Peers c c' E limits
  caps : c'.caps = c.caps
  exchange : ∀ x y, (c.backend.dhRaw x (c.backend.dhPublic y)).isSome
  room : ∀ h, E.config h → 64 + (certificatesI h).length ≤ c.fw.maxPayload.toNat
  room' : ∀ rh, c'.role = .responder rh → 64 + (certificatesR rh).length ≤ c'.fw.maxPayload.toNat
  buffer : 1024 ≤ c.bufLen ∧ c.bufLen ≤ 65535
  buffer' : 1024 ≤ c'.bufLen ∧ c'.bufLen ≤ 65535
  quantum : c'.role = .responder .qkd → record.isSome

/-- The source of the initiator delivers `record`, the store of the responder has it. -/
def Source (record : Option (UInt64 × Bytes)) (f : Fresh) : Prop := f.record = record
def Store (record : Option (UInt64 × Bytes)) (f : Fresh) : Prop := ∀ id key, record = some (id, key) → f.lookup id = some key

/-- The applications of both sides are open and the two active sessions are the two ends of one association: what one
sends with, the other receives with, same algorithms, same limits, and the first data messages have nonce 1. -/
structure Connected (c : Cfg) (limits : SessionLimits) (s r : Layer) : Prop where
  openI : s.upperOpen = true
  openR : r.upperOpen = true
  validI : s.active.valid = true
  validR : r.active.valid = true
  toResponder : s.active.keys.txKey = r.active.keys.rxKey
  toInitiator : s.active.keys.rxKey = r.active.keys.txKey
  algorithms : s.active.algorithms = r.active.algorithms
  standard : s.active.algorithms.Standard c.backend
  maxNonce : s.active.param.maxNonce = limits.maxNonce ∧ r.active.param.maxNonce = limits.maxNonce
  maxTime : s.active.param.maxSessionTime = ms limits.maxSessionTimeMs ∧ r.active.param.maxSessionTime = ms limits.maxSessionTimeMs
  nonces : s.active.txNonce = 1 ∧ s.active.rxNonce = 0 ∧ r.active.txNonce = 1 ∧ r.active.rxNonce = 0

end Spec

end SSP21.Crypto
