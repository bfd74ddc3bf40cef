import Verif.Spec.Success
import Verif.Props.Transfer
/-
  What it means that data is carried from one station to the other (property C58).
-/
namespace SSP21.Crypto

namespace Spec

/-- One step of a layer and of an application that reads: told that data is there, it takes it before it returns; from every
other call it returns at once. -/
inductive Play (c : Cfg) (A : Fresh → Prop) (T : Int) : Timed → Timed → Prop
  | tick {x y : Timed} : Tick c A T x y → Play c A T x y
  | read (t : Int) (ms : List Bytes) (s : Layer) (k : Layer → Run Unit) (st : List (Layer → Run Unit)) :
      s.log.getLast? = some (.up .rxReady) → Play c A T ⟨t, ms, ⟨.env s, k :: st⟩⟩ ⟨t, ms, ⟨.code (Api.startRx.run c s), k :: st⟩⟩
  | ret (t : Int) (ms : List Bytes) (s : Layer) (k : Layer → Run Unit) (st : List (Layer → Run Unit)) :
      s.log.getLast? ≠ some (.up .rxReady) → Play c A T ⟨t, ms, ⟨.env s, k :: st⟩⟩ ⟨t, ms, ⟨.code (k s), st⟩⟩

/-- A call of the layer - an event or a call of the application - at time `t`, with the messages `ms` waiting below, comes
to its end, and then `Q` holds of the time, the messages still waiting and the state. -/
def Serves (c : Cfg) (A : Fresh → Prop) (T : Int) (call : M Unit) (t : Int) (ms : List Bytes) (s : Layer)
    (Q : Int → List Bytes → Layer → Prop) : Prop :=
  Inevitable (Play c A T) (fun x => ∃ s', x.config = ⟨.env s', []⟩ ∧ Q x.clock x.inbox s') ⟨t, ms, ⟨.code (call s), []⟩⟩

/-- The pieces of data that the application has been given. -/
def piecesRead (log : List Obs) : List Bytes :=
  log.filterMap fun | .startRx (x :: xs) => some (x :: xs) | _ => none

/-- How often the application has been told that it may transmit again. -/
def timesReady (log : List Obs) : Nat := log.countP fun | .up .txReady => true | _ => false

/-- The message `m` is on its way and the application asks for data: the message is there before it asks (`early`), or it
asks, gets nothing, and the message comes afterwards. -/
def Takes (c : Cfg) (A : Fresh → Prop) (T : Int) (early : Bool) (t : Int) (m : Bytes) (s : Layer) (Q : Int → Layer → Prop) : Prop :=
  if early then Serves c A T (Event.lowerRxReady.run c) t [m] s fun t' ms' s' =>
    Serves c A T (Api.startRx.run c) t' ms' s' fun t'' ms'' s'' => ms'' = [] ∧ Q t'' s''
  else Serves c A T (Api.startRx.run c) t [] s fun t' ms' s' => ms' = [] ∧
    Serves c A T (Event.lowerRxReady.run c) t' [m] s' fun t'' ms'' s'' => ms'' = [] ∧ Q t'' s''

/-- The sender `s` has just transmitted the message `m` with the first of the pieces and the receiver `r` is to get it: its
application is given this piece and nothing else. When the transmission is complete the sender transmits one message
with the next piece, for which the same is true; after the last piece the application of the sender is told, once, that it may transmit again,
and nothing more is transmitted. -/
def Carried (c c' : Cfg) (A A' : Fresh → Prop) (T U : Int) (early : Nat → Bool) : List Bytes → Int → Bytes → Layer → Int → Layer → Prop
  | [], _, _, _, _, _ => False
  | p :: ps, t, m, s, u, r =>
    Takes c' A' U (early ps.length) u m r fun u' r' => piecesRead r'.log = piecesRead r.log ++ [p] ∧
    Serves c A T (Event.lowerTxReady.run c) t [] s fun t' _ s' =>
      (ps = [] → framesSent s'.log = framesSent s.log ∧ timesReady s'.log = timesReady s.log + 1 ∧ s'.tx.isIdle = true) ∧
      (ps ≠ [] → timesReady s'.log = timesReady s.log ∧
        ∃ m', SendsOne c s s' m' ∧ Carried c c' A A' T U early ps t' m' s' u' r')

/-- The active sessions of `s` and `r` belong together and nothing is on its way from `s` to `r`: `r` has received the last
message of `s`. -/
structure Linked (s r : Layer) : Prop where
  valid : s.active.valid = true
  valid' : r.active.valid = true
  key : r.active.keys.rxKey = s.active.keys.txKey
  algorithms : r.active.algorithms = s.active.algorithms
  limit : r.active.param.maxNonce = s.active.param.maxNonce
  next : s.active.txNonce.toNat = r.active.rxNonce.toNat + 1

/-- The layer and its application are open and it is ready to transmit. -/
structure Up (s : Layer) : Prop where
  isOpen : s.isOpen = true
  upperOpen : s.upperOpen = true
  ready : s.lowerReady = true

/-- An initiator has no reason to renegotiate before it has sent or received `n` more messages. -/
def Settled (c : Cfg) (s : Layer) (n : Nat) : Prop :=
  ∀ params limits, c.role = .initiator params limits → (s.ini.required = true → s.ini.hs ≠ .idle) ∧
    s.active.txNonce.toNat + n < params.nonceTrigger.toNat ∧ s.active.rxNonce.toNat + n < params.nonceTrigger.toNat

/-- Any answers of the random generator and the key store. -/
def anyAnswer : Fresh → Prop := fun _ => True

end Spec

end SSP21.Crypto
