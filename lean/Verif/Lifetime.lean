import Verif.Tool
import Verif.Asio
/-
  The lifetime of a session of a proxy: cpp/exe/proxy/src/Session.h, AsioUpperLayer.h, AsioLowerLayer.h, and how the two
  proxies use it, tcp/TcpProxySession.cpp and udp/UdpProxySession.cpp.

  A session owns its sockets, layers and stack; it is owned by shared pointers, and the completion handlers of its sockets
  and its stack refer to it by plain pointers. The stack (Verif/CryptoLayer.lean) is replaced by one that does anything at
  all (`Act`) while it is open, one session is followed, and of other sessions only whether the next one of a UDP proxy
  has been started (its sockets are bound to the same addresses).
-/
namespace SSP21.Lifetime
open Asio
open Tool (Outcome)

/-- A `Session` (Session.h:86-93): the two sockets, the `is_open_flag` of the stack and of the `AsioUpperLayer`
(cpp/libs/ssp21/include/ssp21/stack/IUpperLayer.h:125), and its owners: the member `sessions` or `session` of the proxy (TcpProxySession.h:64,
UdpProxySession.h:42), posted calls of `check_for_close` (Session.h:72-79), and local variables of functions that have not
returned (TcpProxySession.cpp:51). `restarted`: a UDP proxy has started the next session. -/
structure Sess where
  lower : Socket
  upper : Socket
  linkOpen : Bool
  appOpen : Bool
  inMap : Bool
  polls : Nat
  locals : Nat
  restarted : Bool
  deriving DecidableEq, Repr

/-- There is an owner. -/
def Sess.alive (s : Sess) : Bool := s.inMap || 0 < s.polls || 0 < s.locals

/-- Access to a member of the session or its stack: undefined behaviour when it has been destroyed. -/
def Sess.touch (s : Sess) : Outcome Sess := if s.alive then .ok s else .fault

/-- `check_for_close` and `is_shutdown`, Session.h:72-84 (the posted call refers to the session). -/
def Sess.check (s : Sess) : Sess := if s.lower.active || s.upper.active then { s with polls := s.polls + 1 } else s

/-- `on_lower_close` of the stack (IUpperLayer.h:43-52): `CryptoLayer::on_lower_close_impl`
(cpp/libs/ssp21/src/crypto/CryptoLayer.cpp:86-96) closes the `AsioUpperLayer` if it is open, which closes its socket and
calls the error handler (AsioUpperLayer.h:39-43), and afterwards resets members of the crypto layer. -/
def Sess.closeStack (handler : Sess → Outcome Sess) (s : Sess) : Outcome Sess :=
  if s.linkOpen then
    if s.appOpen then do
      let s ← handler { s with linkOpen := false, appOpen := false, upper := s.upper.tryClose }
      s.touch
    else .ok { s with linkOpen := false }
  else .ok s

/-- `shutdown`, Session.h:65-69, with `AsioLowerLayer::close`, AsioLowerLayer.h:30-34. -/
def Sess.shutdown (handler : Sess → Outcome Sess) (s : Sess) : Outcome Sess := do
  let s ← Sess.closeStack handler { s with lower := s.lower.tryClose }
  let s ← s.touch
  .ok s.check

/-- `TcpProxySession::on_session_error`, TcpProxySession.cpp:47-55; called again inside by the session that has been
removed it does nothing. -/
def Sess.tcpError (s : Sess) : Outcome Sess :=
  if s.inMap then do
    let s ← Sess.shutdown .ok { s with inMap := false, locals := s.locals + 1 }
    .ok { s with locals := s.locals - 1 }
  else .ok s

/-- `UdpProxySession::start_session`, UdpProxySession.cpp:55-99: binding an address that is in use is an exception; the
pointer to the old session is overwritten. -/
def Sess.restart (s : Sess) : Outcome Sess :=
  if s.restarted || s.lower.isOpen || s.upper.isOpen then .throw else .ok { s with restarted := true, inMap := false }

/-- `UdpProxySession::on_session_error`, UdpProxySession.cpp:47-53, when it is called inside itself: the stack is closed
already. -/
def Sess.udpErrorAgain (s : Sess) : Outcome Sess := do
  let s ← Sess.shutdown .ok s
  s.restart

/-- `UdpProxySession::on_session_error`, UdpProxySession.cpp:47-53. -/
def Sess.udpError (s : Sess) : Outcome Sess := do
  let s ← Sess.shutdown Sess.udpErrorAgain s
  s.restart

/-- The error handler of the session, TcpProxySession.cpp:101-103, UdpProxySession.cpp:57-59. -/
def Sess.error (s : Sess) : Outcome Sess :=
  match s.lower.kind with
  | .tcp => s.tcpError
  | .udp => s.udpError

/-- What the stack does with the sockets: read and write below (AsioLowerLayer.h:39-60), open the application side, read
from and write to the local application (AsioUpperLayer.h:25-57), and close the application side because a message could
not be made (CryptoLayer.cpp:186-205). -/
inductive Act
  | readBelow | writeBelow | openApp | readApp | writeApp | closeApp
  deriving DecidableEq, Repr

/-- One action of the stack. `start_rx_from_upper` of the crypto layer does not ask whether the layer is open
(CryptoLayer.cpp:42-50): even a closed stack reads from below and answers what it finds there. Nothing else happens in a
closed stack: the notifications ask for `is_open_flag` (IUpperLayer.h:60-84), `start_tx_from_upper` for `is_open`
(CryptoLayer.cpp:31-61), it has no payload (86-96), no valid session, and the timers have been cancelled
(Initiator.cpp:107-113). -/
def Sess.act (s : Sess) (a : Act) : Outcome Sess := do
  let s ← s.touch
  match a with
  | .readBelow => .ok { s with lower := s.lower.startRx }
  | .writeBelow => .ok { s with lower := s.lower.startTx.1 }
  | .openApp => if s.linkOpen && !s.appOpen then .ok { s with appOpen := true, upper := s.upper.startRx } else .ok s
  | .readApp => if s.appOpen then .ok { s with upper := s.upper.startRx } else .ok s
  | .writeApp => if s.appOpen then .ok { s with upper := s.upper.startTx.1 } else .ok s
  | .closeApp => if s.appOpen then Sess.error { s with appOpen := false, upper := s.upper.tryClose } else .ok s

/-- What the stack does, one after the other. -/
def Sess.acts (s : Sess) : List Act → Outcome Sess
  | [] => .ok s
  | a :: as => do
    let s ← s.act a
    s.acts as

/-- What the executor runs: the completion handlers of the four socket operations, timers of the stack, `check_for_close`;
and a TCP proxy evicts the session for a new connection. `as` is what the stack does then. -/
inductive Ev
  | belowRx (failed : Bool) (as : List Act)
  | belowTx (failed : Bool) (as : List Act)
  | appRx (failed : Bool) (as : List Act)
  | appTx (failed : Bool) (as : List Act)
  | timer (as : List Act)
  | poll
  | evict
  deriving Repr

/-- The event can happen. (Eviction while the application side is open is property C42.) -/
def Ev.enabled (s : Sess) : Ev → Bool
  | .belowRx _ _ => 0 < s.lower.reads
  | .belowTx _ _ => 0 < s.lower.writes
  | .appRx _ _ => 0 < s.upper.reads
  | .appTx _ _ => 0 < s.upper.writes
  | .timer _ => s.linkOpen
  | .poll => 0 < s.polls
  | .evict => s.inMap && !s.appOpen && decide (s.lower.kind = .tcp)

/-- What the completion handlers of the socket below call, AsioLowerLayer.h:65-79: a closed stack ignores it. -/
def Sess.below (s : Sess) (n : Notice) (as : List Act) : Outcome Sess :=
  match n with
  | .error => Sess.closeStack Sess.error s
  | .complete => if s.linkOpen then s.acts as else .ok s
  | .nothing => .ok s

/-- What the completion handlers of the local socket call, AsioUpperLayer.h:62-78. -/
def Sess.app (s : Sess) (n : Notice) (as : List Act) : Outcome Sess :=
  match n with
  | .error => s.error
  | .complete => s.acts as
  | .nothing => .ok s

/-- One event. Every completion handler begins with an access to its socket wrapper. A closed stack refuses what was
received from the local application, but reads when something has been written to it (see `act`). -/
def Sess.step (s : Sess) : Ev → Outcome Sess
  | .belowRx f as => do let s ← s.touch; Sess.below { s with lower := (s.lower.rxDone f).1 } (s.lower.rxDone f).2 as
  | .belowTx f as => do let s ← s.touch; Sess.below { s with lower := (s.lower.txDone f).1 } (s.lower.txDone f).2 as
  | .appRx f as => do
    let s ← s.touch
    Sess.app { s with upper := (s.upper.rxDone f).1 } (s.upper.rxDone f).2 (if s.appOpen then as else [])
  | .appTx f as => do
    let s ← s.touch
    Sess.app { s with upper := (s.upper.txDone f).1 } (s.upper.txDone f).2 as
  | .timer as => s.acts as
  | .poll => do let s ← s.touch; .ok (Sess.check { s with polls := s.polls - 1 })
  | .evict => do let s ← Sess.shutdown Sess.error s; .ok { s with inMap := false }

/-- `Session::start`, Session.h:58-63: the layer below starts to read and opens the stack, which may do something. -/
def Sess.start (kind : Transport) (as : List Act) : Outcome Sess :=
  Sess.acts ⟨(Socket.new kind).startRx, Socket.new kind, true, false, true, 0, 0, false⟩ as

/-- The states that a session can be in between two events. -/
inductive Reachable (kind : Transport) : Sess → Prop
  | start (as : List Act) (s : Sess) : Sess.start kind as = .ok s → Reachable kind s
  | step {s s' : Sess} (e : Ev) : Reachable kind s → e.enabled s = true → s.step e = .ok s' → Reachable kind s'

end SSP21.Lifetime
