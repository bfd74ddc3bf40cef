import Verif.Stack
import Verif.Bytes
/-
  The glue between sockets and the library in the proxy: the two socket wrappers and the layer below the stack
  (cpp/exe/proxy/src/tcp/AsioTcpSocketWrapper.h, udp/AsioUdpSocketWrapper.h, AsioLowerLayer.h). The sockets themselves
  belong to asio and the operating system: an operation that was started completes once, at a moment of the
  environment's choosing, with an error or not. Completion handlers run on the executor, one after the other, and never
  inside the functions that start operations.
-/
namespace SSP21.Asio

/-- Which of the two implementations of `IAsioSocketWrapper` it is. -/
inductive Transport
  | tcp | udp
  deriving DecidableEq, Repr

/-- `AsioTcpSocketWrapper` (AsioTcpSocketWrapper.h:123-129) and `AsioUdpSocketWrapper` (AsioUdpSocketWrapper.h:129-138):
`isOpen` is `socket.is_open()`, `rxOpen` and `txOpen` exist only for UDP. The buffer is a member of the users below.
`reads` and `writes` are the asynchronous operations that have been given to asio and have not completed. -/
structure Socket where
  kind : Transport
  isOpen : Bool
  rxOpen : Bool
  txOpen : Bool
  rxActive : Bool
  txActive : Bool
  reads : Nat
  writes : Nat
  deriving DecidableEq, Repr

/-- A new wrapper around an open socket, AsioTcpSocketWrapper.h:23-29, AsioUdpSocketWrapper.h:24-31. -/
def Socket.new (kind : Transport) : Socket := ⟨kind, true, false, false, false, false, 0, 0⟩

/-- `try_close_socket`, AsioTcpSocketWrapper.h:31-41, AsioUdpSocketWrapper.h:33-46 (the result is never used). -/
def Socket.tryClose (s : Socket) : Socket :=
  if s.isOpen then { s with isOpen := false, rxOpen := false, txOpen := false } else s

/-- `start_rx_from_socket`, AsioTcpSocketWrapper.h:43-76, AsioUdpSocketWrapper.h:48-81: the state afterwards (the result
is never used). UDP does not ask whether the socket is open. -/
def Socket.startRx (s : Socket) : Socket :=
  match s.kind with
  | .tcp => if !s.isOpen || s.rxActive then s else { s with rxActive := true, reads := s.reads + 1 }
  | .udp => if s.rxActive then s else { s with rxActive := true, reads := s.reads + 1 }

/-- `start_tx_to_socket`, AsioTcpSocketWrapper.h:78-105, AsioUdpSocketWrapper.h:83-111: the state afterwards and the
result. -/
def Socket.startTx (s : Socket) : Socket × Bool :=
  match s.kind with
  | .tcp => if !s.isOpen || s.txActive then (s, false) else ({ s with txActive := true, writes := s.writes + 1 }, true)
  | .udp => if s.txActive then (s, false) else ({ s with txActive := true, writes := s.writes + 1 }, true)

/-- What a completion handler calls: `on_rx_complete` or `on_tx_complete`, `on_rx_or_tx_error`, or nothing. -/
inductive Notice
  | complete | error | nothing
  deriving DecidableEq, Repr

/-- The completion handler of a read, AsioTcpSocketWrapper.h:48-65, AsioUdpSocketWrapper.h:53-70. -/
def Socket.rxDone (s : Socket) (failed : Bool) : Socket × Notice :=
  match s.kind with
  | .tcp =>
    if failed then
      if s.isOpen then (({ s with rxActive := false, reads := s.reads - 1 } : Socket).tryClose, .error)
      else ({ s with rxActive := false, reads := s.reads - 1 }, .nothing)
    else ({ s with rxActive := false, reads := s.reads - 1 }, .complete)
  | .udp =>
    if failed then ({ s with rxActive := false, reads := s.reads - 1 }, if s.rxOpen then .error else .nothing)
    else ({ s with rxActive := false, reads := s.reads - 1, rxOpen := true }, .complete)

/-- The completion handler of a write, AsioTcpSocketWrapper.h:83-96, AsioUdpSocketWrapper.h:88-102. -/
def Socket.txDone (s : Socket) (failed : Bool) : Socket × Notice :=
  match s.kind with
  | .tcp =>
    if failed then
      if s.isOpen then (({ s with txActive := false, writes := s.writes - 1 } : Socket).tryClose, .error)
      else ({ s with txActive := false, writes := s.writes - 1 }, .nothing)
    else ({ s with txActive := false, writes := s.writes - 1 }, .complete)
  | .udp =>
    if failed then ({ s with txActive := false, writes := s.writes - 1 }, if s.txOpen then .error else .nothing)
    else ({ s with txActive := false, writes := s.writes - 1, txOpen := true }, .complete)

/-- `IAsioSocketWrapper::is_active`, IAsioSocketWrapper.h:20-23. -/
def Socket.active (s : Socket) : Bool := s.rxActive || s.txActive

/-! ### The layer below the stack -/

/-- `AsioLowerLayer` (AsioLowerLayer.h:86-89) with its socket, the receive buffer of the socket wrapper (`mem`) and the
flag of its base class (ILowerLayer.h:106). `unread_data` is the slice of the first `unread` bytes of the buffer
(AsioTcpSocketWrapper.h:58, AsioUdpSocketWrapper.h:63). -/
structure Lower where
  sock : Socket
  mem : Bytes
  unread : Nat
  flag : Bool

/-- The bytes `unread_data` points to. -/
def Lower.slice (l : Lower) : Bytes := l.mem.take l.unread

/-- The state after `open`, AsioLowerLayer.h:21-28 (which notifies the stack at the end). -/
def Lower.opened (kind : Transport) (mem : Bytes) : Lower := ⟨(Socket.new kind).startRx, mem, 0, false⟩

/-- What happens: while a read is outstanding the operating system may write into the buffer (`scribble`); a read
completes, successfully (`received`: the data is at the start of the buffer) or not; a write completes; the stack calls
`start_rx_from_upper` or `start_tx_from_upper`; the session calls `close`. -/
inductive LowerEv
  | scribble (mem : Bytes)
  | received (data : Bytes)
  | rxFailed
  | txDone (failed : Bool)
  | read
  | write (frame : Bytes)
  | close
  deriving DecidableEq

/-- What the stack sees: the results of its calls and notifications. -/
inductive LowerOut
  | data (d : Bytes)
  | accepted (ok : Bool)
  | up (n : Stack.Signal)
  deriving DecidableEq

/-- An operation of the operating system can proceed or complete only if it is outstanding. -/
def LowerEv.enabled (l : Lower) : LowerEv → Bool
  | .scribble _ | .received _ | .rxFailed => 0 < l.sock.reads
  | .txDone _ => 0 < l.sock.writes
  | _ => true

/-- `start_rx_from_upper` (ILowerLayer.h:49-63) with `discard_rx_data` and `start_rx_from_upper_impl`,
AsioLowerLayer.h:49-60. -/
def Lower.read (l : Lower) : Lower × Bytes :=
  let l := if l.flag then { l with unread := 0, flag := false } else l
  let l := if l.unread = 0 then { l with sock := l.sock.startRx } else l
  ({ l with flag := if l.slice ≠ [] then true else l.flag }, l.slice)

/-- One event: `on_rx_complete`, `on_rx_or_tx_error`, `on_tx_complete` (AsioLowerLayer.h:65-79), `start_tx_from_upper`
(39-42), `close` (30-34). The notifications are the last thing these functions do: what the stack does inside is the
same as doing it in the next event. -/
def Lower.step (l : Lower) : LowerEv → Lower × List LowerOut
  | .scribble m => ({ l with mem := m }, [])
  | .received d =>
    let sock := (l.sock.rxDone false).1
    ({ l with sock, mem := d ++ l.mem.drop d.length, unread := d.length }, [.up .rxReady])
  | .rxFailed =>
    let (sock, n) := l.sock.rxDone true
    ({ l with sock }, if n = .error then [.up .closed] else [])
  | .txDone failed =>
    let (sock, n) := l.sock.txDone failed
    ({ l with sock }, match n with | .complete => [.up .txReady] | .error => [.up .closed] | .nothing => [])
  | .read => let (l, d) := l.read; (l, [.data d])
  | .write _ => let (sock, ok) := l.sock.startTx; ({ l with sock }, [.accepted ok])
  | .close => ({ l with sock := l.sock.tryClose }, [.up .closed])

/-- `is_tx_ready`, AsioLowerLayer.h:44-47. -/
def Lower.txReady (l : Lower) : Bool := !l.sock.txActive

/-- Events, each of which has to be enabled, and what the stack sees. -/
def Lower.run (l : Lower) : List LowerEv → Option (Lower × List LowerOut)
  | [] => some (l, [])
  | e :: es =>
    if e.enabled l then
      match (l.step e).1.run es with
      | none => none
      | some (l', outs) => some (l', (l.step e).2 ++ outs)
    else none

end SSP21.Asio
