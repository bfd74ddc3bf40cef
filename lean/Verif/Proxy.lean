import Verif.Bytes
/-
  The sessions of a TCP proxy: cpp/exe/proxy/src/tcp/TcpProxySession.cpp. A session is its id and whether its
  application side (`AsioUpperLayer`) has been opened by the crypto layer; sockets, stacks and logging are left out.
-/
namespace SSP21.Proxy

/-- An entry of the map `sessions`: the key and whether the `AsioUpperLayer` of the session is open. -/
structure Entry where
  id : UInt64
  appOpen : Bool
  deriving DecidableEq, Repr

/-- `TcpProxySession`, TcpProxySession.h:64-78: the map (ordered by key), `max_sessions` and `session_id`. -/
structure State where
  sessions : List Entry
  maxSessions : Nat
  nextId : UInt64
  deriving DecidableEq, Repr

/-- The constructor, TcpProxySession.cpp:22-34. -/
def State.new (max : UInt16) : State := ⟨[], if max = 0 then 1 else max.toNat, 0⟩

/-- `std::map::erase(key)`. -/
def State.erase (s : State) (id : UInt64) : State := { s with sessions := s.sessions.filter (·.id ≠ id) }

/-- `std::map::operator[](id) = session`: an entry with the same key is replaced, otherwise the entry is inserted where
its key belongs. -/
def insert (e : Entry) : List Entry → List Entry
  | [] => [e]
  | x :: xs => if e.id < x.id then e :: x :: xs else if e.id = x.id then e :: xs else x :: insert e xs

/-- `Session::shutdown`, cpp/exe/proxy/src/Session.h:65-69: the layers are closed from the bottom to the top; if the
application side is open it is closed and calls the error handler of the session (AsioUpperLayer.h:39-43 via
IUpperLayer.h:43-52), which is `handler` (TcpProxySession.cpp:101-103). -/
def shutdown (e : Entry) (handler : State → State) (s : State) : State := if e.appOpen then handler s else s

/-- `on_session_error`, TcpProxySession.cpp:47-55, when it is called by `shutdown` of a session that it has already
removed: there is nothing to find. -/
def State.onSessionErrorAgain (s : State) (id : UInt64) : State := s.erase id

/-- `on_session_error`, TcpProxySession.cpp:47-55. -/
def State.onSessionError (s : State) (id : UInt64) : State :=
  match s.sessions.find? (·.id = id) with
  | none => s
  | some e => shutdown e (·.onSessionErrorAgain id) (s.erase id)

/-- `sessions.erase(iterator)`: undefined behaviour (`none`) if the element is no longer in the map. -/
def State.eraseIterator (s : State) (id : UInt64) : Option State :=
  if s.sessions.any (·.id = id) then some (s.erase id) else none

/-- The eviction in the connect handler, TcpProxySession.cpp:89-96. -/
def State.makeRoom (s : State) : Option State :=
  if s.sessions.length = s.maxSessions then
    match s.sessions with
    | [] => none
    | oldest :: _ => (shutdown oldest (·.onSessionError oldest.id) s).eraseIterator oldest.id
  else some s

/-- The connect handler without an error, TcpProxySession.cpp:86-128. (`session->start()` opens the layer below the
crypto layer; the application side is opened only after a handshake.) -/
def State.connected (s : State) : Option State :=
  match s.makeRoom with
  | none => none
  | some s =>
    let id := s.nextId
    some { s with nextId := id + 1, sessions := insert ⟨id, false⟩ s.sessions }

/-- What can happen to a proxy: a connection is made, the application side of a session is opened after a handshake, the
socket of the application side fails (AsioUpperLayer.h:75-78), the socket below the crypto layer fails
(AsioLowerLayer.h:71-74: the crypto layer is closed, and with it the application side if it is open), or the crypto
layer closes the application side (CryptoLayer.cpp:186-212). -/
inductive Event
  | connected
  | opened (id : UInt64)
  | upperError (id : UInt64)
  | lowerError (id : UInt64)
  | appClosed (id : UInt64)
  deriving DecidableEq, Repr

/-- One event. `none` is undefined behaviour. -/
def State.step (s : State) : Event → Option State
  | .connected => s.connected
  | .opened id => some { s with sessions := s.sessions.map fun e => if e.id = id then { e with appOpen := true } else e }
  | .upperError id => some (s.onSessionError id)
  | .lowerError id | .appClosed id =>
    match s.sessions.find? (·.id = id) with
    | some e => some (if e.appOpen then s.onSessionError id else s)
    | none => some s

/-- A sequence of events. -/
def State.run (s : State) : List Event → Option State
  | [] => some s
  | e :: es => match s.step e with | none => none | some s' => s'.run es

end SSP21.Proxy
