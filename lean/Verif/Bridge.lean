import Verif.Machine
import Verif.Asio
/-
  The proxy's side that talks plain text: `AsioUpperLayer` (cpp/exe/proxy/src/AsioUpperLayer.h) between the crypto layer
  and the socket of the local application, with the crypto layer itself (Verif/CryptoLayer.lean) and the socket wrapper
  (Verif/Asio.lean). The layer below the crypto layer is the environment.

  Simplifications. The state is followed until the error handler of the session is called: then the session is shut down
  (Session.h:64-68). Bytes of the local application are values: that the memory they are in is not overwritten is a
  theorem (C48), not an assumption. The `write` of bytes that the crypto layer gave out is a value too, see C48 as well.
-/
namespace SSP21.Crypto.Bridge
open Asio

/-- A function that waits for another one to return: a function of the crypto layer that has called a function of
`AsioUpperLayer`, or `try_read_from_crypto` (AsioUpperLayer.h:27-32) that has called `start_rx_from_upper`.
`on_rx_complete` ignores the result of `start_tx_from_upper` and ends after it (AsioUpperLayer.h:65-69). -/
inductive Frame
  | layer (k : Layer → Run Unit)
  | read

/-- Who has control: nobody (the executor waits), a function of `AsioUpperLayer` that is about to return into the crypto
layer, the crypto layer, or the session has been shut down. -/
inductive Ctl
  | idle (s : Layer)
  | leaving (s : Layer)
  | code (r : Run Unit)
  | ended (s : Layer)

/-- `AsioUpperLayer` (AsioUpperLayer.h:85-88) with what it refers to: control, the functions that wait (innermost first)
and the socket. Ghosts: the chunks that were read from the socket, and the chunks that the socket has accepted for
writing. -/
structure State where
  ctl : Ctl
  frames : List Frame
  sock : Socket
  rawIn : List Bytes
  rawOut : List Bytes

/-- Session.h:57-62: the layers are bound together and the layer below opens (`ready` says whether it can transmit). -/
def start (c : Cfg) (handshake : InitiatorHandshake) (kind : Transport) (ready : Bool) : State :=
  ⟨.code ((Event.lowerOpen ready).run c (Layer.new c handshake)), [], Socket.new kind, [], []⟩

/-- A successful read of a TCP socket returns at least one byte; a datagram may be empty. -/
def chunkOk (kind : Transport) (d : Bytes) : Prop := kind = .tcp → d ≠ []

/-- Events of the layer below and of timers that can happen: the layer below opens once (AsioLowerLayer.h:21-28). -/
def eventOk (s : Layer) (e : Event) : Prop := e.enabled s ∧ ∀ ready, e ≠ .lowerOpen ready

/-- `try_read_from_crypto` after the call, AsioUpperLayer.h:29-31: the result of `start_rx_from_upper` is given to the
socket if it is not empty (the result of `start_tx_to_socket` is ignored). -/
def afterRead (x : State) (d : Bytes) : State :=
  if d = [] then x
  else { x with sock := x.sock.startTx.1, rawOut := if x.sock.startTx.2 then x.rawOut ++ [d] else x.rawOut }

/-- The result of `start_rx_from_upper` that has just returned. -/
def result (s : Layer) : Bytes :=
  match s.log.getLast? with
  | some (.startRx d) => d
  | _ => []

/-- Where control goes when a function of `AsioUpperLayer` ends: to the function of the crypto layer that called it, or
to the executor. -/
def leave (s : Layer) (x : State) : State := { x with ctl := if x.frames.isEmpty then .idle s else .leaving s }

/-- One step; `recv` says which messages the layer below may deliver in a given state. -/
inductive Step (c : Cfg) (recv : Layer → Bytes → Prop) : State → State → Prop
  /-- The layer below notifies the crypto layer, or a timer expires. -/
  | event (e : Event) (s : Layer) (sock : Socket) (i o : List Bytes) : eventOk s e →
      Step c recv ⟨.idle s, [], sock, i, o⟩ ⟨.code (e.run c s), [], sock, i, o⟩
  /-- A read of the socket completes: `on_rx_complete`, AsioUpperLayer.h:65-69. -/
  | received (d : Bytes) (s : Layer) (sock : Socket) (i o : List Bytes) : 0 < sock.reads → chunkOk sock.kind d →
      Step c recv ⟨.idle s, [], sock, i, o⟩ ⟨.code (startTx c d s), [], (sock.rxDone false).1, i ++ [d], o⟩
  /-- A read of the socket fails: `on_rx_or_tx_error`, AsioUpperLayer.h:78-81, or the wrapper ignores it. -/
  | rxFailed (s : Layer) (sock : Socket) (i o : List Bytes) : 0 < sock.reads →
      Step c recv ⟨.idle s, [], sock, i, o⟩
        ⟨if (sock.rxDone true).2 = .error then .ended s else .idle s, [], (sock.rxDone true).1, i, o⟩
  /-- A write to the socket completes: `on_tx_complete`, AsioUpperLayer.h:71-76. -/
  | written (s : Layer) (sock : Socket) (i o : List Bytes) : 0 < sock.writes →
      Step c recv ⟨.idle s, [], sock, i, o⟩ ⟨.code (startRx s), [.read], (sock.txDone false).1, i, o⟩
  /-- A write to the socket fails: `on_rx_or_tx_error`, AsioUpperLayer.h:78-81, or the wrapper ignores it. -/
  | txFailed (s : Layer) (sock : Socket) (i o : List Bytes) : 0 < sock.writes →
      Step c recv ⟨.idle s, [], sock, i, o⟩
        ⟨if (sock.txDone true).2 = .error then .ended s else .idle s, [], (sock.txDone true).1, i, o⟩
  /-- The crypto layer asks executor, random generator or key store. -/
  | ask (f : Fresh) (k : Fresh → Run Unit) (fs : List Frame) (sock : Socket) (i o : List Bytes) : f.ok →
      Step c recv ⟨.code (.ask k), fs, sock, i, o⟩ ⟨.code (k f), fs, sock, i, o⟩
  /-- The crypto layer reads from the layer below. -/
  | recv (m : Bytes) (s : Layer) (k : Bytes → Run Unit) (fs : List Frame) (sock : Socket) (i o : List Bytes) : recv s m →
      Step c recv ⟨.code (.recv s k), fs, sock, i, o⟩ ⟨.code (k m), fs, sock, i, o⟩
  /-- The receive loop of the crypto layer. -/
  | loop (s : Layer) (k : Layer → Run Unit) (fs : List Frame) (sock : Socket) (i o : List Bytes) :
      Step c recv ⟨.code (.loop s k), fs, sock, i, o⟩
        ⟨.code ((tryReadOne c s).bind (fun again s' => if again then .loop s' k else k s')), fs, sock, i, o⟩
  /-- `on_lower_open_impl`, AsioUpperLayer.h:36-39. -/
  | opened (s : Layer) (k : Layer → Run Unit) (fs : List Frame) (sock : Socket) (i o : List Bytes) :
      Step c recv ⟨.code (.up .opened s k), fs, sock, i, o⟩ ⟨.leaving s, .layer k :: fs, sock.startRx, i, o⟩
  /-- `on_lower_tx_ready_impl`, AsioUpperLayer.h:47-51. -/
  | txReady (s : Layer) (k : Layer → Run Unit) (fs : List Frame) (sock : Socket) (i o : List Bytes) :
      Step c recv ⟨.code (.up .txReady s k), fs, sock, i, o⟩ ⟨.leaving s, .layer k :: fs, sock.startRx, i, o⟩
  /-- `on_lower_rx_ready_impl` while a write is in progress, AsioUpperLayer.h:53-59. -/
  | rxReadyBusy (s : Layer) (k : Layer → Run Unit) (fs : List Frame) (sock : Socket) (i o : List Bytes) :
      sock.txActive = true →
      Step c recv ⟨.code (.up .rxReady s k), fs, sock, i, o⟩ ⟨.leaving s, .layer k :: fs, sock, i, o⟩
  /-- `on_lower_rx_ready_impl` otherwise: `try_read_from_crypto`. -/
  | rxReady (s : Layer) (k : Layer → Run Unit) (fs : List Frame) (sock : Socket) (i o : List Bytes) :
      sock.txActive = false →
      Step c recv ⟨.code (.up .rxReady s k), fs, sock, i, o⟩ ⟨.code (startRx s), .read :: .layer k :: fs, sock, i, o⟩
  /-- `on_lower_close_impl`, AsioUpperLayer.h:41-45. -/
  | closed (s : Layer) (k : Layer → Run Unit) (fs : List Frame) (sock : Socket) (i o : List Bytes) :
      Step c recv ⟨.code (.up .closed s k), fs, sock, i, o⟩ ⟨.ended s, fs, sock.tryClose, i, o⟩
  /-- A function of `AsioUpperLayer` returns into the crypto layer. -/
  | ret (s : Layer) (k : Layer → Run Unit) (fs : List Frame) (sock : Socket) (i o : List Bytes) :
      Step c recv ⟨.leaving s, .layer k :: fs, sock, i, o⟩ ⟨.code (k s), fs, sock, i, o⟩
  /-- `start_rx_from_upper` returns into `try_read_from_crypto`. -/
  | doneRead (s : Layer) (fs : List Frame) (sock : Socket) (i o : List Bytes) :
      Step c recv ⟨.code (.done () s), .read :: fs, sock, i, o⟩
        (leave s (afterRead ⟨.idle s, fs, sock, i, o⟩ (result s)))
  /-- A function of the crypto layer that the executor, the layer below or `on_rx_complete` has called returns. -/
  | done (s : Layer) (sock : Socket) (i o : List Bytes) :
      Step c recv ⟨.code (.done () s), [], sock, i, o⟩ ⟨.idle s, [], sock, i, o⟩

/-- The states that can be reached after `Session::start`. -/
inductive Reachable (c : Cfg) (kind : Transport) (E : Env) : State → Prop
  | start (handshake : InitiatorHandshake) (ready : Bool) : handshake.Configured c.backend c.caps → E.config handshake →
      Reachable c kind E (start c handshake kind ready)
  | step {x y : State} : Reachable c kind E x → Step c E.recv x y → Reachable c kind E y

/-- An execution. -/
inductive Steps (c : Cfg) (E : Env) : State → State → Prop
  | refl (x : State) : Steps c E x x
  | step {x y z : State} : Steps c E x y → Step c E.recv y z → Steps c E x z

end SSP21.Crypto.Bridge
