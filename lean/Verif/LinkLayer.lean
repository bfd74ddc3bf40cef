import Verif.LinkParser
/-
  The link layer: frames in from the layer below, payloads out to the layer above.

  The layer below is represented by the queue of chunks it will hand out: each call of its
  `start_rx_from_upper` returns the next chunk (an empty chunk, or an empty queue, means "nothing now").
  Callbacks into the layer above are recorded as outputs; they are in tail position in the code
  (LinkLayer.cpp:15-35), so what the layer above does inside a callback is the same as doing it in the
  next event.
-/
namespace SSP21.Link

/-- `LinkLayer` (cpp/libs/ssp21/src/link/LinkLayer.h:12-61) with the flags of its base classes:
`isOpen` is `IUpperLayer::is_open_flag` (include/ssp21/stack/IUpperLayer.h:125), `rxFlag` is
`ILowerLayer::upper_is_processing_rx_data` (include/ssp21/stack/ILowerLayer.h:106). `remote_addr` is
never used by the code. -/
structure Layer where
  localAddr : UInt16
  parser : Parser
  remainder : Bytes
  isOpen : Bool
  rxFlag : Bool

/-- The constructor, cpp/libs/ssp21/src/link/LinkLayer.cpp:6-11. -/
def Layer.new (localAddr : UInt16) : Layer :=
  { localAddr, parser := Parser.new 4092, remainder := [], isOpen := false, rxFlag := false }

/-- The layer, the chunks waiting in the layer below, and (ghost) all bytes obtained from it so far. -/
structure World where
  layer : Layer
  queue : List Bytes
  pulled : Bytes

/-- One call of `lower->start_rx_from_upper()`. -/
def World.pull (w : World) : World × Bytes :=
  match w.queue with
  | [] => (w, [])
  | c :: cs => ({ w with queue := cs, pulled := w.pulled ++ c }, c)

/-- `LinkLayer::read_frame_one_iteration` with `LinkLayer::parse`,
cpp/libs/ssp21/src/link/LinkLayer.cpp:81-95. The flag is "continue". -/
def readFrameOneIteration (w : World) : Option (World × Bool) :=
  if w.layer.remainder = [] then
    let (w', c) := w.pull
    some ({ w' with layer := { w'.layer with remainder := c } }, !c.isEmpty)
  else
    (w.layer.parser.parse w.layer.remainder).bind fun (p, rest, avail) =>
      some ({ w with layer := { w.layer with parser := p, remainder := rest } }, !avail)

/-- The loop of `LinkLayer::get_frame`, cpp/libs/ssp21/src/link/LinkLayer.cpp:75-76, allowed `fuel`
iterations (a fault when they do not suffice). -/
def getFrameLoop : Nat → World → Option World
  | 0, _ => none
  | fuel + 1, w =>
    (readFrameOneIteration w).bind fun (w', continue_) =>
      if continue_ then getFrameLoop fuel w' else some w'

/-- `LinkLayer::get_frame`, cpp/libs/ssp21/src/link/LinkLayer.cpp:70-79. -/
def getFrame (w : World) : Option (World × Bool) :=
  if w.layer.parser.hasResult then some (w, true)
  else (getFrameLoop (2 * w.queue.length + 2) w).bind fun w' => some (w', w'.layer.parser.hasResult)

/-- `LinkLayer::start_rx_from_upper_impl`, cpp/libs/ssp21/src/link/LinkLayer.cpp:39-50. -/
def startRxImpl (w : World) : Option (World × Bytes) :=
  (getFrame w).bind fun (w', ok) =>
    if ok then
      match w'.layer.parser.read with
      | some f => some (w', if f.destination = w'.layer.localAddr then f.payload else [])
      | none => some (w', [])
    else some (w', [])

/-- `ILowerLayer::start_rx_from_upper` (include/ssp21/stack/ILowerLayer.h:49-63) with
`LinkLayer::discard_rx_data` (LinkLayer.cpp:57-60). -/
def startRx (w : World) : Option (World × Bytes) :=
  let w := if w.layer.rxFlag then
      { w with layer := { w.layer with parser := w.layer.parser.reset, rxFlag := false } }
    else w
  (startRxImpl w).bind fun (w', ret) =>
    some (if ret ≠ [] then { w' with layer := { w'.layer with rxFlag := true } } else w', ret)

/-- What can happen to the layer. -/
inductive Ev
  | arrive (chunk : Bytes)   -- the layer below has a new chunk
  | dropLower                -- the layer below forgets what it has not handed out
  | lowerOpen | lowerClose | lowerTxReady | lowerRxReady
  | upperRead                -- the layer above calls start_rx_from_upper
  deriving DecidableEq

/-- What the layer above sees. -/
inductive Out
  | open | close | txReady | rxReady
  | data (payload : Bytes)   -- the value returned by start_rx_from_upper
  deriving DecidableEq

/-- One event. The open/closed guards are those of `IUpperLayer`
(include/ssp21/stack/IUpperLayer.h:26-84), the bodies are LinkLayer.cpp:15-35. -/
def Ev.step (w : World) : Ev → Option (World × List Out)
  | .arrive c => some ({ w with queue := w.queue ++ [c] }, [])
  | .dropLower => some ({ w with queue := [] }, [])
  | .lowerOpen =>
    if w.layer.isOpen then some (w, [])
    else some ({ w with layer := { w.layer with isOpen := true } }, [.open])
  | .lowerClose =>
    if w.layer.isOpen then
      some ({ w with layer := { w.layer with isOpen := false, parser := w.layer.parser.reset } }, [.close])
    else some (w, [])
  | .lowerTxReady => if w.layer.isOpen then some (w, [.txReady]) else some (w, [])
  | .lowerRxReady =>
    if w.layer.isOpen then
      (getFrame w).bind fun (w', ok) => some (w', if ok then [.rxReady] else [])
    else some (w, [])
  | .upperRead => (startRx w).bind fun (w', ret) => some (w', [.data ret])

/-- A sequence of events and everything the layer above sees. -/
def exec (w : World) : List Ev → Option (World × List Out)
  | [] => some (w, [])
  | e :: es => (e.step w).bind fun (w', o) => (exec w' es).bind fun (w'', o') => some (w'', o ++ o')

/-- The initial world. -/
def World.new (localAddr : UInt16) : World := ⟨.new localAddr, [], []⟩

end SSP21.Link
