/-
  The notification interface shared by all layers (`IUpperLayer`) and the forwarding object `AbstractStack`.
-/
namespace SSP21.Stack

/-- The four notifications of `IUpperLayer`, cpp/libs/ssp21/include/ssp21/stack/IUpperLayer.h:26-84. -/
inductive Signal
  | opened | closed | txReady | rxReady
  deriving DecidableEq, Repr

/-- `is_open_flag`, IUpperLayer.h:125. -/
structure Upper where
  isOpen : Bool := false

/-- `on_lower_open` (IUpperLayer.h:26-35), `on_lower_close` (43-52), `on_lower_tx_ready` (60-68) and
`on_lower_rx_ready` (76-84): the flag afterwards and the `_impl` function that is called, if any. The flag is
changed before the `_impl` function is called, so that what happens inside it (including further notifications of
the same object) is the same as if it happened afterwards. The boolean result is whether there is a call. -/
def Upper.notify (u : Upper) : Signal → Upper × Option Signal
  | .opened => if u.isOpen then (u, none) else (⟨true⟩, some .opened)
  | .closed => if u.isOpen then (⟨false⟩, some .closed) else (u, none)
  | .txReady => if u.isOpen then (u, some .txReady) else (u, none)
  | .rxReady => if u.isOpen then (u, some .rxReady) else (u, none)

/-- A sequence of notifications and the calls they lead to. -/
def Upper.run (u : Upper) : List Signal → Upper × List Signal
  | [] => (u, [])
  | n :: ns =>
    let (u', o) := u.notify n
    let (u'', os) := u'.run ns
    (u'', o.toList ++ os)

/-- `AbstractStack`, cpp/libs/ssp21/src/stack/LinkCryptoStack.h:13-68: it is an `IUpperLayer` itself, whose `_impl`
functions notify the first layer of the stack (lines 45-63). -/
structure Forwarder where
  own : Upper := {}
  next : Upper := {}

/-- A notification of the stack: the `_impl` function of the first layer that is called, if any. -/
def Forwarder.notify (f : Forwarder) (n : Signal) : Forwarder × Option Signal :=
  match f.own.notify n with
  | (own, none) => (⟨own, f.next⟩, none)
  | (own, some n') =>
    let (next, o) := f.next.notify n'
    (⟨own, next⟩, o)

/-- A sequence of notifications of the stack. -/
def Forwarder.run (f : Forwarder) : List Signal → Forwarder × List Signal
  | [] => (f, [])
  | n :: ns =>
    let (f', o) := f.notify n
    let (f'', os) := f'.run ns
    (f'', o.toList ++ os)

end SSP21.Stack
