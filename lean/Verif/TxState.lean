import Verif.Session
/-
  `TxState`: progress of one transmission requested by the upper layer.
-/
namespace SSP21

/-- `TxState`, cpp/libs/ssp21/src/crypto/TxState.h:13-83. -/
structure TxState where
  transmitting : Bool := false
  remainder : Bytes := []
  deriving DecidableEq, Repr

/-- TxState.h:18-22 -/
def TxState.reset (_ : TxState) : TxState := ⟨false, []⟩
/-- TxState.h:24-28 -/
def TxState.initialize (_ : TxState) (data : Bytes) : TxState := ⟨false, data⟩
/-- TxState.h:30-33 -/
def TxState.isIdle (t : TxState) : Bool := !t.transmitting && t.remainder.isEmpty
/-- TxState.h:35-45 -/
def TxState.onTxComplete (t : TxState) : TxState × Bool :=
  if t.transmitting then (⟨false, t.remainder⟩, t.remainder.isEmpty) else (t, false)
/-- TxState.h:47-56 (the result is ignored by both callers) -/
def TxState.beginTransmit (t : TxState) (remainder : Bytes) : TxState :=
  if t.remainder.isEmpty then t else ⟨true, remainder⟩
/-- TxState.h:65-68 -/
def TxState.isReadyTx (t : TxState) : Bool := !t.transmitting && !t.remainder.isEmpty

end SSP21
