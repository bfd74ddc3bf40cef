import Verif.Spec.Carry
/-
  What it means that two stations get from nothing to the exchange of data (property C59).
-/
namespace SSP21.Crypto

namespace Spec

/-- The message `m` reaches a layer whose last transmission is being completed: it is there when the layer below says so,
or (`late`) it comes some time afterwards. The layer takes it and comes to the end of what it has to do; its application
returns at once from every call (and would read if it were told to). -/
def Comes (c : Cfg) (A : Fresh → Prop) (T : Int) (late : Bool) (t : Int) (m : Bytes) (s : Layer) (Q : Int → Layer → Prop) : Prop :=
  if late then Serves c A T (Event.lowerTxReady.run c) t [] s fun t' ms' s' => ms' = [] ∧
    Serves c A T (Event.lowerRxReady.run c) t' [m] s' fun t'' ms'' s'' => ms'' = [] ∧ Q t'' s''
  else Serves c A T (Event.lowerTxReady.run c) t [m] s fun t' ms' s' => ms' = [] ∧ Q t' s'

/-- Whatever the application of `s` hands over at time `t`, in at most `n` messages, is carried to the application of `r`. -/
def Delivers (c c' : Cfg) (T U : Int) (n : Nat) (t : Int) (s : Layer) (u : Int) (r : Layer) : Prop :=
  ∀ (data : Bytes) (early : Nat → Bool), data ≠ [] → (SSP21.Spec.pieces data).length ≤ n →
    Serves c anyAnswer T (Api.run c (.startTx data)) t [] s fun t' _ s' => ∃ m, SendsOne c s s' m ∧
      Carried c c' anyAnswer anyAnswer T U early (SSP21.Spec.pieces data) t' m s' u r

/-- The application waits for nothing: the data it was given last has been discarded. -/
def Acknowledged (s : Layer) : Prop := s.rxFlag = false

end Spec

end SSP21.Crypto
