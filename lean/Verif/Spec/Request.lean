import Verif.CryptoLayer
/-
  Specification for C47: what the requests of an application to transmit mean, computed from what is observed at the
  crypto layer.
-/
namespace SSP21.Crypto.Spec

/-- Effect of an observation on whether a request of the application is in progress: a request that is accepted and has
data starts one, "ready to transmit" ends it, and so does a close of the layer below. -/
def requestStep (busy : Bool) : Obs → Bool
  | .startTx d true => !d.isEmpty
  | .up .txReady => false
  | .lowerClose => false
  | _ => busy

/-- Whether a request is in progress. -/
def inProgress (log : List Obs) : Bool := log.foldl requestStep false

/-- Effect of an observation on whether a session has been lost since the layer below has opened. -/
def lostStep (lost : Bool) : Obs → Bool
  | .up .closed => true
  | .lowerClose => true
  | .lowerOpen => false
  | _ => lost

/-- Whether the application has been closed since the layer below has opened. -/
def lost (log : List Obs) : Bool := log.foldl lostStep false

/-- Effect of an observation on whether the application is open. -/
def appStep (isOpen : Bool) : Obs → Bool
  | .up .opened => true
  | .up .closed => false
  | _ => isOpen

/-- Whether the application is open. -/
def appOpen (log : List Obs) : Bool := log.foldl appStep false

/-- Effect of an observation on whether the layer below is open. -/
def belowStep (isOpen : Bool) : Obs → Bool
  | .lowerOpen => true
  | .lowerClose => false
  | _ => isOpen

/-- Whether the layer below is open. -/
def belowOpen (log : List Obs) : Bool := log.foldl belowStep false

end SSP21.Crypto.Spec
