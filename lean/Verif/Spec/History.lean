import Verif.CryptoLayer
import Verif.Props.Session
/-
  Specification: what happened to the user data and to the sessions of a layer, read off its history.

  The history of a layer is the sequence of its observations and of the things it did with its two session objects.
  Every time a handshake installs keys a new session begins; sessions are numbered 0, 1, 2, ... `View` says, for each
  moment, which sessions are in use, what happened in each of them, which data of the application is still to be sent,
  and which data was made available to the application.
-/
namespace SSP21.Crypto.Spec

/-- An element of a history. -/
inductive Ev
  | obs (o : Obs)
  | act (a : Act)

/-- Observations and acts in the order in which they happened: each act is stored with the number of observations
before it. -/
def weave (log : List Obs) (acts : List (Nat × Act)) : List Ev :=
  (List.range (log.length + 1)).flatMap fun i =>
    (acts.filter fun a => a.1 = i).map (fun a => .act a.2) ++ (log[i]?).toList.map .obs

/-- The history of a layer. -/
def history (s : Layer) : List Ev := weave s.log s.acts

/-- What a history says about sessions and user data. `count`: the number of sessions so far. `waiting`: the session
that waits for the authentication of the peer. `current`: the session in use. `events`: what happened, with the number
of the session. `outstanding`: data accepted from the application, not yet sent. `unread`: data of the session with
the given number that is authentic and not yet given to the application. `given`: data given to the application. -/
structure View where
  count : Nat := 0
  waiting : Option Nat := none
  current : Option Nat := none
  events : List (Nat × SEvent) := []
  outstanding : Bytes := []
  unread : Option (Nat × Bytes) := none
  given : List (Nat × Bytes) := []

/-- Something happens in a session. -/
def View.add (v : View) (n : Option Nat) (e : SEvent) : View :=
  match n with
  | some n => { v with events := v.events ++ [(n, e)] }
  | none => v

/-- The waiting session (`true`) or the one in use. -/
def View.owner (v : View) (pending : Bool) : Option Nat := if pending then v.waiting else v.current

/-- Data arrived in a session. -/
def arrived (n : Option Nat) (payload : Bytes) : Option (Nat × Bytes) :=
  match n with
  | some n => if payload = [] then none else some (n, payload)
  | none => none

/-- One element of the history. -/
def View.step (v : View) : Ev → View
  | .obs (.established k a p) =>
    { v with events := v.events ++ [(v.count, .initialized a p k)], waiting := some v.count, count := v.count + 1 }
  | .obs (.startTx data true) => { v with outstanding := data }
  | .obs .lowerClose => { v with waiting := none, current := none, unread := none }
  | .obs (.startRx data) =>
    if data = [] then v
    else match v.unread with
    | some (n, _) => { v with given := v.given ++ [(n, data)], unread := none }
    | none => v
  | .obs _ => v
  | .act (.sent p out clear rest) => { v.add (v.owner p) (.sent out clear rest) with outstanding := rest }
  | .act (.notSent p) => if p then v else { v with unread := none }
  | .act .dropped => { v with current := none }
  | .act (.checked true msg (.ok payload)) =>
    { v.add v.waiting (.acceptedAuth msg payload) with
      current := v.waiting, waiting := none, unread := arrived v.waiting payload }
  | .act (.checked false msg (.ok payload)) =>
    { v.add v.current (.acceptedData msg payload) with unread := arrived v.current payload }
  | .act (.checked p msg (.error e)) => v.add (v.owner p) (.rejected msg e)
  | .act .discarded => { v with outstanding := [] }

/-- What a history says. -/
def viewOf (h : List Ev) : View := h.foldl View.step {}

/-- What the history of a layer says. -/
def view (s : Layer) : View := viewOf (history s)

/-- What happened in session `n`. -/
def View.session (v : View) (n : Nat) : List SEvent :=
  v.events.filterMap fun x => if x.1 = n then some x.2 else none

/-- The data given to the application in session `n`. -/
def View.givenIn (v : View) (n : Nat) : List Bytes :=
  v.given.filterMap fun x => if x.1 = n then some x.2 else none

/-- The user data of a message that was accepted. -/
def acceptedData : SEvent → Option Bytes
  | .acceptedAuth _ p => if p = [] then none else some p
  | .acceptedData _ p => if p = [] then none else some p
  | _ => none

/-- The user data of the messages accepted in session `n`, without empty ones. -/
def View.takenIn (v : View) (n : Nat) : List Bytes := (v.session n).filterMap acceptedData

/-- The part of the user data that was put into a message. -/
def sentPart : SEvent → Option Bytes
  | .sent _ clear rest => some (clear.take (clear.length - rest.length))
  | _ => none

/-- The user data of the messages made in session `n`. -/
def View.sentIn (v : View) (n : Nat) : List Bytes := (v.session n).filterMap sentPart

/-- The observation, if it is one. -/
def Ev.observation : Ev → Option Obs
  | .obs o => some o
  | .act _ => none

/-- The observations of a history. -/
def observations (h : List Ev) : List Obs := h.filterMap Ev.observation

/-- The data that the application receives (not what it gets when there is nothing to receive). -/
def givenData : Obs → Option Bytes
  | .startRx d => if d = [] then none else some d
  | _ => none

/-- The data that the layer takes from the application for transmission. -/
def takenData : Obs → Option Bytes
  | .startTx d true => some d
  | _ => none

/-- Whether the layer below is open after an element of the history. -/
def openAfter (before : Bool) : Ev → Bool
  | .obs .lowerOpen => true
  | .obs .lowerClose => false
  | _ => before

/-- Whether the layer below has opened and not closed since. -/
def lowerIsOpen (h : List Ev) : Bool := h.foldl openAfter false

/-- A message of the handshake, of at most the maximum length, in a frame. -/
def HandshakeFrame (c : Cfg) (frame : Bytes) : Prop :=
  ∃ w, frame = c.fw.wrap w ∧
    ((∃ m, RequestHandshakeBegin.write m c.fw.maxPayload.toNat = .ok w) ∨
     (∃ m, ReplyHandshakeBegin.write m c.fw.maxPayload.toNat = .ok w) ∨
     (∃ m, ReplyHandshakeError.write m c.fw.maxPayload.toNat = .ok w))

/-- How the elements of a history fit together. A transmission is accepted from the application, and its completion
reported, only when nothing is left of the previous one; it is accepted only while the layer below is open, and data is
forgotten only while that is closed. Nothing is left over when the layer below opens. A message is made for an existing
session out of the first part of the outstanding data. Whatever is handed to the layer below is such a message, made
just before, or a message of the handshake. A session message is checked as soon as it is received. -/
def Fits (c : Cfg) (pre : List Ev) : Ev → Prop
  | .obs (.startTx _ true) => (viewOf pre).outstanding = [] ∧ lowerIsOpen pre = true
  | .act .discarded => lowerIsOpen pre = false
  | .obs (.up .txReady) => (viewOf pre).outstanding = []
  | .obs .lowerOpen => (viewOf pre).outstanding = []
  | .obs (.lowerTx frame _) =>
    (∃ p out clear rest, pre.getLast? = some (.act (.sent p out clear rest)) ∧ out.frame = frame) ∨ HandshakeFrame c frame
  | .act (.sent p out clear rest) =>
    clear = (viewOf pre).outstanding ∧ (∃ k, k ≤ clear.length ∧ rest = clear.drop k) ∧
    ((viewOf pre).owner p).isSome ∧ ∃ w, SessionData.write out.msg c.fw.maxPayload.toNat = .ok w ∧ out.frame = c.fw.wrap w
  | .act (.checked _ msg _) => ∃ m, pre.getLast? = some (.obs (.recv m)) ∧ SessionData.read m = .ok msg
  | _ => True

end SSP21.Crypto.Spec
