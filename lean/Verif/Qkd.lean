import Verif.Keyed
import Verif.Props.KeyStore
/-
  A process with a source of quantum keys: the serial port of a QKD device, the source that distributes its keys
  (cpp/exe/proxy/src/qkd/QIXQKDSource.cpp, cpp/libs/qix/src/AsyncQIXFrameReader.cpp), and any number of crypto layers,
  each of which refers to the key store with some number (StackConfigReader.cpp:224-262, 372-397; all sessions of a proxy refer
  to the same store, since the factory captures it). Everything runs on one executor (cpp/exe/proxy/src/main.cpp:79-95); as
  many interleavings as possible are permitted here: layers and device take turns in arbitrary order, step by step.
-/
namespace SSP21.Qkd
open Qix Qix.Spec

/-- A crypto layer of the process: the number of the key store it refers to, its configuration, its environment
(application, layer below), and where its execution is. -/
structure Member where
  number : UInt16
  cfg : Crypto.Cfg
  env : Crypto.Env
  now : Crypto.Config

/-- The process. Ghosts: the bytes that the device has sent, and what the source and its stores have done. -/
structure Station where
  reader : Reader
  router : Router
  members : List Member
  received : Bytes
  entries : List SourceEntry

/-- The process at its start: `num_subscribers` of the configuration, and whatever is in the memory of the buffer. -/
def Station.new (buffer : Bytes) (users : UInt16) : Station := ⟨.new buffer, ⟨users, []⟩, [], [], []⟩

/-- The key that an operation of the store has given. -/
def given : SourceEntry → Option (UInt64 × Bytes)
  | .returned _ id (some key) => some (id, key)
  | _ => none

/-- How a query of a layer is answered (`Crypto.Fresh` has one answer for every purpose). `unasked`: the query is about
something else. `consume`: `consume_key`, QKDInitiatorHandshake.cpp:22. `find`: `find_and_consume_key` with the id of the
request, QKDResponderHandshake.cpp:28-60. Which kind it is is left open: this only adds executions. -/
inductive Answer (r : Router) (user : UInt16) (f : Crypto.Fresh) : List SourceEntry → Router → Prop
  | unasked : f.record = none → (∀ id, f.lookup id = none) → Answer r user f [] r
  | consume (r' : Router) (e : SourceEntry) : sourceStep r (.consume user) = some (r', e) → f.record = given e →
      (∀ id, f.lookup id = none) → Answer r user f [e] r'
  | find (id : UInt64) (r' : Router) (e : SourceEntry) : sourceStep r (.find user id) = some (r', e) → f.record = none →
      (∀ id', f.lookup id' = if id' = id then (given e).map (·.2) else none) → Answer r user f [e] r'

/-- What happens with a frame that has been read: AsyncQIXFrameReader.cpp:47-59 (other frames than `ok` are only logged) with
`FrameHandler::handle`. -/
def arrive (r : Router) : Option Frame → Option (Router × List SourceEntry)
  | none => some (r, [])
  | some f =>
    if f.status = .ok then (sourceStep r (.frame f)).map fun x => (x.1, [x.2]) else some (r, [])

/-- One step of the process. -/
inductive Step : Station → Station → Prop
  /-- A proxy is configured: `bind_key_store`, QIXQKDSource.cpp:217-227. -/
  | bind (st : Station) (user size : UInt16) (r : Router) (e : SourceEntry) :
      sourceStep st.router (.bind user size) = some (r, e) →
      Step st { st with router := r, entries := st.entries ++ [e] }
  /-- A crypto layer is created. -/
  | create (st : Station) (user : UInt16) (c : Crypto.Cfg) (E : Crypto.Env) (h : InitiatorHandshake) :
      h.Configured c.backend c.caps → E.config h →
      Step st { st with members := st.members ++ [⟨user, c, E, ⟨.env (.new c h), []⟩⟩] }
  /-- A read from the serial port completes. -/
  | read (st : Station) (chunk : Bytes) (r : Router) (es : List SourceEntry) : st.reader.dest + chunk.length ≤ 47 →
      arrive st.router (st.reader.onRead chunk).2 = some (r, es) →
      Step st { st with reader := (st.reader.onRead chunk).1, router := r, received := st.received ++ chunk, entries := st.entries ++ es }
  /-- A layer queries executor, random generator or key store. -/
  | ask (st : Station) (a b : List Member) (m : Member) (k : Crypto.Fresh → Crypto.Run Unit) (stack : List (Crypto.Layer → Crypto.Run Unit))
      (f : Crypto.Fresh) (es : List SourceEntry) (r : Router) : st.members = a ++ m :: b → m.now = ⟨.code (.ask k), stack⟩ → f.ok →
      Answer st.router m.number f es r →
      Step st { st with router := r, members := a ++ { m with now := ⟨.code (k f), stack⟩ } :: b, entries := st.entries ++ es }
  /-- A layer does anything else. -/
  | layer (st : Station) (a b : List Member) (m : Member) (y : Crypto.Config) : st.members = a ++ m :: b →
      (∀ k stack, m.now ≠ ⟨.code (.ask k), stack⟩) → Crypto.Step m.cfg m.env m.now y →
      Step st { st with members := a ++ { m with now := y } :: b }

/-- The states that a process with this configuration can reach. -/
inductive Reachable (users : UInt16) : Station → Prop
  | new (buffer : Bytes) : buffer.length = 47 → Reachable users (.new buffer users)
  | step {x y : Station} : Reachable users x → Step x y → Reachable users y

end SSP21.Qkd
