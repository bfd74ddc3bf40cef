import Verif.Qix
/-
  `QIXKeyStore` used by several threads (cpp/libs/qix/src/QIXKeyStore.cpp, cpp/libs/qix/include/qix/QIXKeyStore.h): the
  frames arrive on a thread of their own when `QIXFrameReader` is used (cpp/libs/qix/src/QIXFrameReader.cpp:8-18), and the
  keys are taken by the threads on which handshakes run.

  Every access of a member function to `key_map` is a step of its own, the threads take steps in any order. Only the
  constructor and the destructor of `std::lock_guard` look at the mutex: that accesses do not overlap is proved, not
  assumed. (For programs without overlapping accesses, C++ promises executions of this kind.)

  Simplifications: exceptions (of memory allocation) are left out; the reference counts of `std::shared_ptr` are atomic.
-/
namespace SSP21.Qix.Threads

/-- `std::map<uint64_t, std::shared_ptr<const KeyRecord>>`, QIXKeyStore.h:31: pairs with increasing ids. A null pointer is
represented as a record without key. -/
abbrev KeyMap := List (UInt64 × Option Bytes)

/-- The member functions, QIXKeyStore.h:20-24. -/
inductive Call
  | add (frame : Frame)
  | consume
  | find (id : UInt64)

/-- What they return: nothing, a record or null, a key or null (the record found may have no key). -/
inductive Result
  | nothing
  | record (r : Option (UInt64 × Option Bytes))
  | key (k : Option (Option Bytes))
  deriving DecidableEq

/-- Where a thread is in a member function: before the statement (or the part of an expression) with this name. -/
inductive At
  /-- the constructor of `lock_guard`, QIXKeyStore.cpp:13, 31, 43 -/
  | lock
  /-- `key_map.empty()`, QIXKeyStore.cpp:16 -/
  | addEmpty
  /-- `frame.key_id < key_map.rbegin()->first`, QIXKeyStore.cpp:16 -/
  | addCompare
  /-- `key_map.clear()`, QIXKeyStore.cpp:17 -/
  | addClear
  /-- `key_map[frame.key_id]`, QIXKeyStore.cpp:21 -/
  | addSlot
  /-- the assignment to what it refers to, QIXKeyStore.cpp:21 -/
  | addAssign
  /-- `key_map.size() > max_cached_keys`, QIXKeyStore.cpp:24 -/
  | addSize
  /-- `key_map.erase(key_map.begin())`, QIXKeyStore.cpp:25 -/
  | addErase
  /-- `key_map.empty()`, QIXKeyStore.cpp:33 -/
  | consumeEmpty
  /-- `ret = key_map.rbegin()->second`, QIXKeyStore.cpp:36 -/
  | consumeRead
  /-- `key_map.erase(key_map.rbegin()->first)`, QIXKeyStore.cpp:37 -/
  | consumeErase (ret : UInt64 × Option Bytes)
  /-- `entry = key_map.find(key_id)`, QIXKeyStore.cpp:45-48 -/
  | findFind
  /-- `key = entry->second->key`, QIXKeyStore.cpp:49 -/
  | findRead (entry : UInt64)
  /-- `key_map.erase(entry)`, QIXKeyStore.cpp:50 -/
  | findErase (entry : UInt64) (key : Option Bytes)
  /-- the destructor of `lock_guard`, QIXKeyStore.cpp:27, 34 or 39, 47 or 52 -/
  | unlock (r : Result)
  /-- the mutex has been released, the function has not returned yet -/
  | leave (r : Result)

/-- What a step does with the map: nothing (the step is not an access), something undefined, or an access. -/
inductive Effect
  | noAccess
  | undefined
  | access (next : At) (map : KeyMap)

/-- `std::map::operator[]` as far as it inserts. -/
def slot (id : UInt64) (m : KeyMap) : KeyMap := if m.any (fun e => e.1 = id) then m else insert id none m

/-- Assignment to the entry with this id. -/
def assign (id : UInt64) (key : Option Bytes) (m : KeyMap) : KeyMap := m.map fun e => if e.1 = id then (id, key) else e

/-- The accesses, QIXKeyStore.cpp:11-52. Undefined: `rbegin()->` or `erase(begin())` with an empty map, a reference or an
iterator to an entry that is not there (any more). -/
def access (max : UInt16) : Call → At → KeyMap → Effect
  | .add _, .addEmpty, m => .access (if m = [] then .addSlot else .addCompare) m
  | .add f, .addCompare, m =>
    match m.getLast? with
    | none => .undefined
    | some last => .access (if f.keyId < last.1 then .addClear else .addSlot) m
  | .add _, .addClear, _ => .access .addSlot []
  | .add f, .addSlot, m => .access .addAssign (slot f.keyId m)
  | .add f, .addAssign, m =>
    if m.any (fun e => e.1 = f.keyId) then .access .addSize (assign f.keyId (createKey f.key) m) else .undefined
  | .add _, .addSize, m => .access (if m.length > max.toNat then .addErase else .unlock .nothing) m
  | .add _, .addErase, m =>
    match m with
    | [] => .undefined
    | _ :: rest => .access (.unlock .nothing) rest
  | .consume, .consumeEmpty, m => .access (if m = [] then .unlock (.record none) else .consumeRead) m
  | .consume, .consumeRead, m =>
    match m.getLast? with
    | none => .undefined
    | some last => .access (.consumeErase last) m
  | .consume, .consumeErase ret, m =>
    match m.getLast? with
    | none => .undefined
    | some last => .access (.unlock (.record (some ret))) (m.filter fun e => e.1 ≠ last.1)
  | .find id, .findFind, m =>
    match m.find? (fun e => e.1 = id) with
    | none => .access (.unlock (.key none)) m
    | some e => .access (.findRead e.1) m
  | .find _, .findRead entry, m =>
    match m.find? (fun e => e.1 = entry) with
    | none => .undefined
    | some e => .access (.findErase entry e.2) m
  | .find _, .findErase entry key, m =>
    if m.any (fun e => e.1 = entry) then .access (.unlock (.key (some key))) (m.filter fun e => e.1 ≠ entry) else .undefined
  | _, _, _ => .noAccess

/-- The first access, once the mutex is held. -/
def start : Call → At
  | .add _ => .addEmpty
  | .consume => .consumeEmpty
  | .find _ => .findFind

/-- What is seen from outside: calls and returns. Calls are numbered. -/
inductive Event
  | call (n : Nat) (c : Call)
  | ret (n : Nat) (r : Result)

/-- The store and the threads that use it: the mutex (and which thread has locked it), the map, and for each thread the call
that it is in, if any. Ghosts: the number of calls and the history; `faulty` that something undefined was done. -/
structure World where
  mutex : Option Nat
  map : KeyMap
  threads : Nat → Option (Nat × Call × At)
  calls : Nat
  history : List Event
  faulty : Bool

/-- A new key store (QIXKeyStore.cpp:6-9). -/
def World.new : World := ⟨none, [], fun _ => none, 0, [], false⟩

/-- Thread `t` goes to another place. -/
def World.go (w : World) (t : Nat) (x : Option (Nat × Call × At)) : Nat → Option (Nat × Call × At) := fun u => if u = t then x else w.threads u

/-- A step of thread `t`. -/
inductive Step (max : UInt16) (t : Nat) : World → World → Prop
  | call (w : World) (c : Call) : w.threads t = none →
      Step max t w { w with threads := w.go t (some (w.calls, c, .lock)), calls := w.calls + 1, history := w.history ++ [.call w.calls c] }
  | lock (w : World) (n : Nat) (c : Call) : w.threads t = some (n, c, .lock) → w.mutex = none →
      Step max t w { w with mutex := some t, threads := w.go t (some (n, c, start c)) }
  | access (w : World) (n : Nat) (c : Call) (a a' : At) (m : KeyMap) : w.threads t = some (n, c, a) → access max c a w.map = .access a' m →
      Step max t w { w with map := m, threads := w.go t (some (n, c, a')) }
  | undefined (w : World) (n : Nat) (c : Call) (a : At) : w.threads t = some (n, c, a) → access max c a w.map = .undefined →
      Step max t w { w with faulty := true }
  | unlock (w : World) (n : Nat) (c : Call) (r : Result) : w.threads t = some (n, c, .unlock r) →
      Step max t w { w with mutex := none, threads := w.go t (some (n, c, .leave r)) }
  | leave (w : World) (n : Nat) (c : Call) (r : Result) : w.threads t = some (n, c, .leave r) →
      Step max t w { w with threads := w.go t none, history := w.history ++ [.ret n r] }

/-- The states that a store with this capacity and its threads can reach. -/
inductive Reachable (max : UInt16) : World → Prop
  | new : Reachable max .new
  | step {w w' : World} (t : Nat) : Reachable max w → Step max t w w' → Reachable max w'

end SSP21.Qix.Threads
