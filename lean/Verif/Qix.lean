import Verif.Crc
/-
  Quantum keys: QIX frames (cpp/libs/qix) and the key store. Logging is left out, the metrics are in Verif/Metrics.lean; the serial port is
  represented by the chunks of bytes it delivers.
-/
namespace SSP21.Qix

/-- `QIXFrame::Status`, cpp/libs/qix/include/qix/QIXFrame.h:13-17. -/
inductive Status
  | ok | keyCompromised | undefined
  deriving DecidableEq, Repr

/-- `QIXFrame`, QIXFrame.h:11-24. -/
structure Frame where
  keyId : UInt64
  key : Bytes
  status : Status
  deriving DecidableEq, Repr

/-- `QIXFrameWriter::write`, cpp/libs/qix/src/QIXFrameWriter.cpp:33-56: the bytes written to the port, `none` if it
throws. -/
def write (f : Frame) : Option Bytes :=
  if f.key.length ≠ 32 then none
  else
    let data := be 8 f.keyId.toNat ++ f.key ++ [0x01]
    some ([0x5A, 0xA5] ++ data ++ be 4 (crcCalc data).toNat)

/-- The members of `QIXFrameParser`, cpp/libs/qix/include/qix/QIXFrameParser.h:57-58. The buffer has 47 bytes. -/
structure Parser where
  buffer : Bytes
  buffered : Nat := 0

/-- `find_sync`, cpp/libs/qix/src/QIXFrameParser.cpp:88-109: the input that is left. -/
def findSync : Bytes → Bytes
  | [] => []
  | [a] => if a = 0x5A then [a] else []
  | a :: b :: rest => if a = 0x5A ∧ b = 0xA5 then a :: b :: rest else findSync (b :: rest)

/-- `get_status`, QIXFrameParser.cpp:63-73. -/
def getStatus (value : UInt8) : Status :=
  if value = 0x01 then .ok else if value = 0xFF then .keyCompromised else .undefined

/-- `calc_frame_crc`, QIXFrameParser.cpp:75-78. -/
def calcCrc (buffer : Bytes) : UInt32 := crcCalc ((buffer.drop 2).take 41)

/-- `read_frame_crc`, QIXFrameParser.cpp:80-86. -/
def readCrc (buffer : Bytes) : UInt32 := UInt32.ofNat (beNat ((buffer.drop 43).take 4))

/-- `read_frame_fields`, QIXFrameParser.cpp:52-61 (`key_data` is a slice of the buffer, which the handler copies
before the buffer is written again). -/
def readFields (buffer : Bytes) : Frame :=
  let payload := buffer.drop 2
  ⟨UInt64.ofNat (beNat (payload.take 8)), (payload.drop 8).take 32, getStatus (((payload.drop 8).drop 32).headD 0)⟩

/-- `QIXFrameParser::parse`, QIXFrameParser.cpp:19-50. The parts of the buffer involved in `copy_from` may overlap;
it is assumed to behave like `memmove`. -/
def Parser.parse (p : Parser) : Parser × Option Frame :=
  let remainder := findSync p.buffer
  if remainder.length < 47 then
    (⟨remainder ++ p.buffer.drop remainder.length, remainder.length⟩, none)
  else if calcCrc p.buffer ≠ readCrc p.buffer then (⟨p.buffer, 0⟩, none)
  else (⟨p.buffer, 0⟩, some (readFields p.buffer))

/-- The state of `read_some`, cpp/libs/qix/src/AsyncQIXFrameReader.cpp:33-68: the read operation under way fills the
buffer from position `dest` on (`get_write_slice`, QIXFrameParser.cpp:12-17, begins at `num_bytes_buffered`). -/
structure Reader where
  parser : Parser
  dest : Nat

/-- `start_frame_reader`, AsyncQIXFrameReader.cpp:70-91; the contents of the buffer are arbitrary. -/
def Reader.new (buffer : Bytes) : Reader := ⟨⟨buffer, 0⟩, 0⟩

/-- The completion of a read operation with `chunk` (which is not longer than the destination of the read),
AsyncQIXFrameReader.cpp:35-65: the frame that was parsed, if any. -/
def Reader.onRead (r : Reader) (chunk : Bytes) : Reader × Option Frame :=
  let buffer := r.parser.buffer.take r.dest ++ chunk ++ r.parser.buffer.drop (r.dest + chunk.length)
  if r.dest + chunk.length < 47 then (⟨⟨buffer, r.parser.buffered⟩, r.dest + chunk.length⟩, none)
  else
    let (p, f) := Parser.parse ⟨buffer, r.parser.buffered⟩
    (⟨p, p.buffered⟩, f)

/-- The frames parsed from the results of successive read operations; `none` if a read operation returns more than
it was asked for. -/
def Reader.run (r : Reader) : List Bytes → Option (Reader × List Frame)
  | [] => some (r, [])
  | chunk :: chunks =>
    if 47 < r.dest + chunk.length then none
    else
      let (r', f) := r.onRead chunk
      (r'.run chunks).map fun (r'', fs) => (r'', f.toList ++ fs)

/-- AsyncQIXFrameReader.cpp:49-59: only frames with status `ok` are given to the handler. -/
def handled (frames : List Frame) : List Frame := frames.filter fun f => f.status = .ok

/-! ### The key store -/

/-- `QIXKeyStore`, cpp/libs/qix/include/qix/QIXKeyStore.h:29-31. The map is a list of pairs with increasing ids.
A record without a key (KeyRecord.cpp:12-22: the key does not have 32 bytes) is `none`. -/
structure Store where
  maxCached : UInt16
  keys : List (UInt64 × Option Bytes) := []

/-- `key_map[id] = record` of `std::map`. -/
def insert (id : UInt64) (key : Option Bytes) : List (UInt64 × Option Bytes) → List (UInt64 × Option Bytes)
  | [] => [(id, key)]
  | (i, k) :: rest =>
    if id < i then (id, key) :: (i, k) :: rest
    else if id = i then (id, key) :: rest
    else (i, k) :: insert id key rest

/-- `KeyRecord::create_key`, cpp/libs/ssp21/src/crypto/KeyRecord.cpp:12-22. -/
def createKey (key : Bytes) : Option Bytes := if key.length ≠ 32 then none else some key

/-- `QIXKeyStore::add_key`, cpp/libs/qix/src/QIXKeyStore.cpp:11-27. -/
def Store.addKey (s : Store) (f : Frame) : Store :=
  let keys := match s.keys.getLast? with
    | some (last, _) => if f.keyId < last then [] else s.keys
    | none => s.keys
  let keys := insert f.keyId (createKey f.key) keys
  { s with keys := if keys.length > s.maxCached.toNat then keys.drop 1 else keys }

/-- `QIXKeyStore::consume_key`, QIXKeyStore.cpp:29-39. -/
def Store.consumeKey (s : Store) : Store × Option (UInt64 × Option Bytes) :=
  match s.keys.getLast? with
  | none => (s, none)
  | some r => ({ s with keys := s.keys.dropLast }, some r)

/-- `QIXKeyStore::find_and_consume_key`, QIXKeyStore.cpp:41-52: the outer option is whether there is an entry. -/
def Store.findAndConsumeKey (s : Store) (id : UInt64) : Store × Option (Option Bytes) :=
  match s.keys.find? (fun r => r.1 = id) with
  | none => (s, none)
  | some r => ({ s with keys := s.keys.filter (fun r => r.1 ≠ id) }, some r.2)

/-- `QIXQKDSource::FrameHandler`, cpp/exe/proxy/src/qkd/QIXQKDSource.h:19-49: the number of subscribers and their
stores by number. -/
structure Router where
  numSubscribers : UInt16
  subscribers : List (UInt16 × Store) := []

/-- Result of `handle`: `fault` is the division by zero. -/
inductive Handled
  | fault
  | done (r : Router)

/-- `FrameHandler::handle`, cpp/exe/proxy/src/qkd/QIXQKDSource.cpp:72-91 (the rest computes metrics). -/
def Router.handle (r : Router) (f : Frame) : Handled :=
  if f.status ≠ .ok then .done r
  else if f.key.length ≠ 32 then .done r
  else if r.numSubscribers = 0 then .fault
  else
    let id : UInt16 := UInt16.ofNat (f.keyId.toNat % r.numSubscribers.toNat)
    .done { r with subscribers := r.subscribers.map fun (i, s) => if i = id then (i, s.addKey f) else (i, s) }

/-- `bind_key_store`, QIXQKDSource.cpp:217-227: `none` if it throws. -/
def Router.bind (r : Router) (modulo maxCached : UInt16) : Option Router :=
  if r.subscribers.any (fun x => x.1 = modulo) then none
  else some { r with subscribers := r.subscribers ++ [(modulo, ⟨maxCached, []⟩)] }

end SSP21.Qix
