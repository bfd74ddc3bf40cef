import Verif.Qix
import Verif.Primitives
/-
  `qix-emulator`, cpp/exe/qix-emulator/main.cpp: a program that plays the part of a QKD device. It writes frames with keys to serial
  ports: random keys, keys from standard input, or keys that are computed from the time.

  The environment supplies the random keys, the lines, the times, and for each write to a port whether it fails, and after
  how many bytes. Simplifications: opening the ports succeeds; what is printed, and `--read` (which only prints), are left
  out; options are given as parsed (argagg is not in the repository).
-/
namespace SSP21.Emulator

/-- The options, main.cpp:63-72; `get_ports`, main.cpp:276-289. -/
structure Options where
  help : Bool := false
  read : Bool := false
  stdin : Bool := false
  write : Bool := false
  twrite : Option UInt32 := none
  ports : List String := []
  rate : Option UInt16 := none
  count : Option UInt64 := none

/-- What the program is going to do. -/
inductive Mode
  | help
  | read
  | stdin
  | random (count : UInt64) (rate : UInt16)
  | timed (count : UInt64) (modulo : UInt32)
  | refused
  deriving DecidableEq

/-- `main`, main.cpp:76-103 (`refused`: an exception, and `-1`), with the checks at main.cpp:108-110, 131-137, 228-234;
`get_key_rate`, `get_frame_count`, main.cpp:291-307. -/
def Options.mode (o : Options) : Mode :=
  if o.help then .help
  else if o.read then if o.ports.length ≠ 1 then .refused else .read
  else if o.stdin then .stdin
  else if o.write then
    if o.ports = [] then .refused
    else if o.rate.getD 1 = 0 then .refused
    else .random (o.count.getD 18446744073709551615) (o.rate.getD 1)
  else match o.twrite with
    | some modulo =>
      if o.ports = [] then .refused
      else if modulo < 100 then .refused
      else .timed (o.count.getD 18446744073709551615) modulo
    | none => .refused

/-- Whether writing to the port with this number fails, and after how many bytes. -/
abbrev Errors := Nat → Option Nat

/-- `for (const auto& writer : writers) writer->write(frame)`, main.cpp:158-160 (the same at 218-220, 266-268): what has been written to
each port, and whether there was no exception. `j` is the number of the first of these ports. -/
def writeAll (error : Errors) (f : Qix.Frame) : Nat → List Bytes → List Bytes × Bool
  | _, [] => ([], true)
  | j, port :: ports =>
    match Qix.write f with
    | none => (port :: ports, false)
    | some bytes =>
      match error j with
      | some n => ((port ++ bytes.take n) :: ports, false)
      | none =>
        let r := writeAll error f (j + 1) ports
        ((port ++ bytes) :: r.1, r.2)

/-- How far the program has come. -/
inductive End
  | running
  | exit (code : Int)
  | threw
  deriving DecidableEq

/-! ### Random keys -/

/-- One pass of the loop: the random key, the times (in nanoseconds) at the beginning, after writing, and when the thread
has slept, and the failures. -/
structure Pass where
  random : Bytes
  start : Int
  now : Int
  wake : Int
  error : Errors

/-- `write_random_frames`, main.cpp:149-171, from frame `i` on. -/
def randomLoop (count : UInt64) : UInt64 → List Pass → List Bytes → List Bytes × End
  | i, [], ports => (ports, if i < count then .running else .exit 0)
  | i, p :: ps, ports =>
    if i < count then
      let r := writeAll p.error ⟨i, p.random, .ok⟩ 0 ports
      if r.2 then randomLoop count (i + 1) ps r.1 else (r.1, .threw)
    else (ports, .exit 0)

/-- `frame_delay`, main.cpp:139, in nanoseconds. -/
def frameDelay (rate : UInt16) : Int := ((1000 / rate.toNat : Nat) : Int) * 1000000

/-- main.cpp:164-168: how long the thread sleeps. (`start` is before `now`, so `elapsed` is not positive.) -/
def sleepTime (rate : UInt16) (start now : Int) : Int :=
  let elapsed := start - now
  if elapsed < frameDelay rate then frameDelay rate - elapsed else 0

/-! ### Keys from standard input -/

/-- main.cpp:195-208: the bits of a byte. -/
def readByte : Nat → UInt8 → List Char → Option UInt8
  | _, sum, [] => some sum
  | bit, sum, c :: cs =>
    if c = '1' then readByte (bit + 1) (sum ||| (1 <<< UInt8.ofNat (7 - bit))) cs
    else if c = '0' then readByte (bit + 1) sum cs
    else none

/-- main.cpp:187-209: the key, or an error. -/
def readLine (line : List Char) : Option Bytes :=
  if line.length ≠ 256 then none
  else (List.range 32).mapM fun byte => readByte 0 0 ((line.drop (byte * 8)).take 8)

/-- `write_frames_from_std_in`, main.cpp:182-223, from key `id` on. With each line, the failures of the writes. -/
def stdinLoop : UInt64 → List (List Char × Errors) → List Bytes → List Bytes × End
  | _, [], ports => (ports, .exit 0)
  | id, (line, error) :: rest, ports =>
    match readLine line with
    | none => (ports, .exit (-1))
    | some key =>
      let r := writeAll error ⟨id, key, .ok⟩ 0 ports
      if r.2 then stdinLoop (id + 1) rest r.1 else (r.1, .threw)

/-! ### Keys computed from the time -/

/-- `to_ms_since_epoch`, main.cpp:309-312; times of the system clock in nanoseconds since 1970 (not before). -/
def toMs (t : Nat) : Nat := t / 1000000

/-- main.cpp:248-252: until when the thread sleeps. -/
def nextTime (modulo : UInt32) (now : Nat) : Nat := now + (modulo.toNat - toMs now % modulo.toNat) * 1000000

/-- main.cpp:255: the key id. -/
def keyIdAt (modulo : UInt32) (now : Nat) : UInt64 := UInt64.ofNat (toMs (nextTime modulo now))
/-- main.cpp:257-262: the key. -/
def keyOf (b : Backend) (id : UInt64) : Bytes := b.hash (be 8 id.toNat)

/-- `write_time_based_frames`, main.cpp:245-273, from frame `i` on. With each pass the time at its beginning, and the failures. -/
def timedLoop (b : Backend) (modulo : UInt32) (count : UInt64) : UInt64 → List (Nat × Errors) → List Bytes → List Bytes × End
  | i, [], ports => (ports, if i < count then .running else .exit 0)
  | i, (now, error) :: rest, ports =>
    if i < count then
      let id := keyIdAt modulo now
      let r := writeAll error ⟨id, keyOf b id, .ok⟩ 0 ports
      if r.2 then timedLoop b modulo count (i + 1) rest r.1 else (r.1, .threw)
    else (ports, .exit 0)

end SSP21.Emulator
