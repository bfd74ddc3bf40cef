import Verif.Tool
/-
  A run of `icftool`: `main`, the choice of the action, the questions it asks, and what it does to the file system
  (cpp/exe/icftool/main.cpp, Program.cpp, UserInput.cpp, Actions.cpp).

  The parser of the command line (argagg) is not part of the project: a run starts from what it has found (`Args`).
  What a run prints is in Verif/Console.lean.
-/
namespace SSP21.Tool

/-- What the disk does with data that is written to a file: it takes all of it, or only the first bytes (it may be full). In the
second case `std::ofstream` reports the failure in `write`, or, if it has kept the data in its buffer, only when the file is
closed by its destructor, where it is ignored: which one is up to the implementation and the size of the data (libstdc++
keeps up to 1023 bytes, so for the files of this tool it is nearly always the second). -/
inductive Disk
  | good
  | full (taken : Nat) (reported : Bool)

/-- The file system: the contents of the files, whether a file can be opened for writing, and what the disk does with data for it. -/
structure FS where
  file : String → Option Bytes
  canOpen : String → Bool
  disk : String → Disk

/-- A file has new contents. -/
def FS.put (fs : FS) (path : String) (data : Bytes) : FS :=
  { fs with file := fun p => if p = path then some data else fs.file p }

/-- How a run of the program ends: the action was carried out; help was printed; an exception was caught by `main`; `exit(-1)` in
Crypto.cpp; undefined behaviour; it waits for input for ever. -/
inductive Ending
  | done | help | failed | exit | fault | hang
  deriving DecidableEq, Repr

/-- The end of an action. -/
def Outcome.ending {α : Type} : Outcome α → Ending
  | .ok _ => .done
  | .throw => .failed
  | .exit => .exit
  | .fault => .fault

/-- `SecureFile::write`, cpp/libs/ssp21/include/ssp21/util/SecureFile.h:21-42, with the serialized data: opening a file
for writing empties it. -/
def FS.write (fs : FS) (path : String) (data : Bytes) : FS × Outcome Unit :=
  if fs.canOpen path then
    match fs.disk path with
    | .good => (fs.put path data, .ok ())
    | .full taken true => (fs.put path (data.take taken), .throw)
    | .full taken false => (fs.put path (data.take taken), .ok ())
  else (fs, .throw)

/-- Opening a file for reading, SecureFile.cpp:10-13; the rest of `SecureFile::read` is `secureRead`. -/
def FS.open (fs : FS) (path : String) : Outcome Bytes :=
  match fs.file path with
  | none => .throw
  | some data => .ok data

/-- `Actions::print_certificate_chain`, Actions.cpp:223-250: whether it succeeds. -/
def printChain (payload : Bytes) : Outcome Unit := do
  let chain ← parseOrThrow CertificateChain.codec payload
  if chain.all fun e => (parseOrThrow CertificateBody.codec e.certificate_body).ending = .done then .ok () else .throw

/-- `Actions::print_contents`, Actions.cpp:29-53: whether it succeeds. -/
def printContents (fs : FS) (path : String) : Outcome Unit := do
  let data ← (fs.open path).bind secureRead
  let file ← parseOrThrow ContainerFile.codec data
  if file.container_entry_type = .certificate_chain then printChain file.payload else .ok ()

/-- What the run needs from outside: the random key of `gen_random`, the key pairs of the backend, the time
(`system_clock::now()`, in milliseconds), and the backend. -/
structure Outside where
  caps : Caps
  backend : Backend
  sign : Bytes → Bytes → Bytes
  random : Bytes
  x25519 : Bytes × Bytes
  ed25519 : Bytes × Bytes
  now : UInt64

/-! ### Questions -/

/-- What the user types, separated by white space: a number without a sign, or something else. -/
inductive Word
  | number (n : Nat)
  | other
  deriving DecidableEq, Repr

/-- The state of `std::cin`: `failed` is its failbit, after which it delivers nothing. -/
structure Input where
  words : List Word
  failed : Bool := false

/-- `std::cin >> value` for an unsigned type with maximum `max` (C++17 [istream.formatted.arithmetic], [facet.num.get.virtuals]): at
the end of the input, or if the stream has failed before, the variable keeps its value; for something that is not a
number it becomes 0, for a number that is too large `max`, and the stream fails. -/
def Input.read (i : Input) (max value : Nat) : Input × Nat :=
  if i.failed then (i, value)
  else match i.words with
    | [] => ({ i with failed := true }, value)
    | .number n :: rest => if n ≤ max then (⟨rest, false⟩, n) else (⟨rest, true⟩, max)
    | .other :: rest => (⟨.other :: rest, true⟩, 0)

/-- `get_validity_times_from_user`, cpp/exe/icftool/UserInput.cpp:8-14: the days, before `days_to_times`. -/
def askDays (i : Input) : Input × UInt16 :=
  let r := i.read 65535 0
  (r.1, UInt16.ofNat r.2)

/-- `get_signing_level_from_user`, UserInput.cpp:16-26: `none` if the loop never ends. Every turn of the loop consumes a word
or makes the stream fail; after that the variable does not change any more. -/
def askLevel (fuel : Nat) (i : Input) (level : Nat) : Option UInt8 :=
  if level ≤ 6 then some (UInt8.ofNat level)
  else match fuel with
    | 0 => none
    | fuel + 1 => askLevel fuel (i.read 4294967295 level).1 (i.read 4294967295 level).2

/-! ### The program -/

/-- The result of the parser of the command line, Program.cpp:12-27. The value of `--days` and `--level` is `some none` if it
cannot be converted (`as<uint16_t>()` and `as<uint8_t>()` throw). -/
structure Args where
  help : Bool := false
  show_ : Bool := false
  shared : Bool := false
  x25519 : Bool := false
  ed25519 : Bool := false
  cert : Bool := false
  append : Bool := false
  days : Option (Option UInt16) := none
  level : Option (Option UInt8) := none
  pos : List String := []

/-- `--show`, Program.cpp:34-40: one file after the other. -/
def showAll (fs : FS) : List String → Outcome Unit
  | [] => .ok ()
  | path :: rest => (printContents fs path).bind fun _ => showAll fs rest

/-- Write one file; `contents` fails before anything is written. -/
def writeOne (fs : FS) (contents : Outcome Bytes) (path : String) : FS × Ending :=
  match contents with
  | .ok f => ((fs.write path f).1, (fs.write path f).2.ending)
  | o => (fs, o.ending)

/-- Write a pair of key files one after the other, Actions.cpp:65-87; `contents` fails before anything is written. -/
def writePair (fs : FS) (contents : Outcome (Bytes × Bytes)) (path1 path2 : String) : FS × Ending :=
  match contents with
  | .ok (f1, f2) =>
    let r := writeOne fs (.ok f1) path1
    if r.2 = .done then writeOne r.1 (.ok f2) path2 else r
  | o => (fs, o.ending)

/-- The number of turns after which the loop of `askLevel` cannot end any more: one more than there are words. -/
def Input.turns (i : Input) : Nat := i.words.length + 1

/-- The number of days that a run uses, and what is left of the input, Program.cpp:77-81: `none` if the value of the option is
not a number. -/
def daysOf (args : Args) (i : Input) : Option (Input × UInt16) :=
  match args.days with
  | some d => d.map fun d => (i, d)
  | none => some (askDays i)

/-- The level that a run uses, Program.cpp:83-87: `none` if the value of the option is not a number, `some none` if the question
is asked for ever. -/
def levelOf (args : Args) (i : Input) : Option (Option UInt8) :=
  match args.level with
  | some l => l.map some
  | none => some (askLevel i.turns i 256)

/-- `Actions::create_certificate`, Actions.cpp:136-180: the contents of the two key files are read (the private key first), the
certificate is written, and printed. -/
def certFile (o : Outside) (fs : FS) (times : Times) (level : UInt8) (out pub priv : String) : FS × Ending :=
  let r := writeOne fs ((fs.open priv).bind fun privFile => (fs.open pub).bind fun pubFile =>
    createCertificate o.caps o.sign pubFile privFile times level) out
  if r.2 = .done then (r.1, (printContents r.1 out).ending) else r

/-- `Program::run` for `--cert` once the level is known, Program.cpp:89. -/
def certAtLevel (o : Outside) (fs : FS) (times : Times) (out pub priv : String) : Option (Option UInt8) → FS × Ending
  | none => (fs, .failed)
  | some none => (fs, .hang)
  | some (some level) => certFile o fs times level out pub priv

/-- `Program::run` for `--cert` once the times are known, Program.cpp:83-91. -/
def certInTimes (o : Outside) (fs : FS) (args : Args) (i : Input) (out pub priv : String) : Outcome Times → FS × Ending
  | .ok times => certAtLevel o fs times out pub priv (levelOf args i)
  | .throw => (fs, .failed)
  | .exit => (fs, .exit)
  | .fault => (fs, .fault)

/-- `Program::run` for `--cert` once the days are known, Program.cpp:77-91. -/
def certInDays (o : Outside) (fs : FS) (args : Args) (out pub priv : String) : Option (Input × UInt16) → FS × Ending
  | none => (fs, .failed)
  | some (i, days) => certInTimes o fs args i out pub priv (daysToTimes o.now days)

/-- `Program::run` for `--cert`, Program.cpp:69-91. -/
def runCert (o : Outside) (fs : FS) (args : Args) (i : Input) (out pub priv : String) : FS × Ending :=
  certInDays o fs args out pub priv (daysOf args i)

/-- `Program::run`, Program.cpp:25-105. -/
def Program.run (o : Outside) (fs : FS) (args : Args) (i : Input) : FS × Ending :=
  if args.help then (fs, .help)
  else if args.show_ then (fs, (showAll fs args.pos).ending)
  else if args.shared then
    match args.pos with
    | [path] => writeOne fs (genSharedSecret o.random) path
    | _ => (fs, .failed)
  else if args.x25519 then
    match args.pos with
    | [path1, path2] => writePair fs (genX25519 o.caps o.x25519.1 o.x25519.2) path1 path2
    | _ => (fs, .failed)
  else if args.ed25519 then
    match args.pos with
    | [path1, path2] => writePair fs (genEd25519 o.caps o.ed25519.1 o.ed25519.2) path1 path2
    | _ => (fs, .failed)
  else if args.cert then
    match args.pos with
    | [out, pub, priv] => runCert o fs args i out pub priv
    | _ => (fs, .failed)
  else if args.append then
    match args.pos with
    | [in1, in2, out] =>
      writeOne fs ((fs.open in1).bind fun f1 => (fs.open in2).bind fun f2 => appendChains o.backend o.caps f1 f2) out
    | _ => (fs, .failed)
  else (fs, .help)

/-- The exit status of the process, main.cpp:8-20: `main` returns 0 also after an exception; `exit(-1)` gives 255. Undefined
behaviour and a run that does not end have none. -/
def Ending.status : Ending → Option UInt8
  | .done => some 0
  | .help => some 0
  | .failed => some 0
  | .exit => some 255
  | .fault => none
  | .hang => none

end SSP21.Tool
