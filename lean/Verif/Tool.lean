import Verif.Chain
/-
  `icftool`, the command line tool that makes keys and certificates (cpp/exe/icftool), and reading / writing container
  files (cpp/libs/ssp21/src/util/SecureFile.cpp). Files are their contents; errors of the file system are not modelled.
  What is printed is in Verif/Console.lean.
-/
namespace SSP21.Tool

/-- How a function of the tool ends: with a result, an exception (the tool prints it and stops), `exit(-1)` in
Crypto.cpp, or undefined behaviour. -/
inductive Outcome (α : Type)
  | ok (a : α)
  | throw
  | exit
  | fault
  deriving DecidableEq, Repr

/-- Sequencing. -/
def Outcome.bind {α β : Type} : Outcome α → (α → Outcome β) → Outcome β
  | .ok a, f => f a
  | .throw, _ => .throw
  | .exit, _ => .exit
  | .fault, _ => .fault

instance : Monad Outcome where
  pure := .ok
  bind := Outcome.bind

/-- `Actions::Times`, cpp/exe/icftool/Actions.h:21-24. -/
structure Times where
  valid_after : UInt64
  valid_before : UInt64
  deriving DecidableEq, Repr

/-- A result of arithmetic on `int` (32 bits): overflow is undefined behaviour. -/
def int32 (n : Int) : Outcome Int := if -2147483648 ≤ n ∧ n < 2147483648 then .ok n else .fault

/-- `UserInput::days_to_times`, cpp/exe/icftool/UserInput.cpp:28-34: `days` is promoted to `int`, the two products are
computed in `int`, and the result is converted to `uint64_t`. -/
def daysToTimes (now : UInt64) (days : UInt16) : Outcome Times := do
  let seconds ← int32 (days.toNat * 86400)
  let millis ← int32 (seconds * 1000)
  pure ⟨now, now + UInt64.ofInt millis⟩

/-- The same when overflow wraps around, as it does in practice. -/
def daysToTimesWrapping (now : UInt64) (days : UInt16) : Times :=
  ⟨now, now + UInt64.ofInt ((Int32.ofNat days.toNat * 86400) * 1000).toInt⟩

/-- `SecureFile::read` with the default limit, cpp/libs/ssp21/src/util/SecureFile.cpp:8-35 and SecureFile.h:19. -/
def secureRead (file : Bytes) : Outcome Bytes :=
  if file.length = 0 then .throw else if file.length > 4096 then .throw else .ok file

/-- `parse_or_throw`, cpp/exe/icftool/Actions.cpp:18-27. -/
def parseOrThrow {α : Type} (c : Codec α) (data : Bytes) : Outcome α :=
  match Codec.readAll c data with
  | .error _ => .throw
  | .ok a => .ok a

/-- `serialize::to_buffer`, cpp/libs/ssp21/include/ssp21/util/SerializationUtils.h:13-33. -/
def toBuffer {α : Type} (c : Codec α) (a : α) : Outcome Bytes :=
  match toAnyBuffer c a with
  | .ok bs => .ok bs
  | _ => .throw

/-- `Actions::write` and `SecureFile::write`, Actions.cpp:217-221 and SecureFile.h:21-41: the contents of the new file. -/
def writeFile (type : ContainerEntryType) (data : Bytes) : Outcome Bytes := toBuffer ContainerFile.codec ⟨type, data⟩

/-- `Actions::gen_shared_secert`, Actions.cpp:55-63; `rnd` are 32 random bytes. -/
def genSharedSecret (rnd : Bytes) : Outcome Bytes := writeFile .shared_secret rnd

/-- `Actions::gen_ed25519_key_pair`, Actions.cpp:77-87: the private and the public key file. `pair` is what the backend
generates. -/
def genEd25519 (caps : Caps) (priv pub : Bytes) : Outcome (Bytes × Bytes) := do
  if caps.ed25519 then
    let f1 ← writeFile .ed25519_private_key priv
    let f2 ← writeFile .ed25519_public_key pub
    pure (f1, f2)
  else .exit

/-- `Actions::gen_x25519_key_pair`, Actions.cpp:65-75; the key generation tests the support of Ed25519, Crypto.cpp:142-146
(see Verif/Facade.lean). -/
def genX25519 (caps : Caps) (priv pub : Bytes) : Outcome (Bytes × Bytes) := do
  if caps.ed25519 then
    let f1 ← writeFile .x25519_private_key priv
    let f2 ← writeFile .x25519_public_key pub
    pure (f1, f2)
  else .exit

/-- `Actions::calc_signature`, Actions.cpp:177-190, with `Crypto::sign_ed25519`, Crypto.cpp:170-174, and
`sign_ed25519`, cpp/libs/sodium/src/Backend.cpp:140-146: `sign` is `crypto_sign_detached` data key, which reads 64 bytes
of the key; its length is not checked. -/
def calcSignature (caps : Caps) (sign : Bytes → Bytes → Bytes) (data : Bytes) (key : ContainerFile) : Outcome Bytes :=
  match key.container_entry_type with
  | .ed25519_private_key =>
    if !caps.ed25519 then .exit
    else if key.payload.length < 64 then .fault
    else .ok (sign data (key.payload.take 64))
  | _ => .throw

/-- `Actions::get_public_key_type`, Actions.cpp:192-206. -/
def getPublicKeyType (file : ContainerFile) : Outcome PublicKeyType :=
  match file.container_entry_type with
  | .ed25519_public_key => if file.payload.length ≠ 32 then .throw else .ok .Ed25519
  | .x25519_public_key => if file.payload.length ≠ 32 then .throw else .ok .X25519
  | _ => .throw

/-- `Actions::create_certificate`, Actions.cpp:136-175: the contents of the certificate file. (The final
`print_contents` parses what has just been written.) The length of the body is truncated to 16 bits,
Actions.cpp:163. -/
def createCertificate (caps : Caps) (sign : Bytes → Bytes → Bytes) (publicKeyFile privateKeyFile : Bytes) (times : Times)
    (level : UInt8) : Outcome Bytes := do
  let privData ← secureRead privateKeyFile
  let priv ← parseOrThrow ContainerFile.codec privData
  let pubData ← secureRead publicKeyFile
  let pub ← parseOrThrow ContainerFile.codec pubData
  let type ← getPublicKeyType pub
  let body ← toBuffer CertificateBody.codec ⟨times.valid_after, times.valid_before, level, type, pub.payload, []⟩
  let signature ← calcSignature caps sign body priv
  let chain ← toBuffer CertificateChain.codec [⟨signature, body.take (body.length % 65536)⟩]
  writeFile .certificate_chain chain

/-- `Actions::expect_certificate_chain`, Actions.cpp:208-215. -/
def expectCertificateChain (file : ContainerFile) : Outcome (List CertificateEnvelope) :=
  if file.container_entry_type ≠ .certificate_chain then .throw
  else parseOrThrow CertificateChain.codec file.payload

/-- `Chain::verify` as the tool uses it. -/
def verifyChain (b : Backend) (caps : Caps) (parent : CertificateBody) (chain : List CertificateEnvelope) : Outcome Unit :=
  match Chain.verify b caps parent chain with
  | .error .fault => .fault
  | .error (.err _) => .throw
  | .ok _ => .ok ()

/-- `Actions::append_certificate_chains`, Actions.cpp:89-134: the contents of the output file. A chain holds at most six
certificates (CertificateChain.h:37). -/
def appendChains (b : Backend) (caps : Caps) (file1 file2 : Bytes) : Outcome Bytes := do
  let data1 ← secureRead file1
  let chain1 ← (parseOrThrow ContainerFile.codec data1).bind expectCertificateChain
  let data2 ← secureRead file2
  let chain2 ← (parseOrThrow ContainerFile.codec data2).bind expectCertificateChain
  match chain1.getLast? with
  | none => .throw
  | some last =>
    if chain2.length ≠ 1 then .throw
    else
      let lastBody ← parseOrThrow CertificateBody.codec last.certificate_body
      verifyChain b caps lastBody chain2
      if chain1.length + chain2.length > 6 then .throw
      else
        let chain ← toBuffer CertificateChain.codec (chain1 ++ chain2)
        writeFile .certificate_chain chain

end SSP21.Tool
