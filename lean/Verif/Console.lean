import Verif.Program
/-
  What a run of `icftool` prints to standard output (cpp/exe/icftool/{Actions,UserInput,Program}.cpp, ConsolePrinter.h), line by line. What it does to the
  files, and how it ends, is in Verif/Program.lean. What goes to standard error (help, and the text of an exception) is left out.
-/
namespace SSP21.Tool

/-- A line of text. -/
abbrev Text := List Char

/-! ### Printing -/

/-- Decimal digits. -/
def decimal (n : Nat) : Text := Nat.toDigits 10 n

/-- The prefix of a line, cpp/exe/icftool/ConsolePrinter.h:13-18. -/
def indented (indent : Nat) (line : Text) : Text := List.replicate indent ' ' ++ line

/-- Two hexadecimal digits, ConsolePrinter.h:66. -/
def hexByte (b : UInt8) : Text := [Nat.digitChar (b.toNat / 16), Nat.digitChar (b.toNat % 16)]

/-- ConsolePrinter.h:63-67: the bytes of a line. -/
def hexLine : Bytes → Text
  | [] => []
  | [b] => hexByte b
  | b :: c :: bs => hexByte b ++ ':' :: hexLine (c :: bs)

/-- ConsolePrinter.h:56-69: the lines, of at most 16 bytes each. -/
def hexLines (indent : Nat) (data : Bytes) : List Text :=
  if h : data = [] then []
  else indented indent (hexLine (data.take 16)) :: hexLines indent (data.drop 16)
termination_by data.length
decreasing_by
  have := List.length_pos_iff.mpr h
  simp; omega

/-- `ConsolePrinter::print(name, data)`, ConsolePrinter.h:50-74. -/
def printBytes (indent : Nat) (name : Text) (data : Bytes) : List Text :=
  indented indent (name ++ " (length == ".toList ++ decimal data.length ++ [')']) :: hexLines (indent + 2) data

/-- `ConsolePrinter::print(name, value)`, ConsolePrinter.h:38-48. -/
def printField (indent : Nat) (name : Text) (value : Text) : Text := indented indent (name ++ ':' :: ' ' :: value)

/-- `ContainerEntryTypeSpec::to_string`, cpp/libs/ssp21/src/crypto/gen/ContainerEntryType.cpp:44-63. -/
def entryTypeName : ContainerEntryType → Text
  | .shared_secret => "shared_secret".toList
  | .certificate_chain => "certificate_chain".toList
  | .x25519_public_key => "x25519_public_key".toList
  | .x25519_private_key => "x25519_private_key".toList
  | .ed25519_public_key => "ed25519_public_key".toList
  | .ed25519_private_key => "ed25519_private_key".toList
  | .undefined => "undefined".toList

/-- `PublicKeyTypeSpec::to_string`, cpp/libs/ssp21/src/crypto/gen/PublicKeyType.cpp:36-47. -/
def keyTypeName : PublicKeyType → Text
  | .Ed25519 => "Ed25519".toList
  | .X25519 => "X25519".toList
  | .undefined => "undefined".toList

/-- `SeqStructField::print`, cpp/libs/ssp21/include/ssp21/crypto/SeqStructField.h:80-86, with `ExtensionEnvelope::print`,
cpp/libs/ssp21/src/crypto/gen/ExtensionEnvelope.cpp:70-79, from extension `i` on. -/
def extensionLines (indent : Nat) : Nat → List ExtensionEnvelope → List Text
  | _, [] => []
  | i, e :: es =>
    indented indent ("field #".toList ++ decimal i) :: printField indent "identifier".toList (decimal e.identifier.toNat) ::
      (printBytes indent "extension_body".toList e.extension_body ++ extensionLines indent (i + 1) es)

/-- `CertificateBody::print`, cpp/libs/ssp21/src/crypto/gen/CertificateBody.cpp:88-105; SeqStructField.h:75-79. -/
def bodyLines (indent : Nat) (body : CertificateBody) : List Text :=
  [printField indent "valid_after".toList (decimal body.valid_after.toNat),
   printField indent "valid_before".toList (decimal body.valid_before.toNat),
   printField indent "signing_level".toList (decimal body.signing_level.toNat),
   printField indent "public_key_type".toList (keyTypeName body.public_key_type)] ++
  printBytes indent "public_key".toList body.public_key ++
  indented indent ("extensions (count = ".toList ++ decimal body.extensions.length ++ [')']) :: extensionLines indent 1 body.extensions

/-- Actions.cpp:230-233 and `CertificateEnvelope::print`, cpp/libs/ssp21/src/crypto/gen/CertificateEnvelope.cpp:70-79. The printer has been
indented once for each certificate, this one included (the indentation is not taken back). -/
def envelopeLines (i : Nat) (e : CertificateEnvelope) : List Text :=
  [] :: ("certificate #".toList ++ decimal i) :: (printBytes (2 * i) "signature".toList e.signature ++
    printBytes (2 * i) "certificate_body".toList e.certificate_body)

/-- The loop of `print_certificate_chain`, Actions.cpp:227-248, from certificate `i` on: the lines, and whether there was no exception. -/
def chainLines : Nat → List CertificateEnvelope → List Text × Bool
  | _, [] => ([], true)
  | i, e :: es =>
    match Codec.readAll CertificateBody.codec e.certificate_body with
    | .error _ => (envelopeLines i e, false)
    | .ok body =>
      let r := chainLines (i + 1) es
      (envelopeLines i e ++ bodyLines (2 * i + 4) body ++ r.1, r.2)

/-- `Actions::print_contents`, Actions.cpp:38-52, for a file that was read and parsed; `print_certificate_chain`, Actions.cpp:223-225. -/
def contentLines (path : String) (file : ContainerFile) : List Text × Bool :=
  let head := ["File: ".toList ++ path.toList, "Type: ".toList ++ entryTypeName file.container_entry_type]
  if file.container_entry_type = .certificate_chain then
    match Codec.readAll CertificateChain.codec file.payload with
    | .error _ => (head, false)
    | .ok chain =>
      let r := chainLines 1 chain
      if r.2 then (head ++ r.1 ++ [[]], true) else (head ++ r.1, false)
  else (head ++ printBytes 2 "key-data".toList file.payload ++ [[]], true)

/-! ### A run -/

/-- `Actions::print_contents`, Actions.cpp:29-53: what it prints, and how it ends. -/
def shown (fs : FS) (path : String) : List Text × Outcome Unit :=
  match (fs.open path).bind secureRead with
  | .ok data =>
    match parseOrThrow ContainerFile.codec data with
    | .ok file =>
      let r := contentLines path file
      (r.1, if r.2 then .ok () else .throw)
    | .throw => ([], .throw)
    | .exit => ([], .exit)
    | .fault => ([], .fault)
  | .throw => ([], .throw)
  | .exit => ([], .exit)
  | .fault => ([], .fault)

/-- Program.cpp:34-40: an exception ends it. -/
def shownAll (fs : FS) : List String → List Text × Outcome Unit
  | [] => ([], .ok ())
  | path :: rest =>
    let r := shown fs path
    match r.2 with
    | .ok _ => (r.1 ++ (shownAll fs rest).1, (shownAll fs rest).2)
    | e => (r.1, e)

/-- Actions.cpp:220: after `writeOne`. -/
def wroteLines (path : String) : Ending → List Text
  | .done => ["wrote: ".toList ++ path.toList]
  | _ => []

/-- Actions.cpp:65-87, after the heading: what `writePair` prints. -/
def pairLines (fs : FS) (contents : Outcome (Bytes × Bytes)) (path1 path2 : String) : List Text :=
  match contents with
  | .ok (f1, f2) =>
    let r := writeOne fs (.ok f1) path1
    if r.2 = .done then wroteLines path1 .done ++ wroteLines path2 (writeOne r.1 (.ok f2) path2).2 else []
  | _ => []

/-- The question, UserInput.cpp:10. -/
def daysQuestion : Text := "How many days (from now) should the certificate remain valid?".toList

/-- The question, UserInput.cpp:18. -/
def levelQuestion : Text := "Enter the certificate signing level (0 == endpoint certificate, max == 6):".toList

/-- `Actions::create_certificate`, Actions.cpp:136-175: it prints the file that it has written. -/
def certFileLines (o : Outside) (fs : FS) (times : Times) (level : UInt8) (out pub priv : String) : List Text :=
  let r := writeOne fs ((fs.open priv).bind fun privFile => (fs.open pub).bind fun pubFile =>
    createCertificate o.caps o.sign pubFile privFile times level) out
  if r.2 = .done then (shown r.1 out).1 else []

/-- Program.cpp:83-89, UserInput.cpp:18: the level is asked for if there is no such option. -/
def levelLines (o : Outside) (fs : FS) (args : Args) (i : Input) (out pub priv : String) (times : Times) : List Text :=
  (if args.level = none then [levelQuestion] else []) ++
    match levelOf args i with
    | some (some level) => certFileLines o fs times level out pub priv
    | _ => []

/-- Program.cpp:83-89, once the times are known. -/
def timesLines (o : Outside) (fs : FS) (args : Args) (i : Input) (out pub priv : String) : Outcome Times → List Text
  | .ok times => levelLines o fs args i out pub priv times
  | .throw => []
  | .exit => []
  | .fault => []

/-- Program.cpp:77-89, once the days are known. -/
def daysLines (o : Outside) (fs : FS) (args : Args) (out pub priv : String) : Option (Input × UInt16) → List Text
  | some (i, days) => timesLines o fs args i out pub priv (daysToTimes o.now days)
  | none => []

/-- Program.cpp:77-89, UserInput.cpp:10: the days are asked for if there is no such option. -/
def certLines (o : Outside) (fs : FS) (args : Args) (i : Input) (out pub priv : String) : List Text :=
  (if args.days = none then [daysQuestion] else []) ++ daysLines o fs args out pub priv (daysOf args i)

/-- `Program::run`, Program.cpp:25-105: the lines on standard output. -/
def Program.output (o : Outside) (fs : FS) (args : Args) (i : Input) : List Text :=
  if args.help then []
  else if args.show_ then (shownAll fs args.pos).1
  else if args.shared then
    match args.pos with
    | [path] => "creating shared secret...".toList :: wroteLines path (writeOne fs (genSharedSecret o.random) path).2
    | _ => []
  else if args.x25519 then
    match args.pos with
    | [path1, path2] => "generating x25519 key pair...".toList :: pairLines fs (genX25519 o.caps o.x25519.1 o.x25519.2) path1 path2
    | _ => []
  else if args.ed25519 then
    match args.pos with
    | [path1, path2] => "generating Ed25519 key pair".toList :: pairLines fs (genEd25519 o.caps o.ed25519.1 o.ed25519.2) path1 path2
    | _ => []
  else if args.cert then
    match args.pos with
    | [out, pub, priv] => certLines o fs args i out pub priv
    | _ => []
  else []

end SSP21.Tool
