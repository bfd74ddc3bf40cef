import Verif.Props.MemoryValues
import Verif.LayerExample
import Verif.Props.Qix
/-
  Concrete cases for the theorems of C63, computed by the kernel.
-/
namespace SSP21.Memory.Example
open Spec MemoryProof

def garbage : Mem := ⟨fun _ => ⟨List.replicate 40 0x55, 0, false, 0⟩, 0⟩
def setting : Setting := ⟨Toy.strong, Crypto.LayerExample.caps, ⟨4092, id⟩, 8⟩
def secret : Bytes := List.replicate 32 7
def rnd : Bytes := List.replicate 32 9
def suite : CryptoSpec := Crypto.LayerExample.suite
def qkdSuite : CryptoSpec := { suite with handshake_ephemeral := .none }
def dhSuite : CryptoSpec := { suite with handshake_ephemeral := .x25519 }
def ask (s : CryptoSpec) (mode : HandshakeMode) (eph data : Bytes) : RequestHandshakeBegin := ⟨protocolVersion, s, ⟨5, 60000⟩, mode, eph, data⟩
def file : Bytes := [1, 2, 3] ++ secret

/-- The object at an address is not as it was, and not zero. -/
def left (m : Mem) (a : Nat) : Bool := decide ((m.cell a).bytes ≠ List.replicate 40 0x55) && (m.cell a).bytes.any (· ≠ 0)

/-- A responder with a shared secret has answered a request: there is a session with keys; and the file, the temporary
objects and the sessions have been somewhere. -/
def sharedEvents : List Event := [.request rnd (ask suite .shared_secret (List.replicate 32 3) []) [1, 2, 3], .activate,
  .transmit .hmac_sha256_16 false 1 [] [5, 6] 100]
def shared : Station × Mem := history setting .sharedSecretResponder file secret sharedEvents garbage

example : shared.1.active.valid = true ∧ (kept shared.1).map (left shared.2) = [true, true, true] ∧
    ((List.range shared.2.next).filter (left shared.2)).length = 4 := by decide +kernel

/-- After the reset: the long-term key and the nonce that has been sent. -/
def sharedClosed : Station × Mem := history setting .sharedSecretResponder file secret (sharedEvents ++ [.reset]) garbage
example : (List.range sharedClosed.2.next).filter (left sharedClosed.2) = [1, 6] ∧ longTerm sharedClosed.1.role = [1] ∧
    (sharedClosed.2.cell 6).bytes.take 32 = rnd := by decide +kernel
example : isResponder (start .sharedSecretResponder file secret garbage).1.role := trivial
/-- Without the long-term key there is nothing else after the construction. -/
example : (List.range 6).filter (left (start .sharedSecretResponder file secret garbage).2) = [1] := by decide +kernel

/-- A responder with two quantum keys, one of which is used. -/
def keys : List Event := [.key 5 secret, .key 6 (List.replicate 32 8)]
def named : RequestHandshakeBegin := ask qkdSuite .quantum_key_distribution [] (be 8 5)
def stocked : Station × Mem := history setting .qkdResponder [] [] keys garbage
def used : Station × Mem := history setting .qkdResponder [] [] (keys ++ [.request rnd named [1, 2, 3]]) garbage
example : stocked.1.store = [(5, 4), (6, 5)] ∧ left stocked.2 4 = true ∧ used.1.store = [(6, 5)] ∧ left used.2 4 = false ∧
    used.1.pending.valid = true ∧ left used.2 used.1.pending.rx = true := by decide +kernel
example : named.mode_ephemeral = [] ∧ named.mode_data = be 8 (5 : UInt64).toNat ∧
    ∃ x, CommonAlgorithms.configure setting.backend setting.caps named.spec = .ok x := ⟨rfl, rfl, _, rfl⟩

/-- An initiator with key pairs: the ephemeral private key after everything has been closed. -/
def certs : CertHandler := .preshared (List.replicate 32 4)
def begun : List Event := [.begin rnd, .requested [1, 2, 3]]
def answered : List Event := [.reply ⟨protocolVersion, List.replicate 32 6, []⟩ [4, 5] false, .activate]
def pair : Station × Mem := history setting (.publicKeyInitiator certs) file secret (begun ++ answered) garbage
def pairClosed : Station × Mem := history setting (.publicKeyInitiator certs) file secret (begun ++ answered ++ [.reset]) garbage
example : pair.1.active.valid = true ∧ (members pair.1.role).map (left pair.2) = [true, true, true] ∧ pairClosed.1.active.valid = false ∧
    (material pairClosed.1.role).map (fun a => (pairClosed.2.cell a).bytes.take 32) = [Toy.strong.dhPublic rnd, rnd] := by decide +kernel
example : ¬ isResponder (start (.publicKeyInitiator certs) file secret garbage).1.role := id
example : ∀ e ∈ answered, ∀ r, e ≠ .begin r := by
  intro e he r
  simp only [answered, List.mem_cons, List.not_mem_nil, or_false] at he
  rcases he with rfl | rfl <;> exact nofun

/-- An initiator with quantum keys keeps the key of its last handshake. -/
def quantum : Station × Mem := history setting .qkdInitiator [] [] (keys ++ [.begin rnd, .requested [1, 2, 3],
  .reply ⟨protocolVersion, [], []⟩ [4, 5] false, .activate, .reset]) garbage
example : quantum.1.store = [(5, 5)] ∧ (material quantum.1.role).map (fun a => (quantum.2.cell a).bytes.take 32) = [List.replicate 32 8] := by
  decide +kernel

/-- The hypotheses of the theorems on values: a new responder, ... -/
def sharedStart : Station × Mem := start .sharedSecretResponder file secret garbage
example : Proper sharedStart.2 sharedStart.1.pending := by simp only [Proper]; decide +kernel
example : At sharedStart.2 1 secret ∧ 1 < sharedStart.2.next := by simp only [At]; decide +kernel
example : SameKeys sharedStart.2 sharedStart.1.pending (Session.new Toy.strong setting.fw 10000) := ⟨rfl, nofun⟩
/-- ... one that has quantum keys, ... -/
def lookup (id : UInt64) : Option Bytes := if id = 5 then some secret else if id = 6 then some (List.replicate 32 8) else none
example : stocked.1.store.all (fun r => lookup r.1 = some ((stocked.2.cell r.2).bytes.take 32) ∧ (stocked.2.cell r.2).len = 32 ∧
    r.2 < stocked.2.next ∧ (stocked.2.cell r.2).owners = 1 ∧ r.2 ≠ stocked.1.pending.rx ∧ r.2 ≠ stocked.1.pending.tx) = true := by decide +kernel
/-- ... and initiators that have sent a request. -/
def requesting : Station × Mem := history setting (.publicKeyInitiator certs) file secret begun garbage
def requestingModel : InitiatorHandshake := ⟨.publicKey secret certs (Toy.strong.genKeyPair rnd), dhSuite,
  ⟨⟨Toy.strong.hash, Toy.strong.hkdf⟩, ⟨verifyStrictIncrement, .hmacSha256Trunc16 Toy.strong⟩⟩, 0, Toy.strong.hash [1, 2, 3]⟩
example : CommonAlgorithms.configure Toy.strong setting.caps dhSuite = .ok requestingModel.algorithms := rfl
example : requesting.1.role = .initiator (.publicKey 1 certs 2 3 4) ∧ Matches requesting.2 (.publicKey 1 certs 2 3 4) requestingModel := by
  refine ⟨rfl, ?_, ?_, ?_, ?_, rfl⟩ <;> simp only [At] <;> decide +kernel
example : (objects (.publicKey 1 certs 2 3 4)).Nodup ∧ ∀ a ∈ objects (.publicKey 1 certs 2 3 4), a < requesting.2.next ∧ a ≠ requesting.1.pending.rx ∧
    a ≠ requesting.1.pending.tx := by decide +kernel
/-- The initiator accepts the reply. -/
example : ((InitiatorMem.publicKey 1 certs 2 3 4).reply Toy.strong setting.caps ⟨protocolVersion, List.replicate 32 6, []⟩ [4, 5] false
    requesting.1.pending requesting.2).1.2 = .ok := by decide +kernel

/-- The parser of quantum keys after a frame. -/
example : ((Qix.Reader.new (List.replicate 47 0)).onRead (Qix.Spec.frame 7 (List.replicate 32 9) 1)).2 =
    some ⟨7, List.replicate 32 9, .ok⟩ := by decide +kernel

end SSP21.Memory.Example
