import Verif.Bytes
/-
  The static class `Crypto` in front of the backend: cpp/libs/ssp21/src/crypto/Crypto.cpp. Arguments and results of the
  operations do not matter here: an operation is its name, a backend is the set of its non-null function pointers
  (cpp/libs/ssp21/include/ssp21/crypto/CryptoBackend.h:11-78).
-/
namespace SSP21.Facade

/-- The operations, in the order of CryptoBackend.h:52-77. -/
inductive Op
  | zeroMemory | genRandom | secureEquals
  | hashSha256 | hmacSha256 | genKeypairX25519 | dhX25519 | hkdfSha256
  | genKeypairEd25519 | signEd25519 | verifyEd25519 | gcmEncrypt | gcmDecrypt
  deriving DecidableEq, Repr

/-- A backend: which of the function pointers are not null. -/
abbrev Pointers := Op → Bool

/-- The static members `initialized` and `backend`, Crypto.cpp:13-14. -/
structure State where
  initialized : Bool
  backend : Pointers

/-- Static initialization: all pointers are null. -/
def State.start : State := ⟨false, fun _ => false⟩

/-- `Crypto::initialize`, Crypto.cpp:16-37; `none` is an exception. -/
def State.initialize (s : State) (impl : Pointers) : Option State :=
  if s.initialized then none
  else if !impl .zeroMemory then none
  else if !impl .genRandom then none
  else if !impl .secureEquals then none
  else some ⟨true, impl⟩

/-- `supports_sha256`, Crypto.cpp:103-106. -/
def State.supportsSha256 (s : State) : Bool := s.backend .hashSha256 && s.backend .hkdfSha256 && s.backend .hmacSha256
/-- `supports_x25519`, Crypto.cpp:108-111. -/
def State.supportsX25519 (s : State) : Bool := s.backend .genKeypairX25519 && s.backend .dhX25519
/-- `supports_ed25519`, Crypto.cpp:113-116. -/
def State.supportsEd25519 (s : State) : Bool :=
  s.backend .genKeypairEd25519 && s.backend .signEd25519 && s.backend .verifyEd25519
/-- `supports_aes256_gcm`, Crypto.cpp:118-121. -/
def State.supportsGcm (s : State) : Bool := s.backend .gcmEncrypt && s.backend .gcmDecrypt

/-- What a call of an operation does: it stops the process, it calls the backend function, or it calls a null pointer
(undefined behaviour). -/
inductive Effect
  | exit
  | runs (op : Op)
  | nullCall
  deriving DecidableEq, Repr

/-- Calling through a function pointer. -/
def State.pointer (s : State) (op : Op) : Effect := if s.backend op then .runs op else .nullCall

/-- `check_initialized`, Crypto.cpp:39-45, and then go on. -/
def State.checked (s : State) (next : Effect) : Effect := if s.initialized then next else .exit
/-- `check_supports_sha256`, Crypto.cpp:47-54. -/
def State.checkedSha256 (s : State) (next : Effect) : Effect := s.checked (if s.supportsSha256 then next else .exit)
/-- `check_supports_x25519`, Crypto.cpp:56-63. -/
def State.checkedX25519 (s : State) (next : Effect) : Effect := s.checked (if s.supportsX25519 then next else .exit)
/-- `check_supports_ed25519`, Crypto.cpp:65-72. -/
def State.checkedEd25519 (s : State) (next : Effect) : Effect := s.checked (if s.supportsEd25519 then next else .exit)
/-- `check_supports_aes256_gcm`, Crypto.cpp:74-81. -/
def State.checkedGcm (s : State) (next : Effect) : Effect := s.checked (if s.supportsGcm then next else .exit)

/-- The operations, Crypto.cpp:85-101 and 125-192. -/
def State.call (s : State) (op : Op) : Effect :=
  match op with
  | .zeroMemory | .genRandom | .secureEquals => s.checked (s.pointer op)
  | .hashSha256 | .hmacSha256 | .hkdfSha256 => s.checkedSha256 (s.pointer op)
  | .genKeypairX25519 => s.checkedEd25519 (s.pointer op)
  | .dhX25519 => s.checkedX25519 (s.pointer op)
  | .genKeypairEd25519 | .signEd25519 | .verifyEd25519 => s.checkedEd25519 (s.pointer op)
  | .gcmEncrypt | .gcmDecrypt => s.checkedGcm (s.pointer op)

/-- The states a program can be in: every call of `initialize` that does not throw. -/
inductive Reachable : State → Prop
  | start : Reachable .start
  | install {s s' : State} (impl : Pointers) : Reachable s → s.initialize impl = some s' → Reachable s'

end SSP21.Facade
