import Verif.Exec
/-
  Concrete executions of an initiator and a responder (shared secret, toy backend) used as examples beside the
  theorems about the crypto layer. Everything here is computed by the kernel from the model.
-/
namespace SSP21.Crypto.LayerExample
open Exec

def suite : CryptoSpec := ⟨.nonce, .sha256, .hkdf_sha256, .strict_increment, .hmac_sha256_16⟩
def caps : Caps := ⟨true, true, true, true⟩
def key : Bytes := List.replicate 32 7
def hs : InitiatorHandshake :=
  ⟨.sharedSecret key (List.replicate 32 0), suite,
    ⟨⟨Toy.strong.hash, Toy.strong.hkdf⟩, ⟨verifyStrictIncrement, .hmacSha256Trunc16 Toy.strong⟩⟩, 0, []⟩

theorem made : InitiatorHandshake.mkSharedSecret Toy.strong caps suite key = some hs := rfl

theorem configured : hs.Configured Toy.strong caps := rfl

/-- Session limits: at most nonce 5 and 60 s; renegotiation at nonce 3 or after 30 s. -/
def params : Params := ⟨30000, 3⟩
def limits : SessionLimits := ⟨5, 60000⟩
def ini : Cfg := ⟨Toy.strong, caps, ⟨4092, id⟩, 10000, 4092, .initiator params limits, false⟩
def res : Cfg := ⟨Toy.strong, caps, ⟨4092, id⟩, 10000, 4092, .responder (.sharedSecret key), false⟩

/-- The environment answers a query at time `t`. -/
def ans (t : Int) (b : UInt8 := 0) : Choice := .fresh ⟨t, List.replicate 32 b, none, fun _ => none, []⟩

/-- The last frame handed to the lower layer. -/
def lastTx (s : Option Layer) : Bytes :=
  ((s.map (·.log)).getD []).foldl (fun acc o => match o with | .lowerTx f _ => f | _ => acc) []

/-- The initiator sends its request. -/
def iniRequest : List Choice := [.event (.lowerOpen true), ans 5 9, ans 5 9]
def request : Bytes := lastTx (final ini .tame hs iniRequest)
/-- The responder answers. -/
def resReply : List Choice := [.event (.lowerOpen true), .event .lowerRxReady, .recv request, ans 6, ans 6 8, ans 6 8]
def reply : Bytes := lastTx (final res .tame hs resReply)
/-- The initiator authenticates. -/
def iniAuth : List Choice := iniRequest ++ [.event .lowerTxReady, .recv reply, ans 7, ans 7, ans 7]
def auth1 : Bytes := lastTx (final ini .tame hs iniAuth)
/-- The responder authenticates and opens its application, which does nothing in the callback. -/
def resAuth : List Choice := resReply ++ [.event .lowerTxReady, .recv auth1, ans 8, ans 8, ans 8, ans 8, .ret]
def auth2 : Bytes := lastTx (final res .tame hs resAuth)
/-- The initiator opens its application. -/
def iniOpen : List Choice := iniAuth ++ [.event .lowerTxReady, .recv auth2, ans 9, ans 9, ans 9, .ret, .recv [], ans 9]
/-- The application of the initiator sends data. -/
def iniData : List Choice := iniOpen ++ [.api (.startTx [1, 2, 3]), ans 10]
def data1 : Bytes := lastTx (final ini .tame hs iniData)
/-- The responder receives it; its application is told and then reads it. -/
def resData : List Choice := resAuth ++ [.event .lowerTxReady, .recv data1, ans 11, ans 11, ans 11, .ret]
def resRead : List Choice := resData ++ [.api .startRx]

end SSP21.Crypto.LayerExample
