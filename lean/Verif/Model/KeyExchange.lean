import Verif.Model.Ec
import Verif.Model.Extensions
import Verif.Model.KeySchedule
/-
Model of the ECDHE key exchange: net/client/connection.rs and net/server/server_hello.rs (key shares) and
net/key_schedule.rs (`from_handshake`).
-/
namespace ATLS.Model

/-- net/client/connection.rs:158-166 and net/server/server_hello.rs:113-120: the key share made of an X25519 private key. -/
def keyShareOf (pk : PrivateKey) : Res Unit KeyShareEntry := do
  let pub ← pk.getPublicKey
  let data ← ibigTo32bytes pub.point.x .little
  .ok ⟨.x25519, data⟩

/-- net/key_schedule.rs:138-145: the shared secret from our private key and the bytes of the peer's share. -/
def sharedSecret (pk : PrivateKey) (opaq : Bytes) : Res Unit Bytes := do
  let peer : Point := ⟨toIbigBe opaq, 0⟩
  let shared ← Ec.multiply peer pk.secret pk.curve
  ibigTo32bytes shared.x .big

/-- net/key_schedule.rs:128-151 `KeySchedule::from_handshake`. -/
def KeySchedule.fromHandshake (ts : TsHash) (pk : PrivateKey) (kse : KeyShareEntry) : Res TlsError KeySchedule :=
  if kse.group ≠ .x25519 then .err .handshakeFailure
  else do
    let secret ← Res.mapErr (fun _ => .handshakeFailure) (sharedSecret pk kse.opaq)
    Res.mapErr (fun _ => .handshakeFailure) (KeySchedule.doKeySchedule ts.getType ts.finalize secret)

end ATLS.Model
