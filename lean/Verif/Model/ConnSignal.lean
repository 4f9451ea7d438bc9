import Verif.Model.Write

/-!
# Connection.Signal

Models `connection.go:160-184`.
-/

set_option autoImplicit false

namespace Webwire

/-- How `Connection.Signal` ends without an error of the transport. connection.go:160-184. -/
inductive SignalRes (σ : Type)
  /-- `ErrProtocol`, nothing was sent -/
  | errProtocol
  /-- `ErrBufferOverflow`, nothing was sent -/
  | errBufferOverflow
  /-- the socket refused to give a writer -/
  | noWriter (e : Err)
  /-- `WriteMsgSignal` ran and returned this -/
  | wrote (s : σ) (e : Option Err)

/-- connection.go:160-184 `Signal`. `getWriter` models `con.sock.GetWriter()`; `uint32(...)` at line 167
truncates the length (a Go `int`) modulo 2^32. -/
def connSignal {σ : Type} (w : Writer σ) (getWriter : Except Err σ) (messageBufferSize : UInt32)
    (name : Bytes) (enc : Encoding) (payload : Bytes) : Go (SignalRes σ) :=
  if name.length < 1 ∧ payload.length < 1 then .ok .errProtocol
  else if UInt32.ofNat (calcMsgLenSignal name enc payload) > messageBufferSize then .ok .errBufferOverflow
  else match getWriter with
    | .error e => .ok (.noWriter e)
    | .ok s => do
      let (s, e) ← writeMsgSignal w s name enc payload true
      return .wrote s e

end Webwire
