import Verif.Spec.RequestManager
import Verif.Spec.Net
import Verif.Spec.Api

/-!
# A client

The client of webwire is another project; of it only the request manager and the message format are in this repository.
What is assumed here is that it tells its request manager about every reply it receives, in the way the message types
are documented. `requestManager/reply.go` is modelled below.
-/

set_option autoImplicit false

namespace Webwire.Spec

/-- The errors of a failed request as the client gets them. -/
inductive ClientErr
  | request (code text : Bytes)
  | internal
  | shutdown
  | other (t : UInt8)
  deriving DecidableEq, Repr

/-- requestManager/request.go:15-18 `genericReply`: an error or a message. -/
abbrev Rep := Except ClientErr Msg

/-- What the client does on receiving a message (message.go:119-214 documents the types): `Fulfill` for replies, `Fail` for
error replies, each for the identifier of the message. Anything else does not concern the request manager. -/
def clientTells (m : Msg) : Option (Bytes × Rep) :=
  if m.msgType ∈ [191, 192, 193] then some (m.ident, .ok m)
  else if m.msgType = 0 then some (m.ident, .error (.request (m.name.view m.buf) (m.payload.data.view m.buf)))
  else if m.msgType = 2 then some (m.ident, .error .internal)
  else if m.msgType = 1 then some (m.ident, .error .shutdown)
  else if m.msgType ∈ [3, 4, 5] then some (m.ident, .error (.other m.msgType))
  else none

/-- What the caller of `AwaitReply` sees. -/
inductive Outcome
  | reply (enc : Encoding) (payload : Bytes)
  | failed (code text : Bytes)
  | internalError
  | otherError
  deriving DecidableEq, Repr

/-- requestManager/request.go:44-49 and requestManager/reply.go:13-20 `PayloadEncoding` and `Payload`. -/
def outcomeOf : Rep → Outcome
  | .ok m => .reply m.payload.encoding (m.payload.data.view m.buf)
  | .error (.request code text) => .failed code text
  | .error .internal => .internalError
  | .error _ => .otherError

end Webwire.Spec
