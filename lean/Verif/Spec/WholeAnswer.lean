import Verif.Model.Whole
import Verif.Props.EndToEnd

/-!
# What C97 talks about

What a request looks like to the handler, and what the client is to make of the reply.
-/

set_option autoImplicit false

namespace Webwire.Whole.Spec
open _root_.Webwire.Spec

/-- The message asks for this, under this identifier. Types as documented in message/message.go:160-214. -/
def AsksFor (m : Msg) (ident : Bytes) : Ask → Prop
  | .request name enc payload => Shows m (typeByte 127 enc) ident name (canonEnc enc) payload
  | .restore key => Shows m 32 ident [] 0 key
  | .close => Shows m 31 ident [] 0 []

/-- What a handler can come to: `OnRequest` is called for requests only; session requests fail at once if sessions are disabled. -/
def Possible (enabled : Bool) : Ask → Out → Prop
  | .request .., .hook _ => True
  | .restore _, .session .disabled | .close, .session .disabled => enabled = false
  | .restore _, .session .full | .restore _, .session .failed | .restore _, .session .missing
  | .restore _, .session (.restored _) | .close, .session .closed => enabled = true
  | _, _ => False

/-- The reply tells what the handler came to: what `OnRequest` returned; the session as JSON; an empty reply when the session was
closed; or the error documented for this result (message/message.go:126-147). -/
def Means : Out → Rep → Prop
  | .hook out, rep => Result out (outcomeOf rep)
  | .session .disabled, rep => rep = .error (.other 5)
  | .session .full, rep => rep = .error (.other 4)
  | .session .failed, rep => outcomeOf rep = .internalError
  | .session .missing, rep => rep = .error (.other 3)
  | .session (.restored json), rep => outcomeOf rep = .reply 1 json
  | .session .closed, rep => outcomeOf rep = .reply 0 []

/-- There is a reply for it: always for session requests. -/
def Sendable : Out → Prop
  | .hook out => Answerable out
  | .session _ => True

end Webwire.Whole.Spec
