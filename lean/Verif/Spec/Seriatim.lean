import Verif.Spec.Session
import Verif.Spec.Wire
import Verif.Model.Lifecycle

/-!
# A server that does one thing after the other

Histories of `Model/Server` in which connections come and go, and what of them can be seen in `Model/Lifecycle` as
well.
-/

set_option autoImplicit false

namespace Webwire.Spec

section
variable {ν υ : Type}

/-- The bytes are a message and fit into the buffer. -/
def Understood (srv : Server ν υ) (i : Incoming) : Prop :=
  ∃ bs v, i = .data bs ∧ Grammar bs v ∧ bs.length ≤ srv.bufferSize.toNat

/-- The state after any finite history, the connections there ever were, and those that are being read from. Each
connection is new when it comes; nothing is received before that or after reading failed. -/
inductive Seriatim (srv : Server ν υ) : World ν υ → List ConnId → List ConnId → Prop
  /-- a server that was just started -/
  | start (w : World ν υ) : Started w → w.shutdown = false → w.currentOps = 0 → w.rdyClosed = false →
      Seriatim srv w [] []
  /-- a new connection -/
  | accept (w w1 w' : World ν υ) (seen open' : List ConnId) (c : ConnId) (limit : Int) : Seriatim srv w seen open' →
      c ∉ seen → writeConfMessage srv w c = .ok (w1, none) → handleConnection srv w c limit [] = .ok w' →
      Seriatim srv w' (c :: seen) (c :: open')
  /-- a new connection that could not be sent its configuration -/
  | reject (w w1 w' : World ν υ) (seen open' : List ConnId) (c : ConnId) (limit : Int) (e : Err) :
      Seriatim srv w seen open' → c ∉ seen → writeConfMessage srv w c = .ok (w1, some e) →
      handleConnection srv w c limit [] = .ok w' → Seriatim srv w' (c :: seen) open'
  /-- a message -/
  | receive (w w' : World ν υ) (seen open' : List ConnId) (c : ConnId) (i : Incoming) : Seriatim srv w seen open' →
      c ∈ open' → Understood srv i → serve srv w c [i] = .ok w' → Seriatim srv w' seen open'
  /-- an error of the socket, or bytes that are no message -/
  | gone (w w' : World ν υ) (seen open' : List ConnId) (c : ConnId) (i : Incoming) : Seriatim srv w seen open' →
      c ∈ open' → ¬ Understood srv i → serve srv w c [i] = .ok w' → Seriatim srv w' seen (open'.erase c)
  /-- an API call -/
  | api (w w' : World ν υ) (seen open' : List ConnId) (a : ApiCall) : Seriatim srv w seen open' →
      runApi srv w a = .ok w' → Seriatim srv w' seen open'
  /-- the begin of a shutdown -/
  | shutdown (w : World ν υ) (seen open' : List ConnId) : Seriatim srv w seen open' →
      Seriatim srv { w with shutdown := true } seen open'

end

/-- The user's code is called for something of a connection. -/
inductive Call
  | signal (c : ConnId)
  | request (c : ConnId)
  | disconnected (c : ConnId)
  deriving DecidableEq, Repr

/-- The calls in the trace of `Model/Server`. -/
def callsIn (l : List Ev) : List Call := l.filterMap fun
  | .onSignal c _ _ _ => some (.signal c)
  | .onRequest c _ _ _ _ => some (.request c)
  | .onClientDisconnected c => some (.disconnected c)
  | _ => none

/-- The clients that connected, in order. -/
def clientsIn (l : List Ev) : List ConnId := l.filterMap fun
  | .onClientConnected c => some c
  | _ => none

/-- The calls in the log of `Model/Lifecycle`. -/
def callsOf (l : List Life.LEv) : List Call := l.filterMap fun
  | .start c m => match m.kind with
    | .signal => some (.signal c)
    | .request => some (.request c)
    | _ => none
  | .disconnected c => some (.disconnected c)
  | _ => none

end Webwire.Spec
