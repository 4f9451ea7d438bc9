import Verif.Model.Server
import Verif.Spec.Wire
import Verif.Spec.WriterLog

/-!
# What a server should do with a message

Written over the views of `Spec.Wire`, without reference to the handler functions.
-/

set_option autoImplicit false

namespace Webwire.Spec

/-- Calls of the user's connection and message hooks. -/
def isMsgHook : Ev → Bool
  | .onClientConnected _ => true
  | .onClientDisconnected _ => true
  | .onSignal _ _ _ _ => true
  | .onRequest _ _ _ _ _ => true
  | _ => false

/-- The hook calls among some events, in order. -/
def hookCalls (l : List Ev) : List Ev := l.filter isMsgHook

/-- The hook calls a received message must lead to. -/
def expectedHooks (active shutdown : Bool) (c : ConnId) (v : View) : List Ev :=
  if active = false then []
  else if v.msgType ∈ [63, 64, 65] then [.onSignal c v.name (documentedEncoding v.msgType) v.payload]
  else if v.msgType ∈ [127, 128, 129] ∧ shutdown = false then
    [.onRequest c v.ident v.name (documentedEncoding v.msgType) v.payload]
  else []

/-- Message types that ask for a reply. -/
def asksReply (t : UInt8) : Prop := t ∈ [31, 32, 127, 128, 129]

instance (t : UInt8) : Decidable (asksReply t) := by unfold asksReply; infer_instance

/-- Sockets and user code that return: no socket function panics or blocks, `OnSessionClosed` does not panic,
the key generator makes no empty key, `OnRequest` returns no typed nil pointer. -/
structure WellBehaved {ν υ : Type} (srv : Server ν υ) : Prop where
  getWriter : ∀ n c, ∃ r, srv.sock.getWriter n c = .ok r
  writer : ∀ c, Total (srv.sock.writer c)
  close : ∀ n c, ∃ r, srv.sock.close n c = .ok r
  sessionClosed : ∀ u k, ∃ e, (srv.hooks.onSessionClosed u k).2 = .returned e
  key : ∀ u, (srv.hooks.generateKey u).2 ≠ []
  request : ∀ u c m, (srv.hooks.onRequest u c m).2.err ≠ .requestPtr none

/-- A server that is not shutting down, with a handler slot left on connection `c`. -/
structure Ready {ν υ : Type} (w : World ν υ) (c : ConnId) : Prop where
  shutdown : w.shutdown = false
  slots : (w.conns c).limit > 1 → ((w.conns c).slots : Int) < (w.conns c).limit

end Webwire.Spec
