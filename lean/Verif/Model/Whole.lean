import Verif.Spec.EndToEnd
import Verif.Spec.WriterLog
import Verif.Model.Lifecycle

/-!
# Clients and the server together

Composes the goroutines of the server (`Model/Lifecycle`), the encoder, the parser and the reply functions
(`Model/Write`, `Model/Parse`, `Model/Server`) and one client per connection, which uses the request manager
(`Model/RequestManager`). Any number of connections, of requests in flight, and of goroutines on either side.

In between, a socket delivers each message whole, in order and once (the memchan transport does: C52), and any number of
messages may be on their way. Message objects are not reused before their handlers are done with them (C70), so a
handler sees what was parsed.

Simplified: a reply is written in the same step in which the handler ends; what the handlers do otherwise is left to
the environment, including what `OnRequest` returns and which of the possible results a session request has. A handler that
returns a nil `*ErrRequest` while its connection is open makes the server panic (C22), so does one that restores a session whose
last place was taken at the same time (C37); no step is made of these.
-/

set_option autoImplicit false

namespace Webwire.Whole
open Spec

/-- What does not change: the server, of which only the message buffer size matters here, and the message buffer size
of the clients. server.go:21 `options`, serverOptions.go:41. -/
structure Cfg where
  srv : Server Net Unit
  clientBuf : Nat

/-- What a client asks for: to call `OnRequest` with these arguments (message/writeMsgRequest.go:13-20), to restore the session
with this key, or to close its session (message/writeMsgNamelessRequest.go:10-15). -/
inductive Ask
  | request (name : Bytes) (enc : Encoding) (payload : Bytes)
  | restore (key : Bytes)
  | close

/-- A request of the client as its caller sees it: number (in the order of creation) and what it asks for. The arguments of
message/writeMsgRequest.go:13-20 and message/writeMsgNamelessRequest.go:10-15. -/
structure Call where
  r : Nat
  ask : Ask

/-- How it is sent: message/writeMsgRequest.go:13, message/writeMsgNamelessRequest.go:10. The client, which calls these, is not in
this repository. -/
def Ask.write {σ : Type} (w : Writer σ) (st : σ) (ident : Bytes) (safe : Bool) : Ask → Go (σ × Option Err)
  | .request name enc payload => writeMsgRequest w st ident name enc payload safe
  | .restore key => writeMsgNamelessRequest w st MsgRequestRestoreSession ident key
  | .close => writeMsgNamelessRequest w st MsgRequestCloseSession ident []

/-- A message sent by a client. `req` tells which request it is; the bytes are what is on the wire. Not in the code: a
record of what clients wrote, message/writeMsgRequest.go and message/writeMsgNamelessRequest.go for requests. -/
structure Sent where
  req : Option Call
  bytes : Bytes

/-- What becomes of a session request. handleSessionRestore.go:23-106 in the order of the code, the last one is
handleSessionClosure.go:28, 41. -/
inductive SessOut
  | disabled
  | full
  | failed
  | missing
  | restored (json : Bytes)
  | closed

/-- Which results there are for a message of this type: handleSessionRestore.go:23-106, handleSessionClosure.go:20-42. -/
def SessOut.fits (enabled : Bool) (t : UInt8) : SessOut → Bool
  | .disabled => !enabled
  | .full | .failed | .missing | .restored _ => enabled && t == MsgRequestRestoreSession
  | .closed => enabled && t == MsgRequestCloseSession

/-- What a handler came to: what `OnRequest` returned (handleRequest.go:13), or the result of a session request. -/
inductive Out
  | hook (out : RequestOut)
  | session (out : SessOut)

/-- The handlers: handleMessage.go:32-54. -/
def Out.kind : Out → Life.Kind
  | .hook _ => .request
  | .session _ => .session

/-- The handler closed its message before the reply was sent: handleRequest.go:13. -/
def Out.closesMsg : Out → Bool
  | .hook out => out.closesMsg
  | .session _ => false

/-- Which results there are: any for `OnRequest`, otherwise see `SessOut.fits`. handleRequest.go:13,
handleSessionRestore.go:23-106, handleSessionClosure.go:20-42. -/
def Out.fits (enabled : Bool) (t : UInt8) : Out → Bool
  | .hook _ => true
  | .session out => out.fits enabled t

/-- A handler that returned: the connection, the number of the message (counting what the client sent), the message as the
handler got it, what it came to, and whether the socket still gave a writer for the reply. Not in the code: a record of calls at
handleMessage.go:33, 43, 49, 51. -/
structure Done where
  c : ConnId
  n : Nat
  msg : Msg
  out : Out
  up : Bool

/-- The whole system. server.go:14-36, requestManager/requestManager.go:12-18, and the messages in between. -/
structure State where
  srv : Life.State := {}
  clients : ConnId → Req.State Rep := fun _ => {}
  /-- everything the client sent -/
  sent : ConnId → List Sent := fun _ => []
  /-- how many of these the server has read -/
  taken : ConnId → Nat := fun _ => 0
  /-- everything the server sent; a reply comes with the number of the message it replies to -/
  back : ConnId → List (Option Nat × Bytes) := fun _ => []
  /-- how many of these the client has read -/
  seen : ConnId → Nat := fun _ => 0
  results : List Done := []

/-- Assign to one connection. For the fields of server.go:28 `connections`. -/
def put {α : Type} (f : ConnId → α) (c : ConnId) (x : α) : ConnId → α := fun i => if i = c then x else f i

/-- transport/memchan/socket.go:206-250 `Read`, message/read.go:9-22 `ReadBytes`: the message read into a clean buffer of
the given size (C15); `none` is an error. -/
def readMsg (size : Nat) (bs : Bytes) : Option Msg :=
  match (newMessage size).readBytes bs with
  | .ok (m, true, none) => some m
  | _ => none

/-- handleMessage.go:14, 29-58. -/
def kindOf (t : UInt8) : Life.Kind :=
  if t = MsgHeartbeat then .heartbeat
  else if t = MsgSignalBinary ∨ t = MsgSignalUtf8 ∨ t = MsgSignalUtf16 then .signal
  else if t = MsgRequestBinary ∨ t = MsgRequestUtf8 ∨ t = MsgRequestUtf16 then .request
  else if t = MsgRequestRestoreSession ∨ t = MsgRequestCloseSession then .session
  else .other

/-- What the reader goroutine (handleConnection.go:62-85) makes of the `n`-th message of the client. -/
def incoming (cfg : Cfg) (n : Nat) (bs : Bytes) : Option Life.LMsg :=
  (readMsg cfg.srv.bufferSize.toNat bs).map fun m => ⟨kindOf m.msgType, n⟩

/-- The server's world as far as writing a reply is concerned. The state used by fulfillMsg.go and failMsg.go. -/
def world (up : Bool) : World Net Unit := { net := { connected := fun _ => up }, user := () }

/-- handleSessionRestore.go:24, 34, 44, 52, 70, 98-105 and handleSessionClosure.go:21, 28, 41: the reply to a session request. -/
def answerSession {ν υ : Type} (srv : Server ν υ) (w : World ν υ) (c : ConnId) (m : Msg) : SessOut → Go (World ν υ)
  | .disabled => failMsg srv w c m .sessionsDisabled
  | .full => failMsg srv w c m .maxSessConnsReached
  | .failed => failMsg srv w c m .nil
  | .missing => failMsg srv w c m .sessionNotFound
  | .restored json => fulfillMsg srv w c m encUtf8 json
  | .closed => fulfillMsg srv w c m 0 []

/-- handleRequest.go:20-36, handleSessionRestore.go:23-106, handleSessionClosure.go:20-42: the reply. -/
def answer (srv : Server Net Unit) (w : World Net Unit) (c : ConnId) (m : Msg) : Out → Go (World Net Unit)
  | .hook out => answerRequest srv w c (if out.closesMsg then m.close.1 else m) out
  | .session out => answerSession srv w c m out

/-- What is sent by `answer`: fulfillMsg.go:6, failMsg.go:8. -/
def answers (cfg : Cfg) (c : ConnId) (m : Msg) (out : Out) (up : Bool) : Go (List Bytes) := do
  let w ← answer cfg.srv (world up) c m out
  return w.net.out c

/-- failMsg.go:104-122: what is sent for a request refused during shutdown. -/
def refusal (cfg : Cfg) (c : ConnId) (m : Msg) : Go (List Bytes) := do
  let w ← failMsgShutdown cfg.srv (world true) c m
  return w.net.out c

/-- What a client does with a message it received: `Fulfill`, `Fail` or nothing. The client is not in this repository;
requestManager/requestManager.go:65, 84. -/
def tells (cfg : Cfg) (bs : Bytes) : Option (Bytes × Rep) := (readMsg cfg.clientBuf bs).bind clientTells

/-- Steps of the server that read and send nothing, and end no handler of a request. All but handleConnection.go:67,
handleRequest.go:13-36, handleSessionRestore.go:12-107, handleSessionClosure.go:9-43 and failMsg.go:104-122. -/
def Internal : Life.Label → Prop
  | .thread (.reading _) ch => ch.msg = none
  | .thread (.refusing _ _) ch => ch.writerOk = false
  | .thread (.running _ m _) _ => m.requiresReply = false
  | _ => True

/-- Who makes a step. The steps are cited with `Step`: handleConnection.go:67, handleRequest.go:13-36,
handleSessionRestore.go, handleSessionClosure.go, failMsg.go:104-122, requestManager/requestManager.go. -/
inductive Label
  | client (c : ConnId) (l : Req.Label Rep)
  | send (c : ConnId)
  | other (c : ConnId)
  | server (l : Life.Label)
  | receive (c : ConnId)
  | finish (c : ConnId) (n : Nat)
  | refuse (c : ConnId) (n : Nat)
  | push (c : ConnId)
  | told (c : ConnId)
  | skip (c : ConnId)

/-- One step of the whole. handleConnection.go:67, handleRequest.go:13-36, handleSessionRestore.go, handleSessionClosure.go,
failMsg.go:104-122, requestManager/requestManager.go:32-101, and what `Model/Lifecycle` has. -/
inductive Step (cfg : Cfg) (s : State) : Label → State → Prop
  /-- A goroutine of a client creates a request, waits for a reply, gives up, or is inside `Fulfill` or `Fail`. -/
  | client (c : ConnId) (l : Req.Label Rep) (cl : Req.State Rep) : (∀ k rep, l ≠ .call k rep) →
      Req.Step (s.clients c) l cl → Step cfg s (.client c l) { s with clients := put s.clients c cl }
  /-- A client sends a request of its request manager that it has not sent before (message/writeMsgRequest.go,
  message/writeMsgNamelessRequest.go). It does not ask for a session without a key; this is no message (C09). -/
  | send (c : ConnId) (r : Nat) (q : Req.Request Rep) (ask : Ask) (safe : Bool)
      (st : Bytes × List Bytes) (log : List Event) : (s.clients c).g.reqs[r]? = some q →
      (∀ x ∈ s.sent c, ∀ k, x.req = some k → k.r ≠ r) → ask ≠ .restore [] →
      ask.write (observed pipe) (([], []), []) q.ident safe = .ok ((st, log), none) →
      Step cfg s (.send c)
        { s with sent := put s.sent c (s.sent c ++ [⟨some ⟨r, ask⟩, written log⟩]) }
  /-- A client sends anything else: signals, heartbeats, garbage. -/
  | other (c : ConnId) (bs : Bytes) :
      (∀ m, readMsg cfg.srv.bufferSize.toNat bs = some m → m.requiresReply = false) →
      Step cfg s (.other c) { s with sent := put s.sent c (s.sent c ++ [⟨none, bs⟩]) }
  /-- A goroutine of the server makes a step, there is a new connection, a `Close`, a `Shutdown`; or reading fails. -/
  | server (l : Life.Label) (srv : Life.State) : Internal l → Life.Step s.srv l srv →
      Step cfg s (.server l) { s with srv := srv }
  /-- The reader of the connection takes the next message. -/
  | receive (c : ConnId) (x : Sent) (ok : Bool) (srv : Life.State) : (s.sent c)[s.taken c]? = some x →
      Life.Step s.srv (.thread (.reading c) ⟨incoming cfg (s.taken c) x.bytes, ok⟩) srv →
      Step cfg s (.receive c) { s with srv := srv, taken := put s.taken c (s.taken c + 1) }
  /-- `OnRequest` returns or a session request was handled, and the reply is sent. -/
  | finish (c : ConnId) (n : Nat) (inl up : Bool) (ch : Life.Choice) (out : Out) (x : Sent) (m : Msg)
      (bs : List Bytes) (srv : Life.State) : (s.sent c)[n]? = some x →
      readMsg cfg.srv.bufferSize.toNat x.bytes = some m →
      Life.Step s.srv (.thread (.running c ⟨out.kind, n⟩ inl) ch) srv →
      out.fits cfg.srv.sessionsEnabled m.msgType = true → answers cfg c m out up = .ok bs →
      Step cfg s (.finish c n) { s with
        srv := srv, results := s.results ++ [⟨c, n, m, out, up⟩],
        back := put s.back c (s.back c ++ bs.map fun b => (some n, b)) }
  /-- A request is refused during shutdown. -/
  | refuse (c : ConnId) (lm : Life.LMsg) (x : Sent) (m : Msg) (bs : List Bytes) (ch : Life.Choice) (srv : Life.State) :
      (s.sent c)[lm.id]? = some x → readMsg cfg.srv.bufferSize.toNat x.bytes = some m → ch.writerOk = true →
      Life.Step s.srv (.thread (.refusing c lm) ch) srv →
      refusal cfg c m = .ok bs →
      Step cfg s (.refuse c lm.id)
        { s with srv := srv, back := put s.back c (s.back c ++ bs.map fun b => (some lm.id, b)) }
  /-- The server sends a message that is no reply: the configuration, signals, session notifications. -/
  | push (c : ConnId) (b : Bytes) : ¬ IsReply b →
      Step cfg s (.push c) { s with back := put s.back c (s.back c ++ [(none, b)]) }
  /-- The client reads the next message and tells its request manager if it is a reply. -/
  | told (c : ConnId) (y : Option Nat × Bytes) (k : Bytes) (rep : Rep) (cl : Req.State Rep) :
      (s.back c)[s.seen c]? = some y → tells cfg y.2 = some (k, rep) →
      Req.Step (s.clients c) (.call k rep) cl →
      Step cfg s (.told c) { s with clients := put s.clients c cl, seen := put s.seen c (s.seen c + 1) }
  /-- The client reads the next message, which is no reply or too long. -/
  | skip (c : ConnId) (y : Option Nat × Bytes) : (s.back c)[s.seen c]? = some y → tells cfg y.2 = none →
      Step cfg s (.skip c) { s with seen := put s.seen c (s.seen c + 1) }

/-- The states after any finite execution. Starts with a server as newServer.go:53-72 and managers as
requestManager/requestManager.go:21-27 make them. -/
inductive Reachable (cfg : Cfg) : State → Prop
  | start : Reachable cfg {}
  | step (s : State) (l : Label) (s' : State) : Reachable cfg s → Step cfg s l s' → Reachable cfg s'

end Webwire.Whole
