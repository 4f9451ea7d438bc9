import Verif.Spec.Net
import Verif.Spec.Session
import Verif.Model.Options

/-!
# Conversations and what a client concludes from them

The client of a connection is another project (it is not in this repository). What is said here about it is what the
documentation tells client authors: which messages answer which (docs/protocol-sequences.txt) and what the messages
about sessions mean (message.go:119-214, README.md "Sessions").
-/

set_option autoImplicit false

namespace Webwire.Spec

/-- What the client of a connection did or received. -/
inductive Obs
  | sent (v : View)
  | got (b : Bytes)
  deriving DecidableEq, Repr

/-- What a client knows: the identifiers and types of its unanswered requests, and the session it believes to have
(as encoded by the server). -/
structure Mind where
  asked : List (Bytes × UInt8) := []
  session : Option Bytes := none
  deriving DecidableEq, Repr

/-- The payload of a success reply. -/
def replyPayload (b : Bytes) : Option Bytes :=
  match b with
  | [] => none
  | t :: rest => if t = 191 ∨ t = 192 then some (rest.drop 8) else if t = 193 then some (rest.drop 9) else none

/-- The identifier in a reply. -/
def answeredId (b : Bytes) : Bytes := (b.drop 1).take 8

/-- The session of a client after a success reply to a request of type `t`: the payload after a restoration, none after
a closure. -/
def learned (t : UInt8) (s : Option Bytes) (b : Bytes) : Option Bytes :=
  match replyPayload b with
  | some p => if t = 32 then some p else if t = 31 then none else s
  | none => s

/-- The session of a client after a notification. -/
def noted (s : Option Bytes) (b : Bytes) : Option Bytes :=
  match b with
  | [] => s
  | t :: rest => if t = 21 then some rest else if t = 22 then none else s

/-- What a client knows after receiving a message. -/
def Mind.gets (k : Mind) (b : Bytes) : Mind :=
  if IsReply b then
    { asked := k.asked.filter fun p => decide (p.1 ≠ answeredId b)
      session := match k.asked.lookup (answeredId b) with
        | some t => learned t k.session b
        | none => k.session }
  else { k with session := noted k.session b }

/-- What a client knows after sending or receiving a message. -/
def Mind.sees (k : Mind) : Obs → Mind
  | .sent v => if asksReply v.msgType then { k with asked := (v.ident, v.msgType) :: k.asked } else k
  | .got b => k.gets b

/-- What a client knows after a conversation. -/
def mind (l : List Obs) : Mind := l.foldl Mind.sees {}

/-- docs/protocol-sequences.txt: the types of the messages that may answer a message of type `t`. -/
def documented (t : UInt8) : List UInt8 :=
  if t = 127 ∨ t = 128 ∨ t = 129 then [191, 192, 193, 0, 2, 1]
  else if t = 32 then [191, 3, 4, 1, 5, 2]
  else if t = 31 then [191]
  else []

/-- Two differences to `documented`: a successful restoration is answered by a UTF8 reply, and a closure request may
also be answered by a refusal: shutdown, sessions disabled. -/
def documentedButSessions (t : UInt8) : List UInt8 :=
  if t = 127 ∨ t = 128 ∨ t = 129 then [191, 192, 193, 0, 2, 1]
  else if t = 32 then [192, 3, 4, 1, 5, 2]
  else if t = 31 then [191, 1, 5]
  else []

/-- Every message received is well-formed and one that may be received: the server configuration if nothing was
received or sent before, a notification, a signal, or one of the answers to a request that was sent before and is not
yet answered. -/
def Follows (answers : UInt8 → List UInt8) (l : List Obs) : Prop :=
  ∀ pre b post, l = pre ++ .got b :: post → ∃ v, Grammar b v ∧
    ((pre = [] ∧ v.msgType = 23) ∨
     (pre ≠ [] ∧ v.msgType ∈ [21, 22, 63, 64, 65]) ∨
     (∃ t, (mind pre).asked.lookup v.ident = some t ∧ v.msgType ∈ answers t))

section
variable {υ : Type}

/-- The client's idea `b` of its session is an encoding of the session `s`, up to the session info: the server attaches
what the parser makes of the info, the client was told the info itself (handleSessionRestore.go:66-89). -/
def Told (srv : Server Net υ) : Option Session → Option Bytes → Prop
  | none, none => True
  | some s, some b => ∃ i, srv.hooks.marshal { s with info := i } = .ok b ∧
      (s.info = i ∨ s.info = i.bind srv.hooks.infoParser)
  | _, _ => False

/-- What the clients received between `w` and `w'`, appended to the conversations. -/
def heard (w w' : World Net υ) (conv : ConnId → List Obs) (i : ConnId) : List Obs :=
  conv i ++ ((w'.net.out i).drop (w.net.out i).length).map .got

/-- `f` with another value at `c`. -/
def at_ {α : Type} (f : ConnId → α) (c : ConnId) (a : α) (i : ConnId) : α := if i = c then a else f i

/-- A client connects: its socket is open. -/
def plugged (w : World Net υ) (c : ConnId) : World Net υ :=
  { w with net := { w.net with connected := at_ w.net.connected c true } }

/-- A client goes away: its socket is closed. -/
def unplugged (w : World Net υ) (c : ConnId) : World Net υ :=
  { w with net := { w.net with connected := at_ w.net.connected c false } }

/-- A server and its clients. `conv c` is the conversation of the client of `c`, `q c` are the messages it sent that the
server did not read yet. Clients send anything, at any time after the handshake, but do not use the identifier of an
unanswered request for another one. API calls made outside of hooks are those `ok` allows. -/
inductive Talk (srv : Server Net υ) (ok : ApiCall → Prop) :
    World Net υ → (ConnId → List Obs) → (ConnId → List Bytes) → Prop
  | start (w : World Net υ) : Started w → (∀ i, w.net.out i = []) → (∀ i, w.net.pending i = []) →
      (∀ i, w.net.connected i = false) → Talk srv ok w (fun _ => []) (fun _ => [])
  /-- a well-formed message is sent (it may be too long for the server) -/
  | send (w : World Net υ) (conv : ConnId → List Obs) (q : ConnId → List Bytes) (c : ConnId) (bs : Bytes) (v : View) :
      Talk srv ok w conv q → conv c ≠ [] → Grammar bs v →
      (asksReply v.msgType → (mind (conv c)).asked.lookup v.ident = none) →
      Talk srv ok w (at_ conv c (conv c ++ [.sent v])) (at_ q c (q c ++ [bs]))
  /-- anything else is sent -/
  | junk (w : World Net υ) (conv : ConnId → List Obs) (q : ConnId → List Bytes) (c : ConnId) (bs : Bytes) :
      Talk srv ok w conv q → (¬ ∃ v, Grammar bs v) → Talk srv ok w conv (at_ q c (q c ++ [bs]))
  /-- the server reads and handles a message -/
  | handle (w w' : World Net υ) (conv : ConnId → List Obs) (q : ConnId → List Bytes) (c : ConnId) (bs : Bytes)
      (rest : List Bytes) : Talk srv ok w conv q → q c = bs :: rest → serve srv w c [.data bs] = .ok w' →
      Talk srv ok w' (heard w w' conv) (at_ q c rest)
  /-- the server accepts a new connection -/
  | accept (w w' : World Net υ) (conv : ConnId → List Obs) (q : ConnId → List Bytes) (c : ConnId) (limit : Int) :
      Talk srv ok w conv q → conv c = [] → w.conns c = {} →
      handleConnection srv (plugged w c) c limit [] = .ok w' → Talk srv ok w' (heard w w' conv) q
  /-- reading from a connection fails -/
  | lost (w w' : World Net υ) (conv : ConnId → List Obs) (q : ConnId → List Bytes) (c : ConnId) (isCloseErr : Bool) :
      Talk srv ok w conv q → serve srv w c [.failed isCloseErr] = .ok w' → Talk srv ok w' (heard w w' conv) q
  /-- an API call outside of hooks -/
  | api (w w' : World Net υ) (conv : ConnId → List Obs) (q : ConnId → List Bytes) (a : ApiCall) :
      Talk srv ok w conv q → ok a → runApi srv w a = .ok w' → Talk srv ok w' (heard w w' conv) q
  /-- a client goes away -/
  | hangup (w : World Net υ) (conv : ConnId → List Obs) (q : ConnId → List Bytes) (c : ConnId) :
      Talk srv ok w conv q → Talk srv ok (unplugged w c) conv q
  /-- the server begins to shut down -/
  | shutdown (w : World Net υ) (conv : ConnId → List Obs) (q : ConnId → List Bytes) :
      Talk srv ok w conv q → Talk srv ok { w with shutdown := true } conv q

/-- The hooks make only API calls `ok` allows. -/
structure HooksOnly (hooks : Hooks υ) (ok : ApiCall → Prop) : Prop where
  connected : ∀ u c, ∀ a ∈ (hooks.onClientConnected u c).2, ok a
  disconnected : ∀ u c, ∀ a ∈ (hooks.onClientDisconnected u c).2, ok a
  signal : ∀ u c m, ∀ a ∈ (hooks.onSignal u c m).2, ok a
  request : ∀ u c m, ∀ a ∈ (hooks.onRequest u c m).2.calls, ok a

/-- API calls other than UTF16 signals without payload (which no client can read, C02). -/
def Readable : ApiCall → Prop
  | .signal _ _ enc payload => enc = 2 → payload ≠ []
  | _ => True

/-- A server as `NewServer` sets it up, on a network with the message buffers it asks the transport for (newServer.go:87-94),
with user code that does not close the messages it handles and encodes sessions as something (JSON is never empty). -/
structure Made (srv : Server Net υ) : Prop where
  setup : ∃ mk a b opts s, newServer mk a b opts = .ok (.ok s) ∧ srv.configMsg = s.configMsg ∧
    srv.bufferSize = s.options.messageBufferSize ∧ srv.sessionsEnabled = s.sessionsEnabled
  sock : srv.sock = netSockets (some srv.bufferSize.toNat)
  open_ : ∀ u i m, (srv.hooks.onRequest u i m).2.closesMsg = false
  encodes : ∀ s b, srv.hooks.marshal s = .ok b → b ≠ []

end

end Webwire.Spec
