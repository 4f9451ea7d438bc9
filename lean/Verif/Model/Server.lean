import Verif.GoMap
import Verif.Model.Parse
import Verif.Model.Write
import Verif.Model.ConnSignal

/-!
# The server: messages, handlers, sessions

Models `handleConnection.go`, `handleMessage.go`, `handleRequest.go`, `handleSignal.go`, `fulfillMsg.go`,
`failMsg.go`, `registerHandler.go`, `deregisterHandler.go`, `handleSessionRestore.go`,
`handleSessionClosure.go`, `connection.go`, `sessionRegistry.go` and `server.go:CloseSession` as sequential
functions on an explicit world: each function runs without interruption by other goroutines. Interleavings
are the subject of `Model/Lifecycle` and `Model/SessionRaces`.

User code (hooks, session manager, key generator) and transports are parameters with a state of their own;
hooks may call the connection and server API (`ApiCall`). Hooks are assumed to return, except that
`OnSessionClosed` may panic. Logging is not modelled.
-/

set_option autoImplicit false

namespace Webwire

/-- Identity of a `*connection` and of its socket. connection.go:23, 41. -/
abbrev ConnId := Nat

/-- session.go:51-56 `Session`. A key is a Go string; times are nanoseconds; `info` says which `SessionInfo`
object is attached (`none` is `nil`). -/
structure Session where
  key : Bytes
  creation : Int
  lastLookup : Int
  info : Option Nat
  deriving DecidableEq, Repr

/-- sessionLookupResult.go:20-24; `info` says which variant map. -/
structure Lookup where
  creation : Int
  lastLookup : Int
  info : Option Nat
  deriving DecidableEq, Repr

/-- connection.go:23-51 `connection`. `limit` is `options.ConcurrencyLimit`, `slots` is the weight currently
taken from `handlerSlots`; `info` and the locks are left out. -/
structure Conn where
  limit : Int := 0
  isActive : Bool := false
  tasks : Int := 0
  slots : Nat := 0
  session : Option Session := none
  deriving DecidableEq, Repr

/-- socket.go:11-36, the `Socket` interface of all connections, over the state `ν` of the transport.
(`Read` is a parameter of `serve` below.) -/
structure Sockets (ν : Type) where
  getWriter : ν → ConnId → Go (ν × Option Err)
  writer : ConnId → Writer ν
  close : ν → ConnId → Go (ν × Option Err)
  isConnected : ν → ConnId → Bool

/-- The Go errors the server distinguishes (errors.go). -/
inductive ReplyErr
  | nil
  /-- `ErrRequest{Code, Message}` -/
  | request (code text : Bytes)
  /-- `*ErrRequest`; `none` is a nil pointer in a non-nil interface -/
  | requestPtr (p : Option (Bytes × Bytes))
  | maxSessConnsReached
  | sessionNotFound
  | sessionsDisabled
  /-- anything else -/
  | other (text : Err)
  deriving DecidableEq, Repr

/-- API calls user code may make from within a hook. interfaces.go:118-179, server.go:89. -/
inductive ApiCall
  | signal (c : ConnId) (name : Bytes) (enc : Encoding) (payload : Bytes)
  | createSession (c : ConnId) (info : Option Nat)
  | closeSession (c : ConnId)
  | close (c : ConnId)
  /-- `Server.CloseSession(key)`; `order` is Go's random iteration order over the connection set -/
  | srvCloseSession (key : Bytes) (order : List ConnId)
  deriving DecidableEq, Repr

/-- How an `OnSessionClosed` call ends. sessionRegistry.go:85-98. -/
inductive HookEnd
  | returned (e : Option Err)
  | panicked (why : String)
  deriving DecidableEq, Repr

/-- What `OnRequest` does: the API calls it makes, whether it closes its message, what it returns.
handleRequest.go:13-36. -/
structure RequestOut where
  calls : List ApiCall := []
  closesMsg : Bool := false
  enc : Encoding := 0
  payload : Bytes := []
  err : ReplyErr := .nil
  deriving DecidableEq, Repr

/-- interfaces.go: the user's `ServerImplementation`, `SessionManager`, `SessionKeyGenerator` and
`SessionInfoParser`, over the user's state `υ`. `marshal` is `json.Marshal` of a session. -/
structure Hooks (υ : Type) where
  onClientConnected : υ → ConnId → υ × List ApiCall
  onClientDisconnected : υ → ConnId → υ × List ApiCall
  onSignal : υ → ConnId → Msg → υ × List ApiCall
  onRequest : υ → ConnId → Msg → υ × RequestOut
  onSessionCreated : υ → ConnId → Session → υ × Option Err
  onSessionLookup : υ → Bytes → υ × Except Err (Option Lookup)
  onSessionClosed : υ → Bytes → υ × HookEnd
  generateKey : υ → υ × Bytes
  now : υ → Int
  marshal : Session → Except Err Bytes
  infoParser : Nat → Option Nat

/-- Observable events besides bytes on the network. Not in the code: a record of the calls at handleConnection.go:60,
78, handleRequest.go:13, handleSignal.go:12, connection.go:138, 230 and the like. -/
inductive Ev
  | onClientConnected (c : ConnId)
  | onClientDisconnected (c : ConnId)
  | onSignal (c : ConnId) (name : Bytes) (enc : Encoding) (payload : Bytes)
  | onRequest (c : ConnId) (ident name : Bytes) (enc : Encoding) (payload : Bytes)
  | onSessionCreated (c : ConnId) (key : Bytes)
  | onSessionLookup (key : Bytes)
  | onSessionClosed (key : Bytes)
  /-- a `WriteMsg*` function ran on the connection's writer -/
  | sent (c : ConnId)
  | sockClose (c : ConnId)
  /-- `msg.Close()` on the message being handled -/
  | msgClose
  deriving DecidableEq, Repr

/-- server.go:14-36 `server`, together with the state of the transport and of the user's code.
`connections` is never read by the server; it is in `Model/Lifecycle`. -/
structure World (ν υ : Type) where
  net : ν
  user : υ
  conns : ConnId → Conn := fun _ => {}
  /-- sessionRegistry.go:14 `registry` -/
  registry : GoMap Bytes (List ConnId) := []
  shutdown : Bool := false
  currentOps : UInt32 := 0
  /-- `shutdownRdy` was closed -/
  rdyClosed : Bool := false
  trace : List Ev := []

/-- What does not change while the server runs. server.go:14-36. -/
structure Server (ν υ : Type) where
  sock : Sockets ν
  hooks : Hooks υ
  sessionsEnabled : Bool := true
  maxConns : Nat := 0
  bufferSize : UInt32 := 8192
  configMsg : Bytes := []

section
variable {ν υ : Type}

/-- Record an event. Not in the code; where it happens is cited with the functions, handleConnection.go:60 for one. -/
def World.log (w : World ν υ) (e : Ev) : World ν υ := { w with trace := w.trace ++ [e] }

/-- Assign to fields of the connection `c`. connection.go:23-51. -/
def World.upd (w : World ν υ) (c : ConnId) (f : Conn → Conn) : World ν υ :=
  { w with conns := fun i => if i = c then f (w.conns c) else w.conns i }

/-- The recurring "get a writer, write a message with it", e.g. connection.go:258-265. -/
def withWriter (srv : Server ν υ) (w : World ν υ) (c : ConnId)
    (f : Writer ν → ν → Go (ν × Option Err)) : Go (World ν υ × Option Err) := do
  let (net, e) ← srv.sock.getWriter w.net c
  match e with
  | some e => return ({ w with net := net }, some e)
  | none =>
    let (net, e) ← f (srv.sock.writer c) net
    return ({ w with net := net }.log (.sent c), e)

/-! ## Session registry -/

/-- `connSet[con] = struct{}{}`. sessionRegistry.go:49. -/
def setInsert (l : List ConnId) (c : ConnId) : List ConnId := if c ∈ l then l else c :: l

/-- `delete(connSet, conn)`. sessionRegistry.go:104. -/
def setDelete (l : List ConnId) (c : ConnId) : List ConnId := l.filter fun x => decide (x ≠ c)

/-- sessionRegistry.go:36-60 `register` for a connection whose session has the given key. -/
def registryAdd (maxConns : Nat) (r : GoMap Bytes (List ConnId)) (key : Bytes) (c : ConnId) :
    GoMap Bytes (List ConnId) × Option Err :=
  match r.get key with
  | some set =>
    if maxConns > 0 ∧ set.length + 1 > maxConns then (r, some "Max conns reached for session")
    else (r.set key (setInsert set c), none)
  | none => (r.set key [c], none)

/-- sessionRegistry.go:77-109, the critical section of `deregister` for a connection whose session has the
given key: the registry afterwards, the returned number, and whether the session was removed. -/
def registryRemove (r : GoMap Bytes (List ConnId)) (key : Bytes) (c : ConnId) :
    GoMap Bytes (List ConnId) × Int × Bool :=
  match r.get key with
  | some set =>
    if set.length < 2 then (r.del key, 0, true)
    else (r.set key (setDelete set c), (setDelete set c).length, false)
  | none => (r, -1, false)

/-- sessionRegistry.go:36-60 `register`. -/
def register (srv : Server ν υ) (w : World ν υ) (c : ConnId) : Go (World ν υ × Option Err) :=
  match (w.conns c).session with
  | none => goPanic "nil pointer dereference"
  | some s =>
    let (r, e) := registryAdd srv.maxConns w.registry s.key c
    .ok ({ w with registry := r }, e)

/-- sessionRegistry.go:69-112 `deregister`. `asr.server` is never assigned (sessionRegistry.go:21-31,
newServer.go:74-83), so the deferred recovery function dereferences nil when the hook panicked. -/
def deregister (srv : Server ν υ) (w : World ν υ) (c : ConnId) (destroy : Bool) : Go (World ν υ × Int) :=
  match (w.conns c).session with
  | none => .ok (w, -1)
  | some s =>
    let (r, n, removed) := registryRemove w.registry s.key c
    let w := { w with registry := r }
    if removed ∧ destroy then
      let (user, out) := srv.hooks.onSessionClosed w.user s.key
      let w := { w with user := user }.log (.onSessionClosed s.key)
      match out with
      | .returned _ => .ok (w, n)
      | .panicked _ => goPanic "nil pointer dereference in recovery from session closure hook panic"
    else .ok (w, n)

/-- sessionRegistry.go:115-120 `activeSessionsNum`. -/
def activeSessionsNum (w : World ν υ) : Nat := w.registry.length

/-- sessionRegistry.go:123-132 `sessionConnectionsNum`. -/
def sessionConnectionsNum (w : World ν υ) (key : Bytes) : Int :=
  match w.registry.get key with
  | some set => set.length
  | none => -1

/-- sessionRegistry.go:135-151 `sessionConnections`, in the iteration order `order` (if that is an order of
the set at all); `none` is `nil`. -/
def sessionConnections (w : World ν υ) (key : Bytes) (order : List ConnId) : Option (List ConnId) :=
  match w.registry.get key with
  | some set => some (if order.isPerm set then order else set)
  | none => none

/-! ## Connection API -/

/-- errors.go:127-134 `ErrSessionsDisabled` -/
abbrev errSessionsDisabled : Err := "sessions are disabled for this server"
/-- errors.go:26-37 `ErrDisconnected`, connection.go:194-198 -/
abbrev errDisconnected : Err := "Can't create session on disconnected connection"

/-- connection.go:121-125 `setSession`. -/
def setSession (w : World ν υ) (c : ConnId) (s : Option Session) : World ν υ :=
  w.upd c fun con => { con with session := s }

/-- connection.go:129-139 `unlink`. -/
def unlink (srv : Server ν υ) (w : World ν υ) (c : ConnId) : Go (World ν υ) := do
  let (w, _) ← deregister srv w c false
  let w := setSession w c none
  let (net, _) ← srv.sock.close w.net c
  return { w with net := net }.log (.sockClose c)

/-- connection.go:351-368 `Close`. -/
def connClose (srv : Server ν υ) (w : World ν υ) (c : ConnId) : Go (World ν υ) :=
  if !(w.conns c).isActive then .ok w
  else
    let w := w.upd c fun con => { con with isActive := false }
    if (w.conns c).tasks < 1 then unlink srv w c else .ok w

/-- connection.go:96-100 `registerTask`. -/
def registerTask (w : World ν υ) (c : ConnId) : World ν υ :=
  w.upd c fun con => { con with tasks := con.tasks + 1 }

/-- connection.go:105-118 `deregisterTask`. -/
def deregisterTask (srv : Server ν υ) (w : World ν υ) (c : ConnId) : Go (World ν υ) :=
  let w := w.upd c fun con => { con with tasks := con.tasks - 1 }
  if !(w.conns c).isActive ∧ (w.conns c).tasks < 1 then unlink srv w c else .ok w

/-- connection.go:160-184 `Signal`. -/
def signal (srv : Server ν υ) (w : World ν υ) (c : ConnId) (name : Bytes) (enc : Encoding) (payload : Bytes) :
    Go (World ν υ × Option Err) :=
  if name.length < 1 ∧ payload.length < 1 then .ok (w, some "missing both name and payload")
  else if UInt32.ofNat (calcMsgLenSignal name enc payload) > srv.bufferSize then
    .ok (w, some "message buffer overflow")
  else withWriter srv w c fun wr s => writeMsgSignal wr s name enc payload true

/-- connection.go:237-266 `notifySessionCreated`. -/
def notifySessionCreated (srv : Server ν υ) (w : World ν υ) (c : ConnId) (s : Session) :
    Go (World ν υ × Option Err) :=
  match srv.hooks.marshal s with
  | .error e => .ok (w, some ("Couldn't marshal session object: " ++ e))
  | .ok bs => withWriter srv w c fun wr st => writeMsgNotifySessionCreated wr st bs

/-- session.go:79-93 `NewSession`. -/
def newSession (hooks : Hooks υ) (user : υ) (info : Option Nat) : Go (υ × Session) :=
  let (user, key) := hooks.generateKey user
  if key.length < 1 then goPanic "Invalid session key returned by the session key generator (empty)"
  else .ok (user, { key := key, creation := hooks.now user, lastLookup := hooks.now user, info := info })

/-- connection.go:187-235 `CreateSession`. The registry's refusal is ignored (line 226). -/
def createSession (srv : Server ν υ) (w : World ν υ) (c : ConnId) (info : Option Nat) :
    Go (World ν υ × Option Err) := do
  if !srv.sessionsEnabled then return (w, some errSessionsDisabled)
  if !srv.sock.isConnected w.net c then return (w, some errDisconnected)
  match (w.conns c).session with
  | some _ => return (w, some "Another session on this client is already active")
  | none =>
    let (user, s) ← newSession srv.hooks w.user info
    let (w, e) ← notifySessionCreated srv { w with user := user } c s
    match e with
    | some e => return (w, some ("Couldn't notify client about the session creation: " ++ e))
    | none =>
      let w := setSession w c (some s)
      let (w, _) ← register srv w c
      let (user, _) := srv.hooks.onSessionCreated w.user c s
      return ({ w with user := user }.log (.onSessionCreated c s.key), none)

/-- connection.go:269-275 `notifySessionClosed`. -/
def notifySessionClosed (srv : Server ν υ) (w : World ν υ) (c : ConnId) : Go (World ν υ × Option Err) :=
  withWriter srv w c fun wr s => writeMsgNotifySessionClosed wr s

/-- connection.go:278-296 `CloseSession`. -/
def closeSession (srv : Server ν υ) (w : World ν υ) (c : ConnId) : Go (World ν υ × Option Err) := do
  if !srv.sessionsEnabled then return (w, some errSessionsDisabled)
  match (w.conns c).session with
  | none => return (w, none)
  | some _ =>
    let (w, _) ← deregister srv w c true
    let w := setSession w c none
    notifySessionClosed srv w c

/-- server.go:103-115, the loop of `CloseSession`: the errors in order. -/
def closeSessions (srv : Server ν υ) (w : World ν υ) : List ConnId → Go (World ν υ × List (Option Err))
  | [] => .ok (w, [])
  | c :: cs => do
    let (w, e) ← closeSession srv w c
    let (w, es) ← closeSessions srv w cs
    return (w, e :: es)

/-- server.go:89-123 `CloseSession`: affected connections, errors, general error. -/
def srvCloseSession (srv : Server ν υ) (w : World ν υ) (key : Bytes) (order : List ConnId) :
    Go (World ν υ × Option (List ConnId) × Option (List (Option Err)) × Option Err) := do
  match sessionConnections w key order with
  | none => return (w, none, none, none)
  | some conns =>
    let (w, es) ← closeSessions srv w conns
    let errNum := es.countP Option.isSome
    return (w, some conns, some es,
      if errNum > 0 then some (toString errNum ++ " errors during the closure of a session") else none)

/-- Performing an API call made by user code; the results are the user code's business. connection.go:160, 187, 278,
351, server.go:57, 89. -/
def runApi (srv : Server ν υ) (w : World ν υ) : ApiCall → Go (World ν υ)
  | .signal c name enc payload => do return (← signal srv w c name enc payload).1
  | .createSession c info => do return (← createSession srv w c info).1
  | .closeSession c => do return (← closeSession srv w c).1
  | .close c => connClose srv w c
  | .srvCloseSession key order => do return (← srvCloseSession srv w key order).1

/-- The API calls of one hook, in order. Within handleRequest.go:13, handleSignal.go:12, handleConnection.go:60, 78.
-/
def runApis (srv : Server ν υ) (w : World ν υ) : List ApiCall → Go (World ν υ)
  | [] => .ok w
  | a :: as => do
    let w ← runApi srv w a
    runApis srv w as

/-! ## Replies -/

/-- `msg.MsgIdentifierBytes`. failMsg.go:32, fulfillMsg.go:23. -/
def Msg.identifierBytes (m : Msg) : Bytes := m.identBytes.view m.buf

/-- fulfillMsg.go:6-33 `fulfillMsg`. -/
def fulfillMsg (srv : Server ν υ) (w : World ν υ) (c : ConnId) (m : Msg) (enc : Encoding) (payload : Bytes) :
    Go (World ν υ) := do
  let (w, _) ← withWriter srv w c fun wr s => writeMsgReply wr s m.identifierBytes enc payload
  return w

/-- failMsg.go:8-101 `failMsg`. -/
def failMsg (srv : Server ν υ) (w : World ν υ) (c : ConnId) (m : Msg) (reqErr : ReplyErr) :
    Go (World ν υ) := do
  if !m.requiresReply then return w
  let special (t : UInt8) : Go (World ν υ) := do
    let (w, _) ← withWriter srv w c fun wr s => writeMsgSpecialRequestReply wr s t m.identifierBytes
    return w
  match reqErr with
  | .request code text =>
    let (w, _) ← withWriter srv w c fun wr s => writeMsgReplyError wr s m.identifierBytes code text true
    return w
  | .requestPtr none =>
    let (_, _) ← withWriter srv w c fun _ _ => goPanic "nil pointer dereference"
    return w
  | .requestPtr (some (code, text)) =>
    let (w, _) ← withWriter srv w c fun wr s => writeMsgReplyError wr s m.identifierBytes code text true
    return w
  | .maxSessConnsReached => special MsgReplyMaxSessConnsReached
  | .sessionNotFound => special MsgReplySessionNotFound
  | .sessionsDisabled => special MsgReplySessionsDisabled
  | .nil => special MsgReplyInternalError
  | .other _ => special MsgReplyInternalError

/-- failMsg.go:104-122 `failMsgShutdown`. When `GetWriter` failed, the nil writer is used nevertheless. -/
def failMsgShutdown (srv : Server ν υ) (w : World ν υ) (c : ConnId) (m : Msg) : Go (World ν υ) := do
  let (net, e) ← srv.sock.getWriter w.net c
  match e with
  | some _ => goPanic "nil pointer dereference"
  | none =>
    let (net, _) ← writeMsgSpecialRequestReply (srv.sock.writer c) net MsgReplyShutdown m.identifierBytes
    return { w with net := net }.log (.sent c)

/-! ## Handlers -/

/-- registerHandler.go:13-45 `registerHandler`. Without a free slot the call waits for another handler of the
connection to finish; here, without other goroutines, that is for ever. -/
def registerHandler (srv : Server ν υ) (w : World ν υ) (c : ConnId) (m : Msg) : Go (World ν υ × Bool) := do
  if !(w.conns c).isActive then return (w, false)
  let limited := decide ((w.conns c).limit > 1)
  if limited ∧ ((w.conns c).slots : Int) ≥ (w.conns c).limit then goBlock "no free handler slot"
  let w := w.upd c fun con => { con with slots := if limited then con.slots + 1 else con.slots }
  let fail := w.shutdown
  let w := { w with currentOps := if fail then w.currentOps else w.currentOps + 1 }
  if fail ∧ m.requiresReply then
    let w ← failMsgShutdown srv w c m
    return (w, false)
  return (registerTask w c, true)

/-- deregisterHandler.go:5-19 `deregisterHandler`. Closing a closed channel and releasing more than was
acquired panic. -/
def deregisterHandler (srv : Server ν υ) (w : World ν υ) (c : ConnId) : Go (World ν υ) := do
  let w := { w with currentOps := w.currentOps - 1 }
  let closes := decide (w.shutdown = true ∧ w.currentOps < 1)
  if closes ∧ w.rdyClosed then goPanic "close of closed channel"
  let w := { w with rdyClosed := if closes then true else w.rdyClosed }
  let w ← deregisterTask srv w c
  let limited := decide ((w.conns c).limit > 1)
  if limited ∧ (w.conns c).slots < 1 then goPanic "semaphore: bad release"
  return w.upd c fun con => { con with slots := if limited then con.slots - 1 else con.slots }

/-- `msg.Close()` by a handler. handleRequest.go:38, handleSignal.go:17. -/
def releaseMsg (w : World ν υ) : World ν υ := w.log .msgClose

/-- handleSignal.go:11-18 `handleSignal`. -/
def handleSignal (srv : Server ν υ) (w : World ν υ) (c : ConnId) (m : Msg) : Go (World ν υ) := do
  let w := w.log (.onSignal c (m.name.view m.buf) m.payload.encoding (m.payload.data.view m.buf))
  let (user, calls) := srv.hooks.onSignal w.user c m
  let w ← runApis srv { w with user := user } calls
  let w ← deregisterHandler srv w c
  return releaseMsg w

/-- handleRequest.go:20-36, the reply `handleRequest` sends for what the hook returned. -/
def answerRequest (srv : Server ν υ) (w : World ν υ) (c : ConnId) (m : Msg) (out : RequestOut) : Go (World ν υ) :=
  match out.err with
  | .nil => fulfillMsg srv w c m out.enc out.payload
  | .request code text => failMsg srv w c m (.request code text)
  | .requestPtr p => failMsg srv w c m (.requestPtr p)
  | _ => failMsg srv w c m .nil

/-- handleRequest.go:11-39 `handleRequest`. -/
def handleRequest (srv : Server ν υ) (w : World ν υ) (c : ConnId) (m : Msg) : Go (World ν υ) := do
  let w := w.log (.onRequest c m.ident (m.name.view m.buf) m.payload.encoding (m.payload.data.view m.buf))
  let (user, out) := srv.hooks.onRequest w.user c m
  let w ← runApis srv { w with user := user } out.calls
  let m := if out.closesMsg then m.close.1 else m
  let w ← answerRequest srv w c m out
  let w ← deregisterHandler srv w c
  return releaseMsg w

/-- handleSessionClosure.go:9-43 `handleSessionClosure`. -/
def handleSessionClosure (srv : Server ν υ) (w : World ν υ) (c : ConnId) (m : Msg) : Go (World ν υ) := do
  let finalize (w : World ν υ) : Go (World ν υ) := do
    let w ← deregisterHandler srv w c
    return releaseMsg w
  if !srv.sessionsEnabled then
    let w ← failMsg srv w c m .sessionsDisabled
    finalize w
  else if (w.conns c).session = none then
    let w ← fulfillMsg srv w c m 0 []
    finalize w
  else
    let (w, _) ← deregister srv w c true
    let w := setSession w c none
    let w ← fulfillMsg srv w c m 0 []
    finalize w

/-- handleSessionRestore.go:12-107 `handleSessionRestore`. -/
def handleSessionRestore (srv : Server ν υ) (w : World ν υ) (c : ConnId) (m : Msg) : Go (World ν υ) := do
  let finalize (w : World ν υ) : Go (World ν υ) := do
    let w ← deregisterHandler srv w c
    return releaseMsg w
  if !srv.sessionsEnabled then
    let w ← failMsg srv w c m .sessionsDisabled
    finalize w
  else
    let key := m.payload.data.view m.buf
    let num := sessionConnectionsNum w key
    if num ≥ 0 ∧ srv.maxConns > 0 ∧ (num + 1).toNat > srv.maxConns then
      let w ← failMsg srv w c m .maxSessConnsReached
      finalize w
    else
      let (user, result) := srv.hooks.onSessionLookup w.user key
      let w := { w with user := user }.log (.onSessionLookup key)
      match result with
      | .error _ =>
        let w ← failMsg srv w c m .nil
        finalize w
      | .ok none =>
        let w ← failMsg srv w c m .sessionNotFound
        finalize w
      | .ok (some r) =>
        match srv.hooks.marshal { key := key, creation := r.creation, lastLookup := r.lastLookup, info := r.info } with
        | .error _ =>
          let w ← failMsg srv w c m .nil
          finalize w
        | .ok encoded =>
          let w := setSession w c (some { key := key, creation := r.creation, lastLookup := r.lastLookup,
                                          info := r.info.bind srv.hooks.infoParser })
          let (w, e) ← register srv w c
          match e with
          | some _ => goPanic "the number of concurrent session connections was unexpectedly exceeded"
          | none =>
            let w ← fulfillMsg srv w c m encUtf8 encoded
            finalize w

/-- handleMessage.go:6-62 `handleMessage`. The `go` statements of lines 33 and 43 only decide which goroutine
runs the handler. -/
def handleMessage (srv : Server ν υ) (w : World ν υ) (c : ConnId) (m : Msg) : Go (World ν υ) := do
  if m.msgType = MsgHeartbeat then return releaseMsg w
  let (w, ok) ← registerHandler srv w c m
  if !ok then return releaseMsg w
  if m.msgType = MsgSignalBinary ∨ m.msgType = MsgSignalUtf8 ∨ m.msgType = MsgSignalUtf16 then
    handleSignal srv w c m
  else if m.msgType = MsgRequestBinary ∨ m.msgType = MsgRequestUtf8 ∨ m.msgType = MsgRequestUtf16 then
    handleRequest srv w c m
  else if m.msgType = MsgRequestRestoreSession then handleSessionRestore srv w c m
  else if m.msgType = MsgRequestCloseSession then handleSessionClosure srv w c m
  else
    let w ← deregisterHandler srv w c
    return releaseMsg w

/-! ## Connections -/

/-- What `sock.Read` finds next (transport/memchan/socket.go:201-250): bytes, or an error. -/
inductive Incoming
  | data (bs : Bytes)
  | failed (isCloseErr : Bool)
  deriving DecidableEq, Repr

/-- handleConnection.go:67-80, the failure path of the loop. -/
def disconnect (srv : Server ν υ) (w : World ν υ) (c : ConnId) : Go (World ν υ) := do
  let w := releaseMsg w
  let w ← connClose srv w c
  let w := w.log (.onClientDisconnected c)
  let (user, calls) := srv.hooks.onClientDisconnected w.user c
  runApis srv { w with user := user } calls

/-- handleConnection.go:62-86, the loop, fed with what the socket delivers. The pooled message behaves like a
new one (C15). A message whose parsing failed, or that is empty, is a read error
(transport/memchan/socket.go:233-243). -/
def serve (srv : Server ν υ) (w : World ν υ) (c : ConnId) : List Incoming → Go (World ν υ)
  | [] => .ok w
  | .failed _ :: _ => disconnect srv w c
  | .data bs :: rest => do
    let (m, typeParsed, e) ← (newMessage srv.bufferSize.toNat).readBytes bs
    if e ≠ none ∨ typeParsed = false then disconnect srv w c
    else
      let w ← handleMessage srv w c m
      serve srv w c rest

/-- handleConnection.go:8-33 `writeConfMessage`. -/
def writeConfMessage (srv : Server ν υ) (w : World ν υ) (c : ConnId) : Go (World ν υ × Option Err) :=
  withWriter srv w c fun wr s => writePart wr s srv.configMsg fun s => wr.close s

/-- handleConnection.go:35-87 `handleConnection` for a connection with concurrency limit `limit`. -/
def handleConnection (srv : Server ν υ) (w : World ν υ) (c : ConnId) (limit : Int) (input : List Incoming) :
    Go (World ν υ) := do
  let (w, e) ← writeConfMessage srv w c
  match e with
  | some _ =>
    let (net, _) ← srv.sock.close w.net c
    return { w with net := net }.log (.sockClose c)
  | none =>
    let w := w.upd c fun _ => { limit := limit, isActive := true }
    let w := w.log (.onClientConnected c)
    let (user, calls) := srv.hooks.onClientConnected w.user c
    let w ← runApis srv { w with user := user } calls
    serve srv w c input

end

end Webwire
