import Verif.Model.Server

/-!
# Goroutines of the server

Models the concurrent life of handlers, connections and shutdown: `handleConnection.go` (reader loop),
`handleMessage.go`, `registerHandler.go`, `deregisterHandler.go`, `connection.go` (`registerTask`,
`deregisterTask`, `Close`, `unlink`) and `server.go:Shutdown`, one atomic step per critical section, channel or
semaphore operation. Any number of connections and goroutines, any interleaving.

What handlers do (hooks, replies, sessions) is the subject of `Model/Server`; here a handler runs for any time
and ends. The semaphore of handler slots is its counter (its queue is modelled in `Model/Semaphore`). Messages
are identified by a number.
-/

set_option autoImplicit false

namespace Webwire.Life

/-- Message types as far as the lifecycle is concerned (handleMessage.go:14, 29-58; `other` is the default
case). -/
inductive Kind
  | heartbeat | signal | request | session | other
  deriving DecidableEq, Repr

/-- A received message. handleConnection.go:64-83; `id` is not in the code. -/
structure LMsg where
  kind : Kind
  id : Nat
  deriving DecidableEq, Repr

/-- message/message.go `RequiresReply`. -/
def LMsg.requiresReply (m : LMsg) : Bool := decide (m.kind = .request ∨ m.kind = .session)

/-- connection.go:23-51 `connection`, the parts protected by `stateLock`, the handler slots, and how often
`sock.Close` was called. `used` tells connections that exist. Simplified: `tasks` is an int32 in the code, here it does not
overflow. -/
structure LConn where
  used : Bool := false
  limit : Int := 0
  active : Bool := false
  tasks : Int := 0
  slots : Nat := 0
  sockCloses : Nat := 0
  deriving DecidableEq, Repr

/-- What happened, in order. Not in the code: a record of what handleConnection.go, registerHandler.go:19-41,
handleRequest.go:11-39 and server.go:57-71 do. -/
inductive LEv
  /-- the reader received the message -/
  | arrived (c : ConnId) (m : LMsg)
  /-- ignored: the connection is not active (registerHandler.go:19-21) -/
  | dropped (c : ConnId) (m : LMsg)
  /-- answered with the shutdown reply -/
  | refused (c : ConnId) (m : LMsg)
  /-- the handler of the message starts -/
  | start (c : ConnId) (m : LMsg)
  /-- the handler of the message is done -/
  | finish (c : ConnId) (m : LMsg)
  /-- `Shutdown` set the flag -/
  | stop
  /-- `Shutdown` shuts down the transport and returns -/
  | transportDown
  | disconnected (c : ConnId)
  deriving DecidableEq, Repr

/-- The shared state: server.go:14-36. `crashed` means that a goroutine panicked, which ends the process. -/
structure G where
  shutdown : Bool := false
  currentOps : UInt32 := 0
  rdyClosed : Bool := false
  crashed : Option String := none
  conns : ConnId → LConn := fun _ => {}
  /-- server.go:28 -/
  connections : List ConnId := []
  log : List LEv := []

/-- Where a goroutine is. `inl` tells a handler run by the reader of the connection itself. handleConnection.go:62-86,
registerHandler.go:13-45, deregisterHandler.go:5-19, connection.go:105-139, 351-368, server.go:57-71. -/
inductive PC
  /-- handleConnection.go:67 -/
  | reading (c : ConnId)
  /-- registerHandler.go:19 -/
  | checking (c : ConnId) (m : LMsg)
  /-- registerHandler.go:24 -/
  | acquiring (c : ConnId) (m : LMsg)
  /-- registerHandler.go:28 -/
  | counting (c : ConnId) (m : LMsg)
  /-- registerHandler.go:37 -/
  | refusing (c : ConnId) (m : LMsg)
  /-- registerHandler.go:43 -/
  | tasking (c : ConnId) (m : LMsg)
  /-- handleMessage.go:28 -/
  | dispatching (c : ConnId) (m : LMsg)
  /-- a handler function is about to begin -/
  | starting (c : ConnId) (m : LMsg) (inl : Bool)
  /-- a handler runs -/
  | running (c : ConnId) (m : LMsg) (inl : Bool)
  /-- deregisterHandler.go:6 -/
  | uncounting (c : ConnId) (inl : Bool)
  /-- connection.go:108 -/
  | untasking (c : ConnId) (inl : Bool)
  /-- connection.go:116 -/
  | unlinking (c : ConnId) (inl : Bool)
  /-- deregisterHandler.go:16 -/
  | releasing (c : ConnId) (inl : Bool)
  /-- connection.go:354; `rd` tells a `Close` by the reader itself (handleConnection.go:77) -/
  | closing (c : ConnId) (rd : Bool)
  /-- connection.go:366 -/
  | closeUnlinking (c : ConnId) (rd : Bool)
  /-- handleConnection.go:78 -/
  | disconnecting (c : ConnId)
  /-- server.go:58 -/
  | stopping
  /-- server.go:68 -/
  | waiting
  /-- server.go:63, 70 -/
  | stoppingTransport
  deriving DecidableEq, Repr

/-- What the environment decides: what `sock.Read` returns (`none` is an error) and whether `GetWriter` succeeds.
handleConnection.go:67, failMsg.go:105. -/
structure Choice where
  msg : Option LMsg := none
  writerOk : Bool := true

/-- Assign to fields of a connection. connection.go:29-35: the fields `isActive`, `tasks`, `handlerSlots`. -/
def G.upd (g : G) (c : ConnId) (f : LConn → LConn) : G :=
  { g with conns := fun i => if i = c then f (g.conns c) else g.conns i }

/-- Record an event. Not in the code; where it happens is cited with the steps, handleConnection.go:62-86 first of
all. -/
def G.ev (g : G) (e : LEv) : G := { g with log := g.log ++ [e] }

/-- A panic without recovery: the process ends, no goroutine makes another step. Possible at failMsg.go:114,
deregisterHandler.go:9 and 17. -/
def G.crash (g : G) (why : String) : G := { g with crashed := some why }

/-- The reader goes on after an inline handler (handleConnection.go:62); other goroutines end. -/
def resume (c : ConnId) (inl : Bool) : List PC := if inl then [.reading c] else []

/-- handleConnection.go:77-79, connection.go:366-368: after `Close`. -/
def closed (c : ConnId) (rd : Bool) : List PC := if rd then [.disconnecting c] else []

/-- handleConnection.go:62-85: the reader receives a message or an error. handleMessage.go:14-18: heartbeats. -/
def actReading (g : G) (ch : Choice) (c : ConnId) : G × List PC :=
  match ch.msg with
  | none => (g, [.closing c true])
  | some m =>
    if m.kind = .heartbeat then (g.ev (.arrived c m), [.reading c])
    else (g.ev (.arrived c m), [.checking c m])

/-- registerHandler.go:19-21, handleMessage.go:20-24. -/
def actChecking (g : G) (c : ConnId) (m : LMsg) : G × List PC :=
  if (g.conns c).active then (g, [.acquiring c m]) else (g.ev (.dropped c m), [.reading c])

/-- registerHandler.go:24-26: blocks (`none`) without a free slot. -/
def actAcquiring (g : G) (c : ConnId) (m : LMsg) : Option (G × List PC) :=
  if (g.conns c).limit > 1 then
    if ((g.conns c).slots : Int) ≥ (g.conns c).limit then none
    else some (g.upd c fun x => { x with slots := x.slots + 1 }, [.counting c m])
  else some (g, [.counting c m])

/-- registerHandler.go:28-37. -/
def actCounting (g : G) (c : ConnId) (m : LMsg) : G × List PC :=
  if g.shutdown then (g, [if m.requiresReply then .refusing c m else .tasking c m])
  else ({ g with currentOps := g.currentOps + 1 }, [.tasking c m])

/-- registerHandler.go:37-41, failMsg.go:104-122, handleMessage.go:20-24. -/
def actRefusing (g : G) (ch : Choice) (c : ConnId) (m : LMsg) : G × List PC :=
  if ch.writerOk then (g.ev (.refused c m), [.reading c]) else (g.crash "nil pointer dereference", [.refusing c m])

/-- handleMessage.go:28-58: who runs the handler. -/
def actDispatching (g : G) (c : ConnId) (m : LMsg) : G × List PC :=
  match m.kind with
  | .signal | .request =>
    if (g.conns c).limit < 0 ∨ (g.conns c).limit > 1 then (g, [.starting c m false, .reading c])
    else (g, [.starting c m true])
  | .session => (g, [.starting c m true])
  | _ => (g, [.uncounting c true])

/-- deregisterHandler.go:6-11. -/
def actUncounting (g : G) (c : ConnId) (inl : Bool) : G × List PC :=
  let g := { g with currentOps := g.currentOps - 1 }
  if g.shutdown ∧ g.currentOps < 1 then
    if g.rdyClosed then (g.crash "close of closed channel", [.uncounting c inl])
    else ({ g with rdyClosed := true }, [.untasking c inl])
  else (g, [.untasking c inl])

/-- connection.go:105-118 `deregisterTask`. -/
def actUntasking (g : G) (c : ConnId) (inl : Bool) : G × List PC :=
  let g := g.upd c fun x => { x with tasks := x.tasks - 1 }
  (g, [if (g.conns c).active = false ∧ (g.conns c).tasks < 1 then .unlinking c inl else .releasing c inl])

/-- connection.go:129-139 `unlink`, as far as the socket is concerned. -/
def unlinked (g : G) (c : ConnId) : G := g.upd c fun x => { x with sockCloses := x.sockCloses + 1 }

/-- deregisterHandler.go:16-18. -/
def actReleasing (g : G) (c : ConnId) (inl : Bool) : G × List PC :=
  if (g.conns c).limit > 1 then
    if (g.conns c).slots < 1 then (g.crash "semaphore: bad release", [.releasing c inl])
    else (g.upd c fun x => { x with slots := x.slots - 1 }, resume c inl)
  else (g, resume c inl)

/-- connection.go:351-368 `Close`, up to the unlock. -/
def actClosing (g : G) (c : ConnId) (rd : Bool) : G × List PC :=
  if (g.conns c).active = false then (g, closed c rd)
  else (g.upd c fun x => { x with active := false },
    if (g.conns c).tasks < 1 then [.closeUnlinking c rd] else closed c rd)

/-- server.go:57-65 `Shutdown`, up to the unlock. -/
def actStopping (g : G) : G × List PC :=
  ({ g with shutdown := true }.ev .stop, [if g.currentOps < 1 then .stoppingTransport else .waiting])

/-- One step of a goroutine: the shared state afterwards and what becomes of the goroutine (and the ones it starts).
`none`: it has to wait. handleConnection.go:62-86, handleMessage.go:6-62 and what they call; the lines are with the
parts. -/
def act (g : G) (ch : Choice) : PC → Option (G × List PC)
  | .reading c => some (actReading g ch c)
  | .checking c m => some (actChecking g c m)
  | .acquiring c m => actAcquiring g c m
  | .counting c m => some (actCounting g c m)
  | .refusing c m => some (actRefusing g ch c m)
  | .tasking c m => some (g.upd c fun x => { x with tasks := x.tasks + 1 }, [.dispatching c m])
  | .dispatching c m => some (actDispatching g c m)
  | .starting c m inl => some (g.ev (.start c m), [.running c m inl])
  | .running c m inl => some (g.ev (.finish c m), [.uncounting c inl])
  | .uncounting c inl => some (actUncounting g c inl)
  | .untasking c inl => some (actUntasking g c inl)
  | .unlinking c inl => some (unlinked g c, [.releasing c inl])
  | .releasing c inl => some (actReleasing g c inl)
  | .closing c rd => some (actClosing g c rd)
  | .closeUnlinking c rd => some (unlinked g c, closed c rd)
  | .disconnecting c => some (g.ev (.disconnected c), [])
  | .stopping => some (actStopping g)
  | .waiting => if g.rdyClosed then some (g, [.stoppingTransport]) else none
  | .stoppingTransport => some (g.ev .transportDown, [])

/-- The whole server: shared state and goroutines. server.go:14-36, and the goroutines started by transports
(transport/memchan/transport.go:120-123) and handleMessage.go:33, 43. -/
structure State where
  g : G := {}
  threads : List PC := []

/-- Who makes a step: some goroutine, or the environment: a new connection, a call of `Connection.Close` (by a hook or
any other goroutine), a call of `Server.Shutdown`. handleConnection.go:35, connection.go:351, server.go:57. -/
inductive Label
  | thread (pc : PC) (ch : Choice)
  | connect (c : ConnId) (limit : Int)
  | close (c : ConnId)
  | shutdown

/-- handleConnection.go:48-57: a connection that was sent its configuration gets a `connection` (connection.go:55-79
`newConnection`) and is appended to the list. -/
@[simp] def connected (g : G) (c : ConnId) (limit : Int) : G :=
  { g with
    conns := fun i => if i = c then { used := true, limit := limit, active := true } else g.conns i
    connections := g.connections ++ [c] }

/-- One step. Interleaving of the goroutines; the entry points are handleConnection.go:35, connection.go:351 and
server.go:57. -/
inductive Step : State → Label → State → Prop
  | thread (g g' : G) (pre post pcs : List PC) (pc : PC) (ch : Choice) : g.crashed = none →
      act g ch pc = some (g', pcs) → Step ⟨g, pre ++ pc :: post⟩ (.thread pc ch) ⟨g', pre ++ (pcs ++ post)⟩
  | connect (g : G) (ts : List PC) (c : ConnId) (limit : Int) : g.crashed = none → (g.conns c).used = false →
      Step ⟨g, ts⟩ (.connect c limit)
        ⟨connected g c limit, .reading c :: ts⟩
  | close (g : G) (ts : List PC) (c : ConnId) : g.crashed = none → (g.conns c).used = true →
      Step ⟨g, ts⟩ (.close c) ⟨g, .closing c false :: ts⟩
  | shutdown (g : G) (ts : List PC) : g.crashed = none → Step ⟨g, ts⟩ .shutdown ⟨g, .stopping :: ts⟩

/-- The states after any finite execution in which every step satisfies `ok`. Starts with the server as
newServer.go:53-72 makes it. -/
inductive ReachableIf (ok : State → Label → Prop) : State → Prop
  | start : ReachableIf ok {}
  | step (s : State) (l : Label) (s' : State) : ReachableIf ok s → ok s l → Step s l s' → ReachableIf ok s'

/-- The states after any finite execution. Starts with the server as newServer.go:53-72 makes it. -/
def Reachable : State → Prop := ReachableIf fun _ _ => True

end Webwire.Life
