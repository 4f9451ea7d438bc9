import Verif.Model.Server

/-!
# Session operations running at the same time

The session operations of the server split into the steps other goroutines can see: what is done holding the lock of
the registry (`asr.lock`) is one step, what is done holding a connection's `sessionLock` is several, and the reads of
`con.session` without that lock are steps of their own.

Simplifications: all sessions enabled and all sockets connected; a session is its key; the accesses to `con.session`
made by one critical section of the registry are one read (sessionRegistry.go:38-57 and 78-81 read the field up to
three times without `sessionLock`); messages sent to clients are left out but for the notification about a new session
(its event and the assignment of the session, connection.go:215-225, are one step); hooks are taken to return
(`Model.Server` has those that panic); `OnSessionCreated` does what `DefaultSessionManager` does with the connection it is
given: it asks for the session, then for its key, and saves (defaultSessionManager.go:100-108), but what becomes of a nil
session is left to `Spec.SessionRaces`; `OnSessionLookup`, saving, and the notification succeed or fail by choice.
-/

set_option autoImplicit false

namespace Webwire.Races

/-- How a session restoration request ended: the reply. handleSessionRestore.go:12-107. -/
inductive Reply
  | restored
  | maxConns
  | notFound
  | failed
  deriving DecidableEq, Repr

/-- What can be observed. Not in the code: a record of what the functions cited with `PC` do,
handleSessionRestore.go:12-107 first. -/
inductive Ev
  /-- a session restoration request was answered -/
  | restoreEnd (c : ConnId) (k : Bytes) (r : Reply)
  /-- a session closure request was answered -/
  | closureEnd (c : ConnId)
  /-- `OnSessionClosed` was called -/
  | destroyed (k : Bytes)
  /-- the client was told about its new session -/
  | told (c : ConnId) (k : Bytes)
  /-- the session was registered by `CreateSession` -/
  | registered (c : ConnId) (k : Bytes)
  /-- `OnSessionCreated`, called for session `k`, was given this session by `Connection.Session` -/
  | hookSession (c : ConnId) (k : Bytes) (seen : Option Bytes)
  /-- `OnSessionCreated`, called for session `k`, saved the session under this key -/
  | saved (c : ConnId) (k key : Bytes)
  /-- `CreateSession` returned -/
  | createEnd (c : ConnId) (k : Bytes) (ok : Bool)
  /-- `CloseSession`, of a connection or of the server, returned -/
  | closeEnd
  /-- the connection was unlinked -/
  | unlinkEnd (c : ConnId)
  deriving DecidableEq, Repr

/-- What goroutines share. sessionRegistry.go:10-16, connection.go:43-47. -/
structure G where
  /-- sessionRegistry.go:13 `maxConns` -/
  maxConns : Nat
  /-- sessionRegistry.go:14 `registry` -/
  registry : GoMap Bytes (List ConnId) := []
  /-- connection.go:47 `session`: the key -/
  session : ConnId → Option Bytes := fun _ => none
  /-- connection.go:44 `sessionLock`, held for writing -/
  locked : ConnId → Bool := fun _ => false
  /-- why the process died -/
  crashed : Option String := none
  log : List Ev := []

/-- What the caller of `deregister` does next. The callers of sessionRegistry.go:69. -/
inductive Cont
  /-- handleSessionClosure.go:38 -/
  | closure
  /-- connection.go:292, then the remaining connections of server.go:103 -/
  | close (rest : List ConnId)
  /-- connection.go:133 -/
  | unlink
  deriving DecidableEq, Repr

/-- Where a goroutine is. handleSessionRestore.go:12-107, handleSessionClosure.go:9-43, sessionRegistry.go:36-112,
connection.go:129-139, 187-296, server.go:89-123. -/
inductive PC
  /-- handleSessionRestore.go:31, about to count the connections -/
  | r1 (c : ConnId) (k : Bytes)
  /-- handleSessionRestore.go:40, about to look the session up -/
  | r2 (c : ConnId) (k : Bytes)
  /-- handleSessionRestore.go:86, about to set the session -/
  | r3 (c : ConnId) (k : Bytes)
  /-- handleSessionRestore.go:92, about to register the connection -/
  | r4 (c : ConnId) (k : Bytes)
  /-- handleSessionClosure.go:26 -/
  | k1 (c : ConnId)
  /-- handleSessionClosure.go:38, about to reset the session -/
  | k2 (c : ConnId)
  /-- sessionRegistry.go:73, about to check for a session -/
  | d1 (c : ConnId) (κ : Cont)
  /-- sessionRegistry.go:77, about to enter the critical section -/
  | d2 (c : ConnId) (κ : Cont)
  /-- sessionRegistry.go:97, about to call `OnSessionClosed` -/
  | d3 (c : ConnId) (κ : Cont)
  /-- connection.go:283, about to lock -/
  | x1 (c : ConnId) (rest : List ConnId)
  /-- connection.go:292, about to reset the session and unlock -/
  | x2 (c : ConnId) (rest : List ConnId)
  /-- server.go:94, about to take the snapshot -/
  | z1 (k : Bytes)
  /-- connection.go:200, about to lock -/
  | n1 (c : ConnId) (k : Bytes)
  /-- connection.go:207, unlocked, about to read the key of the other session -/
  | n2 (c : ConnId) (k : Bytes)
  /-- connection.go:215, about to notify the client -/
  | n3 (c : ConnId) (k : Bytes)
  /-- connection.go:226, about to register -/
  | n4 (c : ConnId) (k : Bytes)
  /-- connection.go:230, unlocked, in `OnSessionCreated`: about to ask for the session (defaultSessionManager.go:101) -/
  | n5 (c : ConnId) (k : Bytes)
  /-- about to ask for its key and to save (defaultSessionManager.go:107) -/
  | n6 (c : ConnId) (k : Bytes)
  /-- connection.go:234, about to return -/
  | n7 (c : ConnId) (k : Bytes)
  /-- connection.go:133, about to reset the session -/
  | u2 (c : ConnId)
  deriving DecidableEq, Repr

/-- What is not determined by the code. handleSessionRestore.go:40, connection.go:215, 230, server.go:94. -/
structure Choice where
  /-- the result of `OnSessionLookup`; `none` stands for an error (also of the JSON encoder), `some b` for found or not -/
  lookup : Option Bool := some true
  /-- sending the notification or saving the session fails -/
  fails : Bool := false
  /-- the order of the connections in a snapshot -/
  order : List ConnId := []

/-- Record an event. Not in the code; where it happens is cited with `act`, handleSessionRestore.go:12-107 first. -/
def G.emit (g : G) (e : Ev) : G := { g with log := g.log ++ [e] }
/-- A panic without recovery; possible at sessionRegistry.go:38, 78, connection.go:207 and handleSessionRestore.go:93.
-/
def G.crash (g : G) (why : String) : G := { g with crashed := some why }
/-- connection.go:121-125, 224, 292: assign to `session`. -/
def G.setSession (g : G) (c : ConnId) (k : Option Bytes) : G := { g with session := Function.update g.session c k }
/-- connection.go:44 `sessionLock`: lock or unlock. -/
def G.setLock (g : G) (c : ConnId) (b : Bool) : G := { g with locked := Function.update g.locked c b }

/-- The end of `deregister`. sessionRegistry.go:69-112. -/
def Cont.next (c : ConnId) : Cont → PC
  | .closure => .k2 c
  | .close rest => .x2 c rest
  | .unlink => .u2 c

/-- sessionRegistry.go:85: `unlink` does not destroy. -/
def Cont.destroys : Cont → Bool
  | .unlink => false
  | _ => true

/-- connection.go:295 and server.go:103: the next connection, if there is one. -/
def G.closeNext (g : G) : List ConnId → G × List PC
  | [] => (g.emit .closeEnd, [])
  | c :: rest => (g, [.x1 c rest])

/-- One step of a goroutine; `none` while it waits for a lock. The lines are with the cases;
handleSessionRestore.go:12-107 first. -/
def act (g : G) (ch : Choice) : PC → Option (G × List PC)
  -- handleSessionRestore.go:31-37, sessionRegistry.go:123-132
  | .r1 c k =>
    match g.registry.get k with
    | some set =>
      if g.maxConns > 0 ∧ set.length + 1 > g.maxConns then some (g.emit (.restoreEnd c k .maxConns), [])
      else some (g, [.r2 c k])
    | none => some (g, [.r2 c k])
  -- handleSessionRestore.go:40-84
  | .r2 c k =>
    match ch.lookup with
    | none => some (g.emit (.restoreEnd c k .failed), [])
    | some false => some (g.emit (.restoreEnd c k .notFound), [])
    | some true => some (g, [.r3 c k])
  -- handleSessionRestore.go:86, connection.go:121-125
  | .r3 c k => if g.locked c then none else some (g.setSession c (some k), [.r4 c k])
  -- handleSessionRestore.go:92-106, sessionRegistry.go:36-60
  | .r4 c k =>
    match g.session c with
    | none => some (g.crash "nil pointer dereference", [])
    | some key =>
      match registryAdd g.maxConns g.registry key c with
      | (_, some _) => some (g.crash "the number of concurrent session connections was unexpectedly exceeded", [])
      | (r, none) => some ({ g with registry := r }.emit (.restoreEnd c k .restored), [])
  -- handleSessionClosure.go:26-31, connection.go:299-304
  | .k1 c =>
    if g.locked c then none
    else if g.session c = none then some (g.emit (.closureEnd c), [])
    else some (g, [.d1 c .closure])
  -- handleSessionClosure.go:38-42
  | .k2 c => if g.locked c then none else some ((g.setSession c none).emit (.closureEnd c), [])
  -- sessionRegistry.go:73-75
  | .d1 c κ => if g.session c = none then some (g, [κ.next c]) else some (g, [.d2 c κ])
  -- sessionRegistry.go:77-112
  | .d2 c κ =>
    match g.session c with
    | none => some (g.crash "nil pointer dereference", [])
    | some key =>
      let r := registryRemove g.registry key c
      if r.2.2 = true ∧ κ.destroys then some ({ g with registry := r.1 }, [.d3 c κ])
      else some ({ g with registry := r.1 }, [κ.next c])
  -- sessionRegistry.go:97; the deferred function fails on its nil server after a panic (sessionRegistry.go:88-95)
  | .d3 c κ =>
    match g.session c with
    | none => some (g.crash "nil pointer dereference", [])
    | some key => some (g.emit (.destroyed key), [κ.next c])
  -- connection.go:283-291
  | .x1 c rest =>
    if g.locked c then none
    else if g.session c = none then some (g.closeNext rest)
    else some (g.setLock c true, [.d1 c (.close rest)])
  -- connection.go:292-295
  | .x2 c rest => some (((g.setSession c none).setLock c false).closeNext rest)
  -- server.go:94-103, sessionRegistry.go:135-151
  | .z1 k =>
    match g.registry.get k with
    | none => some (g.closeNext [])
    | some _ => some (g.closeNext ch.order)
  -- connection.go:200-212
  | .n1 c k =>
    if g.locked c then none
    else if g.session c = none then some (g.setLock c true, [.n3 c k])
    else some (g, [.n2 c k])
  -- connection.go:205-208
  | .n2 c k =>
    match g.session c with
    | none => some (g.crash "nil pointer dereference", [])
    | some _ => some (g.emit (.createEnd c k false), [])
  -- connection.go:215-224
  | .n3 c k =>
    if ch.fails then some ((g.setLock c false).emit (.createEnd c k false), [])
    else some ((g.setSession c (some k)).emit (.told c k), [.n4 c k])
  -- connection.go:226-227, sessionRegistry.go:36-60
  | .n4 c k =>
    match g.session c with
    | none => some (g.crash "nil pointer dereference", [])
    | some key =>
      some (({ g with registry := (registryAdd g.maxConns g.registry key c).1 }.setLock c false).emit
        (.registered c k), [.n5 c k])
  -- connection.go:230, defaultSessionManager.go:101, connection.go:307-312
  | .n5 c k => if g.locked c then none else some (g.emit (.hookSession c k (g.session c)), [.n6 c k])
  -- defaultSessionManager.go:102-107, connection.go:315-324
  | .n6 c k =>
    if g.locked c then none
    else if ch.fails then some (g, [.n7 c k])
    else some (g.emit (.saved c k ((g.session c).getD [])), [.n7 c k])
  -- connection.go:234
  | .n7 c k => some (g.emit (.createEnd c k true), [])
  -- connection.go:133-138
  | .u2 c => if g.locked c then none else some ((g.setSession c none).emit (.unlinkEnd c), [])

/-- The beginnings of operations: `handleSessionRestore`, `handleSessionClosure`, `Connection.CloseSession`,
`Server.CloseSession`, `Connection.CreateSession` with the key it generates, `unlink`. handleSessionRestore.go:12,
handleSessionClosure.go:9, connection.go:129, 187, 278, server.go:89. -/
def PC.entry : PC → Bool
  | .r1 .. | .k1 _ | .x1 _ [] | .z1 _ | .n1 .. | .d1 _ .unlink => true
  | _ => false

/-- Runs in the goroutine that reads the messages of the connection (handleConnection.go:62-86, handleMessage.go:48-51). -/
def PC.inLoop (c : ConnId) : PC → Bool
  | .r1 c' _ | .r2 c' _ | .r3 c' _ | .r4 c' _ | .k1 c' | .k2 c'
  | .d1 c' .closure | .d2 c' .closure | .d3 c' .closure => decide (c' = c)
  | _ => false

/-- Operations that do not begin while the reading goroutine of that connection is busy: those it executes itself, and
`unlink`, which waits for the tasks of the connection (connection.go:105-118, 351-367). -/
def PC.waitsFor : PC → Option ConnId
  | .r1 c _ | .k1 c | .d1 c .unlink => some c
  | _ => none

/-- Goroutines and what they share. Goroutines of handleConnection.go:62, handleMessage.go:33, 43, and of user code.
-/
structure State where
  g : G
  threads : List PC := []

/-- Steps. Calls of handleSessionRestore.go:12, handleSessionClosure.go:9, connection.go:129, 187, 278, server.go:89.
-/
inductive Label
  | thread (pc : PC) (ch : Choice)
  | call (pc : PC)

/-- The snapshot has the registered connections, each once. sessionRegistry.go:135-151. -/
def Snapshot (g : G) (order : List ConnId) : PC → Prop
  | .z1 k => ∀ set, g.registry.get k = some set → order.Nodup ∧ ∀ c, c ∈ order ↔ c ∈ set
  | _ => True

/-- One step. Nothing happens after a crash. Interleaving of goroutines that call the functions cited with `PC.entry`,
handleSessionRestore.go:12 first. -/
inductive Step : State → Label → State → Prop
  | thread (g g' : G) (pre post pcs : List PC) (pc : PC) (ch : Choice) :
      g.crashed = none → Snapshot g ch.order pc → act g ch pc = some (g', pcs) →
      Step ⟨g, pre ++ pc :: post⟩ (.thread pc ch) ⟨g', pre ++ (pcs ++ post)⟩
  | call (g : G) (ts : List PC) (pc : PC) : g.crashed = none → pc.entry = true →
      (∀ c, pc.waitsFor = some c → ∀ a ∈ ts, a.inLoop c = false) → Step ⟨g, ts⟩ (.call pc) ⟨g, pc :: ts⟩

/-- The states after any finite execution, from `s`, in which every step satisfies `ok`. Executions of the functions
cited with `PC.entry`, handleSessionRestore.go:12 first. -/
inductive From (ok : State → Label → Prop) (s : State) : State → Prop
  | start : From ok s s
  | step (s' : State) (l : Label) (s'' : State) : From ok s s' → ok s' l → Step s' l s'' → From ok s s''

/-- A server without sessions. newServer.go:53-83. -/
def init (maxConns : Nat) : State := ⟨{ maxConns }, []⟩

/-- The states after any finite execution in which every step satisfies `ok`. Starts with a server as
newServer.go:53-83 makes it. -/
def ReachableIf (maxConns : Nat) (ok : State → Label → Prop) : State → Prop := From ok (init maxConns)

/-- The states after any finite execution. Starts with a server as newServer.go:53-83 makes it. -/
def Reachable (maxConns : Nat) : State → Prop := ReachableIf maxConns fun _ _ => True

end Webwire.Races
