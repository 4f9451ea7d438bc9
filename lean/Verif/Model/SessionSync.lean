import Verif.Model.Server

/-!
# What a client is told about its session while session operations overlap

The session operations on one connection, split into the accesses to `con.session` and the messages sent to the client.

Simplifications: the session registry and the session manager are left out (`Model.SessionRaces` has them), so
a session is its key, `Server.CloseSession` is a call of `CloseSession` per connection, and requests that are answered
with an error, which change nothing, are not steps. Messages reach the client in the order in which they are
written, as long as it is connected (the writer of a socket is locked from `GetWriter` to `Close`,
transport/memchan/socket.go:71-85, 121-135); those about sessions are not too long (C94 has those that are), except for the
notification about a new session, which may fail.
-/

set_option autoImplicit false

namespace Webwire.Sync

/-- The messages about sessions. connection.go:237-275, handleSessionRestore.go:98-106, handleSessionClosure.go:28,
41. -/
inductive Note
  /-- `WriteMsgNotifySessionCreated` -/
  | created (k : Bytes)
  /-- `WriteMsgNotifySessionClosed` -/
  | closed
  /-- the success reply to a restoration -/
  | restored (k : Bytes)
  /-- the success reply to a closure request -/
  | closureDone
  deriving DecidableEq, Repr

/-- One connection. connection.go:41-47. -/
structure G where
  /-- connection.go:47 `session`: the key -/
  session : Option Bytes := none
  /-- connection.go:44 `sessionLock`, held for writing -/
  locked : Bool := false
  /-- the socket is open -/
  connected : Bool := true
  /-- what was sent to the client -/
  sent : List Note := []
  deriving DecidableEq, Repr

/-- Where a goroutine is. handleSessionRestore.go:86-106, handleSessionClosure.go:26-41, connection.go:129-139,
187-296. -/
inductive PC
  /-- handleSessionRestore.go:86, about to set the session -/
  | r1 (k : Bytes)
  /-- handleSessionRestore.go:98, about to reply -/
  | r2 (k : Bytes)
  /-- handleSessionClosure.go:26, about to check for a session -/
  | k1
  /-- handleSessionClosure.go:38, about to reset the session -/
  | k2
  /-- handleSessionClosure.go:28 or 41, about to reply -/
  | k3
  /-- connection.go:283, about to lock -/
  | x1
  /-- connection.go:292, locked, about to reset the session and to unlock -/
  | x2
  /-- connection.go:295, unlocked, about to notify the client -/
  | x3
  /-- connection.go:200, about to lock -/
  | n1 (k : Bytes)
  /-- connection.go:215, locked, about to notify the client -/
  | n2 (k : Bytes)
  /-- connection.go:224, locked, about to set the session and to unlock -/
  | n3 (k : Bytes)
  /-- connection.go:133, about to reset the session -/
  | u1
  /-- connection.go:138, about to close the socket -/
  | u2
  deriving DecidableEq, Repr

/-- Send a message; nothing is sent on a closed socket. transport/memchan/socket.go:125-130. -/
def G.send (g : G) (m : Note) : G := if g.connected then { g with sent := g.sent ++ [m] } else g

/-- One step of a goroutine; `none` while it waits for a lock. `fails`: sending the notification fails. The lines are
with the cases; handleSessionRestore.go:86-106 first. -/
def act (g : G) (fails : Bool) : PC → Option (G × List PC)
  -- handleSessionRestore.go:86-91, connection.go:121-125
  | .r1 k => if g.locked then none else some ({ g with session := some k }, [.r2 k])
  -- handleSessionRestore.go:98-106, fulfillMsg.go:6-33
  | .r2 k => some (g.send (.restored k), [])
  -- handleSessionClosure.go:26-31, connection.go:299-304
  | .k1 => if g.locked then none else if g.session = none then some (g, [.k3]) else some (g, [.k2])
  -- handleSessionClosure.go:38, connection.go:121-125
  | .k2 => if g.locked then none else some ({ g with session := none }, [.k3])
  -- handleSessionClosure.go:28, 41
  | .k3 => some (g.send .closureDone, [])
  -- connection.go:283-287
  | .x1 => if g.locked then none else if g.session = none then some (g, []) else some ({ g with locked := true }, [.x2])
  -- connection.go:292-293
  | .x2 => some ({ g with session := none, locked := false }, [.x3])
  -- connection.go:295, 267-274
  | .x3 => some (g.send .closed, [])
  -- connection.go:191-209
  | .n1 k => if g.locked then none else if g.session = none then some ({ g with locked := true }, [.n2 k]) else some (g, [])
  -- connection.go:215-221, 236-265
  | .n2 k => if fails || !g.connected then some ({ g with locked := false }, []) else some (g.send (.created k), [.n3 k])
  -- connection.go:224-227
  | .n3 k => some ({ g with session := some k, locked := false }, [])
  -- connection.go:133-135
  | .u1 => if g.locked then none else some ({ g with session := none }, [.u2])
  -- connection.go:138
  | .u2 => some ({ g with connected := false }, [])

/-- The beginnings of operations: `handleSessionRestore`, `handleSessionClosure`, `CloseSession`, `CreateSession` with
the key it generates, `unlink`. handleSessionRestore.go:12, handleSessionClosure.go:9, connection.go:129, 187, 278. -/
def PC.entry : PC → Bool
  | .r1 _ | .k1 | .x1 | .n1 _ | .u1 => true
  | _ => false

/-- Runs in the goroutine that reads the messages of the connection (handleConnection.go:62-86, handleMessage.go:48-51). -/
def PC.inLoop : PC → Bool
  | .r1 _ | .r2 _ | .k1 | .k2 | .k3 => true
  | _ => false

/-- Goroutines and what they share. Goroutines of handleConnection.go:62, handleMessage.go:33, 43, and of user code.
-/
structure State where
  g : G := {}
  threads : List PC := []

/-- Steps. Calls of handleSessionRestore.go:12, handleSessionClosure.go:9, connection.go:129, 187, 278. -/
inductive Label
  | thread (pc : PC) (fails : Bool)
  | call (pc : PC)
  | hangup

/-- One step. The reading goroutine executes one request at a time, and `unlink` waits for it (connection.go:105-118). -/
inductive Step : State → Label → State → Prop
  | thread (g g' : G) (pre post pcs : List PC) (pc : PC) (fails : Bool) : act g fails pc = some (g', pcs) →
      Step ⟨g, pre ++ pc :: post⟩ (.thread pc fails) ⟨g', pre ++ (pcs ++ post)⟩
  | call (g : G) (ts : List PC) (pc : PC) : pc.entry = true →
      (pc.inLoop = true ∨ pc = .u1 → ∀ a ∈ ts, a.inLoop = false) → Step ⟨g, ts⟩ (.call pc) ⟨g, pc :: ts⟩
  /-- the client goes away -/
  | hangup (g : G) (ts : List PC) : Step ⟨g, ts⟩ .hangup ⟨{ g with connected := false }, ts⟩

/-- The states after any finite execution in which every step satisfies `ok`. Starts with a connection as
connection.go:54-84 makes it. -/
inductive Reachable (ok : State → Label → Prop) : State → Prop
  | start : Reachable ok {}
  | step (s : State) (l : Label) (s' : State) : Reachable ok s → ok s l → Step s l s' → Reachable ok s'

end Webwire.Sync
