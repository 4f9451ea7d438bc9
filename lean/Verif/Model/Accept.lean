import Verif.Model.Lifecycle

/-!
# Accepting connections

How a connection comes about, before its messages are read: the transport asks whether the server is shutting down
(isShuttingDown.go:5-13), starts `handleConnection` (handleConnection.go:35-60), which sends the configuration, appends the
connection to the server's list and calls `OnClientConnected`; only then the loop of `Model/Lifecycle` begins. Any number of
connections, in any interleaving with one another and with everything of `Model/Lifecycle`.

The goroutine of a connection is split in two: an entry of `accepting` here, and the reader of `Model/Lifecycle`, which exists
from the time the connection is listed, but does not read before `OnClientConnected` returned.

Simplifications: transports are `transport/memchan` or do as transport.go:8-16 asks; whether the configuration can be sent is
chosen by the environment; when `OnClientConnected` returns, too (it may never). What the hook does to the connection
(`Close`) or to the server (`Shutdown`) is a step of the environment in `Model/Lifecycle`.
-/

set_option autoImplicit false

namespace Webwire.Accept

/-- Where the goroutine of a new connection is. transport/memchan/transport.go:98-126, handleConnection.go:35-60. -/
inductive APC
  /-- transport/memchan/transport.go:103 -/
  | asking (c : ConnId) (limit : Int)
  /-- transport/memchan/transport.go:107-123, handleConnection.go:40 -/
  | accepted (c : ConnId) (limit : Int)
  /-- handleConnection.go:49-57 -/
  | registering (c : ConnId) (limit : Int)
  /-- handleConnection.go:60, before the call -/
  | greeting (c : ConnId)
  /-- `OnClientConnected` is running -/
  | greeted (c : ConnId)
  deriving DecidableEq, Repr

/-- What happened, in order. Not in the code: a record of transport/memchan/transport.go:103, handleConnection.go:40-60 and
of what `Model/Lifecycle` records. -/
inductive AEv
  /-- the transport asked, and the server was not shutting down -/
  | asked (c : ConnId)
  /-- the transport asked, and refuses the connection -/
  | refused (c : ConnId)
  /-- the configuration was sent -/
  | configured (c : ConnId)
  /-- the configuration could not be sent; the socket is closed -/
  | unconfigured (c : ConnId)
  /-- `OnClientConnected` is called -/
  | hello (c : ConnId)
  /-- `OnClientConnected` returned -/
  | ready (c : ConnId)
  | life (e : Life.LEv)
  deriving DecidableEq, Repr

/-- The server with its new connections. server.go:14-36, transport/memchan/transport.go:18-32. `dialed` are the
connections that ever were; not in the code. -/
structure State where
  life : Life.State := {}
  accepting : List APC := []
  dialed : List ConnId := []
  log : List AEv := []

/-- The connection's `OnClientConnected` has not returned. handleConnection.go:60. -/
def State.held (s : State) (c : ConnId) : Prop := .greeting c ∈ s.accepting ∨ .greeted c ∈ s.accepting

/-- One step of the goroutine of a new connection: the server afterwards, what becomes of the goroutine, and what is
recorded. `ok`: the configuration could be sent. transport/memchan/transport.go:103-105, handleConnection.go:40-60. -/
def act (s : Life.State) (ok : Bool) : APC → Life.State × List APC × List AEv
  -- isShuttingDown.go:5-13
  | .asking c limit => if s.g.shutdown then (s, [], [.refused c]) else (s, [.accepted c limit], [.asked c])
  -- handleConnection.go:40-46
  | .accepted c limit => if ok then (s, [.registering c limit], [.configured c]) else (s, [], [.unconfigured c])
  -- handleConnection.go:49-57, connection.go:54-84
  | .registering c limit => (⟨Life.connected s.g c limit, .reading c :: s.threads⟩, [.greeting c], [])
  -- handleConnection.go:60
  | .greeting c => (s, [.greeted c], [.hello c])
  | .greeted c => (s, [], [.ready c])

/-- The new events of a step of `Model/Lifecycle`. Not in the code; the events are handleConnection.go:62-86 first of
all. -/
def news (u v : Life.State) : List AEv := (v.g.log.drop u.g.log.length).map .life

/-- One step: a client dials; the goroutine of a new connection goes on; or anything else happens, but no connection is read
from before its `OnClientConnected` returned (handleConnection.go:60-67). -/
inductive Step : State → State → Prop
  | dial (s : State) (c : ConnId) (limit : Int) : s.life.g.crashed = none → c ∉ s.dialed →
      Step s { s with accepting := .asking c limit :: s.accepting, dialed := c :: s.dialed }
  | go (s : State) (pre post pcs : List APC) (pc : APC) (ok : Bool) (v : Life.State) (es : List AEv) :
      s.life.g.crashed = none → s.accepting = pre ++ pc :: post → act s.life ok pc = (v, pcs, es) →
      Step s { s with life := v, accepting := pre ++ (pcs ++ post), log := s.log ++ es }
  | life (s : State) (l : Life.Label) (v : Life.State) : Life.Step s.life l v → (∀ c limit, l ≠ .connect c limit) →
      (∀ c ch, l = .thread (.reading c) ch → ¬ s.held c) →
      Step s { s with life := v, log := s.log ++ news s.life v }

/-- The states after any finite execution, from the server as newServer.go:53-72 makes it. -/
inductive Reachable : State → Prop
  | start : Reachable {}
  | step (s s' : State) : Reachable s → Step s s' → Reachable s'

end Webwire.Accept
