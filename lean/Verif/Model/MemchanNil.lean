import Verif.Model.Message

/-!
# memchan: how sockets and transports refer to each other

`Model/Memchan` has pairs of sockets that know each other and their transport. Here sockets are objects with references that may be
nil (objects have numbers): how they are made, and what each call dereferences. Calls are made one after the other; the references do not change once
a socket has been made (entangleSockets.go is called by newEntangledSockets.go only, before anybody else knows the sockets), so
nothing depends on how calls on different goroutines interleave. Locks, channels, buffers and bytes are in `Model/Memchan`.
-/

set_option autoImplicit false

namespace Webwire.Nil

/-- socket.go:20-31 `SocketType` -/
inductive Kind
  | uninitialized | server | client
  deriving DecidableEq

/-- socket.go:35-65 `Socket`: its references. -/
structure Sock where
  kind : Kind
  /-- socket.go:36 -/
  server : Option Nat
  /-- socket.go:41 -/
  remote : Option Nat
  /-- socket.go:44: the status, which is shared -/
  status : Option Nat
  deriving DecidableEq

/-- transport/memchan/transport.go:18-32 `Transport`. -/
structure Tran where
  bufferSize : Nat := 0
  /-- its functions, its list of connections and its lock are there (transport.go:41-52) -/
  ready : Bool := false
  /-- transport.go:30 -/
  active : Bool := false
  /-- transport.go:28: the server side's sockets -/
  conns : List Nat := []
  deriving DecidableEq

/-- The objects there are. socket.go:35-65, transport.go:18-32. -/
structure Heap where
  socks : List Sock := []
  /-- the statuses sockets share (entangleSockets.go:20-23), connected or not -/
  cells : List Bool := []
  trans : List Tran := []
  deriving DecidableEq

/-- Follow a reference. Go panics if it is nil (or if there is nothing; that cannot be). Done all over socket.go:71-304. -/
def deref {α : Type} (l : List α) : Option Nat → Go α
  | none => goPanic "nil pointer dereference"
  | some a =>
    match l[a]? with
    | some x => .ok x
    | none => goPanic "invalid memory address"

/-- transport/memchan/newSocket.go:10-37 `newSocket`, buffer.go:18-27 `NewBuffer`. -/
def newSocket (h : Heap) (server : Option Nat) (size : Nat) : Go (Heap × Nat) :=
  if size < 1 then goPanic "empty buffer"
  else .ok ({ h with socks := h.socks ++ [⟨.uninitialized, server, none, none⟩] }, h.socks.length)

/-- newSocket.go:40-66 `newDisconnectedSocket`: with a status of its own. -/
def newDisconnectedSocket (h : Heap) : Heap × Nat :=
  ({ h with socks := h.socks ++ [⟨.client, none, none, some h.cells.length⟩], cells := h.cells ++ [false] }, h.socks.length)

/-- entangleSockets.go:4-24 `entangleSockets`. -/
def entangleSockets (h : Heap) (server client : Nat) : Go Heap := do
  let s ← deref h.socks (some server)
  let c ← deref h.socks (some client)
  if s.status ≠ none then goPanic "the server socket is already entangled"
  else if c.status ≠ none then goPanic "the server socket is already entangled"
  else .ok { h with
    socks := (h.socks.set server { s with kind := .server, remote := some client, status := some h.cells.length }).set client
      { c with kind := .client, remote := some server, status := some h.cells.length }
    cells := h.cells ++ [false] }

/-- newEntangledSockets.go:4-9 `NewEntangledSockets`. -/
def newEntangledSockets (h : Heap) (t : Option Nat) : Go (Heap × Nat × Nat) := do
  let tr ← deref h.trans t
  let (h, srv) ← newSocket h t tr.bufferSize
  let (h, clt) ← newSocket h t tr.bufferSize
  let h ← entangleSockets h srv clt
  return (h, srv, clt)

/-- clientTransport.go:15-27 `ClientTransport.NewSocket`; `t` is its field `Server`. -/
def clientNewSocket (h : Heap) (t : Option Nat) : Go (Heap × Nat) :=
  match t with
  | none => .ok (newDisconnectedSocket h)
  | some a => do
    let (h, _, clt) ← newEntangledSockets h (some a)
    return (h, clt)

/-- What calls return. socket.go:88-304; the lines are with the constructors. -/
inductive Res
  /-- nil -/
  | ok
  /-- socket.go:90, Dial: "cannot dial on a non-client socket" -/
  | notClient
  /-- socket.go:94-96, Dial: `ErrDisconnected`, "server unreachable" -/
  | unreachable
  /-- socket.go:102, Dial: "connection refused" -/
  | refused
  /-- socket.go:110, Dial: "socket already connected" -/
  | alreadyConnected
  /-- transport.go:105, Dial: "server is shutting down" -/
  | shuttingDown
  /-- transport.go:109, Dial: "server is closed" -/
  | serverClosed
  /-- transport.go:113, Dial: "uninitialized socket" -/
  | uninitialized
  /-- socket.go:127-129, GetWriter: `ErrDisconnected`; socket.go:216, Read: `ErrSockRead{closed: true}` -/
  | disconnected
  /-- GetWriter gives the writer, or Read begins to wait (socket.go:134, 220-226) -/
  | goesOn
  /-- IsConnected, socket.go:254-256 -/
  | connected (b : Bool)
  /-- RemoteAddr, socket.go:259-265: nil, or a `RemoteAddress` with the socket it has -/
  | address (a : Option (Option Nat))
  deriving DecidableEq

/-- socket.go:254-256 `IsConnected` -/
def isConnected (h : Heap) (s : Sock) : Go Bool := deref h.cells s.status

/-- transport.go:99-126 `onConnect`; `down`: what `isShuttingdown` answers. -/
def onConnect (h : Heap) (t : Option Nat) (s : Sock) (down : Bool) : Go (Heap × Res) := do
  let tr ← deref h.trans t
  if tr.ready = false then goPanic "nil pointer dereference"
  else if down then .ok (h, .shuttingDown)
  else if tr.active = false then .ok (h, .serverClosed)
  else match s.remote, t with
    | some r, some ta => .ok ({ h with trans := h.trans.set ta { tr with conns := r :: tr.conns } }, .ok)
    | _, _ => .ok (h, .uninitialized)

/-- socket.go:88-118 `Dial`; `accept`: what `OnBeforeCreation` answers. -/
def dial (h : Heap) (a : Nat) (accept down : Bool) : Go (Heap × Res) := do
  let s ← deref h.socks (some a)
  if s.kind ≠ .client then return (h, .notClient)
  else if s.server = none then return (h, .unreachable)
  else
    let tr ← deref h.trans s.server
    if tr.ready = false then goPanic "nil pointer dereference"
    else if accept = false then return (h, .refused)
    else
      let b ← deref h.cells s.status
      if b then return (h, .alreadyConnected)
      else
        let h := { h with cells := h.cells.set (s.status.getD 0) true }
        let _ ← deref h.socks s.remote
        onConnect h s.server s down

/-- socket.go:121-135 `GetWriter`, 206-226 `Read`: up to the check of the status. -/
def begin (h : Heap) (a : Nat) : Go (Heap × Res) := do
  let s ← deref h.socks (some a)
  let b ← isConnected h s
  if b then
    -- the remote socket is dereferenced later (socket.go:78, 81)
    let _ ← deref h.socks s.remote
    return (h, .goesOn)
  else return (h, .disconnected)

/-- transport.go:129-133 `onDisconnect` -/
def onDisconnect (h : Heap) (t : Option Nat) (server : Option Nat) : Go Heap := do
  let tr ← deref h.trans t
  if tr.ready = false then goPanic "nil pointer dereference"
  else
    .ok { h with trans := h.trans.set (t.getD 0) { tr with conns := tr.conns.filter fun c => some c ≠ server } }

/-- socket.go:268-304 `Close` -/
def close (h : Heap) (a : Nat) : Go (Heap × Res) := do
  let s ← deref h.socks (some a)
  let b ← deref h.cells s.status
  if b = false then return (h, .ok)
  else
    let h := { h with cells := h.cells.set (s.status.getD 0) false }
    let _ ← deref h.socks s.remote
    let h ← onDisconnect h s.server (if s.kind = .client then s.remote else some a)
    return (h, .ok)

/-- socket.go:259-265 `RemoteAddr` -/
def remoteAddr (s : Sock) : Option (Option Nat) :=
  match s.kind with
  | .server | .client => some s.remote
  | .uninitialized => none

/-- transport.go:35-56 `Initialize`; `size`: the option `MessageBufferSize`. -/
def initTransport (h : Heap) (t : Nat) (size : Nat) : Go Heap := do
  let _ ← deref h.trans (some t)
  return { h with trans := h.trans.set t { bufferSize := size, ready := true, active := true, conns := [] } }

/-- transport.go:79-88: close one connection after the other. -/
def closeAll (h : Heap) : List Nat → Go Heap
  | [] => .ok h
  | a :: as => do
    let (h, _) ← close h a
    closeAll h as

/-- transport.go:67-90 `Shutdown` (the order in which connections are closed is that of the list). -/
def shutdown (h : Heap) (t : Nat) : Go Heap := do
  let tr ← deref h.trans (some t)
  if tr.active then closeAll { h with trans := h.trans.set t { tr with active := false } } tr.conns else return h

/-- What users of the package do. clientTransport.go:15, newEntangledSockets.go:4, socket.go:88-268, transport.go:35, 67;
`&Transport{}`. -/
inductive Op
  | newTransport
  | init (t : Nat) (size : Nat)
  | shutdown (t : Nat)
  | newSocket (t : Option Nat)
  | newPair (t : Nat)
  | dial (a : Nat) (accept down : Bool)
  /-- GetWriter or Read -/
  | begin (a : Nat)
  | isConnected (a : Nat)
  | remoteAddr (a : Nat)
  | close (a : Nat)
  deriving DecidableEq

/-- Do it. The functions above, socket.go:88-304 for most. -/
def run (h : Heap) : Op → Go (Heap × Res)
  | .newTransport => .ok ({ h with trans := h.trans ++ [{}] }, .ok)
  | .init t size => do return (← initTransport h t size, .ok)
  | .shutdown t => do return (← shutdown h t, .ok)
  | .newSocket t => do return ((← clientNewSocket h t).1, .ok)
  | .newPair t => do return ((← newEntangledSockets h (some t)).1, .ok)
  | .dial a accept down => dial h a accept down
  | .begin a => begin h a
  | .isConnected a => do return (h, .connected (← isConnected h (← deref h.socks (some a))))
  | .remoteAddr a => do return (h, .address (Nil.remoteAddr (← deref h.socks (some a))))
  | .close a => close h a

end Webwire.Nil
