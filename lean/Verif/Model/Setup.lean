import Verif.Model.Options
import Verif.Model.Message

/-!
# Setting up a server and its in-memory transport

Models `NewServer` with the initialisation of the transport (`newServer.go`), `Initialize` of the in-memory transport
(`transport/memchan/transport.go`), the creation of its sockets (`transport/memchan/clientTransport.go`,
`newEntangledSockets.go`, `newSocket.go`) and their outbound buffers (`transport/memchan/buffer.go`).
-/

set_option autoImplicit false

namespace Webwire.Setup

/-- newServer.go:13-95 `NewServer` for a transport in a state `τ` (`none` is nil), whose `Initialize` is `init`: its state
afterwards, and its error. What `newServer` leaves out, lines 85-94, comes last. -/
def createServer {τ : Type} (init : ServerOptions → τ → τ × Option Err) (mkManager : Go Unit) (hasImpl : Bool)
    (opts : ServerOptions) (t : Option τ) : Go (Option τ × Except Err ServerSetup) := do
  let r ← newServer mkManager hasImpl t.isSome opts
  match r, t with
  | .ok s, some t =>
    let (t, e) := init s.options t
    match e with
    | some e => return (some t, .error ("couldn't initialize transport layer: " ++ e))
    | none => return (some t, .ok s)
  | .ok s, none => return (none, .ok s)
  | .error e, t => return (t, .error e)

/-- transport/memchan/transport.go:18-32 `Transport`. Left out: the functions, the connections and their lock, the channel. -/
structure Transport where
  bufferSize : UInt32 := 0
  readTimeout : Int := 0
  active : Bool := false
  deriving DecidableEq, Repr

/-- transport/memchan/transport.go:35-56 `Initialize`. It never fails. -/
def initTransport (o : ServerOptions) (_ : Transport) : Transport × Option Err :=
  ({ bufferSize := o.messageBufferSize, readTimeout := o.readTimeout, active := true }, none)

/-- transport/memchan/buffer.go:11-16 `Buffer`. `flushed` is not in the code: what was given to `onFlush`. -/
structure Buf where
  buf : Bytes
  len : Nat := 0
  locked : Bool := false
  flushed : List Bytes := []
  deriving DecidableEq, Repr

/-- transport/memchan/buffer.go:19-32 `NewBuffer` of `make([]byte, size)` (transport/memchan/newSocket.go:30). -/
def newBuffer (size : UInt32) : Go Buf :=
  if size.toNat < 1 then goPanic "empty buffer" else .ok { buf := List.replicate size.toNat 0 }

/-- transport/memchan/buffer.go:40-52 `Write`. -/
def Buf.write (b : Buf) (p : Bytes) : Go (Buf × Option Err) :=
  if b.locked then goBlock "buffer lock"
  else if p.length > b.buf.length - b.len then .ok ({ b with len := 0 }, some "message buffer overflow")
  else .ok ({ b with buf := b.buf.take b.len ++ goCopy (b.buf.drop b.len) p, len := b.len + p.length }, none)

/-- transport/memchan/buffer.go:55-64 `Close`: without data it returns with the lock held. Simplified: `onFlush` succeeds, as
the other side takes the message (what if it does not is the subject of `Model/Memchan`). -/
def Buf.close (b : Buf) : Go (Buf × Option Err) :=
  if b.locked then goBlock "buffer lock"
  else if b.len < 1 then .ok ({ b with locked := true }, some "no data written")
  else .ok ({ b with len := 0, flushed := b.flushed ++ [b.buf.take b.len] }, none)

/-- What `GetWriter` returns. transport/memchan/socket.go:121-135, buffer.go:40-64. -/
def bufWriter : Writer Buf := { write := Buf.write, close := Buf.close }

/-- The outbound buffers of the two sockets of a pair. transport/memchan/newSocket.go:28-34. -/
structure Pair where
  server : Buf
  client : Buf
  deriving DecidableEq, Repr

/-- transport/memchan/newEntangledSockets.go:4-9 `NewEntangledSockets`, clientTransport.go:15-27 `NewSocket`. -/
def newPair (t : Transport) : Go Pair := do
  let srv ← newBuffer t.bufferSize
  let clt ← newBuffer t.bufferSize
  return { server := srv, client := clt }

/-- A transport, the servers `NewServer` returned for it, and the pairs of sockets made so far (newServer.go:13,
transport/memchan/clientTransport.go:15). -/
structure State where
  t : Transport := {}
  servers : List ServerSetup := []
  pairs : List Pair := []

/-- What a program does with a transport. newServer.go:13, transport/memchan/clientTransport.go:15, transport.go:67. -/
inductive Op
  | create (mkManager : Go Unit) (hasImpl : Bool) (opts : ServerOptions)
  | socket
  | shutdown

/-- Do it. newServer.go:13-95, transport/memchan/clientTransport.go:15-27, transport.go:67-69 (the buffers and the size stay as
they are). -/
def step (s : State) : Op → Go State
  | .create mk hasImpl opts => do
    let r ← createServer initTransport mk hasImpl opts (some s.t)
    match r with
    | (t, .ok srv) => return { s with t := t.getD s.t, servers := s.servers ++ [srv] }
    | (t, .error _) => return { s with t := t.getD s.t }
  | .socket => do
    let p ← newPair s.t
    return { s with pairs := s.pairs ++ [p] }
  | .shutdown => return { s with t := { s.t with active := false } }

/-- The states after any finite sequence of operations that return. Starts with `&Transport{}`
(transport/memchan/transport.go:18-32). -/
inductive Reachable : State → Prop
  | start : Reachable {}
  | step (s : State) (op : Op) (s' : State) : Reachable s → step s op = .ok s' → Reachable s'

end Webwire.Setup
