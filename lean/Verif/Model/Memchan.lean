import Verif.Go

/-!
# The memchan transport

Models transport/memchan: any number of socket pairs of one transport, and any number of goroutines that write
messages, read, dial, close and shut the transport down, one step per atomic operation, lock or channel operation.

* The bytes a writer hands to the reader are a slice of the writer's buffer (socket.go:78, buffer.go:60), so a reader
  sees what the buffer holds when it copies the bytes.
* A writer is a goroutine that does what the `WriteMsg*` functions do: `GetWriter`, a `Write` for each chunk, and
  `Close`, also after a failed `Write` (message/writeMsg*.go). Which chunks is arbitrary; none for a rejected message.
* `readerErr` is an unbuffered channel: a sender meets a receiver already waiting, or waits itself (blocking send) or
  gives up (select with default).
* Time is not modelled: a deadline may pass at any time.
* Whether a message can be parsed does not matter to the transport (socket.go:236-250 does the same in both cases).
* Sockets that do not belong to a transport (newDisconnectedSocket) are left out: every operation on them fails.
-/

set_option autoImplicit false

namespace Webwire.Mem

/-- The two sockets of a pair. transport/memchan/socket.go:26-30. -/
inductive Side
  | srv | clt
  deriving DecidableEq, Repr

/-- transport/memchan/socket.go:41 `remote` -/
def Side.other : Side → Side
  | .srv => .clt
  | .clt => .srv

/-- A channel `reader` of capacity 1 (socket.go:62): the length of the slice in it, and whether it is closed. -/
structure Chan where
  buf : Option Nat := none
  closed : Bool := false

/-- What a receiver on `readerErr` has seen. socket.go:63, 81. -/
inductive Recv
  | absent
  | waiting
  | got (ok : Bool)
  deriving DecidableEq

/-- socket.go:35-66 `Socket` and buffer.go:11-16 `Buffer`. -/
structure Sock where
  writerLock : Bool := false
  readLock : Bool := false
  readerLock : Bool := false
  bufLock : Bool := false
  /-- the array behind the outbound buffer -/
  arr : Bytes := []
  len : Nat := 0
  /-- the channels `reader` made so far, and the number of the current one -/
  chans : Nat → Chan := fun _ => {}
  gen : Nat := 0
  /-- channel `readerErr`: the receiver, and whether a reader waits to send -/
  recv : Recv := .absent
  parked : Bool := false

/-- A pair of sockets: the shared status (entangleSockets.go:21-24), and whether the transport lists it. -/
structure Pair where
  connected : Bool := false
  listed : Bool := false
  socks : Side → Sock := fun _ => {}

/-- How a `WriteMsg*` call ended. socket.go:74, 81, 127, buffer.go:57. -/
inductive WriteRes
  | ok | disconnected | noData | closed
  deriving DecidableEq, Repr

/-- How `Read` ended. socket.go:173, 189, 250. -/
inductive ReadRes
  | ok | closed | timeout
  deriving DecidableEq, Repr

/-- What happened, in order. Not in the code: a record of what socket.go and transport.go do. -/
inductive Ev
  /-- the bytes of a message were handed over by this side -/
  | flushed (p : Nat) (x : Side) (data : Bytes)
  /-- this side copied the bytes of a message -/
  | copied (p : Nat) (x : Side) (data : Bytes)
  | writeEnd (p : Nat) (x : Side) (data : Bytes) (res : WriteRes)
  | readEnd (p : Nat) (x : Side) (res : ReadRes)
  | dialEnd (p : Nat) (ok : Bool)
  | closeEnd (p : Nat) (x : Side)
  /-- `Shutdown` returned; `first`: it was the call that shut the transport down -/
  | stopEnd (first : Bool)
  | serveEnd (ok : Bool)
  deriving DecidableEq

/-- The transport and its sockets. transport.go:18-32. -/
structure G where
  pairs : Nat → Pair
  /-- transport.go:30-31: `status`, and whether `shutdown` is still open (both change together, see `act`) -/
  active : Bool := true
  /-- the server refuses connections (server.go `isShuttingDown`) -/
  shuttingDown : Bool := false
  crashed : Option String := none
  log : List Ev := []

/-- What `Close` was called by: a user, `Read` after an error, or `Shutdown` with further connections to close.
socket.go:229, transport.go:82. -/
inductive Cont
  | user
  | read (res : ReadRes)
  | stop (rest : List Nat)

/-- Where a goroutine is. `msg` is the whole message of a `WriteMsg*` call. socket.go:71-304, buffer.go:40-64,
transport.go:59-90. -/
inductive PC
  /-- socket.go:122: `GetWriter`, about to lock -/
  | w1 (p : Nat) (x : Side) (chunks : List Bytes)
  /-- socket.go:125 -/
  | w2 (p : Nat) (x : Side) (chunks : List Bytes)
  /-- buffer.go:41: `Write`, with these chunks to go -/
  | w3 (p : Nat) (x : Side) (msg : Bytes) (chunks : List Bytes)
  /-- buffer.go:56: `Close` -/
  | w4 (p : Nat) (x : Side) (msg : Bytes)
  /-- socket.go:72: `onBufferFlush` -/
  | w5 (p : Nat) (x : Side) (msg : Bytes)
  /-- socket.go:145: about to lock the remote's reader -/
  | w6 (p : Nat) (x : Side) (msg : Bytes)
  /-- socket.go:146: sending, with the lock -/
  | w7 (p : Nat) (x : Side) (msg : Bytes)
  /-- socket.go:81: about to receive -/
  | w8 (p : Nat) (x : Side) (msg : Bytes)
  /-- socket.go:81: waiting -/
  | w9 (p : Nat) (x : Side) (msg : Bytes)
  /-- buffer.go:61, with the writer lock released -/
  | w10 (p : Nat) (x : Side) (msg : Bytes) (res : WriteRes)
  /-- socket.go:211: `Read` -/
  | r1 (p : Nat) (x : Side) (deadline : Bool)
  /-- socket.go:214 -/
  | r2 (p : Nat) (x : Side) (deadline : Bool)
  /-- socket.go:138 -/
  | r3 (p : Nat) (x : Side) (deadline : Bool)
  /-- socket.go:169, 186: receiving from the channel of that number -/
  | r4 (p : Nat) (x : Side) (deadline : Bool) (gen : Nat)
  /-- socket.go:236: about to copy that many bytes -/
  | r5 (p : Nat) (x : Side) (n : Nat)
  /-- socket.go:248: about to send -/
  | r6 (p : Nat) (x : Side)
  /-- socket.go:248: waiting -/
  | r7 (p : Nat) (x : Side)
  /-- socket.go:269: `Close` -/
  | c1 (p : Nat) (x : Side) (k : Cont)
  /-- socket.go:278 -/
  | c2 (p : Nat) (x : Side) (k : Cont)
  /-- socket.go:281 -/
  | c3 (p : Nat) (x : Side) (k : Cont)
  /-- socket.go:288 -/
  | c4 (p : Nat) (x : Side) (k : Cont)
  /-- socket.go:294 -/
  | c5 (p : Nat) (x : Side) (k : Cont)
  /-- socket.go:297 -/
  | c6 (p : Nat) (x : Side) (k : Cont)
  /-- socket.go:100: `Dial` -/
  | d1 (p : Nat)
  /-- socket.go:105 -/
  | d2 (p : Nat)
  /-- socket.go:113 -/
  | d3 (p : Nat)
  /-- socket.go:114 -/
  | d4 (p : Nat)
  /-- transport.go:104 -/
  | d5 (p : Nat)
  /-- transport.go:108 -/
  | d6 (p : Nat)
  /-- transport.go:116 -/
  | d7 (p : Nat)
  /-- transport.go:69: `Shutdown` -/
  | s1
  /-- transport.go:71 -/
  | s2
  /-- transport.go:60: `Serve` -/
  | v1
  /-- transport.go:63 -/
  | v2

/-- A socket. socket.go:35-65. -/
def G.sock (g : G) (p : Nat) (x : Side) : Sock := (g.pairs p).socks x

/-- Whether the sockets of the pair report being connected (socket.go:254-256). -/
def G.connected (g : G) (p : Nat) : Bool := (g.pairs p).connected

/-- Whether the transport lists the connection. transport.go:28 `connections`. -/
def G.listed (g : G) (p : Nat) : Bool := (g.pairs p).listed

/-- Change a socket. socket.go:35-65: its fields. -/
def G.upd (g : G) (p : Nat) (x : Side) (f : Sock → Sock) : G :=
  { g with pairs := fun q => if q = p then
      { g.pairs p with socks := fun y => if y = x then f ((g.pairs p).socks x) else (g.pairs p).socks y }
    else g.pairs q }

/-- Set the shared status of a pair. socket.go:105, 269. -/
def G.setConn (g : G) (p : Nat) (b : Bool) : G :=
  { g with pairs := fun q => if q = p then { g.pairs p with connected := b } else g.pairs q }

/-- List a connection, or not. transport.go:117, 131. -/
def G.setListed (g : G) (p : Nat) (b : Bool) : G :=
  { g with pairs := fun q => if q = p then { g.pairs p with listed := b } else g.pairs q }

/-- Record an event. Not in the code; where it happens is cited with `act`, socket.go:71-304. -/
def G.ev (g : G) (e : Ev) : G := { g with log := g.log ++ [e] }

/-- Panic. Possible at socket.go:146, 153. -/
def G.crash (g : G) (why : String) : G := { g with crashed := some why }

/-- The transport is closed. transport.go:69-70. -/
def G.stop (g : G) : G := { g with active := false }

/-- The server begins to refuse connections. transport.go:104 asks it, server.go:59 sets it. -/
def G.refuse (g : G) : G := { g with shuttingDown := true }

/-- The current channel of the socket. socket.go:62. -/
def Sock.chan (s : Sock) : Chan := s.chans s.gen

/-- Change the channel of that number. socket.go:146, 153, 160. -/
def Sock.setChan (s : Sock) (i : Nat) (c : Chan) : Sock := { s with chans := fun j => if j = i then c else s.chans j }

/-- socket.go:158-162: a new channel. -/
def Sock.reset (s : Sock) : Sock := { s.setChan (s.gen + 1) {} with gen := s.gen + 1 }

/-- buffer.go:48-49 -/
def Sock.put (s : Sock) (c : Bytes) : Sock :=
  { s with arr := s.arr.take s.len ++ c ++ s.arr.drop (s.len + c.length), len := s.len + c.length }

/-- What follows after `Close` (socket.go:229-231, transport.go:81-88). -/
def goOn (g : G) (p : Nat) (x : Side) : Cont → G × List PC
  | .user => (g.ev (.closeEnd p x), [])
  | .read res => ((g.upd p x fun s => { s with readLock := false }).ev (.readEnd p x res), [])
  | .stop [] => (g.ev (.stopEnd true), [])
  | .stop (q :: rest) => (g, [.c1 q .srv (.stop rest)])

/-- One step of a goroutine. `ch`: the deadline passes, or the connection is refused by `OnBeforeCreation`; `conns`:
the connections of the transport, in the random order of a map. `none`: it has to wait. socket.go:71-304,
buffer.go:40-64, transport.go:59-133; the lines are with the cases. -/
def act (g : G) (ch : Bool) (conns : List Nat) : PC → Option (G × List PC)
  | .w1 p x chunks =>
    if (g.sock p x).writerLock then none
    else some (g.upd p x fun s => { s with writerLock := true }, [.w2 p x chunks])
  -- socket.go:125-130
  | .w2 p x chunks =>
    if g.connected p then some (g, [.w3 p x chunks.flatten chunks])
    else some ((g.upd p x fun s => { s with writerLock := false }).ev (.writeEnd p x chunks.flatten .disconnected), [])
  -- buffer.go:40-52
  | .w3 p x msg [] => some (g, [.w4 p x msg])
  | .w3 p x msg (c :: chunks) =>
    if (g.sock p x).bufLock then none
    else if (g.sock p x).arr.length - (g.sock p x).len < c.length then
      some (g.upd p x fun s => { s with len := 0 }, [.w4 p x msg])
    else some (g.upd p x fun s => s.put c, [.w3 p x msg chunks])
  -- buffer.go:55-60: both locks are kept if nothing was written
  | .w4 p x msg =>
    if (g.sock p x).bufLock then none
    else if (g.sock p x).len < 1 then
      some ((g.upd p x fun s => { s with bufLock := true }).ev (.writeEnd p x msg .noData), [])
    else some (g.upd p x fun s => { s with bufLock := true }, [.w5 p x msg])
  -- socket.go:72-75
  | .w5 p x msg =>
    if g.connected p then some (g, [.w6 p x msg])
    else some (g.upd p x fun s => { s with writerLock := false }, [.w10 p x msg .disconnected])
  -- socket.go:144-148
  | .w6 p x msg =>
    if (g.sock p x.other).readerLock then none
    else some (g.upd p x.other fun s => { s with readerLock := true }, [.w7 p x msg])
  | .w7 p x msg =>
    if (g.sock p x.other).chan.closed then some (g.crash "send on closed channel", [.w7 p x msg])
    else if (g.sock p x.other).chan.buf.isSome then none
    else
      some ((g.upd p x.other fun s =>
        { s.setChan s.gen { buf := some (g.sock p x).len } with readerLock := false }).ev (.flushed p x msg),
        [.w8 p x msg])
  -- socket.go:81: take the value of a waiting sender, or wait
  | .w8 p x msg =>
    if (g.sock p x.other).recv ≠ .absent then none
    else if (g.sock p x.other).parked then
      some (g.upd p x.other fun s => { s with parked := false, recv := .got true }, [.w9 p x msg])
    else some (g.upd p x.other fun s => { s with recv := .waiting }, [.w9 p x msg])
  -- socket.go:83
  | .w9 p x msg =>
    match (g.sock p x.other).recv with
    | .got ok =>
      some ((g.upd p x.other fun s => { s with recv := .absent }).upd p x fun s => { s with writerLock := false },
        [.w10 p x msg (if ok then .ok else .closed)])
    | _ => none
  -- buffer.go:61-63
  | .w10 p x msg res =>
    some ((g.upd p x fun s => { s with len := 0, bufLock := false }).ev (.writeEnd p x msg res), [])
  | .r1 p x dl =>
    if (g.sock p x).readLock then none
    else some (g.upd p x fun s => { s with readLock := true }, [.r2 p x dl])
  -- socket.go:214-217
  | .r2 p x dl =>
    if g.connected p then some (g, [.r3 p x dl])
    else some ((g.upd p x fun s => { s with readLock := false }).ev (.readEnd p x .closed), [])
  -- socket.go:137-142
  | .r3 p x dl => if (g.sock p x).readerLock then none else some (g, [.r4 p x dl (g.sock p x).gen])
  -- socket.go:169-176, 186-198
  | .r4 p x dl i =>
    if dl && ch then some (g, [.c1 p x (.read .timeout)])
    else
      match ((g.sock p x).chans i).buf with
      | some n => some (g.upd p x fun s => s.setChan i { s.chans i with buf := none }, [.r5 p x n])
      | none => if ((g.sock p x).chans i).closed then some (g, [.c1 p x (.read .closed)]) else none
  -- socket.go:236: `msg.ReadBytes(data)`
  | .r5 p x n => some (g.ev (.copied p x ((g.sock p x.other).arr.take n)), [.r6 p x])
  -- socket.go:238, 243, 248
  | .r6 p x =>
    if (g.sock p x).recv = .waiting then
      some ((g.upd p x fun s => { s with recv := .got true, readLock := false }).ev (.readEnd p x .ok), [])
    else some (g.upd p x fun s => { s with parked := true }, [.r7 p x])
  | .r7 p x =>
    if (g.sock p x).parked then none
    else some ((g.upd p x fun s => { s with readLock := false }).ev (.readEnd p x .ok), [])
  -- socket.go:269-275
  | .c1 p x k =>
    if g.connected p then some (g.setConn p false, [.c2 p x k]) else some (goOn g p x k)
  -- socket.go:278, 151-155
  | .c2 p x k =>
    if (g.sock p x.other).readerLock then none
    else if (g.sock p x.other).chan.closed then some (g.crash "close of closed channel", [.c2 p x k])
    else some (g.upd p x.other fun s => s.setChan s.gen { s.chan with closed := true }, [.c3 p x k])
  -- socket.go:281-284
  | .c3 p x k =>
    if (g.sock p x.other).recv = .waiting then
      some (g.upd p x.other fun s => { s with recv := .got false }, [.c4 p x k])
    else some (g, [.c4 p x k])
  -- socket.go:288-291
  | .c4 p x k =>
    if (g.sock p x).recv = .waiting then some (g.upd p x fun s => { s with recv := .got false }, [.c5 p x k])
    else some (g, [.c5 p x k])
  -- socket.go:294
  | .c5 p x k =>
    if (g.sock p x).readerLock then none
    else if (g.sock p x).chan.closed then some (g.crash "close of closed channel", [.c5 p x k])
    else some (g.upd p x fun s => s.setChan s.gen { s.chan with closed := true }, [.c6 p x k])
  -- socket.go:297-301, transport.go:129-133
  | .c6 p x k => some (goOn (g.setListed p false) p x k)
  -- socket.go:100-103
  | .d1 p => if ch then some (g.ev (.dialEnd p false), []) else some (g, [.d2 p])
  -- socket.go:105-111
  | .d2 p => if g.connected p then some (g.ev (.dialEnd p false), []) else some (g.setConn p true, [.d3 p])
  -- socket.go:113
  | .d3 p => if (g.sock p .clt).readerLock then none else some (g.upd p .clt Sock.reset, [.d4 p])
  -- socket.go:114
  | .d4 p => if (g.sock p .srv).readerLock then none else some (g.upd p .srv Sock.reset, [.d5 p])
  -- transport.go:104-106
  | .d5 p => if g.shuttingDown then some (g.ev (.dialEnd p false), []) else some (g, [.d6 p])
  -- transport.go:108-110
  | .d6 p => if g.active then some (g, [.d7 p]) else some (g.ev (.dialEnd p false), [])
  -- transport.go:116-125; what the server does with the connection is up to other goroutines
  | .d7 p => some ((g.setListed p true).ev (.dialEnd p true), [])
  -- transport.go:69-70; `status` and `shutdown` change in one step, nobody looks at both
  | .s1 => if g.active then some (g.stop, [.s2]) else some (g.ev (.stopEnd false), [])
  -- transport.go:71-81
  | .s2 =>
    match conns with
    | [] => some (g.ev (.stopEnd true), [])
    | p :: rest => some (g, [.c1 p .srv (.stop rest)])
  -- transport.go:60-62
  | .v1 => if g.active then some (g, [.v2]) else some (g.ev (.serveEnd false), [])
  -- transport.go:63-64
  | .v2 => if g.active then none else some (g.ev (.serveEnd true), [])

/-- The sockets and the goroutines using them. Goroutines of the server and of clients, which call socket.go:88, 121,
206, 268 and transport.go:59, 68. -/
structure State where
  g : G
  threads : List PC := []

/-- Who makes a step: a goroutine goes on, or calls one of the operations; or the server begins to refuse connections.
socket.go:88, 121, 206, 268, transport.go:59, 68. -/
inductive Label
  | thread (pc : PC) (ch : Bool) (conns : List Nat)
  | write (p : Nat) (x : Side) (chunks : List Bytes)
  | read (p : Nat) (x : Side) (deadline : Bool)
  | dial (p : Nat)
  | close (p : Nat) (x : Side)
  | shutdown
  | serve
  | refuse

/-- The snapshot of the connections (transport.go:71-78) has all of them, once. -/
def Snapshot (g : G) (conns : List Nat) : Prop := conns.Nodup ∧ ∀ p, g.listed p = true ↔ p ∈ conns

/-- One step. Nothing happens after a crash. Interleaving of goroutines that call socket.go:88, 121, 206, 268,
transport.go:59, 68. -/
inductive Step : State → Label → State → Prop
  | thread (g g' : G) (pre post pcs : List PC) (pc : PC) (ch : Bool) (conns : List Nat) :
      g.crashed = none → (pc = .s2 → Snapshot g conns) → act g ch conns pc = some (g', pcs) →
      Step ⟨g, pre ++ pc :: post⟩ (.thread pc ch conns) ⟨g', pre ++ (pcs ++ post)⟩
  | write (g : G) (ts : List PC) (p : Nat) (x : Side) (chunks : List Bytes) : g.crashed = none →
      Step ⟨g, ts⟩ (.write p x chunks) ⟨g, .w1 p x chunks :: ts⟩
  | read (g : G) (ts : List PC) (p : Nat) (x : Side) (dl : Bool) : g.crashed = none →
      Step ⟨g, ts⟩ (.read p x dl) ⟨g, .r1 p x dl :: ts⟩
  | dial (g : G) (ts : List PC) (p : Nat) : g.crashed = none → Step ⟨g, ts⟩ (.dial p) ⟨g, .d1 p :: ts⟩
  | close (g : G) (ts : List PC) (p : Nat) (x : Side) : g.crashed = none →
      Step ⟨g, ts⟩ (.close p x) ⟨g, .c1 p x .user :: ts⟩
  | shutdown (g : G) (ts : List PC) : g.crashed = none → Step ⟨g, ts⟩ .shutdown ⟨g, .s1 :: ts⟩
  | serve (g : G) (ts : List PC) : g.crashed = none → Step ⟨g, ts⟩ .serve ⟨g, .v1 :: ts⟩
  | refuse (g : G) (ts : List PC) : g.crashed = none → Step ⟨g, ts⟩ .refuse ⟨g.refuse, ts⟩

/-- newSocket.go:10-37, transport.go:35-56: new sockets with buffers of that size. -/
def init (size : Nat) : State := ⟨{ pairs := fun _ => { socks := fun _ => { arr := List.replicate size 0 } } }, []⟩

/-- The states after any finite execution, from `s`, in which every step satisfies `ok`. Executions of the functions
of socket.go and transport.go. -/
inductive From (ok : State → Label → Prop) (s : State) : State → Prop
  | start : From ok s s
  | step (s' : State) (l : Label) (s'' : State) : From ok s s' → ok s' l → Step s' l s'' → From ok s s''

/-- The states after any finite execution in which every step satisfies `ok`. Starts with sockets as
newSocket.go:10-37 makes them. -/
def ReachableIf (size : Nat) (ok : State → Label → Prop) : State → Prop := From ok (init size)

/-- The states after any finite execution. Starts with sockets as newSocket.go:10-37 makes them. -/
def Reachable (size : Nat) : State → Prop := ReachableIf size fun _ _ => True

end Webwire.Mem
