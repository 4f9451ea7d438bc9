import Verif.Go

/-!
# Who holds which message object

Models what the goroutines of a server do with the message objects of its pool: the reader of every connection
(handleConnection.go:62-86), handlers (handleMessage.go, handleRequest.go, handleSignal.go, handleSessionRestore.go,
handleSessionClosure.go) and hooks that call `Close` on a message they were given.

Simplifications: what is read from a socket is a value of an arbitrary type `X`, and a message object holds at most one,
`none` being an empty buffer (the layout of messages is the subject of `Model/Parse`, `Model/Pool`). `Close` is one step.
Which goroutine handles a message, or whether the server ignores it (heartbeats, closed connections, shutdown), is
chosen by the environment; any number of connections and handlers, in any interleaving.
-/

set_option autoImplicit false

namespace Webwire.Buffers

variable {X : Type}

/-- Where a goroutine is, and the message object it has. handleConnection.go:62-86, handleRequest.go:11-39,
handleSignal.go:11-18. -/
inductive PC (X : Type)
  /-- handleConnection.go:64: the reader asks the pool for a message -/
  | getting
  /-- handleConnection.go:67: `sock.Read` -/
  | filling (m : Nat)
  /-- between receiving `x` in the message and closing it: hook, reply (handleRequest.go:13-35 and the like); `rd` tells
  the reader itself, which goes on reading afterwards -/
  | handling (m : Nat) (x : X) (rd : Bool)
  /-- `msg.Close()` (handleRequest.go:38, handleSignal.go:17, handleMessage.go:16, 22, 58, handleConnection.go:71); `rd`
  as before -/
  | closing (m : Nat) (rd : Bool)

/-- The message objects made so far (`made`, counted), what they hold, the ones in the pool (message/syncPool.go:6-9), and
the ones hooks have been given. -/
structure G (X : Type) where
  made : Nat := 0
  holds : Nat → Option X := fun _ => none
  pool : List Nat := []
  given : List Nat := []

/-- Goroutines and shared state. The goroutines are those of handleConnection.go:62-86 and handleMessage.go:33, 43. -/
structure State (X : Type) where
  g : G X := {}
  threads : List (PC X) := []

/-- message/message.go:299-314 `Close`: nothing if the buffer is empty; or else it is emptied, and the object goes back to
the pool. -/
def G.close (g : G X) (m : Nat) : G X :=
  match g.holds m with
  | none => g
  | some _ => { g with holds := fun i => if i = m then none else g.holds i, pool := m :: g.pool }

/-- `sock.Read` leaves `x` in the message. handleConnection.go:67, message/read.go:9-22. -/
def G.put (g : G X) (m : Nat) (x : Option X) : G X := { g with holds := fun i => if i = m then x else g.holds i }

/-- One step of a goroutine. handleConnection.go:62-86; the lines are with the cases. -/
inductive Act (g : G X) : PC X → G X → List (PC X) → Prop
  /-- message/syncPool.go:28-30: a new object (lines 14-20) -/
  | getNew : Act g .getting { g with made := g.made + 1 } [.filling g.made]
  /-- message/syncPool.go:28-30: an object from the pool -/
  | getPooled (m : Nat) : m ∈ g.pool → Act g .getting { g with pool := g.pool.erase m } [.filling m]
  /-- handleConnection.go:67-79: an error, with or without something in the buffer; the reader ends -/
  | readErr (m : Nat) (x : Option X) : Act g (.filling m) (g.put m x) [.closing m false]
  /-- handleConnection.go:83: a message the reader handles itself -/
  | readInline (m : Nat) (x : X) :
      Act g (.filling m) { g.put m (some x) with given := m :: g.given } [.handling m x true]
  /-- handleMessage.go:33, 43: a message handled by a new goroutine -/
  | readSpawn (m : Nat) (x : X) :
      Act g (.filling m) { g.put m (some x) with given := m :: g.given } [.handling m x false, .getting]
  /-- the handler is done -/
  | done (m : Nat) (x : X) (rd : Bool) : Act g (.handling m x rd) g [.closing m rd]
  | close (m : Nat) (rd : Bool) : Act g (.closing m rd) (g.close m) (if rd then [.getting] else [])

/-- Who makes a step. New connections call handleConnection.go:35; hooks are called at handleRequest.go:13 and
handleSignal.go:12. -/
inductive Label
  | thread
  /-- a new connection -/
  | connect
  /-- a hook, or a goroutine it has passed the message to, calls `Close` -/
  | userClose (m : Nat)
  /-- the garbage collector empties the pool -/
  | collect

/-- One step. Interleaving of the goroutines of handleConnection.go:62-86 and handleMessage.go:33, 43. -/
inductive Step : State X → Label → State X → Prop
  | thread (g g' : G X) (pre post pcs : List (PC X)) (pc : PC X) : Act g pc g' pcs →
      Step ⟨g, pre ++ pc :: post⟩ .thread ⟨g', pre ++ (pcs ++ post)⟩
  | connect (g : G X) (ts : List (PC X)) : Step ⟨g, ts⟩ .connect ⟨g, .getting :: ts⟩
  | userClose (g : G X) (ts : List (PC X)) (m : Nat) : m ∈ g.given → Step ⟨g, ts⟩ (.userClose m) ⟨g.close m, ts⟩
  | collect (g : G X) (ts : List (PC X)) (m : Nat) : Step ⟨g, ts⟩ .collect ⟨{ g with pool := g.pool.erase m }, ts⟩

/-- The states after any finite execution in which every step satisfies `ok`. Starts with the empty pool of
newServer.go:69. -/
inductive ReachableIf (ok : Label → Prop) : State X → Prop
  | start : ReachableIf ok {}
  | step (s : State X) (l : Label) (s' : State X) : ReachableIf ok s → ok l → Step s l s' → ReachableIf ok s'

end Webwire.Buffers
