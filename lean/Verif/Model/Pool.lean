import Verif.Model.BufferRead

/-!
# The message pool

Models `message/syncPool.go` and the part of `Message.Close` that returns a message to its pool.
-/

set_option autoImplicit false

namespace Webwire

/-- Messages made by one pool (`heap`, a message object is an index into it) and the objects currently inside
the `sync.Pool`. message/syncPool.go:6-9. `sync.Pool` is modelled as a multiset: `Get` may return any object
inside or make a new one, and the garbage collector may drop objects. -/
structure Pool where
  size : Nat
  heap : List Msg := []
  free : List Nat := []
  deriving Repr

/-- message/syncPool.go:12-25 `NewSyncPool` (the `prealloc` argument is ignored by the code). -/
def newSyncPool (bufferSize : Nat) : Pool := { size := bufferSize }

/-- message/syncPool.go:28-30 `Get` when `sync.Pool` calls `New` (lines 14-20). -/
def Pool.getNew (p : Pool) : Pool × Nat := ({ p with heap := p.heap ++ [newMessage p.size] }, p.heap.length)

/-- message/syncPool.go:28-30 `Get` when `sync.Pool` returns the pooled object `i`. -/
def Pool.getFree (p : Pool) (i : Nat) : Pool := { p with free := p.free.erase i }

/-- `sync.Pool` drops the pooled object `i` (garbage collection). message/syncPool.go:13 `pool`. -/
def Pool.dropFree (p : Pool) (i : Nat) : Pool := { p with free := p.free.erase i }

/-- `ReadBytes` on object `i` (message/read.go:9-22). -/
def Pool.readBytes (p : Pool) (i : Nat) (bs : Bytes) : Go (Pool × Bool × Option Err) := do
  match p.heap[i]? with
  | none => goPanic "no such message"
  | some m =>
    let (m, tp, e) ← m.readBytes bs
    return ({ p with heap := p.heap.set i m }, tp, e)

/-- `Read` on object `i` (message/read.go:25-30). -/
def Pool.read (p : Pool) (i : Nat) (r : List Answer) : Go (Pool × Bool × Option Err × List Answer) := do
  match p.heap[i]? with
  | none => goPanic "no such message"
  | some m =>
    let (m, tp, e, r) ← m.read r
    return ({ p with heap := p.heap.set i m }, tp, e, r)

/-- `Close` on object `i` (message/message.go:299-314) with the callback of message/syncPool.go:16-18, which
puts the object back into the pool. -/
def Pool.close (p : Pool) (i : Nat) : Pool :=
  match p.heap[i]? with
  | none => p
  | some m =>
    let (m, put) := m.close
    { p with heap := p.heap.set i m, free := if put then i :: p.free else p.free }

end Webwire
