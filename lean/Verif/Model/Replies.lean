import Verif.Model.Pool
import Verif.Model.Payload
import Verif.Model.RequestManager

/-!
# Replies: messages of the pool passing through the request manager

Models `requestManager/reply.go`, and `requestManager/requestManager.go`, `requestManager/request.go` together with
`message/syncPool.go`: what `Model/RequestManager` leaves open, the replies, are messages of a pool here. The code that
reads messages from a socket and calls `Fulfill` is the user's (the repository has no client); it may do anything with
the messages it holds. So may the code that calls `AwaitReply` and gets replies.
-/

set_option autoImplicit false

namespace Webwire.Replies

/-- What the holder of a message read into it since `Get`. Not in the code: a record for the specification of what
message/read.go:9-22 was called with. -/
inductive Mark
  /-- nothing was read into it -/
  | fresh
  /-- these bytes, once and with success -/
  | has (bs : Bytes)
  /-- something else: a read failed, or there were several -/
  | other
  deriving DecidableEq, Repr

/-- requestManager/request.go:15-18 `genericReply`: a message (an object of the pool) or an error. -/
inductive Rep
  | msg (i : Nat) (mk : Mark)
  | err (e : String)
  deriving DecidableEq, Repr

/-- requestManager/reply.go:14-16 `PayloadEncoding` of the reply with the message `i`. -/
def replyPayloadEncoding (p : Pool) (i : Nat) : Go Encoding :=
  match p.heap[i]? with
  | none => goPanic "no such message"
  | some m => .ok m.payload.encoding

/-- requestManager/reply.go:19-21 `Payload`: unlike `Message.Payload` it does not check whether the message is closed. -/
def replyPayload (p : Pool) (i : Nat) : Go Bytes :=
  match p.heap[i]? with
  | none => goPanic "no such message"
  | some m => .ok (m.payload.data.view m.buf)

/-- requestManager/reply.go:24-26 `PayloadUtf8`. -/
def replyPayloadUtf8 (p : Pool) (i : Nat) : Go (Except Err Bytes) :=
  match p.heap[i]? with
  | none => goPanic "no such message"
  | some m => payloadUtf8 m.payload.encoding (m.payload.data.view m.buf)

/-- requestManager/reply.go:29-31 `Close`. -/
def replyClose (p : Pool) (i : Nat) : Pool := p.close i

/-- The request manager with the goroutines that use it, the pool, and who holds which message. The lists of holders are
not in the code. requestManager/requestManager.go:12-18, message/syncPool.go:6-9. -/
structure State where
  req : Req.State Rep := {}
  pool : Pool
  /-- messages held by the code that reads from the socket -/
  reading : List (Nat × Mark) := []
  /-- replies that `AwaitReply` returned and nobody closed: of which request, with which message -/
  replies : List (Nat × Nat × Mark) := []
  /-- replies that were closed -/
  closed : List (Nat × Nat) := []

/-- What a step of a goroutine inside the request manager hands to the user's code: `Fulfill` returning false leaves the
message with the caller (requestManager.go:70-72), `AwaitReply` returns a reply (request.go:44-49). -/
def gives (g : Req.G Rep) (ctxDone : Bool) : Req.PC Rep → List (Nat × Mark) × List (Nat × Nat × Mark)
  | .looking _ k (.msg i mk) => if g.pending k = none then ([(i, mk)], []) else ([], [])
  | .awaiting r =>
    if ctxDone then ([], [])
    else
      match g.reqs[r]? with
      | some ⟨_, some (.msg i mk)⟩ => ([], [(r, i, mk)])
      | _ => ([], [])
  | _ => ([], [])

/-- The record of a message into which `bs` was read: what there was before, and how reading ended. Not in the code, a
record of message/read.go:9-22. -/
def Mark.read (mk : Mark) (bs : Bytes) (typeParsed : Bool) (e : Option Err) : Mark :=
  if mk = .fresh ∧ typeParsed = true ∧ e = none then .has bs else .other

/-- Who makes a step. The calls of the functions cited in `Step`, requestManager.go:32, 65, 84, request.go:37. -/
inductive Label
  | thread (pc : Req.PC Rep) (ctxDone : Bool)
  | create
  | await (r : Nat)
  | fail (ident : Bytes) (e : String)
  | fulfill (i : Nat)
  | getNew
  | getFree (i : Nat)
  | gc (i : Nat)
  | read (i : Nat) (bs : Bytes)
  | close (i : Nat)
  | closeReply (r i : Nat)
  | closeAgain (r i : Nat)

/-- One step. requestManager.go:32-101, request.go:37-50, reply.go:29-31, message/syncPool.go:28-30. -/
inductive Step : State → Label → State → Prop
  /-- a goroutine inside `Create`, `Fulfill`, `Fail` or `AwaitReply` goes on (requestManager.go:32-101,
  request.go:37-50) -/
  | thread (s : State) (q : Req.State Rep) (pc : Req.PC Rep) (ctxDone : Bool) :
      Req.Step s.req (.thread pc ctxDone) q →
      Step s (.thread pc ctxDone) { s with
        req := q,
        reading := (gives s.req.g ctxDone pc).1 ++ s.reading,
        replies := (gives s.req.g ctxDone pc).2 ++ s.replies }
  /-- requestManager.go:32 -/
  | create (s : State) (q : Req.State Rep) : Req.Step s.req .create q → Step s .create { s with req := q }
  /-- request.go:37 -/
  | await (s : State) (q : Req.State Rep) (r : Nat) : Req.Step s.req (.await r) q →
      Step s (.await r) { s with req := q }
  /-- requestManager.go:84 -/
  | fail (s : State) (q : Req.State Rep) (k : Bytes) (e : String) : Req.Step s.req (.call k (.err e)) q →
      Step s (.fail k e) { s with req := q }
  /-- requestManager.go:65: called with a message the caller holds. The identifier is read from the message when `Fulfill`
  looks for the request and again when it removes it (lines 67, 74); here it is read once, at the call:
  `C108_identifier` shows that it stays the same. -/
  | fulfill (s : State) (q : Req.State Rep) (i : Nat) (mk : Mark) (m : Msg) : (i, mk) ∈ s.reading →
      s.pool.heap[i]? = some m → Req.Step s.req (.call m.ident (.msg i mk)) q →
      Step s (.fulfill i) { s with req := q, reading := s.reading.erase (i, mk) }
  /-- message/syncPool.go:28-30 -/
  | getNew (s : State) :
      Step s .getNew { s with pool := s.pool.getNew.1, reading := (s.pool.getNew.2, .fresh) :: s.reading }
  /-- message/syncPool.go:28-30 -/
  | getFree (s : State) (i : Nat) : i ∈ s.pool.free →
      Step s (.getFree i) { s with pool := s.pool.getFree i, reading := (i, .fresh) :: s.reading }
  /-- message/syncPool.go:13 -/
  | gc (s : State) (i : Nat) : i ∈ s.pool.free → Step s (.gc i) { s with pool := s.pool.dropFree i }
  /-- message/read.go:9-22, as called by the memchan socket (transport/memchan/socket.go:236) -/
  | read (s : State) (i : Nat) (mk : Mark) (bs : Bytes) (p : Pool) (tp : Bool) (e : Option Err) :
      (i, mk) ∈ s.reading → s.pool.readBytes i bs = .ok (p, tp, e) →
      Step s (.read i bs) { s with pool := p, reading := (i, mk.read bs tp e) :: s.reading.erase (i, mk) }
  /-- message/message.go:299-314 -/
  | close (s : State) (i : Nat) (mk : Mark) : (i, mk) ∈ s.reading →
      Step s (.close i) { s with pool := s.pool.close i, reading := s.reading.erase (i, mk) }
  /-- requestManager/reply.go:29-31 -/
  | closeReply (s : State) (r i : Nat) (mk : Mark) : (r, i, mk) ∈ s.replies →
      Step s (.closeReply r i) { s with
        pool := replyClose s.pool i, replies := s.replies.erase (r, i, mk), closed := (r, i) :: s.closed }
  /-- requestManager/reply.go:29-31, for a reply that was closed before -/
  | closeAgain (s : State) (r i : Nat) : (r, i) ∈ s.closed →
      Step s (.closeAgain r i) { s with pool := replyClose s.pool i }

/-- The states after any finite execution in which every step satisfies `ok`, for messages of the given size. Starts with
what requestManager.go:21-27 and message/syncPool.go:12-25 make. -/
inductive ReachableIf (size : Nat) (ok : State → Label → Prop) : State → Prop
  | start : ReachableIf size ok { pool := newSyncPool size }
  | step (s : State) (l : Label) (s' : State) : ReachableIf size ok s → ok s l → Step s l s' →
      ReachableIf size ok s'

/-- The states after any finite execution. Starts as `ReachableIf` does, requestManager.go:21-27. -/
def Reachable (size : Nat) : State → Prop := ReachableIf size fun _ _ => True

end Webwire.Replies
