import Verif.Go
import Mathlib.Data.Set.Card

/-!
# The request manager

Models `requestManager/requestManager.go` and `requestManager/request.go`: one atomic step per critical section,
atomic operation or channel operation; any number of goroutines calling `Create`, `Fulfill`, `Fail` and
`AwaitReply` at any time. A reply (`genericReply`: a message or an error) is a value of an arbitrary type `R`.
Calls of `Fulfill` and `Fail`, which do the same but for what they send, are numbered.
-/

set_option autoImplicit false

namespace Webwire.Req

/-- encoding/binary `LittleEndian.PutUint64` (requestManager.go:36-37). -/
def le64 (v : UInt64) : Bytes :=
  [v.toUInt8, (v >>> 8).toUInt8, (v >>> 16).toUInt8, (v >>> 24).toUInt8, (v >>> 32).toUInt8, (v >>> 40).toUInt8,
    (v >>> 48).toUInt8, (v >>> 56).toUInt8]

/-- request.go:21-31 `Request`: its identifier and the content of its channel `Reply` of capacity 1. -/
structure Request (R : Type) where
  ident : Bytes
  chan : Option R := none

/-- What happened, in order. Not in the code: a record of what requestManager.go and request.go do. -/
inductive Ev (R : Type)
  /-- `Create` drew an identifier -/
  | drew (id : UInt64)
  /-- `Create` registered the request (requests are numbered in this order) -/
  | created (r : Nat)
  /-- `Fulfill` or `Fail` was called -/
  | called (call : Nat) (ident : Bytes) (rep : R)
  /-- ... delivered to the request ... -/
  | delivered (call r : Nat)
  /-- ... and returned -/
  | returned (call : Nat) (ok : Bool)
  /-- `AwaitReply` returned what was sent -/
  | got (r : Nat) (rep : R)
  /-- `AwaitReply` returned because of its context -/
  | gaveUp (r : Nat)

/-- requestManager.go:12-18 `RequestManager`, the requests ever registered, and what happened. -/
structure G (R : Type) where
  lastID : UInt64 := 0
  pending : Bytes → Option Nat := fun _ => none
  reqs : List (Request R) := []
  log : List (Ev R) := []

/-- Where a goroutine is. requestManager.go:32-101, request.go:37-50. -/
inductive PC (R : Type)
  /-- requestManager.go:46 -/
  | creating (id : UInt64)
  /-- requestManager.go:66, 88 -/
  | looking (call : Nat) (ident : Bytes) (rep : R)
  /-- requestManager.go:74, 96 -/
  | removing (call r : Nat) (ident : Bytes) (rep : R)
  /-- requestManager.go:75, 97 -/
  | sending (call r : Nat) (rep : R)
  /-- request.go:39 -/
  | awaiting (r : Nat)
  /-- request.go:41 -/
  | forgetting (r : Nat)

variable {R : Type}

/-- Record events. Not in the code; where it happens is cited with `act`, requestManager.go:32-101. -/
def G.ev (g : G R) (es : List (Ev R)) : G R := { g with log := g.log ++ es }

/-- requestManager.go:55-59 `deregister`. -/
def G.deregister (g : G R) (ident : Bytes) : G R :=
  { g with pending := fun k => if k = ident then none else g.pending k }

/-- requestManager.go:113-118 `IsPending`. -/
def isPending (g : G R) (ident : Bytes) : Bool := (g.pending ident).isSome

/-- requestManager.go:104-109 `PendingRequests`: how many keys the map has. -/
noncomputable def pendingRequests (g : G R) : Nat := Set.ncard {k | isPending g k = true}

/-- One step of a goroutine: the state afterwards and what becomes of the goroutine. `ctxDone` is the environment's
choice between the ready cases of the select statement (request.go:39-50). `none`: it has to wait. -/
def act (g : G R) (ctxDone : Bool) : PC R → Option (G R × List (PC R))
  -- requestManager.go:38-50
  | .creating id =>
    some (({ g with
      reqs := g.reqs ++ [{ ident := le64 id }],
      pending := fun k => if k = le64 id then some g.reqs.length else g.pending k } : G R).ev
        [.created g.reqs.length], [])
  -- requestManager.go:66-72, 88-94
  | .looking call ident rep =>
    match g.pending ident with
    | none => some (g.ev [.returned call false], [])
    | some r => some (g, [.removing call r ident rep])
  | .removing call r ident rep => some (g.deregister ident, [.sending call r rep])
  -- requestManager.go:75-78, 97-100
  | .sending call r rep =>
    match g.reqs[r]? with
    | none => none
    | some q =>
      match q.chan with
      | some _ => none
      | none => some (({ g with reqs := g.reqs.set r { q with chan := some rep } } : G R).ev
          [.delivered call r, .returned call true], [])
  -- request.go:39-50
  | .awaiting r =>
    if ctxDone then some (g, [.forgetting r])
    else
      match g.reqs[r]? with
      | none => none
      | some q =>
        match q.chan with
        | none => none
        | some rep => some (({ g with reqs := g.reqs.set r { q with chan := none } } : G R).ev [.got r rep], [])
  -- request.go:41-42
  | .forgetting r =>
    match g.reqs[r]? with
    | none => none
    | some q => some ((g.deregister q.ident).ev [.gaveUp r], [])

/-- The request manager and the goroutines using it. Goroutines of user code, which call requestManager.go:32, 65, 84
and request.go:37. -/
structure State (R : Type) where
  g : G R := {}
  threads : List (PC R) := []

/-- Who makes a step: some goroutine goes on, or calls `Create` (up to and including the atomic increment,
requestManager.go:34), `Fulfill`/`Fail`, or `AwaitReply` of a registered request. -/
inductive Label (R : Type)
  | thread (pc : PC R) (ctxDone : Bool)
  | create
  | call (ident : Bytes) (rep : R)
  | await (r : Nat)

/-- How often `Fulfill` or `Fail` was called. Not in the code: counts calls of requestManager.go:65, 84. -/
def G.calls (g : G R) : Nat := g.log.countP fun | .called .. => true | _ => false

/-- One step. Interleaving of goroutines that call requestManager.go:32, 65, 84 and request.go:37. -/
inductive Step : State R → Label R → State R → Prop
  | thread (g g' : G R) (pre post pcs : List (PC R)) (pc : PC R) (ctxDone : Bool) :
      act g ctxDone pc = some (g', pcs) →
      Step ⟨g, pre ++ pc :: post⟩ (.thread pc ctxDone) ⟨g', pre ++ (pcs ++ post)⟩
  | create (g : G R) (ts : List (PC R)) :
      Step ⟨g, ts⟩ .create
        ⟨({ g with lastID := g.lastID + 1 } : G R).ev [.drew (g.lastID + 1)], .creating (g.lastID + 1) :: ts⟩
  | call (g : G R) (ts : List (PC R)) (ident : Bytes) (rep : R) :
      Step ⟨g, ts⟩ (.call ident rep) ⟨g.ev [.called g.calls ident rep], .looking g.calls ident rep :: ts⟩
  | await (g : G R) (ts : List (PC R)) (r : Nat) : r < g.reqs.length →
      Step ⟨g, ts⟩ (.await r) ⟨g, .awaiting r :: ts⟩

/-- The states after any finite execution in which every step satisfies `ok`. Starts with a manager as
requestManager.go:21-27 makes it. -/
inductive ReachableIf (ok : State R → Label R → Prop) : State R → Prop
  | start : ReachableIf ok {}
  | step (s : State R) (l : Label R) (s' : State R) : ReachableIf ok s → ok s l → Step s l s' → ReachableIf ok s'

/-- The states after any finite execution. Starts with a manager as requestManager.go:21-27 makes it. -/
def Reachable : State R → Prop := ReachableIf fun _ _ => True

/-- Errors of contexts. translateContextError.go tells them apart. -/
inductive CtxErr
  | deadlineExceeded | canceled | other (text : String)
  deriving DecidableEq, Repr

/-- The errors `AwaitReply` returns because of its context (errors.go). -/
inductive AwaitErr
  | deadlineExceeded (cause : CtxErr)
  | canceled (cause : CtxErr)
  | unexpected (text : String)
  deriving DecidableEq, Repr

/-- translateContextError.go:9-16 `TranslateContextError`. -/
def translateContextError (e : CtxErr) (text : CtxErr → String) : AwaitErr :=
  if e = .deadlineExceeded then .deadlineExceeded e
  else if e = .canceled then .canceled e
  else .unexpected ("unexpected context error: " ++ text e)

/-- errors.go:169-177 `IsErrTimeout`, for the errors `AwaitReply` returns because of its context. -/
def isErrTimeout : AwaitErr → Bool
  | .deadlineExceeded _ => true
  | _ => false

/-- errors.go:181-187 `IsErrCanceled`. -/
def isErrCanceled : AwaitErr → Bool
  | .canceled _ => true
  | _ => false

end Webwire.Req
