import Verif.Model.Lifecycle

/-!
# `Run`

Models `server.go` `Run` with `Serve` and the beginning of `Shutdown` of the in-memory transport
(`transport/memchan/transport.go`), together with everything that goes on in the server (`Model/Lifecycle`).
-/

set_option autoImplicit false

namespace Webwire.Running
open Life

/-- Where a goroutine that called `Run` is. server.go:47-49, transport/memchan/transport.go:59-65. -/
inductive RunPC
  /-- transport/memchan/transport.go:60 -/
  | calling
  /-- transport/memchan/transport.go:63 -/
  | serving
  deriving DecidableEq, Repr

/-- The server with its transport. `up`: the status of the transport is `serverActive`, and its channel `shutdown` is not
closed (transport/memchan/transport.go:30-31). `ended` is not in the code: how each call of `Run` ended, with nil or not, and
what had happened in the server by then. -/
structure State where
  life : Life.State := {}
  up : Bool := true
  runs : List RunPC := []
  ended : List (Bool × List LEv) := []

/-- Who makes a step. server.go:47-49 or what `Life.Label` says. -/
inductive Label
  | life (l : Life.Label)
  | run
  | go (pc : RunPC)

/-- The step is that of a `Shutdown` which calls `Shutdown` of the transport (server.go:39-44, 63, 70). -/
def stops : Life.Label → Bool
  | .thread .stoppingTransport _ => true
  | _ => false

/-- One step of a goroutine in `Run`: what becomes of it, or how it ends. `none`: it has to wait.
transport/memchan/transport.go:59-65 `Serve`. -/
def serve (up : Bool) : RunPC → Option (RunPC ⊕ Bool)
  | .calling => if up then some (.inl .serving) else some (.inr false)
  | .serving => if up then none else some (.inr true)

/-- One step. Simplified: the atomic change of the status and the closing of the channel (transport/memchan/transport.go:69-70)
are one step; what `Shutdown` of the transport does after that is the subject of `Model/Memchan`. server.go:47-71. -/
inductive Step : State → Label → State → Prop
  | life (s : State) (l : Life.Label) (x : Life.State) : Life.Step s.life l x →
      Step s (.life l) { s with life := x, up := s.up && !stops l }
  | run (s : State) : s.life.g.crashed = none → Step s .run { s with runs := .calling :: s.runs }
  | goOn (s : State) (pc pc' : RunPC) : s.life.g.crashed = none → pc ∈ s.runs → serve s.up pc = some (.inl pc') →
      Step s (.go pc) { s with runs := pc' :: s.runs.erase pc }
  | return (s : State) (pc : RunPC) (ok : Bool) : s.life.g.crashed = none → pc ∈ s.runs →
      serve s.up pc = some (.inr ok) →
      Step s (.go pc) { s with runs := s.runs.erase pc, ended := s.ended ++ [(ok, s.life.g.log)] }

/-- The states after any finite execution in which every step of the server satisfies `ok`. Starts with what newServer.go:53-94
makes. -/
inductive ReachableIf (ok : Life.State → Life.Label → Prop) : State → Prop
  | start : ReachableIf ok {}
  | step (s : State) (l : Label) (s' : State) : ReachableIf ok s → (∀ x, l = .life x → ok s.life x) → Step s l s' →
      ReachableIf ok s'

/-- The states after any finite execution. Starts with what newServer.go:53-94 makes. -/
def Reachable : State → Prop := ReachableIf fun _ _ => True

end Webwire.Running
