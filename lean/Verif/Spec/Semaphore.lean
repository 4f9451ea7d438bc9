import Verif.Model.Semaphore

/-!
# What is acquired, released, and in which order
-/

set_option autoImplicit false

namespace Webwire.Sem

/-- Weight acquired so far. -/
def acquired : List Ev → Int
  | [] => 0
  | .granted _ n :: l => n + acquired l
  | _ :: l => acquired l

/-- Weight released so far. -/
def released : List Ev → Int
  | [] => 0
  | .released n :: l => n + released l
  | _ :: l => released l

/-- The calls in order. -/
def calls (l : List Ev) : List Nat := l.filterMap fun | .called id _ => some id | _ => none

/-- The successful calls in the order of success. -/
def grants (l : List Ev) : List Nat := l.filterMap fun | .granted id _ => some id | _ => none

/-- The calls and their weights in order. -/
def weights (l : List Ev) : List (Nat × Int) := l.filterMap fun | .called id n => some (id, n) | _ => none

/-- The call succeeded or failed. -/
def ended (l : List Ev) (id : Nat) : Bool :=
  l.any fun | .granted i _ => i == id | .failed i => i == id | _ => false

/-- The calls that neither succeeded nor failed, except those whose weight exceeds the size, in the order they were made. -/
def waiting (size : Int) (l : List Ev) : List (Nat × Int) :=
  (weights l).filter fun w => w.2 ≤ size && !ended l w.1

/-- The calls of `Acquire` and `TryAcquire` in a history. -/
def ids (ops : List Op) : List Nat :=
  ops.filterMap fun | .acquire id _ | .tryAcquire id _ => some id | _ => none

/-- The first waiter does not fit, i.e. nobody waits without need. -/
def NoneFits (s : S) : Prop := ∀ w ∈ s.sem.waiters.head?, s.sem.size - s.sem.cur < w.2

end Webwire.Sem
