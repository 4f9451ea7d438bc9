import Verif.Go

/-!
# The weighted semaphore

Models `vendor/golang.org/x/sync/semaphore/semaphore.go`, one operation per critical section. Weights are integers
(`int64` in Go; overflow is not modelled). Calls of `Acquire` and `TryAcquire` are identified by a number.
-/

set_option autoImplicit false

namespace Webwire.Sem

/-- semaphore.go:32-37 `Weighted`; a waiter (semaphore.go:18-21) is the call and its weight. -/
structure Weighted where
  size : Int
  cur : Int := 0
  waiters : List (Nat × Int) := []
  deriving DecidableEq, Repr

/-- Critical sections: `Acquire` up to the select, `TryAcquire`, `Acquire` after its context was done, `Release`.
semaphore.go:44-131. -/
inductive Op
  | acquire (id : Nat) (n : Int)
  | tryAcquire (id : Nat) (n : Int)
  | cancel (id : Nat)
  | release (n : Int)
  deriving DecidableEq, Repr

/-- What becomes of the calls, in order; `granted` is the moment from which `Acquire` returns nil. Not in the code: a
record of what semaphore.go:44-131 does. -/
inductive Ev
  | called (id : Nat) (n : Int)
  | granted (id : Nat) (n : Int)
  | failed (id : Nat)
  | released (n : Int)
  deriving DecidableEq, Repr

/-- semaphore.go:104-129: the loop of `Release`. Returns the new weight, the remaining waiters and the woken ones. -/
def wake (size cur : Int) : List (Nat × Int) → Int × List (Nat × Int) × List (Nat × Int)
  | [] => (cur, [], [])
  | w :: ws =>
    if size - cur < w.2 then (cur, w :: ws, [])
    else
      let r := wake size (cur + w.2) ws
      (r.1, r.2.1, w :: r.2.2)

/-- The semaphore together with what happened. semaphore.go:32-37. -/
structure S where
  sem : Weighted
  log : List Ev := []
  deriving DecidableEq, Repr

/-- semaphore.go:44-62 (`Acquire`, first part; a weight above the size waits for its context only and then fails),
64-81 (`Acquire`, when the context is done: nothing changes if it was granted meanwhile), 86-94 (`TryAcquire`),
97-131 (`Release`). -/
def step (s : S) : Op → Except Stop S
  | .acquire id n =>
    if s.sem.size - s.sem.cur ≥ n ∧ s.sem.waiters.length = 0 then
      .ok ⟨{ s.sem with cur := s.sem.cur + n }, s.log ++ [.called id n, .granted id n]⟩
    else if n > s.sem.size then .ok ⟨s.sem, s.log ++ [.called id n]⟩
    else .ok ⟨{ s.sem with waiters := s.sem.waiters ++ [(id, n)] }, s.log ++ [.called id n]⟩
  | .tryAcquire id n =>
    if s.sem.size - s.sem.cur ≥ n ∧ s.sem.waiters.length = 0 then
      .ok ⟨{ s.sem with cur := s.sem.cur + n }, s.log ++ [.called id n, .granted id n]⟩
    else .ok ⟨s.sem, s.log ++ [.called id n, .failed id]⟩
  | .cancel id =>
    if s.sem.waiters.any fun w => w.1 = id then
      .ok ⟨{ s.sem with waiters := s.sem.waiters.eraseP fun w => w.1 = id }, s.log ++ [.failed id]⟩
    else .ok s
  | .release n =>
    if s.sem.cur - n < 0 then goPanic "semaphore: bad release"
    else
      let r := wake s.sem.size (s.sem.cur - n) s.sem.waiters
      .ok ⟨{ s.sem with cur := r.1, waiters := r.2.1 },
        s.log ++ (.released n :: r.2.2.map fun w => .granted w.1 w.2)⟩

/-- A history of operations. Calls of semaphore.go:44, 86, 97. -/
def run (s : S) : List Op → Except Stop S
  | [] => .ok s
  | op :: ops => do run (← step s op) ops

/-- semaphore.go:25-28 `NewWeighted`. -/
def new (n : Int) : S := ⟨{ size := n }, []⟩

end Webwire.Sem
