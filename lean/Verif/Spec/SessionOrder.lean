import Verif.Spec.SessionRaces

/-!
# Session operations, one after the other

What a user thinks the session operations do: a table of the connections that have a session, and operations that read and
change it at once. Nothing here refers to registries, locks or goroutines, except `effect`, which says at which step of an
execution an operation takes effect, and what it answered there.
-/

set_option autoImplicit false

namespace Webwire.Races

namespace Atomic

/-- The connections that have a session. -/
abbrev Table := List (ConnId × Bytes)

/-- The session of a connection. -/
def of (t : Table) (c : ConnId) : Option Bytes := (t.find? fun e => e.1 = c).map Prod.snd

/-- How many connections have the session. -/
def on (t : Table) (k : Bytes) : Nat := t.countP fun e => e.2 = k

/-- The table without the connection. -/
def drop (t : Table) (c : ConnId) : Table := t.filter fun e => e.1 ≠ c

inductive Op
  /-- a session restoration request -/
  | restore (c : ConnId) (k : Bytes)
  /-- `CreateSession`, which made up the key `k` -/
  | create (c : ConnId) (k : Bytes)
  /-- a session closure request or `CloseSession` -/
  | close (c : ConnId)
  /-- the connection ends -/
  | leave (c : ConnId)
  deriving DecidableEq, Repr

inductive Ans
  | done
  | refused
  /-- done, and the session is destroyed -/
  | destroys (k : Bytes)
  deriving DecidableEq, Repr

/-- One operation, with a limit of `n` connections per session (none if zero). -/
def perform (n : Nat) (t : Table) : Op → Table × Ans
  | .restore c k => if 0 < n ∧ n ≤ on t k then (t, .refused) else ((c, k) :: drop t c, .done)
  | .create c k => if of t c = none then ((c, k) :: t, .done) else (t, .refused)
  | .close c =>
    match of t c with
    | none => (t, .done)
    | some k => (drop t c, if on t k = 1 then .destroys k else .done)
  | .leave c => (drop t c, .done)

/-- The operations, executed one after the other, give these answers and this table. -/
inductive Run (n : Nat) : List (Op × Ans) → Table → Prop
  | nil : Run n [] []
  | step (H : List (Op × Ans)) (t : Table) (op : Op) : Run n H t → Run n (H ++ [(op, (perform n t op).2)]) (perform n t op).1

end Atomic

open Atomic

/-- The operation that takes effect in a step, and its answer: a restoration when it is refused or when the connection is
registered; `CreateSession` when it is refused because of another session or when the connection is registered; closing and
ending when the connection is removed from the registry. The session is destroyed if `OnSessionClosed` is what comes next. -/
def effect (s : State) : Label → List (Op × Ans)
  | .call _ => []
  | .thread pc ch =>
    match pc, act s.g ch pc with
    | .r1 c k, some (_, []) => [(.restore c k, .refused)]
    | .r4 c k, some _ => [(.restore c k, .done)]
    | .n2 c k, some _ => [(.create c k, .refused)]
    | .n4 c k, some _ => [(.create c k, .done)]
    | .d2 c κ, some (_, next) =>
      [(if κ = .unlink then .leave c else .close c,
        if next = [.d3 c κ] then .destroys ((s.g.session c).getD []) else .done)]
    | _, _ => []

/-- The states after any finite execution in which every step satisfies `ok`, with the operations that took effect so far,
in this order. -/
inductive Hist (ok : State → Label → Prop) (n : Nat) : State → List (Op × Ans) → Prop
  | start : Hist ok n (init n) []
  | step (s : State) (H : List (Op × Ans)) (l : Label) (s' : State) : Hist ok n s H → ok s l → Step s l s' →
      Hist ok n s' (H ++ effect s l)

/-- What the clients and the users of the API were told about restorations and new sessions, in this order. -/
def told (log : List Ev) : List (Op × Ans) :=
  log.filterMap fun
    | .restoreEnd c k .restored => some (.restore c k, .done)
    | .restoreEnd c k .maxConns => some (.restore c k, .refused)
    | .registered c k => some (.create c k, .done)
    | _ => none

/-- The keys of the destroyed sessions, in order. -/
def destroyedKeys (l : List Ev) : List Bytes := l.filterMap fun
  | .destroyed k => some k
  | _ => none

/-- Restorations, and the sessions created. -/
def tells : Op × Ans → Bool
  | (.restore .., _) | (.create .., .done) => true
  | _ => false

/-- Is about to call `OnSessionClosed` for the session. -/
def PC.announces (g : G) (k : Bytes) : PC → Bool
  | .d3 c _ => decide (g.session c = some k)
  | _ => false

/-- Make the steps, each of which has to pass the check, and collect what takes effect. -/
def playHist (ok : State → Label → Bool) (s : State) (H : List (Op × Ans)) : List Cmd → Option (State × List (Op × Ans))
  | [] => some (s, H)
  | cmd :: cmds =>
    if s.g.crashed.isSome then none
    else
      match cmd.label s, exec s cmd with
      | some l, some s' => if legal s l && ok s l then playHist ok s' (H ++ effect s l) cmds else none
      | _, _ => none

theorem playHist_hist {n : Nat} {ok : State → Label → Prop} {okb : State → Label → Bool}
    (hok : ∀ s l, okb s l = true → ok s l) (cmds : List Cmd) {s s' : State} {H H' : List (Op × Ans)}
    (hr : Hist ok n s H) (h : playHist okb s H cmds = some (s', H')) : Hist ok n s' H' := by
  induction cmds generalizing s H with
  | nil => cases h; exact hr
  | cons cmd cmds ih =>
    simp only [playHist] at h
    split at h
    · cases h
    · rename_i hc
      split at h
      · rename_i l s1 hl he
        split at h
        · rename_i hb
          rw [Bool.and_eq_true] at hb
          exact ih (.step s H l s1 hr (hok s l hb.2) (exec_step (by simpa using hc) hl hb.1 he)) h
        · cases h
      · cases h

end Webwire.Races
