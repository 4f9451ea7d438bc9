import Verif.Model.Accept
import Verif.Proofs.LifecycleExec

/-!
# Playing concrete executions of accepting connections

For examples and counterexamples only.
-/

set_option autoImplicit false

namespace Webwire.Accept

/-- What to do next: a client dials, the i-th goroutine of `accepting` goes on, or a step of `Model/Lifecycle`. -/
inductive Cmd
  | dial (c : ConnId) (limit : Int)
  | go (i : Nat) (ok : Bool := true)
  | life (cmd : Life.Cmd)

/-- The connection the reader of which makes the step. -/
def readerOf : Life.Label → Option ConnId
  | .thread (.reading c) _ => some c
  | _ => none

/-- Not the step of a new connection. -/
def notConnect : Life.Label → Bool
  | .connect _ _ => false
  | _ => true

/-- Make the step if possible. -/
def exec (s : State) : Cmd → Option State
  | .dial c limit =>
    if s.life.g.crashed.isSome || decide (c ∈ s.dialed) then none
    else some { s with accepting := .asking c limit :: s.accepting, dialed := c :: s.dialed }
  | .go i ok =>
    if s.life.g.crashed.isSome then none else
    match s.accepting[i]? with
    | none => none
    | some pc =>
      let r := act s.life ok pc
      some { s with
        life := r.1
        accepting := s.accepting.take i ++ (r.2.1 ++ s.accepting.drop (i + 1))
        log := s.log ++ r.2.2 }
  | .life cmd =>
    match cmd.label s.life, Life.exec s.life cmd with
    | some l, some v =>
      if notConnect l && (readerOf l).all fun c => decide (APC.greeting c ∉ s.accepting ∧ APC.greeted c ∉ s.accepting) then
        some { s with life := v, log := s.log ++ news s.life v }
      else none
    | _, _ => none

/-- Make the steps. -/
def play (s : State) : List Cmd → Option State
  | [] => some s
  | cmd :: cmds => match exec s cmd with
    | some s' => play s' cmds
    | none => none

theorem exec_step {s s' : State} {cmd : Cmd} (h : exec s cmd = some s') : Step s s' := by
  cases cmd with
  | dial c limit =>
    simp only [exec] at h
    split at h
    · cases h
    · rename_i hc
      cases h
      simp only [Bool.or_eq_true, decide_eq_true_eq, not_or, Bool.not_eq_true, Option.isSome_eq_false_iff,
        Option.isNone_iff_eq_none] at hc
      exact .dial s c limit hc.1 hc.2
  | go i ok =>
    simp only [exec] at h
    split at h
    · cases h
    · rename_i hc
      split at h
      · cases h
      · rename_i pc hi
        cases h
        refine .go s _ _ _ pc ok _ _ (by simpa using hc) ?_ rfl
        obtain ⟨hlt, hpc⟩ := List.getElem?_eq_some_iff.mp hi
        rw [← hpc, ← List.drop_eq_getElem_cons hlt, List.take_append_drop]
  | life cmd =>
    simp only [exec] at h
    split at h
    · rename_i l v hl hv
      split at h
      · rename_i hk
        cases h
        simp only [Bool.and_eq_true] at hk
        refine .life s l v (Life.exec_step hl hv) ?_ ?_
        · rintro c limit rfl
          simp [notConnect] at hk
        · rintro c ch rfl
          have := hk.2
          simp only [readerOf, Option.all_some, decide_eq_true_eq] at this
          exact fun hh => hh.elim this.1 this.2
      · cases h
    · cases h

theorem play_reachable {cmds : List Cmd} {s s' : State} (hr : Reachable s) (h : play s cmds = some s') : Reachable s' := by
  induction cmds generalizing s with
  | nil => cases h; exact hr
  | cons cmd cmds ih =>
    simp only [play] at h
    split at h
    · rename_i s1 he
      exact ih (.step _ _ hr (exec_step he)) h
    · cases h

end Webwire.Accept
