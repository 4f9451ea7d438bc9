import Verif.Model.RequestManager

/-!
# Request manager: what happened
-/

set_option autoImplicit false

namespace Webwire.Req

variable {R : Type}

/-- The identifiers drawn, in order. -/
def draws (log : List (Ev R)) : List UInt64 := log.filterMap fun | .drew id => some id | _ => none

/-- How often something was delivered to the request. -/
def deliveries (r : Nat) (log : List (Ev R)) : Nat :=
  log.countP fun | .delivered _ r' => decide (r' = r) | _ => false

/-- The event ends the request: something is delivered, or nobody waits any more. -/
def Ev.closes (r : Nat) : Ev R → Bool
  | .delivered _ r' | .gaveUp r' => decide (r' = r)
  | _ => false

/-- The goroutine is inside `Fulfill` or `Fail`. -/
def PC.resolves : PC R → Bool
  | .looking .. | .removing .. | .sending .. => true
  | _ => false

/-- Calls of `Fulfill` and `Fail` for the same identifier do not overlap: when one is made, the earlier ones have returned.
Calls for different identifiers may overlap. -/
def OneAtATime (s : State R) : Label R → Prop
  | .call k _ => ∀ c p, .called c k p ∈ s.g.log → ∃ b, .returned c b ∈ s.g.log
  | _ => True

/-! ## Playing concrete executions, for examples and counterexamples -/

/-- What to do next. -/
inductive Cmd (R : Type)
  | go (i : Nat) (ctxDone : Bool := false)
  | create
  | call (ident : Bytes) (rep : R)
  | await (r : Nat)

/-- The label of the step. -/
def Cmd.label (s : State R) : Cmd R → Option (Label R)
  | .go i b => s.threads[i]?.map fun pc => .thread pc b
  | .create => some .create
  | .call k p => some (.call k p)
  | .await r => some (.await r)

/-- Make the step if possible. -/
def exec (s : State R) : Cmd R → Option (State R)
  | .go i b =>
    match s.threads[i]? with
    | none => none
    | some pc =>
      match act s.g b pc with
      | none => none
      | some (g', pcs) => some ⟨g', s.threads.take i ++ (pcs ++ s.threads.drop (i + 1))⟩
  | .create => some ⟨({ s.g with lastID := s.g.lastID + 1 } : G R).ev [.drew (s.g.lastID + 1)],
      .creating (s.g.lastID + 1) :: s.threads⟩
  | .call k p => some ⟨s.g.ev [.called s.g.calls k p], .looking s.g.calls k p :: s.threads⟩
  | .await r => if r < s.g.reqs.length then some ⟨s.g, .awaiting r :: s.threads⟩ else none

/-- Make the steps, each of which has to pass the check. -/
def play (ok : State R → Label R → Bool) (s : State R) : List (Cmd R) → Option (State R)
  | [] => some s
  | cmd :: cmds =>
    match cmd.label s, exec s cmd with
    | some l, some s' => if ok s l then play ok s' cmds else none
    | _, _ => none

theorem exec_step {s s' : State R} {cmd : Cmd R} {l : Label R} (hl : cmd.label s = some l)
    (h : exec s cmd = some s') : Step s l s' := by
  obtain ⟨g, ts⟩ := s
  cases cmd with
  | go i b =>
    simp only [Cmd.label, exec] at hl h
    cases hi : ts[i]? with
    | none => simp [hi] at hl
    | some pc =>
      simp only [hi, Option.map_some, Option.some.injEq] at hl h
      subst hl
      split at h
      · cases h
      · rename_i g' pcs ha
        cases h
        have hts : ts = ts.take i ++ pc :: ts.drop (i + 1) := by
          obtain ⟨hlt, hpc⟩ := List.getElem?_eq_some_iff.mp hi
          rw [← hpc, ← List.drop_eq_getElem_cons hlt, List.take_append_drop]
        have := Step.thread g g' (ts.take i) (ts.drop (i + 1)) pcs pc b ha
        rw [← hts] at this
        exact this
  | create =>
    simp only [Cmd.label, exec, Option.some.injEq] at hl h
    subst hl; subst h; exact .create g ts
  | call k p =>
    simp only [Cmd.label, exec, Option.some.injEq] at hl h
    subst hl; subst h; exact .call g ts k p
  | await r =>
    simp only [Cmd.label, exec, Option.some.injEq] at hl h
    split at h
    · rename_i hr; subst hl; cases h; exact .await g ts r hr
    · cases h

theorem play_reachable {ok : State R → Label R → Prop} {okb : State R → Label R → Bool}
    (hok : ∀ s l, okb s l = true → ok s l) (cmds : List (Cmd R)) {s s' : State R} (hr : ReachableIf ok s)
    (h : play okb s cmds = some s') : ReachableIf ok s' := by
  induction cmds generalizing s with
  | nil => cases h; exact hr
  | cons cmd cmds ih =>
    simp only [play] at h
    split at h
    · rename_i l s1 hl he
      split at h
      · rename_i hb
        exact ih (.step s l s1 hr (hok s l hb) (exec_step hl he)) h
      · cases h
    · cases h

/-- `OneAtATime`, computed. -/
def oneAtATime (s : State R) : Label R → Bool
  | .call k _ => s.g.log.all fun
    | .called c k' _ => decide (k' ≠ k) || s.g.log.any fun | .returned c' _ => decide (c' = c) | _ => false
    | _ => true
  | _ => true

theorem oneAtATime_ok (s : State R) (l : Label R) (h : oneAtATime s l = true) : OneAtATime s l := by
  cases l with
  | call k p =>
    intro c p' hc
    simp only [oneAtATime, List.all_eq_true] at h
    have := h _ hc
    simp only [ne_eq, not_true_eq_false, decide_false, Bool.false_or, List.any_eq_true] at this
    obtain ⟨e, he, hb⟩ := this
    cases e <;> simp at hb
    subst hb
    exact ⟨_, he⟩
  | _ => trivial

end Webwire.Req
