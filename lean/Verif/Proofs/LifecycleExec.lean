import Verif.Spec.Lifecycle

/-!
# Playing concrete executions of the server's goroutines

For examples and counterexamples only.
-/

set_option autoImplicit false

namespace Webwire.Life

/-- What to do next: a step of the i-th goroutine, or of the environment. -/
inductive Cmd
  | go (i : Nat) (ch : Choice := {})
  | connect (c : ConnId) (limit : Int)
  | close (c : ConnId)
  | shutdown

/-- The label of the step. -/
def Cmd.label (s : State) : Cmd → Option Label
  | .go i ch => s.threads[i]?.map fun pc => .thread pc ch
  | .connect c l => some (.connect c l)
  | .close c => some (.close c)
  | .shutdown => some .shutdown

/-- Make the step if possible. -/
def exec (s : State) (cmd : Cmd) : Option State :=
  if s.g.crashed.isSome then none else
  match cmd with
  | .go i ch =>
    match s.threads[i]? with
    | none => none
    | some pc =>
      match act s.g ch pc with
      | none => none
      | some (g', pcs) => some ⟨g', s.threads.take i ++ (pcs ++ s.threads.drop (i + 1))⟩
  | .connect c l =>
    if (s.g.conns c).used then none
    else some ⟨connected s.g c l, .reading c :: s.threads⟩
  | .close c => if (s.g.conns c).used then some ⟨s.g, .closing c false :: s.threads⟩ else none
  | .shutdown => some ⟨s.g, .stopping :: s.threads⟩

/-- Make the steps, each of which has to pass the check. -/
def play (ok : State → Label → Bool) (s : State) : List Cmd → Option State
  | [] => some s
  | cmd :: cmds =>
    match cmd.label s, exec s cmd with
    | some l, some s' => if ok s l then play ok s' cmds else none
    | _, _ => none

theorem exec_step {s s' : State} {cmd : Cmd} {l : Label} (hl : cmd.label s = some l) (h : exec s cmd = some s') :
    Step s l s' := by
  obtain ⟨g, ts⟩ := s
  unfold exec at h
  split at h
  · cases h
  · rename_i hc
    have hc : g.crashed = none := by simpa using hc
    cases cmd with
    | go i ch =>
      simp only [Cmd.label] at hl h
      cases hi : ts[i]? with
      | none => simp [hi] at hl
      | some pc =>
        simp only [hi, Option.map_some, Option.some.injEq] at hl h
        subst hl
        split at h
        · cases h
        · rename_i g' pcs ha
          cases h
          have hts : ts = ts.take i ++ pc :: ts.drop (i + 1) := by
            obtain ⟨hlt, hpc⟩ := List.getElem?_eq_some_iff.mp hi
            rw [← hpc, ← List.drop_eq_getElem_cons hlt, List.take_append_drop]
          have := Step.thread g g' (ts.take i) (ts.drop (i + 1)) pcs pc ch hc ha
          rw [← hts] at this
          exact this
    | connect c lim =>
      simp only [Cmd.label, Option.some.injEq] at hl h
      subst hl
      split at h
      · cases h
      · rename_i hu
        cases h
        exact Step.connect g ts c lim hc (by simpa using hu)
    | close c =>
      simp only [Cmd.label, Option.some.injEq] at hl h
      subst hl
      split at h
      · rename_i hu
        cases h
        exact Step.close g ts c hc hu
      · cases h
    | shutdown =>
      simp only [Cmd.label, Option.some.injEq] at hl h
      subst hl
      cases h
      exact Step.shutdown g ts hc

theorem play_reachable {ok : State → Label → Bool} {P : State → Label → Prop} (hP : ∀ s l, ok s l = true → P s l)
    (cmds : List Cmd) (s s' : State) (hr : ReachableIf P s) (h : play ok s cmds = some s') : ReachableIf P s' := by
  induction cmds generalizing s with
  | nil => cases h; exact hr
  | cons cmd cmds ih =>
    unfold play at h
    split at h
    · rename_i l s1 hl he
      split at h
      · rename_i hok
        exact ih s1 (.step _ _ _ hr (hP _ _ hok) (exec_step hl he)) h
      · cases h
    · cases h

/-- Any execution. -/
def anyStep (_ : State) (_ : Label) : Bool := true

theorem play_any {cmds : List Cmd} {s : State} (h : play anyStep {} cmds = some s) : Reachable s :=
  play_reachable (fun _ _ _ => trivial) cmds {} s .start h

/-- Checks `Spec.NoLateSignal`, `Spec.FewGoroutines`, `Spec.NoCloseRace` and `Spec.WritersOk`. -/
def goodStep (s : State) (l : Label) : Bool :=
  decide (s.threads.length < 100) &&
  match l with
  | .thread (.counting _ m) ch => (!s.g.shutdown || m.requiresReply) && ch.writerOk
  | .thread (.closing c _) ch =>
    (!(s.g.conns c).active || s.threads.all fun
      | .acquiring c' _ | .counting c' _ | .tasking c' _ => decide (c' ≠ c)
      | _ => true) && ch.writerOk
  | .thread _ ch => ch.writerOk
  | _ => true

theorem goodStep_noLate {s : State} {l : Label} (h : goodStep s l = true) : Spec.NoLateSignal s l := by
  rintro c m ch rfl hs
  simp [goodStep, hs] at h
  exact h.2.1

theorem goodStep_few {s : State} {l : Label} (h : goodStep s l = true) : Spec.FewGoroutines s l := by
  simp only [goodStep, Bool.and_eq_true, decide_eq_true_eq] at h
  have := h.1
  simp only [Spec.FewGoroutines]
  omega

theorem goodStep_noRace {s : State} {l : Label} (h : goodStep s l = true) : Spec.NoCloseRace s l := by
  rintro c rd ch rfl hs m
  simp only [goodStep, hs, Bool.not_true, Bool.false_or, Bool.and_eq_true, List.all_eq_true] at h
  refine ⟨?_, ?_, ?_⟩ <;> intro hm <;> have := h.2.1 _ hm <;> simp at this

theorem goodStep_writers {s : State} {l : Label} (h : goodStep s l = true) : Spec.WritersOk s l := by
  rintro pc ch rfl
  cases pc <;> simp [goodStep] at h <;> grind

end Webwire.Life
