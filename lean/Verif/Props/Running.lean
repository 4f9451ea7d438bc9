import Verif.Model.Running
import Verif.Props.Lifecycle

/-!
# Property C109: `Run` returns when the server was shut down gracefully
-/

set_option autoImplicit false

namespace Webwire.Running
open Life

/-! ## Playing concrete executions -/

/-- What to do next. -/
inductive Cmd
  | life (c : Life.Cmd)
  | run
  | go (pc : RunPC)

/-- Make the step if possible. -/
def exec (ok : Life.State → Life.Label → Bool) (s : State) : Cmd → Option State
  | .life c =>
    match c.label s.life, Life.exec s.life c with
    | some l, some x => if ok s.life l then some { s with life := x, up := s.up && !stops l } else none
    | _, _ => none
  | .run => if s.life.g.crashed = none then some { s with runs := .calling :: s.runs } else none
  | .go pc =>
    if s.life.g.crashed = none ∧ pc ∈ s.runs then
      match serve s.up pc with
      | none => none
      | some (.inl pc') => some { s with runs := pc' :: s.runs.erase pc }
      | some (.inr b) => some { s with runs := s.runs.erase pc, ended := s.ended ++ [(b, s.life.g.log)] }
    else none

/-- Make the steps. -/
def play (ok : Life.State → Life.Label → Bool) (s : State) : List Cmd → Option State
  | [] => some s
  | cmd :: cmds =>
    match exec ok s cmd with
    | some s' => play ok s' cmds
    | none => none

theorem play_reachable {ok : Life.State → Life.Label → Prop} {okb : Life.State → Life.Label → Bool}
    (hok : ∀ s l, okb s l = true → ok s l) (cmds : List Cmd) {s s' : State} (hr : ReachableIf ok s)
    (h : play okb s cmds = some s') : ReachableIf ok s' := by
  induction cmds generalizing s with
  | nil => cases h; exact hr
  | cons cmd cmds ih =>
    simp only [play] at h
    split at h
    · rename_i s1 he
      refine ih ?_ h
      cases cmd with
      | life c =>
        simp only [exec] at he
        split at he
        · rename_i l x hl hx
          split at he
          · rename_i hb
            cases he
            exact .step s (.life l) _ hr (by rintro _ ⟨⟩; exact hok _ _ hb) (.life s l x (Life.exec_step hl hx))
          · cases he
        · cases he
      | run =>
        simp only [exec] at he
        split at he
        · rename_i hc; cases he; exact .step s .run _ hr (by rintro _ ⟨⟩) (.run s hc)
        · cases he
      | go pc =>
        simp only [exec] at he
        split at he
        · rename_i hc
          split at he
          · cases he
          · rename_i pc' hs; cases he; exact .step s (.go pc) _ hr (by rintro _ ⟨⟩) (.goOn s pc pc' hc.1 hc.2 hs)
          · rename_i b hs; cases he; exact .step s (.go pc) _ hr (by rintro _ ⟨⟩) (.return s pc b hc.1 hc.2 hs)
        · cases he
    · cases h

/-! ## C109 -/

/-- C109: when a call of `Run` returns without an error, every handler that had started when `Shutdown` was called has
ended. -/
def C109_full : Prop :=
  ∀ s : State, Reachable s → ∀ log, (true, log) ∈ s.ended → ∀ l1 l2, log = l1 ++ .stop :: l2 → ∀ c m,
    l1.count (.start c m) ≤ log.count (.finish c m)

/-- **C109 is violated**: a signal that arrives during shutdown is counted wrongly, and `Run` returns while request 1 is
still being handled. -/
theorem C109_violated : ¬ C109_full := by
  intro hf
  have hrun : ∃ s, play anyStep {} ([.run, .go .calling] ++ exEarlyShutdown.map .life ++ [.go .serving]) = some s ∧
      s.ended = [(true, [.arrived 1 (exReq 1), .start 1 (exReq 1)] ++ .stop ::
        [.arrived 2 (exSig 2), .start 2 (exSig 2), .finish 2 (exSig 2), .transportDown])] := ⟨_, rfl, rfl⟩
  obtain ⟨s, hp, he⟩ := hrun
  have := hf s (play_reachable (fun _ _ _ => trivial) _ .start hp) _
    (by rw [he]; exact List.mem_singleton.mpr rfl) _ _ rfl 1 (exReq 1)
  simp [exReq, exSig, List.count_cons] at this

theorem ReachableIf.life {ok : Life.State → Life.Label → Prop} {s : State} (h : ReachableIf ok s) :
    Life.ReachableIf ok s.life := by
  induction h with
  | start => exact .start
  | step s l s' _ ho hs ih =>
    cases hs with
    | life l x hx => exact .step _ _ _ ih (ho l rfl) hx
    | _ => exact ih

/-- The transport is up exactly as long as no `Shutdown` has shut it down. -/
theorem ReachableIf.up {ok : Life.State → Life.Label → Prop} {s : State} (h : ReachableIf ok s) :
    s.up = true ↔ .transportDown ∉ s.life.g.log := by
  induction h with
  | start => simp
  | step s l s' _ _ hs ih =>
    cases hs with
    | life l x hx =>
      obtain ⟨sl, su, sr, se⟩ := s
      cases hx with
      | thread g g' pre post pcs pc ch _ hact =>
        have ha := acts_of_act hact
        cases ha <;> simp_all [stops, G.ev, G.upd, unlinked, G.crash]
      | connect g ts c limit _ _ => simpa [stops] using ih
      | close g ts c _ _ => simpa [stops] using ih
      | shutdown g ts _ => simpa [stops] using ih
    | _ => exact ih

/-- **C109, for all executions**: `Run` does not return before a `Shutdown` was called and went on to shut down the transport,
with an error or without. -/
theorem C109_not_before {s : State} (h : Reachable s) (b : Bool) (log : List LEv) (he : (b, log) ∈ s.ended) :
    .stop ∈ log ∧ .transportDown ∈ log := by
  have key : ∀ {x : Life.State}, Life.Reachable x → .transportDown ∈ x.g.log → .stop ∈ x.g.log := by
    intro x hx hd
    have hi : ∀ {x : Life.State}, Life.Reachable x →
        (.transportDown ∈ x.g.log ∨ PC.waiting ∈ x.threads ∨ PC.stoppingTransport ∈ x.threads) → .stop ∈ x.g.log := by
      intro x hx
      induction hx with
      | start => simp
      | step s l s' _ _ hs ih =>
        intro hd
        cases hs with
        | thread g g' pre post pcs pc ch _ hact =>
          simp only [List.mem_append, List.mem_cons] at ih hd
          have ha := acts_of_act hact
          cases ha <;> simp_all [G.ev, G.upd, unlinked, G.crash, resume, closed]
        | connect g ts c limit _ _ => exact ih (by simpa using hd)
        | close g ts c _ _ => exact ih (by simpa using hd)
        | shutdown g ts _ => exact ih (by simpa using hd)
    exact hi hx (.inl hd)
  induction h with
  | start => simp at he
  | step s l s' hr _ hs ih =>
    cases hs with
    | «return» pc ok hc hm hsv =>
      simp only [List.mem_append, List.mem_singleton, Prod.mk.injEq] at he
      rcases he with he | ⟨rfl, rfl⟩
      · exact ih he
      · have hu : s.up = false := by cases pc <;> cases hsu : s.up <;> simp_all [serve]
        have hd : .transportDown ∈ s.life.g.log := by
          by_contra hc
          rw [hr.up.mpr hc] at hu
          cases hu
        exact ⟨key hr.life hd, hd⟩
    | _ => exact ih he

/-- Once no more messages are counted, none is. -/
theorem no_more {s : Life.State}
    (h : Life.ReachableIf (fun s l => Life.Spec.NoLateSignal s l ∧ Life.Spec.FewGoroutines s l) s)
    (hd : .transportDown ∈ s.g.log) : s.g.shutdown = true ∧ s.threads.countP PC.counted = 0 := by
  induction h with
  | start => simp at hd
  | step s l s' hr ho hs ih =>
    cases hs with
    | thread g g' pre post pcs pc ch _ hact =>
      have hst := hr.stopInv
      have hlate : ∀ c m, pc = .counting c m → g.shutdown = true → m.requiresReply = true :=
        fun c m hp hs => ho.1 c m ch (by rw [hp]) hs
      by_cases hold : .transportDown ∈ g.log
      · obtain ⟨h1, h2⟩ := ih hold
        have ha := acts_of_act hact
        simp only [List.countP_append, List.countP_cons] at h2 ⊢ h1
        cases ha <;> simp_all [G.ev, G.upd, unlinked, G.crash, resume, closed, PC.counted, List.countP_cons]
      · have ha := acts_of_act hact
        cases ha <;> simp_all [G.ev, G.upd, unlinked, G.crash]
        have := hst.down (by simp)
        simp_all [List.countP_append, List.countP_cons]
    | connect g ts c limit _ _ =>
      have := ih (by simpa using hd)
      simpa [List.countP_cons, PC.counted] using this
    | close g ts c _ _ =>
      have := ih (by simpa using hd)
      simpa [List.countP_cons, PC.counted] using this
    | shutdown g ts _ =>
      have := ih (by simpa using hd)
      simpa [List.countP_cons, PC.counted] using this

/-- **C109, the part that holds**: if no signal gets past the shutdown check after `Shutdown` was called, and with fewer than
2^32 goroutines, no handler at all is running when `Run` returns; so those that had started when `Shutdown` was called have
ended. Missing: signals during shutdown, see `C109_violated`. -/
theorem C109_partial {s : State}
    (h : ReachableIf (fun s l => Life.Spec.NoLateSignal s l ∧ Life.Spec.FewGoroutines s l) s) (b : Bool)
    (log : List LEv) (he : (b, log) ∈ s.ended) (c : ConnId) (m : LMsg) :
    msgRunning log c m = 0 ∧ ∀ l1 l2, log = l1 ++ .stop :: l2 → l1.count (.start c m) ≤ log.count (.finish c m) := by
  have hz : msgRunning log c m = 0 := by
    induction h with
    | start => simp at he
    | step s l s' hr _ hs ih =>
      cases hs with
      | «return» pc ok hc hm hsv =>
        simp only [List.mem_append, List.mem_singleton, Prod.mk.injEq] at he
        rcases he with he | ⟨rfl, rfl⟩
        · exact ih he
        · have hu : s.up = false := by cases pc <;> cases hsu : s.up <;> simp_all [serve]
          have hd : .transportDown ∈ s.life.g.log := by
            by_contra hc
            rw [hr.up.mpr hc] at hu
            cases hu
          have hn := (no_more hr.life hd).2
          have hrun := hr.life.inv.runsMsg c m
          have : s.life.threads.countP (PC.runsMsg c m) = 0 := by
            rw [List.countP_eq_zero] at hn ⊢
            intro pc hpc hc
            exact hn pc hpc (PC.runsMsg_counted hc)
          simp only [msgRunning]
          omega
      | _ => exact ih he
  refine ⟨hz, ?_⟩
  intro l1 l2 hl
  have : l1.count (.start c m) ≤ log.count (.start c m) := by
    rw [hl, List.count_append]
    omega
  simp only [msgRunning] at hz
  omega

/-- **C109**: once a `Shutdown` has shut down the transport every call of `Run` returns with its next step: those that were
serving without an error, and those that come later with one. Before that none returns, and those that serve wait. -/
theorem C109_returns {s : State} (h : Reachable s) (hcr : s.life.g.crashed = none) (pc : RunPC) (hpc : pc ∈ s.runs) :
    (.transportDown ∈ s.life.g.log → (∃ s', Step s (.go pc) s') ∧ ∀ s', Step s (.go pc) s' →
      s'.runs = s.runs.erase pc ∧ s'.ended = s.ended ++ [(decide (pc = .serving), s.life.g.log)]) ∧
    (.transportDown ∉ s.life.g.log → ((∃ s', Step s (.go pc) s') ↔ pc = .calling) ∧ ∀ s', Step s (.go pc) s' →
      s'.runs = .serving :: s.runs.erase pc ∧ s'.ended = s.ended) := by
  have hu := ReachableIf.up h
  constructor
  · intro hd
    have hf : s.up = false := by
      cases hs : s.up
      · rfl
      · exact absurd hd (hu.mp hs)
    have hsv : serve s.up pc = some (.inr (decide (pc = .serving))) := by cases pc <;> simp [serve, hf]
    refine ⟨⟨_, .return s pc _ hcr hpc hsv⟩, ?_⟩
    intro s' hs
    cases hs with
    | goOn _ pc' _ _ h' => rw [hsv] at h'; cases h'
    | «return» _ ok _ _ h' => rw [hsv] at h'; cases h'; exact ⟨rfl, rfl⟩
  · intro hd
    have ht := hu.mpr hd
    cases pc with
    | calling =>
      have hsv : serve s.up .calling = some (.inl .serving) := by simp [serve, ht]
      refine ⟨⟨fun _ => rfl, fun _ => ⟨_, .goOn s _ _ hcr hpc hsv⟩⟩, ?_⟩
      intro s' hs
      cases hs with
      | goOn _ pc' _ _ h' => rw [hsv] at h'; cases h'; exact ⟨rfl, rfl⟩
      | «return» _ ok _ _ h' => rw [hsv] at h'; cases h'
    | serving =>
      have hsv : serve s.up .serving = none := by simp [serve, ht]
      have hno : ∀ s', ¬ Step s (.go .serving) s' := by
        intro s' hs
        cases hs with
        | goOn _ pc' _ _ h' => rw [hsv] at h'; cases h'
        | «return» _ ok _ _ h' => rw [hsv] at h'; cases h'
      exact ⟨⟨fun ⟨s', hs⟩ => absurd hs (hno s'), fun h => by cases h⟩, fun s' hs => absurd hs (hno s')⟩

/-- `Run` waits while a request is handled and `Shutdown` waits for it; then it returns. -/
example : ∃ s : State, ReachableIf (fun s l => Life.Spec.NoLateSignal s l ∧ Life.Spec.FewGoroutines s l) s ∧
    ∃ log, (true, log) ∈ s.ended ∧ .start 1 (exReq 1) ∈ log ∧ .stop ∈ log := by
  have hrun : ∃ s, play (fun s l => (match l with | .thread (.counting _ _) _ => !s.g.shutdown | _ => true) &&
        decide (s.threads.length < 100)) {}
      ([.run, .go .calling] ++ (([.connect 1 1, recv 0 (exReq 1)] ++ steps 0 6 ++ [.shutdown, .go 0] ++ steps 1 4 ++
        steps 0 2) : List Life.Cmd).map .life ++ [.go .serving]) = some s ∧
      s.ended = [(true, [.arrived 1 (exReq 1), .start 1 (exReq 1), .stop, .finish 1 (exReq 1), .transportDown])] :=
    ⟨_, rfl, rfl⟩
  obtain ⟨s, hp, he⟩ := hrun
  refine ⟨s, play_reachable ?_ _ .start hp, _, by rw [he]; exact List.mem_singleton.mpr rfl, by simp, by simp⟩
  intro s l hok
  simp only [Bool.and_eq_true, decide_eq_true_eq] at hok
  refine ⟨?_, ?_⟩
  · rintro c m ch rfl hs
    simp [hs] at hok
  · unfold Life.Spec.FewGoroutines
    omega

end Webwire.Running
