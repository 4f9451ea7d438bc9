import Verif.Proofs.SessionOrder
import Verif.Props.SessionRaces

/-!
# Session operations behave as if executed one after the other

Statement C91 of `properties.jsonl`, about `Model/SessionRaces`.
-/

set_option autoImplicit false

namespace Webwire.Races

open Atomic

/-- C91: when no session operation is running, there is an order of operations that, executed one after the other, give the
answers that were given (in the order in which they were given), destroy the sessions that were destroyed, and leave every
connection with the session it has and every session with the connections it has. -/
def C91_full : Prop := ∀ (n : Nat) (s : State), Reachable n s → s.g.crashed = none → s.threads = [] →
  ∃ H t, Run n H t ∧ H.filter tells = told s.g.log ∧
    (∀ k, H.countP (fun e => e.2 = .destroys k) = s.g.log.count (.destroyed k)) ∧
    (∀ c, s.g.session c = of t c) ∧ ∀ c k, c ∈ s.g.members k ↔ of t c = some k

/-- C91 does not hold: a session created while a session closure request of the connection is being handled is reset by it,
and stays registered (see `C63_violated`); no order of the operations does that. -/
theorem C91_violated : ¬ C91_full := by
  intro h
  obtain ⟨s, hs, h1, h2, h3, h4⟩ : ∃ s, play (fun _ _ => true) (init 0) createWhileClosing = some s ∧
      s.g.crashed = none ∧ s.threads = [] ∧ s.g.session 0 = none ∧ s.g.members [2] = [0] :=
    ⟨_, rfl, rfl, rfl, rfl, rfl⟩
  obtain ⟨H, t, -, -, -, ha, hb⟩ := h 0 s (play_from (fun _ _ _ => trivial) _ .start hs) h1 h2
  have := (hb 0 [2]).mp (by simp [h4])
  rw [← ha, h3] at this
  cases this

/-- C91 while no two operations work on the session of the same connection without holding its lock and, with a limit,
admissions are one by one (`Calm`). In every state of every such execution, also in the middle of operations: the operations
that took effect so far, in the order of the steps with which they did (`Hist`), are a sequence of operations executed one
after the other, with the answers they gave (`Run`); the answers are those told, in this order; a session is destroyed as
often as by the sequence, except where `OnSessionClosed` is still about to be called; the connections of a session are those
of the sequence; and so is the session of every connection that no goroutine is working on. Missing: executions that are not
`Calm`, for which it is false. -/
theorem C91_partial {n : Nat} {s : State} {H : List (Op × Ans)} (h : Hist Calm n s H) :
    ∃ t, Run n H t ∧ H.filter tells = told s.g.log ∧
      (∀ k, H.countP (fun e => e.2 = .destroys k) =
        s.g.log.count (.destroyed k) + s.threads.countP (PC.announces s.g k)) ∧
      (∀ c k, c ∈ s.g.members k ↔ of t c = some k) ∧
      ∀ c, (∀ a ∈ s.threads, a.inside c = false) → s.g.session c = of t c := by
  obtain ⟨t, hS, hR⟩ := calm_hist h
  have hi := inv_reachable h.reachable
  refine ⟨t, hR, hist_told h hi.crash, hist_destroyed h, fun c k => ?_, fun c hc => ?_⟩
  · rw [of_some hS.nodup, hS.mem]
  · refine (hS.of ?_).symm
    have := hi.here c
    rw [the_none.mpr hc] at this
    exact this

/-- Connections 0 and 1 restore the session while connection 2 creates one; then 0 sends a closure request while a handler of
1 closes the session, connection 3 restoring it in between. -/
def together : List Cmd :=
  [.call (.r1 0 [1]), .call (.r1 1 [1]), .call (.n1 2 [2]),
   .go 0, .go 1, .go 2, .go 0, .go 1, .go 2, .go 2, .go 1, .go 0, .go 0, .go 0, .go 0, .go 0, .go 0,
   .call (.k1 0), .call (.x1 1 []), .go 0, .go 1, .go 0, .go 1, .go 0, .call (.r1 3 [1]), .go 2, .go 0, .go 0,
   .go 1, .go 1, .go 0, .go 0, .go 0]

example : ∃ s, Hist Calm 0 s [(.create 2 [2], .done), (.restore 1 [1], .done), (.restore 0 [1], .done), (.close 1, .done),
    (.close 0, .destroys [1]), (.restore 3 [1], .done)] ∧ s.threads = [] := by
  obtain ⟨s, hp, h⟩ : ∃ s, playHist calm (init 0) [] together = some (s, [(.create 2 [2], .done), (.restore 1 [1], .done),
      (.restore 0 [1], .done), (.close 1, .done), (.close 0, .destroys [1]), (.restore 3 [1], .done)]) ∧ s.threads = [] :=
    ⟨_, rfl, rfl⟩
  exact ⟨s, playHist_hist calm_ok _ .start hp, h⟩

/-- Every execution has a history, so that `C91_partial` is about all of those that are `Calm`: what `C91_full` says holds of
them. Missing: executions that are not `Calm`, for which it is false. -/
theorem C91_rest_partial {n : Nat} {s : State} (h : ReachableIf n Calm s) (ht : s.threads = []) :
    ∃ H t, Run n H t ∧ H.filter tells = told s.g.log ∧
      (∀ k, H.countP (fun e => e.2 = .destroys k) = s.g.log.count (.destroyed k)) ∧
      (∀ c, s.g.session c = of t c) ∧ ∀ c k, c ∈ s.g.members k ↔ of t c = some k := by
  obtain ⟨H, hH⟩ := hist_of_reachable h
  obtain ⟨t, h1, h2, h3, h4, h5⟩ := C91_partial hH
  exact ⟨H, t, h1, h2, fun k => by simpa [ht] using h3 k, fun c => h5 c (by simp [ht]), h4⟩

example : ∃ s, ReachableIf 0 Calm s ∧ s.threads = [] ∧ s.g.members [1] = [3] ∧ .destroyed [1] ∈ s.g.log := by
  obtain ⟨s, hs, h1, h2, h3⟩ : ∃ s, play calm (init 0) together = some s ∧ s.threads = [] ∧ s.g.members [1] = [3] ∧
    .destroyed [1] ∈ s.g.log := ⟨_, rfl, rfl, rfl, by decide⟩
  exact ⟨s, play_from calm_ok _ .start hs, h1, h2, h3⟩

end Webwire.Races
