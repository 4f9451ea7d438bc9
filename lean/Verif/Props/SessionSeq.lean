import Verif.Proofs.SessionSeq
import Verif.Props.SessionOrder
import Verif.Props.Session

/-!
# The two models of the session operations agree

Statement C91 of `properties.jsonl`: `Model/Server` (functions that run without interruption, with messages, hooks and sockets)
and `Model/SessionRaces` (steps of goroutines) were written down separately.
-/

set_option autoImplicit false

namespace Webwire.Races

open Atomic

variable {ν υ : Type} {srv : Server ν υ}

/-- **C91, whatever the server does one thing after the other is an execution of the concurrent model**: after any history of
connections, messages, API calls and the hooks that make more of them there is a state of `Model/SessionRaces`, reached with
one goroutine at a time, with the same registry, the same sessions and the same calls of `OnSessionClosed`. -/
theorem C91_embeds {ow : Bool} {w : World ν υ} (h : Spec.Reachable srv ow w) :
    ∃ s, ReachableIf srv.maxConns (fun s _ => s.threads.length ≤ 1) s ∧ s.threads = [] ∧ s.g.crashed = none ∧
      s.g.registry = w.registry ∧ (∀ c, s.g.session c = (w.conns c).session.map (·.key)) ∧
      destroyedKeys s.g.log = Spec.closedKeys w.trace := by
  obtain ⟨⟨s, m⟩, _⟩ := kept_reachable (fresh := False) (issued := fun _ _ => True) nofun h
  refine ⟨s, m.reach.mono fun s l hl => ?_, m.idle, m.crashed, m.registry, m.session, m.closed⟩
  cases l with
  | call pc => have : s.threads = [] := hl; rw [this]; simp
  | thread pc ch => rw [hl.1]; simp

/-- C91: done one after the other, session operations do what the table says, without exception but restorations on connections
that have a session and, with a limit, keys that are not new. -/
theorem C91_sequential {issued : υ → Bytes → Prop} {w : World ν υ} (h : Spec.Reachable srv false w)
    (hk : srv.maxConns = 0 ∨ Spec.FreshKeys srv.hooks issued) :
    ∃ H t, Run srv.maxConns H t ∧
      (∀ k, H.countP (fun e => e.2 = .destroys k) = (Spec.closedKeys w.trace).count k) ∧
      (∀ c, (w.conns c).session.map (·.key) = of t c) ∧
      ∀ c k order, c ∈ (sessionConnections w k order).getD [] ↔ of t c = some k := by
  obtain ⟨⟨s, m⟩, _⟩ := kept_reachable (fresh := 0 < srv.maxConns) (issued := issued)
    (fun hp => hk.resolve_left (by omega)) h
  have hr : ∀ {s}, ReachableIf srv.maxConns (Lone false (0 < srv.maxConns)) s →
      ReachableIf srv.maxConns Calm s ∧ s.g.maxConns = srv.maxConns := by
    intro s hs
    induction hs with
    | start => exact ⟨.start, rfl⟩
    | step s1 l s2 _ ho hst ih =>
      refine ⟨.step s1 l s2 ih.1 (Lone.calm (by rw [ih.2]; exact id) ho) hst, ?_⟩
      cases hst with
      | call => exact ih.2
      | thread g g' pre post pcs pc ch _ _ ha => exact (acts_of_act ha).max.trans ih.2
  obtain ⟨H, t, h1, _, h3, h4, h5⟩ := C91_rest_partial (hr m.reach).1 m.idle
  refine ⟨H, t, h1, fun k => ?_, fun c => ?_, fun c k order => ?_⟩
  · rw [h3 k, ← m.closed]
    unfold destroyedKeys
    generalize s.g.log = l
    induction l with
    | nil => rfl
    | cons e l ih =>
      cases e <;> simp only [List.filterMap_cons, List.count_cons, ih] <;> simp
  · rw [← h4 c, m.session c]
  · rw [← h5 c k]
    unfold G.members sessionConnections
    rw [m.registry]
    cases hg : w.registry.get k with
    | none => simp
    | some set =>
      simp only [Option.getD_some]
      split_ifs with hp
      · exact (List.isPerm_iff.mp hp).mem_iff
      · rfl

/-- C91, non-vacuity: a session created and closed, one after the other. -/
example : ∃ w, Spec.Reachable (sessServer 1) false w ∧ Spec.closedKeys w.trace = [List.replicate 6 107] ∧
    Spec.FreshKeys (sessServer 1).hooks (fun u k => k.length ≤ u) := by
  obtain ⟨w1, w2, w3, h1, h2, h3, h4⟩ : ∃ w1 w2 w3, handleConnection (sessServer 1) sessStart 1 0 [] = .ok w1 ∧
      runApi (sessServer 1) w1 (.createSession 1 none) = .ok w2 ∧
      runApi (sessServer 1) w2 (.closeSession 1) = .ok w3 ∧ Spec.closedKeys w3.trace = [List.replicate 6 107] :=
    ⟨_, _, _, rfl, rfl, rfl, rfl⟩
  exact ⟨w3, .step _ _ (.step _ _ (.step _ _ (.start _ ⟨rfl, fun _ => rfl, rfl⟩) (.accept _ _ 1 0 rfl h1)) (.api _ _ _ h2))
    (.api _ _ _ h3), h4, sessFresh⟩

end Webwire.Races
