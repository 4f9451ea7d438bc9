import Verif.Props.Lifecycle2

/-!
# C90: what the server keeps of connections that have ended
-/

set_option autoImplicit false

namespace Webwire.Life

namespace Spec

/-- The connection has ended: `OnClientDisconnected` was called, the socket is closed and no goroutine works for the
connection. -/
def Ended (s : State) (c : ConnId) : Prop :=
  .disconnected c ∈ s.g.log ∧ 0 < (s.g.conns c).sockCloses ∧ ∀ pc ∈ s.threads, pc.isOn c = false

end Spec

open Spec

/-- What C90 asks for: the server does not refer to connections that have ended, no task is registered for them and
none of their handler slots is taken. -/
def C90_full : Prop := ∀ s, Reachable s → ∀ c, Ended s c →
  c ∉ s.g.connections ∧ (s.g.conns c).tasks = 0 ∧ (s.g.conns c).slots = 0

/-- C90: what the list of connections is, in every execution: every connection that was ever accepted, once. -/
theorem C90_list {ok : State → Label → Prop} (s : State) (h : ReachableIf ok s) :
    s.g.connections.Nodup ∧ ∀ c, c ∈ s.g.connections ↔ (s.g.conns c).used = true := by
  induction h with
  | start => simp
  | step s l s' _ _ hs ih =>
    cases hs with
    | thread g g' pre post pcs pc ch hc ha =>
      have ha := acts_of_act ha
      have h1 : g'.connections = g.connections := by
        cases ha <;> simp [G.ev, G.upd, G.crash, unlinked]
      have h2 := fun c => (ha.static c).1
      simpa [h1, h2] using ih
    | connect g ts c limit hc hu =>
      have hn : c ∉ g.connections := fun hm => by
        have := (ih.2 c).mp hm
        simp [hu] at this
      refine ⟨?_, fun c' => ?_⟩
      · have hnd : g.connections.Nodup := ih.1
        simp only [connected, List.nodup_append, hnd, List.nodup_cons, List.not_mem_nil, not_false_eq_true,
          List.nodup_nil, List.mem_singleton, true_and, and_true]
        rintro a ha b rfl rfl
        exact hn ha
      · by_cases e : c' = c
        · simp [e]
        · simpa [e] using ih.2 c'
    | close => exact ih
    | shutdown => exact ih

/-- One connection after the other, each of which ends at once. -/
def comeAndGo (n : Nat) : List Cmd :=
  (List.range n).flatMap fun c => [.connect c 1] ++ List.replicate 4 (.go 0)

private theorem play_append (ok : State → Label → Bool) (a b : List Cmd) : ∀ s, play ok s (a ++ b) = (play ok s a).bind fun s => play ok s b := by
  induction a with
  | nil => intro s; rfl
  | cons x a ih =>
    intro s
    simp only [List.cons_append, play]
    split
    · split
      · exact ih _
      · rfl
    · rfl

/-- **C90 is violated, for every number of connections**: after any number of connections have come and gone, when
nothing is going on any more, the server still has all of them. -/
theorem C90_grows_violated (n : Nat) : ∃ s, Reachable s ∧ s.threads = [] ∧ s.g.connections.length = n ∧
    (∀ c, (s.g.conns c).used = true → Ended s c) ∧ ∀ c ∈ s.g.connections, Ended s c := by
  have main : ∃ s, play anyStep {} (comeAndGo n) = some s ∧ s.threads = [] ∧ s.g.crashed = none ∧ s.g.connections.length = n ∧
      ∀ c, (s.g.conns c).used = decide (c < n) ∧
        (c < n → .disconnected c ∈ s.g.log ∧ (s.g.conns c).sockCloses = 1) := by
    induction n with
    | zero => exact ⟨{}, rfl, rfl, rfl, rfl, fun c => ⟨by simp, fun h => absurd h (Nat.not_lt_zero c)⟩⟩
    | succ n ih =>
      obtain ⟨s, h1, h2, h3, h4, h5⟩ := ih
      obtain ⟨g, ts⟩ := s
      simp only at h2 h3 h4 h5
      subst h2
      have e : comeAndGo (n + 1) = comeAndGo n ++ ([.connect n 1] ++ List.replicate 4 (.go 0)) := by
        simp [comeAndGo, List.range_succ, List.flatMap_append]
      have hu : (g.conns n).used = false := by simpa using (h5 n).1
      rw [e, play_append, h1]
      refine ⟨_, by
        simp only [Option.bind_some, List.replicate, List.cons_append, List.nil_append, play, Cmd.label, exec, h3, hu,
          anyStep, Option.isSome_none, Bool.false_eq_true, if_false, if_true, connected, List.getElem?_cons_zero, Option.map_some,
          act, actReading, actClosing, G.upd, closed, unlinked, List.take_zero, List.drop_succ_cons, List.drop_zero,
          List.append_nil, Bool.true_eq_false, Int.reduceLT]
        rfl, rfl, ?_, ?_, ?_⟩
      · rfl
      · simp [G.ev, h4]
      · intro c
        by_cases hc : c = n
        · subst hc; simp [G.ev]
        · have := h5 c
          have h6 : c < n + 1 ↔ c < n :=
            ⟨fun h => Nat.lt_of_le_of_ne (Nat.le_of_lt_succ h) hc, Nat.lt_succ_of_lt⟩
          simp only [G.ev, hc, if_false, h6]
          exact ⟨this.1, fun h => ⟨by simp [(this.2 h).1], (this.2 h).2⟩⟩
  obtain ⟨s, h1, h2, h3, h4, h5⟩ := main
  have hr := play_any h1
  have he : ∀ c, (s.g.conns c).used = true → Ended s c := by
    intro c hu
    have hc : c < n := by rw [(h5 c).1] at hu; simpa using hu
    have := (h5 c).2 hc
    exact ⟨this.1, by omega, by simp [h2]⟩
  exact ⟨s, hr, h2, h4, he, fun c hc => he c (((C90_list s hr).2 c).mp hc)⟩

/-- **C90 is violated.** -/
theorem C90_violated : ¬ C90_full := by
  intro hf
  obtain ⟨s, hr, -, hl, -, he⟩ := C90_grows_violated 1
  obtain ⟨c, hc⟩ := List.exists_mem_of_length_pos (by omega : 0 < s.g.connections.length)
  exact (hf s hr c (he c hc)).1 hc

/-- Without a limit above 1 no slot is ever taken. -/
private theorem noSlots {ok : State → Label → Prop} {s : State} (h : ReachableIf ok s) (c : ConnId)
    (hl : ¬ (s.g.conns c).limit > 1) : (s.g.conns c).slots = 0 := by
  induction h with
  | start => rfl
  | step s l s' _ _ hs ih =>
    cases hs with
    | thread g g' pre post pcs pc ch hc ha =>
      have ha := acts_of_act ha
      have hst := (ha.static c).2
      have h1 := ih (by rw [← hst]; exact hl)
      simp only at h1 hl hst
      cases ha <;> simp [G.ev, G.upd, G.crash, unlinked] at hl hst ⊢ <;> grind
    | connect g ts c' limit hc hu =>
      by_cases e : c = c'
      · simp [e]
      · simp only [connected, e, if_false] at hl ⊢
        exact ih hl
    | close => exact ih hl
    | shutdown => exact ih hl

/-- **C90, the part that holds**: for a connection that has ended no task is registered, and only the slots of its
requests that were refused during shutdown are taken (none, if there were none; cf. C29). Missing: the list of
connections (`C90_list`). -/
theorem C90_partial (s : State) (h : Reachable s) (c : ConnId) (he : Ended s c) :
    (s.g.conns c).tasks = 0 ∧ (s.g.conns c).slots ≤ s.g.log.countP (LEv.isRefused c) := by
  obtain ⟨-, -, hn⟩ := he
  have h0 : s.threads.countP (PC.isOn c) = 0 := by
    rw [List.countP_eq_zero]; intro pc hm; simp [hn pc hm]
  refine ⟨?_, ?_⟩
  · rw [h.inv.tasks c, countP_zero_of_imp (fun _ => PC.holdsTask_isOn) h0]; rfl
  · by_cases hl : (s.g.conns c).limit > 1
    · rw [h.inv.slots c hl, countP_zero_of_imp (fun _ => PC.holdsSlot_isOn) h0]; omega
    · rw [noSlots h c hl]; omega

-- a connection with limit 2 on which a request is handled, and which then breaks
example : ∃ s, play anyStep {} ([.connect 1 2, recv 0 (exReq 1)] ++ steps 0 10 ++ steps 0 4) = some s ∧ s.threads = [] ∧
    LEv.disconnected 1 ∈ s.g.log ∧ LEv.finish 1 (exReq 1) ∈ s.g.log ∧ (s.g.conns 1).sockCloses = 1 ∧
    s.g.connections = [1] := ⟨_, rfl, rfl, by decide, by decide, rfl, rfl⟩

end Webwire.Life
