import Verif.Props.Lifecycle4
import Mathlib.Tactic.ByContra

/-!
# What becomes of every message, under all schedules

Statements C20 and C22 for goroutines that run at the same time: each message that arrives is handled at most once.
-/

set_option autoImplicit false

namespace Webwire.Life

namespace Spec

/-- A goroutine that works on the message: between its arrival and the end of its handler. -/
def WorksOn (c : ConnId) (m : LMsg) : PC → Bool
  | .checking c' m' | .acquiring c' m' | .counting c' m' | .refusing c' m' | .tasking c' m' | .dispatching c' m'
  | .starting c' m' _ | .running c' m' _ => decide (c' = c ∧ m' = m)
  | _ => false

/-- A goroutine that runs the handler of the message. -/
def Handles (c : ConnId) (m : LMsg) : PC → Bool
  | .running c' m' _ => decide (c' = c ∧ m' = m)
  | _ => false

end Spec

theorem handles_eq (c : ConnId) (m : LMsg) : Spec.Handles c m = PC.runsMsg c m := by
  funext pc
  cases pc <;> rfl

theorem worksOn_count (c : ConnId) (m : LMsg) (l : List PC) :
    l.countP (Spec.WorksOn c m) = l.countP (PC.pends c m) + l.countP (PC.runsMsg c m) := by
  induction l with
  | nil => rfl
  | cons pc l ih =>
    simp only [List.countP_cons, ih]
    cases pc <;> simp [Spec.WorksOn, PC.pends, PC.runsMsg] <;> omega

/-- Handlers run for signals, requests and session requests; dropped messages are those of closed connections. -/
structure KindInv (s : State) : Prop where
  on : ∀ pc ∈ s.threads, ∀ c m inl, pc = .starting c m inl ∨ pc = .running c m inl →
    m.kind = .signal ∨ m.kind = .request ∨ m.kind = .session
  log : ∀ c m, .start c m ∈ s.g.log → m.kind = .signal ∨ m.kind = .request ∨ m.kind = .session
  dropped : ∀ c m, .dropped c m ∈ s.g.log → (s.g.conns c).active = false ∧ (s.g.conns c).used = true

theorem Acts.kinds {g g' : G} {ch : Choice} {pc : PC} {pcs : List PC} (h : Acts g ch pc g' pcs) :
    (∀ pc' ∈ pcs, ∀ c m inl, pc' = .starting c m inl ∨ pc' = .running c m inl → pc = .starting c m inl ∨
      m.kind = .signal ∨ m.kind = .request ∨ m.kind = .session) ∧
    (∀ c m, .start c m ∈ g'.log → .start c m ∈ g.log ∨ ∃ inl, pc = .starting c m inl) ∧
    (∀ c m, .dropped c m ∈ g'.log → .dropped c m ∈ g.log ∨ (pc = .checking c m ∧ (g.conns c).active = false)) ∧
    (∀ c, (g.conns c).active = false → (g'.conns c).active = false) := by
  refine ⟨fun pc' hp c m inl => ?_, fun c m hs => ?_, fun c m => ?_, fun c => ?_⟩
  case refine_2 =>
    cases h
    case begin c' m' inl' =>
      simp only [G.ev, List.mem_append, List.mem_singleton, LEv.start.injEq] at hs
      rcases hs with hs | ⟨rfl, rfl⟩
      · exact .inl hs
      · exact .inr ⟨_, rfl⟩
    all_goals grind [G.ev, G.upd, unlinked, G.crash, resume, closed]
  all_goals cases h <;> grind [G.ev, G.upd, unlinked, G.crash, resume, closed]

theorem ReachableIf.kindInv {ok : State → Label → Prop} {s : State} (h : ReachableIf ok s) : KindInv s := by
  induction h with
  | start => exact ⟨by simp, by simp, by simp⟩
  | step s l s' hr ho hs ih =>
    cases hs with
    | thread g g' pre post pcs pc ch hc hact =>
      have ha := acts_of_act hact
      obtain ⟨h1, h2, h3, h4⟩ := ha.kinds
      refine ⟨fun pc' hm c m inl he => ?_, fun c m hm => ?_, fun c m hm => ?_⟩
      · simp only [List.mem_append] at hm
        rcases hm with hm | hm | hm
        · exact ih.on pc' (by simp [hm]) c m inl he
        · rcases h1 pc' hm c m inl he with h | h
          · exact ih.on pc (by simp) c m inl (.inl h)
          · exact h
        · exact ih.on pc' (by simp [hm]) c m inl he
      · rcases h2 c m hm with h | ⟨inl, h⟩
        · exact ih.log c m h
        · exact ih.on pc (by simp) c m inl (.inl h)
      · rcases h3 c m hm with h | ⟨rfl, h⟩
        · exact ⟨h4 c (ih.dropped c m h).1, by rw [(ha.static c).1]; exact (ih.dropped c m h).2⟩
        · refine ⟨h4 c h, ?_⟩
          rw [(ha.static c).1]
          by_contra hu
          have := (hr.inv.unused c (by simpa using hu)).2
          have := List.countP_eq_zero.mp this (.checking c m) (by simp)
          simp [PC.isOn] at this
    | connect g ts c' limit hc hu =>
      refine ⟨fun pc hm c m inl he => ?_, ih.log, fun c m hm => ?_⟩
      · rcases List.mem_cons.mp hm with rfl | hm
        · simp at he
        · exact ih.on pc hm c m inl he
      · have := ih.dropped c m hm
        have hcc : c ≠ c' := by
          rintro rfl
          rw [hu] at this; exact absurd this.2 (by simp)
        simpa [hcc] using this
    | close g ts c' hc hu =>
      refine ⟨fun pc hm c m inl he => ?_, ih.log, ih.dropped⟩
      rcases List.mem_cons.mp hm with rfl | hm
      · simp at he
      · exact ih.on pc hm c m inl he
    | shutdown g ts hc =>
      refine ⟨fun pc hm c m inl he => ?_, ih.log, ih.dropped⟩
      rcases List.mem_cons.mp hm with rfl | hm
      · simp at he
      · exact ih.on pc hm c m inl he

/-- C22, under all schedules: of every request (and session request), as often as it arrived it was either refused with the
shutdown reply, or handled to the end (by `C22_answered_once_partial`, with one reply), or ignored, as its connection was
closed, or is being worked on: nothing is answered twice, forgotten, or answered without having arrived. -/
theorem C22_interleaved (s : State) (h : Reachable s) (c : ConnId) (m : LMsg) (hm : m.requiresReply = true) :
    s.g.log.count (.arrived c m) = s.g.log.count (.refused c m) + s.g.log.count (.finish c m) +
      s.g.log.count (.dropped c m) + s.threads.countP (Spec.WorksOn c m) ∧
    (.dropped c m ∈ s.g.log → (s.g.conns c).active = false) := by
  have hk : m.kind = .signal ∨ m.kind = .request ∨ m.kind = .session := by
    rcases (by simpa [LMsg.requiresReply] using hm : m.kind = .request ∨ m.kind = .session) with h | h
    · exact .inr (.inl h)
    · exact .inr (.inr h)
  have h1 := ReachableIf.accounted h c m hk
  have h2 := (ReachableIf.inv h).runsMsg c m
  rw [worksOn_count]
  exact ⟨by omega, fun hd => ((ReachableIf.kindInv h).dropped c m hd).1⟩

/-- C20, under all schedules: as often as a signal, request or session request arrived its handler was started, or it was
refused (requests, during shutdown), or ignored, as its connection was closed, or is on its way to its handler; and no handler
is ever started for any other message. -/
theorem C20_interleaved (s : State) (h : Reachable s) (c : ConnId) (m : LMsg) :
    (m.kind = .signal ∨ m.kind = .request ∨ m.kind = .session →
      s.g.log.count (.arrived c m) = s.g.log.count (.start c m) + s.g.log.count (.refused c m) +
        s.g.log.count (.dropped c m) + (s.threads.countP (Spec.WorksOn c m) - s.threads.countP (Spec.Handles c m))) ∧
    (.refused c m ∈ s.g.log → m.requiresReply = true ∧ .stop ∈ s.g.log) ∧
    (.dropped c m ∈ s.g.log → (s.g.conns c).active = false) ∧
    (.start c m ∈ s.g.log → m.kind = .signal ∨ m.kind = .request ∨ m.kind = .session) := by
  refine ⟨fun hk => ?_, C28_only_requests_refused s h c m, fun hd => ((ReachableIf.kindInv h).dropped c m hd).1,
    (ReachableIf.kindInv h).log c m⟩
  have h1 := ReachableIf.accounted h c m hk
  rw [worksOn_count, handles_eq]
  omega

/-- Two requests are handled at the same time, the second one to the end, a third is refused during shutdown, and a signal that
arrives on a closed connection is ignored. -/
example : ∃ s, Reachable s ∧ s.threads.countP (Spec.Handles 1 (exReq 1)) = 1 ∧ .finish 1 (exReq 2) ∈ s.g.log ∧
    .refused 1 (exReq 3) ∈ s.g.log ∧ .dropped 2 ⟨.signal, 4⟩ ∈ s.g.log := by
  obtain ⟨s, hs, h⟩ : ∃ s, play anyStep {} ([.connect 1 5, recv 0 (exReq 1)] ++ steps 0 6 ++ [recv 1 (exReq 2)] ++ steps 1 7 ++
      [.shutdown, .go 0] ++ [recv 3 (exReq 3)] ++ steps 3 4 ++ [.connect 2 1, .close 2, .go 0, .go 0, recv 0 ⟨.signal, 4⟩, .go 0]) =
        some s ∧ s.threads.countP (Spec.Handles 1 (exReq 1)) = 1 ∧ .finish 1 (exReq 2) ∈ s.g.log ∧
    .refused 1 (exReq 3) ∈ s.g.log ∧ .dropped 2 ⟨.signal, 4⟩ ∈ s.g.log := ⟨_, rfl, rfl, by decide, by decide, by decide⟩
  exact ⟨s, play_reachable (fun _ _ _ => trivial) _ _ _ .start hs, h⟩

end Webwire.Life
