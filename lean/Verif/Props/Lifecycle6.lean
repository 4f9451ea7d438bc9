import Verif.Proofs.Lifecycle5

/-!
# As many handlers as the limit allows

Statement C92 of `properties.jsonl`.
-/

set_option autoImplicit false

namespace Webwire.Life

open Spec

/-- C92: whatever happened before, as long as `Shutdown` was not called and the connection not closed: if fewer handlers are
under way on a connection than its limit allows (with a limit below zero: however many; with a limit of zero or one, if the
reader has come back to read) the handler of a request or signal that arrives is called without any handler having to return,
on this or on other connections. -/
theorem C92_starts {s : State} (h : Reachable s) (hc : s.g.crashed = none) (hs : .stop ∉ s.g.log) {c : ConnId}
    (ha : (s.g.conns c).active = true) (hr : .reading c ∈ s.threads) (hf : ¬ Full s c) (m : LMsg)
    (hm : m.kind = .request ∨ m.kind = .signal) :
    ∃ s', Then (Only c m) s s' ∧ s'.g.log = s.g.log ++ [.arrived c m, .start c m] := by
  obtain ⟨s1, h1, h2, h3, h4, h5, h6⟩ := Open.drain m _ ⟨h, hc, hs, ha, hr⟩ rfl
  have hf1 : ¬ Full s1 c := by unfold Full at *; rw [h5, h6]; exact hf
  obtain ⟨s2, k1, k2, -⟩ := h2.starts h3 hf1 m hm
  exact ⟨s2, h1.trans k1, by rw [k2, h4]⟩

/-- A second request on a connection with limit 2, while the handler of the first one is running; and a connection without
limit with three handlers. -/
example : ∃ s, play anyStep {} ([.connect 1 2, recv 0 (exReq 1)] ++ steps 0 6) = some s ∧ s.g.crashed = none ∧
    .stop ∉ s.g.log ∧ (s.g.conns 1).active = true ∧ .reading 1 ∈ s.threads ∧ ¬ Full s 1 ∧ handlersRunning s.g.log 1 = 1 :=
  ⟨_, rfl, rfl, by decide, rfl, by decide, by unfold Full; decide, rfl⟩

theorem opened (c : ConnId) (limit : Int) : ∃ s, Open c s ∧ (s.g.conns c).limit = limit ∧ s.g.log = [] ∧ s.threads = [.reading c] := by
  refine ⟨⟨connected {} c limit, [.reading c]⟩, ⟨.step _ _ _ .start trivial (.connect {} [] c limit rfl rfl), rfl, ?_, ?_, ?_⟩,
    ?_, rfl, rfl⟩ <;> simp

/-- One more handler. -/
theorem Open.more {c : ConnId} {s : State} (h : Open c s) (hf : ¬ Full s c) : ∃ s', Reachable s' ∧
    (s'.g.conns c).limit = (s.g.conns c).limit ∧ handlersRunning s'.g.log c = handlersRunning s.g.log c + 1 ∧
    s'.threads.countP (handling c) = s.threads.countP (handling c) + 1 ∧
    ((s.g.conns c).limit < 0 ∨ 1 < (s.g.conns c).limit → Open c s') := by
  obtain ⟨s1, -, h2, h3, h4, h5, h6⟩ := Open.drain ⟨.request, 0⟩ _ h rfl
  have hf1 : ¬ Full s1 c := by unfold Full at *; rw [h5, h6]; exact hf
  obtain ⟨s2, -, k2, k3, k4, k5, k6⟩ := h2.starts h3 hf1 ⟨.request, 0⟩ (.inl rfl)
  refine ⟨s2, k3, k5.trans h6, ?_, by rw [k4, h5], by rw [← h6]; exact k6⟩
  rw [k2, h4]
  simp [handlersRunning, List.countP_cons, LEv.isStart, LEv.isFinish]
  omega

theorem grow (c : ConnId) (limit : Int) (hl : limit < 0 ∨ 1 < limit) (n : Nat) (hn : limit < 0 ∨ n ≤ limit) :
    ∃ s, Open c s ∧ (s.g.conns c).limit = limit ∧ handlersRunning s.g.log c = n ∧ s.threads.countP (handling c) = n := by
  induction n with
  | zero =>
    obtain ⟨s, h1, h2, h3, h4⟩ := opened c limit
    exact ⟨s, h1, h2, by simp [h3, handlersRunning], by simp [h4, handling]⟩
  | succ n ih =>
    obtain ⟨s, h1, h2, h3, h4⟩ := ih (by omega)
    obtain ⟨s', -, k2, k3, k4, k5⟩ := h1.more (by unfold Full; rw [h2, h4]; omega)
    exact ⟨s', k5 (h2 ▸ hl), k2.trans h2, by rw [k3, h3]; rfl, by rw [k4, h4]⟩

/-- C92: so the limit can be reached, and without a limit there is none: any number of handlers can run at the same time. -/
theorem C92_reached (c : ConnId) (limit : Int) (n : Nat) (hn : limit < 0 ∨ n ≤ limit ∨ n ≤ 1) :
    ∃ s, Reachable s ∧ (s.g.conns c).limit = limit ∧ handlersRunning s.g.log c = n := by
  by_cases hl : limit < 0 ∨ 1 < limit
  · by_cases hn' : limit < 0 ∨ n ≤ limit
    · obtain ⟨s, h1, h2, h3, -⟩ := grow c limit hl n hn'
      exact ⟨s, h1.reach, h2, h3⟩
    · omega
  · obtain ⟨s, h1, h2, h3, h4⟩ := opened c limit
    match n, hn with
    | 0, _ => exact ⟨s, h1.reach, h2, by simp [h3, handlersRunning]⟩
    | 1, _ =>
      obtain ⟨s', k1, k2, k3, -⟩ := h1.more (by unfold Full; rw [h2]; omega)
      exact ⟨s', k1, k2.trans h2, by rw [k3, h3]; simp [handlersRunning]⟩
    | n + 2, hn => omega

/-- The handler has returned, what it was registered for is being undone. -/
def PC.returned (c : ConnId) : PC → Bool
  | .uncounting c' _ | .untasking c' _ | .unlinking c' _ | .releasing c' _ => decide (c' = c)
  | _ => false

/-- C92: a message waits only because of the limit: while as many goroutines as the limit allows call handlers of the same
connection or clean up after one that returned. -/
theorem C92_waits {s : State} (h : Reachable s) (hs : .stop ∉ s.g.log) {pc : PC} {c : ConnId} {ch : Choice} (hm : pc ∈ s.threads)
    (ho : pc.isOn c = true) (hw : act s.g ch pc = none) :
    1 < (s.g.conns c).limit ∧
      (s.g.conns c).limit = s.threads.countP fun a => handling c a || a.returned c := by
  cases pc <;> simp only [act, reduceCtorEq] at hw <;> try simp [PC.isOn] at ho
  case acquiring c' m =>
    subst ho
    unfold actAcquiring at hw
    split at hw
    case isFalse => cases hw
    case isTrue hl =>
      split at hw
      case isFalse => cases hw
      case isTrue hsl =>
        have hi := h.inv
        have h1 := hi.slots c' hl
        have h2 := hi.slotsLe c' hl
        have h3 : s.g.log.countP (LEv.isRefused c') = 0 := by
          rw [List.countP_eq_zero]
          intro e he hx
          cases e <;> simp [LEv.isRefused] at hx
          exact hs ((ReachableIf.refInv h).log _ _ he).2
        have h4 : s.threads.countP (PC.holdsSlot c') = s.threads.countP fun a => handling c' a || a.returned c' := by
          refine List.countP_congr fun a ha => ?_
          have hone : a.isReader c' = true → a = .acquiring c' m := by
            intro hr
            apply Classical.byContradiction
            intro hne
            have h2 := hi.reader c'
            obtain ⟨pre, post, hts⟩ := List.append_of_mem hm
            rw [hts] at h2 ha
            simp only [List.countP_append, List.countP_cons, PC.isReader, decide_true, if_true] at h2
            simp only [List.mem_append, List.mem_cons, hne, false_or] at ha
            rcases ha with ha | ha
            · have := List.countP_pos_iff.mpr ⟨a, ha, hr⟩; omega
            · have := List.countP_pos_iff.mpr ⟨a, ha, hr⟩; omega
          cases a <;> simp_all [PC.holdsSlot, handling, PC.isReader, PC.returned]
        refine ⟨hl, ?_⟩
        rw [← h4]
        omega

/-- The third request on a connection with limit 2. -/
example : ∃ s, play anyStep {} ([.connect 1 2, recv 0 (exReq 1)] ++ steps 0 5 ++ [recv 1 (exReq 2)] ++ steps 1 5 ++
    [recv 2 (exReq 3), .go 2]) = some s ∧ .stop ∉ s.g.log ∧ .acquiring 1 (exReq 3) ∈ s.threads ∧
    act s.g {} (.acquiring 1 (exReq 3)) = none := ⟨_, rfl, by decide, by decide, rfl⟩

end Webwire.Life
