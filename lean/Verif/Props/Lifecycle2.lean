import Verif.Proofs.Lifecycle4
import Verif.Props.Lifecycle

/-!
# C66: the end of a connection, under any schedule
-/

set_option autoImplicit false

namespace Webwire.Life

/-- Messages of a connection coming in: their arrival, or the server dropping or refusing one. -/
def LEv.received (c : ConnId) : LEv → Bool
  | .arrived c' _ | .dropped c' _ | .refused c' _ => decide (c' = c)
  | _ => false

/-- C66: `OnClientDisconnected` is called at most once for a connection, and only for a connection that was accepted. -/
theorem C66_once (s : State) (h : Reachable s) (c : ConnId) :
    s.g.log.count (.disconnected c) ≤ 1 ∧
    (LEv.disconnected c ∈ s.g.log → (s.g.conns c).used = true) := by
  have := h.endInv.ends c
  constructor
  · split at this <;> omega
  · intro hm
    have hp := List.count_pos_iff.mpr hm
    by_contra hu
    simp only [hu, Bool.false_eq_true, ↓reduceIte] at this
    omega

/-- C66: nothing is received on the connection afterwards. -/
theorem C66_nothing_received_after (s : State) (h : Reachable s) (c : ConnId) (l1 l2 : List LEv)
    (hs : s.g.log = l1 ++ .disconnected c :: l2) : ∀ e ∈ l2, e.received c = false := by
  intro e he
  have := h.endInv.silent c l1 l2 hs e he
  cases e <;> simp_all [LEv.received, LEv.ofReader]

/-- C66: no accepted connection is forgotten: as long as the call has not been made, there is exactly one goroutine on
the way to it, and the only thing it may have to wait for is a handler slot. -/
theorem C66_not_forgotten (s : State) (h : Reachable s) (c : ConnId) (hu : (s.g.conns c).used = true)
    (hn : LEv.disconnected c ∉ s.g.log) :
    s.threads.countP (PC.isReader c) = 1 ∧
    ∀ pc ∈ s.threads, pc.isReader c = true →
      (∃ m, pc = .acquiring c m ∧ (s.g.conns c).limit > 1 ∧ ((s.g.conns c).slots : Int) ≥ (s.g.conns c).limit) ∨ ∀ ch, (act s.g ch pc).isSome = true := by
  have h1 := h.endInv.ends c
  rw [List.count_eq_zero.mpr hn, if_pos hu] at h1
  refine ⟨by omega, ?_⟩
  intro pc _ hr
  cases pc <;> simp [PC.isReader] at hr <;> try (right; intro ch; simp [act]; done)
  rename_i c' m _
  subst hr
  by_cases hl : (s.g.conns c').limit > 1 ∧ ((s.g.conns c').slots : Int) ≥ (s.g.conns c').limit
  · exact .inl ⟨m, rfl, hl⟩
  · right
    intro ch
    simp only [act, actAcquiring]
    split
    · rw [if_neg (by tauto)]; rfl
    · rfl

/-- C66: a read error leads there: the reader goes on to call `Close`, and then the hook. -/
theorem C66_read_error (g : G) (c : ConnId) (ch : Choice) :
    act g { ch with msg := none } (.reading c) = some (g, [.closing c true]) ∧
    ∃ g' pc, act g ch (.closing c true) = some (g', [pc]) ∧ (pc = .disconnecting c ∨
      (pc = .closeUnlinking c true ∧ act g' ch pc = some (unlinked g' c, [.disconnecting c]))) := by
  refine ⟨rfl, ?_⟩
  simp only [act, actClosing]
  split
  · exact ⟨_, _, rfl, .inl rfl⟩
  · split
    · exact ⟨_, _, rfl, .inr ⟨rfl, rfl⟩⟩
    · exact ⟨_, _, rfl, .inl rfl⟩

/-- C66, on handlers: none starts, or is still running, when `OnClientDisconnected` is called. -/
def C66_handlers_full : Prop :=
  ∀ s, Reachable s → ∀ c l1 l2, s.g.log = l1 ++ .disconnected c :: l2 →
    handlersRunning l1 c = 0 ∧ ∀ e ∈ l2, e.isStart c = false

/-- A connection with limit 2 receives a request and breaks before the handler's goroutine gets going. -/
def exDisconnect : List Cmd :=
  [.connect 1 2, recv 0 (exReq 1)] ++ steps 0 5 ++ [.go 1] ++ steps 1 2 ++ [.go 0]

/-- C66 does not hold as far as handlers are concerned: they run, and even start, after `OnClientDisconnected`. -/
theorem C66_handlers_violated : ¬ C66_handlers_full := by
  intro hf
  have hrun : ∃ s, play anyStep {} exDisconnect = some s ∧
      s.g.log = [.arrived 1 (exReq 1)] ++ .disconnected 1 :: [.start 1 (exReq 1)] := ⟨_, rfl, rfl⟩
  obtain ⟨s, h, hl⟩ := hrun
  have := (hf s (play_any h) 1 _ _ hl).2 (.start 1 (exReq 1)) (by simp)
  simp [LEv.isStart] at this

/-- C66 (partial): on connections with limit 0 or 1 all handlers are done by then, and none starts afterwards. Missing: other
limits, for which it is false. -/
theorem C66_handlers_partial (s : State) (h : Reachable s) (c : ConnId) (h0 : 0 ≤ (s.g.conns c).limit)
    (h1 : (s.g.conns c).limit ≤ 1) (l1 l2 : List LEv) (hs : s.g.log = l1 ++ .disconnected c :: l2) :
    handlersRunning l1 c = 0 ∧ ∀ e ∈ l2, e.isStart c = false := by
  have h3 := h.endInv.serial c h0 h1 l1 l2 hs
  refine ⟨?_, fun e he => (h3 e he).1⟩
  have hc1 : s.g.log.countP (LEv.isStart c) = l1.countP (LEv.isStart c) := by
    have hz : l2.countP (LEv.isStart c) = 0 := List.countP_eq_zero.mpr (fun e he => by simp [(h3 e he).1])
    rw [hs, List.countP_append, List.countP_cons, hz, if_neg (by simp [LEv.isStart])]
    rfl
  have hc2 : s.g.log.countP (LEv.isFinish c) = l1.countP (LEv.isFinish c) := by
    have hz : l2.countP (LEv.isFinish c) = 0 := List.countP_eq_zero.mpr (fun e he => by simp [(h3 e he).2])
    rw [hs, List.countP_append, List.countP_cons, hz, if_neg (by simp [LEv.isFinish])]
    rfl
  have hr := h.inv.runs c
  have hz : s.threads.countP (PC.runs c) = 0 := by
    have he := h.endInv.ends c
    rw [hs, List.count_append, List.count_cons_self] at he
    have hd := h.inv.detached c h0 h1
    have hrd : s.threads.countP (PC.isReader c) = 0 := by split at he <;> omega
    rw [List.countP_eq_zero] at *
    intro pc hm hp
    have a := hd pc hm
    have b := hrd pc hm
    cases pc <;> simp_all [PC.runs, PC.isReader, PC.detached]
  unfold handlersRunning
  omega

/-- C66, as documented (interfaces.go:70-73): the hook is called before the connection is unlinked. -/
def C66_before_unlink_full : Prop :=
  ∀ s s' l, Reachable s → Step s l s' → ∀ c, s'.g.log = s.g.log ++ [.disconnected c] → (s.g.conns c).sockCloses = 0

/-- C66 does not hold in this respect: a client that disconnects while nothing is being handled is unlinked first, and
the hook finds a connection without session. -/
theorem C66_before_unlink_violated : ¬ C66_before_unlink_full := by
  intro hf
  have hrun : ∃ s, play anyStep {} ([.connect 1 1, .go 0] ++ steps 0 2) = some s ∧ s.threads = [.disconnecting 1] ∧
      s.g.crashed = none ∧ (s.g.conns 1).sockCloses = 1 := ⟨_, rfl, rfl, rfl, rfl⟩
  obtain ⟨⟨g, ts⟩, h, ht, hc, hz⟩ := hrun
  simp only at ht hc hz
  subst ht
  have hst := Step.thread g _ [] [] _ (.disconnecting 1) {} hc rfl
  have := hf _ _ _ (play_any h) hst 1 rfl
  simp only at this
  omega

/-- A serial connection handles a request and then breaks. -/
example : ∃ s, play anyStep {} ([.connect 1 1, recv 0 (exReq 1)] ++ steps 0 10 ++ steps 0 3 ++ [.go 0]) = some s ∧
    (s.g.conns 1).limit = 1 ∧
    s.g.log = [.arrived 1 (exReq 1), .start 1 (exReq 1), .finish 1 (exReq 1)] ++ .disconnected 1 :: [] :=
  ⟨_, rfl, rfl, rfl⟩

/-- A connection on which a request waits for a slot, as in `C66_not_forgotten`. -/
example : ∃ s, play anyStep {} exBusy = some s ∧ (s.g.conns 1).used = true ∧ LEv.disconnected 1 ∉ s.g.log ∧
    PC.acquiring 1 (exReq 3) ∈ s.threads := ⟨_, rfl, rfl, by decide, by decide⟩

end Webwire.Life
