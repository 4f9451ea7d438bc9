import Verif.Props.Lifecycle2

/-!
# C71: closing a connection gracefully

README.md:308-314: "a connection will be closed when all work on it is done, while incoming requests and signals are handled
similarly to shutting down the server", and `Close` "will block until all work on this connection is done".
-/

set_option autoImplicit false

namespace Webwire.Life

/-- C71: `Close` returns only when no handler of the connection is running. -/
def C71_blocks_full : Prop :=
  ∀ s, Reachable s → ∀ c ch g', .closing c false ∈ s.threads → act s.g ch (.closing c false) = some (g', []) →
    handlersRunning s.g.log c = 0

/-- C71: requests that come in on a connection being closed are rejected with a reply, as during shutdown. -/
def C71_rejected_full : Prop := ∀ s, Reachable s → ∀ c m, m.requiresReply = true → .dropped c m ∉ s.g.log

/-- A request is being handled when `Close` is called. -/
def exCloseBusy : List Cmd := [.connect 1 1, recv 0 (exReq 1)] ++ steps 0 6 ++ [.close 1]

/-- C71 does not hold: `Close` returns while the handler is running. -/
theorem C71_blocks_violated : ¬ C71_blocks_full := by
  intro hf
  have hrun : ∃ s, play anyStep {} exCloseBusy = some s ∧ .closing 1 false ∈ s.threads ∧
      handlersRunning s.g.log 1 = 1 ∧ ∃ g', act s.g {} (.closing 1 false) = some (g', []) :=
    ⟨_, rfl, by decide, rfl, _, rfl⟩
  obtain ⟨s, h, hm, hr, g', ha⟩ := hrun
  have := hf s (play_any h) 1 {} g' hm ha
  omega

/-- C71: in fact `Close` waits for nothing: it returns at once, or after having unlinked the connection. -/
theorem C71_never_waits (g : G) (ch : Choice) (c : ConnId) :
    ∃ g', act g ch (.closing c false) = some (g', []) ∨
      (act g ch (.closing c false) = some (g', [.closeUnlinking c false]) ∧
        ∃ g'', act g' ch (.closeUnlinking c false) = some (g'', [])) := by
  simp only [act, actClosing]
  split
  · exact ⟨_, .inl rfl⟩
  · split
    · exact ⟨_, .inr ⟨rfl, _, rfl⟩⟩
    · exact ⟨_, .inl rfl⟩

/-- A request on a connection that is being closed while another one is handled by a goroutine. -/
def exCloseDrop : List Cmd :=
  [.connect 1 2, recv 0 (exReq 1)] ++ steps 0 6 ++ [.close 1, .go 0, recv 1 (exReq 2), .go 1]

/-- C71 does not hold: such a request is dropped without a reply, and its client is left waiting. -/
theorem C71_rejected_violated : ¬ C71_rejected_full := by
  intro hf
  have hrun : ∃ s, play anyStep {} exCloseDrop = some s ∧ .dropped 1 (exReq 2) ∈ s.g.log := ⟨_, rfl, by decide⟩
  obtain ⟨s, h, hm⟩ := hrun
  exact hf s (play_any h) 1 (exReq 2) rfl hm

theorem Acts.activeMono {g g' : G} {ch : Choice} {pc : PC} {pcs : List PC} (h : Acts g ch pc g' pcs) (c : ConnId)
    (ha : (g.conns c).active = false) : (g'.conns c).active = false := by
  cases h <;> grind [G.ev, G.upd, unlinked, G.crash]

theorem Acts.dropEv {g g' : G} {ch : Choice} {pc : PC} {pcs : List PC} (h : Acts g ch pc g' pcs) (c : ConnId) (m : LMsg)
    (hm : .dropped c m ∈ g'.log) : .dropped c m ∈ g.log ∨ ((g.conns c).active = false ∧ pc = .checking c m) := by
  cases h <;> grind [G.ev, G.upd, unlinked, G.crash]

theorem ReachableIf.dropped {ok : State → Label → Prop} {s : State} (h : ReachableIf ok s) (c : ConnId) (m : LMsg)
    (hm : .dropped c m ∈ s.g.log) : (s.g.conns c).active = false ∧ (s.g.conns c).used = true := by
  induction h with
  | start => simp at hm
  | step s l s' hr ho hs ih =>
    cases hs with
    | thread g g' pre post pcs pc ch hc hact =>
      have ha := acts_of_act hact
      have hst := (ha.static c).1
      simp only at hm ih ⊢
      rcases ha.dropEv c m hm with h1 | ⟨h1, rfl⟩
      · exact ⟨ha.activeMono c (ih h1).1, by rw [hst]; exact (ih h1).2⟩
      · refine ⟨ha.activeMono c h1, ?_⟩
        rw [hst]
        by_contra hu
        have := hr.inv.unused c (by simpa using hu)
        simp [PC.isOn] at this
    | connect g ts c' limit hc hu =>
      have := ih hm
      simp only [connected] at hm ⊢
      split
      · rename_i e
        subst e
        simp only at this
        rw [this.2] at hu
        cases hu
      · exact this
    | close g ts c' hc hu => exact ih hm
    | shutdown g ts hc => exact ih hm

/-- C71 (partial): requests are dropped only on connections that have been closed. On any other connection each request that
has arrived was handled, was refused because of a shutdown, or is on its way. Missing: requests on a closed connection. -/
theorem C71_rejected_partial (s : State) (h : Reachable s) (c : ConnId) (ha : (s.g.conns c).active = true) (m : LMsg)
    (hm : m.requiresReply = true) :
    s.g.log.count (.arrived c m) = s.g.log.count (.refused c m) + s.g.log.count (.start c m) +
      s.threads.countP (PC.pends c m) := by
  have h1 := ReachableIf.accounted h c m (by
    simp only [LMsg.requiresReply, decide_eq_true_eq] at hm
    tauto)
  have h2 : s.g.log.count (.dropped c m) = 0 := List.count_eq_zero.mpr (fun hd => by
    rw [(ReachableIf.dropped h c m hd).1] at ha
    cases ha)
  omega

/-- A request handled on a connection that is open. -/
example : ∃ s, play anyStep {} ([.connect 1 1, recv 0 (exReq 1)] ++ steps 0 6) = some s ∧
    (s.g.conns 1).active = true ∧ s.g.log = [.arrived 1 (exReq 1), .start 1 (exReq 1)] := ⟨_, rfl, rfl, rfl⟩

end Webwire.Life
