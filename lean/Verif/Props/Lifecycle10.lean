import Verif.Proofs.Lifecycle5

/-!
# C106: what `IsActive` says

connection.go:85-91 `IsActive` returns the field `active`. All executions of the server.
-/

set_option autoImplicit false

namespace Webwire.Life

open Spec

/-- `IsActive` means "ready to accept incoming messages": as long as it says true no message is refused. -/
def C106_ready_full : Prop := ∀ s, Reachable s → ∀ c, (s.g.conns c).active = true → ∀ m, .refused c m ∉ s.g.log

/-- "Otherwise returns false": when it says false no handler of the connection starts any more. -/
def C106_false_full : Prop := ∀ s, Reachable s → ∀ c, (s.g.conns c).used = true → (s.g.conns c).active = false →
  ∀ l s' m, Step s l s' → s'.g.log ≠ s.g.log ++ [.start c m]

/-- C106 does not hold: during a shutdown requests are refused on connections that say they are active. -/
theorem C106_ready_violated : ¬ C106_ready_full := by
  intro hf
  have hrun : ∃ s, play anyStep {} ([.connect 1 1, .shutdown, .go 0, .go 0, recv 0 (exReq 1)] ++ steps 0 4) = some s ∧
      (s.g.conns 1).active = true ∧ .refused 1 (exReq 1) ∈ s.g.log := ⟨_, rfl, rfl, by decide⟩
  obtain ⟨s, h, ha, hm⟩ := hrun
  exact hf s (play_any h) 1 ha _ hm

/-- C106 does not hold: a message that has passed the check is handled after `IsActive` has become false. -/
theorem C106_false_violated : ¬ C106_false_full := by
  intro hf
  have hrun : ∃ s s', play anyStep {} ([.connect 1 1, recv 0 (exReq 1), .go 0, .close 1, .go 0] ++ steps 0 5) = some s ∧
      (s.g.conns 1).used = true ∧ (s.g.conns 1).active = false ∧ exec s (.go 0) = some s' ∧
      Cmd.label s (.go 0) = some (.thread (.starting 1 (exReq 1) true) {}) ∧ s'.g.log = s.g.log ++ [.start 1 (exReq 1)] :=
    ⟨_, _, rfl, rfl, rfl, rfl, rfl, rfl⟩
  obtain ⟨s, s', h, hu, ha, he, hl, hlog⟩ := hrun
  exact hf s (play_any h) 1 hu ha _ s' _ (exec_step hl he) hlog

theorem Step.inactive {s s' : State} {l : Label} (h : Step s l s') (c : ConnId) (hu : (s.g.conns c).used = true)
    (ha : (s.g.conns c).active = false) : (s'.g.conns c).used = true ∧ (s'.g.conns c).active = false := by
  cases h with
  | thread g g' pre post pcs pc ch hc hact =>
    have := acts_of_act hact
    exact ⟨by rw [(this.static c).1]; exact hu, this.activeMono c ha⟩
  | connect g ts c' limit hc hu' =>
    simp only [connected]
    split
    · rename_i e
      subst e
      simp only at hu
      rw [hu] at hu'
      cases hu'
    · exact ⟨hu, ha⟩
  | close g ts c' hc hu' => exact ⟨hu, ha⟩
  | shutdown g ts hc => exact ⟨hu, ha⟩

theorem Spec.Then.inactive {s s' : State} (h : Then (fun _ _ => True) s s') (c : ConnId) (hu : (s.g.conns c).used = true)
    (ha : (s.g.conns c).active = false) : (s'.g.conns c).used = true ∧ (s'.g.conns c).active = false := by
  induction h with
  | start => exact ⟨hu, ha⟩
  | step a l b _ _ hs ih => exact hs.inactive c ih.1 ih.2

/-- C106: once `IsActive` has returned false it returns false for ever. -/
theorem C106_for_ever (s s' : State) (h : Then (fun _ _ => True) s s') (c : ConnId) (hu : (s.g.conns c).used = true)
    (ha : (s.g.conns c).active = false) : (s'.g.conns c).active = false := (h.inactive c hu ha).2

/-- C106: from the critical section of `Close` on it returns false, and so when `Close` has returned. -/
theorem C106_closed (s s' : State) (c : ConnId) (rd : Bool) (ch : Choice) (h : Step s (.thread (.closing c rd) ch) s') :
    (s'.g.conns c).active = false := by
  cases h with
  | thread g g' pre post pcs pc ch hc hact =>
    simp only [act, actClosing, Option.some.injEq] at hact
    split at hact <;> grind [G.upd]

/-- Past the critical section of `Close`. -/
def PC.afterClose (c : ConnId) : PC → Bool
  | .closeUnlinking c' _ | .disconnecting c' | .unlinking c' _ => decide (c' = c)
  | _ => false

theorem Acts.afterClose {g g' : G} {ch : Choice} {pc : PC} {pcs : List PC} (h : Acts g ch pc g' pcs) (c : ConnId) (q : PC) (hq : q ∈ pcs)
    (hp : q.afterClose c = true) : (g'.conns c).active = false ∨ pc.afterClose c = true := by
  cases h <;> grind [G.ev, G.upd, unlinked, G.crash, resume, closed, PC.afterClose]

theorem Acts.disconnects {g g' : G} {ch : Choice} {pc : PC} {pcs : List PC} (h : Acts g ch pc g' pcs) (c : ConnId)
    (hm : .disconnected c ∈ g'.log) : .disconnected c ∈ g.log ∨ pc.afterClose c = true := by
  cases h <;> grind [G.ev, G.upd, unlinked, G.crash, PC.afterClose]

theorem PC.afterClose_isOn {c : ConnId} {pc : PC} (h : pc.afterClose c = true) : pc.isOn c = true := by
  cases pc <;> simp_all [PC.afterClose, PC.isOn]

theorem ReachableIf.afterClose {ok : State → Label → Prop} {s : State} (h : ReachableIf ok s) (c : ConnId)
    (hd : .disconnected c ∈ s.g.log ∨ ∃ pc ∈ s.threads, pc.afterClose c = true) :
    (s.g.conns c).used = true ∧ (s.g.conns c).active = false := by
  induction h with
  | start => simp at hd
  | step s l s' hr ho hs ih =>
    have old : (.disconnected c ∈ s.g.log ∨ ∃ pc ∈ s.threads, pc.afterClose c = true) →
        (s'.g.conns c).used = true ∧ (s'.g.conns c).active = false := fun h => hs.inactive c (ih h).1 (ih h).2
    cases hs with
    | thread g g' pre post pcs pc ch hc hact =>
      have ha := acts_of_act hact
      simp only at hd old
      rcases hd with hd | ⟨q, hq, hp⟩
      · rcases ha.disconnects c hd with h | h
        · exact old (.inl h)
        · exact old (.inr ⟨pc, by simp, h⟩)
      · simp only [List.mem_append] at hq
        rcases hq with hq | hq | hq
        · exact old (.inr ⟨q, by simp [hq], hp⟩)
        · rcases ha.afterClose c q hq hp with h | h
          · refine ⟨?_, h⟩
            simp only
            rw [(ha.static c).1]
            apply Classical.byContradiction
            intro hu
            have h0 := hr.inv.unused c (by simpa using hu)
            have : pc.isOn c = true := by
              apply Classical.byContradiction
              intro hx
              have := (ha.on c (by simpa using hx)).1
              rw [List.countP_eq_zero] at this
              exact this q hq (PC.afterClose_isOn hp)
            simp [this] at h0
          · exact old (.inr ⟨pc, by simp, h⟩)
        · exact old (.inr ⟨q, by simp [hq], hp⟩)
    | connect g ts c' limit hc hu =>
      refine old ?_
      rcases hd with hd | ⟨q, hq, hp⟩
      · exact .inl hd
      · rcases List.mem_cons.mp hq with rfl | hq
        · simp [PC.afterClose] at hp
        · exact .inr ⟨q, hq, hp⟩
    | close g ts c' hc hu =>
      refine old ?_
      rcases hd with hd | ⟨q, hq, hp⟩
      · exact .inl hd
      · rcases List.mem_cons.mp hq with rfl | hq
        · simp [PC.afterClose] at hp
        · exact .inr ⟨q, hq, hp⟩
    | shutdown g ts hc =>
      refine old ?_
      rcases hd with hd | ⟨q, hq, hp⟩
      · exact .inl hd
      · rcases List.mem_cons.mp hq with rfl | hq
        · simp [PC.afterClose] at hp
        · exact .inr ⟨q, hq, hp⟩

/-- C106: in `OnClientDisconnected` and after it `IsActive` returns false. -/
theorem C106_disconnected (s : State) (h : Reachable s) (c : ConnId) (hd : .disconnecting c ∈ s.threads ∨ .disconnected c ∈ s.g.log) :
    (s.g.conns c).active = false :=
  (ReachableIf.afterClose h c (hd.elim (fun h => .inr ⟨_, h, by simp [PC.afterClose]⟩) .inl)).2

/-- C106: it returns true from the beginning until somebody calls `Close` or reading from the socket fails. -/
theorem C106_until_closed (s : State) (c : ConnId) (h : ReachableIf (LeftAlone c) s) (hu : (s.g.conns c).used = true) :
    (s.g.conns c).active = true := ((C30_stays_open s c h).1 hu).1

/-- C106 (partial): while it returns true, and `Shutdown` has not been called, every message that was received has been given to its
handler or is on its way to it: none was dropped or refused. Missing: shutdown. -/
theorem C106_ready_partial (s : State) (h : Reachable s) (c : ConnId) (ha : (s.g.conns c).active = true) (hs : .stop ∉ s.g.log) (m : LMsg)
    (hm : m.kind = .signal ∨ m.kind = .request ∨ m.kind = .session) :
    s.g.log.count (.arrived c m) = s.g.log.count (.start c m) + s.threads.countP (PC.pends c m) := by
  have h1 := ReachableIf.accounted h c m hm
  have h2 : s.g.log.count (.dropped c m) = 0 := List.count_eq_zero.mpr (fun hd => by
    rw [(ReachableIf.dropped h c m hd).1] at ha
    cases ha)
  have h3 : s.g.log.count (.refused c m) = 0 := List.count_eq_zero.mpr (fun hd => hs ((ReachableIf.refInv h).log c m hd).2)
  omega

/-- The message has passed the check of the connection's state (registerHandler.go:19-21) and its handler has not started. -/
def PC.passed (c : ConnId) (m : LMsg) : PC → Bool
  | .acquiring c' m' | .counting c' m' | .refusing c' m' | .tasking c' m' | .dispatching c' m' | .starting c' m' _ => decide (c' = c ∧ m' = m)
  | _ => false

theorem Acts.passed {g g' : G} {ch : Choice} {pc : PC} {pcs : List PC} (h : Acts g ch pc g' pcs) (c : ConnId) (m : LMsg)
    (ha : (g.conns c).active = false) :
    g'.log.count (.start c m) + pcs.countP (PC.passed c m) ≤ g.log.count (.start c m) + [pc].countP (PC.passed c m) := by
  cases h <;> simp [PC.passed, resume, closed, G.ev, G.upd, G.crash, unlinked, List.countP_cons, List.count_cons] <;>
    grind [PC.passed]

/-- C106 (partial): once it returns false, only messages are handled that had passed the check before: whatever arrives later is not
given to a handler. Missing: those messages. -/
theorem C106_false_partial (s s' : State) (h : Then (fun _ _ => True) s s') (c : ConnId) (hu : (s.g.conns c).used = true)
    (ha : (s.g.conns c).active = false) (m : LMsg) :
    s'.g.log.count (.start c m) ≤ s.g.log.count (.start c m) + s.threads.countP (PC.passed c m) := by
  have key : s'.g.log.count (.start c m) + s'.threads.countP (PC.passed c m) ≤
      s.g.log.count (.start c m) + s.threads.countP (PC.passed c m) := by
    induction h with
    | start => exact Nat.le_refl _
    | step a l b h1 _ hs ih =>
      have hi := (h1.inactive c hu ha).2
      refine Nat.le_trans ?_ ih
      cases hs with
      | thread g g' pre post pcs pc ch hc hact =>
        have := (acts_of_act hact).passed c m hi
        simp only [List.countP_append, List.countP_cons, List.countP_nil] at *
        omega
      | connect g ts c limit hc hu => simp [PC.passed, List.countP_cons]
      | close g ts c hc hu => simp [PC.passed, List.countP_cons]
      | shutdown g ts hc => simp [PC.passed, List.countP_cons]
  omega

/-! ### Not vacuous -/

/-- Active, a request handled, another one on its way; closed; then a third one, which is dropped. -/
example : ∃ s, play anyStep {} ([.connect 1 2, recv 0 (exReq 1)] ++ steps 0 5 ++ [.go 0, recv 1 (exReq 2), .go 1]) = some s ∧
    (s.g.conns 1).active = true ∧ .stop ∉ s.g.log ∧ s.g.log.count (.start 1 (exReq 1)) = 1 ∧
    s.threads.countP (PC.pends 1 (exReq 2)) = 1 := ⟨_, rfl, rfl, by decide, by decide, by decide⟩

example : ∃ s s', play anyStep {} [.connect 1 2, .close 1, .go 0] = some s ∧ (s.g.conns 1).active = false ∧
    play anyStep s [.go 0, recv 0 (exReq 3), .go 0] = some s' ∧ s'.g.log = [.arrived 1 (exReq 3), .dropped 1 (exReq 3)] :=
  ⟨_, _, rfl, rfl, rfl, rfl⟩

/-- A connection whose client is gone: `OnClientDisconnected`. -/
example : ∃ s, play anyStep {} [.connect 1 2, .go 0, .go 0, .go 0] = some s ∧ .disconnecting 1 ∈ s.threads ∧
    (s.g.conns 1).active = false := ⟨_, rfl, by decide, rfl⟩

end Webwire.Life
