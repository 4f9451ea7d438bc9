import Verif.Proofs.Accept
import Verif.Proofs.AcceptExec

/-!
# C101: `OnClientConnected` comes first; C102: no new connections during shutdown

In all interleavings of any number of new connections with one another, with messages, handlers, `Close` and `Shutdown`.
-/

set_option autoImplicit false

namespace Webwire.Accept

open Life (LEv)

/-- The event has to do with this connection: a message of it arrives, is dropped or refused, its handler starts or ends, or
`OnClientDisconnected` is called for it. -/
def Concerns (c : ConnId) : LEv → Prop
  | .arrived c' _ | .dropped c' _ | .refused c' _ | .start c' _ | .finish c' _ | .disconnected c' => c' = c
  | .stop | .transportDown => False

/-- Any number of steps. -/
inductive Steps (s : State) : State → Prop
  | refl : Steps s s
  | tail (u v : State) : Steps s u → Step u v → Steps s v

/-- C101: whatever happens to a connection, happens in this order: the transport is told that it may accept the connection,
its configuration is sent, `OnClientConnected` is called, and it returns; each at most once. A connection that was refused, or
could not be sent its configuration, never becomes one of the server's: none of its hooks is called. -/
theorem C101_in_order (s : State) (h : Reachable s) (c : ConnId) :
    s.log.count (.hello c) ≤ 1 ∧ s.log.count (.ready c) ≤ 1 ∧
    (∀ l1 l2, s.log = l1 ++ .configured c :: l2 → .asked c ∈ l1) ∧
    (∀ l1 l2, s.log = l1 ++ .hello c :: l2 → .configured c ∈ l1) ∧
    (∀ l1 l2, s.log = l1 ++ .ready c :: l2 → .hello c ∈ l1) ∧
    (.refused c ∈ s.log ∨ .unconfigured c ∈ s.log → .hello c ∉ s.log ∧ (s.life.g.conns c).used = false) := by
  obtain ⟨h1, h2, h3, h4, h5, h6⟩ := (h.inv.stage c).order
  have hm : ∀ (l : List AEv) e, e.of c = true → (e ∈ l.filter (AEv.of c) ↔ e ∈ l) := by
    intro l e he; simp [he]
  have hsplit : ∀ (l1 l2 : List AEv) e, e.of c = true → s.log = l1 ++ e :: l2 →
      s.log.filter (AEv.of c) = l1.filter (AEv.of c) ++ e :: l2.filter (AEv.of c) := by
    intro l1 l2 e he hl; rw [hl]; simp [he]
  rw [List.count_filter (by simp [AEv.of])] at h1 h2
  rw [hm _ _ (by simp [AEv.of]), hm _ _ (by simp [AEv.of]), hm _ _ (by simp [AEv.of])] at h6
  refine ⟨h1, h2, ?_, ?_, ?_, h6⟩
  · intro l1 l2 hl
    exact (hm _ _ (by simp [AEv.of])).mp (h3 _ _ (hsplit l1 l2 _ (by simp [AEv.of]) hl))
  · intro l1 l2 hl
    exact (hm _ _ (by simp [AEv.of])).mp (h4 _ _ (hsplit l1 l2 _ (by simp [AEv.of]) hl))
  · intro l1 l2 hl
    exact (hm _ _ (by simp [AEv.of])).mp (h5 _ _ (hsplit l1 l2 _ (by simp [AEv.of]) hl))

/-- Two clients dial. The hook of the first runs while the second is accepted, its hook returns, and it sends a signal that is
handled; `Close` is called on the first. -/
def exTwo : List Cmd :=
  [.dial 1 0, .go 0, .go 0, .go 0, .go 0, .dial 2 0, .go 0, .go 0, .go 0, .go 0, .go 0,
    .life (.go 0 { msg := some ⟨.signal, 7⟩ }), .life (.go 0), .life (.go 0), .life (.go 0), .life (.go 0), .life (.go 0),
    .life (.go 0), .life (.close 1)]

example : ∃ s, play {} exTwo = some s ∧ s.accepting = [.greeted 1] ∧
    s.log = [.asked 1, .configured 1, .hello 1, .asked 2, .configured 2, .hello 2, .ready 2, .life (.arrived 2 ⟨.signal, 7⟩),
      .life (.start 2 ⟨.signal, 7⟩)] := ⟨_, rfl, rfl, rfl⟩

/-- C101: no message of a connection is received, dropped, refused or handled, and `OnClientDisconnected` is not called for it,
before `OnClientConnected` returned, not even if the connection is closed meanwhile. -/
theorem C101_first (s : State) (h : Reachable s) (c : ConnId) (e : LEv) (he : Concerns c e) (l1 l2 : List AEv)
    (hl : s.log = l1 ++ .life e :: l2) : .ready c ∈ l1 := by
  refine h.inv.after l1 e l2 c hl ?_
  cases e <;> simp_all [Concerns, connOf]

/-- The event is there in the example. -/
example : ∃ s, play {} exTwo = some s ∧ s.log.any (fun e => e == .life (.start 2 ⟨.signal, 7⟩)) = true := ⟨_, rfl, rfl⟩

/-- C101: `OnClientConnected` is called for every connection that was sent its configuration: nothing keeps its goroutine from
doing so, whatever state the server is in (unless the process has crashed). -/
theorem C101_called (s : State) (h : Reachable s) (c : ConnId) (hc : s.life.g.crashed = none) (hm : .configured c ∈ s.log) :
    ∃ s', Steps s s' ∧ .hello c ∈ s'.log := by
  have go : ∀ (u : State) pc, u.life.g.crashed = none → pc ∈ u.accepting → ∃ u', Step u u' ∧
      u'.life = (act u.life true pc).1 ∧ u'.log = u.log ++ (act u.life true pc).2.2 ∧
      ∀ q ∈ (act u.life true pc).2.1, q ∈ u'.accepting := by
    intro u pc hcr hpc
    obtain ⟨pre, post, hp⟩ := List.append_of_mem hpc
    exact ⟨_, .go u pre post _ pc true _ _ hcr hp rfl, rfl, rfl,
      fun q hq => List.mem_append_right _ (List.mem_append_left _ hq)⟩
  have greet : ∀ u : State, u.life.g.crashed = none → .greeting c ∈ u.accepting → ∃ u', Step u u' ∧ .hello c ∈ u'.log := by
    intro u hcr hu
    obtain ⟨u', h1, -, h2, -⟩ := go u _ hcr hu
    exact ⟨u', h1, by rw [h2]; simp [act]⟩
  have hs := h.inv.stage c
  unfold State.stage at hs
  have hm' : .configured c ∈ s.log.filter (AEv.of c) := by simp [hm, AEv.of]
  have hacc : ∀ pc, pc ∈ s.accepting.filter (APC.of c) → pc ∈ s.accepting := fun pc h => (List.mem_filter.mp h).1
  have hlog : ∀ e, e ∈ s.log.filter (AEv.of c) → e ∈ s.log := fun pc h => (List.mem_filter.mp h).1
  generalize s.log.filter (AEv.of c) = l at *
  generalize s.accepting.filter (APC.of c) = a at *
  generalize (s.life.g.conns c).used = u at *
  generalize decide (c ∈ s.dialed) = d at *
  cases hs with
  | new | asking | refused | accepted | unconfigured => simp at hm'
  | registering lim =>
    obtain ⟨u, h1, h2, -, h3⟩ := go s (.registering c lim) hc (hacc _ (by simp))
    obtain ⟨v, h4, h5⟩ := greet u (by rw [h2]; exact hc) (h3 _ (by simp [act]))
    exact ⟨v, .tail _ _ (.tail _ _ .refl h1) h4, h5⟩
  | greeting =>
    obtain ⟨v, h4, h5⟩ := greet s hc (hacc _ (by simp))
    exact ⟨v, .tail _ _ .refl h4, h5⟩
  | greeted => exact ⟨s, .refl, hlog _ (by simp)⟩
  | ready => exact ⟨s, .refl, hlog _ (by simp)⟩

example : ∃ s, play {} [.dial 1 0, .go 0, .go 0] = some s ∧ s.life.g.crashed = none ∧
    s.log = [.asked 1, .configured 1] := ⟨_, rfl, rfl, rfl⟩

/-- C101: apart from that, the server does with new connections around nothing it does not do in `Model/Lifecycle`, and
records the same; so what is proved there of all executions holds here, too. -/
theorem C101_otherwise_the_same (s : State) (h : Reachable s) :
    Life.Reachable s.life ∧ s.life.g.log = s.log.filterMap fun | .life e => some e | _ => none := by
  refine ⟨h.inv.reach, ?_⟩
  rw [← h.inv.logs]
  congr 1

example : ∃ s, play {} exTwo = some s ∧ s.life.g.log = [.arrived 2 ⟨.signal, 7⟩, .start 2 ⟨.signal, 7⟩] := ⟨_, rfl, rfl⟩

/-- C102: once `Shutdown` was called, no new connection is accepted: `OnClientConnected` is not called any more. -/
def C102_full : Prop :=
  ∀ s, Reachable s → ∀ l1 l2 c, s.log = l1 ++ .life .stop :: l2 → .hello c ∉ l2

/-- A client dials; then the server is shut down, and `Shutdown` returns; then the connection is set up. -/
def exLate : List Cmd :=
  [.dial 1 0, .go 0, .life .shutdown, .life (.go 0), .life (.go 0), .go 0, .go 0, .go 0]

/-- C102 does not hold: connections of which the transport asked before are still set up. -/
theorem C102_violated : ¬ C102_full := by
  intro hfull
  have hrun : ∃ s, play {} exLate = some s ∧
      s.log = [.asked 1] ++ .life .stop :: [.life .transportDown, .configured 1, .hello 1] := ⟨_, rfl, rfl⟩
  obtain ⟨s, hs, hl⟩ := hrun
  exact hfull s (play_reachable .start hs) _ _ 1 hl (by simp)

/-- C102: not even those that are not set up when `Shutdown` returns are refused: `OnClientConnected` is called after it
returned, and the server goes on serving the client: it receives a signal and handles it. -/
theorem C102_after_return_violated : ∃ s, Reachable s ∧
    s.log = [.asked 1, .life .stop, .life .transportDown, .configured 1, .hello 1, .ready 1,
      .life (.arrived 1 ⟨.signal, 7⟩), .life (.start 1 ⟨.signal, 7⟩)] := by
  have hrun : ∃ s, play {} (exLate ++ [.go 0, .life (.go 0 { msg := some ⟨.signal, 7⟩ }), .life (.go 0), .life (.go 0),
      .life (.go 0), .life (.go 0), .life (.go 0), .life (.go 0)]) = some s ∧
    s.log = [.asked 1, .life .stop, .life .transportDown, .configured 1, .hello 1, .ready 1,
      .life (.arrived 1 ⟨.signal, 7⟩), .life (.start 1 ⟨.signal, 7⟩)] := ⟨_, rfl, rfl⟩
  obtain ⟨s, hs, hl⟩ := hrun
  exact ⟨s, play_reachable .start hs, hl⟩

/-- C102 for connections of which the transport asks after `Shutdown` was called: they are refused, and
`OnClientConnected` is never called for them. Missing compared to `C102_full`: connections the transport had asked for
before. -/
theorem C102_partial (s : State) (h : Reachable s) (l1 l2 : List AEv) (c : ConnId) (hl : s.log = l1 ++ .life .stop :: l2)
    (hb : .asked c ∉ l1) : .hello c ∉ s.log ∧ .configured c ∉ s.log ∧ (s.life.g.conns c).used = false := by
  have hna : .asked c ∉ s.log := by
    rw [hl]
    have := h.inv.late l1 l2 c hl
    simp [hb, this]
  have hs := h.inv.stage c
  unfold State.stage at hs
  have hm : .asked c ∉ s.log.filter (AEv.of c) := fun hm => hna (List.mem_filter.mp hm).1
  have hm' : ∀ e, e.of c = true → e ∉ s.log.filter (AEv.of c) → e ∉ s.log := by
    intro e he hn hin; exact hn (List.mem_filter.mpr ⟨hin, he⟩)
  refine ⟨hm' _ (by simp [AEv.of]) ?_, hm' _ (by simp [AEv.of]) ?_, ?_⟩
  all_goals
    generalize s.log.filter (AEv.of c) = l at *
    generalize s.accepting.filter (APC.of c) = a at *
    generalize (s.life.g.conns c).used = u at *
    generalize decide (c ∈ s.dialed) = d at *
    cases hs <;> simp_all

/-- A client dials during shutdown, and is refused. -/
example : ∃ s, play {} [.life .shutdown, .life (.go 0), .dial 1 0, .go 0] = some s ∧
    s.log = [] ++ .life .stop :: [.refused 1] := ⟨_, rfl, rfl⟩

/-- C102: a client that dials after `Shutdown` was called is not accepted, whatever happens. -/
theorem C102_dialed_later_partial (s s' : State) (h : Reachable s) (hstop : .life .stop ∈ s.log) (c : ConnId)
    (hc : c ∉ s.dialed) (hs : Steps s s') : .hello c ∉ s'.log ∧ (s'.life.g.conns c).used = false := by
  have hr : Reachable s' ∧ ∃ l, s'.log = s.log ++ l := by
    induction hs with
    | refl => exact ⟨h, [], by simp⟩
    | tail u v _ hst ih =>
      obtain ⟨hu, l, hl⟩ := ih
      obtain ⟨l', hl'⟩ := hst.logs
      exact ⟨.step _ _ hu hst, l ++ l', by rw [hl', hl, List.append_assoc]⟩
  obtain ⟨hr, l, hl⟩ := hr
  obtain ⟨l1, l2, h12⟩ := List.append_of_mem hstop
  have hna : .asked c ∉ s.log := by
    have hs := h.inv.stage c
    unfold State.stage at hs
    intro hin
    have hm : .asked c ∈ s.log.filter (AEv.of c) := by simp [hin, AEv.of]
    generalize s.log.filter (AEv.of c) = l at *
    generalize s.accepting.filter (APC.of c) = a at *
    generalize (s.life.g.conns c).used = u at *
    simp only [hc, decide_false] at hs
    generalize hd : false = d at hs
    cases hs <;> simp_all
  have := C102_partial s' hr l1 (l2 ++ l) c (by rw [hl, h12]; simp) (fun hin => hna (by rw [h12]; simp [hin]))
  exact ⟨this.1, this.2.2⟩

example : ∃ s, play {} [.life .shutdown, .life (.go 0)] = some s ∧ s.log = [.life .stop] ∧ s.dialed = [] := ⟨_, rfl, rfl, rfl⟩

end Webwire.Accept
