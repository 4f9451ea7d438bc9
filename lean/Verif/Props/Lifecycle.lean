import Verif.Proofs.Lifecycle3
import Verif.Proofs.LifecycleExec

/-!
# C25-C30: handlers, shutdown and closing under all schedules

Executions are those of `Model/Lifecycle`: any number of connections and goroutines, any interleaving.
-/

set_option autoImplicit false

namespace Webwire.Life

/-! ## Example executions -/

/-- Messages of the examples. -/
def exReq (n : Nat) : LMsg := ⟨.request, n⟩
def exSig (n : Nat) : LMsg := ⟨.signal, n⟩

/-- The i-th goroutine receives a message. -/
def recv (i : Nat) (m : LMsg) : Cmd := .go i { msg := some m }

/-- n steps of the i-th goroutine. -/
def steps (i n : Nat) : List Cmd := List.replicate n (.go i)

/-- Up to three requests on a connection with limit 2; two handlers run, the third request waits for a slot. -/
def exBusy : List Cmd :=
  [.connect 1 2, recv 0 (exReq 1)] ++ steps 0 5 ++ [.go 0, recv 1 (exReq 2)] ++ steps 1 5 ++ [.go 1] ++
    [recv 2 (exReq 3), .go 2]

/-- A serial connection handles a request, then a signal is being handled. -/
def exSerial : List Cmd :=
  [.connect 1 1, recv 0 (exReq 1)] ++ steps 0 10 ++ [recv 0 (exSig 2)] ++ steps 0 6

/-! ## C25 -/

/-- C25: with limit n > 1 at most n handlers of the connection run at any time. -/
theorem C25_limit (s : State) (h : Reachable s) (c : ConnId) (hl : (s.g.conns c).limit > 1) :
    handlersRunning s.g.log c ≤ (s.g.conns c).limit := by
  have hi := h.inv
  have h1 := hi.slots c hl
  have h2 := hi.slotsLe c hl
  have h3 := hi.runs c
  have h4 : s.threads.countP (PC.runs c) ≤ s.threads.countP (PC.holdsSlot c) := by
    apply List.countP_mono_left
    intro pc _ hp
    cases pc <;> simp_all [PC.runs, PC.holdsSlot]
  unfold handlersRunning
  omega

/-- Two handlers run and another request waits. -/
example : ∃ s, play anyStep {} exBusy = some s ∧ (s.g.conns 1).limit = 2 ∧ handlersRunning s.g.log 1 = 2 ∧
    s.threads[2]? = some (.acquiring 1 (exReq 3)) := ⟨_, rfl, rfl, rfl, rfl⟩

/-- C25: with limit 0 or 1 at most one handler of the connection runs at any time. -/
theorem C25_serial (s : State) (h : Reachable s) (c : ConnId) (h0 : 0 ≤ (s.g.conns c).limit)
    (h1 : (s.g.conns c).limit ≤ 1) : handlersRunning s.g.log c ≤ 1 := by
  have hi := h.inv
  have h2 := hi.detached c h0 h1
  have h3 := hi.runs c
  have h4 := hi.reader c
  have h5 : s.threads.countP (PC.runs c) ≤ s.threads.countP (PC.isReader c) := by
    apply List.countP_mono_left
    intro pc hm hp
    rw [List.countP_eq_zero] at h2
    have := h2 pc hm
    cases pc <;> simp_all [PC.runs, PC.isReader, PC.detached]
  unfold handlersRunning
  omega

example : ∃ s, play anyStep {} exSerial = some s ∧ (s.g.conns 1).limit = 1 ∧ handlersRunning s.g.log 1 = 1 :=
  ⟨_, rfl, rfl, rfl⟩

/-- Handlers end only after they started. -/
theorem C25_no_end_without_start (s : State) (h : Reachable s) (c : ConnId) : 0 ≤ handlersRunning s.g.log c := by
  have := h.inv.runs c
  unfold handlersRunning
  omega

/-! ## C26 -/

/-- C26: on a connection with limit 0 or 1, among the events of the connection, the start of a handler comes
directly after the arrival of its message, and nothing happens on the connection before that handler has
finished: messages are handled one after the other in the order of arrival. -/
theorem C26_one_after_the_other (s : State) (h : Reachable s) (c : ConnId) (h0 : 0 ≤ (s.g.conns c).limit)
    (h1 : (s.g.conns c).limit ≤ 1) (l1 l2 : List LEv) (m : LMsg)
    (hs : s.g.log.filter (LEv.isOf c) = l1 ++ .start c m :: l2) :
    (∃ l0, l1 = l0 ++ [.arrived c m]) ∧ (l2 = [] ∨ ∃ l3, l2 = .finish c m :: l3) := by
  have hi := h.serialInv c h0 h1
  have hc := hi.chain
  have hh := hi.head
  rw [hs] at hc hh
  constructor
  · rcases List.eq_nil_or_concat l1 with rfl | ⟨l0, x, rfl⟩
    · have := (hh (.start c m) (by simp) m).1
      exact absurd rfl this
    · rw [List.concat_eq_append] at *
      rw [List.isChain_append] at hc
      have := (hc.2.2 x (by simp) (.start c m) (by simp)).1 m rfl
      exact ⟨l0, by rw [this]⟩
  · cases l2 with
    | nil => exact .inl rfl
    | cons y l3 =>
      right
      rw [List.isChain_append] at hc
      have := List.isChain_cons_cons.mp hc.2.1
      have := (this.1.2 m).mpr rfl
      exact ⟨l3, by rw [this]⟩

/-- C26: and a handler finishes only directly after it started. -/
theorem C26_finish_after_start (s : State) (h : Reachable s) (c : ConnId) (h0 : 0 ≤ (s.g.conns c).limit)
    (h1 : (s.g.conns c).limit ≤ 1) (l1 l2 : List LEv) (m : LMsg)
    (hs : s.g.log.filter (LEv.isOf c) = l1 ++ .finish c m :: l2) :
    ∃ l0, l1 = l0 ++ [.arrived c m, .start c m] := by
  have hi := h.serialInv c h0 h1
  have hc := hi.chain
  have hh := hi.head
  rw [hs] at hc hh
  rcases List.eq_nil_or_concat l1 with rfl | ⟨l0, x, rfl⟩
  · have := (hh (.finish c m) (by simp) m).2
    exact absurd rfl this
  · rw [List.concat_eq_append] at *
    rw [List.isChain_append] at hc
    have hx := ((hc.2.2 x (by simp) (.finish c m) (by simp)).2 m).mp rfl
    subst hx
    obtain ⟨⟨l00, rfl⟩, -⟩ := C26_one_after_the_other s h c h0 h1 l0 (.finish c m :: l2) m (by simpa using hs)
    exact ⟨l00, by simp⟩

/-- The log of the example: request 1 starts and finishes before signal 2 arrives and starts. -/
example : ∃ s, play anyStep {} exSerial = some s ∧ s.g.log.filter (LEv.isOf 1) =
    [.arrived 1 (exReq 1)] ++ .start 1 (exReq 1) :: [.finish 1 (exReq 1), .arrived 1 (exSig 2), .start 1 (exSig 2)] :=
  ⟨_, rfl, rfl⟩

/-! ## C27 -/

/-- C27, first half: when the transport is shut down, every handler that started before `Shutdown` was called
has finished. -/
def C27_waits_full : Prop :=
  ∀ s, Reachable s → ∀ l1 l2 l3, s.g.log = l1 ++ .stop :: l2 ++ .transportDown :: l3 →
    ∀ c m, l1.count (.start c m) ≤ (l1 ++ l2).count (.finish c m)

/-- C27, second half: a `Shutdown` that waits is released once no message is being handled. -/
def C27_returns_full : Prop :=
  ∀ s, Reachable s → s.g.crashed = none → .waiting ∈ s.threads → (∀ pc ∈ s.threads, pc.counted = false) →
    ∀ ch, act s.g ch .waiting = some (s.g, [.stoppingTransport])

/-- Shutdown is called while request 1 is handled; then a signal arrives on a second connection. -/
def exEarlyShutdown : List Cmd :=
  [.connect 1 1, recv 0 (exReq 1)] ++ steps 0 6 ++ [.connect 2 1, .shutdown, .go 0] ++
    [recv 1 (exSig 2)] ++ steps 1 8 ++ steps 0 2

/-- C27 does not hold: a signal arriving during shutdown is handled without having been counted but is
uncounted when it is done; `Shutdown` then shuts down the transport although request 1 is still being handled. -/
theorem C27_waits_violated : ¬ C27_waits_full := by
  intro hfull
  have hrun : ∃ s, play anyStep {} exEarlyShutdown = some s ∧
      s.g.log = [.arrived 1 (exReq 1), .start 1 (exReq 1)] ++ .stop ::
        [.arrived 2 (exSig 2), .start 2 (exSig 2), .finish 2 (exSig 2)] ++ .transportDown :: [] ∧
      handlersRunning s.g.log 1 = 1 := ⟨_, rfl, rfl, rfl⟩
  obtain ⟨s, h, hlog, -⟩ := hrun
  have := hfull s (play_any h) _ _ _ hlog 1 (exReq 1)
  simp [exReq, exSig, List.count_cons] at this

/-- Shutdown is called on an idle server and then a second time, after a signal arrived. -/
def exStuckShutdown : List Cmd :=
  [.connect 1 1, .shutdown] ++ steps 0 2 ++ [recv 0 (exSig 1)] ++ steps 0 10 ++ [.shutdown, .go 0]

/-- C27 does not hold: the same miscount lets the counter of operations wrap around, and a later `Shutdown`
waits for ever though nothing is being handled. -/
theorem C27_returns_violated : ¬ C27_returns_full := by
  intro hfull
  have hrun : ∃ s, play anyStep {} exStuckShutdown = some s ∧ s.g.crashed = none ∧
      s.threads = [.waiting, .reading 1] ∧ s.g.rdyClosed = false := ⟨_, rfl, rfl, rfl, rfl⟩
  obtain ⟨s, h, hc, ht, hr⟩ := hrun
  have := hfull s (play_any h) hc (by simp [ht]) (by simp [ht, PC.counted]) {}
  simp [act, hr] at this

/-- C27 (partial): in executions in which no signal (and no message of unexpected type) gets past the shutdown
check after `Shutdown` was called, and with fewer than 2^32 goroutines, no handler at all runs when the
transport is shut down; in particular none that started before.

Missing: signals during shutdown, see `C27_waits_violated`. -/
theorem C27_waits_partial (s : State)
    (h : ReachableIf (fun s l => Spec.NoLateSignal s l ∧ Spec.FewGoroutines s l) s) (l1 l2 : List LEv)
    (hs : s.g.log = l1 ++ .transportDown :: l2) (c : ConnId) (m : LMsg) : msgRunning l1 c m = 0 := by
  have := h.stopInv.logged l1 l2 hs c m
  unfold msgRunning
  omega

/-- C27 (partial): the statement of `C27_waits_full` for these executions. Missing: executions with late signals, for which it
is false. -/
theorem C27_waits_for_earlier_handlers_partial (s : State)
    (h : ReachableIf (fun s l => Spec.NoLateSignal s l ∧ Spec.FewGoroutines s l) s) (l1 l2 l3 : List LEv)
    (hs : s.g.log = l1 ++ .stop :: l2 ++ .transportDown :: l3) (c : ConnId) (m : LMsg) :
    l1.count (.start c m) ≤ (l1 ++ l2).count (.finish c m) := by
  have := h.stopInv.logged (l1 ++ .stop :: l2) l3 (by simpa using hs) c m
  simp only [List.count_append, List.count_cons] at *
  have e1 : ((LEv.stop == LEv.start c m) = true) = False := by simp
  have e2 : ((LEv.stop == LEv.finish c m) = true) = False := by simp
  simp only [e1, e2, if_false] at this
  omega

/-- C27 (partial): the statement of `C27_returns_full` for these executions. Missing: executions with late signals, for which
it is false. -/
theorem C27_returns_partial (s : State)
    (h : ReachableIf (fun s l => Spec.NoLateSignal s l ∧ Spec.FewGoroutines s l) s)
    (hw : .waiting ∈ s.threads) (hn : ∀ pc ∈ s.threads, pc.counted = false) (ch : Choice) :
    act s.g ch .waiting = some (s.g, [.stoppingTransport]) := by
  rcases (h.stopInv.wait hw).2 with hr | hc
  · simp [act, hr]
  · rw [List.countP_pos_iff] at hc
    obtain ⟨pc, hm, hp⟩ := hc
    simp [hn pc hm] at hp

/-- Steps left until a counted goroutine is uncounted. -/
def PC.work : PC → Nat
  | .tasking _ _ => 5
  | .dispatching _ _ => 4
  | .starting _ _ _ => 3
  | .running _ _ _ => 2
  | .uncounting _ _ => 1
  | _ => 0

/-- Steps left until no message is being handled. -/
def State.work (s : State) : Nat := (s.threads.map PC.work).sum

/-- C27 (partial): messages being handled never have to wait for anything (but the user's handler), and once
`Shutdown` was called each of their steps brings the server closer to the release of `Shutdown`, and no other step
takes it further away: `Shutdown` returns provided that goroutines get to run and handlers end. Missing: executions with late
signals, for which `Shutdown` may not return. -/
theorem C27_drains_partial (s s' : State) (l : Label)
    (h : ReachableIf (fun s l => Spec.NoLateSignal s l ∧ Spec.FewGoroutines s l) s)
    (hl : Spec.NoLateSignal s l) (hs : s.g.shutdown = true) (hst : Step s l s') :
    (∀ pc ∈ s.threads, pc.counted = true → ∀ ch, (act s.g ch pc).isSome = true) ∧ s'.work ≤ s.work ∧
      (∀ pc ch, l = .thread pc ch → pc.counted = true → s'.work < s.work) := by
  refine ⟨?_, ?_⟩
  · intro pc hm hp ch
    cases pc <;> simp_all [PC.counted, act]
  · have hsi := h.stopInv
    have hiv := h.inv
    cases hst with
    | thread g g' pre post pcs pc ch hc hact =>
      have ha := acts_of_act hact
      have hl' : ∀ c m, pc = .counting c m → m.requiresReply = true := fun c m hpc => hl c m ch (by rw [hpc]) hs
      have hrdy : pc.counted = true → g.rdyClosed = false := by
        intro hp
        cases hr : g.rdyClosed
        · rfl
        · have := (hsi.rdy hr).2
          simp [List.countP_append, List.countP_cons, hp] at this
      simp only at hs
      have key : (pcs.map PC.work).sum ≤ pc.work ∧ (pc.counted = true → (pcs.map PC.work).sum < pc.work) := by
        cases ha <;> simp_all [PC.work, PC.counted, resume, closed] <;> split <;> simp [PC.work]
      simp only [State.work, List.map_append, List.map_cons, List.sum_append, List.sum_cons]
      refine ⟨by omega, ?_⟩
      intro pc' ch' he hp
      injection he with h1 h2
      subst h1
      have := key.2 hp
      omega
    | connect => simp [State.work, PC.work]
    | close => simp [State.work, PC.work]
    | shutdown => simp [State.work, PC.work]

/-- Shutdown waits for a request, refuses another one, and is released when the first one is done. -/
def exShutdown : List Cmd :=
  [.connect 1 1, recv 0 (exReq 1)] ++ steps 0 6 ++ [.connect 2 1, .shutdown, .go 0, recv 1 (exReq 2)] ++
    steps 1 4 ++ steps 2 2

example : ∃ s, play goodStep {} exShutdown = some s ∧ s.threads = [.waiting, .reading 2, .untasking 1 true] ∧
    s.g.rdyClosed = true ∧ s.g.log.count (.refused 2 (exReq 2)) = 1 := ⟨_, rfl, rfl, rfl, rfl⟩

example : ∃ s, play goodStep {} (exShutdown ++ steps 0 2) = some s ∧
    s.g.log = [.arrived 1 (exReq 1), .start 1 (exReq 1)] ++ .stop :: [.arrived 2 (exReq 2), .refused 2 (exReq 2),
      .finish 1 (exReq 1)] ++ .transportDown :: [] := ⟨_, rfl, rfl⟩

/-- Such executions satisfy the hypothesis of the partial theorems. -/
theorem good_shutdown {cmds : List Cmd} {s : State} (h : play goodStep {} cmds = some s) :
    ReachableIf (fun s l => Spec.NoLateSignal s l ∧ Spec.FewGoroutines s l) s :=
  play_reachable (fun _ _ h => ⟨goodStep_noLate h, goodStep_few h⟩) cmds {} s .start h

/-! ## C28 -/

/-- C28, first half: handlers of messages that arrive after `Shutdown` was called do not start. -/
def C28_full : Prop :=
  ∀ s, Reachable s → ∀ l1 l2, s.g.log = l1 ++ .stop :: l2 → ∀ c m, (m.kind = .signal ∨ m.kind = .request) →
    .arrived c m ∉ l1 → .start c m ∉ s.g.log

/-- C28 does not hold: signals are still handled. -/
theorem C28_violated : ¬ C28_full := by
  intro hfull
  have hrun : ∃ s, play anyStep {} ([.connect 1 1, .shutdown] ++ steps 0 2 ++ [recv 0 (exSig 1)] ++ steps 0 6) = some s ∧
      s.g.log = [] ++ .stop :: [.transportDown, .arrived 1 (exSig 1), .start 1 (exSig 1)] := ⟨_, rfl, rfl⟩
  obtain ⟨s, h, hlog⟩ := hrun
  exact hfull s (play_any h) _ _ hlog 1 (exSig 1) (.inl rfl) (by simp) (by rw [hlog]; simp)

/-- C28 (partial): requests (and session requests) that arrive after `Shutdown` was called are never handled.

Missing: signals. -/
theorem C28_requests_partial (s : State) (h : Reachable s) (l1 l2 : List LEv) (hs : s.g.log = l1 ++ .stop :: l2)
    (c : ConnId) (m : LMsg) (hm : m.requiresReply = true) (ha : .arrived c m ∉ l1) : .start c m ∉ s.g.log :=
  fun hst => ha ((h.accInv.started c m hm hst).2 l1 l2 hs)

/-- C28 (partial): every such request is answered with the shutdown reply, unless its connection was already
closed or it is still on its way through the server. Missing: signals, which are not refused. -/
theorem C28_refused_partial (s : State) (h : Reachable s) (l1 l2 : List LEv) (hs : s.g.log = l1 ++ .stop :: l2)
    (c : ConnId) (m : LMsg) (hm : m.requiresReply = true) (ha : .arrived c m ∉ l1) :
    s.g.log.count (.arrived c m) = s.g.log.count (.refused c m) + s.g.log.count (.dropped c m) +
      s.threads.countP (PC.pends c m) := by
  have h1 := ReachableIf.accounted h c m (by
    simp only [LMsg.requiresReply, decide_eq_true_eq] at hm
    tauto)
  have h2 := C28_requests_partial s h l1 l2 hs c m hm ha
  rw [← List.count_eq_zero] at h2
  omega

example : ∃ s, play anyStep {} exShutdown = some s ∧
    s.g.log = [.arrived 1 (exReq 1), .start 1 (exReq 1)] ++ .stop ::
      [.arrived 2 (exReq 2), .refused 2 (exReq 2), .finish 1 (exReq 1)] ∧
    s.threads.countP (PC.pends 2 (exReq 2)) = 0 := ⟨_, rfl, rfl, rfl⟩

/-! ## C29 -/

/-- C29: on an idle connection no handler slot is taken. -/
def C29_released_full : Prop :=
  ∀ s, Reachable s → ∀ c, (s.g.conns c).limit > 1 → (∀ pc ∈ s.threads, pc.isOn c = true → pc = .reading c) →
    (s.g.conns c).slots = 0

/-- C29: the server does not crash. -/
def C29_no_crash_full : Prop := ∀ s, Reachable s → s.g.crashed = none

/-- Two requests are refused on a connection with limit 2, then a third one arrives. -/
def exExhausted : List Cmd :=
  [.connect 1 2, .shutdown] ++ steps 0 2 ++ [recv 0 (exReq 1)] ++ steps 0 4 ++ [recv 0 (exReq 2)] ++ steps 0 4

/-- C29 does not hold: the slots of refused requests are never released ... -/
theorem C29_released_violated : ¬ C29_released_full := by
  intro hfull
  have hrun : ∃ s, play anyStep {} exExhausted = some s ∧ (s.g.conns 1).limit = 2 ∧
      s.threads = [.reading 1] ∧ (s.g.conns 1).slots = 2 := ⟨_, rfl, rfl, rfl, rfl⟩
  obtain ⟨s, h, hl, ht, hsl⟩ := hrun
  have := hfull s (play_any h) 1 (by simp [hl]) (by simp [ht])
  omega

/-- ... so that the reader of the connection gets stuck with its only goroutine waiting for a slot. -/
theorem C29_reader_stuck_violated : ∃ s, Reachable s ∧ s.g.crashed = none ∧
    s.threads = [.acquiring 1 (exReq 3)] ∧ ∀ ch, act s.g ch (.acquiring 1 (exReq 3)) = none := by
  have hrun : ∃ s, play anyStep {} (exExhausted ++ [recv 0 (exReq 3), .go 0]) = some s ∧ s.g.crashed = none ∧
      s.threads = [.acquiring 1 (exReq 3)] ∧ (s.g.conns 1).limit = 2 ∧ (s.g.conns 1).slots = 2 :=
    ⟨_, rfl, rfl, rfl, rfl, rfl⟩
  obtain ⟨s, h, hc, ht, hl, hsl⟩ := hrun
  exact ⟨s, play_any h, hc, ht, fun ch => by simp [act, actAcquiring, hl, hsl]⟩

/-- C29 does not hold: if no writer is available the server crashes. -/
theorem C29_no_crash_violated : ¬ C29_no_crash_full := by
  intro hfull
  have hrun : ∃ s, play anyStep {} ([.connect 1 1, .shutdown] ++ steps 0 2 ++ [recv 0 (exReq 1)] ++ steps 0 3 ++
      [.go 0 { writerOk := false }]) = some s ∧ s.g.crashed = some "nil pointer dereference" := ⟨_, rfl, rfl⟩
  obtain ⟨s, h, hc⟩ := hrun
  have := hfull s (play_any h)
  simp [hc] at this

/-- C29: exactly the slots of refused requests are lost, any others are held by messages on their way. Missing: that none are
lost, which is false. -/
theorem C29_slots_accounted_partial (s : State) (h : Reachable s) (c : ConnId) (hl : (s.g.conns c).limit > 1)
    (hidle : ∀ pc ∈ s.threads, pc.isOn c = true → pc = .reading c) :
    (s.g.conns c).slots = s.g.log.countP (LEv.isRefused c) := by
  have := h.inv.slots c hl
  have hz : s.threads.countP (PC.holdsSlot c) = 0 := by
    rw [List.countP_eq_zero]
    intro pc hm hp
    rw [hidle pc hm (PC.holdsSlot_isOn hp)] at hp
    simp [PC.holdsSlot] at hp
  omega

/-- C29: so before `Shutdown` every slot is released. Missing: after `Shutdown`, when it is false. -/
theorem C29_released_before_shutdown_partial (s : State) (h : Reachable s) (c : ConnId)
    (hl : (s.g.conns c).limit > 1) (hidle : ∀ pc ∈ s.threads, pc.isOn c = true → pc = .reading c)
    (hn : ∀ m, .refused c m ∉ s.g.log) : (s.g.conns c).slots = 0 := by
  rw [C29_slots_accounted_partial s h c hl hidle, List.countP_eq_zero]
  intro e hm he
  cases e <;> simp [LEv.isRefused] at he
  subst he
  exact hn _ hm

example : ∃ s, play anyStep {} ([.connect 1 2, recv 0 (exReq 1)] ++ steps 0 10 ++ [recv 0 (exReq 2)] ++ steps 0 4) =
    some s ∧ (s.g.conns 1).slots = 1 ∧ s.g.log.count (.finish 1 (exReq 1)) = 1 := ⟨_, rfl, rfl, rfl⟩

/-- C29 (partial): if writers are available and no signal is handled during shutdown the server never crashes
by an operation of its own: the semaphore is never released too often, `shutdownRdy` is closed once at most. Missing: sockets
without writers, for which it is false; late signals are the subject of `C29_no_crash_signals_partial`. -/
theorem C29_no_crash_partial (s : State)
    (h : ReachableIf (fun s l => (Spec.NoLateSignal s l ∧ Spec.FewGoroutines s l) ∧ Spec.WritersOk s l) s) :
    s.g.crashed = none := by
  induction h with
  | start => rfl
  | step s l s' hr ho hs ih =>
    have hi := hr.inv
    have hsi := (hr.mono (fun _ _ h => h.1)).stopInv
    cases hs with
    | thread g g' pre post pcs pc ch hc hact =>
      have ha := acts_of_act hact
      have hw : ch.writerOk = true := ho.2 pc ch rfl
      have hx := (hsi.step hi ho.1.1 ho.1.2 (.thread g g' pre post pcs pc ch hc hact)).noCrash
      cases ha <;> simp [G.ev, G.upd, unlinked, G.crash] at * <;> try assumption
      case nilWriter h => simp [hw] at h
      case badRelease c inl hl hsl =>
        have := hi.slots c hl
        simp [List.countP_append, PC.holdsSlot, hsl] at this
        omega
    | connect => exact ih
    | close => exact ih
    | shutdown => exact ih

example : ∃ s, play goodStep {} (exShutdown ++ steps 0 2 ++ steps 1 2) = some s ∧ s.threads = [.reading 2, .reading 1] :=
  ⟨_, rfl, rfl⟩

/-! ## C30 -/

/-- C30: the socket is closed only while no handler runs. -/
def C30_idle_full : Prop :=
  ∀ s, Reachable s → ∀ c, 0 < (s.g.conns c).sockCloses → handlersRunning s.g.log c = 0

/-- C30: the socket is closed once. -/
def C30_once_full : Prop := ∀ s, Reachable s → ∀ c, (s.g.conns c).sockCloses ≤ 1

/-- C30: no message is accepted after `Close`. -/
def C30_no_new_full : Prop :=
  ∀ s s' l, Reachable s → Step s l s' → ∀ c, (s.g.conns c).used = true → (s.g.conns c).active = false →
    (s'.g.conns c).tasks ≤ (s.g.conns c).tasks

/-- `Close` comes between the check of the connection's state and the registration of the request. -/
def exCloseRace : List Cmd :=
  [.connect 1 1, recv 0 (exReq 1), .go 0, .close 1] ++ steps 0 2

/-- C30 does not hold: in this race the handler runs on a closed socket ... -/
theorem C30_idle_violated : ¬ C30_idle_full := by
  intro hfull
  have hrun : ∃ s, play anyStep {} (exCloseRace ++ steps 0 5) = some s ∧ (s.g.conns 1).sockCloses = 1 ∧
      handlersRunning s.g.log 1 = 1 := ⟨_, rfl, rfl, rfl⟩
  obtain ⟨s, h, hc, hr⟩ := hrun
  have := hfull s (play_any h) 1 (by omega)
  omega

/-- ... and the socket is closed (and the connection unlinked) twice ... -/
theorem C30_once_violated : ¬ C30_once_full := by
  intro hfull
  have hrun : ∃ s, play anyStep {} (exCloseRace ++ steps 0 9) = some s ∧ (s.g.conns 1).sockCloses = 2 := ⟨_, rfl, rfl⟩
  obtain ⟨s, h, hc⟩ := hrun
  have := hfull s (play_any h) 1
  omega

/-- ... as a message is accepted after `Close`. -/
theorem C30_no_new_violated : ¬ C30_no_new_full := by
  intro hfull
  have hrun : ∃ s, play anyStep {} (exCloseRace ++ steps 0 2) = some s ∧
      s.threads = [.tasking 1 (exReq 1)] ∧ s.g.crashed = none ∧
      (s.g.conns 1).used = true ∧ (s.g.conns 1).active = false ∧ (s.g.conns 1).tasks = 0 :=
    ⟨_, rfl, rfl, rfl, rfl, rfl, rfl⟩
  obtain ⟨⟨g, ts⟩, h, ht, hc, hu, ha, hz⟩ := hrun
  simp only at ht hc hu ha hz
  subst ht
  have hst := Step.thread g _ [] [] _ (.tasking 1 (exReq 1)) {} hc rfl
  have := hfull _ _ _ (play_any h) hst 1 hu ha
  simp [G.upd, hz] at this

/-- C30 (partial): if `Close` does not come between check and registration of a message, the socket is closed
only when no message of the connection is being handled ... -/
theorem C30_idle_partial (s : State) (h : ReachableIf Spec.NoCloseRace s) (c : ConnId)
    (hc : 0 < (s.g.conns c).sockCloses) : handlersRunning s.g.log c = 0 ∧ (s.g.conns c).tasks = 0 := by
  have h1 := h.closeInv.unlinks c
  split at h1
  · rename_i hx
    refine ⟨?_, hx.2.2⟩
    have h2 := h.inv.runs c
    have h3 := h.inv.tasks c
    rw [hx.2.2] at h3
    have h4 : s.threads.countP (PC.runs c) = 0 :=
      countP_zero_of_imp (q := PC.holdsTask c)
        (fun pc hp => by cases pc <;> simp_all [PC.runs, PC.holdsTask]) (by omega)
    unfold handlersRunning
    omega
  · omega

/-- ... it is closed at most once, however often `Close` is called ... Missing: executions with a `Close` between the check
and the registration of a message, for which it is false. -/
theorem C30_once_partial (s : State) (h : ReachableIf Spec.NoCloseRace s) (c : ConnId) :
    (s.g.conns c).sockCloses ≤ 1 := by
  have h1 := h.closeInv.unlinks c
  split at h1 <;> omega

/-- ... after `Close` no message is accepted ... Missing: the same. -/
theorem C30_no_new_partial (s s' : State) (l : Label) (h : ReachableIf Spec.NoCloseRace s) (hst : Step s l s')
    (c : ConnId) (hu : (s.g.conns c).used = true) (ha : (s.g.conns c).active = false) :
    (s'.g.conns c).tasks ≤ (s.g.conns c).tasks ∧ (s'.g.conns c).active = false := by
  have hb := h.closeInv.between c ha
  cases hst with
  | thread g g' pre post pcs pc ch hc hact =>
    have hact := acts_of_act hact
    refine ⟨?_, (hact.between c ha).1⟩
    have hpb : pc.between c = false := by
      rw [List.countP_eq_zero] at hb
      simpa using hb pc (by simp)
    cases hact <;> simp [G.ev, G.upd, unlinked, G.crash] <;> grind [PC.between]
  | connect g ts c' limit hc hu' =>
    have : c ≠ c' := by rintro rfl; simp_all
    simp only [connected, this, ↓reduceIte]
    exact ⟨Int.le_refl _, ha⟩
  | close => exact ⟨Int.le_refl _, ha⟩
  | shutdown => exact ⟨Int.le_refl _, ha⟩

/-- ... and once no message of a closed connection is being handled any more its socket is closed, or a goroutine
is just about to do it. Missing: the same. -/
theorem C30_closed_in_the_end_partial (s : State) (h : ReachableIf Spec.NoCloseRace s) (c : ConnId)
    (hu : (s.g.conns c).used = true) (ha : (s.g.conns c).active = false) (ht : (s.g.conns c).tasks = 0) :
    (s.g.conns c).sockCloses = 1 ∨ (∃ b, .unlinking c b ∈ s.threads) ∨ ∃ b, .closeUnlinking c b ∈ s.threads := by
  have h1 := h.closeInv.unlinks c
  rw [if_pos ⟨hu, ha, ht⟩] at h1
  by_cases hz : s.threads.countP (PC.unlinks c) = 0
  · left; omega
  · right
    have := List.countP_pos_iff.mp (Nat.pos_of_ne_zero hz)
    obtain ⟨pc, hm, hp⟩ := this
    cases pc <;> simp [PC.unlinks] at hp
    · subst hp; exact .inl ⟨_, hm⟩
    · subst hp; exact .inr ⟨_, hm⟩

/-- C30: `connection.tasks` is the number of messages being handled, in every execution. -/
theorem C30_tasks (s : State) (h : Reachable s) (c : ConnId) :
    (s.g.conns c).tasks = s.threads.countP (PC.holdsTask c) := h.inv.tasks c

/-- C30: further `Close` calls do nothing. -/
theorem C30_close_again (g : G) (ch : Choice) (c : ConnId) (ha : (g.conns c).active = false) :
    act g ch (.closing c false) = some (g, []) := by
  simp [act, actClosing, ha, closed]

/-- `Close` while a request is handled: the socket is closed when the handler is done; a second `Close` and a later
message do nothing. -/
def exClose : List Cmd :=
  [.connect 1 1, recv 0 (exReq 1)] ++ steps 0 6 ++ [.close 1, .go 0]

example : ∃ s, play goodStep {} exClose = some s ∧ (s.g.conns 1).active = false ∧ (s.g.conns 1).sockCloses = 0 ∧
    handlersRunning s.g.log 1 = 1 := ⟨_, rfl, rfl, rfl, rfl⟩

example : ∃ s, play goodStep {} (exClose ++ [.close 1, .go 0] ++ steps 0 5 ++ [recv 0 (exReq 2), .go 0]) = some s ∧
    (s.g.conns 1).sockCloses = 1 ∧ handlersRunning s.g.log 1 = 0 ∧ s.g.log.count (.dropped 1 (exReq 2)) = 1 :=
  ⟨_, rfl, rfl, rfl, rfl⟩

/-- Such executions satisfy the hypothesis of the partial theorems. -/
theorem good_close {cmds : List Cmd} {s : State} (h : play goodStep {} cmds = some s) :
    ReachableIf Spec.NoCloseRace s :=
  play_reachable (fun _ _ h => goodStep_noRace h) cmds {} s .start h

end Webwire.Life
