import Verif.Spec.Lifecycle

/-!
# Lemmas on the goroutines of the server
-/

set_option autoImplicit false

namespace Webwire.Life

/-- All steps of goroutines, case by case. -/
inductive Acts (g : G) (ch : Choice) : PC → G → List PC → Prop
  | readErr (c) : ch.msg = none → Acts g ch (.reading c) g [.closing c true]
  | heartbeat (c m) : ch.msg = some m → m.kind = .heartbeat →
      Acts g ch (.reading c) (g.ev (.arrived c m)) [.reading c]
  | read (c m) : ch.msg = some m → m.kind ≠ .heartbeat →
      Acts g ch (.reading c) (g.ev (.arrived c m)) [.checking c m]
  | check (c m) : (g.conns c).active = true → Acts g ch (.checking c m) g [.acquiring c m]
  | drop (c m) : (g.conns c).active = false →
      Acts g ch (.checking c m) (g.ev (.dropped c m)) [.reading c]
  | acquire (c m) : (g.conns c).limit > 1 → ((g.conns c).slots : Int) < (g.conns c).limit →
      Acts g ch (.acquiring c m) (g.upd c fun x => { x with slots := x.slots + 1 }) [.counting c m]
  | noSlots (c m) : ¬ (g.conns c).limit > 1 → Acts g ch (.acquiring c m) g [.counting c m]
  | refuse (c m) : g.shutdown = true → m.requiresReply = true →
      Acts g ch (.counting c m) g [.refusing c m]
  | late (c m) : g.shutdown = true → m.requiresReply = false →
      Acts g ch (.counting c m) g [.tasking c m]
  | count (c m) : g.shutdown = false →
      Acts g ch (.counting c m) { g with currentOps := g.currentOps + 1 } [.tasking c m]
  | refused (c m) : ch.writerOk = true →
      Acts g ch (.refusing c m) (g.ev (.refused c m)) [.reading c]
  | nilWriter (c m) : ch.writerOk = false →
      Acts g ch (.refusing c m) (g.crash "nil pointer dereference") [.refusing c m]
  | task (c m) :
      Acts g ch (.tasking c m) (g.upd c fun x => { x with tasks := x.tasks + 1 }) [.dispatching c m]
  | spawn (c m) : (m.kind = .signal ∨ m.kind = .request) →
      ((g.conns c).limit < 0 ∨ (g.conns c).limit > 1) →
      Acts g ch (.dispatching c m) g [.starting c m false, .reading c]
  | inline (c m) : (m.kind = .signal ∨ m.kind = .request ∨ m.kind = .session) →
      (m.kind ≠ .session → ¬ ((g.conns c).limit < 0 ∨ (g.conns c).limit > 1)) →
      Acts g ch (.dispatching c m) g [.starting c m true]
  | unexpected (c m) : (m.kind = .other ∨ m.kind = .heartbeat) →
      Acts g ch (.dispatching c m) g [.uncounting c true]
  | begin (c m inl) : Acts g ch (.starting c m inl) (g.ev (.start c m)) [.running c m inl]
  | finish (c m inl) : Acts g ch (.running c m inl) (g.ev (.finish c m)) [.uncounting c inl]
  | closeTwice (c inl) : g.shutdown = true → g.currentOps - 1 < 1 → g.rdyClosed = true →
      Acts g ch (.uncounting c inl)
        (({ g with currentOps := g.currentOps - 1 } : G).crash "close of closed channel") [.uncounting c inl]
  | ready (c inl) : g.shutdown = true → g.currentOps - 1 < 1 → g.rdyClosed = false →
      Acts g ch (.uncounting c inl) { g with currentOps := g.currentOps - 1, rdyClosed := true }
        [.untasking c inl]
  | uncount (c inl) : ¬ (g.shutdown = true ∧ g.currentOps - 1 < 1) →
      Acts g ch (.uncounting c inl) { g with currentOps := g.currentOps - 1 } [.untasking c inl]
  | untaskLast (c inl) : (g.conns c).active = false → (g.conns c).tasks - 1 < 1 →
      Acts g ch (.untasking c inl) (g.upd c fun x => { x with tasks := x.tasks - 1 }) [.unlinking c inl]
  | untask (c inl) : ¬ ((g.conns c).active = false ∧ (g.conns c).tasks - 1 < 1) →
      Acts g ch (.untasking c inl) (g.upd c fun x => { x with tasks := x.tasks - 1 }) [.releasing c inl]
  | unlink (c inl) : Acts g ch (.unlinking c inl) (unlinked g c) [.releasing c inl]
  | badRelease (c inl) : (g.conns c).limit > 1 → (g.conns c).slots < 1 →
      Acts g ch (.releasing c inl) (g.crash "semaphore: bad release") [.releasing c inl]
  | release (c inl) : (g.conns c).limit > 1 → ¬ (g.conns c).slots < 1 →
      Acts g ch (.releasing c inl) (g.upd c fun x => { x with slots := x.slots - 1 }) (resume c inl)
  | noRelease (c inl) : ¬ (g.conns c).limit > 1 → Acts g ch (.releasing c inl) g (resume c inl)
  | closeAgain (c rd) : (g.conns c).active = false → Acts g ch (.closing c rd) g (closed c rd)
  | closeNow (c rd) : (g.conns c).active = true → (g.conns c).tasks < 1 →
      Acts g ch (.closing c rd) (g.upd c fun x => { x with active := false }) [.closeUnlinking c rd]
  | closeLater (c rd) : (g.conns c).active = true → ¬ (g.conns c).tasks < 1 →
      Acts g ch (.closing c rd) (g.upd c fun x => { x with active := false }) (closed c rd)
  | closeUnlink (c rd) : Acts g ch (.closeUnlinking c rd) (unlinked g c) (closed c rd)
  | disconnect (c) : Acts g ch (.disconnecting c) (g.ev (.disconnected c)) []
  | stopNow : g.currentOps < 1 →
      Acts g ch .stopping (({ g with shutdown := true } : G).ev .stop) [.stoppingTransport]
  | stopLater : ¬ g.currentOps < 1 →
      Acts g ch .stopping (({ g with shutdown := true } : G).ev .stop) [.waiting]
  | awake : g.rdyClosed = true → Acts g ch .waiting g [.stoppingTransport]
  | down : Acts g ch .stoppingTransport (g.ev .transportDown) []

theorem acts_of_act {g g' : G} {ch : Choice} {pc : PC} {pcs : List PC} (h : act g ch pc = some (g', pcs)) :
    Acts g ch pc g' pcs := by
  cases pc with
  | reading c =>
    simp only [act, actReading, Option.some.injEq] at h
    cases hm : ch.msg with
    | none => simp only [hm, Prod.mk.injEq] at h; obtain ⟨rfl, rfl⟩ := h; exact .readErr c hm
    | some m =>
      simp only [hm] at h
      split at h <;> rename_i hk <;> (simp only [Prod.mk.injEq] at h; obtain ⟨rfl, rfl⟩ := h)
      · exact .heartbeat c m hm hk
      · exact .read c m hm hk
  | checking c m =>
    simp only [act, actChecking, Option.some.injEq] at h
    split at h <;> rename_i hk <;> (simp only [Prod.mk.injEq] at h; obtain ⟨rfl, rfl⟩ := h)
    · exact .check c m hk
    · exact .drop c m (by simpa using hk)
  | acquiring c m =>
    simp only [act, actAcquiring] at h
    split at h <;> rename_i hk
    · split at h <;> rename_i hs
      · cases h
      · simp only [Option.some.injEq, Prod.mk.injEq] at h; obtain ⟨rfl, rfl⟩ := h
        exact .acquire c m hk (by omega)
    · simp only [Option.some.injEq, Prod.mk.injEq] at h; obtain ⟨rfl, rfl⟩ := h
      exact .noSlots c m hk
  | counting c m =>
    simp only [act, actCounting, Option.some.injEq] at h
    split at h <;> rename_i hk <;> (simp only [Prod.mk.injEq] at h; obtain ⟨rfl, rfl⟩ := h)
    · split <;> rename_i hr
      · exact .refuse c m hk hr
      · exact .late c m hk (by simpa using hr)
    · exact .count c m (by simpa using hk)
  | refusing c m =>
    simp only [act, actRefusing, Option.some.injEq] at h
    split at h <;> rename_i hk <;> (simp only [Prod.mk.injEq] at h; obtain ⟨rfl, rfl⟩ := h)
    · exact .refused c m hk
    · exact .nilWriter c m (by simpa using hk)
  | tasking c m =>
    simp only [act, Option.some.injEq, Prod.mk.injEq] at h; obtain ⟨rfl, rfl⟩ := h
    exact .task c m
  | dispatching c m =>
    simp only [act, actDispatching, Option.some.injEq] at h
    cases hk : m.kind <;> simp only [hk] at h
    case heartbeat =>
      simp only [Prod.mk.injEq] at h; obtain ⟨rfl, rfl⟩ := h; exact .unexpected c m (.inr hk)
    case other =>
      simp only [Prod.mk.injEq] at h; obtain ⟨rfl, rfl⟩ := h; exact .unexpected c m (.inl hk)
    case session =>
      simp only [Prod.mk.injEq] at h; obtain ⟨rfl, rfl⟩ := h
      exact .inline c m (.inr (.inr hk)) (fun hn => absurd hk hn)
    case signal =>
      split at h <;> rename_i hl <;> (simp only [Prod.mk.injEq] at h; obtain ⟨rfl, rfl⟩ := h)
      · exact .spawn c m (.inl hk) hl
      · exact .inline c m (.inl hk) (fun _ => hl)
    case request =>
      split at h <;> rename_i hl <;> (simp only [Prod.mk.injEq] at h; obtain ⟨rfl, rfl⟩ := h)
      · exact .spawn c m (.inr hk) hl
      · exact .inline c m (.inr (.inl hk)) (fun _ => hl)
  | starting c m inl =>
    simp only [act, Option.some.injEq, Prod.mk.injEq] at h; obtain ⟨rfl, rfl⟩ := h
    exact .begin c m inl
  | running c m inl =>
    simp only [act, Option.some.injEq, Prod.mk.injEq] at h; obtain ⟨rfl, rfl⟩ := h
    exact .finish c m inl
  | uncounting c inl =>
    simp only [act, actUncounting, Option.some.injEq] at h
    split at h <;> rename_i hk
    · split at h <;> rename_i hr <;> (simp only [Prod.mk.injEq] at h; obtain ⟨rfl, rfl⟩ := h)
      · exact .closeTwice c inl hk.1 hk.2 hr
      · exact .ready c inl hk.1 hk.2 (by simpa using hr)
    · simp only [Prod.mk.injEq] at h; obtain ⟨rfl, rfl⟩ := h
      exact .uncount c inl hk
  | untasking c inl =>
    simp only [act, actUntasking, Option.some.injEq, Prod.mk.injEq] at h
    obtain ⟨rfl, rfl⟩ := h
    simp only [G.upd, ↓reduceIte]
    split <;> rename_i hk
    · exact .untaskLast c inl hk.1 hk.2
    · exact .untask c inl hk
  | unlinking c inl =>
    simp only [act, Option.some.injEq, Prod.mk.injEq] at h; obtain ⟨rfl, rfl⟩ := h
    exact .unlink c inl
  | releasing c inl =>
    simp only [act, actReleasing, Option.some.injEq] at h
    split at h <;> rename_i hk
    · split at h <;> rename_i hr <;> (simp only [Prod.mk.injEq] at h; obtain ⟨rfl, rfl⟩ := h)
      · exact .badRelease c inl hk hr
      · exact .release c inl hk hr
    · simp only [Prod.mk.injEq] at h; obtain ⟨rfl, rfl⟩ := h
      exact .noRelease c inl hk
  | closing c rd =>
    simp only [act, actClosing, Option.some.injEq] at h
    split at h <;> rename_i hk <;> (simp only [Prod.mk.injEq] at h; obtain ⟨rfl, rfl⟩ := h)
    · exact .closeAgain c rd hk
    · split <;> rename_i hr
      · exact .closeNow c rd (by simpa using hk) hr
      · exact .closeLater c rd (by simpa using hk) hr
  | closeUnlinking c rd =>
    simp only [act, Option.some.injEq, Prod.mk.injEq] at h; obtain ⟨rfl, rfl⟩ := h
    exact .closeUnlink c rd
  | disconnecting c =>
    simp only [act, Option.some.injEq, Prod.mk.injEq] at h; obtain ⟨rfl, rfl⟩ := h
    exact .disconnect c
  | stopping =>
    simp only [act, actStopping, Option.some.injEq, Prod.mk.injEq] at h; obtain ⟨rfl, rfl⟩ := h
    split <;> rename_i hr
    · exact .stopNow hr
    · exact .stopLater hr
  | waiting =>
    simp only [act] at h
    split at h <;> rename_i hr
    · simp only [Option.some.injEq, Prod.mk.injEq] at h; obtain ⟨rfl, rfl⟩ := h
      exact .awake hr
    · cases h
  | stoppingTransport =>
    simp only [act, Option.some.injEq, Prod.mk.injEq] at h; obtain ⟨rfl, rfl⟩ := h
    exact .down

end Webwire.Life

namespace Webwire.Life

/-! ## Where goroutines are -/

/-- The goroutine reading from the connection. -/
def PC.isReader (c : ConnId) : PC → Bool
  | .reading c' | .checking c' _ | .acquiring c' _ | .counting c' _ | .refusing c' _ | .tasking c' _
  | .dispatching c' _ | .disconnecting c' => decide (c' = c)
  | .starting c' _ b | .running c' _ b | .uncounting c' b | .untasking c' b | .unlinking c' b
  | .releasing c' b | .closing c' b | .closeUnlinking c' b => decide (c' = c) && b
  | .stopping | .waiting | .stoppingTransport => false

/-- Goroutines of the connection. -/
def PC.isOn (c : ConnId) : PC → Bool
  | .reading c' | .checking c' _ | .acquiring c' _ | .counting c' _ | .refusing c' _ | .tasking c' _
  | .dispatching c' _ | .disconnecting c' | .starting c' _ _ | .running c' _ _ | .uncounting c' _
  | .untasking c' _ | .unlinking c' _ | .releasing c' _ | .closing c' _ | .closeUnlinking c' _ =>
    decide (c' = c)
  | .stopping | .waiting | .stoppingTransport => false

/-- Goroutines holding a handler slot. -/
def PC.holdsSlot (c : ConnId) : PC → Bool
  | .counting c' _ | .refusing c' _ | .tasking c' _ | .dispatching c' _ | .starting c' _ _
  | .running c' _ _ | .uncounting c' _ | .untasking c' _ | .unlinking c' _ | .releasing c' _ =>
    decide (c' = c)
  | _ => false

/-- Goroutines counted in `connection.tasks`. -/
def PC.holdsTask (c : ConnId) : PC → Bool
  | .dispatching c' _ | .starting c' _ _ | .running c' _ _ | .uncounting c' _ | .untasking c' _ =>
    decide (c' = c)
  | _ => false

/-- Goroutines counted in `server.currentOps`. -/
def PC.counted : PC → Bool
  | .tasking _ _ | .dispatching _ _ | .starting _ _ _ | .running _ _ _ | .uncounting _ _ => true
  | _ => false

/-- Goroutines in a handler. -/
def PC.runs (c : ConnId) : PC → Bool
  | .running c' _ _ => decide (c' = c)
  | _ => false

/-- Goroutines in the handler of this message. -/
def PC.runsMsg (c : ConnId) (m : LMsg) : PC → Bool
  | .running c' m' _ => decide (c' = c ∧ m' = m)
  | _ => false

/-- Handlers on their own goroutines. -/
def PC.detached (c : ConnId) : PC → Bool
  | .starting c' _ b | .running c' _ b | .uncounting c' b | .untasking c' b | .unlinking c' b
  | .releasing c' b => decide (c' = c) && !b
  | _ => false

/-- Goroutines about to close the socket. -/
def PC.unlinks (c : ConnId) : PC → Bool
  | .unlinking c' _ | .closeUnlinking c' _ => decide (c' = c)
  | _ => false

/-- Messages between the check of the connection's state and `registerTask`. -/
def PC.between (c : ConnId) : PC → Bool
  | .acquiring c' _ | .counting c' _ | .tasking c' _ => decide (c' = c)
  | _ => false

/-- Messages received and not yet dropped, refused or passed to a handler. -/
def PC.pends (c : ConnId) (m : LMsg) : PC → Bool
  | .checking c' m' | .acquiring c' m' | .counting c' m' | .refusing c' m' | .tasking c' m'
  | .dispatching c' m' | .starting c' m' _ => decide (c' = c ∧ m' = m)
  | _ => false

/-! ## What single steps do -/

section
variable {g g' : G} {ch : Choice} {pc : PC} {pcs : List PC}

theorem Acts.static (h : Acts g ch pc g' pcs) (c : ConnId) :
    (g'.conns c).used = (g.conns c).used ∧ (g'.conns c).limit = (g.conns c).limit := by
  cases h <;> simp [G.ev, G.upd, G.crash, unlinked] <;> (split <;> simp_all)

theorem Acts.reader (h : Acts g ch pc g' pcs) (c : ConnId) :
    pcs.countP (PC.isReader c) ≤ [pc].countP (PC.isReader c) := by
  cases h <;> simp [PC.isReader, resume, closed, List.countP_cons] <;> split <;>
    simp_all [PC.isReader, List.countP_cons]

theorem Acts.on (h : Acts g ch pc g' pcs) (c : ConnId) (hp : pc.isOn c = false) :
    pcs.countP (PC.isOn c) = 0 ∧ g'.conns c = g.conns c := by
  cases h <;> simp_all [PC.isOn, resume, closed, G.ev, G.upd, G.crash, unlinked] <;>
    first
    | (split <;> simp_all [PC.isOn])
    | (constructor <;> first | (split <;> simp_all [PC.isOn]) | grind)
    | grind

theorem Acts.tasks (h : Acts g ch pc g' pcs) (c : ConnId) :
    (g'.conns c).tasks + [pc].countP (PC.holdsTask c) = (g.conns c).tasks + pcs.countP (PC.holdsTask c) := by
  cases h <;> simp [PC.holdsTask, resume, closed, G.ev, G.upd, G.crash, unlinked, List.countP_cons] <;>
    grind [PC.holdsTask]

theorem Acts.slots (h : Acts g ch pc g' pcs) (c : ConnId) (hl : (g.conns c).limit > 1) :
    (g'.conns c).slots + [pc].countP (PC.holdsSlot c) + g.log.countP (LEv.isRefused c) =
      (g.conns c).slots + pcs.countP (PC.holdsSlot c) + g'.log.countP (LEv.isRefused c) := by
  cases h <;> simp [PC.holdsSlot, LEv.isRefused, resume, closed, G.ev, G.upd, G.crash, unlinked,
    List.countP_cons] <;>
    grind [PC.holdsSlot]

theorem Acts.slotsLe (h : Acts g ch pc g' pcs) (c : ConnId) (hl : (g.conns c).limit > 1)
    (hs : ((g.conns c).slots : Int) ≤ (g.conns c).limit) : ((g'.conns c).slots : Int) ≤ (g.conns c).limit := by
  cases h <;> grind [G.ev, G.upd, G.crash, unlinked]

theorem Acts.detached (h : Acts g ch pc g' pcs) (c : ConnId) (hl : 0 ≤ (g.conns c).limit)
    (hl' : (g.conns c).limit ≤ 1) :
    pcs.countP (PC.detached c) ≤ [pc].countP (PC.detached c) := by
  cases h <;> simp [PC.detached, resume, closed, List.countP_cons] <;>
    grind [PC.detached]

theorem Acts.runs (h : Acts g ch pc g' pcs) (c : ConnId) :
    g'.log.countP (LEv.isStart c) + g.log.countP (LEv.isFinish c) + [pc].countP (PC.runs c) =
      g.log.countP (LEv.isStart c) + g'.log.countP (LEv.isFinish c) + pcs.countP (PC.runs c) := by
  cases h <;> simp [PC.runs, LEv.isStart, LEv.isFinish, resume, closed, G.ev, G.upd, G.crash, unlinked,
    List.countP_cons] <;>
    grind [PC.runs]

theorem Acts.runsMsg (h : Acts g ch pc g' pcs) (c : ConnId) (m : LMsg) :
    g'.log.count (.start c m) + g.log.count (.finish c m) + [pc].countP (PC.runsMsg c m) =
      g.log.count (.start c m) + g'.log.count (.finish c m) + pcs.countP (PC.runsMsg c m) := by
  cases h <;> simp [PC.runsMsg, resume, closed, G.ev, G.upd, G.crash, unlinked, List.countP_cons,
    List.count_cons] <;>
    grind [PC.runsMsg]

/-- A step records at most one event. -/
theorem Acts.log (h : Acts g ch pc g' pcs) : g'.log = g.log ∨ ∃ e, g'.log = g.log ++ [e] := by
  cases h <;> simp [G.ev, G.upd, G.crash, unlinked]

theorem Acts.ops (h : Acts g ch pc g' pcs) (hc : g'.crashed = none)
    (hl : ∀ c m, pc = .counting c m → g.shutdown = true → m.requiresReply = true) :
    g'.currentOps + UInt32.ofNat ([pc].countP PC.counted) =
      g.currentOps + UInt32.ofNat (pcs.countP PC.counted) := by
  cases h <;> simp [PC.counted, resume, closed, G.ev, G.upd, unlinked, G.crash, List.countP_cons] at * <;>
    first
    | (split <;> simp [PC.counted, List.countP_cons]; done)
    | grind

end

end Webwire.Life

namespace Webwire.Life

/-! ## Invariants of all executions -/

/-- What always holds. -/
structure Inv (s : State) : Prop where
  unused : ∀ c, (s.g.conns c).used = false → s.g.conns c = {} ∧ s.threads.countP (PC.isOn c) = 0
  reader : ∀ c, s.threads.countP (PC.isReader c) ≤ 1
  tasks : ∀ c, (s.g.conns c).tasks = s.threads.countP (PC.holdsTask c)
  slots : ∀ c, (s.g.conns c).limit > 1 →
    (s.g.conns c).slots = s.threads.countP (PC.holdsSlot c) + s.g.log.countP (LEv.isRefused c)
  slotsLe : ∀ c, (s.g.conns c).limit > 1 → ((s.g.conns c).slots : Int) ≤ (s.g.conns c).limit
  detached : ∀ c, 0 ≤ (s.g.conns c).limit → (s.g.conns c).limit ≤ 1 → s.threads.countP (PC.detached c) = 0
  runs : ∀ c, s.g.log.countP (LEv.isStart c) = s.g.log.countP (LEv.isFinish c) + s.threads.countP (PC.runs c)
  runsMsg : ∀ c m, s.g.log.count (.start c m) = s.g.log.count (.finish c m) + s.threads.countP (PC.runsMsg c m)
  noEvents : ∀ c, (s.g.conns c).used = false → s.g.log.countP (LEv.isRefused c) = 0

theorem PC.isReader_isOn {c : ConnId} {pc : PC} (h : pc.isReader c = true) : pc.isOn c = true := by
  cases pc <;> simp_all [PC.isReader, PC.isOn]

theorem PC.holdsTask_isOn {c : ConnId} {pc : PC} (h : pc.holdsTask c = true) : pc.isOn c = true := by
  cases pc <;> simp_all [PC.holdsTask, PC.isOn]

theorem PC.holdsSlot_isOn {c : ConnId} {pc : PC} (h : pc.holdsSlot c = true) : pc.isOn c = true := by
  cases pc <;> simp_all [PC.holdsSlot, PC.isOn]

theorem PC.detached_isOn {c : ConnId} {pc : PC} (h : pc.detached c = true) : pc.isOn c = true := by
  cases pc <;> simp_all [PC.detached, PC.isOn]

theorem countP_zero_of_imp {l : List PC} {p q : PC → Bool} (h : ∀ pc, p pc = true → q pc = true)
    (hq : l.countP q = 0) : l.countP p = 0 :=
  Nat.le_zero.mp (hq ▸ List.countP_mono_left fun x _ => h x)

theorem Acts.refusedOn {g g' : G} {ch : Choice} {pc : PC} {pcs : List PC} (h : Acts g ch pc g' pcs) (c : ConnId)
    (hp : pc.isOn c = false) : g'.log.countP (LEv.isRefused c) = g.log.countP (LEv.isRefused c) := by
  cases h <;> simp_all [PC.isOn, G.ev, G.upd, G.crash, unlinked, LEv.isRefused]

theorem Inv.initial : Inv {} := by
  constructor <;> simp

theorem Inv.step {s s' : State} {l : Label} (hi : Inv s) (h : Step s l s') : Inv s' := by
  obtain ⟨h1, h2, h3, h4, h5, h6, h7, h8, h9⟩ := hi
  cases h with
  | thread g g' pre post pcs pc ch hc ha =>
    have ha := acts_of_act ha
    simp only [List.countP_append, List.countP_cons] at h1 h2 h3 h4 h5 h6 h7 h8 h9
    have hone : ∀ p : PC → Bool, [pc].countP p = if p pc = true then 1 else 0 := by
      intro p; simp [List.countP_cons]
    constructor <;> simp only [List.countP_append]
    · intro c hu
      have hst := ha.static c
      rw [hst.1] at hu
      have := h1 c hu
      have hp : pc.isOn c = false := by
        cases hp : pc.isOn c
        · rfl
        · simp [hp] at this
      have := ha.on c hp
      grind
    · intro c
      have := ha.reader c
      have := h2 c
      rw [hone] at *
      omega
    · intro c
      have := ha.tasks c
      have := h3 c
      rw [hone] at *
      push_cast at *
      omega
    · intro c hl
      rw [(ha.static c).2] at hl
      have := ha.slots c hl
      have := h4 c hl
      rw [hone] at *
      omega
    · intro c hl
      rw [(ha.static c).2] at hl ⊢
      exact ha.slotsLe c hl (h5 c hl)
    · intro c hl hl'
      rw [(ha.static c).2] at hl hl'
      have := ha.detached c hl hl'
      have := h6 c hl hl'
      rw [hone] at *
      omega
    · intro c
      have := ha.runs c
      have := h7 c
      rw [hone] at *
      omega
    · intro c m
      have := ha.runsMsg c m
      have := h8 c m
      rw [hone] at *
      omega
    · intro c hu
      rw [(ha.static c).1] at hu
      have := h1 c hu
      have hp : pc.isOn c = false := by
        cases hp : pc.isOn c
        · rfl
        · simp [hp] at this
      rw [ha.refusedOn c hp]
      exact h9 c hu
  | connect g ts c limit hc hu =>
    have h0 := h1 c hu
    simp only at h0
    constructor <;> simp only [List.countP_cons, G.upd] <;> intro c'
    · by_cases hcc : c' = c
      · simp [hcc]
      · have : ¬ c = c' := fun h => hcc h.symm
        simpa [hcc, PC.isOn, this] using h1 c'
    · by_cases hcc : c' = c
      · subst hcc
        rw [countP_zero_of_imp (fun _ => PC.isReader_isOn) h0.2]; split <;> simp
      · have : ¬ c = c' := fun h => hcc h.symm
        simpa [PC.isReader, this] using h2 c'
    · by_cases hcc : c' = c
      · subst hcc
        rw [countP_zero_of_imp (fun _ => PC.holdsTask_isOn) h0.2]; simp [PC.holdsTask]
      · simpa [hcc, PC.holdsTask] using h3 c'
    · by_cases hcc : c' = c
      · subst hcc
        rw [countP_zero_of_imp (fun _ => PC.holdsSlot_isOn) h0.2]; simp [PC.holdsSlot]
        intro _
        exact (h9 c' hu).symm
      · simpa [hcc, PC.holdsSlot] using h4 c'
    · by_cases hcc : c' = c
      · simp [hcc]; omega
      · simpa [hcc] using h5 c'
    · by_cases hcc : c' = c
      · subst hcc
        rw [countP_zero_of_imp (fun _ => PC.detached_isOn) h0.2]; simp [PC.detached]
      · simpa [hcc, PC.detached] using h6 c'
    · simpa [PC.runs] using h7 c'
    · intro m
      simpa [PC.runsMsg] using h8 c' m
    · by_cases hcc : c' = c
      · simp [hcc]
      · simpa [hcc] using h9 c'
  | close g ts c hc hu =>
    constructor <;> simp only [List.countP_cons] <;> intro c'
    · intro hu'
      have hcc : c ≠ c' := by rintro rfl; simp_all
      simpa [PC.isOn, hcc] using h1 c' hu'
    · simpa [PC.isReader] using h2 c'
    · simpa [PC.holdsTask] using h3 c'
    · simpa [PC.holdsSlot] using h4 c'
    · exact h5 c'
    · simpa [PC.detached] using h6 c'
    · simpa [PC.runs] using h7 c'
    · intro m; simpa [PC.runsMsg] using h8 c' m
    · exact h9 c'
  | shutdown g ts hc =>
    constructor <;> simp only [List.countP_cons] <;> intro c'
    · simpa [PC.isOn] using h1 c'
    · simpa [PC.isReader] using h2 c'
    · simpa [PC.holdsTask] using h3 c'
    · simpa [PC.holdsSlot] using h4 c'
    · exact h5 c'
    · simpa [PC.detached] using h6 c'
    · simpa [PC.runs] using h7 c'
    · intro m; simpa [PC.runsMsg] using h8 c' m
    · exact h9 c'

theorem ReachableIf.inv {ok : State → Label → Prop} {s : State} (h : ReachableIf ok s) : Inv s := by
  induction h with
  | start => exact Inv.initial
  | step s l s' _ _ hs ih => exact ih.step hs

end Webwire.Life
