import Verif.Model.ReadTimer

/-!
# C73: a read times out when and only when its deadline has passed

Model: `Verif/Model/ReadTimer.lean`. `drains` says whether `Reset` and `Stop` of a Go timer remove a tick that
is already in its channel (Go 1.23 and later) or not (Go 1.11, which the repository uses).
-/

set_option autoImplicit false

namespace Webwire.ReadTimer

/-- No read ended with "deadline exceeded" before its deadline. -/
def OnTime (s : Sock) : Prop :=
  ∀ e ∈ s.log, e.how = .deadline → ∃ d, e.limit = some d ∧ d ≤ e.ended

/-- The full claim for the timers of Go 1.11: whatever happens, a read that reports an exceeded deadline has
one and it has passed. -/
def C73_full : Prop := ∀ ls s, Sock.run false any {} ls = some s → OnTime s

/-- The invariant: what the log says, and a tick in the channel belongs to the read in progress. -/
private structure Inv (s : Sock) : Prop where
  ontime : OnTime s
  tick : s.tick = true → ∃ d, s.reading = some (some d) ∧ d ≤ s.now
  armed : ∀ t, s.armed = some t → s.reading = some (some t)

private theorem inv_init : Inv {} := by constructor <;> simp [OnTime]

/-- The steps that leave no stale tick behind: a message is not taken when the timer has expired. -/
def untouched (s : Sock) : Label → Bool
  | .take => !s.tick
  | _ => true

private theorem inv_step (drains : Bool) (s s' : Sock) (l : Label)
    (hok : drains = true ∨ untouched s l = true) (h : s.step drains l = some s') (hi : Inv s) : Inv s' := by
  obtain ⟨h1, h2, h3⟩ := hi
  cases l with
  | pass =>
    simp only [Sock.step, Option.some.injEq] at h; subst h
    refine ⟨h1, fun h => ?_, h3⟩
    obtain ⟨d, hd, hl⟩ := h2 h
    exact ⟨d, hd, by simp; omega⟩
  | expire =>
    simp only [Sock.step] at h
    split at h
    · rename_i t ht
      split at h
      · rename_i hle
        simp only [Option.some.injEq] at h; subst h
        exact ⟨h1, fun _ => ⟨t, h3 t ht, hle⟩, by simp⟩
      · cases h
    · cases h
  | arrive i =>
    simp only [Sock.step] at h
    split at h
    · simp only [Option.some.injEq] at h; subst h; exact ⟨h1, h2, h3⟩
    · cases h
  | read limit =>
    simp only [Sock.step] at h
    split at h
    · cases h
    · rename_i hr
      have hnt : s.tick = false := by
        cases ht : s.tick with
        | false => rfl
        | true => obtain ⟨d, hd, _⟩ := h2 ht; simp [hr] at hd
      have hna : s.armed = none := by
        cases ha : s.armed with
        | none => rfl
        | some t => have := h3 t ha; simp [hr] at this
      split at h
      · simp only [Option.some.injEq] at h; subst h
        refine ⟨?_, by simpa using h2, by simpa using h3⟩
        intro e he; simp only [List.mem_cons] at he
        rcases he with rfl | he
        · simp
        · exact h1 e he
      · split at h <;> simp only [Option.some.injEq] at h <;> subst h
        · exact ⟨h1, by simp [hnt], by simp [hna]⟩
        · refine ⟨by simpa [OnTime, Sock.reset] using h1, by simp [Sock.reset, hnt], ?_⟩
          simp [Sock.reset]
  | take =>
    have key : ∀ limit how t, how ≠ .deadline →
        s.reading = some limit →
        Inv ({ s with slot := none }.finish drains limit how t) := by
      intro limit how t hh hr
      have hnt : drains = true ∨ s.tick = false := by
        rcases hok with hd | hu
        · exact .inl hd
        · right; simpa [untouched] using hu
      refine ⟨?_, ?_, ?_⟩
      · intro e he
        cases limit <;> simp only [Sock.finish, Sock.stop, Option.isSome, if_true,
          List.mem_cons, Bool.false_eq_true, if_false] at he <;>
        · rcases he with rfl | he
          · intro hc; exact absurd hc hh
          · exact h1 e he
      · intro ht
        cases limit with
        | none =>
          simp only [Sock.finish, Option.isSome, Bool.false_eq_true, if_false] at ht
          obtain ⟨d, hd, _⟩ := h2 ht
          simp [hr] at hd
        | some d =>
          exfalso
          simp only [Sock.finish, Sock.stop, Option.isSome, if_true] at ht
          rcases hnt with hd | hd <;> simp [hd] at ht
      · intro t ht
        cases limit with
        | none =>
          simp only [Sock.finish, Option.isSome, Bool.false_eq_true, if_false] at ht
          have := h3 t ht
          simp [hr] at this
        | some d => simp [Sock.finish, Sock.stop] at ht
    simp only [Sock.step] at h
    split at h
    · rename_i hr hs
      simp only [Option.some.injEq] at h; subst h
      exact key _ _ _ (by simp) hr
    · rename_i hr hs
      simp only [Option.some.injEq] at h; subst h
      exact key _ _ _ (by simp) hr
    · cases h
  | timeout =>
    simp only [Sock.step] at h
    split at h
    · rename_i d hr
      split at h
      · rename_i ht
        simp only [Option.some.injEq] at h; subst h
        obtain ⟨d', hd', hle⟩ := h2 ht
        have : d' = d := by simpa [hr] using hd'.symm
        subst this
        refine ⟨?_, by simp [Sock.finish, Sock.stop], by simp [Sock.finish, Sock.stop]⟩
        intro e he
        simp only [Sock.finish, Sock.stop, Option.isSome, if_true, List.mem_cons] at he
        rcases he with rfl | he
        · intro _; exact ⟨d', rfl, hle⟩
        · exact h1 e he
      · cases h
    · cases h

private theorem inv_run (drains : Bool) (ok : Sock → Label → Bool)
    (hok : ∀ s l, ok s l = true → drains = true ∨ untouched s l = true) (ls : List Label) :
    ∀ s s', Sock.run drains ok s ls = some s' → Inv s → Inv s' := by
  induction ls with
  | nil => intro s s' h hi; simp only [Sock.run, Option.some.injEq] at h; exact h ▸ hi
  | cons l ls ih =>
    intro s s' h hi
    simp only [Sock.run] at h
    split at h
    · rename_i ho
      cases hst : s.step drains l with
      | none => simp [hst] at h
      | some s1 =>
        simp only [hst, Option.bind_some] at h
        exact ih s1 s' h (inv_step drains s s1 l (hok s l ho) hst hi)
    · cases h

/-- **C73** (partial), with the timers of Go 1.23 and later: whatever the other side, the clock and the
scheduler do, a read reports an exceeded deadline only when its own deadline has passed. Missing: that a message that came in
time is not refused, which is false. -/
theorem C73_new_timers_partial (ls : List Label) (s : Sock) (h : Sock.run true any {} ls = some s) : OnTime s :=
  (inv_run true any (fun _ _ _ => .inl rfl) ls {} s h inv_init).ontime

example : ∃ s, Sock.run true any {}
    [.read (some 1), .pass, .expire, .arrive .data, .take, .read (some 3), .pass, .pass, .expire, .timeout]
    = some s ∧ s.log.map (fun e => (e.limit, e.ended, e.how)) =
      [(some 3, 3, .deadline), (some 1, 1, .message)] := ⟨_, rfl, rfl⟩

/-- **C73** (partial), with the timers of Go 1.11: the same as long as no read takes a message (or the
closing) after its timer has expired. Missing: such reads, for which it is false. -/
theorem C73_partial (ls : List Label) (s : Sock) (h : Sock.run false untouched {} ls = some s) : OnTime s :=
  (inv_run false untouched (fun _ _ h => .inr h) ls {} s h inv_init).ontime

example : ∃ s, Sock.run false untouched {}
    [.read (some 1), .arrive .data, .take, .pass, .read (some 2), .pass, .expire, .timeout]
    = some s ∧ s.log.map (fun e => (e.limit, e.ended, e.how)) =
      [(some 2, 2, .deadline), (some 1, 0, .message)] := ⟨_, rfl, rfl⟩

/-- Time passes `n` times. -/
private theorem run_passes (drains : Bool) (n : Nat) (ls : List Label) :
    ∀ s : Sock, Sock.run drains any s (List.replicate n .pass ++ ls) =
      Sock.run drains any { s with now := s.now + n } ls := by
  induction n with
  | zero => intro s; rfl
  | succ n ih =>
    intro s
    simp only [List.replicate_succ, List.cons_append, Sock.run, any, if_true, Sock.step, Option.bind_some]
    rw [ih]
    congr 2
    simp only
    omega

/-- The server's loop (`/repo/handleConnection.go:62-86`) with a read timeout of `n`: when a message is taken
just after the timer has expired, the *next* read, made with a fresh deadline `n` later, fails with "deadline
exceeded" in the same instant, and the socket is closed. -/
theorem C73_stale_tick (n : Nat) : ∃ s, Sock.run false any {}
      ([.read (some n)] ++ (List.replicate n .pass ++ [.arrive .data, .expire, .take, .read (some (n + n)), .timeout])) = some s ∧
    s.closed = true ∧
    s.log = [⟨some (n + n), n, .deadline, none⟩, ⟨some n, n, .message, some n⟩] := by
  simp only [List.cons_append, List.nil_append, Sock.run, any, if_true, Sock.step, Sock.reset, Option.bind_some,
    Bool.false_eq_true, if_false]
  rw [run_passes]
  simp [Sock.run, any, Sock.step, Sock.finish, Sock.stop, Sock.reset]

/-- **C73** fails for the timers the repository is built with: `readTimer.Stop()` (`socket.go:200`) does not
empty the timer's channel, so a tick can survive into the next read. -/
theorem C73_violated : ¬ C73_full := by
  intro h
  obtain ⟨s, hs, _, hl⟩ := C73_stale_tick 1
  obtain ⟨d, hd, hle⟩ := h _ s hs ⟨some 2, 1, .deadline, none⟩ (by rw [hl]; simp) rfl
  simp at hd hle; omega

/-- The other direction, liveness: no read hangs past its deadline. A read in progress whose deadline has
passed has a tick waiting or its timer is about to expire; either way it can end now. -/
private structure Live (s : Sock) : Prop where
  live : ∀ d, s.reading = some (some d) → s.tick = true ∨ s.armed = some d

private theorem live_step (drains : Bool) (s s' : Sock) (l : Label) (h : s.step drains l = some s')
    (hi : Live s) : Live s' := by
  obtain ⟨h1⟩ := hi
  constructor
  cases l <;> simp only [Sock.step] at h <;> (repeat' split at h) <;>
    simp only [Option.some.injEq, reduceCtorEq] at h <;> subst h <;>
    simp_all [Sock.finish, Sock.stop, Sock.reset]

private theorem live_run (drains : Bool) (ls : List Label) :
    ∀ s s', Sock.run drains any s ls = some s' → Live s → Live s' := by
  induction ls with
  | nil => intro s s' h hi; simp only [Sock.run, Option.some.injEq] at h; exact h ▸ hi
  | cons l ls ih =>
    intro s s' h hi
    simp only [Sock.run, any, if_true] at h
    cases hst : s.step drains l with
    | none => simp [hst] at h
    | some s1 =>
      simp only [hst, Option.bind_some] at h
      exact ih s1 s' h (live_step drains s s1 l hst hi)

/-- **C73**, the converse, for either kind of timer: a read in progress whose deadline has passed can report
it, at the latest after the run-time has let the timer expire. It never waits for the other side. -/
theorem C73_no_hang (drains : Bool) (ls : List Label) (s : Sock) (d : Nat)
    (h : Sock.run drains any {} ls = some s) (hr : s.reading = some (some d)) (hd : d ≤ s.now) :
    ∃ more s', (more = [.timeout] ∨ more = [.expire, .timeout]) ∧ Sock.run drains any s more = some s' ∧
      s'.reading = none ∧ s'.closed = true ∧ s'.log = ⟨some d, s.now, .deadline, none⟩ :: s.log := by
  have hl := (live_run drains ls {} s h ⟨by simp⟩).live d hr
  cases ht : s.tick with
  | true =>
    refine ⟨[.timeout], _, .inl rfl, by simp [Sock.run, any, Sock.step, hr, ht]; rfl, ?_, ?_, ?_⟩ <;>
      simp [Sock.finish, Sock.stop]
  | false =>
    have ha : s.armed = some d := by simpa [ht] using hl
    refine ⟨[.expire, .timeout], _, .inr rfl, by simp [Sock.run, any, Sock.step, hr, ha, hd]; rfl, ?_, ?_, ?_⟩ <;>
      simp [Sock.finish, Sock.stop]

example : ∃ s, Sock.run false any {} [.read (some 2), .pass, .pass] = some s ∧
    s.reading = some (some 2) ∧ s.now = 2 := ⟨_, rfl, rfl, rfl⟩

/-- A lively client and a prompt server: no instant passes while a message waits for a reading server, and the
clock does not reach the deadline of the read in progress (because a message arrived and was taken before). -/
def lively (s : Sock) : Label → Bool
  | .pass =>
    match s.reading with
    | some (some d) => s.slot.isNone && decide (s.now + 1 < d)
    | _ => true
  | .arrive i => decide (i = .data)
  | .read (some d) => decide (s.now < d)
  | _ => true

private structure Calm (s : Sock) : Prop where
  armed : ∀ t, s.armed = some t → s.now < t ∧ s.reading = some (some t)
  tick : s.tick = false
  slot : ∀ t, s.slot ≠ some (.nil, t)
  closed : s.closed = false
  log : ∀ e ∈ s.log, e.how = .message
  reading : ∀ d, s.reading = some (some d) → s.armed = some d

private theorem calm_step (drains : Bool) (s s' : Sock) (l : Label) (ho : lively s l = true)
    (h : s.step drains l = some s') (hi : Calm s) : Calm s' := by
  obtain ⟨h1, h2, h3, h4, h5, h6⟩ := hi
  cases l with
  | pass =>
    simp only [Sock.step, Option.some.injEq] at h; subst h
    refine ⟨fun t ht => ?_, h2, h3, h4, h5, h6⟩
    obtain ⟨_, hr⟩ := h1 t ht
    simp [lively, hr] at ho
    exact ⟨ho.2, hr⟩
  | expire =>
    simp only [Sock.step] at h
    split at h
    · rename_i t ht
      have := (h1 t ht).1
      split at h
      · omega
      · cases h
    · cases h
  | arrive i =>
    simp only [lively, decide_eq_true_eq] at ho
    subst ho
    simp only [Sock.step] at h
    split at h
    · simp only [Option.some.injEq] at h; subst h
      exact ⟨h1, h2, by simp, h4, h5, h6⟩
    · cases h
  | read limit =>
    simp only [Sock.step] at h
    split at h
    · cases h
    · rename_i hr
      rw [h4] at h
      simp only [Bool.false_eq_true, if_false] at h
      split at h <;> simp only [Option.some.injEq] at h <;> subst h
      · refine ⟨fun t ht => ?_, h2, h3, rfl, h5, by simp⟩
        have := (h1 t ht).2; simp [hr] at this
      · rename_i d
        simp only [lively, decide_eq_true_eq] at ho
        refine ⟨by simp [Sock.reset, ho], by simp [Sock.reset, h2], by simpa [Sock.reset] using h3,
          by simpa [Sock.reset] using h4, by simpa [Sock.reset] using h5, by simp [Sock.reset]⟩
  | take =>
    simp only [Sock.step] at h
    split at h
    · rename_i limit t hr hs
      simp only [Option.some.injEq] at h; subst h
      cases limit with
      | none =>
        refine ⟨fun t ht => ?_, ?_, ?_, ?_, ?_, ?_⟩
        · have := (h1 t (by simpa [Sock.finish] using ht)).2; simp [hr] at this
        all_goals simp_all [Sock.finish]
      | some d => constructor <;> simp_all [Sock.finish, Sock.stop]
    · rename_i limit t hr hs
      exact absurd hs (h3 t)
    · cases h
  | timeout =>
    simp only [Sock.step] at h
    split at h
    · simp [h2] at h
    · cases h

private theorem calm_run (drains : Bool) (ls : List Label) :
    ∀ s s', Sock.run drains lively s ls = some s' → Calm s → Calm s' := by
  induction ls with
  | nil => intro s s' h hi; simp only [Sock.run, Option.some.injEq] at h; exact h ▸ hi
  | cons l ls ih =>
    intro s s' h hi
    simp only [Sock.run] at h
    split at h
    · rename_i ho
      cases hst : s.step drains l with
      | none => simp [hst] at h
      | some s1 =>
        simp only [hst, Option.bind_some] at h
        exact ih s1 s' h (calm_step drains s s1 l ho hst hi)
    · cases h

/-- **C73**, heartbeats, for either kind of timer: a client that always sends the next message before the
deadline of the server's read, to a server that takes a waiting message before the clock moves, is never
disconnected: no read fails. Missing: servers that let the clock move before, for which it is false. -/
theorem C73_heartbeat_partial (drains : Bool) (ls : List Label) (s : Sock)
    (h : Sock.run drains lively {} ls = some s) : s.closed = false ∧ ∀ e ∈ s.log, e.how = .message := by
  have := calm_run drains ls {} s h (by constructor <;> simp)
  exact ⟨this.closed, this.log⟩

example : ∃ s, Sock.run false lively {}
    [.read (some 3), .pass, .pass, .arrive .data, .take, .read (some 5), .pass, .pass, .arrive .data, .take]
    = some s ∧ s.now = 4 ∧ s.log.length = 2 := ⟨_, rfl, rfl, rfl⟩

/-- How many of the steps are arrivals of messages. -/
def arrivals (ls : List Label) : Nat := ls.countP fun l => decide (l = .arrive .data)

/-- How many reads returned a message. -/
def messages (log : List Done) : Nat := log.countP fun e => decide (e.how = .message)

/-- Whether a message waits in the channel. -/
def waits (s : Sock) : Nat :=
  match s.slot with
  | some (.data, _) => 1
  | _ => 0

private theorem once_step (drains : Bool) (s s' : Sock) (l : Label) (h : s.step drains l = some s') :
    messages s'.log + waits s' = messages s.log + waits s + arrivals [l] := by
  cases l with
  | pass =>
    simp only [Sock.step, Option.some.injEq] at h; subst h
    simp [arrivals, waits]
  | expire =>
    simp only [Sock.step] at h
    split at h
    · split at h
      · simp only [Option.some.injEq] at h; subst h; simp [arrivals, waits]
      · cases h
    · cases h
  | arrive i =>
    simp only [Sock.step] at h
    split at h
    · rename_i hn
      simp only [Option.some.injEq] at h; subst h
      cases i <;> simp [arrivals, waits, hn]
    · cases h
  | read limit =>
    simp only [Sock.step] at h
    split at h
    · cases h
    · split at h
      · simp only [Option.some.injEq] at h; subst h; simp [arrivals, waits, messages]
      · split at h <;> (simp only [Option.some.injEq] at h; subst h; simp [arrivals, waits, Sock.reset])
  | take =>
    simp only [Sock.step] at h
    split at h
    · rename_i limit t _ hs
      simp only [Option.some.injEq] at h; subst h
      cases limit <;> simp [arrivals, waits, messages, Sock.finish, Sock.stop, hs]
    · rename_i limit t _ hs
      simp only [Option.some.injEq] at h; subst h
      cases limit <;> simp [arrivals, waits, messages, Sock.finish, Sock.stop, hs]
    · cases h
  | timeout =>
    simp only [Sock.step] at h
    split at h
    · split at h
      · simp only [Option.some.injEq] at h; subst h
        simp [arrivals, waits, messages, Sock.finish, Sock.stop]
      · cases h
    · cases h

private theorem once_run (drains : Bool) (ls : List Label) : ∀ (s s' : Sock), Sock.run drains any s ls = some s' →
    messages s'.log + waits s' = messages s.log + waits s + arrivals ls := by
  induction ls with
  | nil =>
    intro s s' h
    simp only [Sock.run, Option.some.injEq] at h
    subst h; simp [arrivals]
  | cons l ls ih =>
    intro s s' h
    simp only [Sock.run, any, if_true] at h
    cases h1 : s.step drains l with
    | none => rw [h1] at h; simp at h
    | some s1 =>
      rw [h1] at h
      simp only [Option.bind_some] at h
      have e1 := once_step drains s s1 l h1
      have e2 := ih s1 s' h
      have e3 : arrivals (l :: ls) = arrivals [l] + arrivals ls := by
        simp only [arrivals, List.countP_cons, List.countP_nil]; omega
      omega

/-- **C73**, for either kind of timer: deadlines make no message be read twice or disappear. Each message that
arrived was returned by one read or still waits in the channel. -/
theorem C73_each_once (drains : Bool) (ls : List Label) (s : Sock) (h : Sock.run drains any {} ls = some s) :
    messages s.log + waits s = arrivals ls := by
  have := once_run drains ls {} s h
  simpa [messages, waits] using this

example : ∃ s, Sock.run false any {}
    [.read (some 1), .arrive .data, .take, .read (some 2), .arrive .data, .pass, .pass, .expire, .timeout]
    = some s ∧ messages s.log = 1 ∧ waits s = 1 := ⟨_, rfl, rfl, rfl⟩

/-- What promptness is needed for: a message that arrived in time can still be refused. It waits in the
channel from instant 0, but the goroutine gets to its `select` only at the deadline, finds both cases ready,
and Go picks one at random (`socket.go:186-198`). -/
def C73_in_time : Prop :=
  ∀ (drains : Bool) (ls : List Label) (s : Sock), Sock.run drains any {} ls = some s →
    ∀ e ∈ s.log, e.how = .deadline → ∀ d, e.limit = some d → ∀ i t, s.slot = some (i, t) → d ≤ t

/-- Fails for either kind of timer. -/
theorem C73_in_time_violated (drains : Bool) : ∃ s, Sock.run drains any {}
      [.read (some 1), .arrive .data, .pass, .expire, .timeout] = some s ∧
    s.slot = some (.data, 0) ∧ s.log = [⟨some 1, 1, .deadline, none⟩] ∧ s.closed = true := by
  cases drains <;> exact ⟨_, rfl, rfl, rfl, rfl⟩

theorem C73_select_violated : ¬ C73_in_time := by
  intro h
  obtain ⟨s, hs, hsl, hlog, _⟩ := C73_in_time_violated false
  have := h false _ s hs ⟨some 1, 1, .deadline, none⟩ (by rw [hlog]; simp) rfl 1 rfl _ _ hsl
  omega

/-- When the last message was received; 0, the time of the connection, if there was none. -/
def since (s : Sock) : Nat :=
  match s.log with
  | [] => 0
  | e :: _ => e.ended

/-- The server's loop (`/repo/handleConnection.go:62-86`) with a read timeout of `n`, whose handlers may take any time between reads,
and a client that lets less than `n` pass between the end of one transmission and the beginning of the next. The server takes a
waiting message without delay once it reads. -/
def regular (n : Nat) (s : Sock) : Label → Bool
  | .pass => (s.slot.isSome && s.reading.isNone) || (s.slot.isNone && decide (s.now + 1 < since s + n))
  | .arrive i => decide (i = .data)
  | .read limit => decide (limit = some (s.now + n)) && s.reading.isNone
  | _ => true

private theorem regular_step (drains : Bool) (n : Nat) (s s' : Sock) (l : Label) (hl : lively s l = true)
    (h : s.step drains l = some s') (ho : regular n s l = true) (hc : s.closed = false)
    (hi : since s ≤ s.now ∧ ∀ d, s.reading = some d → d.elim False fun d => since s + n ≤ d) :
    since s' ≤ s'.now ∧ ∀ d, s'.reading = some d → d.elim False fun d => since s' + n ≤ d := by
  obtain ⟨h1, h2⟩ := hi
  cases l with
  | pass =>
    simp only [Sock.step, Option.some.injEq] at h; subst h
    exact ⟨Nat.le_succ_of_le h1, h2⟩
  | expire =>
    simp only [Sock.step] at h
    split at h
    · split at h
      · cases h; exact ⟨h1, h2⟩
      · cases h
    · cases h
  | arrive i =>
    simp only [Sock.step] at h
    split at h
    · cases h; exact ⟨h1, h2⟩
    · cases h
  | read limit =>
    simp only [regular, Bool.and_eq_true, decide_eq_true_eq] at ho
    obtain ⟨rfl, hr⟩ := ho
    simp only [Sock.step] at h
    split at h
    · cases h
    · rw [if_neg (by simp [hc])] at h
      cases h
      refine ⟨h1, ?_⟩
      rintro d hd
      cases hd
      exact Nat.add_le_add_right h1 n
  | take =>
    simp only [Sock.step] at h
    split at h
    · rename_i limit t _ hs
      cases h
      cases limit <;> simp [Sock.finish, Sock.stop, since]
    · rename_i limit t _ hs
      cases h
      cases limit <;> simp [Sock.finish, Sock.stop, since]
    · cases h
  | timeout =>
    simp only [Sock.step] at h
    split at h
    · split at h
      · cases h
        simp [Sock.finish, Sock.stop, since]
      · cases h
    · cases h

private theorem regular_lively (n : Nat) (hn : 0 < n) (s : Sock) (l : Label) (ho : regular n s l = true)
    (hi : ∀ d, s.reading = some d → d.elim False fun d => since s + n ≤ d) : lively s l = true := by
  cases l with
  | pass =>
    simp only [lively]
    split
    · rename_i d hr
      have := hi _ hr
      simp only [Option.elim] at this
      simp only [regular, hr, Option.isNone_some, Bool.and_false, Bool.false_or, Bool.and_eq_true, decide_eq_true_eq] at ho
      simp only [Bool.and_eq_true, decide_eq_true_eq]
      exact ⟨ho.1, by omega⟩
    · rfl
  | arrive i => exact ho
  | read limit =>
    simp only [regular, Bool.and_eq_true, decide_eq_true_eq] at ho
    obtain ⟨rfl, _⟩ := ho
    simp only [lively, decide_eq_true_eq]
    omega
  | _ => rfl

/-- **C73**, for either kind of timer, as a client sees it: if the server's read timeout is `n` and less than `n` passes between the
client's messages (heartbeats included), then, however long the server's handlers take, no read fails and the connection stays open.
Missing: the server gets to its `select` without delay; otherwise see `C73_in_time_violated`. -/
theorem C73_interval_partial (drains : Bool) (n : Nat) (hn : 0 < n) (ls : List Label) (s : Sock)
    (h : Sock.run drains (regular n) {} ls = some s) : s.closed = false ∧ ∀ e ∈ s.log, e.how = .message := by
  have run_append : ∀ (ok : Sock → Label → Bool) (ls : List Label) (l : Label) (a b c : Sock), Sock.run drains ok a ls = some b →
      ok b l = true → b.step drains l = some c → Sock.run drains ok a (ls ++ [l]) = some c := by
    intro ok ls l
    induction ls with
    | nil =>
      intro a b c h1 h2 h3
      cases h1
      simp [Sock.run, h2, h3]
    | cons x xs ih =>
      intro a b c h1 h2 h3
      simp only [Sock.run, List.cons_append] at h1 ⊢
      split at h1
      · rename_i hx
        rw [if_pos hx]
        cases hstep : a.step drains x with
        | none => simp [hstep] at h1
        | some a' =>
          simp only [hstep, Option.bind_some] at h1 ⊢
          exact ih a' b c h1 h2 h3
      · cases h1
  have main : ∀ (ls2 ls1 : List Label) (a b : Sock), Sock.run drains lively {} ls1 = some a →
      (since a ≤ a.now ∧ ∀ d, a.reading = some d → d.elim False fun d => since a + n ≤ d) →
      Sock.run drains (regular n) a ls2 = some b → ∃ ls', Sock.run drains lively {} ls' = some b := by
    intro ls2
    induction ls2 with
    | nil => intro ls1 a b h1 _ h2; cases h2; exact ⟨_, h1⟩
    | cons x xs ih =>
      intro ls1 a b h1 hi h2
      simp only [Sock.run] at h2
      split at h2
      · rename_i hx
        cases hstep : a.step drains x with
        | none => simp [hstep] at h2
        | some a' =>
          simp only [hstep, Option.bind_some] at h2
          have hl := regular_lively n hn a x hx hi.2
          exact ih (ls1 ++ [x]) a' b (run_append _ _ _ _ _ _ h1 hl hstep)
            (regular_step drains n a a' x hl hstep hx (C73_heartbeat_partial drains ls1 a h1).1 hi) h2
      · cases h2
  obtain ⟨ls', h'⟩ := main ls [] {} s rfl ⟨Nat.le_refl _, by simp⟩ h
  exact C73_heartbeat_partial drains ls' s h'

/-- C73, non-vacuity: a timeout of 3; a handler takes 5, much longer than the timeout, while the next message waits. -/
example : ∃ s, Sock.run false (regular 3) {}
    [.read (some 3), .pass, .pass, .arrive .data, .take, .pass, .pass, .arrive .data, .pass, .pass, .pass, .read (some 10), .take,
      .read (some 10), .pass, .pass, .arrive .data, .take] = some s ∧ s.now = 9 ∧ s.log.length = 3 := ⟨_, rfl, rfl, rfl⟩

end Webwire.ReadTimer
