import Verif.Proofs.SessionRaces3

/-!
# Session operations running at the same time

Statements C35 (concurrent part), C37, C63, C64 and C65 of `properties.jsonl`, about `Model/SessionRaces`.
-/

set_option autoImplicit false

namespace Webwire.Races

/-! ## C35: the limit -/

/-- C35, whatever runs at the same time: a session never has more registered connections than the limit, and none of
them twice. -/
theorem C35_concurrent {n : Nat} (hn : 0 < n) {s : State} (h : Reachable n s) (k : Bytes) :
    (s.g.members k).length ≤ n ∧ (s.g.members k).Nodup := by
  unfold G.members
  cases hk : s.g.registry.get k with
  | none => simp
  | some set => exact ⟨((regOk_from h).2.ok k set hk).2.2 hn, ((regOk_from h).2.ok k set hk).2.1⟩

/-- Two restorations, the first finished. -/
def restoreTwice : List Cmd := [.call (.r1 0 [1]), .go 0, .go 0, .go 0, .go 0, .call (.r1 1 [1]), .go 0]

example : ∃ s, Reachable 1 s ∧ s.g.members [1] = [0] ∧ Ev.restoreEnd 1 [1] .maxConns ∈ s.g.log := by
  obtain ⟨s, hs, h1, h2⟩ : ∃ s, play (fun _ _ => true) (init 1) restoreTwice = some s ∧ s.g.members [1] = [0] ∧
      Ev.restoreEnd 1 [1] .maxConns ∈ s.g.log := ⟨_, rfl, rfl, by decide⟩
  exact ⟨s, play_from (fun _ _ _ => trivial) _ .start hs, h1, h2⟩

/-! ## C37: concurrent restorations -/

/-- C37: any number of restorations at the same time, the server does not crash. -/
def C37_full : Prop := ∀ (n : Nat) (s : State), ReachableIf n OnlyRestores s → s.g.crashed = none

/-- Two connections restore the same session, both count before either registers. -/
def overlap : List Cmd :=
  [.call (.r1 0 [1]), .call (.r1 1 [1]), .go 0, .go 1, .go 0, .go 1, .go 0, .go 1, .go 0, .go 0]

def onlyRestores (_ : State) : Label → Bool
  | .call (.r1 ..) | .thread .. => true
  | _ => false

theorem onlyRestores_ok (s : State) (l : Label) (h : onlyRestores s l = true) : OnlyRestores s l := by
  unfold onlyRestores at h
  split at h <;> simp_all [OnlyRestores]

/-- C37 does not hold: with a limit of one connection per session, two connections restoring the same session at the
same time both pass the check, and the one registering last makes the server panic (handleSessionRestore.go:93). -/
theorem C37_violated : ¬ C37_full := by
  intro h
  obtain ⟨s, hs, h1⟩ : ∃ s, play onlyRestores (init 1) overlap = some s ∧
      s.g.crashed = some "the number of concurrent session connections was unexpectedly exceeded" := ⟨_, rfl, rfl⟩
  have := h 1 s (play_from onlyRestores_ok _ .start hs)
  rw [h1] at this
  cases this

/-- C37 holds without a limit, whatever number of restorations run at the same time, on the same or on different
connections. Missing: restorations at the same time under a limit, for which it is false. -/
theorem C37_unlimited_partial {s : State} (h : ReachableIf 0 OnlyRestores s) : s.g.crashed = none :=
  (only_reachable h).crash

example : ∃ s, ReachableIf 0 OnlyRestores s ∧ (s.g.members [1]).length = 2 ∧ s.threads = [] := by
  obtain ⟨s, hs, h1, h2⟩ : ∃ s, play onlyRestores (init 0) overlap = some s ∧ (s.g.members [1]).length = 2 ∧
    s.threads = [] := ⟨_, rfl, rfl, rfl⟩
  exact ⟨s, play_from onlyRestores_ok _ .start hs, h1, h2⟩

/-- C37 with a limit, next to any other session operations, as long as the admissions to a session are one by one and no
two operations work on the session of the same connection (`Calm`): the server does not crash; a connection told that
the session was restored has it and is registered for it; a connection told that the limit is reached met as many
connections as the limit allows. -/
theorem C37_partial {n : Nat} {s : State} (h : ReachableIf n Calm s) :
    s.g.crashed = none ∧
    ∀ l s', Calm s l → Step s l s' → s'.g.crashed = none ∧ ∀ c k,
      (s'.g.log = s.g.log ++ [.restoreEnd c k .restored] → s'.g.session c = some k ∧ c ∈ s'.g.members k) ∧
      (s'.g.log = s.g.log ++ [.restoreEnd c k .maxConns] → 0 < n ∧ n ≤ (s.g.members k).length) := by
  have hi := inv_reachable h
  refine ⟨hi.crash, fun l s' hl hst => ?_⟩
  have hi' : Inv s'.g s'.threads := inv_reachable (.step s l s' h hl hst)
  refine ⟨hi'.crash, fun c k => ?_⟩
  have hmax := (regOk_from h).1
  cases hst with
  | call => simp
  | thread g g' pre post pcs pc ch hc hs ha =>
    have ha := acts_of_act ha
    have hi0 : Inv g (pc :: (pre ++ post)) := hi.perm List.perm_middle
    simp only at hmax ⊢
    clear hi hi' hl h hs
    constructor
    · intro he
      cases ha
      all_goals (simp [G.emit, G.setSession, G.setLock, G.crash] at he)
      case r2_end _ _ r hr => rcases hr with rfl | rfl <;> simp at he
      case r4 c' k' key hk hx =>
        obtain ⟨rfl, rfl⟩ := he
        have := hi0.here c'
        rw [the_cons] at this
        simp only [PC.inside, decide_true, if_true, Here] at this
        refine ⟨this.1, ?_⟩
        rw [hk] at this
        simp only [Option.some.injEq] at this
        obtain ⟨rfl, _⟩ := this
        exact (members_add key hx).mpr (.inl ⟨rfl, rfl⟩)
    · intro he
      cases ha
      all_goals (simp [G.emit, G.setSession, G.setLock, G.crash] at he)
      case r1_max c' k' set h1 h2 h3 =>
        obtain ⟨rfl, rfl⟩ := he
        simp only [G.members, h1, Option.getD_some]
        omega
      case r2_end _ _ r hr => rcases hr with rfl | rfl <;> simp at he

/-- Two connections restore one after the other under a limit of two. -/
def oneByOne : List Cmd :=
  [.call (.r1 0 [1]), .call (.r1 1 [1]), .go 0, .go 0, .go 0, .go 0, .go 0, .go 0, .go 0, .go 0]

example : ∃ s, ReachableIf 2 Calm s ∧ (s.g.members [1]).length = 2 ∧ s.threads = [] := by
  obtain ⟨s, hs, h1, h2⟩ : ∃ s, play calm (init 2) oneByOne = some s ∧ (s.g.members [1]).length = 2 ∧
    s.threads = [] := ⟨_, rfl, rfl, rfl⟩
  exact ⟨s, play_from calm_ok _ .start hs, h1, h2⟩

/-! ## C63: sessions and registry -/

/-- C63: when no session operation is running, a connection is registered for exactly the session it has, and every
session in the registry has a connection. -/
def C63_full : Prop := ∀ (n : Nat) (s : State), Reachable n s → s.g.crashed = none → s.threads = [] →
  (∀ c k, s.g.session c = some k ↔ c ∈ s.g.members k) ∧ ∀ k, s.g.registry.get k ≠ some []

/-- A session is created by a handler while the session closure request of the connection is being handled. -/
def createWhileClosing : List Cmd :=
  [.call (.n1 0 [1]), .go 0, .go 0, .go 0, .go 0, .go 0, .go 0,
   .call (.k1 0), .go 0, .go 0, .go 0, .go 0,
   .call (.x1 0 []), .go 0, .go 0, .go 0, .go 0,
   .call (.n1 0 [2]), .go 0, .go 0, .go 0, .go 0, .go 0, .go 0,
   .go 0]

/-- C63 does not hold: the closure request resets whatever session the connection has when it gets there, even one that
was created and registered after it began. -/
theorem C63_violated : ¬ C63_full := by
  intro h
  obtain ⟨s, hs, h1, h2, h3, h4⟩ : ∃ s, play (fun _ _ => true) (init 0) createWhileClosing = some s ∧
      s.g.crashed = none ∧ s.threads = [] ∧ s.g.session 0 = none ∧ s.g.members [2] = [0] :=
    ⟨_, rfl, rfl, rfl, rfl, rfl⟩
  have := ((h 0 s (play_from (fun _ _ _ => trivial) _ .start hs) h1 h2).1 0 [2]).mpr (by simp [h4])
  rw [h3] at this
  cases this

/-- C63 while no two operations work on the session of the same connection (and, with a limit, admissions are one by
one): operations on different connections do not disturb one another. -/
theorem C63_partial {n : Nat} {s : State} (h : ReachableIf n Calm s) :
    (∀ c, (∀ a ∈ s.threads, a.inside c = false) → ∀ k, s.g.session c = some k ↔ c ∈ s.g.members k) ∧
    ∀ k, s.g.registry.get k ≠ some [] := by
  have hi := inv_reachable h
  refine ⟨fun c hc => ?_, fun k hk => (hi.reg.ok k [] hk).1 rfl⟩
  have := hi.here c
  rw [the_none.mpr hc] at this
  exact this

/-- Two connections share a session, one leaves while a third gets another. -/
def share : List Cmd :=
  [.call (.n1 0 [1]), .go 0, .go 0, .go 0, .go 0, .go 0, .go 0, .call (.r1 1 [1]), .call (.n1 2 [2]), .go 1, .go 0, .go 1, .go 1, .go 0,
   .go 1, .call (.k1 0), .go 1, .go 0, .go 0, .go 0, .go 0, .go 0, .go 0, .go 0]

example : ∃ s, ReachableIf 0 Calm s ∧ s.threads = [] ∧ s.g.session 0 = none ∧ s.g.members [1] = [1] ∧
    s.g.session 1 = some [1] ∧ s.g.members [2] = [2] := by
  obtain ⟨s, hs, h⟩ : ∃ s, play calm (init 0) share = some s ∧ s.threads = [] ∧ s.g.session 0 = none ∧
    s.g.members [1] = [1] ∧ s.g.session 1 = some [1] ∧ s.g.members [2] = [2] := ⟨_, rfl, rfl, rfl, rfl, rfl, rfl⟩
  exact ⟨s, play_from calm_ok _ .start hs, h⟩

/-! ## C64: racing operations do not crash -/

/-- C64: no session operations running at the same time make the server crash (without a limit on connections). -/
def C64_full : Prop := ∀ s : State, Reachable 0 s → s.g.crashed = none

/-- The session of a connection is closed by the server after the closure request found it. -/
def closeWhileClosing : List Cmd :=
  [.call (.n1 0 [1]), .go 0, .go 0, .go 0, .go 0, .go 0, .go 0,
   .call (.k1 0), .go 0, .go 0,
   .call (.z1 [1]), .go 0 { order := [0] }, .go 0, .go 0, .go 0, .go 0, .go 0, .go 0]

/-- C64 does not hold: `deregister` checks for a session and reads its key later, both without the lock of the session
(sessionRegistry.go:73-78); a concurrent `CloseSession` resets the session in between. -/
theorem C64_violated : ¬ C64_full := by
  intro h
  obtain ⟨s, hs, h1⟩ : ∃ s, play (fun _ _ => true) (init 0) closeWhileClosing = some s ∧
      s.g.crashed = some "nil pointer dereference" := ⟨_, rfl, rfl⟩
  have := h s (play_from (fun _ _ _ => trivial) _ .start hs)
  rw [h1] at this
  cases this

/-- The session of a connection is closed while `CreateSession` composes its error message. -/
def closeWhileRefusing : List Cmd :=
  [.call (.n1 0 [1]), .go 0, .go 0, .go 0, .go 0, .go 0, .go 0,
   .call (.n1 0 [2]), .go 0,
   .call (.x1 0 []), .go 0, .go 0, .go 0, .go 0, .go 0, .go 0]

/-- Nor do `CreateSession` and `CloseSession` alone keep to it: `CreateSession` unlocks before it reads the key of the
session that is already there (connection.go:204-207). -/
theorem C64_create_violated : ∃ s, Reachable 0 s ∧ s.g.crashed = some "nil pointer dereference" ∧
    Ev.closeEnd ∈ s.g.log ∧ s.threads = [] := by
  obtain ⟨s, hs, h⟩ : ∃ s, play (fun _ _ => true) (init 0) closeWhileRefusing = some s ∧
      s.g.crashed = some "nil pointer dereference" ∧ Ev.closeEnd ∈ s.g.log ∧ s.threads = [] :=
    ⟨_, rfl, rfl, by decide, rfl⟩
  exact ⟨s, play_from (fun _ _ _ => trivial) _ .start hs, h⟩

/-- C64 as long as no two operations that do not hold its lock work on the session of the same connection. -/
theorem C64_partial {s : State} (h : ReachableIf 0 Apart s) : s.g.crashed = none := by
  have : ReachableIf 0 Calm s := by
    have key : ∀ s, From Apart (init 0) s → s.g.maxConns = 0 ∧ From Calm (init 0) s := by
      intro s h
      induction h with
      | start => exact ⟨rfl, .start⟩
      | step s1 l s2 _ hok hst ih =>
        have h2 := From.step s1 l s2 ih.2 ⟨hok, fun hm => absurd hm (by omega)⟩ hst
        exact ⟨(regOk_from h2).1, h2⟩
    exact (key s h).2
  exact (inv_reachable this).crash

example : ∃ s, ReachableIf 0 Apart s ∧ s.threads = [] ∧ Ev.closureEnd 0 ∈ s.g.log ∧ Ev.createEnd 2 [2] true ∈ s.g.log := by
  obtain ⟨s, hs, h⟩ : ∃ s, play calm (init 0) share = some s ∧ s.threads = [] ∧ Ev.closureEnd 0 ∈ s.g.log ∧
    Ev.createEnd 2 [2] true ∈ s.g.log := ⟨_, rfl, rfl, by decide, by decide⟩
  exact ⟨s, play_from (fun s l h => (calm_ok s l h).1) _ .start hs, h⟩

/-- Two calls of `CreateSession` and one of `CloseSession` on the same connection, begun before any of them has the lock. -/
def locked : List Cmd :=
  [.call (.n1 0 [1]), .call (.x1 0 []), .call (.n1 0 [2]), .go 2, .go 2, .go 2, .go 2, .go 2, .go 2,
   .go 1, .go 1, .go 1, .go 1, .go 1, .go 0, .go 0, .go 0, .go 0, .go 0, .go 0]

example : ∃ s, ReachableIf 0 Apart s ∧ s.threads = [] ∧ Ev.createEnd 0 [1] true ∈ s.g.log ∧ Ev.destroyed [1] ∈ s.g.log ∧
    Ev.createEnd 0 [2] true ∈ s.g.log ∧ s.g.session 0 = some [2] := by
  obtain ⟨s, hs, h⟩ : ∃ s, play calm (init 0) locked = some s ∧ s.threads = [] ∧ Ev.createEnd 0 [1] true ∈ s.g.log ∧
    Ev.destroyed [1] ∈ s.g.log ∧ Ev.createEnd 0 [2] true ∈ s.g.log ∧ s.g.session 0 = some [2] :=
    ⟨_, rfl, rfl, by decide, by decide, by decide, rfl⟩
  exact ⟨s, play_from (fun s l h => (calm_ok s l h).1) _ .start hs, h⟩

/-! ## C65: they end -/

/-- C65: whatever session operations run at the same time, as long as none begins anew there is no endless execution,
and as long as one is running and the server did not crash one of them can go on: all of them end. -/
theorem C65_operations_end : WellFounded Goes ∧
    ∀ (n : Nat) (s : State), Reachable n s → s.g.crashed = none → s.threads ≠ [] → ∃ s', Goes s' s :=
  ⟨goes_wf, fun _ _ h hc hne => some_goes h hc hne⟩

/-- A restoration waits for the lock `CreateSession` has. -/
example : ∃ s, Reachable 0 s ∧ s.g.crashed = none ∧ s.threads = [.n3 0 [2], .r3 0 [1]] ∧
    ∀ ch, act s.g ch (.r3 0 [1]) = none := by
  obtain ⟨s, hs, h1, h2, h3⟩ : ∃ s, play (fun _ _ => true) (init 0)
      [.call (.r1 0 [1]), .go 0, .go 0, .call (.n1 0 [2]), .go 0] = some s ∧ s.g.crashed = none ∧
      s.threads = [.n3 0 [2], .r3 0 [1]] ∧ s.g.locked 0 = true := ⟨_, rfl, rfl, rfl, rfl⟩
  exact ⟨s, play_from (fun _ _ _ => trivial) _ .start hs, h1, h2, fun ch => by simp [act, h3]⟩

end Webwire.Races
