import Verif.Proofs.SessionRaces5

/-!
# What the session manager is told, while operations overlap

Statements C81, C82 and C83 of `properties.jsonl`, about `Model/SessionRaces`.
-/

set_option autoImplicit false

namespace Webwire.Races

/-! ## C81: `OnSessionCreated` can retrieve the session -/

/-- C81: whatever runs at the same time, the connection given to `OnSessionCreated` has the session created, and the
session manager saves it under its key. -/
def C81_full : Prop := ∀ (n : Nat) (s : State), Reachable n s →
  (∀ c k seen, .hookSession c k seen ∈ s.g.log → seen = some k) ∧ ∀ c k key, .saved c k key ∈ s.g.log → key = k

/-- The session is closed after `CreateSession` unlocked and before it calls `OnSessionCreated`. -/
def closedBeforeHook : List Cmd :=
  [.call (.n1 0 [1]), .go 0, .go 0, .go 0, .call (.x1 0 []), .go 0, .go 0, .go 0, .go 0, .go 0, .go 0]

/-- C81 does not hold: `CreateSession` unlocks before it calls the hook (connection.go:227-230). When the session is
closed in between, `Connection.Session` is nil in `OnSessionCreated`; `DefaultSessionManager` dereferences it
(defaultSessionManager.go:101-105) and the server crashes. The two operations are kept apart by the lock (`Calm`). -/
theorem C81_violated : ¬ C81_full := by
  intro h
  obtain ⟨s, hs, h1⟩ : ∃ s, play calm (init 0) closedBeforeHook = some s ∧ .hookSession 0 [1] none ∈ s.g.log :=
    ⟨_, rfl, by decide⟩
  have := (h 0 s (play_from (fun _ _ _ => trivial) _ .start hs)).1 0 [1] none h1
  cases this

/-- The session is closed while `OnSessionCreated` is running. -/
def closedInHook : List Cmd :=
  [.call (.n1 0 [1]), .go 0, .go 0, .go 0, .go 0, .call (.x1 0 []), .go 0, .go 0, .go 0, .go 0, .go 0, .go 0]

/-- Closed a little later the session is saved under an empty key, after `OnSessionClosed` was called for it: nobody will
ever remove it. -/
theorem C81_key_violated : ∃ s, ReachableIf 0 Calm s ∧ .saved 0 [1] [] ∈ s.g.log ∧ .destroyed [1] ∈ s.g.log ∧
    .destroyed [] ∉ s.g.log ∧ stored s.g.log = [[]] := by
  obtain ⟨s, hs, h⟩ : ∃ s, play calm (init 0) closedInHook = some s ∧ .saved 0 [1] [] ∈ s.g.log ∧
      .destroyed [1] ∈ s.g.log ∧ .destroyed [] ∉ s.g.log ∧ stored s.g.log = [[]] :=
    ⟨_, rfl, by decide, by decide, by decide, rfl⟩
  exact ⟨s, play_from calm_ok _ .start hs, h⟩

/-- C81 as long as nobody begins to close the session of the connection and the connection does not end while
`OnSessionCreated` is running, and no two operations that do not hold its lock work on the session of the same
connection. -/
theorem C81_partial {n : Nat} {s : State} (h : ReachableIf n Orderly s) :
    (∀ c k seen, .hookSession c k seen ∈ s.g.log → seen = some k) ∧ ∀ c k key, .saved c k key ∈ s.g.log → key = k := by
  refine (orderly_inv (ok := Orderly) (fun _ _ h => h) (I := fun g _ =>
    (∀ (c : ConnId) (k : Bytes) (seen : Option Bytes), Ev.hookSession c k seen ∈ g.log → seen = some k) ∧
      ∀ (c : ConnId) (k key : Bytes), Ev.saved c k key ∈ g.log → key = k)
    (fun _ _ _ h _ => h) ?_ (fun _ _ _ h _ _ => h) (by simp [init]) h).1
  intro g pc rest ts ch g' pcs hI hi hh hp hok hact _
  have ha := acts_of_act hact
  clear hok hact hi
  constructor
  · intro c k seen hm
    by_cases ho : .hookSession c k seen ∈ g.log
    · exact hI.1 c k seen ho
    · cases ha
      case n5 c' k' hl =>
        simp only [G.emit, List.mem_append, ho, List.mem_singleton, Ev.hookSession.injEq, false_or] at hm
        obtain ⟨rfl, rfl, rfl⟩ := hm
        exact (hh c k (.inl List.mem_cons_self)).1
      all_goals (exfalso; simp_all [G.emit, G.setSession, G.setLock, G.crash])
  · intro c k key hm
    by_cases ho : .saved c k key ∈ g.log
    · exact hI.2 c k key ho
    · cases ha
      case n6 c' k' hl =>
        simp only [G.emit, List.mem_append, ho, List.mem_singleton, Ev.saved.injEq, false_or] at hm
        obtain ⟨rfl, rfl, rfl⟩ := hm
        simp [(hh c k (.inr List.mem_cons_self)).1]
      all_goals (exfalso; simp_all [G.emit, G.setSession, G.setLock, G.crash])

def orderly (s : State) (l : Label) : Bool := calm s l && undisturbed s l

theorem orderly_ok (s : State) (l : Label) (h : orderly s l = true) : Orderly s l := by
  simp only [orderly, Bool.and_eq_true] at h
  exact ⟨calm_ok s l h.1, undisturbed_ok s l h.2⟩

/-- While `OnSessionCreated` runs for one connection the session is restored on another and closed there, and
`CreateSession` is called again. -/
def busyHook : List Cmd :=
  [.call (.n1 0 [1]), .go 0, .go 0, .go 0, .call (.r1 1 [1]), .go 0, .go 0, .go 0, .go 0, .go 0,
   .call (.x1 1 []), .go 0, .go 0, .go 0, .go 0, .call (.n1 0 [2]), .go 0, .go 0, .go 0, .go 0]

example : ∃ s, ReachableIf 0 Orderly s ∧ s.threads = [] ∧ .hookSession 0 [1] (some [1]) ∈ s.g.log ∧
    .saved 0 [1] [1] ∈ s.g.log ∧ .closeEnd ∈ s.g.log ∧ .createEnd 0 [2] false ∈ s.g.log := by
  obtain ⟨s, hs, h⟩ : ∃ s, play orderly (init 0) busyHook = some s ∧ s.threads = [] ∧
      .hookSession 0 [1] (some [1]) ∈ s.g.log ∧ .saved 0 [1] [1] ∈ s.g.log ∧ .closeEnd ∈ s.g.log ∧
      .createEnd 0 [2] false ∈ s.g.log := ⟨_, rfl, rfl, by decide, by decide, by decide, by decide⟩
  exact ⟨s, play_from orderly_ok _ .start hs, h⟩

/-! ## C82: a client told about a session can restore it -/

/-- C82, for a session manager that saves what it is told and finds what it saved: a restoration request for a session
that a client was told about is answered with "not found" only if the session was closed. -/
def C82_full : Prop := ∀ (n : Nat) (s : State) (l : Label) (s' : State) (c c' : ConnId) (k : Bytes),
  ReachableIf n Faithful s → Faithful s l → Step s l s' → s'.g.log = s.g.log ++ [.restoreEnd c k .notFound] →
  .told c' k ∈ s.g.log → .destroyed k ∈ s.g.log

/-- A client restores the session it was told about before `OnSessionCreated` has saved it. -/
def restoredEarly : List Cmd := [.call (.n1 0 [1]), .go 0, .go 0, .call (.r1 1 [1]), .go 0]

/-- C82 does not hold: the client is told about the session before the session manager is (connection.go:215-230). -/
theorem C82_violated : ¬ C82_full := by
  intro h
  obtain ⟨s, s', hs, h1, h2, h3⟩ : ∃ s s', play faithful (init 0) restoredEarly = some s ∧
      (s'.g.log = s.g.log ++ [.restoreEnd 1 [1] .notFound] ∧ .told 0 [1] ∈ s.g.log ∧ .destroyed [1] ∉ s.g.log) ∧
      (legal s (.thread (.r2 1 [1]) { lookup := some false }) = true ∧ s.g.crashed = none ∧
        s.threads[0]? = some (.r2 1 [1]) ∧ exec s (.go 0 { lookup := some false }) = some s') ∧
      faithful s (.thread (.r2 1 [1]) { lookup := some false }) = true :=
    ⟨_, _, rfl, ⟨rfl, by decide, by decide⟩, ⟨rfl, rfl, rfl, rfl⟩, rfl⟩
  have hst : Step s (.thread (.r2 1 [1]) { lookup := some false }) s' :=
    exec_step (cmd := .go 0 { lookup := some false }) h2.2.1 (by simp [Cmd.label, h2.2.2.1]) h2.1 h2.2.2.2
  exact h1.2.2 (h 0 s _ s' 1 0 [1] (play_from faithful_ok _ .start hs) (faithful_ok _ _ h3) hst h1.1 h1.2.1)

/-- The session manager is asked and told as it should be, and nobody disturbs `OnSessionCreated`. -/
def Sound (s : State) (l : Label) : Prop := Orderly s l ∧ Faithful s l

theorem told_reachable {n : Nat} {s : State} (h : ReachableIf n Sound s) (k : Bytes) : Told k s.g s.threads := by
  refine (orderly_inv (ok := Sound) (fun _ _ h => h.1) (I := Told k) (fun _ _ _ h hp => h.perm hp) ?_ ?_ ?_ h).1
  · intro g pc rest ts ch g' pcs hI hi hh hp hok hact _
    refine hI.step hi hh (acts_of_act hact) fun c k' e => ?_
    subst e
    have hf : ch.fails = false := hok.2
    simp only [act, hf, Bool.false_eq_true, if_false] at hact
    split at hact
    · cases hact
    · simp only [Option.some.injEq, Prod.mk.injEq] at hact
      obtain ⟨rfl, rfl⟩ := hact
      exact ⟨_, rfl⟩
  · intro g ts pc hI hen _
    have hs : pc.saving k = false := by cases pc <;> simp_all [PC.entry, PC.saving]
    constructor
    · intro ht
      exact (hI.told ht).imp id (.imp id fun ⟨a, ha, h⟩ => ⟨a, List.mem_cons_of_mem _ ha, h⟩)
    · rintro (h | ⟨a, ha, h⟩)
      · exact hI.back (.inl h)
      · rcases List.mem_cons.mp ha with rfl | ha
        · rw [hs] at h; cases h
        · exact hI.back (.inr ⟨a, ha, h⟩)
  · constructor <;> simp [init, stored]

/-- C82 as long as `OnSessionCreated` is not disturbed, for clients that wait until `CreateSession` is done: the session
is found unless it was closed. -/
theorem C82_partial {n : Nat} {s s' : State} {l : Label} (h : ReachableIf n Sound s) (hl : Faithful s l)
    (hst : Step s l s') {c c' : ConnId} {k : Bytes} (he : s'.g.log = s.g.log ++ [.restoreEnd c k .notFound])
    (ht : .told c' k ∈ s.g.log) (hq : ∀ a ∈ s.threads, a.saving k = false) : .destroyed k ∈ s.g.log := by
  rcases (told_reachable h k).told ⟨c', ht⟩ with h1 | h1 | ⟨a, hm, h1⟩
  · exact h1
  · exfalso
    cases hst with
    | call => simp at he
    | thread g g' pre post pcs pc ch hc hsn hact =>
      have hr2 : pc = .r2 c k ∧ ch.lookup = some false := by
        by_cases hp : ∃ c k, pc = .r2 c k
        · obtain ⟨c1, k1, rfl⟩ := hp
          simp only [act] at hact
          split at hact <;> simp only [Option.some.injEq, Prod.mk.injEq] at hact <;> obtain ⟨rfl, rfl⟩ := hact
            <;> simp [G.emit] at he
          rename_i hlk
          obtain ⟨rfl, rfl⟩ := he
          exact ⟨rfl, hlk⟩
        · exfalso
          have ha := acts_of_act hact
          clear hact hl hq hsn h
          cases ha <;> simp [G.emit, G.setSession, G.setLock, G.crash] at he <;> exact hp ⟨_, _, rfl⟩
      obtain ⟨rfl, hlk⟩ := hr2
      have := (hl false hlk).mpr h1
      cases this
  · rw [hq a hm] at h1; cases h1

/-- Created, shared and left by the first connection: the second one's later request finds it. -/
def createThenRestore : List Cmd :=
  [.call (.n1 0 [1]), .go 0, .go 0, .go 0, .go 0, .go 0, .go 0, .call (.d1 0 .unlink), .go 0, .go 0, .go 0,
   .call (.r1 1 [1]), .go 0, .go 0, .go 0, .go 0, .call (.k1 1), .go 0, .go 0, .go 0, .go 0, .go 0, .call (.r1 2 [1]), .go 0]

def sound (s : State) (l : Label) : Bool := orderly s l && faithful s l

theorem sound_ok (s : State) (l : Label) (h : sound s l = true) : Sound s l := by
  simp only [sound, Bool.and_eq_true] at h
  exact ⟨orderly_ok s l h.1, faithful_ok s l h.2⟩

example : ∃ s s', ReachableIf 0 Sound s ∧ Faithful s (.thread (.r2 2 [1]) { lookup := some false }) ∧
    Step s (.thread (.r2 2 [1]) { lookup := some false }) s' ∧ s'.g.log = s.g.log ++ [.restoreEnd 2 [1] .notFound] ∧
    .told 0 [1] ∈ s.g.log ∧ .restoreEnd 1 [1] .restored ∈ s.g.log ∧ ∀ a ∈ s.threads, a.saving [1] = false := by
  obtain ⟨s, s', hs, h1, h2, h3⟩ : ∃ s s', play sound (init 0) createThenRestore = some s ∧
      (s'.g.log = s.g.log ++ [.restoreEnd 2 [1] .notFound] ∧ .told 0 [1] ∈ s.g.log ∧
        .restoreEnd 1 [1] .restored ∈ s.g.log ∧ s.threads = [.r2 2 [1]]) ∧
      (legal s (.thread (.r2 2 [1]) { lookup := some false }) = true ∧ s.g.crashed = none ∧
        s.threads[0]? = some (.r2 2 [1]) ∧ exec s (.go 0 { lookup := some false }) = some s') ∧
      faithful s (.thread (.r2 2 [1]) { lookup := some false }) = true :=
    ⟨_, _, rfl, ⟨rfl, by decide, by decide, rfl⟩, ⟨rfl, rfl, rfl, rfl⟩, rfl⟩
  have hst : Step s (.thread (.r2 2 [1]) { lookup := some false }) s' :=
    exec_step (cmd := .go 0 { lookup := some false }) h2.2.1 (by simp [Cmd.label, h2.2.2.1]) h2.1 h2.2.2.2
  exact ⟨s, s', play_from sound_ok _ .start hs, faithful_ok _ _ h3, hst, h1.1, h1.2.1, h1.2.2.1, by
    rw [h1.2.2.2]; simp [PC.saving]⟩

/-! ## C83: a closed session is gone -/

/-- C83, for a session manager that finds exactly what it saved and did not remove, and keys generated once: a session
for which `OnSessionClosed` was called is not restored any more. -/
def C83_full : Prop := ∀ (n : Nat) (s : State) (l : Label) (s' : State) (c : ConnId) (k : Bytes),
  ReachableIf n (fun s l => Faithful s l ∧ FreshKeys s l) s → Step s l s' →
  s'.g.log = s.g.log ++ [.restoreEnd c k .restored] → .destroyed k ∉ s.g.log

/-- The client closes the session while `OnSessionCreated` is about to save it; later another client restores it. -/
def savedTooLate : List Cmd :=
  [.call (.n1 0 [1]), .go 0, .go 0, .go 0, .go 0, .call (.k1 0), .go 0, .go 0, .go 0, .go 0,
   .go 1, .go 0, .go 0, .call (.r1 1 [1]), .go 0, .go 0, .go 0]

/-- C83 does not hold: `OnSessionClosed` can be called before `OnSessionCreated` has saved the session; then the session
stays, and can be restored for ever. Both operations have ended when the client comes. -/
theorem C83_violated : ¬ C83_full := by
  intro h
  obtain ⟨s, s', hs, h1, h2⟩ : ∃ s s', play (fun s l => faithful s l && freshKeys s l) (init 0) savedTooLate = some s ∧
      (s'.g.log = s.g.log ++ [.restoreEnd 1 [1] .restored] ∧ .destroyed [1] ∈ s.g.log ∧ .closureEnd 0 ∈ s.g.log ∧
        .createEnd 0 [1] true ∈ s.g.log) ∧
      (legal s (.thread (.r4 1 [1]) {}) = true ∧ s.g.crashed = none ∧ s.threads[0]? = some (.r4 1 [1]) ∧
        exec s (.go 0) = some s') :=
    ⟨_, _, rfl, ⟨rfl, by decide, by decide, by decide⟩, rfl, rfl, rfl, rfl⟩
  have hst : Step s (.thread (.r4 1 [1]) {}) s' :=
    exec_step (cmd := .go 0) h2.2.1 (by simp [Cmd.label, h2.2.2.1]) h2.1 h2.2.2.2
  refine h 0 s _ s' 1 [1] (play_from (fun s l h => ?_) _ .start hs) hst h1.1 h1.2.1
  rw [Bool.and_eq_true] at h
  exact ⟨faithful_ok s l h.1, freshKeys_ok s l h.2⟩

/-- What has to be the case for closed sessions to be gone. -/
def Final (s : State) (l : Label) : Prop := Sound s l ∧ NoRevival s l ∧ FreshKeys s l

theorem dead_reachable {n : Nat} {s : State} (h : ReachableIf n Final s) (k : Bytes) : Dead k s.g s.threads := by
  refine (orderly_inv (ok := Final) (fun _ _ h => h.1.1) (I := fun g ts => Gone g ts ∧ Dead k g ts)
    (fun g ts ts' hI hp => ⟨fun a hm k hd => ?_, fun hd => ?_⟩) ?_ ?_ ?_ h).1.2
  · obtain ⟨h1, h2⟩ := hI.1 a (hp.symm.subset hm) k hd
    exact ⟨fun b hb => h1 b (hp.symm.subset hb), h2⟩
  · obtain ⟨h1, h2⟩ := hI.2 hd
    exact ⟨h1, fun a ha => h2 a (hp.symm.subset ha)⟩
  · intro g pc rest ts ch g' pcs hI hi hh hp hok hact hap
    have hsub : ∀ a ∈ rest, a ∈ ts := fun a h => hp.symm.subset (List.mem_cons_of_mem _ h)
    obtain ⟨h1, h2⟩ := hok.2.1
    refine ⟨hI.1.step hi (acts_of_act hact) hap (fun k hk a hm => h1 k hk a (hsub a hm))
        (fun c κ k e hu hs a hm => h2 c κ k e hu hs a (hsub a hm)), hI.2.step hi hh hI.1 hact ?_ ?_⟩
    · rintro c k rfl hl
      exact (hok.1.2 true hl).mp rfl
    · rintro c rfl
      exact hok.2.2.2.1
  · intro g ts pc hI hen _
    have hp : ∀ k, pc.pending k = false := by intro k; cases pc <;> simp_all [PC.entry, PC.pending]
    refine ⟨fun a hm k hd => ?_, fun hd => ⟨(hI.2 hd).1, fun a hm => ?_⟩⟩
    · rcases List.mem_cons.mp hm with rfl | hm
      · cases a <;> simp_all [PC.entry, PC.destroys]
      · obtain ⟨h1, h2⟩ := hI.1 a hm k hd
        refine ⟨fun b hb => ?_, h2⟩
        rcases List.mem_cons.mp hb with rfl | hb
        · exact hp k
        · exact h1 b hb
    · rcases List.mem_cons.mp hm with rfl | hm
      · cases a <;> simp_all [PC.entry, PC.reviving]
      · exact (hI.2 hd).2 a hm
  · refine ⟨fun a hm => by simp [init] at hm, fun hd => by simp [init] at hd⟩

/-- C83 as long as `OnSessionCreated` is not disturbed, a session is not restored while it is being closed, and no two
operations that do not hold its lock work on the session of the same connection. -/
theorem C83_partial {n : Nat} {s s' : State} {l : Label} (h : ReachableIf n Final s) (hst : Step s l s') {c : ConnId}
    {k : Bytes} (he : s'.g.log = s.g.log ++ [.restoreEnd c k .restored]) : .destroyed k ∉ s.g.log := by
  intro hd
  have h2 := (dead_reachable h k hd).2
  cases hst with
  | call => simp at he
  | thread g g' pre post pcs pc ch hc hsn hact =>
    have ha := acts_of_act hact
    have : pc = .r4 c k := by
      clear hact h2 h hsn hd
      cases ha
      case r2_end _ _ r hr => rcases hr with rfl | rfl <;> simp [G.emit] at he
      case r4 => simp [G.emit] at he; obtain ⟨rfl, rfl⟩ := he; rfl
      all_goals (simp [G.emit, G.setSession, G.setLock, G.crash] at he)
    subst this
    have := h2 (.r4 c k) (by simp)
    simp [PC.reviving] at this

/-- Together: when nothing is going on, saved are exactly the sessions that clients were told about and that were not
closed. Missing: executions that `C83_partial` excludes, for which it is false. -/
theorem C83_saved_partial {n : Nat} {s : State} (h : ReachableIf n Final s) (k : Bytes)
    (hq : ∀ a ∈ s.threads, a.saving k = false) :
    k ∈ stored s.g.log ↔ (∃ c, .told c k ∈ s.g.log) ∧ .destroyed k ∉ s.g.log := by
  have ht : Told k s.g s.threads := told_reachable (From.mono (fun _ _ h => h.1) h) k
  constructor
  · intro hk
    exact ⟨ht.back (.inl hk), fun hd => (dead_reachable h k hd).1 hk⟩
  · rintro ⟨h1, h2⟩
    rcases ht.told h1 with h3 | h3 | ⟨a, hm, h3⟩
    · exact absurd h3 h2
    · exact h3
    · rw [hq a hm] at h3; cases h3

def final (s : State) (l : Label) : Bool := sound s l && noRevival s l && freshKeys s l

theorem final_ok (s : State) (l : Label) (h : final s l = true) : Final s l := by
  simp only [final, Bool.and_eq_true] at h
  exact ⟨sound_ok s l h.1.1, noRevival_ok s l h.1.2, freshKeys_ok s l h.2⟩

/-- Two sessions created, one of them shared, one closed. -/
def twoSessions : List Cmd :=
  [.call (.n1 0 [1]), .call (.n1 1 [2]), .go 0, .go 1, .go 0, .go 1, .go 0, .go 1, .go 0, .go 1, .go 0, .go 1, .go 0, .go 0,
   .call (.x1 0 []), .go 0, .go 0, .go 0, .go 0, .go 0, .call (.r1 2 [2]), .go 0, .go 0, .go 0]

example : ∃ s s' l, ReachableIf 0 Final s ∧ Step s l s' ∧ s'.g.log = s.g.log ++ [.restoreEnd 2 [2] .restored] ∧
    .destroyed [1] ∈ s.g.log ∧ stored s.g.log = [[2]] := by
  obtain ⟨s, s', hs, h1, h2⟩ : ∃ s s', play final (init 0) twoSessions = some s ∧
      (s'.g.log = s.g.log ++ [.restoreEnd 2 [2] .restored] ∧ .destroyed [1] ∈ s.g.log ∧ stored s.g.log = [[2]]) ∧
      (legal s (.thread (.r4 2 [2]) {}) = true ∧ s.g.crashed = none ∧ s.threads[0]? = some (.r4 2 [2]) ∧
        exec s (.go 0) = some s') :=
    ⟨_, _, rfl, ⟨rfl, by decide, rfl⟩, rfl, rfl, rfl, rfl⟩
  have hst : Step s (.thread (.r4 2 [2]) {}) s' :=
    exec_step (cmd := .go 0) h2.2.1 (by simp [Cmd.label, h2.2.2.1]) h2.1 h2.2.2.2
  exact ⟨s, s', _, play_from final_ok _ .start hs, hst, h1⟩

end Webwire.Races
