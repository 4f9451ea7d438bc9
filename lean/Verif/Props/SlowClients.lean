import Verif.Props.DataRace

/-!
# C88: clients that do not read hold up nobody else

`B` are the clients that are connected, do not disconnect, and do not read what the server sends them.
-/

set_option autoImplicit false

namespace Webwire.Locks

/-- The goroutine, or another one it is waiting for, directly or not, can go on though the clients in `B` do not read. -/
def GoesOn (B : Nat → Prop) (s : State) (t : Thread) : Prop :=
  ∃ u ∈ s, Relation.ReflTransGen WaitsFor t u ∧ CanGoFor B s u

/-- C88: whichever clients do not read, only goroutines that are just sending a message to one of them wait for it (if hooks
do as in C72). -/
def C88_full : Prop := ∀ (B : Nat → Prop) (s : State), Reach (QuietFor B) [] s → ∀ t ∈ s, t.todo ≠ [] →
  (∀ c r, t.todo = .await c :: r → ¬ B c) → GoesOn B s t

/-- C88 except for goroutines about to take the session lock of such a client, or the writer of its socket: they alone may
have to wait for it. In particular nobody waits for it who takes the lock of the session registry, of the server's
operations, of its list of connections or of the state of a connection, or any lock of another connection. Missing: those two
locks, for which it is false. -/
theorem C88_partial (B : Nat → Prop) (s : State) (h : Reach (QuietFor B) [] s) (t : Thread) (ht : t ∈ s) (hn : t.todo ≠ [])
    (ha : ∀ c r, t.todo = .await c :: r → ¬ B c)
    (hl : ∀ l w r, t.todo = .lock l w :: r → ∀ c, B c → l ≠ .sess c ∧ l ≠ .writer c) : GoesOn B s t := by
  rcases canGo_or_lock (s := s) (h.good t ht) hn with hg | ⟨l, w, r, e, -⟩ | ⟨c, r, e, hc, -⟩
  · exact ⟨t, ht, .refl, hg⟩
  · refine chain h.good 2 t ht l w r e (fun hs => ?_) (by omega)
    cases l with
    | sess c => exact (hl _ w r e c hs).1 rfl
    | writer c => exact (hl _ w r e c hs).2 rfl
    | _ => exact hs
  · exact absurd hc (ha c r e)

/-- C88: somebody who holds a lock, other than those two locks of clients that do not read, does not wait for such a client
until having released it. -/
theorem C88_holders_partial (B : Nat → Prop) (s : State) (h : Reach (QuietFor B) [] s) (t : Thread) (ht : t ∈ s)
    (x : Lock × Bool) (hx : x ∈ t.held) (hs : ∀ c, B c → x.1 ≠ .sess c ∧ x.1 ≠ .writer c) :
    (∀ c r, t.todo = .await c :: r → ¬ B c) ∧
    ∀ l w r, t.todo = .lock l w :: r → ∀ c, B c → l ≠ .sess c ∧ l ≠ .writer c := by
  have hns : ¬ x.1.slow B := by
    intro hb
    obtain ⟨l, w⟩ := x
    cases l with
    | sess c => exact (hs c hb).1 rfl
    | writer c => exact (hs c hb).2 rfl
    | _ => exact hb
  obtain ⟨own, below, e, hsafe⟩ := h.good t ht
  rw [e] at hx
  refine ⟨fun c r ec hc => ?_, fun l w r el c hc => ?_⟩
  · rw [ec] at hsafe
    exact hns (hsafe.1 hc x hx)
  · rw [el] at hsafe
    constructor <;> rintro rfl <;> exact hns (hsafe.2.1 hc x hx)

/-! ## The defects -/

local macro "sq(" a:term ", " b:term ")" : term => `(⟨_, _, $a, $b, rfl⟩)

local macro "lk(" a:term ")" : term => `(⟨_, _, rfl, ⟨_, _, $a, rfl, rfl⟩, rfl⟩)

/-- `Signal`, or another message, to a client. -/
def sendWay (c : Nat) : List Op := [.lock (.writer c) true, .await c, .unlock (.writer c)]

theorem sendWay_way (c : Nat) : send c (sendWay c) := .inr lk(.inr rfl)

/-- `CreateSession` with a notification. -/
theorem notifyWay_way (c : Nat) : createSession c
    ([.lock (.sess c) true, .acc (rd (.session c)), .hook .generate] ++ sendWay c ++ [.acc (wr (.session c)), .lock .reg true,
    .acc (rd (.session c) .register), .acc (wr .registry), .unlock .reg, .unlock (.sess c), .hook .onSessionCreated]) :=
  .inr (.inr (.inr sq(lk(sq(rfl, sq(rfl, sq(.none, sq(sendWay_way c, sq(rfl, section_way _ _ _)))))), rfl)))

/-- `CreateSession`, called by user code in a goroutine of its own, while the client does not read. -/
def creating : Thread :=
  ⟨[(.writer 0, true), (.sess 0, true)], [.await 0, .unlock (.writer 0), .acc (wr (.session 0)), .lock .reg true,
    .acc (rd (.session 0) .register), .acc (wr .registry), .unlock .reg, .unlock (.sess 0), .hook .onSessionCreated, .ret]⟩

theorem creating_reachable {ok : Label → Prop} (hok : ok .lock ∧ (∀ a, ok (.acc a)) ∧ (∀ h, ok (.hook h [] false)) ∧ ok .call ∧
    ok .spawn) : Reach ok [] [creating] := by
  obtain ⟨h1, h2, h3, h4, h5⟩ := hok
  have r0 : Reach ok [] [⟨[], [.call (.createSession 0)]⟩] := .step _ _ _ .start h5 (.spawn [] _)
  have r1 := one r0 h4 (.call [] _ _ [] (notifyWay_way 0))
  have r2 := one r1 h1 (.lock [] (.sess 0) true _ (by simp [Free]))
  have r3 := one r2 (h2 _) (.acc _ _ _)
  have r4 := one r3 (h3 _) (.hook _ .generate _ [] false (by simp) (by simp))
  exact one r4 h1 (.lock _ (.writer 0) true _ (by simp [Free]))

theorem quiet_ok (B : Nat → Prop) : QuietFor B .lock ∧ (∀ a, QuietFor B (.acc a)) ∧ (∀ h, QuietFor B (.hook h [] false)) ∧
    QuietFor B .call ∧ QuietFor B .spawn := by simp [QuietFor, Quiet]

/-- `Close` of the same connection, called by other user code. It has marked the connection as inactive and deregistered it, and
is about to take the session away and to close the socket. -/
def closing : Thread :=
  ⟨[], [.lock (.sess 0) true, .acc (wr (.session 0)), .unlock (.sess 0), .ret]⟩

theorem closing_reachable (B : Nat → Prop) : Reach (QuietFor B) [] [creating, closing] := by
  have w : close 0 [.lock (.state 0) true, .acc (wr (.state 0)), .unlock (.state 0), .acc (rd (.session 0) .deregister),
      .lock (.sess 0) true, .acc (wr (.session 0)), .unlock (.sess 0)] :=
    .inr sq(section_way _ _ _, .inr sq(sq(rfl, .inl rfl), sq(section_way _ _ _, .inl rfl)))
  have hq := quiet_ok B
  have r0 : Reach (QuietFor B) [] [creating, ⟨[], [.call (.close 0)]⟩] :=
    .step _ _ _ (creating_reachable hq) hq.2.2.2.2 (.spawn _ _)
  have r1 := second r0 hq.2.2.2.1 (.call [] _ _ [] w)
  have r2 := second r1 hq.1 (.lock [] (.state 0) true _ (by simp [Free, creating]))
  have r3 := second r2 (hq.2.1 _) (.acc _ _ _)
  have r4 := second r3 (by simp [QuietFor, Quiet]) (.unlock [] _ (.state 0) true _ (by simp))
  exact second r4 (hq.2.1 _) (.acc _ _ _)

theorem Act.awaits {s : State} {t t' : Thread} {k : Label} (h : Act s t k t') {c : Nat} {r : List Op}
    (e : t.todo = .await c :: r) : k = .await c := by
  cases h <;> simp at e
  rw [e.1]

/-- C88 does not hold: `Close` of a connection waits for a client that does not read, and so does everybody else who looks at
the connection's session, while `CreateSession` waits for it to read the notification. -/
theorem C88_violated : ¬ C88_full := by
  intro hf
  obtain ⟨u, hu, -, l, t', ha, hl⟩ := hf (fun c => c = 0) _ (closing_reachable _) closing (by simp) (by simp [closing])
    (by simp [closing])
  simp only [List.mem_cons, List.not_mem_nil, or_false] at hu
  rcases hu with rfl | rfl
  · exact hl 0 (ha.awaits rfl) rfl
  · have := ha.free rfl
    simp [Free, creating] at this

/-- A goroutine sending to a client that does not read goes no further. -/
theorem sending_stays {c : Nat} {s s' : State} (h : Reach (fun l => l ≠ .await c) s s') {t : Thread} {r : List Op}
    (e : t.todo = .await c :: r) (ht : t ∈ s) : t ∈ s' := by
  induction h with
  | start => exact ht
  | step u v k _ hk hs ih =>
    cases hs with
    | act pre post a a' k hact =>
      simp only [List.mem_append, List.mem_cons] at ih ⊢
      rcases ih with h | h | h
      · exact .inl h
      · exfalso
        rw [← h] at hact
        exact hk (hact.awaits e)
      · exact .inr (.inr h)
    | spawn u f => exact List.mem_append_left _ ih

/-- C88: `CreateSession` blocks the calling goroutine, though the documentation says it does not (interfaces.go:137-142): as
long as the client does not read, whatever else happens, it does not return and `OnSessionCreated` is not called; nobody else
gets the session lock, so neither `Close` nor anything else can close the connection from the server's side. -/
theorem C88_create_blocks_violated : Reach Quiet [] [creating] ∧
    ∀ s, Reach (fun l => l ≠ .await 0) [creating] s → creating ∈ s ∧ ∀ w, ¬ Free s (.sess 0) w := by
  refine ⟨creating_reachable (by simp [Quiet]), fun s h => ?_⟩
  have hb : creating ∈ s := sending_stays h rfl (by simp)
  refine ⟨hb, fun w hf => ?_⟩
  unfold Free at hf
  split at hf
  · exact hf creating hb true (by simp [creating])
  · exact (hf creating hb).1 (by simp [creating])

/-- `Server.CloseSession` of a session with the connections 0 and 1, whose client 0 does not read. -/
def closingAll : Thread :=
  ⟨[(.writer 0, true)], [.await 0, .unlock (.writer 0)] ++ (closeWay 1 ++ [.ret])⟩

/-- C88: `Server.CloseSession` closes the session on one connection after the other. As long as the client of one of them
does not read, the session stays open on those after it. -/
theorem C88_close_session_violated : Reach Quiet [] [closingAll] ∧
    ∀ s, Reach (fun l => l ≠ .await 0) [closingAll] s → closingAll ∈ s := by
  refine ⟨?_, fun s h => sending_stays h rfl (by simp)⟩
  have w0 : closeSession 0 ([.lock (.sess 0) true, .acc (rd (.session 0)), .acc (rd (.session 0) .deregister), .lock .reg true,
      .acc (rd (.session 0) .deregister), .acc (wr .registry), .unlock .reg, .acc (wr (.session 0)), .unlock (.sess 0)] ++
      sendWay 0) :=
    .inr (.inr sq(lk(sq(rfl, sq(sq(rfl, .inr (.inl (section_way _ _ _))), rfl))), sendWay_way 0))
  have w : srvCloseSession ([.lock .reg false, .acc (rd .registry), .unlock .reg] ++ (_ ++ (closeWay 1 ++ []))) :=
    sq(section_way _ _ _, .more _ _ ⟨0, w0⟩ (.more _ _ ⟨1, closeWay_way 1⟩ .none))
  have r0 : Reach Quiet [] [⟨[], [.call .srvCloseSession]⟩] := .step _ _ .spawn .start trivial (.spawn [] _)
  have r1 := one r0 (by trivial) (.call [] _ _ [] w)
  have r2 := one r1 (by trivial) (.lock [] .reg false _ (by simp [Free, Thread.wantsWrite]))
  have r2 := one r2 (by trivial) (.acc _ _ _)
  have r3 := one r2 (by trivial) (.unlock [] _ .reg false _ (by simp))
  have r4 := one r3 (by trivial) (.lock [] (.sess 0) true _ (by simp [Free]))
  have r4 := one (one r4 (by trivial) (.acc _ _ _)) (by trivial) (.acc _ _ _)
  have r5 := one r4 (by trivial) (.lock _ .reg true _ (by simp [Free]))
  have r5 := one (one r5 (by trivial) (.acc _ _ _)) (by trivial) (.acc _ _ _)
  have r6 := one r5 (by trivial) (.unlock [] _ .reg true _ (by simp))
  have r6 := one r6 (by trivial) (.acc _ _ _)
  have r7 := one r6 (by trivial) (.unlock [] _ (.sess 0) true _ (by simp))
  exact one r7 (by trivial) (.lock _ (.writer 0) true _ (by simp [Free]))

/-- `C88_partial` covers a goroutine that takes another connection's session lock while `CreateSession` waits for client 0. -/
example : ∃ s t, Reach (QuietFor fun c => c = 0) [] s ∧ creating ∈ s ∧ t ∈ s ∧ t.todo.head? = some (.lock (.sess 1) false) := by
  have hq := quiet_ok fun c => c = 0
  have r0 : Reach (QuietFor fun c => c = 0) [] [creating, ⟨[], [.call (.getter 1)]⟩] :=
    .step _ _ _ (creating_reachable hq) hq.2.2.2.2 (.spawn _ _)
  have r1 := second r0 hq.2.2.2.1 (.call [] _ _ [] (section_way _ _ _))
  exact ⟨_, _, r1, by simp, List.mem_cons_of_mem _ (List.mem_singleton.mpr rfl), rfl⟩

end Webwire.Locks
