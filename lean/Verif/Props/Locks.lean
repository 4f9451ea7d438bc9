import Verif.Model.Locks
import Mathlib.Logic.Relation

/-!
# C72: hooks may call back into the API
-/

set_option autoImplicit false

namespace Webwire.Locks

/-- The goroutine can make a step now (clients read what is sent to them; for those that do not see C88). -/
def CanGo (s : State) (t : Thread) : Prop := ∃ l t', Act s t l t'

/-- `t` waits for a lock `u` holds, or for `u`, a writer that comes first. -/
def WaitsFor (t u : Thread) : Prop :=
  ∃ l w, t.todo.head? = some (.lock l w) ∧ ((∃ b, (l, b) ∈ u.held) ∨ (w = false ∧ u.wantsWrite l))

/-- No goroutine is part of a deadlock: whom it is waiting for, directly or not, can go on. -/
def NoDeadlock (s : State) : Prop :=
  ∀ t ∈ s, t.todo ≠ [] → ∃ u ∈ s, Relation.ReflTransGen WaitsFor t u ∧ CanGo s u

/-- C72: whatever hooks call, no goroutine gets into a deadlock. -/
def C72_full : Prop := ∀ s, Reach (fun _ => True) [] s → NoDeadlock s

/-- Functions that look at no connection's session: `IsActive`, `Signal`, `ActiveSessionsNum`, `SessionConnectionsNum`,
`SessionConnections`, the critical section of `Shutdown`, and the request manager's. -/
def Fn.sessionless : Fn → Bool
  | .isActive _ | .signal _ | .registryGetter | .shutdown | .isShuttingDown
  | .rmCreate | .rmAwait | .rmResolve | .rmGetter => true
  | _ => false

/-- Hooks called while the server holds a lock call only functions that look at no connection's session, and do not
panic. -/
def Quiet : Label → Prop
  | .hook held calls p => held ≠ [] → (∀ f ∈ calls, f.sessionless = true) ∧ p = false
  | _ => True

/-- `Quiet`, and hooks called while the server holds a lock signal no client in `B`. -/
def QuietFor (B : Nat → Prop) (l : Label) : Prop :=
  Quiet l ∧ ∀ held calls p, l = .hook held calls p → held ≠ [] → ∀ c, .signal c ∈ calls → ¬ B c

/-! ## Order of the locks -/

/-- A connection's session lock may be held when another lock is taken, the others not. -/
def Lock.rank : Lock → Nat
  | .sess _ => 0
  | _ => 1

/-- Hooks called with a lock held. -/
def Hook.underLock : Hook → Bool
  | .onSessionClosed | .generate | .info => true
  | _ => false

/-- The session lock of one connection, and no other. -/
def OnlySess (held : List (Lock × Bool)) : Prop := ∃ c w, held = [(.sess c, w)]

/-- Locks that are held while waiting for a client that does not read. -/
def Lock.slow (B : Nat → Prop) : Lock → Prop
  | .sess c | .writer c => B c
  | _ => False

/-- What the goroutine has to do respects the order, releases what it takes, and calls most hooks, and functions, without
locks; the others with a session lock at most. `own` are the locks taken since the last function was called by user code,
`below` those taken before. Nothing but the locks of clients in `B` is held while waiting for one of them. -/
def Safe (B : Nat → Prop) : List (Lock × Bool) → List (List (Lock × Bool)) → List Op → Prop
  | own, below, [] => own = [] ∧ below = []
  | own, below, .lock l w :: r => (∀ x ∈ own ++ below.flatten, x.1.rank < l.rank) ∧
    (l.slow B → ∀ x ∈ own ++ below.flatten, x.1.slow B) ∧ Safe B ((l, w) :: own) below r
  | own, below, .unlock l :: r => ∃ w t, own = (l, w) :: t ∧ Safe B t below r
  | own, below, .acc _ :: r => Safe B own below r
  | own, below, .await c :: r => (B c → ∀ x ∈ own ++ below.flatten, x.1.slow B) ∧ Safe B own below r
  | own, below, .hook h :: r =>
    (own ++ below.flatten ≠ [] → h.underLock = true ∧ OnlySess (own ++ below.flatten)) ∧ Safe B own below r
  | own, below, .call f :: r =>
    (own ++ below.flatten ≠ [] → (f.sessionless = true ∧ ∀ c, f = .signal c → ¬ B c) ∧ OnlySess (own ++ below.flatten)) ∧ Safe B own below r
  | own, below, .ret :: r => own = [] ∧ ∃ o b, below = o :: b ∧ Safe B o b r
  | own, below, .panic :: r => own ++ below.flatten = [] ∧ .ret ∈ r ∧ Safe B own below r

/-- A piece of code that may run while holding these locks. -/
def Fine (B : Nat → Prop) (held : List (Lock × Bool)) (a : Ways) : Prop :=
  ∀ x, a x → ∀ own below r, own ++ below.flatten = held → Safe B own below r → Safe B own below (x ++ r)

variable {B : Nat → Prop}

theorem fine_nop (held : List (Lock × Bool)) : Fine B held nop := by
  rintro x rfl own below r _ h
  exact h

theorem fine_seq {held : List (Lock × Bool)} {a b : Ways} (ha : Fine B held a) (hb : Fine B held b) : Fine B held (a ⬝ b) := by
  rintro x ⟨u, v, hu, hv, rfl⟩ own below r e h
  rw [List.append_assoc]
  exact ha u hu _ _ _ e (hb v hv _ _ r e h)

theorem fine_alt {held : List (Lock × Bool)} {a b : Ways} (ha : Fine B held a) (hb : Fine B held b) : Fine B held (a ⊕ b) := by
  rintro x (h | h)
  · exact ha x h
  · exact hb x h

theorem fine_many {held : List (Lock × Bool)} {a : Ways} (ha : Fine B held a) : Fine B held (many a) := by
  intro x hx
  induction hx with
  | none => exact fun own below r _ h => h
  | more u v hu _ ih =>
    intro own below r e h
    rw [List.append_assoc]
    exact ha u hu _ _ _ e (ih _ _ r e h)

theorem fine_hook {held : List (Lock × Bool)} {h : Hook} (hh : held ≠ [] → h.underLock = true ∧ OnlySess held) :
    Fine B held (just [.hook h]) := by
  rintro x rfl own below r e hr
  exact ⟨by rw [e]; exact hh, hr⟩

theorem fine_locked {held : List (Lock × Bool)} {l : Lock} {w : Bool} {a : Ways} (ho : ∀ x ∈ held, x.1.rank < l.rank)
    (hb : l.slow B → ∀ x ∈ held, x.1.slow B) (ha : Fine B ((l, w) :: held) a) : Fine B held (locked l w a) := by
  rintro x ⟨_, _, rfl, ⟨u, _, hu, rfl, rfl⟩, rfl⟩ own below r e hr
  refine ⟨by rw [e]; exact ho, by rw [e]; exact hb, ?_⟩
  have := ha u hu ((l, w) :: own) below (.unlock l :: r) (by simp [← e]) ⟨w, own, rfl, hr⟩
  simpa using this

theorem fine_touch (held : List (Lock × Bool)) (as : List Acc) : Fine B held (touch as) := by
  rintro x rfl own below r _ h
  induction as with
  | nil => exact h
  | cons a as ih => exact ih

theorem fine_await {held : List (Lock × Bool)} {c : Nat} (hb : B c → ∀ x ∈ held, x.1.slow B) :
    Fine B held (just [.await c]) := by
  rintro x rfl own below r e h
  exact ⟨by rw [e]; exact hb, h⟩

theorem fine_section {held : List (Lock × Bool)} {l : Lock} {w : Bool} (ho : ∀ x ∈ held, x.1.rank < l.rank)
    (hb : l.slow B → ∀ x ∈ held, x.1.slow B) (as : List Acc) : Fine B held (section_ l w as) :=
  fine_locked ho hb (fine_touch _ as)

theorem fine_section0 (l : Lock) (w : Bool) (as : List Acc) : Fine B [] (section_ l w as) :=
  fine_section (by simp) (by simp) as

theorem fine_send (c : Nat) : Fine B [] (send c) :=
  fine_alt (fine_nop _) (fine_locked (by simp) (by simp) (fine_alt (fine_nop _) (fine_await (by simp [Lock.slow]))))

theorem fine_send_sess {c d : Nat} (w : Bool) (h : B c → B d) : Fine B [(.sess d, w)] (send c) :=
  fine_alt (fine_nop _) (fine_locked (by simp [Lock.rank]) (by simpa [Lock.slow] using h) (fine_alt (fine_nop _)
    (fine_await fun hc => by simpa [Lock.slow] using ⟨hc, h hc⟩)))

theorem fine_dereg (c : Nat) (b : Bool) : Fine B [] (deregister c b) := by
  refine fine_seq (fine_touch _ _) (fine_alt (fine_nop _) (fine_alt (fine_section0 _ _ _) ?_))
  split
  · exact fine_seq (fine_section0 _ _ _) (fine_seq (fine_touch _ _) (fine_hook (by simp)))
  · exact fine_section0 _ _ _

theorem fine_dereg_sess (c d : Nat) (w b : Bool) : Fine B [(.sess c, w)] (deregister d b) := by
  have h : ∀ as, Fine B [(.sess c, w)] (section_ .reg true as) := fun as => fine_section (by simp [Lock.rank]) (by simp [Lock.slow]) as
  refine fine_seq (fine_touch _ _) (fine_alt (fine_nop _) (fine_alt (h _) ?_))
  split
  · exact fine_seq (h _) (fine_seq (fine_touch _ _) (fine_hook (by simp [Hook.underLock, OnlySess])))
  · exact h _

theorem fine_unlink (c : Nat) : Fine B [] (unlink c) :=
  fine_seq (fine_dereg _ _) (fine_seq (fine_section0 _ _ _) (fine_send c))

theorem fine_createSession (c : Nat) : Fine B [] (createSession c) := by
  have t : ∀ as, Fine B [(.sess c, true)] (touch as) := fine_touch _
  have g : Fine B [(.sess c, true)] (just [.hook .generate]) := fine_hook (by simp [Hook.underLock, OnlySess])
  have i : Fine B [(.sess c, true)] (many (just [.hook .info])) := fine_many (fine_hook (by simp [Hook.underLock, OnlySess]))
  exact fine_alt (fine_nop _) (fine_alt (fine_seq (fine_section0 _ _ _) (fine_touch _ _)) (fine_alt
    (fine_locked (by simp) (by simp) (fine_seq (t _) (fine_seq g (fine_seq i (fine_send_sess _ id)))))
    (fine_seq (fine_locked (by simp) (by simp) (fine_seq (t _) (fine_seq g (fine_seq i (fine_seq (fine_send_sess _ id)
      (fine_seq (t _) (fine_section (by simp [Lock.rank]) (by simp [Lock.slow]) _))))))) (fine_hook (by simp)))))

theorem fine_closeSession (c : Nat) : Fine B [] (closeSession c) :=
  fine_alt (fine_nop _) (fine_alt (fine_section0 _ _ _)
    (fine_seq (fine_locked (by simp) (by simp) (fine_seq (fine_touch _ _) (fine_seq (fine_dereg_sess _ _ _ _) (fine_touch _ _))))
      (fine_send c)))

theorem fine_close (c : Nat) : Fine B [] (close c) :=
  fine_alt (fine_section0 _ _ _) (fine_seq (fine_section0 _ _ _) (fine_alt (fine_nop _) (fine_unlink c)))

theorem fine_deregisterHandler (c : Nat) : Fine B [] (deregisterHandler c) :=
  fine_seq (fine_section0 _ _ _) (fine_seq (fine_section0 _ _ _) (fine_alt (fine_nop _) (fine_unlink c)))

theorem fine_handler (c : Nat) : Fine B [] (handler c) :=
  fine_alt (fine_seq (fine_hook (by simp)) (fine_seq (fine_send c) (fine_deregisterHandler c)))
    (fine_seq (fine_hook (by simp)) (fine_deregisterHandler c))

theorem fine_restore (c : Nat) : Fine B [] (handleSessionRestore c) := by
  have s : Fine B [] (send c) := fine_send c
  have g : Fine B [] (section_ .reg false [rd .registry]) := fine_section0 _ _ _
  have h : Fine B [] (just [.hook .onSessionLookup]) := fine_hook (by simp)
  exact fine_seq (fine_alt s (fine_alt (fine_seq g s) (fine_alt (fine_seq g (fine_seq h s))
    (fine_seq g (fine_seq h (fine_seq (fine_many (fine_hook (by simp))) (fine_seq (fine_section0 _ _ _)
      (fine_seq (fine_section0 _ _ _) s)))))))) (fine_deregisterHandler c)

theorem fine_closure (c : Nat) : Fine B [] (handleSessionClosure c) :=
  fine_seq (fine_alt (fine_send c) (fine_alt (fine_seq (fine_section0 _ _ _) (fine_send c))
    (fine_seq (fine_section0 _ _ _) (fine_seq (fine_dereg _ _) (fine_seq (fine_section0 _ _ _) (fine_send c))))))
    (fine_deregisterHandler c)

theorem fine_message (c : Nat) : Fine B [] (handleMessage c) := by
  have a : Fine B [] (section_ (.state c) false [rd (.state c)]) := fine_section0 _ _ _
  refine fine_alt (fine_nop _) (fine_alt (fine_alt a (fine_seq a (fine_seq (fine_section0 _ _ _) (fine_send c)))) ?_)
  exact fine_seq (fine_seq a (fine_seq (fine_section0 _ _ _) (fine_section0 _ _ _)))
    (fine_alt (fine_nop _) (fine_alt (fine_handler c) (fine_alt (fine_restore c) (fine_alt (fine_closure c)
      (fine_deregisterHandler c)))))

theorem fine_ways (f : Fn) : Fine B [] f.ways := by
  cases f with
  | isActive c => exact fine_section0 _ _ _
  | signal c => exact fine_send c
  | createSession c => exact fine_createSession c
  | closeSession c => exact fine_closeSession c
  | getter c => exact fine_section0 _ _ _
  | infoGetter c =>
    exact fine_locked (by simp) (by simp) (fine_seq (fine_touch _ _) (fine_many (fine_hook (by simp [Hook.underLock, OnlySess]))))
  | close c => exact fine_close c
  | srvCloseSession =>
    refine fine_seq (fine_section0 _ _ _) (fine_many ?_)
    rintro x ⟨c, h⟩
    exact fine_closeSession c x h
  | registryGetter => exact fine_section0 _ _ _
  | shutdown => exact fine_section0 _ _ _
  | isShuttingDown => exact fine_section0 _ _ _
  | rmCreate => exact fine_section0 _ _ _
  | rmAwait => exact fine_alt (fine_nop _) (fine_section0 _ _ _)
  | rmResolve => exact fine_seq (fine_section0 _ _ _) (fine_alt (fine_nop _) (fine_section0 _ _ _))
  | rmGetter => exact fine_section0 _ _ _
  | serve c =>
    exact fine_alt (fine_send c) (fine_seq (fine_send c) (fine_seq (fine_section0 _ _ _) (fine_seq (fine_hook (by simp))
      (fine_seq (fine_many (fine_message c)) (fine_seq (fine_close c) (fine_hook (by simp)))))))
  | handler c => exact fine_handler c

/-- What a critical section does. -/
theorem section_way (l : Lock) (w : Bool) (as : List Acc) : section_ l w as (.lock l w :: (as.map .acc ++ [.unlock l])) :=
  ⟨_, _, rfl, ⟨_, _, rfl, rfl, rfl⟩, rfl⟩

/-- Every function can do something. -/
theorem ways_exist (f : Fn) : ∃ x, f.ways x := by
  have n : nop [] := rfl
  have s := section_way
  cases f with
  | isActive c => exact ⟨_, s _ _ _⟩
  | signal c => exact ⟨_, .inl n⟩
  | createSession c => exact ⟨_, .inl n⟩
  | closeSession c => exact ⟨_, .inl n⟩
  | getter c => exact ⟨_, s _ _ _⟩
  | infoGetter c => exact ⟨_, _, _, rfl, ⟨_, _, ⟨_, _, rfl, .none, rfl⟩, rfl, rfl⟩, rfl⟩
  | close c => exact ⟨_, .inl (s _ _ _)⟩
  | srvCloseSession => exact ⟨_, _, _, s _ _ _, .none, rfl⟩
  | registryGetter => exact ⟨_, s _ _ _⟩
  | shutdown => exact ⟨_, s _ _ _⟩
  | isShuttingDown => exact ⟨_, s _ _ _⟩
  | rmCreate => exact ⟨_, s _ _ _⟩
  | rmAwait => exact ⟨_, .inl n⟩
  | rmResolve => exact ⟨_, _, _, s _ _ _, .inl n, rfl⟩
  | rmGetter => exact ⟨_, s _ _ _⟩
  | serve c => exact ⟨_, .inl (.inl n)⟩
  | handler c => exact ⟨_, .inr ⟨_, _, rfl, ⟨_, _, s _ _ _, ⟨_, _, s _ _ _, .inl n, rfl⟩, rfl⟩, rfl⟩⟩

/-- The functions without session may also be called with a session lock held. -/
theorem fine_ways_sess (f : Fn) (hf : f.sessionless = true) (hb : ∀ c, f = .signal c → ¬ B c) {held : List (Lock × Bool)} (hh : OnlySess held) :
    Fine B held f.ways := by
  obtain ⟨c, w, rfl⟩ := hh
  cases f with
  | isActive c => exact fine_section (by simp [Lock.rank]) (by simp [Lock.slow]) _
  | signal c => exact fine_send_sess _ fun h => absurd h (hb c rfl)
  | registryGetter => exact fine_section (by simp [Lock.rank]) (by simp [Lock.slow]) _
  | shutdown => exact fine_section (by simp [Lock.rank]) (by simp [Lock.slow]) _
  | isShuttingDown => exact fine_section (by simp [Lock.rank]) (by simp [Lock.slow]) _
  | rmCreate => exact fine_section (by simp [Lock.rank]) (by simp [Lock.slow]) _
  | rmAwait => exact fine_alt (fine_nop _) (fine_section (by simp [Lock.rank]) (by simp [Lock.slow]) _)
  | rmResolve =>
    exact fine_seq (fine_section (by simp [Lock.rank]) (by simp [Lock.slow]) _) (fine_alt (fine_nop _) (fine_section (by simp [Lock.rank]) (by simp [Lock.slow]) _))
  | rmGetter => exact fine_section (by simp [Lock.rank]) (by simp [Lock.slow]) _
  | _ => cases hf

theorem safe_calls {own : List (Lock × Bool)} {below : List (List (Lock × Bool))} {r : List Op} (h : Safe B own below r)
    (calls : List Fn)
    (hc : own ++ below.flatten ≠ [] →
      (∀ f ∈ calls, f.sessionless = true ∧ ∀ c, f = .signal c → ¬ B c) ∧ OnlySess (own ++ below.flatten)) :
    Safe B own below (calls.map .call ++ r) := by
  induction calls with
  | nil => exact h
  | cons f fs ih =>
    exact ⟨fun he => ⟨(hc he).1 f (by simp), (hc he).2⟩, ih fun he => ⟨fun g hg => (hc he).1 g (by simp [hg]), (hc he).2⟩⟩

/-- Where user code recovers from a panic. -/
theorem safe_unwind {own : List (Lock × Bool)} {below : List (List (Lock × Bool))} {a r : List Op}
    (h : Safe B own below (a ++ .ret :: r)) : ∃ pre o b, below = pre ++ o :: b ∧ Safe B o b r := by
  induction a generalizing own below with
  | nil =>
    obtain ⟨-, o, b, e, h⟩ := h
    exact ⟨[], o, b, e, h⟩
  | cons x a ih =>
    cases x with
    | lock l w => exact ih h.2.2
    | unlock l =>
      obtain ⟨w, t, -, h⟩ := h
      exact ih h
    | acc a => exact ih h
    | await c => exact ih h.2
    | hook k => exact ih h.2
    | call f => exact ih h.2
    | panic => exact ih h.2.2
    | ret =>
      obtain ⟨-, o, b, rfl, h⟩ := h
      obtain ⟨pre, o', b', rfl, h'⟩ := ih h
      exact ⟨o :: pre, o', b', rfl, h'⟩

/-- `Safe`, for the locks the goroutine has. -/
def Good (B : Nat → Prop) (t : Thread) : Prop := ∃ own below, t.held = own ++ below.flatten ∧ Safe B own below t.todo

theorem Act.good {s : State} {t t' : Thread} {l : Label} (h : Act s t l t') (hq : QuietFor B l) (hg : Good B t) : Good B t' := by
  obtain ⟨own, below, e, hs⟩ := hg
  cases h with
  | lock held l w r _ => exact ⟨_, below, by simp [show held = _ from e], hs.2.2⟩
  | unlock pre post l w r hp =>
    obtain ⟨w', t, rfl, hs⟩ := hs
    cases pre with
    | nil =>
      simp only [List.nil_append, List.cons_append, List.cons.injEq] at e ⊢
      exact ⟨t, below, e.2, hs⟩
    | cons x pre =>
      simp only [List.cons_append, List.cons.injEq] at e
      exact absurd (by simp [e.1]) (hp w')
  | acc held a r => exact ⟨own, below, e, hs⟩
  | await held c r => exact ⟨own, below, e, hs.2⟩
  | hook held h r calls p _ hp =>
    simp only at e
    subst e
    refine ⟨own, below, rfl, safe_calls ?_ calls fun he => ⟨fun f hf =>
      ⟨(hq.1 he).1 f hf, fun c ec => hq.2 _ _ _ rfl he c (ec ▸ hf)⟩, (hs.1 he).2⟩⟩
    cases p with
    | false => exact hs.2
    | true =>
      refine ⟨?_, hp rfl, hs.2⟩
      refine Classical.byContradiction fun he => ?_
      cases (hq.1 he).2
  | call held f x r hx =>
    simp only at e
    subst e
    have hf : Fine B (own ++ below.flatten) f.ways := by
      by_cases he : own ++ below.flatten = []
      · rw [he]; exact fine_ways f
      · exact fine_ways_sess f (hs.1 he).1.1 (hs.1 he).1.2 (hs.1 he).2
    by_cases hapi : f.api = true
    · refine ⟨[], own :: below, by simp, hf x hx [] (own :: below) _ (by simp) ?_⟩
      rw [if_pos hapi]
      exact ⟨rfl, own, below, rfl, hs.2⟩
    · refine ⟨own, below, rfl, hf x hx own below _ rfl ?_⟩
      rw [if_neg hapi]
      exact hs.2
  | ret held r =>
    obtain ⟨rfl, o, b, rfl, hs⟩ := hs
    exact ⟨o, b, by simpa using e, hs⟩
  | panic held a r =>
    obtain ⟨he, -, hs⟩ := hs
    obtain ⟨pre, o, b, rfl, h'⟩ := safe_unwind hs
    simp only at e
    rw [he] at e
    refine ⟨o, b, ?_, h'⟩
    simp only [List.flatten_append, List.flatten_cons, List.append_eq_nil_iff] at he
    simp [e, he.2.2.1, he.2.2.2]

theorem Reach.good {s : State} (h : Reach (QuietFor B) [] s) : ∀ t ∈ s, Good B t := by
  induction h with
  | start => simp
  | step u v l _ ho hs ih =>
    cases hs with
    | act pre post t t' l ha =>
      intro x hx
      simp only [List.mem_append, List.mem_cons] at hx ih
      rcases hx with hx | rfl | hx
      · exact ih x (.inl hx)
      · exact ha.good ho (ih t (.inr (.inl rfl)))
      · exact ih x (.inr (.inr hx))
    | spawn s f =>
      intro x hx
      rcases List.mem_append.mp hx with hx | hx
      · exact ih x hx
      · rw [List.mem_singleton.mp hx]; exact ⟨[], [], rfl, fun h => absurd rfl h, rfl, rfl⟩

/-! ## Deadlock freedom -/

/-- The goroutine can make a step now, without waiting for a client in `B`. -/
def CanGoFor (B : Nat → Prop) (s : State) (t : Thread) : Prop := ∃ l t', Act s t l t' ∧ ∀ c, l = .await c → ¬ B c

/-- A goroutine not about to take a lock or waiting for a client in `B` can go on. -/
theorem canGo_or_lock {s : State} {t : Thread} (hs : Good B t) (hn : t.todo ≠ []) :
    CanGoFor B s t ∨
    (∃ l w r, t.todo = .lock l w :: r ∧ (∀ x ∈ t.held, x.1.rank < l.rank) ∧ (l.slow B → ∀ x ∈ t.held, x.1.slow B)) ∨
    ∃ c r, t.todo = .await c :: r ∧ B c ∧ ∀ x ∈ t.held, x.1.slow B := by
  obtain ⟨held, todo⟩ := t
  obtain ⟨own, below, e, hs⟩ := hs
  simp only at e
  subst e
  cases todo with
  | nil => exact absurd rfl hn
  | cons o r =>
    cases o with
    | lock l w => exact .inr (.inl ⟨l, w, r, rfl, hs.1, hs.2.1⟩)
    | unlock l =>
      obtain ⟨w, t, rfl, -⟩ := hs
      exact .inl ⟨_, _, .unlock [] (t ++ below.flatten) l w r (by simp), by simp⟩
    | acc a => exact .inl ⟨_, _, .acc _ a r, by simp⟩
    | await c =>
      by_cases hc : B c
      · exact .inr (.inr ⟨c, r, rfl, hc, hs.1 hc⟩)
      · exact .inl ⟨_, _, .await _ c r, by simpa using hc⟩
    | hook h => exact .inl ⟨_, _, .hook _ h r [] false (by simp) (by simp), by simp⟩
    | call f =>
      obtain ⟨x, hx⟩ := ways_exist f
      exact .inl ⟨_, _, .call _ f x r hx, by simp⟩
    | ret => exact .inl ⟨_, _, .ret _ r, by simp⟩
    | panic =>
      obtain ⟨a, b, rfl⟩ := List.append_of_mem hs.2.1
      exact .inl ⟨_, _, .panic _ a b, by simp⟩

/-- Whoever holds a lock has something to do. -/
theorem holder_busy {t : Thread} (hs : Good B t) {x : Lock × Bool} (hx : x ∈ t.held) : t.todo ≠ [] := by
  intro e
  obtain ⟨own, below, e', hs⟩ := hs
  rw [e] at hs
  simp only [Safe] at hs
  rw [e', hs.1, hs.2] at hx
  cases hx

theorem free_or {s : State} {l : Lock} {w : Bool} : Free s l w ∨
    ∃ u ∈ s, (∃ b, (l, b) ∈ u.held) ∨ (w = false ∧ u.wantsWrite l) := by
  by_cases h : ∃ u ∈ s, (∃ b, (l, b) ∈ u.held) ∨ (w = false ∧ u.wantsWrite l)
  · exact .inr h
  · left
    simp only [not_exists, not_and, not_or] at h
    unfold Free
    split
    · exact fun t ht b => (h t ht).1 b
    · rename_i hw
      exact fun t ht => ⟨(h t ht).1 true, (h t ht).2 (by simpa using hw)⟩

theorem chain {s : State} (hsafe : ∀ t ∈ s, Good B t) : ∀ n : Nat, ∀ t ∈ s, ∀ l w r,
    t.todo = .lock l w :: r → ¬ l.slow B → 2 ≤ l.rank + n → ∃ u ∈ s, Relation.ReflTransGen WaitsFor t u ∧ CanGoFor B s u := by
  intro n
  induction n with
  | zero => intro t _ l w r _ _ hn; cases l <;> simp [Lock.rank] at hn
  | succ n ih =>
    -- from a holder of `l`
    have holder : ∀ t ∈ s, ∀ l w r, t.todo = .lock l w :: r → ¬ l.slow B → 2 ≤ l.rank + (n + 1) → ∀ u ∈ s, ∀ b,
        (l, b) ∈ u.held → ∃ v ∈ s, Relation.ReflTransGen WaitsFor t v ∧ CanGoFor B s v := by
      intro t _ l w r ht hl hn u hu b hb
      have hw : WaitsFor t u := ⟨l, w, by rw [ht]; rfl, .inl ⟨b, hb⟩⟩
      rcases canGo_or_lock (s := s) (hsafe u hu) (holder_busy (hsafe u hu) hb) with h | ⟨l', w', r', h1, h2, h3⟩ |
        ⟨c, r', -, -, h3⟩
      · exact ⟨u, hu, .single hw, h⟩
      · have := h2 _ hb
        simp only at this
        obtain ⟨v, hv, h3, h4⟩ := ih u hu l' w' r' h1 (fun h => hl (h3 h _ hb)) (by omega)
        exact ⟨v, hv, .head hw h3, h4⟩
      · exact absurd (h3 _ hb) hl
    have go : ∀ t ∈ s, ∀ l w r, t.todo = .lock l w :: r → Free s l w → CanGoFor B s t := by
      intro t _ l w r ht hf
      obtain ⟨held, todo⟩ := t
      simp only at ht
      subst ht
      exact ⟨_, _, .lock held l w r hf, by simp⟩
    intro t ht l w r e hl hn
    rcases free_or (s := s) (l := l) (w := w) with hf | ⟨u, hu, ⟨b, hb⟩ | ⟨rfl, hw⟩⟩
    · exact ⟨t, ht, .refl, go t ht l w r e hf⟩
    · exact holder t ht l w r e hl hn u hu b hb
    · -- `u` waits for writing
      have hwf : WaitsFor t u := ⟨l, false, by rw [e]; rfl, .inr ⟨rfl, hw⟩⟩
      obtain ⟨r', hr'⟩ : ∃ r', u.todo = .lock l true :: r' := by
        unfold Thread.wantsWrite at hw
        cases h : u.todo with
        | nil => simp [h] at hw
        | cons a b => simp [h] at hw; exact ⟨b, by rw [hw]⟩
      rcases free_or (s := s) (l := l) (w := true) with hf | ⟨v, hv, ⟨b, hb⟩ | ⟨h, -⟩⟩
      · exact ⟨u, hu, .single hwf, go u hu l true r' hr' hf⟩
      · obtain ⟨x, hx, h1, h2⟩ := holder u hu l true r' hr' hl hn v hv b hb
        exact ⟨x, hx, .head hwf h1, h2⟩
      · cases h

theorem Reach.mono {ok ok' : Label → Prop} (ho : ∀ l, ok l → ok' l) {s s' : State} (h : Reach ok s s') : Reach ok' s s' := by
  induction h with
  | start => exact .start
  | step u v l _ hl hs ih => exact .step u v l ih (ho l hl) hs

theorem Reach.quietFor {s : State} (h : Reach Quiet [] s) : Reach (QuietFor fun _ => False) [] s :=
  h.mono fun _ hl => ⟨hl, by simp⟩

/-- C72 if hooks that are called with a lock held (see `C72_hooks_without_locks_partial`) call only functions that look at no
connection's session: no deadlock, whatever the other hooks call. Missing: other calls by those hooks, for which it is
false. -/
theorem C72_partial (s : State) (h : Reach Quiet [] s) : NoDeadlock s := by
  intro t ht hn
  have hsafe := h.quietFor.good
  rcases canGo_or_lock (s := s) (hsafe t ht) hn with ⟨l, t', ha, -⟩ | ⟨l, w, r, e, -⟩ | ⟨c, r, -, hc, -⟩
  · exact ⟨t, ht, .refl, l, t', ha⟩
  · obtain ⟨u, hu, h1, l, t', ha, -⟩ := chain hsafe 2 t ht l w r e (by cases l <;> exact id) (by omega)
    exact ⟨u, hu, h1, l, t', ha⟩
  · cases hc

/-- C72: these hooks are `OnSessionClosed`, `Generate` and the methods of session information, and the lock is the session
lock of one connection; all others are called without any lock of the server held. Missing: that no hook is called with a lock
held, which is false. -/
theorem C72_hooks_without_locks_partial (s : State) (h : Reach Quiet [] s) (t : Thread) (ht : t ∈ s) (k : Hook) (r : List Op)
    (hk : t.todo = .hook k :: r) :
    t.held = [] ∨ (k = .onSessionClosed ∨ k = .generate ∨ k = .info) ∧ ∃ c w, t.held = [(.sess c, w)] := by
  obtain ⟨own, below, e, hs⟩ := h.quietFor.good t ht
  rw [hk] at hs
  rw [e]
  by_cases he : own ++ below.flatten = []
  · exact .inl he
  · obtain ⟨h1, h2⟩ := hs.1 he
    refine .inr ⟨?_, h2⟩
    cases k <;> simp_all [Hook.underLock]

/-! ## The defect -/

theorem Reach.trans {ok : Label → Prop} {s u v : State} (h : Reach ok s u) (h' : Reach ok u v) : Reach ok s v := by
  induction h' with
  | start => exact h
  | step a b l _ ho hs ih => exact .step a b l ih ho hs

theorem one {ok : Label → Prop} {s : State} {t t' : Thread} {l : Label} (h : Reach ok s [t]) (ho : ok l)
    (ha : Act [t] t l t') : Reach ok s [t'] := .step _ _ l h ho (.act [] [] t t' l ha)

/-- One after the other. -/
local macro "sq(" a:term ", " b:term ")" : term => `(⟨_, _, $a, $b, rfl⟩)

/-- In a critical section. -/
local macro "lk(" a:term ")" : term => `(⟨_, _, rfl, ⟨_, _, $a, rfl, rfl⟩, rfl⟩)

/-- `CloseSession` of the last connection of a session, which is destroyed. -/
def closeWay (c : Nat) : List Op :=
  [.lock (.sess c) true, .acc (rd (.session c)), .acc (rd (.session c) .deregister), .lock .reg true,
    .acc (rd (.session c) .deregister), .acc (wr .registry), .unlock .reg, .acc (rd (.session c) .deregister),
    .hook .onSessionClosed, .acc (wr (.session c)), .unlock (.sess c)]

theorem closeWay_way (c : Nat) : closeSession c (closeWay c) :=
  .inr (.inr sq(lk(sq(rfl, sq(sq(rfl, .inr (.inr sq(section_way _ _ _, sq(rfl, rfl)))), rfl))), .inl rfl))

/-- `CreateSession`, without a notification sent. -/
def createWay (c : Nat) : List Op :=
  [.lock (.sess c) true, .acc (rd (.session c)), .hook .generate, .acc (wr (.session c)), .lock .reg true,
    .acc (rd (.session c) .register), .acc (wr .registry), .unlock .reg, .unlock (.sess c), .hook .onSessionCreated]

theorem createWay_way (c : Nat) : createSession c (createWay c) :=
  .inr (.inr (.inr sq(lk(sq(rfl, sq(rfl, sq(.none, sq(.inl rfl, sq(rfl, section_way _ _ _)))))), rfl)))

/-- `CreateSession` failing to notify the client. -/
def createFailWay (c : Nat) : List Op :=
  [.lock (.sess c) true, .acc (rd (.session c)), .hook .generate, .unlock (.sess c)]

theorem createFailWay_way (c : Nat) : createSession c (createFailWay c) :=
  .inr (.inr (.inl lk(sq(rfl, sq(rfl, sq(.none, .inl rfl))))))

/-- `CloseSession` of connection 0, which is the last one of its session. `OnSessionClosed` asks a connection it knows, this
one, whether it has a session. -/
def asks : Thread :=
  ⟨[(.sess 0, true)], [.lock (.sess 0) false, .acc (rd (.session 0)), .unlock (.sess 0), .ret, .acc (wr (.session 0)),
    .unlock (.sess 0), .ret]⟩

theorem asks_reachable : Reach (fun _ => True) [] [asks] := by
  have r0 : Reach (fun _ => True) [] [⟨[], [.call (.closeSession 0)]⟩] := .step _ _ _ .start trivial (.spawn [] _)
  have r1 := one r0 trivial (.call [] _ _ [] (closeWay_way 0))
  have r2 := one r1 trivial (.lock [] (.sess 0) true _ (by simp [Free]))
  have r2 := one (one r2 trivial (.acc _ _ _)) trivial (.acc _ _ _)
  have r3 := one r2 trivial (.lock _ .reg true _ (by simp [Free]))
  have r3 := one (one r3 trivial (.acc _ _ _)) trivial (.acc _ _ _)
  have r4 := one r3 trivial (.unlock [] _ .reg true _ (by simp))
  have r4 := one r4 trivial (.acc _ _ _)
  have r5 := one r4 trivial (.hook _ .onSessionClosed _ [.getter 0] false (by simp [Fn.api]) (by simp))
  exact one r5 trivial (.call _ (.getter 0) _ _ (section_way _ _ _))

theorem Act.free {s : State} {t t' : Thread} {k : Label} (h : Act s t k t') {l : Lock} {w : Bool} {r : List Op}
    (e : t.todo = .lock l w :: r) : Free s l w := by
  cases h <;> simp at e
  obtain ⟨⟨rfl, rfl⟩, rfl⟩ := e
  assumption

/-- C72 does not hold: `OnSessionClosed` deadlocks if it asks the connection being closed for its session. -/
theorem C72_violated : ¬ C72_full := by
  intro hf
  obtain ⟨u, hu, -, l, t', ha⟩ := hf _ asks_reachable asks (by simp) (by simp [asks])
  rw [List.mem_singleton.mp hu] at ha
  have hfree := ha.free rfl
  simp [Free, asks] at hfree

/-- A goroutine waiting for a lock it holds itself waits for ever. -/
theorem stuck_stays {s s' : State} (h : Reach (fun _ => True) s s') {t : Thread} {l : Lock} {w b : Bool} {r : List Op}
    (ht : t.todo = .lock l w :: r) (hb : (l, b) ∈ t.held) (hw : b = true ∨ w = true) (ha : t ∈ s) : t ∈ s' := by
  induction h with
  | start => exact ha
  | step u v k _ _ hs ih =>
    cases hs with
    | act pre post a a' k hact =>
      simp only [List.mem_append, List.mem_cons] at ih ⊢
      rcases ih with h | h | h
      · exact .inl h
      · exfalso
        rw [← h] at hact
        have hf := hact.free ht
        unfold Free at hf
        split at hf
        · exact hf t (by simp) b hb
        · rename_i hw'
          have := (hf t (by simp)).1
          rcases hw with rfl | rfl
          · exact this hb
          · exact hw' rfl
      · exact .inr (.inr h)
    | spawn u f => exact List.mem_append_left _ ih

/-- C72: that goroutine never gets any further, and the session lock of the connection is held for ever. -/
theorem C72_for_ever_violated (s s' : State) (h : Reach (fun _ => True) s s') (ha : asks ∈ s) : asks ∈ s' :=
  stuck_stays h rfl (b := true) (by simp [asks]) (.inl rfl) ha

/-- `C72_partial` covers `OnRequest` creating a session whose `OnSessionCreated` asks for it. -/
example : ∃ s t r, Reach Quiet [] s ∧ t ∈ s ∧ t.held = [(.sess 0, false)] ∧ t.todo = .unlock (.sess 0) :: r ∧ r ≠ [] := by
  have w : handler 0 [.hook .onRequest, .lock .ops true, .acc (wr .ops), .unlock .ops, .lock (.state 0) true,
      .acc (wr (.state 0)), .unlock (.state 0)] :=
    .inl sq(rfl, sq(.inl rfl, sq(section_way _ _ _, sq(section_way _ _ _, .inl rfl))))
  have r0 : Reach Quiet [] [⟨[], [.call (.handler 0)]⟩] := .step _ _ .spawn .start trivial (.spawn [] _)
  have r1 := one r0 (by trivial) (.call [] _ _ [] w)
  have r2 := one r1 (by simp [Quiet]) (.hook _ .onRequest _ [.createSession 0] false (by simp [Fn.api]) (by simp))
  have r3 := one r2 (by trivial) (.call [] _ _ _ (createWay_way 0))
  have r4 := one r3 (by trivial) (.lock [] (.sess 0) true _ (by simp [Free]))
  have r4 := one r4 (by trivial) (.acc _ _ _)
  have r5 := one r4 (by simp [Quiet]) (.hook _ .generate _ [] false (by simp) (by simp))
  have r5 := one r5 (by trivial) (.acc _ _ _)
  have r6 := one r5 (by trivial) (.lock _ .reg true _ (by simp [Free]))
  have r6 := one (one r6 (by trivial) (.acc _ _ _)) (by trivial) (.acc _ _ _)
  have r7 := one r6 (by trivial) (.unlock [] _ .reg true _ (by simp))
  have r8 := one r7 (by trivial) (.unlock [] _ (.sess 0) true _ (by simp))
  have r9 := one r8 (by simp [Quiet]) (.hook _ .onSessionCreated _ [.getter 0] false (by simp [Fn.api]) (by simp))
  have r10 := one r9 (by trivial) (.call [] _ _ _ (section_way _ _ _))
  have r11 := one r10 (by trivial) (.lock [] (.sess 0) false _ (by simp [Free, Thread.wantsWrite]))
  have r12 := one r11 (by trivial) (.acc _ _ _)
  exact ⟨_, _, _, r12, List.mem_singleton.mpr rfl, rfl, rfl, by simp⟩

/-- `OnSessionClosed`, called with a session lock held, asks for the number of sessions. -/
example : ∃ s t r, Reach Quiet [] s ∧ t ∈ s ∧ t.held = [(.reg, false), (.sess 0, true)] ∧ t.todo = .unlock .reg :: r := by
  have r0 : Reach Quiet [] [⟨[], [.call (.closeSession 0)]⟩] := .step _ _ .spawn .start trivial (.spawn [] _)
  have r1 := one r0 (by trivial) (.call [] _ _ [] (closeWay_way 0))
  have r2 := one r1 (by trivial) (.lock [] (.sess 0) true _ (by simp [Free]))
  have r2 := one (one r2 (by trivial) (.acc _ _ _)) (by trivial) (.acc _ _ _)
  have r3 := one r2 (by trivial) (.lock _ .reg true _ (by simp [Free]))
  have r3 := one (one r3 (by trivial) (.acc _ _ _)) (by trivial) (.acc _ _ _)
  have r4 := one r3 (by trivial) (.unlock [] _ .reg true _ (by simp))
  have r4 := one r4 (by trivial) (.acc _ _ _)
  have r5 := one r4 (by simp [Quiet, Fn.sessionless]) (.hook _ .onSessionClosed _ [.registryGetter] false (by simp [Fn.api]) (by simp))
  have r6 := one r5 (by trivial) (.call _ .registryGetter _ _ (section_way _ _ _))
  have r7 := one r6 (by trivial) (.lock _ .reg false _ (by simp [Free, Thread.wantsWrite]))
  have r8 := one r7 (by trivial) (.acc _ _ _)
  exact ⟨_, _, _, r8, List.mem_singleton.mpr rfl, rfl, rfl⟩

/-! ## C80: panics user code recovers from -/

/-- C80: whatever user code does, panics it recovers from included, goroutines that have ended hold no lock. -/
def C80_full : Prop := ∀ s, Reach (fun _ => True) [] s → ∀ t ∈ s, t.todo = [] → t.held = []

/-- C80 if hooks called with a lock held do not panic: the panics of all other hooks, wherever user code recovers from them,
leave no lock behind, neither at the end nor when user code goes on, and nobody is part of a deadlock. Missing: the hooks
called with a lock held, for which it is false. -/
theorem C80_partial (s : State) (h : Reach Quiet [] s) : NoDeadlock s ∧ ∀ t ∈ s,
    (t.todo = [] → t.held = []) ∧ ∀ r, t.todo = .panic :: r → t.held = [] := by
  refine ⟨C72_partial s h, fun t ht => ?_⟩
  obtain ⟨own, below, e, hs⟩ := h.quietFor.good t ht
  refine ⟨fun h0 => ?_, fun r hr => ?_⟩
  · rw [h0] at hs
    rw [e, hs.1, hs.2]
    rfl
  · rw [hr] at hs
    rw [e, hs.1]

/-- `OnClientConnected` creates a session; the key generator panics, or returns an empty key on which `NewSession` does
(session.go:79-84), and the hook recovers. When the client has gone the server closes the connection. -/
def broken : Thread :=
  ⟨[(.sess 0, true)], [.lock (.sess 0) true, .acc (wr (.session 0)), .unlock (.sess 0), .hook .onClientDisconnected]⟩

theorem broken_reachable : Reach (fun _ => True) [] [broken] := by
  have w : serve 0 [.lock .conns true, .acc (wr .conns), .unlock .conns, .hook .onClientConnected, .lock (.state 0) true,
      .acc (wr (.state 0)), .unlock (.state 0), .acc (rd (.session 0) .deregister), .lock (.sess 0) true,
      .acc (wr (.session 0)), .unlock (.sess 0), .hook .onClientDisconnected] := by
    have u : unlink 0 [.acc (rd (.session 0) .deregister), .lock (.sess 0) true, .acc (wr (.session 0)), .unlock (.sess 0)] :=
      sq(sq(rfl, .inl rfl), sq(section_way _ _ _, .inl rfl))
    exact .inr sq(.inl rfl, sq(section_way _ _ _, sq(rfl, sq(.none, sq(.inr sq(section_way _ _ _, .inr u), rfl)))))
  have r0 : Reach (fun _ => True) [] [⟨[], [.call (.serve 0)]⟩] := .step _ _ .spawn .start trivial (.spawn [] _)
  have r1 := one r0 trivial (.call [] _ _ [] w)
  have r2 := one r1 trivial (.lock [] .conns true _ (by simp [Free]))
  have r2 := one r2 trivial (.acc _ _ _)
  have r3 := one r2 trivial (.unlock [] _ .conns true _ (by simp))
  have r4 := one r3 trivial (.hook _ .onClientConnected _ [.createSession 0] false (by simp [Fn.api]) (by simp))
  have r5 := one r4 trivial (.call _ _ _ _ (createFailWay_way 0))
  have r6 := one r5 trivial (.lock [] (.sess 0) true _ (by simp [Free]))
  have r6 := one r6 trivial (.acc _ _ _)
  have r7 := one r6 trivial (.hook _ .generate _ [] true (by simp) (by simp [Fn.api]))
  have r8 := one r7 trivial (.panic _ [.unlock (.sess 0)] _)
  have r9 := one r8 trivial (.lock _ (.state 0) true _ (by simp [Free]))
  have r9 := one r9 trivial (.acc _ _ _)
  have r10 := one r9 trivial (.unlock [] _ (.state 0) true _ (by simp))
  exact one r10 trivial (.acc _ _ _)

/-- C80: the goroutine of that connection hangs for ever: the connection is never unlinked and `OnClientDisconnected` never
called; everybody else who asks the connection for its session hangs, too. -/
theorem C80_for_ever_violated : Reach (fun _ => True) [] [broken] ∧
    ∀ s, Reach (fun _ => True) [broken] s → broken ∈ s ∧ ∀ w, ¬ Free s (.sess 0) w := by
  refine ⟨broken_reachable, fun s h => ?_⟩
  have hb : broken ∈ s := stuck_stays h rfl (b := true) (by simp [broken]) (.inl rfl) (by simp)
  refine ⟨hb, fun w hf => ?_⟩
  unfold Free at hf
  split at hf
  · exact hf broken hb true (by simp [broken])
  · exact (hf broken hb).1 (by simp [broken])

/-- C80 does not hold: `CreateSession`, called by user code in a goroutine of its own, ends with the session lock held. -/
theorem C80_violated : ¬ C80_full := by
  intro hf
  have r0 : Reach (fun _ => True) [] [⟨[], [.call (.createSession 0)]⟩] := .step _ _ .spawn .start trivial (.spawn [] _)
  have r1 := one r0 trivial (.call _ _ _ _ (createFailWay_way 0))
  have r2 := one r1 trivial (.lock [] (.sess 0) true _ (by simp [Free]))
  have r2 := one r2 trivial (.acc _ _ _)
  have r3 := one r2 trivial (.hook _ .generate _ [] true (by simp) (by simp [Fn.api]))
  have r4 := one r3 trivial (.panic _ [.unlock (.sess 0)] _)
  have := hf _ r4 _ (List.mem_singleton.mpr rfl) rfl
  cases this

/-- `C80_partial` covers `OnSessionCreated` panicking in `CreateSession`, and its caller recovering. -/
example : ∃ s t, Reach Quiet [] s ∧ t ∈ s ∧ t.todo = [.panic, .ret] := by
  have r0 : Reach Quiet [] [⟨[], [.call (.createSession 0)]⟩] := .step _ _ .spawn .start trivial (.spawn [] _)
  have r3 := one r0 (by trivial) (.call [] _ _ _ (createWay_way 0))
  have r4 := one r3 (by trivial) (.lock [] (.sess 0) true _ (by simp [Free]))
  have r4 := one r4 (by trivial) (.acc _ _ _)
  have r5 := one r4 (by simp [Quiet]) (.hook _ .generate _ [] false (by simp) (by simp))
  have r5 := one r5 (by trivial) (.acc _ _ _)
  have r6 := one r5 (by trivial) (.lock _ .reg true _ (by simp [Free]))
  have r6 := one (one r6 (by trivial) (.acc _ _ _)) (by trivial) (.acc _ _ _)
  have r7 := one r6 (by trivial) (.unlock [] _ .reg true _ (by simp))
  have r8 := one r7 (by trivial) (.unlock [] _ (.sess 0) true _ (by simp))
  have r9 := one r8 (by simp [Quiet]) (.hook _ .onSessionCreated _ [] true (by simp) (by simp [Fn.api]))
  exact ⟨_, _, r9, List.mem_singleton.mpr rfl, rfl⟩

end Webwire.Locks
