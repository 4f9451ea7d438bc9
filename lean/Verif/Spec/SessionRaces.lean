import Verif.Model.SessionRaces

/-!
# What session operations may do at the same time
-/

set_option autoImplicit false

namespace Webwire.Races

/-- The connections registered for a session. -/
def G.members (g : G) (k : Bytes) : List ConnId := (g.registry.get k).getD []

/-- Only session restoration requests. -/
def OnlyRestores (_ : State) : Label → Prop
  | .call (.r1 ..) | .thread .. => True
  | _ => False

/-- Has begun to change the session of the connection (or to rely on there being one). -/
def PC.inside (c : ConnId) : PC → Bool
  | .r4 c' _ | .k2 c' | .d1 c' _ | .d2 c' _ | .d3 c' _ | .x2 c' _ | .n2 c' _ | .n3 c' _ | .n4 c' _ | .u2 c' =>
    decide (c' = c)
  | _ => false

/-- Has begun to do so without holding the lock of the connection: session restoration, session closure requests, `unlink`,
and the failing end of `CreateSession`. `CreateSession` and `CloseSession` hold it otherwise. -/
def PC.loose (c : ConnId) : PC → Bool
  | .r4 c' _ | .k2 c' | .d1 c' .closure | .d2 c' .closure | .d3 c' .closure
  | .d1 c' .unlink | .d2 c' .unlink | .d3 c' .unlink | .n2 c' _ | .u2 c' => decide (c' = c)
  | _ => false

/-- The step with which an operation begins to change the session of the connection. -/
def Label.enters : Label → Option ConnId
  | .thread (.r3 c _) _ | .thread (.k1 c) _ | .thread (.x1 c _) _ | .thread (.n1 c _) _ | .call (.d1 c .unlink) => some c
  | _ => none

/-- Has passed the check of the limit for the session, and is about to register a connection for it. -/
def PC.pending (k : Bytes) : PC → Bool
  | .r2 _ k' | .r3 _ k' | .r4 _ k' | .n3 _ k' | .n4 _ k' => decide (k' = k)
  | _ => false

/-- Is about to check the limit for the session or to create it. -/
def PC.admits : PC → Option Bytes
  | .r1 _ k | .n1 _ k => some k
  | _ => none

/-- On a single connection, operations that change the session without holding its lock do so one at a time, and only
connections without a session are given one by a restoration request. (`CreateSession` and `CloseSession` of the same
connection may overlap in any way: they are kept apart by the lock.) -/
def Apart (s : State) (l : Label) : Prop :=
  (∀ c, l.enters = some c → ∀ a ∈ s.threads, a.loose c = false) ∧
  (∀ c, l = .call (.d1 c .unlink) → ∀ a ∈ s.threads, a.inside c = false) ∧
  (∀ c k ch, l = .thread (.r3 c k) ch → s.g.session c = none)

/-- If there is a limit: only one restoration of a session at a time, and keys created are new. -/
def OneByOne (s : State) : Label → Prop
  | .thread pc _ =>
    (∀ k, pc.admits = some k → ∀ a ∈ s.threads, a.pending k = false) ∧
    (∀ c k, pc = .n1 c k → s.g.registry.get k = none)
  | .call _ => True

/-- No two operations interfere on the same connection without holding its lock, and admissions are one by one if there is
a limit. -/
def Calm (s : State) (l : Label) : Prop := Apart s l ∧ (0 < s.g.maxConns → OneByOne s l)

/-- `Calm`, computed. -/
def calm (s : State) (l : Label) : Bool :=
  (match l.enters with
    | some c => s.threads.all fun a => !a.loose c
    | none => true) &&
  (match l with
    | .call (.d1 c .unlink) => s.threads.all fun a => !a.inside c
    | _ => true) &&
  (match l with
    | .thread (.r3 c _) _ => decide (s.g.session c = none)
    | _ => true) &&
  (decide (s.g.maxConns = 0) || match l with
    | .thread (.r1 _ k) _ => s.threads.all fun a => !a.pending k
    | .thread (.n1 _ k) _ => (s.threads.all fun a => !a.pending k) && decide (s.g.registry.get k = none)
    | _ => true)

theorem calm_ok (s : State) (l : Label) (h : calm s l = true) : Calm s l := by
  simp only [calm, Bool.and_eq_true] at h
  obtain ⟨⟨⟨h1, h0⟩, h2⟩, h3⟩ := h
  refine ⟨⟨fun c hc => ?_, fun c e => ?_, fun c k ch e => ?_⟩, fun hm => ?_⟩
  · rw [hc] at h1; simpa using h1
  · subst e; simpa using h0
  · subst e; simpa using h2
  · rw [Bool.or_eq_true] at h3
    have h4 := h3.resolve_left (by simp; omega)
    cases l with
    | call => trivial
    | thread pc ch =>
      refine ⟨fun k hk => ?_, fun c k e => ?_⟩
      · cases pc <;> simp only [PC.admits, reduceCtorEq, Option.some.injEq] at hk <;> subst hk <;> simp_all
      · subst e; simp_all

/-- The event gives the session to a connection. -/
def gives (k : Bytes) : Ev → Bool
  | .restoreEnd _ k' .restored | .registered _ k' => decide (k' = k)
  | _ => false

/-- How often the session was given to a connection. -/
def given (k : Bytes) (log : List Ev) : Nat := log.countP (gives k)

/-- Does not close a session: closure requests and both `CloseSession` are left out. -/
def NoClosing (_ : State) : Label → Prop
  | .call (.k1 _) | .call (.x1 ..) | .call (.z1 _) => False
  | _ => True

/-- No connection ends. -/
def NoEnding (_ : State) : Label → Prop
  | .call (.d1 _ .unlink) => False
  | _ => True

/-- Is about to destroy the session if it is the last connection, or about to call `OnSessionClosed`. -/
def PC.destroys (g : G) (k : Bytes) : PC → Bool
  | .d2 c κ => decide (g.session c = some k ∧ κ ≠ .unlink)
  | .d3 c _ => decide (g.session c = some k)
  | _ => false

/-- A session is not restored (or created again) while it is being closed. -/
def NoRevival (s : State) : Label → Prop
  | .thread pc _ =>
    (∀ k, pc.admits = some k → ∀ a ∈ s.threads, a.destroys s.g k = false) ∧
    (∀ c κ k, pc = .d1 c κ → κ ≠ .unlink → s.g.session c = some k → ∀ a ∈ s.threads, a.pending k = false)
  | .call _ => True

/-- `NoRevival`, computed. -/
def noRevival (s : State) : Label → Bool
  | .thread pc _ =>
    (match pc.admits with
      | some k => s.threads.all fun a => !a.destroys s.g k
      | none => true) &&
    (match pc with
      | .d1 c κ => decide (κ = .unlink) || (match s.g.session c with
        | some k => s.threads.all fun a => !a.pending k
        | none => true)
      | _ => true)
  | .call _ => true

theorem noRevival_ok (s : State) (l : Label) (h : noRevival s l = true) : NoRevival s l := by
  cases l with
  | call => trivial
  | thread pc ch =>
    simp only [noRevival, Bool.and_eq_true] at h
    refine ⟨fun k hk => ?_, fun c κ k e hu hs => ?_⟩
    · have := h.1
      rw [hk] at this
      simpa using this
    · subst e
      have := h.2
      simp only [hs, Bool.or_eq_true, decide_eq_true_eq, hu, false_or] at this
      simpa using this

/-! ## `OnSessionCreated`, and what is saved -/

/-- Is in `OnSessionCreated` for the connection. -/
def PC.hooked (c : ConnId) : PC → Bool
  | .n5 c' _ | .n6 c' _ => decide (c' = c)
  | _ => false

/-- While `OnSessionCreated` runs, nobody begins to close or to replace the session of that connection, and the
connection does not end. (`CreateSession` may be called: it refuses.) -/
def Undisturbed (s : State) (l : Label) : Prop :=
  ∀ c, l.enters = some c → (∀ k ch, l ≠ .thread (.n1 c k) ch) → ∀ a ∈ s.threads, a.hooked c = false

/-- `Undisturbed`, computed. -/
def undisturbed (s : State) (l : Label) : Bool :=
  match l.enters with
  | none => true
  | some c => (match l with
    | .thread (.n1 ..) _ => true
    | _ => false) || s.threads.all fun a => !a.hooked c

theorem undisturbed_ok (s : State) (l : Label) (h : undisturbed s l = true) : Undisturbed s l := by
  intro c hc hn
  unfold undisturbed at h
  rw [hc] at h
  simp only [Bool.or_eq_true] at h
  rcases h with h | h
  · split at h
    · rename_i c' k' ch
      simp only [Label.enters, Option.some.injEq] at hc
      subst hc
      exact absurd rfl (hn k' ch)
    · cases h
  · simpa using h

/-- What a session manager that saves sessions has after the event: `OnSessionClosed` removes
(defaultSessionManager.go:161-169). -/
def storeStep (store : List Bytes) : Ev → List Bytes
  | .saved _ _ key => key :: store
  | .destroyed k => store.filter (· ≠ k)
  | _ => store

/-- The keys of the sessions saved. -/
def stored (log : List Ev) : List Bytes := log.foldl storeStep []

/-- The session manager finds what is saved and nothing else (or fails), and saving does not fail. -/
def Faithful (s : State) : Label → Prop
  | .thread (.r2 _ k) ch => ∀ b, ch.lookup = some b → (b = true ↔ k ∈ stored s.g.log)
  | .thread (.n6 ..) ch => ch.fails = false
  | _ => True

/-- `Faithful`, computed. -/
def faithful (s : State) : Label → Bool
  | .thread (.r2 _ k) ch => match ch.lookup with
    | none => true
    | some b => decide (b = decide (k ∈ stored s.g.log))
  | .thread (.n6 ..) ch => !ch.fails
  | _ => true

theorem faithful_ok (s : State) (l : Label) (h : faithful s l = true) : Faithful s l := by
  unfold faithful at h
  split at h
  · rename_i c k ch
    intro b hb
    rw [hb] at h
    simp only [decide_eq_true_eq] at h
    subst h; simp
  · simpa [Faithful] using h
  · unfold Faithful
    split <;> simp_all

/-- Is creating the session: `CreateSession` has generated the key and `OnSessionCreated` has not returned. -/
def PC.making (k : Bytes) : PC → Bool
  | .n3 _ k' | .n4 _ k' | .n5 _ k' | .n6 _ k' => decide (k' = k)
  | _ => false

/-- Has told the client about the session, which is not saved yet. -/
def PC.saving (k : Bytes) : PC → Bool
  | .n4 _ k' | .n5 _ k' | .n6 _ k' => decide (k' = k)
  | _ => false

/-- Keys are generated once: no session with that key is being created, was created, or was closed. -/
def FreshKeys (s : State) : Label → Prop
  | .thread (.n1 _ k) _ => (∀ c, .told c k ∉ s.g.log) ∧ .destroyed k ∉ s.g.log ∧ ∀ a ∈ s.threads, a.making k = false
  | _ => True

/-- `FreshKeys`, computed. -/
def freshKeys (s : State) : Label → Bool
  | .thread (.n1 _ k) _ => (s.g.log.all fun e => match e with
    | .told _ k' | .destroyed k' => decide (k' ≠ k)
    | _ => true) && s.threads.all fun a => !a.making k
  | _ => true

theorem freshKeys_ok (s : State) (l : Label) (h : freshKeys s l = true) : FreshKeys s l := by
  unfold freshKeys at h
  split at h
  · simp only [Bool.and_eq_true, List.all_eq_true] at h
    refine ⟨fun c hm => ?_, fun hm => ?_, fun a ha => by simpa using h.2 a ha⟩
    · simpa using h.1 _ hm
    · simpa using h.1 _ hm
  · unfold FreshKeys
    split <;> simp_all

/-! ## Playing concrete executions, for examples and counterexamples -/

/-- What to do next. -/
inductive Cmd
  | go (i : Nat) (ch : Choice := {})
  | call (pc : PC)

/-- The label of the step. -/
def Cmd.label (s : State) : Cmd → Option Label
  | .go i ch => s.threads[i]?.map fun pc => .thread pc ch
  | .call pc => some (.call pc)

/-- Make the step if possible. -/
def exec (s : State) : Cmd → Option State
  | .go i ch =>
    match s.threads[i]? with
    | none => none
    | some pc =>
      match act s.g ch pc with
      | none => none
      | some (g', pcs) => some ⟨g', s.threads.take i ++ (pcs ++ s.threads.drop (i + 1))⟩
  | .call pc => some ⟨s.g, pc :: s.threads⟩

/-- `Snapshot`, computed. -/
def snapshot (g : G) (order : List ConnId) : PC → Bool
  | .z1 k =>
    match g.registry.get k with
    | none => true
    | some set => decide order.Nodup && order.all (fun c => decide (c ∈ set)) && set.all fun c => decide (c ∈ order)
  | _ => true

/-- The step is one the server makes. -/
def legal (s : State) : Label → Bool
  | .thread pc ch => snapshot s.g ch.order pc
  | .call pc => pc.entry && match pc.waitsFor with
    | some c => s.threads.all fun a => !a.inLoop c
    | none => true

/-- Make the steps, each of which has to pass the check. -/
def play (ok : State → Label → Bool) (s : State) : List Cmd → Option State
  | [] => some s
  | cmd :: cmds =>
    if s.g.crashed.isSome then none
    else
      match cmd.label s, exec s cmd with
      | some l, some s' => if legal s l && ok s l then play ok s' cmds else none
      | _, _ => none

theorem snapshot_ok {g : G} {order : List ConnId} {pc : PC} (h : snapshot g order pc = true) : Snapshot g order pc := by
  unfold snapshot at h
  split at h
  · rename_i k
    intro set hs
    rw [hs] at h
    simp only [Bool.and_eq_true, decide_eq_true_eq, List.all_eq_true] at h
    exact ⟨h.1.1, fun c => ⟨h.1.2 c, h.2 c⟩⟩
  · rename_i hn
    cases pc <;> simp_all [Snapshot]

theorem exec_step {s s' : State} {cmd : Cmd} {l : Label} (hc : s.g.crashed = none) (hl : cmd.label s = some l)
    (hg : legal s l = true) (h : exec s cmd = some s') : Step s l s' := by
  obtain ⟨g, ts⟩ := s
  cases cmd with
  | go i ch =>
    simp only [Cmd.label, exec] at hl h
    cases hi : ts[i]? with
    | none => simp [hi] at hl
    | some pc =>
      simp only [hi, Option.map_some, Option.some.injEq] at hl h
      subst hl
      split at h
      · cases h
      · rename_i g' pcs ha
        cases h
        have hts : ts = ts.take i ++ pc :: ts.drop (i + 1) := by
          obtain ⟨hlt, hpc⟩ := List.getElem?_eq_some_iff.mp hi
          rw [← hpc, ← List.drop_eq_getElem_cons hlt, List.take_append_drop]
        have := Step.thread g g' (ts.take i) (ts.drop (i + 1)) pcs pc ch hc (snapshot_ok hg) ha
        rw [← hts] at this
        exact this
  | call pc =>
    simp only [Cmd.label, exec, Option.some.injEq] at hl h
    subst hl; subst h
    simp only [legal, Bool.and_eq_true] at hg
    refine .call g ts pc hc hg.1 fun c hw => ?_
    have := hg.2
    rw [hw] at this
    simpa using this

theorem play_from {ok : State → Label → Prop} {okb : State → Label → Bool}
    (hok : ∀ s l, okb s l = true → ok s l) (cmds : List Cmd) {s0 s s' : State} (hr : From ok s0 s)
    (h : play okb s cmds = some s') : From ok s0 s' := by
  induction cmds generalizing s with
  | nil => cases h; exact hr
  | cons cmd cmds ih =>
    simp only [play] at h
    split at h
    · cases h
    · rename_i hc
      split at h
      · rename_i l s1 hl he
        split at h
        · rename_i hb
          rw [Bool.and_eq_true] at hb
          exact ih (.step s l s1 hr (hok s l hb.2) (exec_step (by simpa using hc) hl hb.1 he)) h
        · cases h
      · cases h

end Webwire.Races
