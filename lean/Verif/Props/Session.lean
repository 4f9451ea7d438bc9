import Verif.Proofs.Session2
import Verif.Props.Reply

/-!
# Properties C32 to C36, C38 to C42: sessions

Histories (`Spec.Reachable`) consist of whole operations; interleavings within operations are treated in
`Props/SessionRaces`. Sockets are arbitrary (writes may fail) unless the ideal network is mentioned.
-/

set_option autoImplicit false

namespace Webwire
open Spec

variable {ν υ : Type}

/-! ## Examples -/

/-- Hooks for examples: the user's state counts the generated keys; the lookup finds keys not longer than the
count. -/
def sessHooks : Hooks Nat where
  onClientConnected u _ := (u, [])
  onClientDisconnected u _ := (u, [])
  onSignal u _ _ := (u, [])
  onRequest u _ _ := (u, {})
  onSessionCreated u _ _ := (u, none)
  onSessionLookup u k := (u, if k.length ≤ u then .ok (some { creation := 1, lastLookup := 2, info := none }) else .ok none)
  onSessionClosed u _ := (u, .returned none)
  generateKey u := (u + 1, List.replicate (u + 1) 107)
  now _ := 0
  marshal s := .ok (123 :: s.key)
  infoParser n := some n

/-- A server for examples. -/
def sessServer (maxConns : Nat) : Server Net Nat :=
  { sock := idealSockets, hooks := sessHooks, bufferSize := 64, maxConns := maxConns
    configMsg := [23,2,0,96,234,0,0,64,0,0,0] }

/-- The state in which it starts. -/
def sessStart : World Net Nat := { net := {}, user := 5 }

theorem sessFresh : FreshKeys sessHooks (fun u k => k.length ≤ u) where
  grows := by
    intro u u' k h hk
    cases h <;> simp only [sessHooks] at * <;> omega
  fresh := by intro u; simp [sessHooks]
  recorded := by intro u; simp [sessHooks]
  found := by
    intro u k r h
    simp only [sessHooks] at h
    split_ifs at h with hk
    · exact hk
    · simp at h

/-! ## C32 -/

/-- C32, failure: the connections with their sessions and the registry are unchanged, and the session manager
was not told of any session; for any behaviour of the socket. -/
theorem C32_failure_changes_nothing (srv : Server ν υ) (w w' : World ν υ) (c : ConnId) (info : Option Nat) (e : Err)
    (h : createSession srv w c info = .ok (w', some e)) :
    w'.conns = w.conns ∧ w'.registry = w.registry ∧ w'.trace.filter isSessionHook = w.trace.filter isSessionHook := by
  rcases createSession_ok h with ⟨_, rfl, _⟩ | ⟨_, _, rfl, _⟩ | ⟨_, _, _, rfl, _⟩ |
    ⟨_, _, _, user, s, w1, en, _, hn, hrest⟩
  · exact ⟨rfl, rfl, rfl⟩
  · exact ⟨rfl, rfl, rfl⟩
  · exact ⟨rfl, rfl, rfl⟩
  · rcases hrest with ⟨er, rfl, rfl, _⟩ | ⟨_, he, _⟩
    · refine ⟨notifySessionCreated_conns (w := { w with user := user }) hn, (notifySessionCreated_same hn).1, ?_⟩
      rcases notifySessionCreated_ok hn with ⟨rfl, _⟩ | ⟨bs, _, h⟩
      · rfl
      · exact (Same.withWriter h).hooks
    · cases he

/-- C32, success: the client received exactly one more message, the notification of the new session; the
connection, which had none, now has this session, with the generated key and the given info; nothing else about
any connection changed, and the session manager was told. -/
theorem C32_success (srv : Server Net υ) (w w' : World Net υ) (c : ConnId) (info : Option Nat) (hs : ideal srv)
    (h0 : w.net.pending c = []) (h : createSession srv w c info = .ok (w', none)) :
    ∃ s json, srv.hooks.marshal s = .ok json ∧ w'.net.out c = w.net.out c ++ [21 :: json] ∧
      (∀ i, i ≠ c → w'.net.out i = w.net.out i) ∧
      s.key = (srv.hooks.generateKey w.user).2 ∧ s.key ≠ [] ∧ s.info = info ∧
      s.creation = srv.hooks.now (srv.hooks.generateKey w.user).1 ∧ s.lastLookup = s.creation ∧
      (w.conns c).session = none ∧ (w'.conns c).session = some s ∧
      (∀ i, i ≠ c → w'.conns i = w.conns i) ∧
      w'.trace.filter isSessionHook = w.trace.filter isSessionHook ++ [.onSessionCreated c s.key] := by
  rcases createSession_ok h with ⟨_, _, he⟩ | ⟨_, _, _, he⟩ | ⟨_, _, _, _, he⟩ |
    ⟨_, hcon, hnone, user, s, w1, en, hns, hn, hrest⟩
  · cases he
  · cases he
  · cases he
  · rcases hrest with ⟨er, _, _, he⟩ | ⟨rfl, _, w2, er, hr, rfl⟩
    · cases he
    · obtain ⟨hk0, hk, hu, hc1, hc2, hinfo⟩ := newSession_ok hns
      rcases notifySessionCreated_ok hn with ⟨_, he⟩ | ⟨bs, hm, hw⟩
      · exact absurd rfl he
      · have hsame := Same.withWriter hw
        have hcon' : w.net.connected c = true := by rw [hs] at hcon; exact hcon
        have hcn := notifySessionCreated_conns hn
        obtain ⟨s', hs', rfl, _⟩ := register_ok hr
        have hout : w1.net = w.net.deliver c (21 :: bs) := by
          rcases withWriter_ok hw with ⟨net, er, hg, _, he⟩ | ⟨net, net', hg, hf, rfl⟩
          · cases he
          · rw [hs] at hg hf
            simp only [netSockets, hcon', if_true, Except.ok.injEq, Prod.mk.injEq, and_true] at hg
            rw [← hg] at hf
            have := call_ideal c w.net (.sessionCreated bs) trivial (by simp [WriterCall.Panics]) h0
            have hf' : (WriterCall.sessionCreated bs).run (idealSockets.writer c) w.net = .ok (net', none) := hf
            rw [this] at hf'
            simp only [Except.ok.injEq, Prod.mk.injEq, and_true] at hf'
            rw [← hf']; rfl
        refine ⟨s, bs, hm, ?_, ?_, hk, hk0, hinfo, by rw [hc1, hu], by rw [hc1, hc2], hnone, ?_, ?_, ?_⟩
        · show w1.net.out c = _
          rw [hout]; simp [Net.deliver]
        · intro i hi
          show w1.net.out i = _
          rw [hout]; simp [Net.deliver, hi]
        · simp [World.log, setSession, World.upd]
        · intro i hi
          simp [World.log, setSession, World.upd, hi, hcn]
        · have := hsame.hooks
          simp only [World.log, setSession, World.upd, List.filter_append] at this ⊢
          rw [this]
          simp [isSessionHook]

/-- C32: on a disconnected connection, or one that has a session, `CreateSession` fails at once: nothing is sent, no key
generated and no hook called. -/
theorem C32_refused (srv : Server ν υ) (w : World ν υ) (c : ConnId) (info : Option Nat) (hse : srv.sessionsEnabled = true)
    (h : srv.sock.isConnected w.net c = false ∨ (w.conns c).session ≠ none) :
    ∃ e, createSession srv w c info = .ok (w, some e) ∧
      (srv.sock.isConnected w.net c = false → e = "Can't create session on disconnected connection") := by
  unfold createSession
  simp only [hse, Bool.not_true, Bool.false_eq_true, if_false]
  by_cases hc : srv.sock.isConnected w.net c = false
  · exact ⟨_, by simp [hc]; rfl, fun _ => rfl⟩
  · have hc' : srv.sock.isConnected w.net c = true := by simpa using hc
    obtain ⟨s, hs⟩ := Option.ne_none_iff_exists'.mp (h.resolve_left hc)
    exact ⟨_, by simp [hc', hs]; rfl, fun h => absurd h hc⟩

/-- C32, full statement on being counted: after a successful `CreateSession` the connection is among the
`SessionConnections` of the new session's key. -/
def C32_full : Prop :=
  ∀ (υ : Type) (srv : Server Net υ) (w w' : World Net υ) (c : ConnId) (info : Option Nat), ideal srv →
    Reachable srv true w → createSession srv w c info = .ok (w', none) →
    ∃ s l, (w'.conns c).session = some s ∧ sessionConnections w' s.key [] = some l ∧ c ∈ l

/-- C32 is violated by the code: `CreateSession` ignores the error of the session registry (connection.go:226),
so with a connection limit and a key generator that repeats a key the second connection is not counted. -/
theorem C32_create_session_violated : ¬ C32_full := by
  intro h
  have h1 : ∃ w1, handleConnection { exServer {} with maxConns := 1 } { net := {}, user := () } 1 0 [] = .ok w1 ∧
      w1.conns 2 = {} ∧ ∃ w2, handleConnection { exServer {} with maxConns := 1 } w1 2 0 [] = .ok w2 ∧
      ∃ w3, runApi { exServer {} with maxConns := 1 } w2 (.createSession 1 none) = .ok w3 ∧
      ∃ w4, createSession { exServer {} with maxConns := 1 } w3 2 none = .ok (w4, none) ∧
        (w4.conns 2).session = some { key := [107], creation := 0, lastLookup := 0, info := none } ∧
        sessionConnections w4 [107] [] = some [1] :=
    ⟨_, rfl, rfl, _, rfl, _, rfl, _, rfl, rfl, rfl⟩
  obtain ⟨w1, h1, hf, w2, h2, w3, h3, w4, h4, h5, h6⟩ := h1
  have r0 : Reachable { exServer {} with maxConns := 1 } true { net := {}, user := () } :=
    .start _ ⟨rfl, fun _ => rfl, rfl⟩
  have r1 := Reachable.step _ _ r0 (.accept _ _ 1 0 rfl h1)
  have r2 := Reachable.step _ _ r1 (.accept _ _ 2 0 hf h2)
  have r3 := Reachable.step _ _ r2 (.api _ _ _ h3)
  obtain ⟨s, l, a, b, d⟩ := h Unit { exServer {} with maxConns := 1 } w3 w4 2 none rfl r3 h4
  rw [h5] at a
  cases a
  rw [h6] at b
  cases b
  simp at d

/-- C32, being counted, when there is no connection limit or keys are not repeated. Missing compared to
`C32_full`: servers with a connection limit whose key generator repeats keys. -/
theorem C32_create_session_counted_partial (srv : Server ν υ) (issued : υ → Bytes → Prop) (ow : Bool)
    (w w' : World ν υ) (c : ConnId) (info : Option Nat) (hr : Reachable srv ow w)
    (hk : srv.maxConns = 0 ∨ FreshKeys srv.hooks issued) (h : createSession srv w c info = .ok (w', none)) :
    ∃ s l, (w'.conns c).session = some s ∧ sessionConnections w' s.key [] = some l ∧ c ∈ l := by
  have hr' : Reachable srv ow w' := hr.step _ _ (.api _ _ (.createSession c info) (by
    show (do return (← createSession srv w c info).1 : Go (World ν υ)) = _
    rw [h]; rfl))
  have hsup : RegSup w'.registry fun i => (w'.conns i).session := by
    rcases hk with hk | hk
    · exact reachable_sup_unlimited hk hr'
    · exact reachable_sup_fresh hk hr'
  rcases createSession_ok h with ⟨_, _, he⟩ | ⟨_, _, _, he⟩ | ⟨_, _, _, _, he⟩ |
    ⟨_, _, _, user, s, w1, en, hns, hn, hrest⟩
  · cases he
  · cases he
  · cases he
  · rcases hrest with ⟨er, _, _, he⟩ | ⟨rfl, _, w2, er, hrg, rfl⟩
    · cases he
    · obtain ⟨s', hs', rfl, _⟩ := register_ok hrg
      have e : ((setSession w1 c (some s)).conns c).session = some s := by simp [setSession, World.upd]
      obtain ⟨set, hg, hm⟩ := hsup c s e
      refine ⟨s, if ([] : List ConnId).isPerm set then [] else set, e, ?_, ?_⟩
      · unfold sessionConnections
        rw [hg]
      · split_ifs with hp
        · exact (List.isPerm_iff.mp hp).mem_iff.mpr hm
        · exact hm

/-- C32, non-vacuity: two sessions are created on two connections of a server with a limit. -/
example : ∃ w1 w2 w3 w4, handleConnection (sessServer 1) sessStart 1 0 [] = .ok w1 ∧
    handleConnection (sessServer 1) w1 2 0 [] = .ok w2 ∧
    createSession (sessServer 1) w2 1 none = .ok (w3, none) ∧
    createSession (sessServer 1) w3 2 none = .ok (w4, none) ∧
    w4.net.out 2 = [[23,2,0,96,234,0,0,64,0,0,0], [21, 123, 107,107,107,107,107,107,107]] ∧
    activeSessionsNum w4 = 2 := ⟨_, _, _, _, rfl, rfl, rfl, rfl, rfl, rfl⟩

/-- C32, non-vacuity: creating a session on a disconnected client fails. -/
example : ∃ w', createSession (sessServer 1) { sessStart with net := { connected := fun _ => false } } 1 none =
    .ok (w', some errDisconnected) := ⟨_, rfl⟩

/-! ## C33 -/

/-- C33: while a connection has a session, `CreateSession` fails and changes nothing. -/
theorem C33_never_replaces (srv : Server ν υ) (w w' : World ν υ) (c : ConnId) (info : Option Nat) (e : Option Err)
    (s : Session) (hs : (w.conns c).session = some s) (h : createSession srv w c info = .ok (w', e)) :
    e ≠ none ∧ w' = w := by
  rcases createSession_ok h with ⟨_, rfl, rfl⟩ | ⟨_, _, rfl, rfl⟩ | ⟨_, _, _, rfl, rfl⟩ | ⟨_, _, hn, _⟩
  · exact ⟨by simp, rfl⟩
  · exact ⟨by simp, rfl⟩
  · exact ⟨by simp, rfl⟩
  · rw [hs] at hn; cases hn

/-- C33: and it always returns. -/
theorem C33_returns (srv : Server ν υ) (w : World ν υ) (c : ConnId) (info : Option Nat)
    (s : Session) (hs : (w.conns c).session = some s) : ∃ e, createSession srv w c info = .ok (w, some e) := by
  unfold createSession
  simp only [bind, Except.bind, pure, Except.pure]
  cases srv.sessionsEnabled with
  | false => exact ⟨_, rfl⟩
  | true =>
    cases srv.sock.isConnected w.net c with
    | false => exact ⟨_, rfl⟩
    | true =>
      rw [hs]
      exact ⟨_, rfl⟩

/-- C33, non-vacuity. -/
example : ∃ w1 w2 s, handleConnection (sessServer 1) sessStart 1 0 [] = .ok w1 ∧
    createSession (sessServer 1) w1 1 none = .ok (w2, none) ∧ (w2.conns 1).session = some s ∧
    createSession (sessServer 1) w2 1 (some 3) = .ok (w2, some "Another session on this client is already active") :=
  ⟨_, _, _, rfl, rfl, rfl, rfl⟩

/-! ## C34 -/

/-- C34, full statement. -/
def C34_full : Prop :=
  ∀ (υ : Type) (srv : Server Net υ) (w : World Net υ), ideal srv → Reachable srv true w → Agrees w

/-- A history: connection 1 restores the session `[1]` and then the session `[1, 1]`. -/
theorem overwritten : ∃ w, Reachable (sessServer 0) true w ∧
    (w.conns 1).session = some { key := [1, 1], creation := 1, lastLookup := 2, info := none } ∧
    (∀ order, sessionConnections w [1] order = some [1]) ∧
    ∃ w' r, srvCloseSession (sessServer 0) w [1] [1] = .ok (w', r) ∧ sessionConnectionsNum w' [1] = 1 ∧
      closedKeys w.trace = [] ∧ closedKeys w'.trace = [[1, 1]] ∧ (w'.conns 1).session = none := by
  have h1 : ∃ w1, handleConnection (sessServer 0) sessStart 1 0 [] = .ok w1 ∧
      ∃ w2, serve (sessServer 0) w1 1 [.data [32, 0,0,0,0,0,0,0,1, 1]] = .ok w2 ∧
      ∃ w3, serve (sessServer 0) w2 1 [.data [32, 0,0,0,0,0,0,0,2, 1, 1]] = .ok w3 ∧
      (w3.conns 1).session = some { key := [1, 1], creation := 1, lastLookup := 2, info := none } ∧
      w3.registry.get [1] = some [1] ∧
      ∃ w' r, srvCloseSession (sessServer 0) w3 [1] [1] = .ok (w', r) ∧ sessionConnectionsNum w' [1] = 1 ∧
      closedKeys w3.trace = [] ∧ closedKeys w'.trace = [[1, 1]] ∧ (w'.conns 1).session = none :=
    ⟨_, rfl, _, rfl, _, rfl, rfl, rfl, _, _, rfl, rfl, rfl, rfl, rfl⟩
  obtain ⟨w1, h1, w2, h2, w3, h3, h4, h5, h6⟩ := h1
  have r0 : Reachable (sessServer 0) true sessStart := .start _ ⟨rfl, fun _ => rfl, rfl⟩
  have r1 := Reachable.step _ _ r0 (.accept _ _ 1 0 rfl h1)
  have r2 := Reachable.step _ _ r1 (.receive _ _ 1 _ (.inl rfl) h2)
  have r3 := Reachable.step _ _ r2 (.receive _ _ 1 _ (.inl rfl) h3)
  refine ⟨w3, r3, h4, fun order => ?_, h6⟩
  unfold sessionConnections
  rw [h5]
  simp only [Option.some.injEq]
  split_ifs with hp
  · have hp := List.isPerm_iff.mp hp
    exact List.perm_singleton.mp hp
  · rfl

/-- C34 is violated by the code: restoring a session on a connection that has another one does not deregister
the old one (handleSessionRestore.go:79-90), which then has a connection for ever. -/
theorem C34_registry_agrees_violated : ¬ C34_full := by
  intro h
  obtain ⟨w, hr, hs, hc, _⟩ := overwritten
  have := (h Nat (sessServer 0) w rfl hr).connections [1] []
  rw [hc []] at this
  obtain ⟨s, h1, h2⟩ := (this.2.2 1).mp (by simp)
  rw [hs] at h1
  cases h1
  simp at h2

/-- C34 for histories in which no client restores a session on a connection that has one, on servers without
connection limit or with a key generator that does not repeat keys. Missing compared to `C34_full`: the other
histories; see the next two theorems for half of the statement each. -/
theorem C34_registry_agrees_partial (srv : Server ν υ) (issued : υ → Bytes → Prop) (w : World ν υ)
    (hr : Reachable srv false w) (hk : srv.maxConns = 0 ∨ FreshKeys srv.hooks issued) : Agrees w := by
  refine agrees_of (reachable_regOk hr) (reachable_sub hr) ?_
  rcases hk with hk | hk
  · exact reachable_sup_unlimited hk hr
  · exact reachable_sup_fresh hk hr

/-- C34, half: without restorations over an existing session, each connection listed under a key has a session
with that key (whatever the limit and the keys). Missing: such restorations, for which it is false. -/
theorem C34_listed_connections_partial (srv : Server ν υ) (w : World ν υ) (hr : Reachable srv false w) (k : Bytes)
    (order l : List ConnId) (h : sessionConnections w k order = some l) (c : ConnId) (hc : c ∈ l) : Holds w c k := by
  unfold sessionConnections at h
  cases hg : w.registry.get k with
  | none => rw [hg] at h; cases h
  | some set =>
    rw [hg] at h
    simp only [Option.some.injEq] at h
    refine reachable_sub hr k set c hg ?_
    subst h
    split_ifs at hc with hp
    · exact (List.isPerm_iff.mp hp).mem_iff.mp hc
    · exact hc

/-- C34: `SessionConnectionsNum` is the number of connections `SessionConnections` lists, and -1 if that is `nil`. -/
theorem C34_number (w : World ν υ) (k : Bytes) (order : List ConnId) : sessionConnectionsNum w k =
    match sessionConnections w k order with | some l => (l.length : Int) | none => -1 := by
  unfold sessionConnectionsNum sessionConnections
  split
  · rename_i set _
    by_cases hp : order.isPerm set = true
    · simp [if_pos hp, (List.isPerm_iff.mp hp).length_eq]
    · rw [if_neg hp]
  · rfl

/-- C34, half: without connection limit, or with fresh keys, each connection with a session is listed under its
key, in all histories. Missing: repeated keys under a limit. -/
theorem C34_sessions_listed_partial (srv : Server ν υ) (issued : υ → Bytes → Prop) (ow : Bool) (w : World ν υ)
    (hr : Reachable srv ow w) (hk : srv.maxConns = 0 ∨ FreshKeys srv.hooks issued) (k : Bytes) (c : ConnId)
    (hc : Holds w c k) (order : List ConnId) : ∃ l, sessionConnections w k order = some l ∧ c ∈ l := by
  have hsup : RegSup w.registry fun i => (w.conns i).session := by
    rcases hk with hk | hk
    · exact reachable_sup_unlimited hk hr
    · exact reachable_sup_fresh hk hr
  obtain ⟨s, hs, rfl⟩ := hc
  obtain ⟨set, hg, hm⟩ := hsup c s hs
  refine ⟨_, by unfold sessionConnections; rw [hg], ?_⟩
  split_ifs with hp
  · exact (List.isPerm_iff.mp hp).mem_iff.mpr hm
  · exact hm

/-- C34, non-vacuity: a history without overwriting, with fresh keys, after which two connections share a
session. -/
example : ∃ w, Reachable (sessServer 2) false w ∧ FreshKeys (sessServer 2).hooks (fun u k => k.length ≤ u) ∧
    Holds w 1 [9] ∧ Holds w 2 [9] ∧ activeSessionsNum w = 1 := by
  have h1 : ∃ w1, handleConnection (sessServer 2) sessStart 1 0 [] = .ok w1 ∧
      w1.conns 2 = {} ∧ ∃ w2, handleConnection (sessServer 2) w1 2 0 [] = .ok w2 ∧ (w2.conns 1).session = none ∧
      ∃ w3, serve (sessServer 2) w2 1 [.data [32, 0,0,0,0,0,0,0,1, 9]] = .ok w3 ∧ (w3.conns 2).session = none ∧
      ∃ w4, serve (sessServer 2) w3 2 [.data [32, 0,0,0,0,0,0,0,2, 9]] = .ok w4 ∧
      (∃ s, (w4.conns 1).session = some s ∧ s.key = [9]) ∧ (∃ s, (w4.conns 2).session = some s ∧ s.key = [9]) ∧
      activeSessionsNum w4 = 1 :=
    ⟨_, rfl, rfl, _, rfl, rfl, _, rfl, rfl, _, rfl, ⟨_, rfl, rfl⟩, ⟨_, rfl, rfl⟩, rfl⟩
  obtain ⟨w1, h1, hf, w2, h2, hs2, w3, h3, hs3, w4, h4, h5, h6, h7⟩ := h1
  have r0 : Reachable (sessServer 2) false sessStart := .start _ ⟨rfl, fun _ => rfl, rfl⟩
  have r1 := Reachable.step _ _ r0 (.accept _ _ 1 0 rfl h1)
  have r2 := Reachable.step _ _ r1 (.accept _ _ 2 0 hf h2)
  have r3 := Reachable.step _ _ r2 (.receive _ _ 1 _ (.inr (.inl hs2)) h3)
  have r4 := Reachable.step _ _ r3 (.receive _ _ 2 _ (.inr (.inl hs3)) h4)
  exact ⟨w4, r4, sessFresh, h5, h6, h7⟩

/-! ## C35, C36 -/

namespace Spec

/-- The critical sections of the session registry. -/
inductive RegOp
  | register (key : Bytes) (c : ConnId)
  | deregister (key : Bytes) (c : ConnId)

/-- A registry after any sequence of them, as in any interleaving of goroutines: the lock of the registry makes
each of them atomic. -/
def runRegOps (maxConns : Nat) : List RegOp → GoMap Bytes (List ConnId) → GoMap Bytes (List ConnId)
  | [], r => r
  | .register k c :: ops, r => runRegOps maxConns ops (registryAdd maxConns r k c).1
  | .deregister k c :: ops, r => runRegOps maxConns ops (registryRemove r k c).1

end Spec

theorem runRegOps_ok {n : Nat} : ∀ {ops : List RegOp} {r : GoMap Bytes (List ConnId)}, RegOk n r →
    RegOk n (runRegOps n ops r) := by
  intro ops
  induction ops with
  | nil => exact fun h => h
  | cons o ops ih =>
    intro r h
    cases o with
    | register k c => exact ih (h.add k c)
    | deregister k c => exact ih (h.remove k c)

/-- C35: in every history, no session has more connections than the limit. -/
theorem C35_connection_limit (srv : Server ν υ) (ow : Bool) (w : World ν υ) (hr : Reachable srv ow w)
    (hm : srv.maxConns > 0) (k : Bytes) : sessionConnectionsNum w k ≤ srv.maxConns := by
  have h := reachable_regOk hr
  unfold sessionConnectionsNum
  cases hg : w.registry.get k with
  | none => simp only; omega
  | some set =>
    simp only
    have := (h.ok k set hg).2.2 hm
    omega

/-- C35 in all interleavings of the registry's critical sections, whatever the goroutines do in between. -/
theorem C35_connection_limit_interleaved (maxConns : Nat) (ops : List RegOp) (hm : maxConns > 0) (w : World ν υ)
    (hw : w.registry = runRegOps maxConns ops []) (k : Bytes) (order l : List ConnId)
    (hl : sessionConnections w k order = some l) : l.length ≤ maxConns ∧ l.Nodup := by
  have h := runRegOps_ok (ops := ops) (RegOk.nil maxConns)
  rw [← hw] at h
  unfold sessionConnections at hl
  cases hg : w.registry.get k with
  | none => rw [hg] at hl; cases hl
  | some set =>
    rw [hg] at hl
    simp only [Option.some.injEq] at hl
    obtain ⟨_, h1, h2⟩ := h.ok k set hg
    subst hl
    split_ifs with hp
    · have hp := List.isPerm_iff.mp hp
      exact ⟨by rw [hp.length_eq]; exact h2 hm, hp.nodup_iff.mpr h1⟩
    · exact ⟨h2 hm, h1⟩

/-- C35, non-vacuity: a third connection to a session with limit 2 is refused. -/
example : runRegOps 2 [.register [9] 1, .register [9] 2, .register [9] 3] [] = [([9], [2, 1])] := rfl

theorem C36_of_regOk {n : Nat} {w : World ν υ} (h : RegOk n w.registry) (k : Bytes) (order : List ConnId) :
    (match sessionConnections w k order with
     | some l => l ≠ [] ∧ l.Nodup ∧ sessionConnectionsNum w k = l.length
     | none => sessionConnectionsNum w k = -1) ∧
    ∃ keys : List Bytes, keys.Nodup ∧ keys.length = activeSessionsNum w ∧
      ∀ k, k ∈ keys ↔ sessionConnectionsNum w k ≠ -1 := by
  refine ⟨?_, w.registry.keys, h.wf, ?_, fun k => ?_⟩
  · unfold sessionConnections sessionConnectionsNum
    cases hg : w.registry.get k with
    | none => rfl
    | some set =>
      obtain ⟨h1, h2, _⟩ := h.ok k set hg
      simp only
      split_ifs with hp
      · have hp := List.isPerm_iff.mp hp
        refine ⟨?_, hp.nodup_iff.mpr h2, by rw [hp.length_eq]⟩
        rintro rfl
        exact h1 (List.nil_perm.mp hp)
      · exact ⟨h1, h2, rfl⟩
  · simp [activeSessionsNum, GoMap.keys]
  · rw [GoMap.mem_keys]
    unfold sessionConnectionsNum
    cases hg : w.registry.get k with
    | none => simp
    | some set =>
      simp only [ne_eq, reduceCtorEq, not_false_eq_true]

/-- C36: in every history, `SessionConnections` is nil and `SessionConnectionsNum` is -1, or the former is a
nonempty list of different connections and the latter its length; `ActiveSessionsNum` counts the keys for which
it is not -1. -/
theorem C36_sessions_have_connections (srv : Server ν υ) (ow : Bool) (w : World ν υ) (hr : Reachable srv ow w)
    (k : Bytes) (order : List ConnId) :
    (match sessionConnections w k order with
     | some l => l ≠ [] ∧ l.Nodup ∧ sessionConnectionsNum w k = l.length
     | none => sessionConnectionsNum w k = -1) ∧
    ∃ keys : List Bytes, keys.Nodup ∧ keys.length = activeSessionsNum w ∧
      ∀ k, k ∈ keys ↔ sessionConnectionsNum w k ≠ -1 := C36_of_regOk (reachable_regOk hr) k order

/-- C36 in all interleavings of the registry's critical sections. -/
theorem C36_sessions_have_connections_interleaved (maxConns : Nat) (ops : List RegOp) (w : World ν υ)
    (hw : w.registry = runRegOps maxConns ops []) (k : Bytes) (order : List ConnId) :
    (match sessionConnections w k order with
     | some l => l ≠ [] ∧ l.Nodup ∧ sessionConnectionsNum w k = l.length
     | none => sessionConnectionsNum w k = -1) ∧
    ∃ keys : List Bytes, keys.Nodup ∧ keys.length = activeSessionsNum w ∧
      ∀ k, k ∈ keys ↔ sessionConnectionsNum w k ≠ -1 :=
  C36_of_regOk (n := maxConns) (by rw [hw]; exact runRegOps_ok (RegOk.nil _)) k order

/-- C36, non-vacuity. -/
example : runRegOps 0 [.register [9] 1, .register [8] 2, .register [9] 3, .deregister [8] 2] [] = [([9], [3, 1])] := rfl

end Webwire
