import Verif.Model.Server
import Mathlib.Tactic.Common

/-! Helper lemmas: what API calls made by hooks leave unchanged. -/

set_option autoImplicit false

namespace Webwire

variable {ν υ : Type}

/-- Events API calls can cause. -/
def ApiEvent : Ev → Prop
  | .onSessionCreated _ _ => True
  | .onSessionClosed _ => True
  | .sent _ => True
  | .sockClose _ => True
  | _ => False

/-- Nothing about handlers changed between `w` and `w'`. -/
structure Quiet (w w' : World ν υ) : Prop where
  tasks : ∀ i, (w'.conns i).tasks = (w.conns i).tasks
  slots : ∀ i, (w'.conns i).slots = (w.conns i).slots
  limit : ∀ i, (w'.conns i).limit = (w.conns i).limit
  active : ∀ i, (w'.conns i).isActive = true → (w.conns i).isActive = true
  shutdown : w'.shutdown = w.shutdown
  ops : w'.currentOps = w.currentOps
  rdy : w'.rdyClosed = w.rdyClosed
  trace : ∃ l, w'.trace = w.trace ++ l ∧ ∀ e ∈ l, ApiEvent e

theorem Quiet.refl (w : World ν υ) : Quiet w w :=
  ⟨fun _ => rfl, fun _ => rfl, fun _ => rfl, fun _ h => h, rfl, rfl, rfl, [], by simp, by simp⟩

theorem Quiet.trans {w w' w'' : World ν υ} (h : Quiet w w') (h' : Quiet w' w'') : Quiet w w'' where
  tasks i := (h'.tasks i).trans (h.tasks i)
  slots i := (h'.slots i).trans (h.slots i)
  limit i := (h'.limit i).trans (h.limit i)
  active i hi := h.active i (h'.active i hi)
  shutdown := h'.shutdown.trans h.shutdown
  ops := h'.ops.trans h.ops
  rdy := h'.rdy.trans h.rdy
  trace := by
    obtain ⟨l, e, hl⟩ := h.trace
    obtain ⟨l', e', hl'⟩ := h'.trace
    refine ⟨l ++ l', by rw [e', e, List.append_assoc], ?_⟩
    intro x hx
    rcases List.mem_append.mp hx with hx | hx
    · exact hl x hx
    · exact hl' x hx

theorem Quiet.setSession (w : World ν υ) (c : ConnId) (s : Option Session) : Quiet w (setSession w c s) := by
  refine ⟨?_, ?_, ?_, ?_, rfl, rfl, rfl, [], by simp [Webwire.setSession, World.upd], by simp⟩ <;>
  · intro i
    simp only [Webwire.setSession, World.upd]
    by_cases h : i = c <;> simp [h]

theorem Quiet.mk_net (w : World ν υ) (net : ν) : Quiet w { w with net := net } :=
  ⟨fun _ => rfl, fun _ => rfl, fun _ => rfl, fun _ h => h, rfl, rfl, rfl, [], by simp, by simp⟩

theorem Quiet.mk_user (w : World ν υ) (user : υ) : Quiet w { w with user := user } :=
  ⟨fun _ => rfl, fun _ => rfl, fun _ => rfl, fun _ h => h, rfl, rfl, rfl, [], by simp, by simp⟩

theorem Quiet.mk_registry (w : World ν υ) (r) : Quiet w { w with registry := r } :=
  ⟨fun _ => rfl, fun _ => rfl, fun _ => rfl, fun _ h => h, rfl, rfl, rfl, [], by simp, by simp⟩

theorem Quiet.log (w : World ν υ) (e : Ev) (h : ApiEvent e) : Quiet w (w.log e) :=
  ⟨fun _ => rfl, fun _ => rfl, fun _ => rfl, fun _ h => h, rfl, rfl, rfl, [e], rfl, by simpa using h⟩

theorem withWriter_ok {srv : Server ν υ} {w w' : World ν υ} {c : ConnId} {f} {e : Option Err}
    (h : withWriter srv w c f = .ok (w', e)) :
    (∃ net er, srv.sock.getWriter w.net c = .ok (net, some er) ∧ w' = { w with net := net } ∧ e = some er) ∨
    (∃ net net', srv.sock.getWriter w.net c = .ok (net, none) ∧ f (srv.sock.writer c) net = .ok (net', e) ∧
      w' = { w with net := net' }.log (.sent c)) := by
  unfold withWriter at h
  simp only [bind, Except.bind] at h
  cases hg : srv.sock.getWriter w.net c with
  | error s => rw [hg] at h; simp at h
  | ok r =>
    obtain ⟨net, er⟩ := r
    rw [hg] at h
    cases er with
    | some er =>
      simp only [pure, Except.pure, Except.ok.injEq, Prod.mk.injEq] at h
      exact .inl ⟨net, er, rfl, h.1.symm, h.2.symm⟩
    | none =>
      simp only at h
      cases hf : f (srv.sock.writer c) net with
      | error s => rw [hf] at h; simp at h
      | ok r =>
        obtain ⟨net', er⟩ := r
        rw [hf] at h
        simp only [pure, Except.pure, Except.ok.injEq, Prod.mk.injEq] at h
        obtain ⟨rfl, rfl⟩ := h
        exact .inr ⟨net, net', rfl, hf, rfl⟩

theorem Quiet.withWriter {srv : Server ν υ} {w w' : World ν υ} {c : ConnId} {f} {e : Option Err}
    (h : withWriter srv w c f = .ok (w', e)) : Quiet w w' := by
  rcases withWriter_ok h with ⟨net, er, _, rfl, _⟩ | ⟨net, net', _, _, rfl⟩
  · exact Quiet.mk_net _ _
  · exact (Quiet.mk_net _ _).trans (Quiet.log _ _ trivial)

theorem register_ok {srv : Server ν υ} {w w' : World ν υ} {c : ConnId} {e : Option Err}
    (h : register srv w c = .ok (w', e)) :
    ∃ s, (w.conns c).session = some s ∧
      w' = { w with registry := (registryAdd srv.maxConns w.registry s.key c).1 } ∧
      e = (registryAdd srv.maxConns w.registry s.key c).2 := by
  unfold register at h
  cases hs : (w.conns c).session with
  | none => rw [hs] at h; simp [goPanic] at h
  | some s =>
    rw [hs] at h
    simp only [Except.ok.injEq, Prod.mk.injEq] at h
    exact ⟨s, rfl, h.1.symm, h.2.symm⟩

theorem Quiet.register {srv : Server ν υ} {w w' : World ν υ} {c : ConnId} {e : Option Err}
    (h : register srv w c = .ok (w', e)) : Quiet w w' := by
  obtain ⟨s, _, rfl, _⟩ := register_ok h
  exact Quiet.mk_registry _ _

/-- All about a `deregister` call that returned. -/
theorem deregister_ok {srv : Server ν υ} {w w' : World ν υ} {c : ConnId} {d : Bool} {n : Int}
    (h : deregister srv w c d = .ok (w', n)) :
    ((w.conns c).session = none ∧ w' = w ∧ n = -1) ∨
    (∃ s, (w.conns c).session = some s ∧ n = (registryRemove w.registry s.key c).2.1 ∧
      ((((registryRemove w.registry s.key c).2.2 = false ∨ d = false) ∧
          w' = { w with registry := (registryRemove w.registry s.key c).1 }) ∨
       ((registryRemove w.registry s.key c).2.2 = true ∧ d = true ∧
          (∃ e, (srv.hooks.onSessionClosed w.user s.key).2 = .returned e) ∧
          w' = { w with registry := (registryRemove w.registry s.key c).1,
                        user := (srv.hooks.onSessionClosed w.user s.key).1 }.log (.onSessionClosed s.key)))) := by
  unfold deregister at h
  cases hs : (w.conns c).session with
  | none =>
    rw [hs] at h
    simp only [Except.ok.injEq, Prod.mk.injEq] at h
    exact .inl ⟨rfl, h.1.symm, h.2.symm⟩
  | some s =>
    rw [hs] at h
    right
    refine ⟨s, rfl, ?_⟩
    simp only at h
    by_cases hc : (registryRemove w.registry s.key c).2.2 = true ∧ d = true
    · rw [if_pos hc] at h
      cases ho : (srv.hooks.onSessionClosed w.user s.key).2 with
      | panicked p => rw [ho] at h; simp [goPanic] at h
      | returned e =>
        rw [ho] at h
        simp only [Except.ok.injEq, Prod.mk.injEq] at h
        exact ⟨h.2.symm, .inr ⟨hc.1, hc.2, ⟨e, rfl⟩, h.1.symm⟩⟩
    · rw [if_neg hc] at h
      simp only [Except.ok.injEq, Prod.mk.injEq] at h
      refine ⟨h.2.symm, .inl ⟨?_, h.1.symm⟩⟩
      by_cases hd : d = true
      · left
        by_cases hr : (registryRemove w.registry s.key c).2.2 = true
        · exact absurd ⟨hr, hd⟩ hc
        · simpa using hr
      · right; simpa using hd

theorem Quiet.deregister {srv : Server ν υ} {w w' : World ν υ} {c : ConnId} {d : Bool} {n : Int}
    (h : deregister srv w c d = .ok (w', n)) : Quiet w w' := by
  rcases deregister_ok h with ⟨_, rfl, _⟩ | ⟨s, _, _, ⟨_, rfl⟩ | ⟨_, _, _, rfl⟩⟩
  · exact Quiet.refl _
  · exact Quiet.mk_registry _ _
  · exact ⟨fun _ => rfl, fun _ => rfl, fun _ => rfl, fun _ h => h, rfl, rfl, rfl, [.onSessionClosed s.key], rfl,
      by simp [ApiEvent]⟩

theorem unlink_ok {srv : Server ν υ} {w w' : World ν υ} {c : ConnId} (h : unlink srv w c = .ok w') :
    ∃ w1 n net e, deregister srv w c false = .ok (w1, n) ∧
      srv.sock.close w1.net c = .ok (net, e) ∧
      w' = { setSession w1 c none with net := net }.log (.sockClose c) := by
  unfold unlink at h
  simp only [bind, Except.bind] at h
  cases hd : deregister srv w c false with
  | error s => rw [hd] at h; simp at h
  | ok r =>
    obtain ⟨w1, n⟩ := r
    rw [hd] at h
    simp only at h
    cases hc : srv.sock.close (setSession w1 c none).net c with
    | error s => rw [hc] at h; simp at h
    | ok r =>
      obtain ⟨net, e⟩ := r
      rw [hc] at h
      simp only [pure, Except.pure, Except.ok.injEq] at h
      exact ⟨w1, n, net, e, rfl, hc, h.symm⟩

theorem Quiet.unlink {srv : Server ν υ} {w w' : World ν υ} {c : ConnId} (h : unlink srv w c = .ok w') :
    Quiet w w' := by
  obtain ⟨w1, n, net, e, hd, _, rfl⟩ := unlink_ok h
  exact (((Quiet.deregister hd).trans (Quiet.setSession _ _ _)).trans (Quiet.mk_net _ _)).trans
    (Quiet.log _ _ trivial)

theorem Quiet.deactivate (w : World ν υ) (c : ConnId) :
    Quiet w (w.upd c fun con => { con with isActive := false }) := by
  refine ⟨?_, ?_, ?_, ?_, rfl, rfl, rfl, [], by simp [World.upd], by simp⟩ <;>
  · intro i
    simp only [World.upd]
    by_cases h : i = c <;> simp [h]

theorem connClose_ok {srv : Server ν υ} {w w' : World ν υ} {c : ConnId} (h : connClose srv w c = .ok w') :
    ((w.conns c).isActive = false ∧ w' = w) ∨
    ((w.conns c).isActive = true ∧
      (((w.conns c).tasks < 1 ∧ unlink srv (w.upd c fun con => { con with isActive := false }) c = .ok w') ∨
       (¬ (w.conns c).tasks < 1 ∧ w' = w.upd c fun con => { con with isActive := false }))) := by
  unfold connClose at h
  cases ha : (w.conns c).isActive with
  | false =>
    rw [ha] at h
    simp only [Bool.not_false, if_true, Except.ok.injEq] at h
    exact .inl ⟨rfl, h.symm⟩
  | true =>
    rw [ha] at h
    simp only [Bool.not_true, if_false, Bool.false_eq_true] at h
    right
    refine ⟨rfl, ?_⟩
    have ht : ((w.upd c fun con => { con with isActive := false }).conns c).tasks = (w.conns c).tasks := by
      simp [World.upd]
    rw [ht] at h
    split_ifs at h with h1
    · exact .inl ⟨h1, h⟩
    · simp only [Except.ok.injEq] at h
      exact .inr ⟨h1, h.symm⟩

theorem Quiet.connClose {srv : Server ν υ} {w w' : World ν υ} {c : ConnId} (h : connClose srv w c = .ok w') :
    Quiet w w' := by
  rcases connClose_ok h with ⟨_, rfl⟩ | ⟨_, ⟨_, h⟩ | ⟨_, rfl⟩⟩
  · exact Quiet.refl _
  · exact (Quiet.deactivate _ _).trans (Quiet.unlink h)
  · exact Quiet.deactivate _ _

theorem signal_ok {srv : Server ν υ} {w w' : World ν υ} {c : ConnId} {name : Bytes} {enc : Encoding}
    {payload : Bytes} {e : Option Err} (h : signal srv w c name enc payload = .ok (w', e)) :
    (w' = w ∧ e ≠ none) ∨
    withWriter srv w c (fun wr s => writeMsgSignal wr s name enc payload true) = .ok (w', e) := by
  unfold signal at h
  split_ifs at h
  · simp only [Except.ok.injEq, Prod.mk.injEq] at h
    exact .inl ⟨h.1.symm, by rw [← h.2]; simp⟩
  · simp only [Except.ok.injEq, Prod.mk.injEq] at h
    exact .inl ⟨h.1.symm, by rw [← h.2]; simp⟩
  · exact .inr h

theorem Quiet.signal {srv : Server ν υ} {w w' : World ν υ} {c : ConnId} {name : Bytes} {enc : Encoding}
    {payload : Bytes} {e : Option Err} (h : signal srv w c name enc payload = .ok (w', e)) : Quiet w w' := by
  rcases signal_ok h with ⟨rfl, _⟩ | h
  · exact Quiet.refl _
  · exact Quiet.withWriter h

theorem notifySessionCreated_ok {srv : Server ν υ} {w w' : World ν υ} {c : ConnId} {s : Session}
    {e : Option Err} (h : notifySessionCreated srv w c s = .ok (w', e)) :
    (w' = w ∧ e ≠ none) ∨
    ∃ bs, srv.hooks.marshal s = .ok bs ∧
      withWriter srv w c (fun wr st => writeMsgNotifySessionCreated wr st bs) = .ok (w', e) := by
  unfold notifySessionCreated at h
  cases hm : srv.hooks.marshal s with
  | error er =>
    rw [hm] at h
    simp only [Except.ok.injEq, Prod.mk.injEq] at h
    exact .inl ⟨h.1.symm, by rw [← h.2]; simp⟩
  | ok bs =>
    rw [hm] at h
    exact .inr ⟨bs, rfl, h⟩

theorem Quiet.notifySessionCreated {srv : Server ν υ} {w w' : World ν υ} {c : ConnId} {s : Session}
    {e : Option Err} (h : notifySessionCreated srv w c s = .ok (w', e)) : Quiet w w' := by
  rcases notifySessionCreated_ok h with ⟨rfl, _⟩ | ⟨bs, _, h⟩
  · exact Quiet.refl _
  · exact Quiet.withWriter h

theorem newSession_ok {hooks : Hooks υ} {user user' : υ} {info : Option Nat} {s : Session}
    (h : newSession hooks user info = .ok (user', s)) :
    s.key ≠ [] ∧ s.key = (hooks.generateKey user).2 ∧ user' = (hooks.generateKey user).1 ∧
      s.creation = hooks.now user' ∧ s.lastLookup = hooks.now user' ∧ s.info = info := by
  unfold newSession at h
  simp only at h
  by_cases hk : (hooks.generateKey user).2.length < 1
  · rw [if_pos hk] at h; simp [goPanic] at h
  · rw [if_neg hk] at h
    simp only [Except.ok.injEq, Prod.mk.injEq] at h
    obtain ⟨rfl, rfl⟩ := h
    refine ⟨?_, rfl, rfl, rfl, rfl, rfl⟩
    intro h0
    simp only at h0
    rw [h0] at hk; simp at hk

/-- All about a `CreateSession` call that returned. -/
theorem createSession_ok {srv : Server ν υ} {w w' : World ν υ} {c : ConnId} {info : Option Nat}
    {e : Option Err} (h : createSession srv w c info = .ok (w', e)) :
    (srv.sessionsEnabled = false ∧ w' = w ∧ e = some errSessionsDisabled) ∨
    (srv.sessionsEnabled = true ∧ srv.sock.isConnected w.net c = false ∧ w' = w ∧ e = some errDisconnected) ∨
    (srv.sessionsEnabled = true ∧ srv.sock.isConnected w.net c = true ∧ (w.conns c).session ≠ none ∧
      w' = w ∧ e = some "Another session on this client is already active") ∨
    (srv.sessionsEnabled = true ∧ srv.sock.isConnected w.net c = true ∧ (w.conns c).session = none ∧
      ∃ user s w1 en, newSession srv.hooks w.user info = .ok (user, s) ∧
        notifySessionCreated srv { w with user := user } c s = .ok (w1, en) ∧
        ((∃ er, en = some er ∧ w' = w1 ∧
            e = some ("Couldn't notify client about the session creation: " ++ er)) ∨
         (en = none ∧ e = none ∧ ∃ w2 er, register srv (setSession w1 c (some s)) c = .ok (w2, er) ∧
            w' = { w2 with user := (srv.hooks.onSessionCreated w2.user c s).1 }.log
              (.onSessionCreated c s.key)))) := by
  unfold createSession at h
  simp only [bind, Except.bind, pure, Except.pure] at h
  cases hse : srv.sessionsEnabled with
  | false =>
    rw [hse] at h
    simp only [Bool.not_false, if_true, Except.ok.injEq, Prod.mk.injEq] at h
    exact .inl ⟨rfl, h.1.symm, h.2.symm⟩
  | true =>
    rw [hse] at h
    simp only [Bool.not_true, if_false, Bool.false_eq_true] at h
    right
    cases hco : srv.sock.isConnected w.net c with
    | false =>
      rw [hco] at h
      simp only [Bool.not_false, if_true, Except.ok.injEq, Prod.mk.injEq] at h
      exact .inl ⟨rfl, rfl, h.1.symm, h.2.symm⟩
    | true =>
      rw [hco] at h
      simp only [Bool.not_true, if_false, Bool.false_eq_true] at h
      right
      cases hs : (w.conns c).session with
      | some s =>
        rw [hs] at h
        simp only [Except.ok.injEq, Prod.mk.injEq] at h
        exact .inl ⟨rfl, rfl, by simp, h.1.symm, h.2.symm⟩
      | none =>
        rw [hs] at h
        simp only at h
        right
        refine ⟨rfl, rfl, rfl, ?_⟩
        cases hk : newSession srv.hooks w.user info with
        | error st => rw [hk] at h; simp at h
        | ok r =>
          obtain ⟨user, s⟩ := r
          rw [hk] at h
          simp only at h
          cases hn : notifySessionCreated srv { w with user := user } c s with
          | error st => rw [hn] at h; simp at h
          | ok r =>
            obtain ⟨w1, en⟩ := r
            rw [hn] at h
            simp only at h
            refine ⟨user, s, w1, en, rfl, hn, ?_⟩
            cases en with
            | some er =>
              simp only [Except.ok.injEq, Prod.mk.injEq] at h
              exact .inl ⟨er, rfl, h.1.symm, h.2.symm⟩
            | none =>
              simp only at h
              cases hr : register srv (setSession w1 c (some s)) c with
              | error st => rw [hr] at h; simp at h
              | ok r =>
                obtain ⟨w2, er⟩ := r
                rw [hr] at h
                simp only [Except.ok.injEq, Prod.mk.injEq] at h
                exact .inr ⟨rfl, h.2.symm, w2, er, rfl, h.1.symm⟩

theorem Quiet.createSession {srv : Server ν υ} {w w' : World ν υ} {c : ConnId} {info : Option Nat}
    {e : Option Err} (h : createSession srv w c info = .ok (w', e)) : Quiet w w' := by
  rcases createSession_ok h with ⟨_, rfl, _⟩ | ⟨_, _, rfl, _⟩ | ⟨_, _, _, rfl, _⟩ |
    ⟨_, _, _, user, s, w1, en, _, hn, ⟨er, _, rfl, _⟩ | ⟨_, _, w2, er, hr, rfl⟩⟩
  · exact Quiet.refl _
  · exact Quiet.refl _
  · exact Quiet.refl _
  · exact (Quiet.mk_user _ _).trans (Quiet.notifySessionCreated hn)
  · exact (((((Quiet.mk_user _ _).trans (Quiet.notifySessionCreated hn)).trans (Quiet.setSession _ _ _)).trans
      (Quiet.register hr)).trans (Quiet.mk_user _ _)).trans (Quiet.log _ (.onSessionCreated c s.key) trivial)

/-- All about a `Connection.CloseSession` call that returned. -/
theorem closeSession_ok {srv : Server ν υ} {w w' : World ν υ} {c : ConnId} {e : Option Err}
    (h : closeSession srv w c = .ok (w', e)) :
    (srv.sessionsEnabled = false ∧ w' = w ∧ e = some errSessionsDisabled) ∨
    (srv.sessionsEnabled = true ∧ (w.conns c).session = none ∧ w' = w ∧ e = none) ∨
    (srv.sessionsEnabled = true ∧ (w.conns c).session ≠ none ∧ ∃ w1 n,
      deregister srv w c true = .ok (w1, n) ∧
      withWriter srv (setSession w1 c none) c (fun wr s => writeMsgNotifySessionClosed wr s) = .ok (w', e)) := by
  unfold closeSession at h
  simp only [bind, Except.bind, pure, Except.pure] at h
  cases hse : srv.sessionsEnabled with
  | false =>
    rw [hse] at h
    simp only [Bool.not_false, if_true, Except.ok.injEq, Prod.mk.injEq] at h
    exact .inl ⟨rfl, h.1.symm, h.2.symm⟩
  | true =>
    rw [hse] at h
    simp only [Bool.not_true, if_false, Bool.false_eq_true] at h
    right
    cases hs : (w.conns c).session with
    | none =>
      rw [hs] at h
      simp only [Except.ok.injEq, Prod.mk.injEq] at h
      exact .inl ⟨rfl, rfl, h.1.symm, h.2.symm⟩
    | some s =>
      rw [hs] at h
      simp only at h
      right
      refine ⟨rfl, by simp, ?_⟩
      cases hd : deregister srv w c true with
      | error st => rw [hd] at h; simp at h
      | ok r =>
        obtain ⟨w1, n⟩ := r
        rw [hd] at h
        exact ⟨w1, n, rfl, h⟩

theorem Quiet.closeSession {srv : Server ν υ} {w w' : World ν υ} {c : ConnId} {e : Option Err}
    (h : closeSession srv w c = .ok (w', e)) : Quiet w w' := by
  rcases closeSession_ok h with ⟨_, rfl, _⟩ | ⟨_, _, rfl, _⟩ | ⟨_, _, w1, n, hd, hw⟩
  · exact Quiet.refl _
  · exact Quiet.refl _
  · exact ((Quiet.deregister hd).trans (Quiet.setSession _ _ _)).trans (Quiet.withWriter hw)

theorem closeSessions_cons {srv : Server ν υ} {w w' : World ν υ} {c : ConnId} {cs : List ConnId}
    {es : List (Option Err)} (h : closeSessions srv w (c :: cs) = .ok (w', es)) :
    ∃ w1 e es', closeSession srv w c = .ok (w1, e) ∧ closeSessions srv w1 cs = .ok (w', es') ∧ es = e :: es' := by
  unfold closeSessions at h
  simp only [bind, Except.bind, pure, Except.pure] at h
  cases h1 : closeSession srv w c with
  | error st => rw [h1] at h; simp at h
  | ok r =>
    obtain ⟨w1, e⟩ := r
    rw [h1] at h
    simp only at h
    cases h2 : closeSessions srv w1 cs with
    | error st => rw [h2] at h; simp at h
    | ok r =>
      obtain ⟨w2, es'⟩ := r
      rw [h2] at h
      simp only [Except.ok.injEq, Prod.mk.injEq] at h
      exact ⟨w1, e, es', rfl, by rw [← h.1]; exact h2, h.2.symm⟩

theorem closeSessions_nil {srv : Server ν υ} {w w' : World ν υ}
    {es : List (Option Err)} (h : closeSessions srv w [] = .ok (w', es)) : w' = w ∧ es = [] := by
  simp only [closeSessions, Except.ok.injEq, Prod.mk.injEq] at h
  exact ⟨h.1.symm, h.2.symm⟩

theorem Quiet.closeSessions {srv : Server ν υ} {cs : List ConnId} : ∀ {w w' : World ν υ}
    {es : List (Option Err)}, closeSessions srv w cs = .ok (w', es) → Quiet w w' := by
  induction cs with
  | nil =>
    intro w w' es h
    rw [(closeSessions_nil h).1]
    exact Quiet.refl _
  | cons c cs ih =>
    intro w w' es h
    obtain ⟨w1, e, es', h1, h2, _⟩ := closeSessions_cons h
    exact (Quiet.closeSession h1).trans (ih h2)

/-- All about a `Server.CloseSession` call that returned. -/
theorem srvCloseSession_ok {srv : Server ν υ} {w w' : World ν υ} {key : Bytes} {order : List ConnId} {r}
    (h : srvCloseSession srv w key order = .ok (w', r)) :
    (w.registry.get key = none ∧ w' = w ∧ r = (none, none, none)) ∨
    (∃ set conns es, w.registry.get key = some set ∧ conns.Perm set ∧ (order.Perm set → conns = order) ∧
      closeSessions srv w conns = .ok (w', es) ∧
      r = (some conns, some es, if es.countP Option.isSome > 0 then
        some (toString (es.countP Option.isSome) ++ " errors during the closure of a session") else none)) := by
  unfold srvCloseSession sessionConnections at h
  cases hr : w.registry.get key with
  | none =>
    rw [hr] at h
    simp only [pure, Except.pure, Except.ok.injEq, Prod.mk.injEq] at h
    exact .inl ⟨rfl, h.1.symm, h.2.symm⟩
  | some set =>
    rw [hr] at h
    simp only [bind, Except.bind, pure, Except.pure] at h
    right
    cases hc : closeSessions srv w (if order.isPerm set = true then order else set) with
    | error st => rw [hc] at h; simp at h
    | ok q =>
      obtain ⟨w1, es⟩ := q
      rw [hc] at h
      simp only [Except.ok.injEq, Prod.mk.injEq] at h
      refine ⟨set, _, es, rfl, ?_, ?_, by rw [← h.1]; exact hc, h.2.symm⟩
      · split_ifs with hp
        · exact List.isPerm_iff.mp hp
        · exact List.Perm.refl _
      · intro hp
        rw [if_pos (List.isPerm_iff.mpr hp)]

theorem Quiet.srvCloseSession {srv : Server ν υ} {w w' : World ν υ} {key : Bytes} {order : List ConnId} {r}
    (h : srvCloseSession srv w key order = .ok (w', r)) : Quiet w w' := by
  rcases srvCloseSession_ok h with ⟨_, rfl, _⟩ | ⟨_, _, _, _, _, _, h, _⟩
  · exact Quiet.refl _
  · exact Quiet.closeSessions h

/-- Inversion of `do return (← x).1`. -/
theorem map_fst_ok {α β : Type} {x : Go (α × β)} {a : α}
    (h : (do return (← x).1 : Go α) = .ok a) : ∃ b, x = .ok (a, b) := by
  simp only [bind, Except.bind, pure, Except.pure] at h
  cases hx : x with
  | error st => rw [hx] at h; simp at h
  | ok r =>
    rw [hx] at h
    simp only [Except.ok.injEq] at h
    exact ⟨r.2, by rw [← h]⟩

theorem Quiet.runApi {srv : Server ν υ} {w w' : World ν υ} {a : ApiCall} (h : runApi srv w a = .ok w') :
    Quiet w w' := by
  cases a with
  | signal c name enc payload => obtain ⟨b, h⟩ := map_fst_ok h; exact Quiet.signal h
  | createSession c info => obtain ⟨b, h⟩ := map_fst_ok h; exact Quiet.createSession h
  | closeSession c => obtain ⟨b, h⟩ := map_fst_ok h; exact Quiet.closeSession h
  | close c => exact Quiet.connClose h
  | srvCloseSession key order => obtain ⟨b, h⟩ := map_fst_ok h; exact Quiet.srvCloseSession h

theorem runApis_cons {srv : Server ν υ} {w w' : World ν υ} {a : ApiCall} {as : List ApiCall}
    (h : runApis srv w (a :: as) = .ok w') : ∃ w1, runApi srv w a = .ok w1 ∧ runApis srv w1 as = .ok w' := by
  unfold runApis at h
  simp only [bind, Except.bind] at h
  cases h1 : runApi srv w a with
  | error st => rw [h1] at h; simp at h
  | ok w1 => rw [h1] at h; exact ⟨w1, rfl, h⟩

theorem Quiet.runApis {srv : Server ν υ} {as : List ApiCall} : ∀ {w w' : World ν υ},
    runApis srv w as = .ok w' → Quiet w w' := by
  induction as with
  | nil =>
    intro w w' h
    simp only [Webwire.runApis, Except.ok.injEq] at h
    rw [← h]; exact Quiet.refl _
  | cons a as ih =>
    intro w w' h
    obtain ⟨w1, h1, h2⟩ := runApis_cons h
    exact (Quiet.runApi h1).trans (ih h2)

end Webwire
