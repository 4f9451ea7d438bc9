import Verif.Proofs.Session2
import Verif.Proofs.Connection

/-!
Helper lemmas: operations that do not close sessions.
-/

set_option autoImplicit false

namespace Webwire
open Spec

variable {ν υ : Type} {srv : Server ν υ}

namespace Spec
/-- API calls that close sessions. -/
def Closing : ApiCall → Prop
  | .closeSession _ => True
  | .srvCloseSession _ _ => True
  | _ => False

/-- Hooks that never close a session. -/
structure NeverCloses (hooks : Hooks υ) : Prop where
  connected : ∀ u c, ∀ a ∈ (hooks.onClientConnected u c).2, ¬ Closing a
  disconnected : ∀ u c, ∀ a ∈ (hooks.onClientDisconnected u c).2, ¬ Closing a
  signal : ∀ u c m, ∀ a ∈ (hooks.onSignal u c m).2, ¬ Closing a
  request : ∀ u c m, ∀ a ∈ (hooks.onRequest u c m).2.calls, ¬ Closing a
end Spec

/-- No session was destroyed. -/
def Kept (w w' : World ν υ) : Prop := closedKeys w'.trace = closedKeys w.trace

theorem Kept.trans {w w' w'' : World ν υ} (h : Kept w w') (h' : Kept w' w'') : Kept w w'' := Eq.trans h' h

theorem Kept.log (w : World ν υ) (e : Ev) (h : ∀ k, e ≠ .onSessionClosed k) : Kept w (w.log e) := by
  unfold Kept
  simp only [World.log, closedKeys_append]
  have : closedKeys [e] = [] := by
    cases e <;> first | rfl | exact absurd rfl (h _)
  rw [this, List.append_nil]

theorem Same.kept {w w' : World ν υ} (h : Same w w') : Kept w w' := h.closed

theorem Kept.unlink {w w' : World ν υ} {c : ConnId} (h : unlink srv w c = .ok w') : Kept w w' := by
  obtain ⟨w1, n, net, e, hd, _, rfl⟩ := unlink_ok h
  have h1 : Kept w w1 := by
    rcases deregister_ok hd with ⟨_, rfl, _⟩ | ⟨s, _, _, ⟨_, rfl⟩ | ⟨_, hf, _, _⟩⟩
    · rfl
    · rfl
    · cases hf
  exact h1.trans (Kept.log { setSession w1 c none with net := net } _ (by simp))

theorem Kept.connClose {w w' : World ν υ} {c : ConnId} (h : connClose srv w c = .ok w') : Kept w w' := by
  rcases connClose_ok h with ⟨_, rfl⟩ | ⟨_, ⟨_, h⟩ | ⟨_, rfl⟩⟩
  · rfl
  · exact Kept.unlink (w := w.upd c fun con => { con with isActive := false }) h
  · rfl

theorem Kept.createSession {w w' : World ν υ} {c : ConnId} {info : Option Nat} {e : Option Err}
    (h : createSession srv w c info = .ok (w', e)) : Kept w w' := by
  rcases createSession_ok h with ⟨_, rfl, _⟩ | ⟨_, _, rfl, _⟩ | ⟨_, _, _, rfl, _⟩ |
    ⟨_, _, _, user, s, w1, en, hns, hn, hrest⟩
  · rfl
  · rfl
  · rfl
  · have h1 : Kept w w1 := by
      rcases notifySessionCreated_ok hn with ⟨rfl, _⟩ | ⟨bs, _, h⟩
      · rfl
      · exact (Same.withWriter h).closed
    rcases hrest with ⟨er, _, rfl, _⟩ | ⟨_, _, w2, er, hr, rfl⟩
    · exact h1
    · obtain ⟨s', hs', rfl, _⟩ := register_ok hr
      exact h1.trans (Kept.log { setSession w1 c (some s) with
        registry := (registryAdd srv.maxConns w1.registry s'.key c).1
        user := (srv.hooks.onSessionCreated w1.user c s).1 } (.onSessionCreated c s.key) (by simp))

theorem Kept.runApi {w w' : World ν υ} {a : ApiCall} (ha : ¬ Closing a) (h : runApi srv w a = .ok w') : Kept w w' := by
  cases a with
  | signal c name enc payload =>
    obtain ⟨b, h⟩ := map_fst_ok h
    rcases signal_ok h with ⟨rfl, _⟩ | h
    · rfl
    · exact (Same.withWriter h).closed
  | createSession c info => obtain ⟨b, h⟩ := map_fst_ok h; exact Kept.createSession h
  | closeSession c => exact absurd trivial ha
  | close c => exact Kept.connClose h
  | srvCloseSession k o => exact absurd trivial ha

theorem Kept.runApis {as : List ApiCall} : ∀ {w w' : World ν υ}, (∀ a ∈ as, ¬ Closing a) →
    runApis srv w as = .ok w' → Kept w w' := by
  induction as with
  | nil => intro w w' _ h; simp only [Webwire.runApis, Except.ok.injEq] at h; subst h; rfl
  | cons a as ih =>
    intro w w' ha h
    unfold Webwire.runApis at h
    obtain ⟨w1, h1, h⟩ := bind_ok h
    exact (Kept.runApi (ha a (by simp)) h1).trans (ih (fun b hb => ha b (by simp [hb])) h)

theorem Kept.deregisterHandler {w w' : World ν υ} {c : ConnId} (h : deregisterHandler srv w c = .ok w') :
    Kept w w' := by
  obtain ⟨_, w1, h1, _, rfl⟩ := deregisterHandler_ok h
  have h2 : Kept w w1 := by
    rcases deregisterTask_ok h1 with ⟨_, _, h⟩ | ⟨_, rfl⟩
    · exact Kept.unlink (w := (opsDone w).upd c fun con => { con with tasks := con.tasks - 1 }) h
    · rfl
  exact h2

theorem Kept.release (w : World ν υ) : Kept w (releaseMsg w) := Kept.log _ _ (by simp)

theorem Kept.disconnect {w w' : World ν υ} {c : ConnId} (hn : NeverCloses srv.hooks)
    (h : disconnect srv w c = .ok w') : Kept w w' := by
  obtain ⟨w1, h1, h2⟩ := disconnect_ok h
  exact ((Kept.release w).trans (Kept.connClose h1)).trans
    ((Kept.log w1 (.onClientDisconnected c) (by simp)).trans
      (Kept.runApis (w := { w1.log (.onClientDisconnected c) with user := (srv.hooks.onClientDisconnected w1.user c).1 })
        (hn.disconnected _ _) h2))

theorem Kept.handleSessionRestore {w w' : World ν υ} {c : ConnId} {m : Msg}
    (h : handleSessionRestore srv w c m = .ok w') : Kept w w' := by
  obtain ⟨w2, w3, hk, hd, rfl⟩ := handleSessionRestore_ok h
  have h1 : Kept w w2 := by
    have hl : Kept w (lookedUp srv w (m.payload.data.view m.buf)) :=
      Kept.log { w with user := (srv.hooks.onSessionLookup w.user (m.payload.data.view m.buf)).1 } _ (by simp)
    rcases hk with ⟨_, h⟩ | ⟨_, _, h⟩ | ⟨_, _, _, h⟩ | ⟨_, _, _, h⟩ | ⟨r, _, _, _, _, h⟩ |
      ⟨r, encoded, w1, _, _, _, _, hr, h⟩
    · exact (Same.failMsg h).kept
    · exact (Same.failMsg h).kept
    · exact hl.trans (Same.failMsg h).kept
    · exact hl.trans (Same.failMsg h).kept
    · exact hl.trans (Same.failMsg h).kept
    · obtain ⟨s, _, rfl, _⟩ := register_ok hr
      exact hl.trans (Same.fulfillMsg h).kept
  exact (h1.trans (Kept.deregisterHandler hd)).trans (Kept.release _)

theorem Kept.handleMessage {w w' : World ν υ} {c : ConnId} {m : Msg} (hn : NeverCloses srv.hooks)
    (ht : m.msgType ≠ 31) (h : handleMessage srv w c m = .ok w') : Kept w w' := by
  rcases handleMessage_ok h with ⟨_, rfl⟩ | ⟨_, w1, b, hr, hb⟩
  · exact Kept.release _
  · have h1 : Kept w w1 := by
      rcases registerHandler_ok hr with ⟨_, rfl, _⟩ | ⟨_, _, ⟨_, _, _, hf⟩ | ⟨_, _, rfl⟩⟩
      · rfl
      · obtain ⟨net, net', e, _, _, rfl⟩ := failMsgShutdown_ok hf
        exact Kept.log { slotTaken w c with net := net' } _ (by simp)
      · rfl
    rcases hb with ⟨_, rfl⟩ | ⟨_, ⟨_, hh⟩ | ⟨_, hh⟩ | ⟨_, hh⟩ | ⟨hx, _⟩ | ⟨_, w2, hd, rfl⟩⟩
    · exact h1.trans (Kept.release _)
    · obtain ⟨w2, w3, ha, hd, rfl⟩ := handleSignal_ok hh
      refine h1.trans (((Kept.log w1 (.onSignal c (m.name.view m.buf) m.payload.encoding (m.payload.data.view m.buf)) (by simp)).trans ?_).trans ((Kept.deregisterHandler hd).trans (Kept.release _)))
      · exact Kept.runApis (w := { w1.log (.onSignal c (m.name.view m.buf) m.payload.encoding
          (m.payload.data.view m.buf)) with user := (srv.hooks.onSignal w1.user c m).1 }) (hn.signal _ _ _) ha
    · obtain ⟨w2, w3, w4, ha, hf, hd, rfl⟩ := handleRequest_ok hh
      have hf' : Kept w2 w3 := by
        rcases hf with ⟨_, hf⟩ | ⟨_, hf⟩
        · exact (Same.fulfillMsg hf).kept
        · exact (Same.failMsg hf).kept
      refine h1.trans (((Kept.log w1 (.onRequest c m.ident (m.name.view m.buf) m.payload.encoding (m.payload.data.view m.buf)) (by simp)).trans ?_).trans (hf'.trans ((Kept.deregisterHandler hd).trans (Kept.release _))))
      · exact Kept.runApis (w := { w1.log (.onRequest c m.ident (m.name.view m.buf) m.payload.encoding
          (m.payload.data.view m.buf)) with user := (srv.hooks.onRequest w1.user c m).1 }) (hn.request _ _ _) ha
    · exact h1.trans (Kept.handleSessionRestore hh)
    · exact absurd hx ht
    · exact h1.trans ((Kept.deregisterHandler hd).trans (Kept.release _))

end Webwire
