import Verif.Proofs.Reply
import Verif.Spec.Session

/-!
Helper lemmas: a principle to show that everything the server does respects a given relation between worlds
(an invariant, a growing set of sent messages, ...), from the primitive steps.
-/

set_option autoImplicit false

namespace Webwire
open Spec

variable {ν υ : Type}

/-- Events logged outside of `deregister`. -/
def LogOk (srv : Server ν υ) : Ev → Prop
  | .onSessionClosed _ => False
  | .onSessionCreated _ _ => srv.sessionsEnabled = true
  | .onSessionLookup _ => srv.sessionsEnabled = true
  | _ => True

/-- `R` holds for each primitive step of the server. With `ow` false, restorations only happen on connections
without a session. -/
structure Frame (srv : Server ν υ) (R : World ν υ → World ν υ → Prop) (ow : Bool := true) : Prop where
  refl : ∀ w, R w w
  trans : ∀ {w w' w''}, R w w' → R w' w'' → R w w''
  getWriter : ∀ w c net e, srv.sock.getWriter w.net c = .ok (net, e) → R w { w with net := net }
  write : ∀ w c b net e, (srv.sock.writer c).write w.net b = .ok (net, e) → R w { w with net := net }
  flush : ∀ w c net e, (srv.sock.writer c).close w.net = .ok (net, e) → R w { w with net := net }
  close : ∀ w c net e, (w.conns c).isActive = false → srv.sock.close w.net c = .ok (net, e) → R w { w with net := net }
  generate : ∀ w, R w { w with user := (srv.hooks.generateKey w.user).1 }
  event : ∀ w e u, LogOk srv e → Called srv.hooks w.user e u → R w ({ w with user := u }.log e)
  conn : ∀ w c f, (∀ x, (f x).session = x.session ∧ ((f x).isActive = true → x.isActive = true) ∧
    (f x).limit = x.limit) → R w (w.upd c f)
  ops : ∀ w a b, R w { w with currentOps := a, rdyClosed := b }
  leave : ∀ w c d w1 n, (d = true → srv.sessionsEnabled = true) → deregister srv w c d = .ok (w1, n) →
    R w (setSession w1 c none)
  create : ∀ w w1 c s w2 e, srv.sessionsEnabled = true → (w.conns c).session = none →
    s.key = (srv.hooks.generateKey w.user).2 → R w w1 → w1.registry = w.registry → w1.conns = w.conns →
    w1.user = (srv.hooks.generateKey w.user).1 → register srv (setSession w1 c (some s)) c = .ok (w2, e) → R w w2
  restore : ∀ w c s w1, srv.sessionsEnabled = true → ¬ tooMany srv w s.key →
    (ow = false → (w.conns c).session = none) →
    (∃ u r, srv.hooks.onSessionLookup u s.key = (w.user, .ok (some r))) →
    register srv (setSession w c (some s)) c = .ok (w1, none) → R w w1

variable {srv : Server ν υ} {R : World ν υ → World ν υ → Prop} {ow : Bool}

/-- What a hook did is a step of the user's code. -/
theorem called_step {hooks : Hooks υ} {u u' : υ} {e : Ev} (h : Called hooks u e u') : u' = u ∨ UserStep hooks u u' := by
  cases e with
  | onClientConnected c => right; rw [show u' = _ from h]; exact .connected _ _
  | onClientDisconnected c => right; rw [show u' = _ from h]; exact .disconnected _ _
  | onSignal c name enc payload => obtain ⟨m, _, _, _, rfl⟩ := h; exact .inr (.signal _ _ _)
  | onRequest c ident name enc payload => obtain ⟨m, _, _, _, _, rfl⟩ := h; exact .inr (.request _ _ _)
  | onSessionCreated c key => obtain ⟨s, _, rfl⟩ := h; exact .inr (.created _ _ _)
  | onSessionLookup key => right; rw [show u' = _ from h]; exact .lookup _ _
  | onSessionClosed key => right; rw [show u' = _ from h]; exact .closed _ _
  | sent c => exact .inl h
  | sockClose c => exact .inl h
  | msgClose => exact .inl h

/-- Events that run no user code. -/
theorem Frame.log (F : Frame srv R ow) (w : World ν υ) (e : Ev) (he : LogOk srv e)
    (hc : Called srv.hooks w.user e w.user) : R w (w.log e) := F.event w e w.user he hc

theorem Frame.closeWith (F : Frame srv R ow) {w : World ν υ} {c : ConnId} {net : ν} {er : Err} {e : Option Err}
    (h : closeWith (srv.sock.writer c) w.net er = .ok (net, e)) : R w { w with net := net } := by
  unfold Webwire.closeWith at h
  obtain ⟨⟨s, ce⟩, h1, h⟩ := bind_ok h
  have : net = s := by
    cases ce <;> simp only [pure, Except.pure, Except.ok.injEq, Prod.mk.injEq] at h <;> exact h.1.symm
  rw [this]
  exact F.flush w c s ce h1

theorem Frame.runParts (F : Frame srv R ow) {c : ConnId} {parts : List Bytes} : ∀ {w : World ν υ} {net : ν}
    {e : Option Err}, runParts (srv.sock.writer c) w.net parts = .ok (net, e) → R w { w with net := net } := by
  induction parts with
  | nil => exact fun h => F.flush _ c _ _ h
  | cons p ps ih =>
    intro w net e h
    unfold Webwire.runParts writePart at h
    obtain ⟨⟨s, er⟩, h1, h⟩ := bind_ok h
    refine F.trans (F.write w c p s er h1) ?_
    cases er with
    | none => exact ih (w := { w with net := s }) h
    | some er => exact F.closeWith (w := { w with net := s }) h

theorem Frame.call (F : Frame srv R ow) {w : World ν υ} {c : ConnId} {call : WriterCall} {net : ν} {e : Option Err}
    (hp : ¬ call.Panics) (h : call.run (srv.sock.writer c) w.net = .ok (net, e)) : R w { w with net := net } := by
  by_cases hv : call.Valid
  · obtain ⟨parts, h1, _⟩ := call_valid (srv.sock.writer c) w.net call hv hp
    rw [h1] at h
    exact F.runParts h
  · obtain ⟨er, h1⟩ := call_invalid (srv.sock.writer c) w.net call hv
    rw [h1] at h
    exact F.closeWith h

theorem Frame.withWriter (F : Frame srv R ow) {w w' : World ν υ} {c : ConnId} {call : WriterCall} {e : Option Err}
    (hp : ¬ call.Panics) (h : withWriter srv w c (fun wr s => call.run wr s) = .ok (w', e)) : R w w' := by
  rcases withWriter_ok h with ⟨net, er, hg, rfl, _⟩ | ⟨net, net', hg, hf, rfl⟩
  · exact F.getWriter w c net _ hg
  · exact F.trans (F.getWriter w c net _ hg) (F.trans (F.call (w := { w with net := net }) hp hf) (F.log _ _ trivial rfl))

theorem Frame.signal (F : Frame srv R ow) {w w' : World ν υ} {c : ConnId} {name : Bytes} {enc : Encoding}
    {payload : Bytes} {e : Option Err} (h : signal srv w c name enc payload = .ok (w', e)) : R w w' := by
  rcases signal_ok h with ⟨rfl, _⟩ | h
  · exact F.refl _
  · exact F.withWriter (call := .signal name enc payload true) (by simp [WriterCall.Panics]) h

theorem notifySessionCreated_conns {w w' : World ν υ} {c : ConnId} {s : Session} {e : Option Err}
    (h : notifySessionCreated srv w c s = .ok (w', e)) : w'.conns = w.conns := by
  rcases notifySessionCreated_ok h with ⟨rfl, _⟩ | ⟨bs, _, h⟩
  · rfl
  · rcases withWriter_ok h with ⟨net, er, hg, rfl, _⟩ | ⟨net, net', hg, hf, rfl⟩ <;> rfl

theorem notifySessionCreated_same {w w' : World ν υ} {c : ConnId} {s : Session} {e : Option Err}
    (h : notifySessionCreated srv w c s = .ok (w', e)) : w'.registry = w.registry ∧ w'.user = w.user := by
  rcases notifySessionCreated_ok h with ⟨rfl, _⟩ | ⟨bs, _, h⟩
  · exact ⟨rfl, rfl⟩
  · rcases withWriter_ok h with ⟨net, er, hg, rfl, _⟩ | ⟨net, net', hg, hf, rfl⟩ <;> exact ⟨rfl, rfl⟩

theorem Frame.createSession (F : Frame srv R ow) {w w' : World ν υ} {c : ConnId} {info : Option Nat}
    {e : Option Err} (h : createSession srv w c info = .ok (w', e)) : R w w' := by
  rcases createSession_ok h with ⟨_, rfl, _⟩ | ⟨_, _, rfl, _⟩ | ⟨_, _, _, rfl, _⟩ |
    ⟨hse, _, hnone, user, s, w1, en, hns, hn, hrest⟩
  · exact F.refl _
  · exact F.refl _
  · exact F.refl _
  · obtain ⟨_, hk, hu, _, _, _⟩ := newSession_ok hns
    have h1 : R w w1 := by
      refine F.trans (w' := { w with user := user }) (by rw [hu]; exact F.generate w) ?_
      rcases notifySessionCreated_ok hn with ⟨rfl, _⟩ | ⟨bs, _, h⟩
      · exact F.refl _
      · exact F.withWriter (call := .sessionCreated bs) (by simp [WriterCall.Panics]) h
    rcases hrest with ⟨er, _, rfl, _⟩ | ⟨_, _, w2, er, hr, rfl⟩
    · exact h1
    · obtain ⟨e1, e2⟩ := notifySessionCreated_same hn
      refine F.trans (F.create w w1 c s w2 er hse hnone hk h1 e1 (notifySessionCreated_conns (w := { w with user := user }) hn) (by rw [e2, hu]) hr) ?_
      exact F.event w2 (.onSessionCreated c s.key) _ hse ⟨s, rfl, rfl⟩

theorem Frame.closeSession (F : Frame srv R ow) {w w' : World ν υ} {c : ConnId} {e : Option Err}
    (h : closeSession srv w c = .ok (w', e)) : R w w' := by
  rcases closeSession_ok h with ⟨_, rfl, _⟩ | ⟨_, _, rfl, _⟩ | ⟨hse, _, w1, n, hd, hw⟩
  · exact F.refl _
  · exact F.refl _
  · exact F.trans (F.leave w c true w1 n (fun _ => hse) hd)
      (F.withWriter (call := .sessionClosed) (by simp [WriterCall.Panics]) hw)

theorem Frame.closeSessions (F : Frame srv R ow) {cs : List ConnId} : ∀ {w w' : World ν υ} {es : List (Option Err)},
    closeSessions srv w cs = .ok (w', es) → R w w' := by
  induction cs with
  | nil =>
    intro w w' es h
    rw [(closeSessions_nil h).1]
    exact F.refl _
  | cons c cs ih =>
    intro w w' es h
    obtain ⟨w1, e, es', h1, h2, _⟩ := closeSessions_cons h
    exact F.trans (F.closeSession h1) (ih h2)

theorem deregister_conns {w w' : World ν υ} {c : ConnId} {d : Bool} {n : Int}
    (h : deregister srv w c d = .ok (w', n)) : w'.conns = w.conns := by
  rcases deregister_ok h with ⟨_, rfl, _⟩ | ⟨s, _, _, ⟨_, rfl⟩ | ⟨_, _, _, rfl⟩⟩ <;> rfl

theorem Frame.unlink (F : Frame srv R ow) {w w' : World ν υ} {c : ConnId} (ha : (w.conns c).isActive = false)
    (h : unlink srv w c = .ok w') : R w w' := by
  obtain ⟨w1, n, net, e, hd, hc, rfl⟩ := unlink_ok h
  have ha' : ((setSession w1 c none).conns c).isActive = false := by
    simp only [setSession, World.upd, if_true]
    rw [deregister_conns hd]; exact ha
  exact F.trans (F.leave w c false w1 n (by simp) hd) (F.trans (F.close (setSession w1 c none) c net e ha' hc) (F.log _ _ trivial rfl))

theorem Frame.connClose (F : Frame srv R ow) {w w' : World ν υ} {c : ConnId} (h : connClose srv w c = .ok w') :
    R w w' := by
  have hd : R w (w.upd c fun con => { con with isActive := false }) :=
    F.conn w c _ fun _ => ⟨rfl, by simp, rfl⟩
  rcases connClose_ok h with ⟨_, rfl⟩ | ⟨_, ⟨ht, h⟩ | ⟨_, rfl⟩⟩
  · exact F.refl _
  · exact F.trans hd (F.unlink (by simp [World.upd]) h)
  · exact hd

theorem Frame.srvCloseSession (F : Frame srv R ow) {w w' : World ν υ} {key : Bytes} {order : List ConnId} {r}
    (h : srvCloseSession srv w key order = .ok (w', r)) : R w w' := by
  rcases srvCloseSession_ok h with ⟨_, rfl, _⟩ | ⟨_, _, _, _, _, _, h, _⟩
  · exact F.refl _
  · exact F.closeSessions h

theorem Frame.runApi (F : Frame srv R ow) {w w' : World ν υ} {a : ApiCall} (h : runApi srv w a = .ok w') : R w w' := by
  cases a with
  | signal c name enc payload => obtain ⟨b, h⟩ := map_fst_ok h; exact F.signal h
  | createSession c info => obtain ⟨b, h⟩ := map_fst_ok h; exact F.createSession h
  | closeSession c => obtain ⟨b, h⟩ := map_fst_ok h; exact F.closeSession h
  | close c => exact F.connClose h
  | srvCloseSession key order => obtain ⟨b, h⟩ := map_fst_ok h; exact F.srvCloseSession h

theorem Frame.runApis (F : Frame srv R ow) {as : List ApiCall} : ∀ {w w' : World ν υ},
    runApis srv w as = .ok w' → R w w' := by
  induction as with
  | nil =>
    intro w w' h
    simp only [Webwire.runApis, Except.ok.injEq] at h
    rw [← h]; exact F.refl _
  | cons a as ih =>
    intro w w' h
    obtain ⟨w1, h1, h2⟩ := runApis_cons h
    exact F.trans (F.runApi h1) (ih h2)

theorem Frame.fulfillMsg (F : Frame srv R ow) {w w' : World ν υ} {c : ConnId} {m : Msg} {enc : Encoding}
    {payload : Bytes} (h : fulfillMsg srv w c m enc payload = .ok w') : R w w' := by
  obtain ⟨e, h⟩ := fulfillMsg_ok h
  exact F.withWriter (call := .reply m.identifierBytes enc payload) (by simp [WriterCall.Panics]) h

theorem Frame.failMsg (F : Frame srv R ow) {w w' : World ν υ} {c : ConnId} {m : Msg} {re : ReplyErr}
    (h : failMsg srv w c m re = .ok w') : R w w' := by
  rcases failMsg_ok h with ⟨_, rfl⟩ | ⟨_, ⟨e, code, text, _, h⟩ | ⟨_, _, _, _, rfl⟩ | ⟨_, _, _, h⟩⟩
  · exact F.refl _
  · exact F.withWriter (call := .errorReply m.identifierBytes code text true) (by simp [WriterCall.Panics]) h
  · exact F.refl _
  · exact F.withWriter (call := .special (specialFor re) m.identifierBytes) (by simp [WriterCall.Panics]) h

theorem Frame.failMsgShutdown (F : Frame srv R ow) {w w' : World ν υ} {c : ConnId} {m : Msg}
    (h : failMsgShutdown srv w c m = .ok w') : R w w' := by
  obtain ⟨net, net', e, hg, hf, rfl⟩ := failMsgShutdown_ok h
  exact F.trans (F.getWriter w c net _ hg) (F.trans
    (F.call (w := { w with net := net }) (call := .special MsgReplyShutdown m.identifierBytes)
      (by simp [WriterCall.Panics]) hf) (F.log _ _ trivial rfl))

theorem Frame.slotTaken (F : Frame srv R ow) (w : World ν υ) (c : ConnId) : R w (slotTaken w c) :=
  F.conn w c _ fun _ => ⟨rfl, id, rfl⟩

theorem Frame.registered (F : Frame srv R ow) (w : World ν υ) (c : ConnId) : R w (registered w c) := by
  have e : Webwire.registered w c = ({ Webwire.slotTaken w c with
      currentOps := (Webwire.registered w c).currentOps
      rdyClosed := w.rdyClosed }).upd c fun con => { con with tasks := con.tasks + 1 } := rfl
  rw [e]
  exact F.trans (F.slotTaken w c) (F.trans (F.ops _ _ _) (F.conn _ c _ fun _ => ⟨rfl, id, rfl⟩))

theorem Frame.registerHandler (F : Frame srv R ow) {w w' : World ν υ} {c : ConnId} {m : Msg} {b : Bool}
    (h : registerHandler srv w c m = .ok (w', b)) : R w w' := by
  rcases registerHandler_ok h with ⟨_, rfl, _⟩ | ⟨_, _, ⟨_, _, _, hf⟩ | ⟨_, _, rfl⟩⟩
  · exact F.refl _
  · exact F.trans (F.slotTaken w c) (F.failMsgShutdown hf)
  · exact F.registered w c

theorem Frame.deregisterHandler (F : Frame srv R ow) {w w' : World ν υ} {c : ConnId}
    (h : deregisterHandler srv w c = .ok w') : R w w' := by
  obtain ⟨_, w1, h1, _, rfl⟩ := deregisterHandler_ok h
  have h0 : R w (opsDone w) := F.ops w _ _
  refine F.trans h0 (F.trans ?_ (F.conn w1 c _ fun _ => ⟨rfl, id, rfl⟩))
  rcases deregisterTask_ok h1 with ⟨ha, _, h1⟩ | ⟨_, rfl⟩
  · exact F.trans (F.conn (opsDone w) c (fun con => { con with tasks := con.tasks - 1 }) fun _ => ⟨rfl, id, rfl⟩) 
      (F.unlink (by simpa [World.upd] using ha) h1)
  · exact F.conn _ c _ fun _ => ⟨rfl, id, rfl⟩

theorem Frame.release (F : Frame srv R ow) (w : World ν υ) : R w (releaseMsg w) := F.log w _ trivial rfl

theorem Frame.hook (F : Frame srv R ow) (w : World ν υ) (e : Ev) (u : υ) (he : LogOk srv e)
    (hu : Called srv.hooks w.user e u) : R w { w.log e with user := u } := F.event w e u he hu

theorem Frame.handleSignal (F : Frame srv R ow) {w w' : World ν υ} {c : ConnId} {m : Msg}
    (h : handleSignal srv w c m = .ok w') : R w w' := by
  obtain ⟨w1, w2, hr, hd, rfl⟩ := handleSignal_ok h
  exact F.trans (F.hook w (.onSignal c _ _ _) _ trivial ⟨m, rfl, rfl, rfl, rfl⟩)
    (F.trans (F.runApis hr) (F.trans (F.deregisterHandler hd) (F.release w2)))

theorem Frame.handleRequest (F : Frame srv R ow) {w w' : World ν υ} {c : ConnId} {m : Msg}
    (h : handleRequest srv w c m = .ok w') : R w w' := by
  obtain ⟨w1, w2, w3, hr, hf, hd, rfl⟩ := handleRequest_ok h
  refine F.trans (F.hook w (.onRequest c _ _ _ _) _ trivial ⟨m, rfl, rfl, rfl, rfl, rfl⟩)
    (F.trans (F.runApis hr) (F.trans ?_ (F.trans (F.deregisterHandler hd) (F.release w3))))
  rcases hf with ⟨_, hf⟩ | ⟨_, hf⟩
  · exact F.fulfillMsg hf
  · exact F.failMsg hf

theorem Frame.handleSessionClosure (F : Frame srv R ow) {w w' : World ν υ} {c : ConnId} {m : Msg}
    (h : handleSessionClosure srv w c m = .ok w') : R w w' := by
  obtain ⟨w2, w3, hc, hd, rfl⟩ := handleSessionClosure_ok h
  refine F.trans ?_ (F.trans (F.deregisterHandler hd) (F.release w3))
  rcases hc with ⟨_, h⟩ | ⟨_, _, h⟩ | ⟨hse, _, w1, n, hdr, h⟩
  · exact F.failMsg h
  · exact F.fulfillMsg h
  · exact F.trans (F.leave w c true w1 n (fun _ => hse) hdr) (F.fulfillMsg h)

theorem Frame.lookedUp (F : Frame srv R ow) (hse : srv.sessionsEnabled = true) (w : World ν υ) (key : Bytes) :
    R w (lookedUp srv w key) :=
  F.event w (.onSessionLookup key) _ hse rfl

theorem Frame.handleSessionRestore (F : Frame srv R ow) {w w' : World ν υ} {c : ConnId} {m : Msg}
    (hn : ow = false → (w.conns c).session = none)
    (h : handleSessionRestore srv w c m = .ok w') : R w w' := by
  obtain ⟨w2, w3, hc, hd, rfl⟩ := handleSessionRestore_ok h
  refine F.trans ?_ (F.trans (F.deregisterHandler hd) (F.release w3))
  rcases hc with ⟨_, h⟩ | ⟨_, _, h⟩ | ⟨hse, _, _, h⟩ | ⟨hse, _, _, h⟩ | ⟨r, hse, _, _, _, h⟩ |
    ⟨r, encoded, w1, hse, htm, hl, _, hr, h⟩
  · exact F.failMsg h
  · exact F.failMsg h
  · exact F.trans (F.lookedUp hse w _) (F.failMsg h)
  · exact F.trans (F.lookedUp hse w _) (F.failMsg h)
  · exact F.trans (F.lookedUp hse w _) (F.failMsg h)
  · exact F.trans (F.lookedUp hse w _) (F.trans (F.restore (Webwire.lookedUp srv w (m.payload.data.view m.buf)) c
      (restored srv.hooks (m.payload.data.view m.buf) r) w1 hse htm hn ⟨w.user, r, Prod.ext rfl hl⟩ hr) (F.fulfillMsg h))

/-- The message is no restoration on a connection that has a session (unless that is allowed). -/
def RestoreOk (ow : Bool) (w : World ν υ) (c : ConnId) (m : Msg) : Prop :=
  ow = false → m.msgType = MsgRequestRestoreSession → (w.conns c).session = none

theorem Frame.handleMessage (F : Frame srv R ow) {w w' : World ν υ} {c : ConnId} {m : Msg}
    (hn : RestoreOk ow w c m)
    (h : handleMessage srv w c m = .ok w') : R w w' := by
  rcases handleMessage_ok h with ⟨_, rfl⟩ | ⟨_, w1, b, hr, hb⟩
  · exact F.release w
  · refine F.trans (F.registerHandler hr) ?_
    rcases hb with ⟨_, rfl⟩ | ⟨hb, ⟨_, h⟩ | ⟨_, h⟩ | ⟨ht, h⟩ | ⟨_, h⟩ | ⟨_, w2, hd, rfl⟩⟩
    · exact F.release w1
    · exact F.handleSignal h
    · exact F.handleRequest h
    · refine F.handleSessionRestore (fun ho => ?_) h
      have := hn ho ht
      rcases registerHandler_ok hr with ⟨_, _, h3⟩ | ⟨_, _, ⟨_, _, h3, _⟩ | ⟨_, _, rfl⟩⟩
      · rw [hb] at h3; cases h3
      · rw [hb] at h3; cases h3
      · simpa [Webwire.registered, Webwire.slotTaken, registerTask, World.upd] using this
    · exact F.handleSessionClosure h
    · exact F.trans (F.deregisterHandler hd) (F.release w2)

theorem Frame.disconnect (F : Frame srv R ow) {w w' : World ν υ} {c : ConnId} (h : disconnect srv w c = .ok w') :
    R w w' := by
  unfold Webwire.disconnect at h
  obtain ⟨w1, h1, h⟩ := bind_ok h
  exact F.trans (F.release w) (F.trans (F.connClose h1) (F.trans (F.hook w1 (.onClientDisconnected c) _ trivial rfl)
    (F.runApis h)))

theorem Frame.serve (F : Frame srv R) {c : ConnId} {input : List Incoming} : ∀ {w w' : World ν υ},
    serve srv w c input = .ok w' → R w w' := by
  induction input with
  | nil =>
    intro w w' h
    simp only [Webwire.serve, Except.ok.injEq] at h
    rw [← h]; exact F.refl _
  | cons i rest ih =>
    intro w w' h
    cases i with
    | failed b => exact F.disconnect h
    | data bs =>
      unfold Webwire.serve at h
      obtain ⟨⟨m, tp, e⟩, h1, h⟩ := bind_ok h
      by_cases hc : e ≠ none ∨ tp = false
      · simp only [if_pos hc] at h
        exact F.disconnect h
      · simp only [if_neg hc] at h
        obtain ⟨w1, h2, h⟩ := bind_ok h
        exact F.trans (F.handleMessage (fun h => by cases h) h2) (ih h)

/-- One incoming message that is no restoration, or arrives on a connection without a session. -/
theorem Frame.serve1 (F : Frame srv R ow) {c : ConnId} {i : Incoming} {w w' : World ν υ}
    (hn : (w.conns c).session = none ∨ ∀ rest, i ≠ .data (MsgRequestRestoreSession :: rest))
    (h : Webwire.serve srv w c [i] = .ok w') : R w w' := by
  cases i with
  | failed b => exact F.disconnect h
  | data bs =>
    by_cases hg : ∃ v, Grammar bs v ∧ bs.length ≤ srv.bufferSize.toNat
    · obtain ⟨v, hg, hfit⟩ := hg
      obtain ⟨m, h1, _, _, _, h5⟩ := serve_grammar_any (srv := srv) (c := c) hg hfit
      rw [h5] at h
      obtain ⟨w1, h2, h⟩ := bind_ok h
      simp only [Webwire.serve, Except.ok.injEq] at h
      subst h
      refine F.handleMessage (fun _ ht => ?_) h2
      rcases hn with hn | hn
      · exact hn
      · exfalso
        have et : v.msgType = MsgRequestRestoreSession := by rw [← h1, ← ht]; rfl
        cases hg <;> simp_all
    · rw [serve_malformed fun hf ⟨v, hv⟩ => hg ⟨v, hv, hf⟩] at h
      exact F.disconnect h

end Webwire
