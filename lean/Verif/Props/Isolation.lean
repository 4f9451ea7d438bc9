import Verif.Props.Session2
import Verif.Props.Reply

/-!
# Clients do not affect each other (C77), and who is told of the end of a session (C78)
-/

set_option autoImplicit false

namespace Webwire
open Spec

variable {ν υ : Type} {srv : Server ν υ}

namespace Spec

/-- The network got from `n` to `n'` by operations on the socket of `c` alone. -/
inductive Touches (srv : Server ν υ) (c : ConnId) : ν → ν → Prop
  | refl (n) : Touches srv c n n
  | getWriter {n n' n'' e} : srv.sock.getWriter n c = .ok (n', e) → Touches srv c n' n'' → Touches srv c n n''
  | write {n n' n'' b e} : (srv.sock.writer c).write n b = .ok (n', e) → Touches srv c n' n'' → Touches srv c n n''
  | flush {n n' n'' e} : (srv.sock.writer c).close n = .ok (n', e) → Touches srv c n' n'' → Touches srv c n n''
  | close {n n' n'' e} : srv.sock.close n c = .ok (n', e) → Touches srv c n' n'' → Touches srv c n n''

/-- A call concerning the connection `c` only. -/
def About (c : ConnId) : ApiCall → Prop
  | .signal i _ _ _ => i = c
  | .createSession i _ => i = c
  | .closeSession i => i = c
  | .close i => i = c
  | .srvCloseSession _ _ => False

/-- Hooks that, called for `c`, make calls concerning `c` only. -/
structure Minds (h : Hooks υ) (c : ConnId) : Prop where
  connected : ∀ u, ∀ a ∈ (h.onClientConnected u c).2, About c a
  disconnected : ∀ u, ∀ a ∈ (h.onClientDisconnected u c).2, About c a
  signal : ∀ u m, ∀ a ∈ (h.onSignal u c m).2, About c a
  request : ∀ u m, ∀ a ∈ (h.onRequest u c m).2.calls, About c a

end Spec

theorem Spec.Touches.trans {c : ConnId} {n n' n'' : ν} (h : Touches srv c n n') (h' : Touches srv c n' n'') :
    Touches srv c n n'' := by
  induction h with
  | refl => exact h'
  | getWriter h _ ih => exact .getWriter h (ih h')
  | write h _ ih => exact .write h (ih h')
  | flush h _ ih => exact .flush h (ih h')
  | close h _ ih => exact .close h (ih h')

/-- Only `c` is concerned. -/
private structure Own (srv : Server ν υ) (c : ConnId) (w w' : World ν υ) : Prop where
  net : Touches srv c w.net w'.net
  conns : ∀ i, i ≠ c → w'.conns i = w.conns i

private theorem Own.refl (c : ConnId) (w : World ν υ) : Own srv c w w := ⟨.refl _, fun _ _ => rfl⟩

private theorem Own.trans {c : ConnId} {w w' w'' : World ν υ} (h : Own srv c w w') (h' : Own srv c w' w'') : Own srv c w w'' :=
  ⟨h.net.trans h'.net, fun i hi => (h'.conns i hi).trans (h.conns i hi)⟩

private theorem Own.same {c : ConnId} {w w' : World ν υ} (h : w'.net = w.net) (hc : w'.conns = w.conns) : Own srv c w w' :=
  ⟨by rw [h]; exact .refl _, fun _ _ => by rw [hc]⟩

private theorem Own.upd {c : ConnId} (w : World ν υ) (f : Conn → Conn) : Own srv c w (w.upd c f) :=
  ⟨.refl _, fun i hi => by simp [World.upd, hi]⟩

private theorem Own.setSession {c : ConnId} (w : World ν υ) (s : Option Session) : Own srv c w (setSession w c s) := .upd w _

private theorem touches_closeWith {c : ConnId} {n n' : ν} {er : Err} {e : Option Err}
    (h : closeWith (srv.sock.writer c) n er = .ok (n', e)) : Touches srv c n n' := by
  unfold Webwire.closeWith at h
  obtain ⟨⟨s, ce⟩, h1, h⟩ := bind_ok h
  have : n' = s := by
    cases ce <;> simp only [pure, Except.pure, Except.ok.injEq, Prod.mk.injEq] at h <;> exact h.1.symm
  rw [this]
  exact .flush h1 (.refl _)

private theorem touches_runParts {c : ConnId} {parts : List Bytes} : ∀ {n n' : ν} {e : Option Err},
    runParts (srv.sock.writer c) n parts = .ok (n', e) → Touches srv c n n' := by
  induction parts with
  | nil => exact fun h => .flush h (.refl _)
  | cons p ps ih =>
    intro n n' e h
    unfold Webwire.runParts writePart at h
    obtain ⟨⟨s, er⟩, h1, h⟩ := bind_ok h
    refine .write h1 ?_
    cases er with
    | none => exact ih h
    | some er => exact touches_closeWith h

private theorem touches_call {c : ConnId} {call : WriterCall} {n n' : ν} {e : Option Err}
    (hp : ¬ call.Panics) (h : call.run (srv.sock.writer c) n = .ok (n', e)) : Touches srv c n n' := by
  by_cases hv : call.Valid
  · obtain ⟨parts, h1, _⟩ := call_valid (srv.sock.writer c) n call hv hp
    rw [h1] at h
    exact touches_runParts h
  · obtain ⟨er, h1⟩ := call_invalid (srv.sock.writer c) n call hv
    rw [h1] at h
    exact touches_closeWith h

private theorem Own.withWriter {c : ConnId} {w w' : World ν υ} {call : WriterCall} {e : Option Err}
    (hp : ¬ call.Panics) (h : withWriter srv w c (fun wr s => call.run wr s) = .ok (w', e)) : Own srv c w w' := by
  rcases withWriter_ok h with ⟨net, er, hg, rfl, _⟩ | ⟨net, net', hg, hf, rfl⟩
  · exact ⟨.getWriter hg (.refl _), fun _ _ => rfl⟩
  · exact ⟨.getWriter hg (touches_call hp hf), fun _ _ => rfl⟩

private theorem Own.register {c : ConnId} {w w' : World ν υ} {e : Option Err} (h : register srv w c = .ok (w', e)) :
    Own srv c w w' := by
  obtain ⟨s, _, rfl, _⟩ := register_ok h
  exact .same rfl rfl

private theorem Own.deregister {c : ConnId} {w w' : World ν υ} {d : Bool} {n : Int}
    (h : deregister srv w c d = .ok (w', n)) : Own srv c w w' := by
  rcases deregister_ok h with ⟨_, rfl, _⟩ | ⟨s, _, _, ⟨_, rfl⟩ | ⟨_, _, _, rfl⟩⟩
  · exact .refl _ _
  · exact .same rfl rfl
  · exact .same rfl rfl

private theorem Own.unlink {c : ConnId} {w w' : World ν υ} (h : unlink srv w c = .ok w') : Own srv c w w' := by
  obtain ⟨w1, n, net, e, hd, hcl, rfl⟩ := unlink_ok h
  refine (Own.deregister hd).trans ((Own.setSession w1 none).trans ?_)
  exact ⟨.close hcl (.refl _), fun _ _ => rfl⟩

private theorem Own.connClose {c : ConnId} {w w' : World ν υ} (h : connClose srv w c = .ok w') : Own srv c w w' := by
  rcases connClose_ok h with ⟨_, rfl⟩ | ⟨_, ⟨_, h⟩ | ⟨_, rfl⟩⟩
  · exact .refl _ _
  · exact (Own.upd w _).trans (.unlink h)
  · exact .upd w _

private theorem Own.closeSession {c : ConnId} {w w' : World ν υ} {e : Option Err}
    (h : closeSession srv w c = .ok (w', e)) : Own srv c w w' := by
  rcases closeSession_ok h with ⟨_, rfl, _⟩ | ⟨_, _, rfl, _⟩ | ⟨_, _, w1, n, hd, hw⟩
  · exact .refl _ _
  · exact .refl _ _
  · exact ((Own.deregister hd).trans (.setSession _ _)).trans
      (.withWriter (call := .sessionClosed) (by simp [WriterCall.Panics]) hw)

private theorem Own.runApi {c : ConnId} {w w' : World ν υ} {a : ApiCall} (ha : About c a)
    (h : runApi srv w a = .ok w') : Own srv c w w' := by
  cases a with
  | signal i name enc payload =>
    obtain rfl : i = c := ha
    obtain ⟨b, h⟩ := map_fst_ok h
    rcases signal_ok h with ⟨rfl, _⟩ | h
    · exact .refl _ _
    · exact .withWriter (call := .signal name enc payload true) (by simp [WriterCall.Panics]) h
  | createSession i info =>
    obtain rfl : i = c := ha
    obtain ⟨b, h⟩ := map_fst_ok h
    rcases createSession_ok h with ⟨_, rfl, _⟩ | ⟨_, _, rfl, _⟩ | ⟨_, _, _, rfl, _⟩ |
      ⟨_, _, _, user, s, w1, en, _, hn, hrest⟩
    · exact .refl _ _
    · exact .refl _ _
    · exact .refl _ _
    · have h1 : Own srv i w w1 := by
        rcases notifySessionCreated_ok hn with ⟨rfl, _⟩ | ⟨bs, _, hn⟩
        · exact .same rfl rfl
        · exact Own.trans (w' := { w with user := user }) (.same rfl rfl)
            (.withWriter (call := .sessionCreated bs) (by simp [WriterCall.Panics]) hn)
      rcases hrest with ⟨er, _, rfl, _⟩ | ⟨_, _, w2, er, hr, rfl⟩
      · exact h1
      · exact (h1.trans (.setSession _ _)).trans ((Own.register hr).trans (.same rfl rfl))
  | closeSession i =>
    obtain rfl : i = c := ha
    obtain ⟨b, h⟩ := map_fst_ok h
    exact .closeSession h
  | close i =>
    obtain rfl : i = c := ha
    exact .connClose h
  | srvCloseSession key order => exact ha.elim

private theorem Own.runApis {c : ConnId} {as : List ApiCall} : ∀ {w w' : World ν υ}, (∀ a ∈ as, About c a) →
    runApis srv w as = .ok w' → Own srv c w w' := by
  induction as with
  | nil =>
    intro w w' _ h
    simp only [Webwire.runApis, Except.ok.injEq] at h
    subst h
    exact .refl _ _
  | cons a as ih =>
    intro w w' ha h
    obtain ⟨w1, h1, h2⟩ := runApis_cons h
    exact (Own.runApi (ha a (by simp)) h1).trans (ih (fun b hb => ha b (by simp [hb])) h2)

private theorem Own.fulfillMsg {c : ConnId} {w w' : World ν υ} {m : Msg} {enc : Encoding}
    {payload : Bytes} (h : fulfillMsg srv w c m enc payload = .ok w') : Own srv c w w' := by
  obtain ⟨e, h⟩ := fulfillMsg_ok h
  exact .withWriter (call := .reply m.identifierBytes enc payload) (by simp [WriterCall.Panics]) h

private theorem Own.failMsg {c : ConnId} {w w' : World ν υ} {m : Msg} {re : ReplyErr}
    (h : failMsg srv w c m re = .ok w') : Own srv c w w' := by
  rcases failMsg_ok h with ⟨_, rfl⟩ | ⟨_, ⟨e, code, text, _, h⟩ | ⟨_, _, _, _, rfl⟩ | ⟨_, _, _, h⟩⟩
  · exact .refl _ _
  · exact .withWriter (call := .errorReply m.identifierBytes code text true) (by simp [WriterCall.Panics]) h
  · exact .refl _ _
  · exact .withWriter (call := .special (specialFor re) m.identifierBytes) (by simp [WriterCall.Panics]) h

private theorem Own.deregisterHandler {c : ConnId} {w w' : World ν υ} (h : deregisterHandler srv w c = .ok w') :
    Own srv c w w' := by
  obtain ⟨_, w1, h1, _, rfl⟩ := deregisterHandler_ok h
  refine Own.trans ?_ (.upd w1 _)
  refine Own.trans (w' := opsDone w) (.same rfl rfl) ?_
  rcases deregisterTask_ok h1 with ⟨_, _, hu⟩ | ⟨_, rfl⟩
  · exact (Own.upd _ _).trans (.unlink hu)
  · exact .upd _ _

private theorem Own.handleMessage {c : ConnId} {w w' : World ν υ} {m : Msg} (hm : Minds srv.hooks c)
    (h : handleMessage srv w c m = .ok w') : Own srv c w w' := by
  have hrel : ∀ {w1 : World ν υ}, Own srv c w w1 → Own srv c w (releaseMsg w1) := fun h => h.trans (.same rfl rfl)
  rcases handleMessage_ok h with ⟨_, rfl⟩ | ⟨_, w1, b, hr, hb⟩
  · exact hrel (.refl _ _)
  · rcases registerHandler_ok hr with ⟨_, rfl, rfl⟩ | ⟨ha, _, ⟨_, _, rfl, hf⟩ | ⟨_, rfl, rfl⟩⟩
    · rcases hb with ⟨_, rfl⟩ | ⟨hc, _⟩
      · exact hrel (.refl _ _)
      · cases hc
    · rcases hb with ⟨_, rfl⟩ | ⟨hc, _⟩
      · obtain ⟨net, net', e, hg, hw, rfl⟩ := failMsgShutdown_ok hf
        refine hrel ⟨.getWriter hg (touches_call (call := .special MsgReplyShutdown m.identifierBytes)
          (by simp [WriterCall.Panics]) hw), fun i hi => ?_⟩
        simp [World.log, slotTaken, World.upd, hi]
      · cases hc
    · rcases hb with ⟨hc, _⟩ | ⟨_, hb⟩
      · cases hc
      · have o1 : Own srv c w (registered w c) :=
          ⟨.refl _, fun i hi => by simp [registered, registerTask, World.upd, hi]⟩
        rcases hb with ⟨_, hh⟩ | ⟨_, hh⟩ | ⟨_, hh⟩ | ⟨_, hh⟩ | ⟨_, w2, hd, rfl⟩
        · obtain ⟨w2, w3, hr, hd, rfl⟩ := handleSignal_ok hh
          refine hrel (o1.trans (Own.trans ?_ (.deregisterHandler hd)))
          have o2 := Own.runApis (fun a => hm.signal _ _ a) hr
          exact ⟨o2.net, o2.conns⟩
        · obtain ⟨w2, w3, w4, hr, hf, hd, rfl⟩ := handleRequest_ok hh
          refine hrel (o1.trans (Own.trans ?_ (.deregisterHandler hd)))
          have o2 := Own.runApis (fun a => hm.request _ _ a) hr
          refine Own.trans (w' := w2) ⟨o2.net, o2.conns⟩ ?_
          rcases hf with ⟨_, hf⟩ | ⟨_, hf⟩
          · exact .fulfillMsg hf
          · exact .failMsg hf
        · obtain ⟨w2, w3, hc, hd, rfl⟩ := handleSessionRestore_ok hh
          have hlk : Own srv c (registered w c) (lookedUp srv (registered w c) (m.payload.data.view m.buf)) := .same rfl rfl
          refine hrel (o1.trans (Own.trans ?_ (.deregisterHandler hd)))
          rcases hc with ⟨_, h⟩ | ⟨_, _, h⟩ | ⟨_, _, _, h⟩ | ⟨_, _, _, h⟩ | ⟨r, _, _, _, _, h⟩ |
            ⟨r, encoded, w1, _, _, _, _, hr, h⟩
          · exact .failMsg h
          · exact .failMsg h
          · exact hlk.trans (.failMsg h)
          · exact hlk.trans (.failMsg h)
          · exact hlk.trans (.failMsg h)
          · exact hlk.trans ((Own.setSession _ _).trans ((Own.register hr).trans (.fulfillMsg h)))
        · obtain ⟨w2, w3, hc, hd, rfl⟩ := handleSessionClosure_ok hh
          refine hrel (o1.trans (Own.trans ?_ (.deregisterHandler hd)))
          rcases hc with ⟨_, h⟩ | ⟨_, _, h⟩ | ⟨_, _, w1, n, hd, h⟩
          · exact .failMsg h
          · exact .fulfillMsg h
          · exact (Own.deregister hd).trans ((Own.setSession _ _).trans (.fulfillMsg h))
        · exact hrel (o1.trans (.deregisterHandler hd))

private theorem Own.disconnect {c : ConnId} {w w' : World ν υ} (hm : Minds srv.hooks c)
    (h : disconnect srv w c = .ok w') : Own srv c w w' := by
  obtain ⟨w1, h1, h2⟩ := disconnect_ok h
  have o1 := Own.connClose h1
  have o2 := Own.runApis (fun a => hm.disconnected _ a) h2
  exact Own.trans (w' := w1) ⟨o1.net, o1.conns⟩ ⟨o2.net, o2.conns⟩

private theorem Own.serve {c : ConnId} {input : List Incoming} (hm : Minds srv.hooks c) : ∀ {w w' : World ν υ},
    serve srv w c input = .ok w' → Own srv c w w' := by
  induction input with
  | nil =>
    intro w w' h
    simp only [Webwire.serve, Except.ok.injEq] at h
    rw [← h]; exact .refl _ _
  | cons i rest ih =>
    intro w w' h
    cases i with
    | failed b => exact .disconnect hm h
    | data bs =>
      unfold Webwire.serve at h
      obtain ⟨⟨m, tp, e⟩, h1, h⟩ := bind_ok h
      dsimp only at h
      by_cases hc : e ≠ none ∨ tp = false
      · rw [if_pos hc] at h; exact .disconnect hm h
      · rw [if_neg hc] at h
        obtain ⟨w1, h2, h⟩ := bind_ok h
        exact (Own.handleMessage hm h2).trans (ih h)

/-! ## C77 -/

/-- C77: whatever a client sends and however its connection ends, the server works on that client's socket and connection alone,
as long as the hooks called for the client do not call methods of other connections. In particular other connections stay
open, keep their sessions and handler slots. -/
theorem C77_isolated (srv : Server ν υ) (w w' : World ν υ) (c : ConnId) (limit : Int) (input : List Incoming)
    (hm : Minds srv.hooks c) (h : handleConnection srv w c limit input = .ok w' ∨ serve srv w c input = .ok w') :
    Touches srv c w.net w'.net ∧ ∀ i, i ≠ c → w'.conns i = w.conns i := by
  have conf : ∀ {w1 : World ν υ} {e : Option Err}, writeConfMessage srv w c = .ok (w1, e) → Own srv c w w1 := by
    intro w1 e hw
    rcases withWriter_ok hw with ⟨net, er, hg, rfl, _⟩ | ⟨net, net', hg, hf, rfl⟩
    · exact ⟨.getWriter hg (.refl _), fun _ _ => rfl⟩
    · exact ⟨.getWriter hg (touches_runParts (parts := [srv.configMsg]) hf), fun _ _ => rfl⟩
  have key : Own srv c w w' := by
    rcases h with h | h
    · rcases handleConnection_ok h with ⟨w1, e, net, ce, hw, hc, rfl⟩ | ⟨w1, w2, hw, hr, hs⟩
      · exact (conf hw).trans ⟨.close hc (.refl _), fun _ _ => rfl⟩
      · refine (conf hw).trans (Own.trans ?_ ((Own.runApis (fun a => hm.connected _ a) hr).trans (.serve hm hs)))
        exact ⟨.refl _, fun i hi => by simp [accepted, World.log, World.upd, hi]⟩
    · exact .serve hm h
  exact ⟨key.net, key.conns⟩

/-- C77 on the in-memory network: other clients receive nothing and are not disconnected. -/
theorem C77_others_get_nothing (srv : Server Net υ) (hs : ideal srv) (w w' : World Net υ) (c : ConnId) (limit : Int)
    (input : List Incoming) (hm : Minds srv.hooks c)
    (h : handleConnection srv w c limit input = .ok w' ∨ serve srv w c input = .ok w') (i : ConnId) (hi : i ≠ c) :
    w'.net.out i = w.net.out i ∧ w'.net.connected i = w.net.connected i ∧ w'.conns i = w.conns i := by
  obtain ⟨ht, hc⟩ := C77_isolated srv w w' c limit input hm h
  have key : ∀ {n n' : Net}, Touches srv c n n' → n'.out i = n.out i ∧ n'.connected i = n.connected i := by
    intro n n' ht
    have e : srv.sock = idealSockets := hs
    induction ht with
    | refl => exact ⟨rfl, rfl⟩
    | getWriter h _ ih =>
      rw [e] at h
      simp only [netSockets] at h
      split at h <;> (simp only [Except.ok.injEq, Prod.mk.injEq] at h; rw [ih.1, ih.2, ← h.1]; exact ⟨rfl, rfl⟩)
    | write h _ ih =>
      rw [e] at h
      simp only [netSockets] at h
      split at h <;> (simp only [Except.ok.injEq, Prod.mk.injEq] at h; rw [ih.1, ih.2, ← h.1]; exact ⟨rfl, rfl⟩)
    | flush h _ ih =>
      rw [e] at h
      simp only [netSockets] at h
      split at h <;> (simp only [Except.ok.injEq, Prod.mk.injEq] at h; rw [ih.1, ih.2, ← h.1]; simp [hi])
    | close h _ ih =>
      rw [e] at h
      simp only [netSockets, Except.ok.injEq, Prod.mk.injEq] at h
      rw [ih.1, ih.2, ← h.1]
      simp [hi]
  exact ⟨(key ht).1, (key ht).2, hc i hi⟩

/-- C77, non-vacuity: client 1 makes its handler create and close a session and close the connection, and breaks off. -/
example : ∃ w', handleConnection (exServer { calls := [.createSession 1 none, .signal 1 [97] 0 [98], .close 1] })
      { net := {}, user := () } 1 0 [.data [127, 1,2,3,4,5,6,7,8, 1, 97], .failed false] = .ok w' ∧
    Minds (exServer { calls := [.createSession 1 none, .signal 1 [97] 0 [98], .close 1] }).hooks 1 ∧
    (w'.net.out 1).length = 4 ∧ w'.net.connected 1 = false ∧ w'.net.connected 2 = true :=
  ⟨_, rfl, by constructor <;> simp [exServer, exHooks, About], rfl, rfl, rfl⟩

/-! ## C78 -/

private theorem closed_notice {w w' : World Net υ} {c : ConnId} {e : Option Err} {srv : Server Net υ} (hs : ideal srv)
    (h0 : w.net.pending c = [])
    (h : withWriter srv w c (fun wr s => writeMsgNotifySessionClosed wr s) = .ok (w', e)) :
    (w.net.connected c = true → e = none ∧ w'.net = w.net.deliver c [22]) ∧
    (w.net.connected c = false → e ≠ none ∧ w'.net = w.net) := by
  rcases withWriter_ok h with ⟨net, er, hg, rfl, he⟩ | ⟨net, net', hg, hf, rfl⟩
  · rw [hs] at hg
    simp only [netSockets] at hg
    split_ifs at hg with hc
    · simp at hg
    · simp only [Except.ok.injEq, Prod.mk.injEq] at hg
      exact ⟨fun h => absurd h hc, fun _ => ⟨by rw [he]; simp, hg.1.symm⟩⟩
  · rw [hs] at hg hf
    simp only [netSockets] at hg
    split_ifs at hg with hc
    · simp only [Except.ok.injEq, Prod.mk.injEq] at hg
      rw [← hg.1] at hf
      have hi := call_ideal c w.net .sessionClosed trivial (by simp [WriterCall.Panics]) h0
      have hf' : WriterCall.run (idealSockets.writer c) w.net .sessionClosed = .ok (net', e) := hf
      rw [hi] at hf'
      simp only [Except.ok.injEq, Prod.mk.injEq] at hf'
      exact ⟨fun _ => ⟨hf'.2.symm, hf'.1.symm⟩, fun h => by rw [hc] at h; cases h⟩
    · simp at hg

/-- C78: `Connection.CloseSession` on an open connection with a session tells the client, by one message, that the session was
closed, and sends nothing to anybody else; on a connection that is gone it returns an error and nothing is sent. -/
theorem C78_close_session (srv : Server Net υ) (hs : ideal srv) (w w' : World Net υ) (c : ConnId) (s : Session)
    (e : Option Err) (hse : srv.sessionsEnabled = true) (hsn : (w.conns c).session = some s) (h0 : w.net.pending c = [])
    (h : closeSession srv w c = .ok (w', e)) :
    (w.net.connected c = true → e = none ∧ w'.net.out c = w.net.out c ++ [[22]]) ∧
    (w.net.connected c = false → e ≠ none ∧ w'.net.out c = w.net.out c) ∧
    ∀ i, i ≠ c → w'.net.out i = w.net.out i := by
  rcases closeSession_ok h with ⟨hx, _, _⟩ | ⟨_, hx, _, _⟩ | ⟨_, _, w1, n, hd, hw⟩
  · rw [hse] at hx; cases hx
  · rw [hsn] at hx; cases hx
  · have hn : (setSession w1 c none).net = w.net := by
      show w1.net = w.net
      rcases deregister_ok hd with ⟨_, rfl, _⟩ | ⟨s, _, _, ⟨_, rfl⟩ | ⟨_, _, _, rfl⟩⟩ <;> rfl
    obtain ⟨a, b⟩ := closed_notice hs (by rw [hn]; exact h0) hw
    rw [hn] at a b
    refine ⟨fun hc => ⟨(a hc).1, by rw [(a hc).2]; simp [Net.deliver]⟩, fun hc => ⟨(b hc).1, by rw [(b hc).2]⟩, fun i hi => ?_⟩
    cases hc : w.net.connected c with
    | true => rw [(a hc).2]; simp [Net.deliver, hi]
    | false => rw [(b hc).2]

private theorem closeSession_net {srv : Server Net υ} (hs : ideal srv) {w w' : World Net υ} {c : ConnId}
    {e : Option Err} (hse : srv.sessionsEnabled = true) (h0 : ∀ i, w.net.pending i = [])
    (h : closeSession srv w c = .ok (w', e)) :
    (∀ i, w'.net.pending i = []) ∧ (∀ i, w'.net.connected i = w.net.connected i) ∧
    (∀ i, i ≠ c → (w'.conns i).session = (w.conns i).session) ∧
    ∀ i, w'.net.out i = w.net.out i ++
      if i = c ∧ (w.conns c).session ≠ none ∧ w.net.connected c = true then [[22]] else [] := by
  rcases closeSession_ok h with ⟨hx, _, _⟩ | ⟨_, hx, rfl, _⟩ | ⟨_, hx, w1, n, hd, hw⟩
  · rw [hse] at hx; cases hx
  · refine ⟨h0, fun _ => rfl, fun _ _ => rfl, fun i => ?_⟩
    rw [if_neg (by rw [hx]; simp)]; simp
  · have hn : (setSession w1 c none).net = w.net := by
      show w1.net = w.net
      rcases deregister_ok hd with ⟨_, rfl, _⟩ | ⟨s, _, _, ⟨_, rfl⟩ | ⟨_, _, _, rfl⟩⟩ <;> rfl
    have hcs : ∀ i, i ≠ c → (w'.conns i).session = (w.conns i).session := by
      intro i hi
      have := Same.withWriter hw
      rw [this.session]
      simp only [setSession, World.upd, if_neg hi]
      rw [deregister_conns hd]
    obtain ⟨a, b⟩ := closed_notice hs (by rw [hn]; exact h0 c) hw
    rw [hn] at a b
    cases hc : w.net.connected c with
    | true =>
      rw [(a hc).2]
      refine ⟨fun i => ?_, fun _ => rfl, hcs, fun i => ?_⟩
      · by_cases hi : i = c <;> simp [Net.deliver, hi, h0]
      · by_cases hi : i = c <;> simp [Net.deliver, hi, hx]
    | false =>
      rw [(b hc).2]
      exact ⟨h0, fun _ => rfl, hcs, fun i => by simp⟩

private theorem closeSessions_net {srv : Server Net υ} (hs : ideal srv) (hse : srv.sessionsEnabled = true)
    {cs : List ConnId} : ∀ {w w' : World Net υ} {es : List (Option Err)}, (∀ i, w.net.pending i = []) → cs.Nodup →
    closeSessions srv w cs = .ok (w', es) →
    ∀ i, w'.net.out i = w.net.out i ++
      if i ∈ cs ∧ (w.conns i).session ≠ none ∧ w.net.connected i = true then [[22]] else [] := by
  induction cs with
  | nil => intro w w' es _ _ h i; rw [(closeSessions_nil h).1]; simp
  | cons c cs ih =>
    intro w w' es h0 hnd h i
    obtain ⟨w1, e, es', h1, h2, _⟩ := closeSessions_cons h
    obtain ⟨p1, p2, p3, p4⟩ := closeSession_net hs hse h0 h1
    obtain ⟨hc, hnd⟩ := List.nodup_cons.mp hnd
    rw [ih p1 hnd h2 i, p4 i, p2 i]
    by_cases hi : i = c
    · subst hi
      simp [hc]
    · rw [p3 i hi]
      simp [hi]

/-- C78 for `Server.CloseSession`, full statement. -/
def C78_full : Prop :=
  ∀ (υ : Type) (srv : Server Net υ) (w w' : World Net υ) (key : Bytes) (order : List ConnId) (r) (i : ConnId), ideal srv →
    Reachable srv true w → srv.sessionsEnabled = true → (∀ j, w.net.pending j = []) →
    srvCloseSession srv w key order = .ok (w', r) →
    (Holds w i key → w.net.connected i = true → w'.net.out i = w.net.out i ++ [[22]]) ∧
    (¬ (Holds w i key ∧ w.net.connected i = true) → w'.net.out i = w.net.out i)

/-- C78 is violated by the code: after connection 1 restored the session `[1]` and then `[1, 1]`, closing the session `[1]` tells
the client that its session, `[1, 1]`, was closed. -/
theorem C78_server_close_session_violated : ¬ C78_full := by
  intro h
  have h1 : ∃ w1, handleConnection (sessServer 0) sessStart 1 0 [] = .ok w1 ∧
      ∃ w2, serve (sessServer 0) w1 1 [.data [32, 0,0,0,0,0,0,0,1, 1]] = .ok w2 ∧
      ∃ w3, serve (sessServer 0) w2 1 [.data [32, 0,0,0,0,0,0,0,2, 1, 1]] = .ok w3 ∧
      (w3.conns 1).session = some { key := [1, 1], creation := 1, lastLookup := 2, info := none } ∧
      (∀ j, w3.net.pending j = []) ∧
      ∃ w' r, srvCloseSession (sessServer 0) w3 [1] [1] = .ok (w', r) ∧ w3.net.out 1 ≠ w'.net.out 1 := by
    refine ⟨_, rfl, _, rfl, _, rfl, rfl, ?_, _, _, rfl, ?_⟩
    · intro j
      by_cases hj : j = 1
      · subst hj; rfl
      · simp [hj, releaseMsg, World.log, setSession, registerTask, World.upd, sessServer, sessStart]
    · decide
  obtain ⟨w1, h1, w2, h2, w3, h3, h4, h5, w', r, h6, h7⟩ := h1
  have r0 : Reachable (sessServer 0) true sessStart := .start _ ⟨rfl, fun _ => rfl, rfl⟩
  have r1 := Reachable.step _ _ r0 (.accept _ _ 1 0 rfl h1)
  have r2 := Reachable.step _ _ r1 (.receive _ _ 1 _ (.inl rfl) h2)
  have r3 := Reachable.step _ _ r2 (.receive _ _ 1 _ (.inl rfl) h3)
  refine h7 ((h Nat (sessServer 0) w3 w' [1] [1] r 1 rfl r3 rfl h5 h6).2 ?_).symm
  rintro ⟨⟨s, hs, hk⟩, _⟩
  rw [h4] at hs
  cases hs
  cases hk

/-- C78: `Server.CloseSession` tells, by one message each, exactly the clients that have the session and are connected that it was
closed; nobody else receives anything. In the states after all histories without restorations over an existing session
(and no repeated keys under a connection limit); in the others see `C39_closes_whole_session_violated`. -/
theorem C78_server_close_session_partial (srv : Server Net υ) (hs : ideal srv) (issued : υ → Bytes → Prop) (w w' : World Net υ)
    (key : Bytes) (order : List ConnId) (r) (hr : Reachable srv false w)
    (hk : srv.maxConns = 0 ∨ FreshKeys srv.hooks issued) (hse : srv.sessionsEnabled = true)
    (h0 : ∀ i, w.net.pending i = []) (h : srvCloseSession srv w key order = .ok (w', r)) (i : ConnId) :
    (Holds w i key → w.net.connected i = true → w'.net.out i = w.net.out i ++ [[22]]) ∧
    (¬ (Holds w i key ∧ w.net.connected i = true) → w'.net.out i = w.net.out i) := by
  have hag := C34_registry_agrees_partial srv issued w hr hk
  rcases srvCloseSession_ok h with ⟨hg, rfl, rfl⟩ | ⟨set, conns, es, hg, hp, _, hcs, rfl⟩
  · exact ⟨fun hx => absurd hx (hag.none hg i), fun _ => rfl⟩
  · obtain ⟨hne, hnd, hmem⟩ := hag.set hg
    have hmem' : ∀ c, c ∈ conns ↔ Holds w c key := fun c => by rw [hp.mem_iff]; exact hmem c
    have := closeSessions_net hs hse h0 (hp.nodup_iff.mpr hnd) hcs i
    constructor
    · intro hh hc
      have hsome : (w.conns i).session ≠ none := by
        obtain ⟨s, hx, _⟩ := hh
        rw [hx]; simp
      rw [this, if_pos ⟨(hmem' i).mpr hh, hsome, hc⟩]
    · intro hn
      rw [this, if_neg, List.append_nil]
      rintro ⟨a, _, b⟩
      exact hn ⟨(hmem' i).mp a, b⟩

private theorem closeSessions_errors {srv : Server Net υ} (hs : ideal srv) (hse : srv.sessionsEnabled = true)
    {cs : List ConnId} : ∀ {w w' : World Net υ} {es : List (Option Err)}, (∀ i, w.net.pending i = []) → cs.Nodup →
    (∀ c ∈ cs, (w.conns c).session ≠ none) → closeSessions srv w cs = .ok (w', es) →
    es.map Option.isNone = cs.map w.net.connected := by
  induction cs with
  | nil => intro w w' es _ _ _ h; rw [(closeSessions_nil h).2]; rfl
  | cons c cs ih =>
    intro w w' es h0 hnd hsome h
    obtain ⟨w1, e, es', h1, h2, rfl⟩ := closeSessions_cons h
    obtain ⟨p1, p2, p3, _⟩ := closeSession_net hs hse h0 h1
    obtain ⟨hc, hnd⟩ := List.nodup_cons.mp hnd
    have := ih p1 hnd (fun i hi => by rw [p3 i (by rintro rfl; exact hc hi)]; exact hsome i (List.mem_cons_of_mem _ hi)) h2
    rw [List.map_cons, List.map_cons, this]
    congr 1
    · obtain ⟨s, hx⟩ := Option.ne_none_iff_exists'.mp (hsome c List.mem_cons_self)
      obtain ⟨a, b, _⟩ := C78_close_session srv hs w w1 c s e hse hx (h0 c) h1
      cases hcon : w.net.connected c with
      | true => rw [(a hcon).1]; rfl
      | false =>
        obtain ⟨er, rfl⟩ := Option.ne_none_iff_exists'.mp (b hcon).1
        rfl
    · exact List.map_congr_left fun i _ => p2 i

/-- C39: whose error is whose. The errors `Server.CloseSession` returns stand at the places of the connections they belong to: the
error at a place is nil exactly if the client of the connection at that place is connected and so was told (C78); and the general error
is nil exactly if all were. In the same states as `C39_closes_whole_session_partial`; missing are the other histories. -/
theorem C39_errors_partial (srv : Server Net υ) (hs : ideal srv) (issued : υ → Bytes → Prop) (w w' : World Net υ)
    (key : Bytes) (order : List ConnId) (conns : List ConnId) (es : List (Option Err)) (general : Option Err)
    (hr : Reachable srv false w) (hk : srv.maxConns = 0 ∨ FreshKeys srv.hooks issued) (hse : srv.sessionsEnabled = true)
    (h0 : ∀ i, w.net.pending i = []) (h : srvCloseSession srv w key order = .ok (w', some conns, some es, general)) :
    es.map Option.isNone = conns.map w.net.connected ∧
    (general = none ↔ ∀ c, Holds w c key → w.net.connected c = true) := by
  have hag := C34_registry_agrees_partial srv issued w hr hk
  have hwhole := C39_closes_whole_session_partial srv issued w w' key order _ hr hk hse h
  rcases srvCloseSession_ok h with ⟨hg, _, hx⟩ | ⟨set, conns', es', hg, hp, _, hcs, hx⟩
  · cases hx
  · cases hx
    obtain ⟨hne, hnd, hmem⟩ := hag.set hg
    have hmem' : ∀ c, c ∈ conns ↔ Holds w c key := fun c => by rw [hp.mem_iff]; exact hmem c
    have he := closeSessions_errors hs hse h0 (hp.nodup_iff.mpr hnd) (fun c hc => by
      obtain ⟨s, hx, _⟩ := (hmem' c).mp hc
      rw [hx]; simp) hcs
    refine ⟨he, ?_⟩
    obtain ⟨c0, hc0⟩ := List.exists_mem_of_ne_nil set hne
    obtain ⟨conns2, es2, h1, h2, _, _, _, hgen, _⟩ := hwhole.2 ⟨c0, (hmem c0).mp hc0⟩
    cases h1
    cases h2
    rw [hgen]
    have key1 : (∀ e ∈ es, e = none) ↔ ∀ b ∈ es.map Option.isNone, b = true := by simp
    rw [key1, he]
    simp [hmem']

/-- C78, non-vacuity: of three clients two have the session, and one of these is gone. -/
example : ∃ w1 w2 w3 w4 w5 r, handleConnection (sessServer 0) sessStart 1 0 [.data [32, 0,0,0,0,0,0,0,1, 1]] = .ok w1 ∧
    handleConnection (sessServer 0) w1 2 0 [.data [32, 0,0,0,0,0,0,0,1, 1]] = .ok w2 ∧
    handleConnection (sessServer 0) w2 3 0 [.data [32, 0,0,0,0,0,0,0,1, 1, 1]] = .ok w3 ∧
    w4 = { w3 with net := { w3.net with connected := fun i => decide (i ≠ 2) } } ∧
    srvCloseSession (sessServer 0) w4 [1] [2, 1] = .ok (w5, r) ∧
    w5.net.out 1 = w4.net.out 1 ++ [[22]] ∧ w5.net.out 2 = w4.net.out 2 ∧ w5.net.out 3 = w4.net.out 3 :=
  ⟨_, _, _, _, _, _, rfl, rfl, rfl, rfl, rfl, rfl, rfl, rfl⟩

/-- C39, non-vacuity: of two clients with the session the first is gone. -/
example : ∃ w1 w2 w4 w5 er general, handleConnection (sessServer 0) sessStart 1 0 [.data [32, 0,0,0,0,0,0,0,1, 1]] = .ok w1 ∧
    handleConnection (sessServer 0) w1 2 0 [.data [32, 0,0,0,0,0,0,0,1, 1]] = .ok w2 ∧
    w4 = { w2 with net := { w2.net with connected := fun i => decide (i ≠ 2) } } ∧
    srvCloseSession (sessServer 0) w4 [1] [2, 1] = .ok (w5, some [2, 1], some [some er, none], some general) :=
  ⟨_, _, _, _, _, _, rfl, rfl, rfl, rfl⟩

end Webwire
