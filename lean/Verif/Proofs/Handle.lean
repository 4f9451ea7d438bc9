import Verif.Proofs.Api
import Verif.Proofs.Parse

/-! Helper lemmas: message handlers on arbitrary sockets. -/

set_option autoImplicit false

namespace Webwire

theorem bind_ok {α β : Type} {x : Go α} {f : α → Go β} {b : β} (h : (x >>= f) = .ok b) :
    ∃ a, x = .ok a ∧ f a = .ok b := by
  cases x with
  | error e => simp [bind, Except.bind] at h
  | ok a => exact ⟨a, rfl, h⟩

variable {ν υ : Type} {srv : Server ν υ}

/-- Events other than hooks for messages and the release of the message. -/
def Plain : Ev → Prop
  | .onSessionCreated _ _ => True
  | .onSessionClosed _ => True
  | .onSessionLookup _ => True
  | .sent _ => True
  | .sockClose _ => True
  | _ => False

theorem ApiEvent.plain {e : Ev} (h : ApiEvent e) : Plain e := by
  cases e <;> simp_all [ApiEvent, Plain]

/-- Only plain events happened. -/
def Grew (w w' : World ν υ) : Prop := ∃ l, w'.trace = w.trace ++ l ∧ ∀ e ∈ l, Plain e

theorem Grew.refl (w : World ν υ) : Grew w w := ⟨[], by simp, by simp⟩

theorem Grew.trans {w w' w'' : World ν υ} (h : Grew w w') (h' : Grew w' w'') : Grew w w'' := by
  obtain ⟨l, e, hl⟩ := h
  obtain ⟨l', e', hl'⟩ := h'
  refine ⟨l ++ l', by rw [e', e, List.append_assoc], ?_⟩
  intro x hx
  rcases List.mem_append.mp hx with hx | hx
  · exact hl x hx
  · exact hl' x hx

theorem Grew.same {w w' : World ν υ} (h : w'.trace = w.trace) : Grew w w' := ⟨[], by simp [h], by simp⟩

theorem Quiet.grew {w w' : World ν υ} (h : Quiet w w') : Grew w w' := by
  obtain ⟨l, e, hl⟩ := h.trace
  exact ⟨l, e, fun x hx => (hl x hx).plain⟩

theorem failMsgShutdown_ok {w w' : World ν υ} {c : ConnId} {m : Msg}
    (h : failMsgShutdown srv w c m = .ok w') :
    ∃ net net' e, srv.sock.getWriter w.net c = .ok (net, none) ∧
      writeMsgSpecialRequestReply (srv.sock.writer c) net MsgReplyShutdown m.identifierBytes = .ok (net', e) ∧
      w' = { w with net := net' }.log (.sent c) := by
  unfold failMsgShutdown at h
  obtain ⟨⟨net, e⟩, h1, h⟩ := bind_ok h
  cases e with
  | some e => simp [goPanic] at h
  | none =>
    simp only at h
    obtain ⟨⟨net', e⟩, h2, h⟩ := bind_ok h
    simp only [pure, Except.pure, Except.ok.injEq] at h
    exact ⟨net, net', e, h1, h2, h.symm⟩

/-- What `registerHandler` does to the world when the message is to be processed. -/
def registered (w : World ν υ) (c : ConnId) : World ν υ :=
  registerTask { (w.upd c fun con => { con with slots := if con.limit > 1 then con.slots + 1 else con.slots })
    with currentOps := if w.shutdown then w.currentOps else w.currentOps + 1 } c

/-- What `registerHandler` does to the world before refusing a request. -/
def slotTaken (w : World ν υ) (c : ConnId) : World ν υ :=
  w.upd c fun con => { con with slots := if con.limit > 1 then con.slots + 1 else con.slots }

theorem registerHandler_ok {w w' : World ν υ} {c : ConnId} {m : Msg} {b : Bool}
    (h : registerHandler srv w c m = .ok (w', b)) :
    ((w.conns c).isActive = false ∧ w' = w ∧ b = false) ∨
    ((w.conns c).isActive = true ∧ ¬ ((w.conns c).limit > 1 ∧ ((w.conns c).slots : Int) ≥ (w.conns c).limit) ∧
      ((w.shutdown = true ∧ m.requiresReply = true ∧ b = false ∧
          failMsgShutdown srv (slotTaken w c) c m = .ok w') ∨
       (¬ (w.shutdown = true ∧ m.requiresReply = true) ∧ b = true ∧ w' = registered w c))) := by
  unfold registerHandler at h
  simp only [pure, Except.pure] at h
  cases ha : (w.conns c).isActive with
  | false =>
    rw [ha] at h
    simp only [Bool.not_false, if_true, Except.ok.injEq, Prod.mk.injEq] at h
    exact .inl ⟨rfl, h.1.symm, h.2.symm⟩
  | true =>
    rw [ha] at h
    simp only [Bool.not_true, if_false, Bool.false_eq_true] at h
    right
    refine ⟨rfl, ?_⟩
    by_cases hb : (w.conns c).limit > 1 ∧ ((w.conns c).slots : Int) ≥ (w.conns c).limit
    · rw [if_pos (by simpa using hb)] at h
      simp [goBlock, bind, Except.bind] at h
    · refine ⟨hb, ?_⟩
      rw [if_neg (by simpa using hb)] at h
      have e1 : (w.upd c fun con =>
          { con with slots := if decide ((w.conns c).limit > 1) = true then con.slots + 1 else con.slots }) =
          slotTaken w c := by
        simp [slotTaken, World.upd]
      rw [e1] at h
      have e2 : (slotTaken w c).shutdown = w.shutdown := rfl
      have e3 : (slotTaken w c).currentOps = w.currentOps := rfl
      simp only [e2, e3] at h
      by_cases hf : w.shutdown = true ∧ m.requiresReply = true
      · rw [if_pos hf] at h
        obtain ⟨w1, h1, h⟩ := bind_ok h
        simp only [Except.ok.injEq, Prod.mk.injEq] at h
        left
        refine ⟨hf.1, hf.2, h.2.symm, ?_⟩
        rw [h.1] at h1
        rw [← h1]
        congr 1
        have : (slotTaken w c).shutdown = true := hf.1
        rw [if_pos hf.1]
        rfl
      · rw [if_neg hf] at h
        simp only [Except.ok.injEq, Prod.mk.injEq] at h
        exact .inr ⟨hf, h.2.symm, h.1.symm⟩

/-- `deregisterHandler` between its two critical sections. -/
def opsDone (w : World ν υ) : World ν υ :=
  { w with currentOps := w.currentOps - 1
           rdyClosed := if decide (w.shutdown = true ∧ w.currentOps - 1 < 1) then true else w.rdyClosed }

theorem deregisterTask_ok {w w' : World ν υ} {c : ConnId} (h : deregisterTask srv w c = .ok w') :
    ((w.conns c).isActive = false ∧ (w.conns c).tasks ≤ 1 ∧
      unlink srv (w.upd c fun con => { con with tasks := con.tasks - 1 }) c = .ok w') ∨
    (¬ ((w.conns c).isActive = false ∧ (w.conns c).tasks ≤ 1) ∧
      w' = w.upd c fun con => { con with tasks := con.tasks - 1 }) := by
  unfold deregisterTask at h
  have e1 : ((w.upd c fun con => { con with tasks := con.tasks - 1 }).conns c).isActive = (w.conns c).isActive := by
    simp [World.upd]
  have e2 : ((w.upd c fun con => { con with tasks := con.tasks - 1 }).conns c).tasks = (w.conns c).tasks - 1 := by
    simp [World.upd]
  simp only [e1, e2] at h
  by_cases hc : (w.conns c).isActive = false ∧ (w.conns c).tasks ≤ 1
  · rw [if_pos (by simp [hc.1]; omega)] at h
    exact .inl ⟨hc.1, hc.2, h⟩
  · rw [if_neg (by simp only [Bool.not_eq_true']; rintro ⟨a, b⟩; exact hc ⟨a, by omega⟩)] at h
    simp only [Except.ok.injEq] at h
    exact .inr ⟨hc, h.symm⟩

theorem deregisterHandler_ok {w w' : World ν υ} {c : ConnId} (h : deregisterHandler srv w c = .ok w') :
    ¬ ((w.shutdown = true ∧ w.currentOps - 1 < 1) ∧ w.rdyClosed = true) ∧
    ∃ w1, deregisterTask srv (opsDone w) c = .ok w1 ∧
      ¬ ((w1.conns c).limit > 1 ∧ (w1.conns c).slots < 1) ∧
      w' = w1.upd c fun con => { con with slots := if con.limit > 1 then con.slots - 1 else con.slots } := by
  unfold deregisterHandler at h
  simp only [pure, Except.pure] at h
  by_cases hp : (w.shutdown = true ∧ w.currentOps - 1 < 1) ∧ w.rdyClosed = true
  · rw [if_pos (by simpa using hp)] at h
    simp [goPanic, bind, Except.bind] at h
  · refine ⟨hp, ?_⟩
    rw [if_neg (by simpa using hp)] at h
    obtain ⟨w1, h1, h⟩ := bind_ok h
    refine ⟨w1, ?_, ?_⟩
    · rw [← h1]; congr 1
    · by_cases hb : (w1.conns c).limit > 1 ∧ (w1.conns c).slots < 1
      · rw [if_pos (by simpa using hb)] at h
        simp [goPanic, bind, Except.bind] at h
      · rw [if_neg (by simpa using hb)] at h
        refine ⟨hb, ?_⟩
        simp only [Except.ok.injEq] at h
        rw [← h]
        simp [World.upd]

theorem Grew.deregisterHandler {w w' : World ν υ} {c : ConnId} (h : deregisterHandler srv w c = .ok w') :
    Grew w w' := by
  obtain ⟨_, w1, h1, _, rfl⟩ := deregisterHandler_ok h
  rcases deregisterTask_ok h1 with ⟨_, _, h1⟩ | ⟨_, rfl⟩
  · exact (Grew.same rfl).trans ((Quiet.unlink h1).grew.trans (Grew.same rfl))
  · exact Grew.same rfl

theorem fulfillMsg_ok {w w' : World ν υ} {c : ConnId} {m : Msg} {enc : Encoding} {payload : Bytes}
    (h : fulfillMsg srv w c m enc payload = .ok w') :
    ∃ e, withWriter srv w c (fun wr s => writeMsgReply wr s m.identifierBytes enc payload) = .ok (w', e) := by
  unfold fulfillMsg at h
  obtain ⟨⟨w1, e⟩, h1, h⟩ := bind_ok h
  simp only [pure, Except.pure, Except.ok.injEq] at h
  exact ⟨e, by rw [← h]; exact h1⟩

/-- The type of the special reply `failMsg` sends for an error. -/
def specialFor : ReplyErr → UInt8
  | .maxSessConnsReached => MsgReplyMaxSessConnsReached
  | .sessionNotFound => MsgReplySessionNotFound
  | .sessionsDisabled => MsgReplySessionsDisabled
  | _ => MsgReplyInternalError

/-- The error reply `failMsg` sends for an error, if it is one. -/
def errorFor : ReplyErr → Option (Bytes × Bytes)
  | .request code text => some (code, text)
  | .requestPtr p => p
  | _ => none

theorem failMsg_ok {w w' : World ν υ} {c : ConnId} {m : Msg} {re : ReplyErr}
    (h : failMsg srv w c m re = .ok w') :
    (m.requiresReply = false ∧ w' = w) ∨
    (m.requiresReply = true ∧
      ((∃ e code text, errorFor re = some (code, text) ∧
          withWriter srv w c (fun wr s => writeMsgReplyError wr s m.identifierBytes code text true) = .ok (w', e)) ∨
       (re = .requestPtr none ∧ ∃ net er, srv.sock.getWriter w.net c = .ok (net, some er) ∧ w' = w) ∨
       (errorFor re = none ∧ re ≠ .requestPtr none ∧ ∃ e,
          withWriter srv w c (fun wr s => writeMsgSpecialRequestReply wr s (specialFor re) m.identifierBytes) =
            .ok (w', e)))) := by
  unfold failMsg at h
  cases hr : m.requiresReply with
  | false =>
    rw [hr] at h
    simp only [Bool.not_false, if_true, pure, Except.pure, Except.ok.injEq] at h
    exact .inl ⟨rfl, h.symm⟩
  | true =>
    rw [hr] at h
    simp only [Bool.not_true, if_false, Bool.false_eq_true] at h
    right
    refine ⟨rfl, ?_⟩
    cases re with
    | request code text =>
      obtain ⟨⟨w1, e⟩, h1, h⟩ := bind_ok h
      simp only [pure, Except.pure, Except.ok.injEq] at h
      exact .inl ⟨e, code, text, rfl, by rw [← h]; exact h1⟩
    | requestPtr p =>
      cases p with
      | some p =>
        obtain ⟨code, text⟩ := p
        obtain ⟨⟨w1, e⟩, h1, h⟩ := bind_ok h
        simp only [pure, Except.pure, Except.ok.injEq] at h
        exact .inl ⟨e, code, text, rfl, by rw [← h]; exact h1⟩
      | none =>
        obtain ⟨⟨w1, e⟩, h1, h⟩ := bind_ok h
        simp only [pure, Except.pure, Except.ok.injEq] at h
        rcases withWriter_ok h1 with ⟨net, er, hg, _, _⟩ | ⟨_, _, _, hp, _⟩
        · exact .inr (.inl ⟨rfl, net, er, hg, h.symm⟩)
        · simp [goPanic] at hp
    | nil | maxSessConnsReached | sessionNotFound | sessionsDisabled =>
      obtain ⟨⟨w1, e⟩, h1, h⟩ := bind_ok h
      simp only [pure, Except.pure, Except.ok.injEq] at h
      exact .inr (.inr ⟨rfl, by simp, e, by rw [← h]; exact h1⟩)
    | other t =>
      obtain ⟨⟨w1, e⟩, h1, h⟩ := bind_ok h
      simp only [pure, Except.pure, Except.ok.injEq] at h
      exact .inr (.inr ⟨rfl, by simp, e, by rw [← h]; exact h1⟩)

theorem Quiet.fulfillMsg {w w' : World ν υ} {c : ConnId} {m : Msg} {enc : Encoding} {payload : Bytes}
    (h : fulfillMsg srv w c m enc payload = .ok w') : Quiet w w' := by
  obtain ⟨e, h⟩ := fulfillMsg_ok h
  exact Quiet.withWriter h

theorem Quiet.failMsg {w w' : World ν υ} {c : ConnId} {m : Msg} {re : ReplyErr}
    (h : failMsg srv w c m re = .ok w') : Quiet w w' := by
  rcases failMsg_ok h with ⟨_, rfl⟩ | ⟨_, ⟨_, _, _, _, h⟩ | ⟨_, _, _, _, rfl⟩ | ⟨_, _, _, h⟩⟩
  · exact Quiet.refl _
  · exact Quiet.withWriter h
  · exact Quiet.refl _
  · exact Quiet.withWriter h

/-- The error the reply to a request is made from. -/
def replyErr : ReplyErr → ReplyErr
  | .request code text => .request code text
  | .requestPtr p => .requestPtr p
  | _ => .nil

/-- The message as the reply code finds it after the handler returned. -/
def afterHook (m : Msg) (out : RequestOut) : Msg := if out.closesMsg then m.close.1 else m

theorem handleSignal_ok {w w' : World ν υ} {c : ConnId} {m : Msg} (h : handleSignal srv w c m = .ok w') :
    ∃ w1 w2, runApis srv { w.log (.onSignal c (m.name.view m.buf) m.payload.encoding (m.payload.data.view m.buf))
          with user := (srv.hooks.onSignal w.user c m).1 } (srv.hooks.onSignal w.user c m).2 = .ok w1 ∧
      deregisterHandler srv w1 c = .ok w2 ∧ w' = releaseMsg w2 := by
  unfold handleSignal at h
  obtain ⟨w1, h1, h⟩ := bind_ok h
  obtain ⟨w2, h2, h⟩ := bind_ok h
  simp only [pure, Except.pure, Except.ok.injEq] at h
  exact ⟨w1, w2, h1, h2, h.symm⟩

theorem handleRequest_ok {w w' : World ν υ} {c : ConnId} {m : Msg} (h : handleRequest srv w c m = .ok w') :
    ∃ w1 w2 w3, runApis srv
        { w.log (.onRequest c m.ident (m.name.view m.buf) m.payload.encoding (m.payload.data.view m.buf))
          with user := (srv.hooks.onRequest w.user c m).1 } (srv.hooks.onRequest w.user c m).2.calls = .ok w1 ∧
      (((srv.hooks.onRequest w.user c m).2.err = .nil ∧
          fulfillMsg srv w1 c (afterHook m (srv.hooks.onRequest w.user c m).2)
            (srv.hooks.onRequest w.user c m).2.enc (srv.hooks.onRequest w.user c m).2.payload = .ok w2) ∨
       ((srv.hooks.onRequest w.user c m).2.err ≠ .nil ∧
          failMsg srv w1 c (afterHook m (srv.hooks.onRequest w.user c m).2)
            (replyErr (srv.hooks.onRequest w.user c m).2.err) = .ok w2)) ∧
      deregisterHandler srv w2 c = .ok w3 ∧ w' = releaseMsg w3 := by
  unfold handleRequest answerRequest at h
  generalize hq : srv.hooks.onRequest w.user c m = q
  have hq' : srv.hooks.onRequest (w.log (.onRequest c m.ident (m.name.view m.buf) m.payload.encoding
    (m.payload.data.view m.buf))).user c m = q := hq
  simp only [hq'] at h
  obtain ⟨user, out⟩ := q
  simp only at h ⊢
  obtain ⟨w1, h1, h⟩ := bind_ok h
  refine ⟨w1, ?_⟩
  cases he : out.err <;> rw [he] at h <;> simp only at h <;>
  · obtain ⟨w2, h2, h⟩ := bind_ok h
    obtain ⟨w3, h3, h⟩ := bind_ok h
    simp only [pure, Except.pure, Except.ok.injEq] at h
    refine ⟨w2, w3, h1, ?_, h3, h.symm⟩
    first
    | exact .inl ⟨rfl, h2⟩
    | exact .inr ⟨by simp, h2⟩

theorem handleSessionClosure_ok {w w' : World ν υ} {c : ConnId} {m : Msg}
    (h : handleSessionClosure srv w c m = .ok w') :
    ∃ w2 w3, ((srv.sessionsEnabled = false ∧ failMsg srv w c m .sessionsDisabled = .ok w2) ∨
        (srv.sessionsEnabled = true ∧ (w.conns c).session = none ∧ fulfillMsg srv w c m 0 [] = .ok w2) ∨
        (srv.sessionsEnabled = true ∧ (w.conns c).session ≠ none ∧ ∃ w1 n, deregister srv w c true = .ok (w1, n) ∧
          fulfillMsg srv (setSession w1 c none) c m 0 [] = .ok w2)) ∧
      deregisterHandler srv w2 c = .ok w3 ∧ w' = releaseMsg w3 := by
  unfold handleSessionClosure at h
  cases hse : srv.sessionsEnabled with
  | false =>
    rw [hse] at h
    simp only [Bool.not_false, if_true] at h
    obtain ⟨w2, h2, h⟩ := bind_ok h
    obtain ⟨w3, h3, h⟩ := bind_ok h
    simp only [pure, Except.pure, Except.ok.injEq] at h
    exact ⟨w2, w3, .inl ⟨rfl, h2⟩, h3, h.symm⟩
  | true =>
    rw [hse] at h
    simp only [Bool.not_true, if_false, Bool.false_eq_true] at h
    by_cases hs : (w.conns c).session = none
    · rw [if_pos hs] at h
      obtain ⟨w2, h2, h⟩ := bind_ok h
      obtain ⟨w3, h3, h⟩ := bind_ok h
      simp only [pure, Except.pure, Except.ok.injEq] at h
      exact ⟨w2, w3, .inr (.inl ⟨rfl, hs, h2⟩), h3, h.symm⟩
    · rw [if_neg hs] at h
      obtain ⟨⟨w1, n⟩, h1, h⟩ := bind_ok h
      obtain ⟨w2, h2, h⟩ := bind_ok h
      obtain ⟨w3, h3, h⟩ := bind_ok h
      simp only [pure, Except.pure, Except.ok.injEq] at h
      exact ⟨w2, w3, .inr (.inr ⟨rfl, hs, w1, n, h1, h2⟩), h3, h.symm⟩

/-- The session a restoration attaches. -/
def restored (hooks : Hooks υ) (key : Bytes) (r : Lookup) : Session :=
  { key := key, creation := r.creation, lastLookup := r.lastLookup, info := r.info.bind hooks.infoParser }

/-- Whether a restoration is refused because of the connection limit of the session. -/
def tooMany (srv : Server ν υ) (w : World ν υ) (key : Bytes) : Prop :=
  sessionConnectionsNum w key ≥ 0 ∧ srv.maxConns > 0 ∧ (sessionConnectionsNum w key + 1).toNat > srv.maxConns

instance (srv : Server ν υ) (w : World ν υ) (key : Bytes) : Decidable (tooMany srv w key) := by
  unfold tooMany; infer_instance

/-- The world after the lookup of a restoration. -/
def lookedUp (srv : Server ν υ) (w : World ν υ) (key : Bytes) : World ν υ :=
  { w with user := (srv.hooks.onSessionLookup w.user key).1 }.log (.onSessionLookup key)

theorem handleSessionRestore_ok {w w' : World ν υ} {c : ConnId} {m : Msg}
    (h : handleSessionRestore srv w c m = .ok w') :
    ∃ w2 w3, ((srv.sessionsEnabled = false ∧ failMsg srv w c m .sessionsDisabled = .ok w2) ∨
        (srv.sessionsEnabled = true ∧ tooMany srv w (m.payload.data.view m.buf) ∧
          failMsg srv w c m .maxSessConnsReached = .ok w2) ∨
        (srv.sessionsEnabled = true ∧ ¬ tooMany srv w (m.payload.data.view m.buf) ∧
          (∃ e, (srv.hooks.onSessionLookup w.user (m.payload.data.view m.buf)).2 = .error e) ∧
          failMsg srv (lookedUp srv w (m.payload.data.view m.buf)) c m .nil = .ok w2) ∨
        (srv.sessionsEnabled = true ∧ ¬ tooMany srv w (m.payload.data.view m.buf) ∧
          (srv.hooks.onSessionLookup w.user (m.payload.data.view m.buf)).2 = .ok none ∧
          failMsg srv (lookedUp srv w (m.payload.data.view m.buf)) c m .sessionNotFound = .ok w2) ∨
        (∃ r, srv.sessionsEnabled = true ∧ ¬ tooMany srv w (m.payload.data.view m.buf) ∧
          (srv.hooks.onSessionLookup w.user (m.payload.data.view m.buf)).2 = .ok (some r) ∧
          (∃ e, srv.hooks.marshal { key := m.payload.data.view m.buf, creation := r.creation,
                                    lastLookup := r.lastLookup, info := r.info } = .error e) ∧
          failMsg srv (lookedUp srv w (m.payload.data.view m.buf)) c m .nil = .ok w2) ∨
        (∃ r encoded w1, srv.sessionsEnabled = true ∧ ¬ tooMany srv w (m.payload.data.view m.buf) ∧
          (srv.hooks.onSessionLookup w.user (m.payload.data.view m.buf)).2 = .ok (some r) ∧
          srv.hooks.marshal { key := m.payload.data.view m.buf, creation := r.creation,
                              lastLookup := r.lastLookup, info := r.info } = .ok encoded ∧
          register srv (setSession (lookedUp srv w (m.payload.data.view m.buf)) c
            (some (restored srv.hooks (m.payload.data.view m.buf) r))) c = .ok (w1, none) ∧
          fulfillMsg srv w1 c m encUtf8 encoded = .ok w2)) ∧
      deregisterHandler srv w2 c = .ok w3 ∧ w' = releaseMsg w3 := by
  unfold handleSessionRestore at h
  cases hse : srv.sessionsEnabled with
  | false =>
    rw [hse] at h
    simp only [Bool.not_false, if_true] at h
    obtain ⟨w2, h2, h⟩ := bind_ok h
    obtain ⟨w3, h3, h⟩ := bind_ok h
    simp only [pure, Except.pure, Except.ok.injEq] at h
    exact ⟨w2, w3, .inl ⟨rfl, h2⟩, h3, h.symm⟩
  | true =>
    rw [hse] at h
    simp only [Bool.not_true, if_false, Bool.false_eq_true] at h
    by_cases ht : tooMany srv w (m.payload.data.view m.buf)
    · have ht' := ht
      unfold tooMany at ht'
      rw [if_pos ht'] at h
      obtain ⟨w2, h2, h⟩ := bind_ok h
      obtain ⟨w3, h3, h⟩ := bind_ok h
      simp only [pure, Except.pure, Except.ok.injEq] at h
      exact ⟨w2, w3, .inr (.inl ⟨rfl, ht, h2⟩), h3, h.symm⟩
    · have ht' := ht
      unfold tooMany at ht'
      rw [if_neg ht'] at h
      cases hl : (srv.hooks.onSessionLookup w.user (m.payload.data.view m.buf)).2 with
      | error e =>
        rw [hl] at h
        simp only at h
        obtain ⟨w2, h2, h⟩ := bind_ok h
        obtain ⟨w3, h3, h⟩ := bind_ok h
        simp only [pure, Except.pure, Except.ok.injEq] at h
        exact ⟨w2, w3, .inr (.inr (.inl ⟨rfl, ht, ⟨e, rfl⟩, h2⟩)), h3, h.symm⟩
      | ok o =>
        rw [hl] at h
        cases o with
        | none =>
          simp only at h
          obtain ⟨w2, h2, h⟩ := bind_ok h
          obtain ⟨w3, h3, h⟩ := bind_ok h
          simp only [pure, Except.pure, Except.ok.injEq] at h
          exact ⟨w2, w3, .inr (.inr (.inr (.inl ⟨rfl, ht, rfl, h2⟩))), h3, h.symm⟩
        | some r =>
          simp only at h
          cases hm : srv.hooks.marshal { key := m.payload.data.view m.buf, creation := r.creation,
                                         lastLookup := r.lastLookup, info := r.info } with
          | error e =>
            rw [hm] at h
            simp only at h
            obtain ⟨w2, h2, h⟩ := bind_ok h
            obtain ⟨w3, h3, h⟩ := bind_ok h
            simp only [pure, Except.pure, Except.ok.injEq] at h
            exact ⟨w2, w3, .inr (.inr (.inr (.inr (.inl ⟨r, rfl, ht, rfl, ⟨e, hm⟩, h2⟩)))), h3, h.symm⟩
          | ok encoded =>
            rw [hm] at h
            simp only at h
            obtain ⟨⟨w1, e⟩, h1, h⟩ := bind_ok h
            cases e with
            | some e => simp [goPanic] at h
            | none =>
              simp only at h
              obtain ⟨w2, h2, h⟩ := bind_ok h
              obtain ⟨w3, h3, h⟩ := bind_ok h
              simp only [pure, Except.pure, Except.ok.injEq] at h
              exact ⟨w2, w3, .inr (.inr (.inr (.inr (.inr ⟨r, encoded, w1, rfl, ht, rfl, hm, h1, h2⟩)))),
                h3, h.symm⟩

theorem Grew.handleSessionClosure {w w' : World ν υ} {c : ConnId} {m : Msg}
    (h : handleSessionClosure srv w c m = .ok w') : ∃ w3, Grew w w3 ∧ w' = releaseMsg w3 := by
  obtain ⟨w2, w3, hc, h3, rfl⟩ := handleSessionClosure_ok h
  refine ⟨w3, Grew.trans ?_ (Grew.deregisterHandler h3), rfl⟩
  rcases hc with ⟨_, h⟩ | ⟨_, _, h⟩ | ⟨_, _, w1, n, hd, h⟩
  · exact (Quiet.failMsg h).grew
  · exact (Quiet.fulfillMsg h).grew
  · exact (((Quiet.deregister hd).trans (Quiet.setSession _ _ _)).trans (Quiet.fulfillMsg h)).grew

theorem Grew.lookedUp (srv : Server ν υ) (w : World ν υ) (key : Bytes) : Grew w (lookedUp srv w key) :=
  ⟨[.onSessionLookup key], rfl, by simp [Plain]⟩

theorem Grew.handleSessionRestore {w w' : World ν υ} {c : ConnId} {m : Msg}
    (h : handleSessionRestore srv w c m = .ok w') : ∃ w3, Grew w w3 ∧ w' = releaseMsg w3 := by
  obtain ⟨w2, w3, hc, h3, rfl⟩ := handleSessionRestore_ok h
  refine ⟨w3, Grew.trans ?_ (Grew.deregisterHandler h3), rfl⟩
  rcases hc with ⟨_, h⟩ | ⟨_, _, h⟩ | ⟨_, _, _, h⟩ | ⟨_, _, _, h⟩ | ⟨r, _, _, _, _, h⟩ |
    ⟨r, encoded, w1, _, _, _, _, hr, h⟩
  · exact (Quiet.failMsg h).grew
  · exact (Quiet.failMsg h).grew
  · exact (Grew.lookedUp _ _ _).trans (Quiet.failMsg h).grew
  · exact (Grew.lookedUp _ _ _).trans (Quiet.failMsg h).grew
  · exact (Grew.lookedUp _ _ _).trans (Quiet.failMsg h).grew
  · exact (Grew.lookedUp _ _ _).trans
      (((Quiet.setSession _ _ _).trans (Quiet.register hr)).trans (Quiet.fulfillMsg h)).grew

/-- All about a `handleMessage` call that returned. -/
theorem handleMessage_ok {w w' : World ν υ} {c : ConnId} {m : Msg} (h : handleMessage srv w c m = .ok w') :
    (m.msgType = MsgHeartbeat ∧ w' = releaseMsg w) ∨
    (m.msgType ≠ MsgHeartbeat ∧ ∃ w1 b, registerHandler srv w c m = .ok (w1, b) ∧
      ((b = false ∧ w' = releaseMsg w1) ∨
       (b = true ∧
        (((m.msgType = MsgSignalBinary ∨ m.msgType = MsgSignalUtf8 ∨ m.msgType = MsgSignalUtf16) ∧
            handleSignal srv w1 c m = .ok w') ∨
         ((m.msgType = MsgRequestBinary ∨ m.msgType = MsgRequestUtf8 ∨ m.msgType = MsgRequestUtf16) ∧
            handleRequest srv w1 c m = .ok w') ∨
         (m.msgType = MsgRequestRestoreSession ∧ handleSessionRestore srv w1 c m = .ok w') ∨
         (m.msgType = MsgRequestCloseSession ∧ handleSessionClosure srv w1 c m = .ok w') ∨
         ((¬ (m.msgType = MsgSignalBinary ∨ m.msgType = MsgSignalUtf8 ∨ m.msgType = MsgSignalUtf16) ∧
           ¬ (m.msgType = MsgRequestBinary ∨ m.msgType = MsgRequestUtf8 ∨ m.msgType = MsgRequestUtf16) ∧
           m.msgType ≠ MsgRequestRestoreSession ∧ m.msgType ≠ MsgRequestCloseSession) ∧
            ∃ w2, deregisterHandler srv w1 c = .ok w2 ∧ w' = releaseMsg w2))))) := by
  unfold handleMessage at h
  by_cases hh : m.msgType = MsgHeartbeat
  · rw [if_pos hh] at h
    simp only [pure, Except.pure, Except.ok.injEq] at h
    exact .inl ⟨hh, h.symm⟩
  · rw [if_neg hh] at h
    right
    refine ⟨hh, ?_⟩
    obtain ⟨⟨w1, b⟩, h1, h⟩ := bind_ok h
    refine ⟨w1, b, h1, ?_⟩
    cases b with
    | false =>
      simp only [Bool.not_false, if_true, pure, Except.pure, Except.ok.injEq] at h
      exact .inl ⟨rfl, h.symm⟩
    | true =>
      simp only [Bool.not_true, if_false, Bool.false_eq_true] at h
      right
      refine ⟨rfl, ?_⟩
      split_ifs at h with ha hb hc hd
      · exact .inl ⟨ha, h⟩
      · exact .inr (.inl ⟨hb, h⟩)
      · exact .inr (.inr (.inl ⟨hc, h⟩))
      · exact .inr (.inr (.inr (.inl ⟨hd, h⟩)))
      · obtain ⟨w2, h2, h⟩ := bind_ok h
        simp only [pure, Except.pure, Except.ok.injEq] at h
        exact .inr (.inr (.inr (.inr ⟨⟨ha, hb, hc, hd⟩, w2, h2, h.symm⟩)))

end Webwire
