import Verif.Proofs.Dispatch
import Verif.Proofs.Net

/-! Helper lemmas: which replies are sent on the ideal network. -/

set_option autoImplicit false

namespace Webwire
open Spec

namespace Spec

/-- The call that writes the reply to a request with this outcome; `none` for a nil pointer error. -/
def replyCall (ident : Bytes) (out : RequestOut) : Option WriterCall :=
  match out.err with
  | .nil => some (.reply ident out.enc out.payload)
  | .request code text => some (.errorReply ident code text true)
  | .requestPtr (some (code, text)) => some (.errorReply ident code text true)
  | .requestPtr none => none
  | _ => some (.special 2 ident)

end Spec

variable {υ : Type} {srv : Server Net υ}

theorem Notification.not_reply {b : Bytes} (h : Notification b) : ¬ IsReply b := by
  obtain ⟨t, r, rfl, ht⟩ := h
  rintro ⟨t', r', h', ht'⟩
  cases h'
  simp only [List.mem_cons, List.not_mem_nil, or_false] at ht ht'
  rcases ht with rfl | rfl | rfl | rfl | rfl <;> revert ht' <;> decide

theorem QuietNet.replies {n n' : Net} (h : QuietNet n n') (i : ConnId) :
    replies (n'.out i) = replies (n.out i) := by
  obtain ⟨ns, e, hn⟩ := h.out i
  rw [e, Spec.replies, List.filter_append]
  have : ns.filter (fun b => decide (IsReply b)) = [] := by
    rw [List.filter_eq_nil_iff]
    intro b hb
    simpa using Notification.not_reply (hn b hb)
  rw [this, List.append_nil]
  rfl

/-- Between `w` and `w'` exactly the replies `l` were sent on connection `c` and none on others. -/
structure Replied (c : ConnId) (l : List Bytes) (w w' : World Net υ) : Prop where
  here : replies (w'.net.out c) = replies (w.net.out c) ++ l
  elsewhere : ∀ i, i ≠ c → replies (w'.net.out i) = replies (w.net.out i)
  pending : ∀ i, w'.net.pending i = []

theorem Replied.trans {c : ConnId} {l l' : List Bytes} {w w' w'' : World Net υ} (h : Replied c l w w')
    (h' : Replied c l' w' w'') : Replied c (l ++ l') w w'' :=
  ⟨by rw [h'.here, h.here, List.append_assoc], fun i hi => (h'.elsewhere i hi).trans (h.elsewhere i hi), h'.pending⟩

/-- `Replied` does not see trace, user state and task counters. -/
theorem Replied.congr {c : ConnId} {l : List Bytes} {w1 w2 w1' w2' : World Net υ} (h : Replied c l w1 w2)
    (h1 : w1'.net = w1.net) (h2 : w2'.net = w2.net) : Replied c l w1' w2' :=
  ⟨by rw [h1, h2]; exact h.here, by rw [h1, h2]; exact h.elsewhere, by rw [h2]; exact h.pending⟩

theorem QuietW.replied {w w' : World Net υ} (h : QuietW w w') (c : ConnId) : Replied c [] w w' :=
  ⟨by rw [List.append_nil]; exact h.net.replies c, fun i _ => h.net.replies i, h.net.pending⟩

theorem layout_reply {call : WriterCall} (h : (∃ id enc p, call = .reply id enc p) ∨
    (∃ id code text s, call = .errorReply id code text s) ∨ (∃ t id, call = .special t id ∧ t ∈ [1, 2, 3, 4, 5])) :
    IsReply call.layout := by
  rcases h with ⟨id, enc, p, rfl⟩ | ⟨id, code, text, s, rfl⟩ | ⟨t, id, rfl, ht⟩
  · refine ⟨_, _, rfl, ?_⟩
    split_ifs <;> decide
  · exact ⟨_, _, rfl, by decide⟩
  · refine ⟨t, id, rfl, ?_⟩
    simp only [List.mem_cons, List.not_mem_nil, or_false] at ht ⊢
    tauto

/-- Writing a reply on the ideal network. -/
theorem withWriter_replied {w w' : World Net υ} {c : ConnId} {e : Option Err} {call : WriterCall}
    (hs : ideal srv) (h0 : ∀ i, w.net.pending i = []) (hc : w.net.connected c = true) (hp : ¬ call.Panics)
    (hr : call.Valid → IsReply call.layout)
    (h : withWriter srv w c (fun wr s => call.run wr s) = .ok (w', e)) :
    (call.Valid → Replied c [call.layout] w w') ∧ (¬ call.Valid → Replied c [] w w') ∧
    (∀ i, w'.net.connected i = w.net.connected i) ∧ w'.conns = w.conns := by
  rcases withWriter_ok h with ⟨net, er, hg, rfl, _⟩ | ⟨net, net', hg, hf, rfl⟩
  · rw [hs] at hg
    simp [netSockets, hc] at hg
  · rw [hs] at hg hf
    simp only [netSockets, hc, if_true, Except.ok.injEq, Prod.mk.injEq, and_true] at hg
    rw [← hg] at hf
    by_cases hv : call.Valid
    · rw [call_ideal c w.net call hv hp (h0 c)] at hf
      simp only [Except.ok.injEq, Prod.mk.injEq] at hf
      rw [← hf.1]
      refine ⟨fun _ => ⟨?_, ?_, ?_⟩, fun h => absurd hv h, fun _ => rfl, rfl⟩
      · simp only [World.log, Net.deliver, if_true, replies, List.filter_append]
        rw [List.filter_cons_of_pos (by simpa using hr hv)]
        rfl
      · intro i hi
        simp [World.log, Net.deliver, hi]
      · intro i
        by_cases hi : i = c <;> simp [World.log, Net.deliver, hi, h0]
    · obtain ⟨er, he⟩ := call_ideal_invalid c w.net call hv (h0 c)
      rw [he] at hf
      simp only [Except.ok.injEq, Prod.mk.injEq] at hf
      rw [← hf.1]
      refine ⟨fun h => absurd h hv, fun _ => ⟨by simp [World.log], fun _ _ => rfl, h0⟩, fun _ => rfl, rfl⟩

theorem fulfillMsg_replied {w w' : World Net υ} {c : ConnId} {m : Msg} {enc : Encoding} {payload : Bytes}
    (hs : ideal srv) (h0 : ∀ i, w.net.pending i = []) (hc : w.net.connected c = true)
    (h : fulfillMsg srv w c m enc payload = .ok w') :
    ((WriterCall.reply m.identifierBytes enc payload).Valid →
      Replied c [(WriterCall.reply m.identifierBytes enc payload).layout] w w') ∧
    (¬ (WriterCall.reply m.identifierBytes enc payload).Valid → Replied c [] w w') ∧ w'.conns = w.conns := by
  obtain ⟨e, h⟩ := fulfillMsg_ok h
  obtain ⟨a, b, _, d⟩ := withWriter_replied (call := .reply m.identifierBytes enc payload) hs h0 hc
    (by simp [WriterCall.Panics]) (fun _ => layout_reply (.inl ⟨_, _, _, rfl⟩)) h
  exact ⟨a, b, d⟩

theorem specialFor_mem (re : ReplyErr) : specialFor re ∈ ([1, 2, 3, 4, 5] : List UInt8) := by
  cases re <;> simp [specialFor, MsgReplyMaxSessConnsReached, MsgReplySessionNotFound, MsgReplySessionsDisabled,
    MsgReplyInternalError]

theorem failMsg_replied {w w' : World Net υ} {c : ConnId} {m : Msg} {re : ReplyErr}
    (hs : ideal srv) (h0 : ∀ i, w.net.pending i = []) (hc : w.net.connected c = true)
    (hq : m.requiresReply = true) (hre : errorFor re = none)
    (h : failMsg srv w c m re = .ok w') :
    Replied c [specialFor re :: m.identifierBytes] w w' ∧ w'.conns = w.conns := by
  rcases failMsg_ok h with ⟨hq', _⟩ | ⟨_, ⟨e, code, text, he, h⟩ | ⟨_, net, er, hg, rfl⟩ | ⟨_, _, e, h⟩⟩
  · rw [hq] at hq'; cases hq'
  · rw [hre] at he; cases he
  · rw [hs] at hg
    simp [netSockets, hc] at hg
  · obtain ⟨a, b, _, d⟩ := withWriter_replied (call := .special (specialFor re) m.identifierBytes) hs h0 hc
      (by simp [WriterCall.Panics]) (fun hv => layout_reply (.inr (.inr ⟨_, _, rfl, hv⟩))) h
    exact ⟨a (specialFor_mem re), d⟩

theorem failMsg_error_replied {w w' : World Net υ} {c : ConnId} {m : Msg} {re : ReplyErr} {code text : Bytes}
    (hs : ideal srv) (h0 : ∀ i, w.net.pending i = []) (hc : w.net.connected c = true)
    (hq : m.requiresReply = true) (hre : errorFor re = some (code, text))
    (h : failMsg srv w c m re = .ok w') :
    ((WriterCall.errorReply m.identifierBytes code text true).Valid →
      Replied c [(WriterCall.errorReply m.identifierBytes code text true).layout] w w') ∧
    (¬ (WriterCall.errorReply m.identifierBytes code text true).Valid → Replied c [] w w') ∧
    w'.conns = w.conns := by
  rcases failMsg_ok h with ⟨hq', _⟩ | ⟨_, ⟨e, code', text', he, h⟩ | ⟨hr, net, er, hg, rfl⟩ | ⟨hn, _, e, h⟩⟩
  · rw [hq] at hq'; cases hq'
  · rw [hre] at he
    simp only [Option.some.injEq, Prod.mk.injEq] at he
    obtain ⟨rfl, rfl⟩ := he
    obtain ⟨a, b, _, d⟩ := withWriter_replied (call := .errorReply m.identifierBytes code text true) hs h0 hc
      (by simp [WriterCall.Panics]) (fun _ => layout_reply (.inr (.inl ⟨_, _, _, _, rfl⟩))) h
    exact ⟨a, b, d⟩
  · rw [hs] at hg
    simp [netSockets, hc] at hg
  · rw [hre] at hn; cases hn

theorem deregisterHandler_replied {w w' : World Net υ} {c : ConnId} (hs : ideal srv)
    (h0 : ∀ i, w.net.pending i = []) (h : deregisterHandler srv w c = .ok w') : Replied c [] w w' := by
  obtain ⟨_, w1, h1, _, rfl⟩ := deregisterHandler_ok h
  have key : Replied c [] w w1 := by
    rcases deregisterTask_ok h1 with ⟨ha, ht, h1⟩ | ⟨_, rfl⟩
    · have hq : QuietW ((opsDone w).upd c fun con => { con with tasks := con.tasks - 1 }) w1 := by
        refine unlink_quietW hs h0 ?_ h1
        simp only [World.upd, if_true, opsDone] at ht ⊢
        omega
      exact (hq.replied c).congr rfl rfl
    · exact ⟨by simp [World.upd, opsDone], fun _ _ => rfl, h0⟩
  exact ⟨key.here, key.elsewhere, key.pending⟩

/-- A request handler on the ideal network. -/
theorem handleRequest_replied {w w' : World Net υ} {c : ConnId} {m : Msg} (hs : ideal srv)
    (h0 : ∀ i, w.net.pending i = []) (hc : w.net.connected c = true) (ht : 1 ≤ (w.conns c).tasks)
    (hq : m.requiresReply = true) (hcl : (srv.hooks.onRequest w.user c m).2.closesMsg = false)
    (h : handleRequest srv w c m = .ok w') :
    ∃ call, replyCall m.identifierBytes (srv.hooks.onRequest w.user c m).2 = some call ∧
      (call.Valid → Replied c [call.layout] w w') ∧ (¬ call.Valid → Replied c [] w w') := by
  obtain ⟨w1, w2, w3, hr, hf, hd, rfl⟩ := handleRequest_ok h
  generalize hout : (srv.hooks.onRequest w.user c m).2 = out at *
  have hm : afterHook m out = m := by simp [afterHook, hcl]
  rw [hm] at hf
  have hqw := runApis_quietW hs (w := { w.log (.onRequest c m.ident (m.name.view m.buf) m.payload.encoding
      (m.payload.data.view m.buf)) with user := (srv.hooks.onRequest w.user c m).1 }) h0 hr
  have hc1 : w1.net.connected c = true := hqw.busy c ht hc
  have hp1 := hqw.net.pending
  have r1 : Replied c [] w w1 := (hqw.replied c).congr rfl rfl
  have fin : ∀ {l : List Bytes}, Replied c l w1 w2 → Replied c l w (releaseMsg w3) := by
    intro l r2
    have r3 := deregisterHandler_replied hs r2.pending hd
    have := (r1.trans r2).trans r3
    simp only [List.nil_append, List.append_nil] at this
    exact this.congr rfl rfl
  rcases hf with ⟨he, hf⟩ | ⟨he, hf⟩
  · obtain ⟨a, b, _⟩ := fulfillMsg_replied hs hp1 hc1 hf
    exact ⟨_, by simp only [replyCall, he], fun hv => fin (a hv), fun hv => fin (b hv)⟩
  · cases hre : out.err with
    | nil => exact absurd hre he
    | request code text =>
      rw [hre] at hf
      obtain ⟨a, b, _⟩ := failMsg_error_replied (code := code) (text := text) hs hp1 hc1 hq rfl hf
      exact ⟨_, by simp only [replyCall, hre], fun hv => fin (a hv), fun hv => fin (b hv)⟩
    | requestPtr p =>
      rw [hre] at hf
      cases p with
      | none =>
        rcases failMsg_ok hf with ⟨hq', _⟩ | ⟨_, ⟨_, _, _, he, _⟩ | ⟨_, net, er, hg, _⟩ | ⟨_, hn, _, _⟩⟩
        · rw [hq] at hq'; cases hq'
        · cases he
        · rw [hs] at hg; simp [netSockets, hc1] at hg
        · exact absurd rfl hn
      | some p =>
        obtain ⟨code, text⟩ := p
        obtain ⟨a, b, _⟩ := failMsg_error_replied (code := code) (text := text) hs hp1 hc1 hq rfl hf
        exact ⟨_, by simp only [replyCall, hre], fun hv => fin (a hv), fun hv => fin (b hv)⟩
    | maxSessConnsReached | sessionNotFound | sessionsDisabled | other =>
      rw [hre] at hf
      obtain ⟨a, _⟩ := failMsg_replied hs hp1 hc1 hq rfl hf
      refine ⟨.special 2 m.identifierBytes, by simp only [replyCall, hre], fun _ => fin a,
        fun hv => absurd ?_ hv⟩
      simp [WriterCall.Valid]

/-- A restoration handler on the ideal network: exactly one reply. -/
theorem handleSessionRestore_replied {w w' : World Net υ} {c : ConnId} {m : Msg} (hs : ideal srv)
    (h0 : ∀ i, w.net.pending i = []) (hc : w.net.connected c = true)
    (hq : m.requiresReply = true) (h : handleSessionRestore srv w c m = .ok w') :
    ∃ b, Replied c [b] w w' ∧ ((∃ t, b = t :: m.identifierBytes ∧ t ∈ [2, 3, 4, 5]) ∨
      ∃ s, b = 192 :: (m.identifierBytes ++ s)) := by
  obtain ⟨w2, w3, hk, hd, rfl⟩ := handleSessionRestore_ok h
  have fin : ∀ {l : List Bytes} {w1 : World Net υ}, w1.net = w.net → Replied c l w1 w2 →
      Replied c l w (releaseMsg w3) := by
    intro l w1 hn r2
    have r3 := deregisterHandler_replied hs r2.pending hd
    have := r2.trans r3
    simp only [List.append_nil] at this
    exact this.congr hn.symm rfl
  have sp : ∀ {w1 : World Net υ} {re : ReplyErr}, failMsg srv w1 c m re = .ok w2 → w1.net = w.net →
      errorFor re = none → specialFor re ∈ ([2, 3, 4, 5] : List UInt8) →
      ∃ b, Replied c [b] w (releaseMsg w3) ∧ ((∃ t, b = t :: m.identifierBytes ∧ t ∈ [2, 3, 4, 5]) ∨
        ∃ s, b = 192 :: (m.identifierBytes ++ s)) := by
    intro w1 re hf hn he hmem
    obtain ⟨a, _⟩ := failMsg_replied hs (by rw [hn]; exact h0) (by rw [hn]; exact hc) hq he hf
    exact ⟨_, fin hn a, .inl ⟨_, rfl, hmem⟩⟩
  rcases hk with ⟨_, h⟩ | ⟨_, _, h⟩ | ⟨_, _, _, h⟩ | ⟨_, _, _, h⟩ | ⟨r, _, _, _, _, h⟩ |
    ⟨r, encoded, w1, _, _, _, _, hr, h⟩
  · exact sp h rfl rfl (by simp [specialFor, MsgReplySessionsDisabled])
  · exact sp h rfl rfl (by simp [specialFor, MsgReplyMaxSessConnsReached])
  · exact sp h rfl rfl (by simp [specialFor, MsgReplyInternalError])
  · exact sp h rfl rfl (by simp [specialFor, MsgReplySessionNotFound])
  · exact sp h rfl rfl (by simp [specialFor, MsgReplyInternalError])
  · obtain ⟨s, _, hw1, _⟩ := register_ok hr
    have hn : w1.net = w.net := by rw [hw1]; rfl
    obtain ⟨a, _, _⟩ := fulfillMsg_replied hs (by rw [hn]; exact h0) (by rw [hn]; exact hc) h
    refine ⟨_, fin hn (a (by simp [WriterCall.Valid, encUtf8])), .inr ⟨encoded, ?_⟩⟩
    simp [WriterCall.layout, encUtf8]

/-- A session closure handler on the ideal network: exactly one reply. -/
theorem handleSessionClosure_replied {w w' : World Net υ} {c : ConnId} {m : Msg} (hs : ideal srv)
    (h0 : ∀ i, w.net.pending i = []) (hc : w.net.connected c = true)
    (hq : m.requiresReply = true) (h : handleSessionClosure srv w c m = .ok w') :
    ∃ t, Replied c [t :: m.identifierBytes] w w' ∧
      t = if srv.sessionsEnabled then 191 else 5 := by
  obtain ⟨w2, w3, hk, hd, rfl⟩ := handleSessionClosure_ok h
  have fin : ∀ {l : List Bytes} {w1 : World Net υ}, w1.net = w.net → Replied c l w1 w2 →
      Replied c l w (releaseMsg w3) := by
    intro l w1 hn r2
    have r3 := deregisterHandler_replied hs r2.pending hd
    have := r2.trans r3
    simp only [List.append_nil] at this
    exact this.congr hn.symm rfl
  rcases hk with ⟨he, h⟩ | ⟨he, _, h⟩ | ⟨he, _, w1, n, hdr, h⟩
  · obtain ⟨a, _⟩ := failMsg_replied hs h0 hc hq rfl h
    exact ⟨_, fin rfl a, by rw [he]; rfl⟩
  · obtain ⟨a, _, _⟩ := fulfillMsg_replied hs h0 hc h
    have := fin rfl (a (by simp [WriterCall.Valid]))
    exact ⟨191, by simpa [WriterCall.layout] using this, by rw [he]; rfl⟩
  · have hn : w1.net = w.net := by
      rcases deregister_ok hdr with ⟨_, rfl, _⟩ | ⟨s, _, _, ⟨_, rfl⟩ | ⟨_, _, _, rfl⟩⟩ <;> rfl
    obtain ⟨a, _, _⟩ := fulfillMsg_replied (w := setSession w1 c none) hs
      (by show ∀ i, w1.net.pending i = []; rw [hn]; exact h0)
      (by show w1.net.connected c = true; rw [hn]; exact hc) h
    have := fin (w1 := setSession w1 c none) hn (a (by simp [WriterCall.Valid]))
    exact ⟨191, by simpa [WriterCall.layout] using this, by rw [he]; rfl⟩

/-- A signal handler on the ideal network: no reply. -/
theorem handleSignal_replied {w w' : World Net υ} {c : ConnId} {m : Msg} (hs : ideal srv)
    (h0 : ∀ i, w.net.pending i = []) (h : handleSignal srv w c m = .ok w') : Replied c [] w w' := by
  obtain ⟨w1, w2, hr, hd, rfl⟩ := handleSignal_ok h
  have hqw := runApis_quietW hs (w := { w.log (.onSignal c (m.name.view m.buf) m.payload.encoding
      (m.payload.data.view m.buf)) with user := (srv.hooks.onSignal w.user c m).1 }) h0 hr
  have r1 : Replied c [] w w1 := (hqw.replied c).congr rfl rfl
  exact (r1.trans (deregisterHandler_replied hs hqw.net.pending hd)).congr rfl rfl

theorem failMsgShutdown_replied {w w' : World Net υ} {c : ConnId} {m : Msg} (hs : ideal srv)
    (h0 : ∀ i, w.net.pending i = []) (hc : w.net.connected c = true)
    (h : failMsgShutdown srv w c m = .ok w') : Replied c [1 :: m.identifierBytes] w w' := by
  obtain ⟨net, net', e, hg, hf, rfl⟩ := failMsgShutdown_ok h
  have hw : withWriter srv w c (fun wr s => (WriterCall.special 1 m.identifierBytes).run wr s) =
      .ok ({ w with net := net' }.log (.sent c), e) := by
    unfold withWriter
    rw [hg]
    simp only [bind, Except.bind, WriterCall.run]
    rw [show (1 : UInt8) = MsgReplyShutdown from rfl, hf]
    rfl
  exact (withWriter_replied (call := .special 1 m.identifierBytes) hs h0 hc (by simp [WriterCall.Panics])
    (fun hv => layout_reply (.inr (.inr ⟨_, _, rfl, hv⟩))) hw).1 (by simp [WriterCall.Valid])

/-- The replies to a message. -/
inductive RepliesTo (srv : Server Net υ) (w : World Net υ) (c : ConnId) (m : Msg) : List Bytes → Prop
  | silent : (w.conns c).isActive = false ∨ ¬ asksReply m.msgType → RepliesTo srv w c m []
  | shutdown : (w.conns c).isActive = true → asksReply m.msgType → w.shutdown = true →
      RepliesTo srv w c m [1 :: m.identifierBytes]
  | request (call : WriterCall) : (w.conns c).isActive = true → m.msgType ∈ [127, 128, 129] →
      w.shutdown = false → replyCall m.identifierBytes (srv.hooks.onRequest w.user c m).2 = some call →
      call.Valid → RepliesTo srv w c m [call.layout]
  | unwritable (call : WriterCall) : (w.conns c).isActive = true → m.msgType ∈ [127, 128, 129] →
      w.shutdown = false → replyCall m.identifierBytes (srv.hooks.onRequest w.user c m).2 = some call →
      ¬ call.Valid → RepliesTo srv w c m []
  | restoreFailed (t : UInt8) : (w.conns c).isActive = true → m.msgType = 32 → w.shutdown = false →
      t ∈ [2, 3, 4, 5] → RepliesTo srv w c m [t :: m.identifierBytes]
  | restored (s : Bytes) : (w.conns c).isActive = true → m.msgType = 32 → w.shutdown = false →
      RepliesTo srv w c m [192 :: (m.identifierBytes ++ s)]
  | closure : (w.conns c).isActive = true → m.msgType = 31 → w.shutdown = false →
      RepliesTo srv w c m [(if srv.sessionsEnabled then 191 else 5) :: m.identifierBytes]

theorem handleMessage_replied {w w' : World Net υ} {c : ConnId} {m : Msg} (hs : ideal srv)
    (h0 : ∀ i, w.net.pending i = []) (hc : w.net.connected c = true) (ht : 0 ≤ (w.conns c).tasks)
    (hcl : (srv.hooks.onRequest w.user c m).2.closesMsg = false)
    (h : handleMessage srv w c m = .ok w') : ∃ l, RepliesTo srv w c m l ∧ Replied c l w w' := by
  have none_ : ∀ {w1 w2 : World Net υ}, w1.net = w.net → Replied c [] w1 w2 → Replied c [] w (releaseMsg w2) :=
    fun hn r => r.congr hn.symm rfl
  have self : Replied c [] w w := ⟨by simp, fun _ _ => rfl, h0⟩
  rcases handleMessage_ok h with ⟨hh, rfl⟩ | ⟨_, w1, b, hr, hb⟩
  · refine ⟨[], .silent (.inr ?_), none_ rfl self⟩
    rw [hh]; decide
  · rcases registerHandler_ok hr with ⟨ha, rfl, rfl⟩ | ⟨ha, _, ⟨hsd, hq, rfl, hf⟩ | ⟨hns, rfl, rfl⟩⟩
    · rcases hb with ⟨_, rfl⟩ | ⟨hc, _⟩
      · exact ⟨[], .silent (.inl ha), none_ rfl self⟩
      · cases hc
    · rcases hb with ⟨_, rfl⟩ | ⟨hc, _⟩
      · exact ⟨_, .shutdown ha ((requiresReply_iff m).mp hq) hsd,
          (failMsgShutdown_replied (w := slotTaken w c) hs h0 hc hf).congr rfl rfl⟩
      · cases hc
    · rcases hb with ⟨hc, _⟩ | ⟨_, hb⟩
      · cases hc
      · have ht' : 1 ≤ ((registered w c).conns c).tasks := by
          simp only [registered, registerTask, World.upd, if_true]; omega
        have hsd : asksReply m.msgType → w.shutdown = false := by
          intro hq
          cases hsd : w.shutdown
          · rfl
          · exact absurd ⟨hsd, (requiresReply_iff m).mpr hq⟩ hns
        rcases hb with ⟨ht, hh⟩ | ⟨ht, hh⟩ | ⟨ht, hh⟩ | ⟨ht, hh⟩ | ⟨⟨h1, h2, h3, h4⟩, w2, hd, rfl⟩
        · refine ⟨[], .silent (.inr ?_), (handleSignal_replied (w := registered w c) hs h0 hh).congr rfl rfl⟩
          simp only [MsgSignalBinary, MsgSignalUtf8, MsgSignalUtf16] at ht
          rcases ht with ht | ht | ht <;> rw [ht] <;> decide
        · have hm : m.msgType ∈ [127, 128, 129] := by
            simpa [MsgRequestBinary, MsgRequestUtf8, MsgRequestUtf16] using ht
          have hq : asksReply m.msgType := by
            unfold asksReply
            simp only [List.mem_cons, List.not_mem_nil, or_false] at hm ⊢
            tauto
          obtain ⟨call, hcall, h1, h2⟩ := handleRequest_replied (w := registered w c) hs h0 hc ht'
            ((requiresReply_iff m).mpr hq) hcl hh
          by_cases hv : call.Valid
          · exact ⟨_, .request call ha hm (hsd hq) hcall hv, (h1 hv).congr rfl rfl⟩
          · exact ⟨_, .unwritable call ha hm (hsd hq) hcall hv, (h2 hv).congr rfl rfl⟩
        · have hm : m.msgType = 32 := ht
          have hq : asksReply m.msgType := by rw [hm]; decide
          obtain ⟨b, h1, h2⟩ := handleSessionRestore_replied (w := registered w c) hs h0 hc
            ((requiresReply_iff m).mpr hq) hh
          rcases h2 with ⟨t, rfl, h2⟩ | ⟨s, rfl⟩
          · exact ⟨_, .restoreFailed t ha hm (hsd hq) h2, h1.congr rfl rfl⟩
          · exact ⟨_, .restored s ha hm (hsd hq), h1.congr rfl rfl⟩
        · have hm : m.msgType = 31 := ht
          have hq : asksReply m.msgType := by rw [hm]; decide
          obtain ⟨t, h1, rfl⟩ := handleSessionClosure_replied (w := registered w c) hs h0 hc
            ((requiresReply_iff m).mpr hq) hh
          exact ⟨_, .closure ha hm (hsd hq), h1.congr rfl rfl⟩
        · refine ⟨[], .silent (.inr ?_),
            (deregisterHandler_replied (w := registered w c) hs h0 hd).congr rfl rfl⟩
          unfold asksReply
          simp only [MsgRequestBinary, MsgRequestUtf8, MsgRequestUtf16, MsgRequestRestoreSession,
            MsgRequestCloseSession] at h2 h3 h4
          simp only [List.mem_cons, List.not_mem_nil, or_false]
          tauto

end Webwire
