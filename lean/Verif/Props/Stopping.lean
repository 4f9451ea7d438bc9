import Verif.Props.Reply
import Verif.Proofs.Returns

/-!
# C59: what stops a server that is shutting down
-/

set_option autoImplicit false

namespace Webwire
open Spec

variable {ν υ : Type} {srv : Server ν υ}

private theorem uint32_pred (x : UInt32) : x - 1 < 1 ↔ x = 1 := by
  constructor
  · intro h
    have h1 : x - 1 = 0 := by
      apply UInt32.toNat_inj.mp
      have := UInt32.lt_iff_toNat_lt.mp h
      simp only [UInt32.reduceToNat] at this ⊢
      omega
    calc x = x - 1 + 1 := by rw [UInt32.sub_add_cancel]
      _ = 1 := by rw [h1]; rfl
  · rintro rfl; decide

private theorem uncount_returns (hw : WellBehaved srv) (w : World ν υ) (c : ConnId)
    (hs : ¬ (w.shutdown = true ∧ w.currentOps = 1 ∧ w.rdyClosed = true))
    (hl : (w.conns c).limit > 1 → 1 ≤ (w.conns c).slots) :
    ∃ r, deregisterHandler srv w c = .ok r := by
  have hd : ∃ w1, deregisterTask srv (opsDone w) c = .ok w1 := by
    unfold deregisterTask
    simp only
    split_ifs
    · exact unlink_returns hw _ c
    · exact ⟨_, rfl⟩
  obtain ⟨w1, h1⟩ := hd
  have hq : (w1.conns c).limit = (w.conns c).limit ∧ (w1.conns c).slots = (w.conns c).slots := by
    rcases deregisterTask_ok h1 with ⟨_, _, h1⟩ | ⟨_, rfl⟩
    · have q := Quiet.unlink h1
      rw [q.limit, q.slots]
      simp [World.upd, opsDone]
    · simp [World.upd, opsDone]
  unfold deregisterHandler
  simp only [pure, Except.pure]
  rw [if_neg (by
    rintro ⟨h, h'⟩
    simp only [decide_eq_true_eq, uint32_pred] at h h'
    exact hs ⟨h.1, h.2, h'⟩)]
  change ∃ r, (deregisterTask srv (opsDone w) c >>= _) = _
  rw [h1]
  simp only [bind, Except.bind]
  rw [if_neg]
  · exact ⟨_, rfl⟩
  · rw [hq.1, hq.2]
    simp only [decide_eq_true_eq]
    rintro ⟨a, b⟩
    have := hl a
    omega

/-- All handler slots of the connection are taken. -/
def Full (con : Conn) : Prop := con.limit > 1 ∧ (con.slots : Int) ≥ con.limit

instance (con : Conn) : Decidable (Full con) := by unfold Full; infer_instance

/-- C59: exactly what stops a server that is shutting down (with sockets and user code that return): a message other than
a heartbeat on an open connection, if all handler slots of the connection are taken, or if it is to be refused and there is
no writer, or if it is a signal and ends the last operation for the second time. -/
theorem C59_during_shutdown (srv : Server ν υ) (hw : WellBehaved srv) (w : World ν υ) (hsd : w.shutdown = true) (c : ConnId)
    (i : Incoming) :
    (¬ ∃ w', serve srv w c [i] = .ok w') ↔
    ∃ bs v, i = .data bs ∧ Grammar bs v ∧ bs.length ≤ srv.bufferSize.toNat ∧ (w.conns c).isActive = true ∧
      v.msgType ≠ MsgHeartbeat ∧
      (Full (w.conns c) ∨
       (asksReply v.msgType ∧ ∃ net e, srv.sock.getWriter w.net c = .ok (net, some e)) ∨
       (¬ asksReply v.msgType ∧ w.currentOps = 1 ∧ w.rdyClosed = true)) := by
  constructor
  · intro hn
    cases i with
    | failed b => exact absurd (disconnect_returns hw w c) hn
    | data bs =>
      by_cases hg : bs.length ≤ srv.bufferSize.toNat ∧ ∃ v, Grammar bs v
      swap
      · rw [serve_malformed (fun h1 h2 => hg ⟨h1, h2⟩)] at hn
        exact absurd (disconnect_returns hw w c) hn
      obtain ⟨hfit, v, hg⟩ := hg
      obtain ⟨m, h1, _, _, _, h2⟩ := serve_grammar (srv := srv) (w := w) (c := c) (rest := []) hg hfit
      have ht : m.msgType = v.msgType := by rw [← h1]; rfl
      rw [h2] at hn
      refine ⟨bs, v, rfl, hg, hfit, ?_⟩
      by_contra hx
      apply hn
      suffices ∃ w1, handleMessage srv w c m = .ok w1 by
        obtain ⟨w1, h3⟩ := this
        rw [h3]; exact ⟨_, rfl⟩
      rw [← ht] at hx
      by_cases hh : m.msgType = MsgHeartbeat
      · unfold handleMessage; rw [if_pos hh]; exact ⟨_, rfl⟩
      cases ha : (w.conns c).isActive with
      | false =>
        unfold handleMessage registerHandler
        simp [hh, ha, bind, Except.bind, pure, Except.pure]
      | true =>
        have hx' : ¬ (Full (w.conns c) ∨
            (asksReply m.msgType ∧ ∃ net e, srv.sock.getWriter w.net c = .ok (net, some e)) ∨
            (¬ asksReply m.msgType ∧ w.currentOps = 1 ∧ w.rdyClosed = true)) := fun h => hx ⟨ha, hh, h⟩
        simp only [not_or] at hx'
        obtain ⟨hfull, hwr, hop⟩ := hx'
        unfold Full at hfull
        by_cases hq : asksReply m.msgType
        · have hr := (requiresReply_iff m).mpr hq
          obtain ⟨⟨net, e⟩, hgw⟩ := hw.getWriter w.net c
          cases e with
          | some e => exact absurd ⟨hq, net, e, hgw⟩ hwr
          | none =>
            obtain ⟨⟨net', e⟩, hs⟩ := call_returns (hw.writer c) net (.special MsgReplyShutdown m.identifierBytes)
              (by simp [WriterCall.Panics])
            simp only [WriterCall.run] at hs
            unfold handleMessage registerHandler failMsgShutdown
            simp [hh, ha, hfull, hsd, hr, hgw, hs, World.upd, bind, Except.bind, pure, Except.pure]
        · have hr : m.requiresReply = false := by
            cases hr : m.requiresReply with
            | false => rfl
            | true => exact absurd ((requiresReply_iff m).mp hr) hq
          have hreg : registerHandler srv w c m = .ok (registered w c, true) := by
            unfold registerHandler registered
            simp [ha, hfull, hsd, hr, World.upd, pure, Except.pure]
          have hok : ∀ w1, w1.shutdown = (registered w c).shutdown → w1.currentOps = (registered w c).currentOps →
              w1.rdyClosed = (registered w c).rdyClosed → (w1.conns c).limit = ((registered w c).conns c).limit →
              (w1.conns c).slots = ((registered w c).conns c).slots → ∃ r, deregisterHandler srv w1 c = .ok r := by
            intro w1 e1 e2 e3 e4 e5
            apply uncount_returns hw
            · rw [e1, e2, e3]
              rintro ⟨_, h4, h5⟩
              refine hop ⟨hq, ?_, ?_⟩
              · simpa [registered, registerTask, World.upd, hsd] using h4
              · simpa [registered, registerTask, World.upd] using h5
            · rw [e4, e5]
              simp only [registered, registerTask, World.upd, if_true]
              intro hl
              rw [if_pos hl]
              omega
          have hnr : ¬ (m.msgType = MsgRequestBinary ∨ m.msgType = MsgRequestUtf8 ∨ m.msgType = MsgRequestUtf16) ∧
              m.msgType ≠ MsgRequestRestoreSession ∧ m.msgType ≠ MsgRequestCloseSession := by
            simp only [asksReply, List.mem_cons, List.not_mem_nil, or_false, not_or] at hq
            simp only [MsgRequestCloseSession, MsgRequestRestoreSession, MsgRequestBinary, MsgRequestUtf8, MsgRequestUtf16]
            tauto
          unfold handleMessage
          rw [if_neg hh, hreg]
          simp only [bind, Except.bind, pure, Except.pure, Bool.not_true, Bool.false_eq_true, if_false]
          by_cases h1 : m.msgType = MsgSignalBinary ∨ m.msgType = MsgSignalUtf8 ∨ m.msgType = MsgSignalUtf16
          · obtain ⟨w2, h2⟩ := runApis_returns hw (srv.hooks.onSignal (registered w c).user c m).2
              { (registered w c).log (.onSignal c (m.name.view m.buf) m.payload.encoding (m.payload.data.view m.buf)) with
                user := (srv.hooks.onSignal (registered w c).user c m).1 }
            have q := Quiet.runApis h2
            obtain ⟨w3, h3⟩ := hok w2 q.shutdown q.ops q.rdy (q.limit c) (q.slots c)
            refine ⟨releaseMsg w3, ?_⟩
            rw [if_pos h1]
            unfold handleSignal
            refine (congrArg (fun x => Except.bind x fun w => Except.bind (deregisterHandler srv w c) fun w =>
              .ok (releaseMsg w)) h2).trans ?_
            exact congrArg (fun x => Except.bind x fun w => .ok (releaseMsg w)) h3
          · obtain ⟨w3, h3⟩ := hok _ rfl rfl rfl rfl rfl
            rw [if_neg h1, if_neg hnr.1, if_neg hnr.2.1, if_neg hnr.2.2, h3]
            exact ⟨_, rfl⟩
  · rintro ⟨bs, v, rfl, hg, hfit, ha, hh, hx⟩ ⟨w', h⟩
    obtain ⟨m, h1, _, _, _, h2⟩ := serve_grammar (srv := srv) (w := w) (c := c) (rest := []) hg hfit
    have ht : m.msgType = v.msgType := by rw [← h1]; rfl
    rw [← ht] at hh hx
    rw [h2] at h
    obtain ⟨w1, h3, _⟩ := bind_ok h
    rcases handleMessage_ok h3 with ⟨h4, _⟩ | ⟨_, w2, b, hreg, hb⟩
    · exact hh h4
    have hfin : ∀ w1 w3, w1.shutdown = (registered w c).shutdown → w1.currentOps = (registered w c).currentOps →
        w1.rdyClosed = (registered w c).rdyClosed → deregisterHandler srv w1 c = .ok w3 →
        ¬ (w.currentOps = 1 ∧ w.rdyClosed = true) := by
      intro w1 w3 e1 e2 e3 hd hx
      refine (deregisterHandler_ok hd).1 ⟨⟨?_, ?_⟩, ?_⟩
      · rw [e1]; simpa [registered, registerTask, World.upd] using hsd
      · rw [uint32_pred, e2]; simpa [registered, registerTask, World.upd, hsd] using hx.1
      · rw [e3]; simpa [registered, registerTask, World.upd] using hx.2
    rcases registerHandler_ok hreg with ⟨hna, _⟩ | ⟨_, hfree, ⟨_, hr, _, hf⟩ | ⟨hnr, rfl, rfl⟩⟩
    · rw [ha] at hna; cases hna
    · rcases hx with hx | ⟨_, net, e, hx⟩ | ⟨hx, _⟩
      · exact hfree hx
      · obtain ⟨net', net'', e', hg', _⟩ := failMsgShutdown_ok hf
        simp only [slotTaken, World.upd] at hg'
        rw [hx] at hg'
        cases hg'
      · exact hx ((requiresReply_iff m).mp hr)
    · have hq : ¬ asksReply m.msgType := fun hq => hnr ⟨hsd, (requiresReply_iff m).mpr hq⟩
      rcases hx with hx | ⟨hx, _⟩ | ⟨_, hx⟩
      · exact hfree hx
      · exact hq hx
      rcases hb with ⟨hb, _⟩ | ⟨_, hb⟩
      · cases hb
      simp only [asksReply, List.mem_cons, List.not_mem_nil, or_false, not_or] at hq
      simp only [MsgRequestCloseSession, MsgRequestRestoreSession, MsgRequestBinary, MsgRequestUtf8, MsgRequestUtf16] at hb
      rcases hb with ⟨_, hb⟩ | ⟨h5, _⟩ | ⟨h5, _⟩ | ⟨h5, _⟩ | ⟨_, w4, hd, _⟩
      · obtain ⟨w5, w6, h6, h7, _⟩ := handleSignal_ok hb
        have q := Quiet.runApis h6
        exact hfin _ _ q.shutdown q.ops q.rdy h7 hx
      · tauto
      · tauto
      · tauto
      · exact hfin _ _ rfl rfl rfl hd hx

/-- C59, non-vacuity: three inputs that stop a well-behaved server, each in one of the ways, and a signal that does not. -/
example :
    (∃ bs v, Grammar bs v ∧ asksReply v.msgType ∧ Full { (exWorld.conns 1) with limit := 2, slots := 2 } ∧
      serve (exServer {}) { exWorld with shutdown := true, conns := fun _ => { exWorld.conns 1 with limit := 2, slots := 2 } } 1
        [.data bs] = goBlock "no free handler slot") ∧
    (∃ bs v, Grammar bs v ∧ asksReply v.msgType ∧
      serve (exServer {}) { exWorld with shutdown := true, net := { exWorld.net with connected := fun _ => false } } 1
        [.data bs] = goPanic "nil pointer dereference") ∧
    (∃ bs v, Grammar bs v ∧ ¬ asksReply v.msgType ∧
      serve (exServer {}) { exWorld with shutdown := true, currentOps := 1, rdyClosed := true } 1 [.data bs] =
        goPanic "close of closed channel") ∧
    ∃ w', serve (exServer {}) { exWorld with shutdown := true } 1 [.data [64, 2, 97, 98, 99]] = .ok w' :=
  ⟨⟨_, _, Grammar.request 127 1 [1,2,3,4,5,6,7,8] [97] [] (by simp) rfl rfl (by simp), by decide, by decide, rfl⟩,
   ⟨_, _, Grammar.request 127 1 [1,2,3,4,5,6,7,8] [97] [] (by simp) rfl rfl (by simp), by decide, rfl⟩,
   ⟨_, _, Grammar.signal 64 2 [97, 98] [99] (by simp) rfl (by simp), by decide, rfl⟩, _, rfl⟩

end Webwire
