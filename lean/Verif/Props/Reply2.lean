import Verif.Props.Reply
import Verif.Proofs.Client

/-!
# Property C22 on networks with message buffers of a fixed size

The sockets of `transport/memchan` refuse messages that are longer than the buffer (`netSockets (some cap)`).
-/

set_option autoImplicit false

namespace Webwire
open Spec

variable {υ : Type}

private theorem answer_room {srv : Server Net υ} {cap : Nat} (hs : srv.sock = netSockets (some cap)) {w w2 : World Net υ}
    {c : ConnId} {m : Msg} {out : RequestOut} (h0 : w.net.pending c = []) (hc : w.net.connected c = true)
    (hq : m.requiresReply = true)
    (hf : (out.err = .nil ∧ fulfillMsg srv w c m out.enc out.payload = .ok w2) ∨
      (out.err ≠ .nil ∧ failMsg srv w c m
        (match out.err with | .request code text => .request code text | .requestPtr p => .requestPtr p | _ => .nil) = .ok w2)) :
    ∃ call, replyCall m.identifierBytes out = some call ∧
      ((call.Valid ∧ call.layout.length ≤ cap ∧ w2.net.out c = w.net.out c ++ [call.layout]) ∨
       (¬ (call.Valid ∧ call.layout.length ≤ cap) ∧ w2.net.out c = w.net.out c)) := by
  have main : ∀ (call : WriterCall) (e : Option Err), ¬ call.Panics →
      withWriter srv w c (fun wr s => call.run wr s) = .ok (w2, e) →
      ((call.Valid ∧ call.layout.length ≤ cap ∧ w2.net.out c = w.net.out c ++ [call.layout]) ∨
       (¬ (call.Valid ∧ call.layout.length ≤ cap) ∧ w2.net.out c = w.net.out c)) := by
    intro call e hp h
    obtain ⟨_, _, _, ⟨_, _, hv, hr, hd⟩ | ⟨_, hd, hno⟩⟩ := withWriter_net hs h0 hp h
    · exact .inl ⟨hv, hr cap rfl, by rw [hd]; simp [Net.deliver]⟩
    · refine .inr ⟨fun ⟨hv, hl⟩ => hno ⟨hc, hv, ?_⟩, by rw [hd]⟩
      intro k hk
      cases hk
      exact hl
  rcases hf with ⟨he, hf⟩ | ⟨he, hf⟩
  · obtain ⟨e, h⟩ := fulfillMsg_ok hf
    exact ⟨_, by simp only [replyCall, he], main (.reply m.identifierBytes out.enc out.payload) e (by simp [WriterCall.Panics]) h⟩
  · have err : ∀ {re : ReplyErr} {code text : Bytes}, errorFor re = some (code, text) → failMsg srv w c m re = .ok w2 →
        ∃ e, withWriter srv w c (fun wr s => (WriterCall.errorReply m.identifierBytes code text true).run wr s) = .ok (w2, e) := by
      intro re code text hre hf
      rcases failMsg_ok hf with ⟨hq', _⟩ | ⟨_, ⟨e, code', text', he', h⟩ | ⟨rfl, _⟩ | ⟨hn, _⟩⟩
      · rw [hq] at hq'; cases hq'
      · rw [hre] at he'; cases he'; exact ⟨e, h⟩
      · cases hre
      · rw [hre] at hn; cases hn
    have plain : failMsg srv w c m .nil = .ok w2 →
        ∃ e, withWriter srv w c (fun wr s => (WriterCall.special 2 m.identifierBytes).run wr s) = .ok (w2, e) := by
      intro hf
      rcases failMsg_ok hf with ⟨hq', _⟩ | ⟨_, ⟨_, _, _, hx, _⟩ | ⟨hx, _⟩ | ⟨_, _, e, h⟩⟩
      · rw [hq] at hq'; cases hq'
      · cases hx
      · cases hx
      · exact ⟨e, h⟩
    cases hre : out.err with
    | nil => exact absurd hre he
    | request code text =>
      rw [hre] at hf
      obtain ⟨e, h⟩ := err (re := .request code text) rfl hf
      exact ⟨_, by simp only [replyCall, hre], main _ e (by simp [WriterCall.Panics]) h⟩
    | requestPtr p =>
      rw [hre] at hf
      cases p with
      | none =>
        rcases failMsg_ok hf with ⟨hq', _⟩ | ⟨_, ⟨_, _, _, hx, _⟩ | ⟨_, net, er, hg, _⟩ | ⟨_, hn, _⟩⟩
        · rw [hq] at hq'; cases hq'
        · cases hx
        · rw [hs] at hg; simp [netSockets, hc] at hg
        · exact absurd rfl hn
      | some p =>
        obtain ⟨code, text⟩ := p
        obtain ⟨e, h⟩ := err (re := .requestPtr (some (code, text))) rfl hf
        exact ⟨_, by simp only [replyCall, hre], main _ e (by simp [WriterCall.Panics]) h⟩
    | maxSessConnsReached | sessionNotFound | sessionsDisabled | other =>
      rw [hre] at hf
      obtain ⟨e, h⟩ := plain hf
      exact ⟨_, by simp only [replyCall, hre], main _ e (by simp [WriterCall.Panics]) h⟩

namespace Spec

/-- An open connection on a network with message buffers of `cap` bytes receives a well-formed request; its handler returns `out`
and does nothing else. -/
structure AskedRoom (srv : Server Net υ) (cap : Nat) (w : World Net υ) (c : ConnId) (bs : Bytes) (v : View) (out : RequestOut) : Prop where
  sock : srv.sock = netSockets (some cap)
  clean : ∀ i, w.net.pending i = []
  connected : w.net.connected c = true
  active : (w.conns c).isActive = true
  running : w.shutdown = false
  grammar : Grammar bs v
  fits : bs.length ≤ srv.bufferSize.toNat
  asks : v.msgType ∈ [127, 128, 129]
  result : ∀ m, (srv.hooks.onRequest w.user c m).2 = out
  calls : out.calls = []
  keeps : out.closesMsg = false

end Spec

/-- C22 on networks with message buffers of a fixed size: the client receives the reply due for the result of its handler if there is one
and if it is not longer than the buffer, and otherwise nothing at all. Missing: handlers that call the API meanwhile (C22_answered_once_partial
has them, on networks without limit). -/
theorem C22_room_partial (srv : Server Net υ) (cap : Nat) (w w' : World Net υ) (c : ConnId) (bs : Bytes) (v : View) (out : RequestOut)
    (ha : AskedRoom srv cap w c bs v out) (h : serve srv w c [.data bs] = .ok w') :
    (∀ v', ReplyFor v.ident out v' → ∃ b, Grammar b v' ∧
      w'.net.out c = w.net.out c ++ if b.length ≤ cap then [b] else []) ∧
    (¬ Answerable out → w'.net.out c = w.net.out c) := by
  have hasks : v.msgType ∈ [31, 32, 127, 128, 129] := by
    have := ha.asks
    simp only [List.mem_cons, List.not_mem_nil, or_false] at this ⊢
    tauto
  have hlen := ident_length ha.grammar hasks
  obtain ⟨m, h1, h2, h3, h4, h5⟩ := serve_grammar (srv := srv) (w := w) (c := c) (rest := []) ha.grammar ha.fits
  rw [h5] at h
  obtain ⟨w1, h6, h⟩ := bind_ok h
  simp only [serve, Except.ok.injEq] at h
  subst h
  have et : m.msgType = v.msgType := by rw [← h1]; rfl
  have hid : m.identifierBytes = v.ident := by
    apply h3
    have := ha.asks
    unfold noIdentTypes
    intro hn
    simp only [List.mem_cons, List.not_mem_nil, or_false] at this hn
    rcases this with h | h | h <;> rw [h] at hn <;> revert hn <;> decide
  have hq : m.requiresReply = true := (requiresReply_iff m).mpr (by
    rw [et]
    unfold asksReply
    have := ha.asks
    simp only [List.mem_cons, List.not_mem_nil, or_false] at this ⊢
    tauto)
  have hms := ha.asks
  rw [← et] at hms
  simp only [List.mem_cons, List.not_mem_nil, or_false] at hms
  have key : ∃ call, replyCall m.identifierBytes out = some call ∧
      ((call.Valid ∧ call.layout.length ≤ cap ∧ w1.net.out c = w.net.out c ++ [call.layout]) ∨
       (¬ (call.Valid ∧ call.layout.length ≤ cap) ∧ w1.net.out c = w.net.out c)) := by
    rcases handleMessage_ok h6 with ⟨hh, _⟩ | ⟨_, w2, b, hr, hb⟩
    · rcases hms with h | h | h <;> rw [h] at hh <;> cases hh
    · rcases registerHandler_ok hr with ⟨hna, _⟩ | ⟨_, _, ⟨hsd, _⟩ | ⟨_, rfl, rfl⟩⟩
      · rw [ha.active] at hna; cases hna
      · rw [ha.running] at hsd; cases hsd
      · rcases hb with ⟨hx, _⟩ | ⟨_, hb⟩
        · cases hx
        · rcases hb with ⟨hx, _⟩ | ⟨_, hh⟩ | ⟨hx, _⟩ | ⟨hx, _⟩ | ⟨⟨_, hx, _⟩, _⟩
          · exfalso
            rcases hms with h | h | h <;> rw [h] at hx <;> revert hx <;> decide
          · obtain ⟨w3, w4, w5, hrun, hf, hd, rfl⟩ := handleRequest_ok hh
            have hu : (registered w c).user = w.user := rfl
            rw [hu, ha.result] at hf
            rw [hu] at hrun
            rw [ha.result, ha.calls] at hrun
            simp only [runApis, Except.ok.injEq] at hrun
            have hm : afterHook m out = m := by simp [afterHook, ha.keeps]
            rw [hm] at hf
            have hn : w3.net = w.net := by rw [← hrun]; rfl
            obtain ⟨call, k1, k2⟩ := answer_room ha.sock (w := w3) (by rw [hn]; exact ha.clean c) (by rw [hn]; exact ha.connected) hq hf
            rw [hn] at k2
            refine ⟨call, k1, ?_⟩
            have ho : (releaseMsg w5).net.out c = w4.net.out c := deregisterHandler_out ha.sock hd c
            rw [ho]
            exact k2
          · rcases hms with h | h | h <;> rw [h] at hx <;> cases hx
          · rcases hms with h | h | h <;> rw [h] at hx <;> cases hx
          · exact absurd hms hx
  rw [hid] at key
  obtain ⟨call, k1, k2⟩ := key
  constructor
  · intro v' hv'
    obtain ⟨call', c1, c2, c3⟩ := call_of_replyFor hv' hlen
    rw [k1] at c1
    cases c1
    refine ⟨call.layout, c3, ?_⟩
    rcases k2 with ⟨_, hl, ho⟩ | ⟨hno, ho⟩
    · rw [if_pos hl, ho]
    · rw [if_neg (fun hl => hno ⟨c2, hl⟩), ho, List.append_nil]
  · intro hn
    rcases k2 with ⟨hv, _, _⟩ | ⟨_, ho⟩
    · obtain ⟨v', hv'⟩ := replyFor_of_call k1 hv
      exfalso
      apply hn
      cases hv' with
      | success h1 h2 => exact ⟨_, .success h1 h2⟩
      | error c t h1 h2 => exact ⟨_, .error c t h1 h2⟩
      | errorPtr c t h1 h2 => exact ⟨_, .errorPtr c t h1 h2⟩
      | internal h1 => exact ⟨_, .internal h1⟩
    · exact ho

/-- **C22 is violated** by results that are too long for a message: whatever the size of the buffers, the client receives nothing if the
handler's payload together with the header does not fit, and waits until it gives up. -/
theorem C22_too_long_violated (srv : Server Net υ) (cap : Nat) (w w' : World Net υ) (c : ConnId) (bs : Bytes) (v : View) (out : RequestOut)
    (ha : AskedRoom srv cap w c bs v out) (he : out.err = .nil) (hl : cap < 9 + out.payload.length)
    (h : serve srv w c [.data bs] = .ok w') : w'.net.out c = w.net.out c := by
  obtain ⟨h1, h2⟩ := C22_room_partial srv cap w w' c bs v out ha h
  by_cases hA : Answerable out
  · obtain ⟨v', hv'⟩ := answerable_any hA v.ident
    obtain ⟨b, hb, ho⟩ := h1 v' hv'
    rw [ho, if_neg, List.append_nil]
    have hasks : v.msgType ∈ [31, 32, 127, 128, 129] := by
      have := ha.asks
      simp only [List.mem_cons, List.not_mem_nil, or_false] at this ⊢
      tauto
    have hlen := ident_length ha.grammar hasks
    have hblen : 9 + out.payload.length ≤ b.length := by
      cases hv' with
      | success _ hp =>
        generalize hv2 : ({ msgType := typeByte 191 out.enc, ident := v.ident, payload := out.payload } : View) = v2 at hb
        have e1 : v2.ident = v.ident := by rw [← hv2]
        have e2 : v2.payload = out.payload := by rw [← hv2]
        have e3 : v2.msgType ∈ [191, 192, 193] := by
          rw [← hv2]
          simp only [typeByte]
          split_ifs <;> decide
        have e4 : v2.ident.length = 8 := by rw [e1]; exact hlen
        rw [← e2]
        clear hv2 e1 e2 hl ho h1 h2
        cases hb <;> simp at e3 e4 ⊢ <;> try omega
        exfalso
        rename_i ht _ _
        simp only [List.mem_cons, List.not_mem_nil, or_false] at ht
        rcases ht with rfl | rfl <;> revert e3 <;> decide
      | error c t h _ => rw [he] at h; cases h
      | errorPtr c t h _ => rw [he] at h; cases h
      | internal h => rw [he] at h; cases h
    omega
  · exact h2 hA

/-- C22, non-vacuity: buffers of 12 bytes; a result of three bytes is sent, one of four is not. -/
example : (∃ w', AskedRoom { exServer { payload := [1, 2, 3] } with sock := netSockets (some 12) } 12 exWorld 1
        [127, 1,2,3,4,5,6,7,8, 1, 97] { msgType := 127, ident := [1,2,3,4,5,6,7,8], name := [97] } { payload := [1, 2, 3] } ∧
      serve { exServer { payload := [1, 2, 3] } with sock := netSockets (some 12) } exWorld 1 [.data [127, 1,2,3,4,5,6,7,8, 1, 97]] = .ok w' ∧
      w'.net.out 1 = [[191, 1,2,3,4,5,6,7,8, 1, 2, 3]]) ∧
    ∃ w', AskedRoom { exServer { payload := [1, 2, 3, 4] } with sock := netSockets (some 12) } 12 exWorld 1
        [127, 1,2,3,4,5,6,7,8, 1, 97] { msgType := 127, ident := [1,2,3,4,5,6,7,8], name := [97] } { payload := [1, 2, 3, 4] } ∧
      serve { exServer { payload := [1, 2, 3, 4] } with sock := netSockets (some 12) } exWorld 1 [.data [127, 1,2,3,4,5,6,7,8, 1, 97]] = .ok w' ∧
      w'.net.out 1 = [] := by
  have hg : Grammar [127, 1,2,3,4,5,6,7,8, 1, 97] { msgType := 127, ident := [1,2,3,4,5,6,7,8], name := [97] } := by
    exact Grammar.request 127 1 [1,2,3,4,5,6,7,8] [97] [] (by simp) rfl rfl (by simp)
  exact ⟨⟨_, ⟨rfl, fun _ => rfl, rfl, rfl, rfl, hg, by decide, by decide, fun _ => rfl, rfl, rfl⟩, rfl, rfl⟩,
    _, ⟨rfl, fun _ => rfl, rfl, rfl, rfl, hg, by decide, by decide, fun _ => rfl, rfl, rfl⟩, rfl, rfl⟩

end Webwire
