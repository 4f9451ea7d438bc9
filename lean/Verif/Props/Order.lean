import Verif.Props.EndToEnd
import Verif.Props.Session
import Verif.Props.Wire3

/-!
# C74: what a handler sends arrives before its reply

On the ideal network of `Spec.Net`, whose `out c` is what the client of connection `c` receives, in order.
-/

set_option autoImplicit false

namespace Webwire
open Spec

variable {υ : Type} {srv : Server Net υ}

/-! ## Helpers -/

/-- No session was reported as created between `w` and `w'`. -/
private def NoCreate (w w' : World Net υ) : Prop :=
  ∃ evs, w'.trace = w.trace ++ evs ∧ ∀ c k, .onSessionCreated c k ∉ evs

private theorem NoCreate.same {w w' : World Net υ} (h : w'.trace = w.trace) : NoCreate w w' := ⟨[], by simp [h], by simp⟩

private theorem NoCreate.one {w w' : World Net υ} {e : Ev} (h : w'.trace = w.trace ++ [e])
    (he : ∀ c k, e ≠ .onSessionCreated c k) : NoCreate w w' :=
  ⟨[e], h, fun c k hm => he c k (List.mem_singleton.mp hm).symm⟩

private theorem NoCreate.trans {w w' w'' : World Net υ} (h : NoCreate w w') (h' : NoCreate w' w'') : NoCreate w w'' := by
  obtain ⟨l, e, hl⟩ := h
  obtain ⟨l', e', hl'⟩ := h'
  refine ⟨l ++ l', by rw [e', e, List.append_assoc], fun c k hm => ?_⟩
  rcases List.mem_append.mp hm with hm | hm
  · exact hl c k hm
  · exact hl' c k hm

private theorem NoCreate.withWriter {w w' : World Net υ} {c : ConnId} {f} {e : Option Err}
    (h : withWriter srv w c f = .ok (w', e)) : NoCreate w w' := by
  rcases withWriter_ok h with ⟨net, er, _, rfl, _⟩ | ⟨net, net', _, _, rfl⟩
  · exact .same rfl
  · exact .one rfl (by simp)

private theorem NoCreate.deregister {w w' : World Net υ} {c : ConnId} {d : Bool} {n : Int}
    (h : deregister srv w c d = .ok (w', n)) : NoCreate w w' := by
  rcases deregister_ok h with ⟨_, rfl, _⟩ | ⟨s, _, _, ⟨_, rfl⟩ | ⟨_, _, _, rfl⟩⟩
  · exact .same rfl
  · exact .same rfl
  · exact .one rfl (by simp)

private theorem NoCreate.closeSession {w w' : World Net υ} {c : ConnId} {e : Option Err}
    (h : closeSession srv w c = .ok (w', e)) : NoCreate w w' := by
  rcases closeSession_ok h with ⟨_, rfl, _⟩ | ⟨_, _, rfl, _⟩ | ⟨_, _, w1, n, hd, hw⟩
  · exact .same rfl
  · exact .same rfl
  · exact ((NoCreate.deregister hd).trans (.same (w' := setSession w1 c none) rfl)).trans (.withWriter hw)

private theorem NoCreate.closeSessions {cs : List ConnId} : ∀ {w w' : World Net υ} {es : List (Option Err)},
    closeSessions srv w cs = .ok (w', es) → NoCreate w w' := by
  induction cs with
  | nil => intro w w' es h; rw [(closeSessions_nil h).1]; exact .same rfl
  | cons c cs ih =>
    intro w w' es h
    obtain ⟨w1, e, es', h1, h2, _⟩ := closeSessions_cons h
    exact (NoCreate.closeSession h1).trans (ih h2)

private theorem NoCreate.connClose {w w' : World Net υ} {c : ConnId} (h : connClose srv w c = .ok w') :
    NoCreate w w' := by
  have hu : ∀ {w1 : World Net υ}, unlink srv w1 c = .ok w' → NoCreate w1 w' := by
    intro w1 h
    obtain ⟨w2, n, net, e, hd, hc, rfl⟩ := unlink_ok h
    exact (NoCreate.deregister hd).trans (.one (e := .sockClose c) rfl (by simp))
  rcases connClose_ok h with ⟨_, rfl⟩ | ⟨_, ⟨_, h⟩ | ⟨_, rfl⟩⟩
  · exact .same rfl
  · exact NoCreate.trans (.same (w' := w.upd c fun con => { con with isActive := false }) rfl) (hu h)
  · exact .same rfl

/-- Between `w` and `w'` client `c` received `notes`, and every session reported as created for it is among them. -/
private structure Announced (srv : Server Net υ) (c : ConnId) (notes : List Bytes) (w w' : World Net υ) : Prop where
  out : w'.net.out c = w.net.out c ++ notes
  kind : ∀ b ∈ notes, Notification b
  created : ∃ evs, w'.trace = w.trace ++ evs ∧ ∀ k, .onSessionCreated c k ∈ evs →
    ∃ s json, s.key = k ∧ srv.hooks.marshal s = .ok json ∧ 21 :: json ∈ notes

private theorem Announced.trans {c : ConnId} {l l' : List Bytes} {w w' w'' : World Net υ} (h : Announced srv c l w w')
    (h' : Announced srv c l' w' w'') : Announced srv c (l ++ l') w w'' := by
  obtain ⟨o, k, evs, e, hc⟩ := h
  obtain ⟨o', k', evs', e', hc'⟩ := h'
  refine ⟨by rw [o', o, List.append_assoc], ?_, evs ++ evs', by rw [e', e, List.append_assoc], ?_⟩
  · intro b hb
    rcases List.mem_append.mp hb with hb | hb
    · exact k b hb
    · exact k' b hb
  · intro x hx
    rcases List.mem_append.mp hx with hx | hx
    · obtain ⟨s, json, h1, h2, h3⟩ := hc x hx
      exact ⟨s, json, h1, h2, List.mem_append_left _ h3⟩
    · obtain ⟨s, json, h1, h2, h3⟩ := hc' x hx
      exact ⟨s, json, h1, h2, List.mem_append_right _ h3⟩

private theorem Announced.quiet {c : ConnId} {w w' : World Net υ} (hq : QuietW w w') (hn : NoCreate w w') :
    ∃ notes, Announced srv c notes w w' := by
  obtain ⟨ns, e, hk⟩ := hq.net.out c
  obtain ⟨evs, ht, hc⟩ := hn
  exact ⟨ns, e, hk, evs, ht, fun k hm => absurd hm (hc c k)⟩

private theorem Announced.create {w w' : World Net υ} {c c' : ConnId} {info : Option Nat} {e : Option Err}
    (hs : ideal srv) (h0 : ∀ i, w.net.pending i = []) (h : createSession srv w c' info = .ok (w', e)) :
    ∃ notes, Announced srv c notes w w' := by
  have hq := createSession_quietW hs h0 h
  obtain ⟨ns, eo, hk⟩ := hq.net.out c
  obtain ⟨evs, ht, _⟩ := (Quiet.createSession h).trace
  refine ⟨ns, eo, hk, evs, ht, ?_⟩
  intro k hm
  have hf : .onSessionCreated c k ∈ evs.filter isSessionHook := List.mem_filter.mpr ⟨hm, rfl⟩
  cases e with
  | some e =>
    obtain ⟨_, _, h3⟩ := C32_failure_changes_nothing srv w w' c' info e h
    rw [ht, List.filter_append] at h3
    have : evs.filter isSessionHook = [] := by simpa using h3
    rw [this] at hf; cases hf
  | none =>
    obtain ⟨s, json, hm', ho, ho', _, _, _, _, _, _, _, _, h3⟩ := C32_success srv w w' c' info hs (h0 c') h
    rw [ht, List.filter_append] at h3
    have : evs.filter isSessionHook = [.onSessionCreated c' s.key] := by simpa using h3
    rw [this] at hf
    simp only [List.mem_cons, Ev.onSessionCreated.injEq, List.not_mem_nil, or_false] at hf
    obtain ⟨rfl, rfl⟩ := hf
    refine ⟨s, json, rfl, hm', ?_⟩
    rw [ho] at eo
    have := List.append_cancel_left eo
    rw [← this]; simp

private theorem Announced.runApi {w w' : World Net υ} {c : ConnId} {a : ApiCall} (hs : ideal srv)
    (h0 : ∀ i, w.net.pending i = []) (h : runApi srv w a = .ok w') : ∃ notes, Announced srv c notes w w' := by
  have hq := runApi_quietW hs h0 h
  cases a with
  | createSession c' info => obtain ⟨b, h⟩ := map_fst_ok h; exact Announced.create hs h0 h
  | signal c' name enc payload =>
    obtain ⟨b, h⟩ := map_fst_ok h
    refine Announced.quiet hq ?_
    rcases signal_ok h with ⟨rfl, _⟩ | h
    · exact .same rfl
    · exact .withWriter h
  | closeSession c' => obtain ⟨b, h⟩ := map_fst_ok h; exact Announced.quiet hq (.closeSession h)
  | close c' => exact Announced.quiet hq (.connClose h)
  | srvCloseSession key order =>
    obtain ⟨b, h⟩ := map_fst_ok h
    refine Announced.quiet hq ?_
    rcases srvCloseSession_ok h with ⟨_, rfl, _⟩ | ⟨_, _, _, _, _, _, h, _⟩
    · exact .same rfl
    · exact .closeSessions h

private theorem Announced.runApis {c : ConnId} (hs : ideal srv) {as : List ApiCall} : ∀ {w w' : World Net υ},
    (∀ i, w.net.pending i = []) → runApis srv w as = .ok w' → ∃ notes, Announced srv c notes w w' := by
  induction as with
  | nil =>
    intro w w' h0 h
    simp only [Webwire.runApis, Except.ok.injEq] at h
    subst h
    exact ⟨[], by simp, by simp, [], by simp, by simp⟩
  | cons a as ih =>
    intro w w' h0 h
    obtain ⟨w1, h1, h2⟩ := runApis_cons h
    obtain ⟨n1, a1⟩ := Announced.runApi (c := c) hs h0 h1
    obtain ⟨n2, a2⟩ := ih (runApi_quietW hs h0 h1).net.pending h2
    exact ⟨n1 ++ n2, a1.trans a2⟩

/-- Writing a message on the ideal network: everything about it. -/
private theorem withWriter_out {w w' : World Net υ} {c : ConnId} {e : Option Err} {call : WriterCall}
    (hs : ideal srv) (h0 : ∀ i, w.net.pending i = []) (hc : w.net.connected c = true) (hp : ¬ call.Panics)
    (hv : call.Valid) (h : withWriter srv w c (fun wr s => call.run wr s) = .ok (w', e)) :
    w' = { w with net := w.net.deliver c call.layout }.log (.sent c) ∧ e = none := by
  rcases withWriter_ok h with ⟨net, er, hg, rfl, _⟩ | ⟨net, net', hg, hf, rfl⟩
  · rw [hs] at hg
    simp [netSockets, hc] at hg
  · rw [hs] at hg hf
    simp only [netSockets, hc, if_true, Except.ok.injEq, Prod.mk.injEq, and_true] at hg
    rw [← hg] at hf
    rw [call_ideal c w.net call hv hp (h0 c)] at hf
    simp only [Except.ok.injEq, Prod.mk.injEq] at hf
    rw [← hf.1]
    exact ⟨rfl, hf.2.symm⟩

/-- The end of a handler sends nothing. -/
private theorem deregisterHandler_out {w w' : World Net υ} {c : ConnId} (hs : ideal srv)
    (h : deregisterHandler srv w c = .ok w') :
    (∀ i, w'.net.out i = w.net.out i) ∧ NoCreate w w' := by
  obtain ⟨_, w1, h1, _, rfl⟩ := deregisterHandler_ok h
  rcases deregisterTask_ok h1 with ⟨ha, ht, h1⟩ | ⟨_, rfl⟩
  · obtain ⟨w2, n, net, e, hd, hc, rfl⟩ := unlink_ok h1
    have hnet : w2.net = w.net := by
      rcases deregister_ok hd with ⟨_, rfl, _⟩ | ⟨s, _, _, ⟨_, rfl⟩ | ⟨_, _, _, rfl⟩⟩ <;> rfl
    rw [hs] at hc
    simp only [netSockets, Except.ok.injEq, Prod.mk.injEq] at hc
    refine ⟨fun i => ?_, ?_⟩
    · have : net.out i = w.net.out i := by
        rw [← hc.1]
        show w2.net.out i = w.net.out i
        rw [hnet]
      exact this
    · obtain ⟨evs, he, hn⟩ := NoCreate.deregister hd
      refine ⟨evs ++ [.sockClose c], ?_, ?_⟩
      · show w2.trace ++ [.sockClose c] = _
        rw [he, List.append_assoc]; rfl
      · intro c' k hm
        rcases List.mem_append.mp hm with hm | hm
        · exact hn c' k hm
        · simp at hm
  · exact ⟨fun _ => rfl, .same rfl⟩

/-- A request handler: what the client receives of it. -/
private theorem handleRequest_order {w w' : World Net υ} {c : ConnId} {m : Msg} {call : WriterCall} (hs : ideal srv)
    (h0 : ∀ i, w.net.pending i = []) (hc : w.net.connected c = true) (ht : 1 ≤ (w.conns c).tasks)
    (hq : m.requiresReply = true) (hcl : (srv.hooks.onRequest w.user c m).2.closesMsg = false)
    (hcall : replyCall m.identifierBytes (srv.hooks.onRequest w.user c m).2 = some call) (hv : call.Valid)
    (h : handleRequest srv w c m = .ok w') :
    ∃ w1, runApis srv { w.log (.onRequest c m.ident (m.name.view m.buf) m.payload.encoding
        (m.payload.data.view m.buf)) with user := (srv.hooks.onRequest w.user c m).1 }
        (srv.hooks.onRequest w.user c m).2.calls = .ok w1 ∧
      w'.net.out c = w1.net.out c ++ [call.layout] ∧ (∀ i, i ≠ c → w'.net.out i = w1.net.out i) ∧ NoCreate w1 w' := by
  obtain ⟨w1, w2, w3, hr, hf, hd, rfl⟩ := handleRequest_ok h
  generalize hout : (srv.hooks.onRequest w.user c m).2 = out at *
  have hm : afterHook m out = m := by simp [afterHook, hcl]
  rw [hm] at hf
  have hqw := runApis_quietW hs (w := { w.log (.onRequest c m.ident (m.name.view m.buf) m.payload.encoding
      (m.payload.data.view m.buf)) with user := (srv.hooks.onRequest w.user c m).1 }) h0 hr
  have hc1 : w1.net.connected c = true := hqw.busy c ht hc
  have hp1 := hqw.net.pending
  refine ⟨w1, hr, ?_⟩
  have fin : (∃ e, withWriter srv w1 c (fun wr s => call.run wr s) = .ok (w2, e)) → ¬ call.Panics →
      (releaseMsg w3).net.out c = w1.net.out c ++ [call.layout] ∧
        (∀ i, i ≠ c → (releaseMsg w3).net.out i = w1.net.out i) ∧ NoCreate w1 (releaseMsg w3) := by
    rintro ⟨e, hw⟩ hp
    obtain ⟨rfl, _⟩ := withWriter_out hs hp1 hc1 hp hv hw
    obtain ⟨d1, d2⟩ := deregisterHandler_out hs hd
    refine ⟨?_, ?_, ?_⟩
    · show w3.net.out c = _
      rw [d1]; simp [World.log, Net.deliver]
    · intro i hi
      show w3.net.out i = _
      rw [d1]; simp [World.log, Net.deliver, hi]
    · exact ((NoCreate.one (e := .sent c) rfl (by simp)).trans d2).trans (.one (e := .msgClose) rfl (by simp))
  rcases hf with ⟨he, hf⟩ | ⟨he, hf⟩
  · obtain ⟨e, hf⟩ := fulfillMsg_ok hf
    simp only [replyCall, he, Option.some.injEq] at hcall
    subst hcall
    exact fin ⟨e, hf⟩ (by simp [WriterCall.Panics])
  · have errs : ∀ code text, errorFor (replyErr out.err) = some (code, text) →
        call = .errorReply m.identifierBytes code text true →
        (releaseMsg w3).net.out c = w1.net.out c ++ [call.layout] ∧
        (∀ i, i ≠ c → (releaseMsg w3).net.out i = w1.net.out i) ∧ NoCreate w1 (releaseMsg w3) := by
      intro code text hre hcall
      rcases failMsg_ok hf with ⟨hq', _⟩ | ⟨_, ⟨e, code', text', he, h⟩ | ⟨hr, net, er, hg, rfl⟩ | ⟨hn, _, e, h⟩⟩
      · rw [hq] at hq'; cases hq'
      · rw [hre] at he
        simp only [Option.some.injEq, Prod.mk.injEq] at he
        obtain ⟨rfl, rfl⟩ := he
        subst hcall
        exact fin ⟨e, h⟩ (by simp [WriterCall.Panics])
      · rw [hs] at hg
        simp [netSockets, hc1] at hg
      · rw [hre] at hn; cases hn
    have special : errorFor (replyErr out.err) = none → specialFor (replyErr out.err) = 2 →
        call = .special 2 m.identifierBytes →
        (releaseMsg w3).net.out c = w1.net.out c ++ [call.layout] ∧
        (∀ i, i ≠ c → (releaseMsg w3).net.out i = w1.net.out i) ∧ NoCreate w1 (releaseMsg w3) := by
      intro hre hsp hcall
      rcases failMsg_ok hf with ⟨hq', _⟩ | ⟨_, ⟨e, code, text, he, h⟩ | ⟨_, net, er, hg, rfl⟩ | ⟨_, _, e, h⟩⟩
      · rw [hq] at hq'; cases hq'
      · rw [hre] at he; cases he
      · rw [hs] at hg
        simp [netSockets, hc1] at hg
      · rw [hsp] at h
        subst hcall
        exact fin ⟨e, h⟩ (by simp [WriterCall.Panics])
    cases hre : out.err with
    | nil => exact absurd hre he
    | request code text =>
      simp only [replyCall, hre, Option.some.injEq] at hcall
      exact errs code text (by rw [hre]; rfl) hcall.symm
    | requestPtr p =>
      cases p with
      | none => simp [replyCall, hre] at hcall
      | some p =>
        obtain ⟨code, text⟩ := p
        simp only [replyCall, hre, Option.some.injEq] at hcall
        exact errs code text (by rw [hre]; rfl) hcall.symm
    | maxSessConnsReached | sessionNotFound | sessionsDisabled | other =>
      simp only [replyCall, hre, Option.some.injEq] at hcall
      exact special (by rw [hre]; rfl) (by rw [hre]; rfl) hcall.symm

/-- The same for a message received in the circumstances of C22. -/
private theorem asked_order {w w' : World Net υ} {c : ConnId} {bs : Bytes} {v r : View}
    (ha : Asked srv w c bs v) (ht : v.msgType ∈ [127, 128, 129]) (hsd : w.shutdown = false)
    (h : serve srv w c [.data bs] = .ok w') :
    ∃ m w0, m.shown = v ∧ w0.net = w.net ∧ (∃ e, (∀ c k, e ≠ .onSessionCreated c k) ∧ w0.trace = w.trace ++ [e]) ∧
      (1 ≤ (w0.conns c).tasks) ∧
      (ReplyFor v.ident (srv.hooks.onRequest w.user c m).2 r →
        ∃ w1 b, Grammar b r ∧ runApis srv w0 (srv.hooks.onRequest w.user c m).2.calls = .ok w1 ∧
          w'.net.out c = w1.net.out c ++ [b] ∧ (∀ i, i ≠ c → w'.net.out i = w1.net.out i) ∧ NoCreate w1 w') := by
  obtain ⟨m, h1, h2, h3, hlen, h4⟩ := serve_grammar (srv := srv) (w := w) (c := c) (rest := []) ha.grammar ha.fits
  rw [h4] at h
  obtain ⟨w1, h5, h⟩ := bind_ok h
  simp only [serve, Except.ok.injEq] at h
  subst h
  have et : m.msgType = v.msgType := by rw [← h1]; rfl
  have hidb : m.identifierBytes = v.ident := by
    refine h3 ?_
    have := ht
    unfold noIdentTypes
    intro hn
    simp only [List.mem_cons, List.not_mem_nil, or_false] at this hn
    rcases this with h | h | h <;> rw [h] at hn <;> revert hn <;> decide
  have hq : asksReply m.msgType := by
    rw [et]; unfold asksReply
    simp only [List.mem_cons, List.not_mem_nil, or_false] at ht ⊢
    tauto
  have hm : m.msgType ∈ [127, 128, 129] := by rw [et]; exact ht
  refine ⟨m, { (registered w c).log (.onRequest c m.ident (m.name.view m.buf) m.payload.encoding
        (m.payload.data.view m.buf)) with user := (srv.hooks.onRequest w.user c m).1 }, h1, rfl,
    ⟨.onRequest c m.ident (m.name.view m.buf) m.payload.encoding (m.payload.data.view m.buf), by simp, rfl⟩, ?_, ?_⟩
  · have := ha.tasks
    simp only [World.log, registered, registerTask, World.upd, if_true]; omega
  · intro hr
    obtain ⟨call, c1, c2, c3⟩ := call_of_replyFor hr (ident_length ha.grammar ha.asks)
    have ht' : 1 ≤ ((registered w c).conns c).tasks := by
      have := ha.tasks
      simp only [registered, registerTask, World.upd, if_true]; omega
    have hh : handleRequest srv (registered w c) c m = .ok w1 := by
      rcases handleMessage_ok h5 with ⟨hh, rfl⟩ | ⟨_, w2, b, hr, hb⟩
      · rw [hh] at hm; simp [MsgHeartbeat] at hm
      · rcases registerHandler_ok hr with ⟨hact, rfl, rfl⟩ | ⟨_, _, ⟨hsd', _, rfl, hf⟩ | ⟨hns, rfl, rfl⟩⟩
        · rw [ha.active] at hact; cases hact
        · rw [hsd] at hsd'; cases hsd'
        · rcases hb with ⟨hc, _⟩ | ⟨_, hb⟩
          · cases hc
          · simp only [List.mem_cons, List.not_mem_nil, or_false] at hm
            rcases hb with ⟨ht, hh⟩ | ⟨ht, hh⟩ | ⟨ht, hh⟩ | ⟨ht, hh⟩ | ⟨⟨h1, h2, h3, h4⟩, w2, hd, rfl⟩
            · exfalso
              simp only [MsgSignalBinary, MsgSignalUtf8, MsgSignalUtf16] at ht
              rcases ht with ht | ht | ht <;> rw [ht] at hm <;> revert hm <;> decide
            · exact hh
            · exfalso; rw [ht] at hm; revert hm; decide
            · exfalso; rw [ht] at hm; revert hm; decide
            · exfalso
              exact h2 (by simpa [MsgRequestBinary, MsgRequestUtf8, MsgRequestUtf16] using hm)
    obtain ⟨w2, hr, ho, hoe, hn⟩ := handleRequest_order (w := registered w c) ha.ideal ha.clean ha.connected ht'
      ((requiresReply_iff m).mpr hq) (ha.keeps _ _ _) (by rw [hidb]; exact c1) c2 hh
    exact ⟨w2, call.layout, c3, hr, ho, hoe, hn⟩

/-! ## The property -/

/-- **C74**: of a request the client receives everything the handler sent it first, and the reply last. Whatever the
handler does through the API, what is sent before the reply are signals and session notifications; if a session was
created for the client, the notification with that session is among them, so the client knows the session before its
request is answered. -/
theorem C74_reply_last (srv : Server Net υ) (w w' : World Net υ) (c : ConnId) (bs : Bytes) (v : View)
    (ha : Asked srv w c bs v) (ht : v.msgType ∈ [127, 128, 129]) (hsd : w.shutdown = false)
    (h : serve srv w c [.data bs] = .ok w') (r : View) :
    ∃ m, m.shown = v ∧ (ReplyFor v.ident (srv.hooks.onRequest w.user c m).2 r →
      ∃ notes b, w'.net.out c = w.net.out c ++ notes ++ [b] ∧ Grammar b r ∧ (∀ n ∈ notes, Notification n) ∧
        ∃ evs, w'.trace = w.trace ++ evs ∧ ∀ k, .onSessionCreated c k ∈ evs →
          ∃ s json, s.key = k ∧ srv.hooks.marshal s = .ok json ∧ 21 :: json ∈ notes) := by
  obtain ⟨m, w0, h1, hn0, ⟨e0, he0, ht0⟩, _, hrest⟩ := asked_order (r := r) ha ht hsd h
  refine ⟨m, h1, fun hr => ?_⟩
  obtain ⟨w1, b, hg, hrun, ho, _, ⟨evs2, he2, hn2⟩⟩ := hrest hr
  obtain ⟨notes, hout, hk, evs1, he1, hc1⟩ := Announced.runApis (c := c) ha.ideal (by rw [hn0]; exact ha.clean) hrun
  refine ⟨notes, b, by rw [ho, hout, hn0], hg, hk, [e0] ++ evs1 ++ evs2, ?_, ?_⟩
  · rw [he2, he1, ht0]; simp
  · intro k hm
    simp only [List.mem_append, List.mem_singleton] at hm
    rcases hm with (hm | hm) | hm
    · exact absurd hm.symm (he0 c k)
    · exact hc1 k hm
    · exact absurd hm (hn2 c k)

/-- C74, non-vacuity: a handler creates a session, sends a signal and returns the payload `[7]`; the circumstances of the
theorem are met, and the client receives the session, the signal, the reply. -/
example : (∃ w', serve (exServer { calls := [.createSession 1 none, .signal 1 [115] 0 [9]], payload := [7] }) exWorld 1
      [.data [127, 1,2,3,4,5,6,7,8, 1, 97]] = .ok w' ∧
      w'.net.out 1 = [[21, 123, 107], [63, 1, 115, 9], [191, 1,2,3,4,5,6,7,8, 7]] ∧
      .onSessionCreated 1 [107] ∈ w'.trace) ∧
    Asked (exServer { calls := [.createSession 1 none, .signal 1 [115] 0 [9]], payload := [7] }) exWorld 1
      [127, 1,2,3,4,5,6,7,8, 1, 97] { msgType := 127, ident := [1,2,3,4,5,6,7,8], name := [97] } ∧
    ReplyFor [1,2,3,4,5,6,7,8] { calls := [.createSession 1 none, .signal 1 [115] 0 [9]], payload := [7] }
      { msgType := 191, ident := [1,2,3,4,5,6,7,8], payload := [7] } := by
  refine ⟨⟨_, rfl, rfl, by decide⟩, ?_, .success rfl (by simp)⟩
  exact { ideal := rfl, clean := fun _ => rfl, connected := rfl, active := rfl, tasks := by decide
          grammar := Grammar.request 127 1 [1,2,3,4,5,6,7,8] [97] [] (by simp) rfl rfl (by simp)
          fits := by decide, asks := by simp, keeps := fun _ _ _ => rfl }

/-- A signal the server can send: what `Connection.Signal` (connection.go:160-184) accepts, and the receiver as well. -/
structure Sendable (bufferSize : Nat) (name : Bytes) (enc : Encoding) (payload : Bytes) : Prop where
  something : name ≠ [] ∨ payload ≠ []
  short : name.length ≤ 255
  printable : ∀ c ∈ name, Printable c
  even : enc = 2 → payload.length % 2 = 0 ∧ payload ≠ []
  fits : (WriterCall.signal name enc payload true).layout.length ≤ bufferSize

private theorem signal_out {w w' : World Net υ} {c : ConnId} {name : Bytes} {enc : Encoding} {payload : Bytes}
    {e : Option Err} (hs : ideal srv) (h0 : ∀ i, w.net.pending i = []) (hc : w.net.connected c = true)
    (hok : Sendable srv.bufferSize.toNat name enc payload)
    (h : signal srv w c name enc payload = .ok (w', e)) :
    w' = { w with net := w.net.deliver c (WriterCall.signal name enc payload true).layout }.log (.sent c) := by
  have hv : (WriterCall.signal name enc payload true).Valid :=
    ⟨hok.short, fun he => (hok.even he).1, fun _ => hok.printable⟩
  have hlen := calcMsgLenSignal_layout name enc payload true
  unfold signal at h
  rw [if_neg, if_neg] at h
  · exact (withWriter_out (call := .signal name enc payload true) hs h0 hc (by simp [WriterCall.Panics]) hv h).1
  · have := hok.fits
    rw [← hlen] at this
    intro hgt
    have hlt : calcMsgLenSignal name enc payload < 2 ^ 32 := by
      have := srv.bufferSize.toNat_lt; omega
    have : (UInt32.ofNat (calcMsgLenSignal name enc payload)).toNat = calcMsgLenSignal name enc payload := by
      rw [UInt32.toNat_ofNat']; omega
    have := UInt32.lt_iff_toNat_lt.mp hgt
    omega
  · rintro ⟨h1, h2⟩
    rcases hok.something with h | h
    · exact h (by cases name with | nil => rfl | cons => simp at h1)
    · exact h (by cases payload with | nil => rfl | cons => simp at h2)

private theorem signals_out {c : ConnId} (hs : ideal srv) {sigs : List (Bytes × Encoding × Bytes)} :
    ∀ {w w' : World Net υ}, (∀ i, w.net.pending i = []) → w.net.connected c = true →
    (∀ s ∈ sigs, Sendable srv.bufferSize.toNat s.1 s.2.1 s.2.2) →
    runApis srv w (sigs.map fun s => .signal c s.1 s.2.1 s.2.2) = .ok w' →
    w'.net.out c = w.net.out c ++ sigs.map (fun s => (WriterCall.signal s.1 s.2.1 s.2.2 true).layout) ∧
      ∀ i, i ≠ c → w'.net.out i = w.net.out i := by
  induction sigs with
  | nil =>
    intro w w' _ _ _ h
    simp only [List.map_nil, Webwire.runApis, Except.ok.injEq] at h
    subst h
    simp
  | cons s sigs ih =>
    intro w w' h0 hc hall h
    rw [List.map_cons] at h
    obtain ⟨w1, h1, h2⟩ := runApis_cons h
    obtain ⟨e, h1⟩ := map_fst_ok h1
    have := signal_out hs h0 hc (hall s (by simp)) h1
    subst this
    obtain ⟨i1, i2⟩ := ih (w := { w with net := w.net.deliver c (WriterCall.signal s.1 s.2.1 s.2.2 true).layout }.log (.sent c))
      (by intro i; by_cases hi : i = c <;> simp [World.log, Net.deliver, hi, h0]) hc
      (fun t ht => hall t (by simp [ht])) h2
    refine ⟨?_, ?_⟩
    · rw [i1]; simp [World.log, Net.deliver]
    · intro i hi
      rw [i2 i hi]; simp [World.log, Net.deliver, hi]

private theorem sendable_grammar {n : Nat} {name payload : Bytes} {enc : Encoding} (h : Sendable n name enc payload) :
    Grammar (WriterCall.signal name enc payload true).layout
      { msgType := typeByte 63 enc, name := name, payload := payload } := by
  have hb : ¬ badSignal name enc payload true := by
    rw [badSignal_iff]
    exact fun hn => hn ⟨h.short, fun he => (h.even he).1, fun _ => h.printable⟩
  have := signal_grammar name payload enc true hb h.something (fun he => (h.even he).2)
  rw [← signalType_eq]
  simpa [WriterCall.layout, pad_eq, signalType, MsgSignalUtf8, MsgSignalUtf16, MsgSignalBinary] using this

/-- **C74**, signals: a handler that sends signals to its client and returns. The client receives exactly these
signals, each with its name, encoding and payload, in the order they were sent, and then the reply; nobody else
receives anything. -/
theorem C74_signals_in_order (srv : Server Net υ) (w w' : World Net υ) (c : ConnId) (bs : Bytes) (v : View)
    (ha : Asked srv w c bs v) (ht : v.msgType ∈ [127, 128, 129]) (hsd : w.shutdown = false)
    (h : serve srv w c [.data bs] = .ok w') (r : View) (sigs : List (Bytes × Encoding × Bytes))
    (hok : ∀ s ∈ sigs, Sendable srv.bufferSize.toNat s.1 s.2.1 s.2.2)
    (hcalls : ∀ m, m.shown = v →
      (srv.hooks.onRequest w.user c m).2.calls = sigs.map (fun s => .signal c s.1 s.2.1 s.2.2) ∧
      ReplyFor v.ident (srv.hooks.onRequest w.user c m).2 r) :
    ∃ notes b, w'.net.out c = w.net.out c ++ notes ++ [b] ∧ Grammar b r ∧
      List.Forall₂ (fun s n => Grammar n { msgType := typeByte 63 s.2.1, name := s.1, payload := s.2.2 }) sigs notes ∧
      ∀ i, i ≠ c → w'.net.out i = w.net.out i := by
  obtain ⟨m, w0, h1, hn0, _, _, hrest⟩ := asked_order (r := r) ha ht hsd h
  obtain ⟨hc1, hr⟩ := hcalls m h1
  obtain ⟨w1, b, hg, hrun, ho, hoe, _⟩ := hrest hr
  rw [hc1] at hrun
  obtain ⟨o1, o2⟩ := signals_out ha.ideal (by rw [hn0]; exact ha.clean) (by rw [hn0]; exact ha.connected) hok hrun
  refine ⟨_, b, by rw [ho, o1, hn0], hg, ?_, fun i hi => by rw [hoe i hi, o2 i hi, hn0]⟩
  clear hcalls hc1 hrun o1 o2
  induction sigs with
  | nil => exact .nil
  | cons s sigs ih => exact .cons (sendable_grammar (hok s (by simp))) (ih (fun t ht => hok t (by simp [ht])))

/-- C74, non-vacuity: two signals, one of them UTF16 with padding, and the reply. -/
example : (∃ w', serve (exServer { calls := [.signal 1 [115] 0 [9], .signal 1 [116] 2 [65, 0]] }) exWorld 1
      [.data [127, 1,2,3,4,5,6,7,8, 1, 97]] = .ok w' ∧
      w'.net.out 1 = [[63, 1, 115, 9], [65, 1, 116, 0, 65, 0], [191, 1,2,3,4,5,6,7,8]]) ∧
    Sendable 64 [115] 0 [9] ∧ Sendable 64 [116] 2 [65, 0] := by
  refine ⟨⟨_, rfl, rfl⟩, ?_, ?_⟩ <;> constructor <;> simp [Printable, WriterCall.layout, pad]

end Webwire
