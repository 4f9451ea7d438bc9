import Verif.Proofs.Dispatch
import Verif.Proofs.Calls
import Verif.Proofs.NoPanic

/-! Helper lemmas: with well-behaved sockets and hooks, message handling returns. -/

set_option autoImplicit false

namespace Webwire
open Spec

variable {ν υ : Type} {srv : Server ν υ}

theorem closeWith_returns {σ : Type} {w : Writer σ} (hw : Total w) (s : σ) (e : Err) :
    ∃ r, closeWith w s e = .ok r := by
  obtain ⟨⟨s', e'⟩, h⟩ := hw.2 s
  unfold closeWith
  rw [h]
  simp only [bind, Except.bind, pure, Except.pure]
  cases e' <;> exact ⟨_, rfl⟩

theorem call_returns {σ : Type} {w : Writer σ} (hw : Total w) (s : σ) (call : WriterCall)
    (hp : ¬ call.Panics) : ∃ r, call.run w s = .ok r := by
  by_cases hv : call.Valid
  · obtain ⟨parts, h, _⟩ := call_valid w s call hv hp
    rw [h]
    exact runParts_total w hw _ s
  · obtain ⟨e, h⟩ := call_invalid w s call hv
    rw [h]
    exact closeWith_returns hw s e

theorem withWriter_returns (hw : WellBehaved srv) (w : World ν υ) (c : ConnId) (call : WriterCall)
    (hp : ¬ call.Panics) : ∃ r, withWriter srv w c (fun wr s => call.run wr s) = .ok r := by
  obtain ⟨⟨net, e⟩, h⟩ := hw.getWriter w.net c
  unfold withWriter
  rw [h]
  simp only [bind, Except.bind, pure, Except.pure]
  cases e with
  | some e => exact ⟨_, rfl⟩
  | none =>
    simp only
    obtain ⟨⟨net', e⟩, h⟩ := call_returns (hw.writer c) net call hp
    rw [h]
    exact ⟨_, rfl⟩

theorem deregister_returns (hw : WellBehaved srv) (w : World ν υ) (c : ConnId) (d : Bool) :
    ∃ r, deregister srv w c d = .ok r := by
  unfold deregister
  cases (w.conns c).session with
  | none => exact ⟨_, rfl⟩
  | some s =>
    simp only
    split_ifs
    · obtain ⟨e, he⟩ := hw.sessionClosed w.user s.key
      rw [he]
      exact ⟨_, rfl⟩
    · exact ⟨_, rfl⟩

theorem unlink_returns (hw : WellBehaved srv) (w : World ν υ) (c : ConnId) : ∃ r, unlink srv w c = .ok r := by
  obtain ⟨⟨w1, n⟩, h1⟩ := deregister_returns hw w c false
  obtain ⟨⟨net, e⟩, h2⟩ := hw.close (setSession w1 c none).net c
  unfold unlink
  rw [h1]
  simp only [bind, Except.bind, pure, Except.pure]
  rw [h2]
  exact ⟨_, rfl⟩

theorem connClose_returns (hw : WellBehaved srv) (w : World ν υ) (c : ConnId) :
    ∃ r, connClose srv w c = .ok r := by
  unfold connClose
  simp only
  split_ifs
  · exact ⟨_, rfl⟩
  · exact unlink_returns hw _ c
  · exact ⟨_, rfl⟩

theorem signal_returns (hw : WellBehaved srv) (w : World ν υ) (c : ConnId) (name : Bytes) (enc : Encoding)
    (payload : Bytes) : ∃ r, signal srv w c name enc payload = .ok r := by
  unfold signal
  split_ifs
  · exact ⟨_, rfl⟩
  · exact ⟨_, rfl⟩
  · exact withWriter_returns hw w c (.signal name enc payload true) (by simp [WriterCall.Panics])

theorem newSession_returns (hw : WellBehaved srv) (u : υ) (info : Option Nat) :
    ∃ r, newSession srv.hooks u info = .ok r := by
  have h : ¬ (srv.hooks.generateKey u).2.length < 1 := by
    have := List.length_pos_iff.mpr (hw.key u); omega
  unfold newSession
  simp only
  rw [if_neg h]
  exact ⟨_, rfl⟩

theorem notifySessionCreated_returns (hw : WellBehaved srv) (w : World ν υ) (c : ConnId) (s : Session) :
    ∃ r, notifySessionCreated srv w c s = .ok r := by
  unfold notifySessionCreated
  cases srv.hooks.marshal s with
  | error e => exact ⟨_, rfl⟩
  | ok bs => exact withWriter_returns hw w c (.sessionCreated bs) (by simp [WriterCall.Panics])

theorem register_returns (w : World ν υ) (c : ConnId) (s : Session) (h : (w.conns c).session = some s) :
    register srv w c = .ok ({ w with registry := (registryAdd srv.maxConns w.registry s.key c).1 },
      (registryAdd srv.maxConns w.registry s.key c).2) := by
  unfold register
  rw [h]

theorem setSession_session (w : World ν υ) (c : ConnId) (s : Option Session) :
    ((setSession w c s).conns c).session = s := by simp [setSession, World.upd]

theorem createSession_returns (hw : WellBehaved srv) (w : World ν υ) (c : ConnId) (info : Option Nat) :
    ∃ r, createSession srv w c info = .ok r := by
  unfold createSession
  simp only [pure, Except.pure]
  split_ifs
  · exact ⟨_, rfl⟩
  · exact ⟨_, rfl⟩
  · cases (w.conns c).session with
    | some s => exact ⟨_, rfl⟩
    | none =>
      simp only
      obtain ⟨⟨user, s⟩, h1⟩ := newSession_returns hw w.user info
      rw [h1]
      simp only [bind, Except.bind]
      obtain ⟨⟨w1, e⟩, h2⟩ := notifySessionCreated_returns hw { w with user := user } c s
      rw [h2]
      cases e with
      | some e => exact ⟨_, rfl⟩
      | none =>
        simp only
        rw [register_returns _ c s (setSession_session w1 c (some s))]
        exact ⟨_, rfl⟩

theorem closeSession_returns (hw : WellBehaved srv) (w : World ν υ) (c : ConnId) :
    ∃ r, closeSession srv w c = .ok r := by
  unfold closeSession
  simp only [pure, Except.pure]
  split_ifs
  · exact ⟨_, rfl⟩
  · cases (w.conns c).session with
    | none => exact ⟨_, rfl⟩
    | some s =>
      simp only
      obtain ⟨⟨w1, n⟩, h1⟩ := deregister_returns hw w c true
      rw [h1]
      exact withWriter_returns hw (setSession w1 c none) c .sessionClosed (by simp [WriterCall.Panics])

theorem closeSessions_returns (hw : WellBehaved srv) (cs : List ConnId) : ∀ w : World ν υ,
    ∃ r, closeSessions srv w cs = .ok r := by
  induction cs with
  | nil => exact fun w => ⟨_, rfl⟩
  | cons c cs ih =>
    intro w
    obtain ⟨⟨w1, e⟩, h1⟩ := closeSession_returns hw w c
    obtain ⟨⟨w2, es⟩, h2⟩ := ih w1
    unfold closeSessions
    rw [h1]
    simp only [bind, Except.bind]
    rw [h2]
    exact ⟨_, rfl⟩

theorem map_fst_returns {α β : Type} {x : Go (α × β)} (h : ∃ r, x = .ok r) :
    ∃ a, (do return (← x).1 : Go α) = .ok a := by
  obtain ⟨r, rfl⟩ := h
  exact ⟨_, rfl⟩

theorem srvCloseSession_returns (hw : WellBehaved srv) (w : World ν υ) (key : Bytes) (order : List ConnId) :
    ∃ r, srvCloseSession srv w key order = .ok r := by
  unfold srvCloseSession
  cases sessionConnections w key order with
  | none => exact ⟨_, rfl⟩
  | some cs =>
    simp only
    obtain ⟨⟨w1, es⟩, h⟩ := closeSessions_returns hw cs w
    rw [h]
    exact ⟨_, rfl⟩

theorem runApi_returns (hw : WellBehaved srv) (w : World ν υ) (a : ApiCall) : ∃ r, runApi srv w a = .ok r := by
  cases a with
  | signal c name enc payload => exact map_fst_returns (signal_returns hw w c name enc payload)
  | createSession c info => exact map_fst_returns (createSession_returns hw w c info)
  | closeSession c => exact map_fst_returns (closeSession_returns hw w c)
  | close c => exact connClose_returns hw w c
  | srvCloseSession key order => exact map_fst_returns (srvCloseSession_returns hw w key order)

theorem runApis_returns (hw : WellBehaved srv) (as : List ApiCall) : ∀ w : World ν υ,
    ∃ r, runApis srv w as = .ok r := by
  induction as with
  | nil => exact fun w => ⟨_, rfl⟩
  | cons a as ih =>
    intro w
    obtain ⟨w1, h1⟩ := runApi_returns hw w a
    unfold runApis
    rw [h1]
    exact ih w1

theorem fulfillMsg_returns (hw : WellBehaved srv) (w : World ν υ) (c : ConnId) (m : Msg) (enc : Encoding)
    (payload : Bytes) : ∃ r, fulfillMsg srv w c m enc payload = .ok r :=
  map_fst_returns (withWriter_returns hw w c (.reply m.identifierBytes enc payload) (by simp [WriterCall.Panics]))

theorem failMsg_returns (hw : WellBehaved srv) (w : World ν υ) (c : ConnId) (m : Msg) (re : ReplyErr)
    (hre : re ≠ .requestPtr none) : ∃ r, failMsg srv w c m re = .ok r := by
  unfold failMsg
  simp only [pure, Except.pure]
  split_ifs
  · exact ⟨_, rfl⟩
  · have hs : ∀ t, ∃ r, (do
        let x ← withWriter srv w c fun wr s => writeMsgSpecialRequestReply wr s t m.identifierBytes
        Except.ok x.1 : Go (World ν υ)) = .ok r := fun t =>
      map_fst_returns (withWriter_returns hw w c (.special t m.identifierBytes) (by simp [WriterCall.Panics]))
    have he : ∀ code text, ∃ r, (do
        let x ← withWriter srv w c fun wr s => writeMsgReplyError wr s m.identifierBytes code text true
        Except.ok x.1 : Go (World ν υ)) = .ok r := fun code text =>
      map_fst_returns (withWriter_returns hw w c (.errorReply m.identifierBytes code text true)
        (by simp [WriterCall.Panics]))
    cases re with
    | request code text => exact he code text
    | requestPtr p =>
      cases p with
      | none => exact absurd rfl hre
      | some p => exact he p.1 p.2
    | nil | maxSessConnsReached | sessionNotFound | sessionsDisabled => exact hs _
    | other t => exact hs _

theorem deregisterHandler_returns (hw : WellBehaved srv) (w : World ν υ) (c : ConnId)
    (hs : w.shutdown = false) (hl : (w.conns c).limit > 1 → 1 ≤ (w.conns c).slots) :
    ∃ r, deregisterHandler srv w c = .ok r := by
  have hd : ∃ w1, deregisterTask srv (opsDone w) c = .ok w1 := by
    unfold deregisterTask
    simp only
    split_ifs
    · exact unlink_returns hw _ c
    · exact ⟨_, rfl⟩
  obtain ⟨w1, h1⟩ := hd
  have hq : (w1.conns c).limit = (w.conns c).limit ∧ (w1.conns c).slots = (w.conns c).slots := by
    rcases deregisterTask_ok h1 with ⟨_, _, h1⟩ | ⟨_, rfl⟩
    · have q := Quiet.unlink h1
      rw [q.limit, q.slots]
      simp [World.upd, opsDone]
    · simp [World.upd, opsDone]
  unfold deregisterHandler
  simp only [pure, Except.pure]
  rw [if_neg (by simp [hs])]
  change ∃ r, (deregisterTask srv (opsDone w) c >>= _) = _
  rw [h1]
  simp only [bind, Except.bind]
  rw [if_neg]
  · exact ⟨_, rfl⟩
  · rw [hq.1, hq.2]
    simp only [decide_eq_true_eq]
    rintro ⟨a, b⟩
    have := hl a
    omega

/-- `w'` is as `w` as far as later messages are concerned. -/
structure Back (w w' : World ν υ) : Prop where
  tasks : ∀ i, (w'.conns i).tasks = (w.conns i).tasks
  slots : ∀ i, (w'.conns i).slots = (w.conns i).slots
  limit : ∀ i, (w'.conns i).limit = (w.conns i).limit
  active : ∀ i, (w'.conns i).isActive = true → (w.conns i).isActive = true
  shutdown : w'.shutdown = w.shutdown
  ops : w'.currentOps = w.currentOps

theorem Back.refl (w : World ν υ) : Back w w :=
  ⟨fun _ => rfl, fun _ => rfl, fun _ => rfl, fun _ h => h, rfl, rfl⟩

theorem Back.trans {w w' w'' : World ν υ} (h : Back w w') (h' : Back w' w'') : Back w w'' where
  tasks i := (h'.tasks i).trans (h.tasks i)
  slots i := (h'.slots i).trans (h.slots i)
  limit i := (h'.limit i).trans (h.limit i)
  active i hi := h.active i (h'.active i hi)
  shutdown := h'.shutdown.trans h.shutdown
  ops := h'.ops.trans h.ops

theorem Quiet.back {w w' : World ν υ} (h : Quiet w w') : Back w w' :=
  ⟨h.tasks, h.slots, h.limit, h.active, h.shutdown, h.ops⟩

theorem deregisterHandler_effect {w w' : World ν υ} {c : ConnId} (h : deregisterHandler srv w c = .ok w') :
    (∀ i, (w'.conns i).tasks = (w.conns i).tasks - if i = c then 1 else 0) ∧
    (∀ i, (w'.conns i).slots = (w.conns i).slots - if i = c ∧ (w.conns c).limit > 1 then 1 else 0) ∧
    (∀ i, (w'.conns i).limit = (w.conns i).limit) ∧
    (∀ i, (w'.conns i).isActive = true → (w.conns i).isActive = true) ∧
    w'.shutdown = w.shutdown ∧ w'.currentOps = w.currentOps - 1 := by
  obtain ⟨_, w1, h1, _, rfl⟩ := deregisterHandler_ok h
  have key : Quiet ((opsDone w).upd c fun con => { con with tasks := con.tasks - 1 }) w1 := by
    rcases deregisterTask_ok h1 with ⟨_, _, h1⟩ | ⟨_, rfl⟩
    · exact Quiet.unlink h1
    · exact Quiet.refl _
  have k1 := key.tasks
  have k2 := key.slots
  have k3 := key.limit
  have k4 := key.active
  refine ⟨?_, ?_, ?_, ?_, key.shutdown, key.ops⟩ <;> intro i <;> by_cases hi : i = c
  · subst hi
    have := k1 i
    simp only [World.upd, if_true, opsDone] at this ⊢
    omega
  · have := k1 i
    simp only [World.upd, if_neg hi, opsDone] at this ⊢
    omega
  · subst hi
    have := k2 i
    have h3 := k3 i
    simp only [World.upd, if_true, opsDone, true_and] at this h3 ⊢
    rw [h3]
    split_ifs <;> omega
  · have := k2 i
    simp only [World.upd, if_neg hi, opsDone, hi, false_and, if_false] at this ⊢
    omega
  · subst hi
    have := k3 i
    simpa [World.upd, opsDone] using this
  · have := k3 i
    simpa [World.upd, opsDone, hi] using this
  · subst hi
    intro ha
    have := k4 i (by simpa [World.upd] using ha)
    simpa [World.upd, opsDone] using this
  · intro ha
    have := k4 i (by simpa [World.upd, hi] using ha)
    simpa [World.upd, opsDone, hi] using this

/-- A handler body between `registered` and `deregisterHandler`. -/
theorem back_of_body {w w2 w3 : World ν υ} {c : ConnId} (hsd : w.shutdown = false) (hb : Back (registered w c) w2)
    (hd : deregisterHandler srv w2 c = .ok w3) : Back w w3 := by
  obtain ⟨d1, d2, d3, d4, d5, d6⟩ := deregisterHandler_effect hd
  have hops : w3.currentOps = w.currentOps := by
    rw [d6, hb.ops]
    simp [registered, registerTask, World.upd, hsd]
  have b1 := hb.tasks
  have b2 := hb.slots
  have b3 := hb.limit
  have b4 := hb.active
  refine ⟨?_, ?_, ?_, ?_, d5.trans hb.shutdown, hops⟩ <;> intro i <;> by_cases hi : i = c
  · subst hi
    have := b1 i
    rw [d1]
    simp only [registered, registerTask, World.upd, if_true] at this ⊢
    omega
  · have := b1 i
    rw [d1]
    simp only [registered, registerTask, World.upd, if_neg hi] at this ⊢
    omega
  · subst hi
    have h2 := b2 i
    have h3 := b3 i
    rw [d2, h3]
    simp only [registered, registerTask, World.upd, if_true, true_and] at h2 h3 ⊢
    rw [h2]
    split_ifs <;> omega
  · have := b2 i
    rw [d2]
    simp only [registered, registerTask, World.upd, if_neg hi, hi, false_and, if_false] at this ⊢
    omega
  · subst hi
    have := b3 i
    rw [d3, this]
    simp [registered, registerTask, World.upd]
  · have := b3 i
    rw [d3, this]
    simp [registered, registerTask, World.upd, hi]
  · subst hi
    intro ha
    have := b4 i (d4 i ha)
    simpa [registered, registerTask, World.upd] using this
  · intro ha
    have := b4 i (d4 i ha)
    simpa [registered, registerTask, World.upd, hi] using this

theorem Back.log {w w' : World ν υ} {e : Ev} (h : Back w w') : Back w (w'.log e) :=
  ⟨h.tasks, h.slots, h.limit, h.active, h.shutdown, h.ops⟩

theorem Back.hook (w : World ν υ) (e : Ev) (u : υ) : Back w { w.log e with user := u } :=
  ⟨fun _ => rfl, fun _ => rfl, fun _ => rfl, fun _ h => h, rfl, rfl⟩

theorem Back.lookedUp (srv : Server ν υ) (w : World ν υ) (key : Bytes) : Back w (lookedUp srv w key) :=
  ⟨fun _ => rfl, fun _ => rfl, fun _ => rfl, fun _ h => h, rfl, rfl⟩

/-- A handled message leaves task and slot counts as they were (not while shutting down). -/
theorem handleMessage_back {w w' : World ν υ} {c : ConnId} {m : Msg} (hsd : w.shutdown = false)
    (h : handleMessage srv w c m = .ok w') : Back w w' := by
  rcases handleMessage_ok h with ⟨_, rfl⟩ | ⟨_, w1, b, hr, hb⟩
  · exact (Back.refl w).log
  · rcases registerHandler_ok hr with ⟨_, rfl, rfl⟩ | ⟨_, _, ⟨hs, _, _, _⟩ | ⟨_, rfl, rfl⟩⟩
    · rcases hb with ⟨_, rfl⟩ | ⟨hc, _⟩
      · exact (Back.refl w1).log
      · cases hc
    · rw [hsd] at hs; cases hs
    · rcases hb with ⟨hc, _⟩ | ⟨_, hb⟩
      · cases hc
      · rcases hb with ⟨_, hh⟩ | ⟨_, hh⟩ | ⟨_, hh⟩ | ⟨_, hh⟩ | ⟨_, w2, hd, rfl⟩
        · obtain ⟨w2, w3, hr, hd, rfl⟩ := handleSignal_ok hh
          have hb : Back (registered w c) w2 := (Back.hook _ _ _).trans (Quiet.runApis hr).back
          exact (back_of_body hsd hb hd).log
        · obtain ⟨w2, w3, w4, hr, hf, hd, rfl⟩ := handleRequest_ok hh
          have hb : Back (registered w c) w2 := (Back.hook _ _ _).trans (Quiet.runApis hr).back
          have hb' : Back (registered w c) w3 := by
            rcases hf with ⟨_, hf⟩ | ⟨_, hf⟩
            · exact hb.trans (Quiet.fulfillMsg hf).back
            · exact hb.trans (Quiet.failMsg hf).back
          exact (back_of_body hsd hb' hd).log
        · obtain ⟨w2, w3, hc, hd, rfl⟩ := handleSessionRestore_ok hh
          refine (back_of_body hsd ?_ hd).log
          rcases hc with ⟨_, h⟩ | ⟨_, _, h⟩ | ⟨_, _, _, h⟩ | ⟨_, _, _, h⟩ | ⟨r, _, _, _, _, h⟩ |
            ⟨r, encoded, w1, _, _, _, _, hr, h⟩
          · exact (Quiet.failMsg h).back
          · exact (Quiet.failMsg h).back
          · exact (Back.lookedUp _ _ _).trans (Quiet.failMsg h).back
          · exact (Back.lookedUp _ _ _).trans (Quiet.failMsg h).back
          · exact (Back.lookedUp _ _ _).trans (Quiet.failMsg h).back
          · exact (Back.lookedUp _ _ _).trans
              (((Quiet.setSession _ _ _).trans (Quiet.register hr)).trans (Quiet.fulfillMsg h)).back
        · obtain ⟨w2, w3, hc, hd, rfl⟩ := handleSessionClosure_ok hh
          refine (back_of_body hsd ?_ hd).log
          rcases hc with ⟨_, h⟩ | ⟨_, _, h⟩ | ⟨_, _, w1, n, hd, h⟩
          · exact (Quiet.failMsg h).back
          · exact (Quiet.fulfillMsg h).back
          · exact (((Quiet.deregister hd).trans (Quiet.setSession _ _ _)).trans (Quiet.fulfillMsg h)).back
        · exact (back_of_body hsd (Back.refl _) hd).log

/-- The check of a restoration and the registry agree. -/
theorem registryAdd_of_not_tooMany {w : World ν υ} {key : Bytes} (h : ¬ tooMany srv w key) (c : ConnId) :
    (registryAdd srv.maxConns w.registry key c).2 = none := by
  unfold tooMany sessionConnectionsNum at h
  unfold registryAdd
  cases hg : w.registry.get key with
  | none => rfl
  | some set =>
    rw [hg] at h
    simp only at h ⊢
    rw [if_neg]
    rintro ⟨a, b⟩
    exact h ⟨by omega, a, by omega⟩

theorem handleMessage_returns (hw : WellBehaved srv) {w : World ν υ} {c : ConnId} (hr : Ready w c) (m : Msg) :
    ∃ w', handleMessage srv w c m = .ok w' := by
  have hfin : ∀ w2 : World ν υ, Back (registered w c) w2 → ∃ w', (do
      let w ← deregisterHandler srv w2 c
      Except.ok (releaseMsg w) : Go (World ν υ)) = .ok w' := by
    intro w2 hb
    obtain ⟨w3, h3⟩ := deregisterHandler_returns hw w2 c (by rw [hb.shutdown]; exact hr.shutdown) (by
      intro hl
      rw [hb.limit] at hl
      rw [hb.slots]
      simp only [registered, registerTask, World.upd, if_true] at hl ⊢
      rw [if_pos hl]; omega)
    rw [h3]
    exact ⟨_, rfl⟩
  unfold handleMessage
  simp only [pure, Except.pure]
  by_cases h0 : m.msgType = MsgHeartbeat
  · rw [if_pos h0]; exact ⟨_, rfl⟩
  · rw [if_neg h0]
    cases ha : (w.conns c).isActive with
    | false =>
      have : registerHandler srv w c m = .ok (w, false) := by
        unfold registerHandler
        rw [ha]; rfl
      rw [this]
      exact ⟨_, rfl⟩
    | true =>
      have : registerHandler srv w c m = .ok (registered w c, true) := by
        unfold registerHandler
        simp only [pure, Except.pure, ha, Bool.not_true, Bool.false_eq_true, if_false]
        rw [if_neg]
        · have e : (w.upd c fun con =>
              { con with slots := if decide ((w.conns c).limit > 1) = true then con.slots + 1 else con.slots }) =
              slotTaken w c := by
            simp [slotTaken, World.upd]
          rw [e]
          have e2 : (slotTaken w c).shutdown = false := hr.shutdown
          rw [if_neg (by rw [e2]; simp)]
          rfl
        · simp only [decide_eq_true_eq]
          rintro ⟨a, b⟩
          have := hr.slots a
          omega
      rw [this]
      simp only [bind, Except.bind, Bool.not_true, Bool.false_eq_true, if_false]
      split_ifs
      · unfold handleSignal
        simp only [pure, Except.pure]
        obtain ⟨w2, h2⟩ := runApis_returns hw (srv.hooks.onSignal (registered w c).user c m).2
          { (registered w c).log (.onSignal c (m.name.view m.buf) m.payload.encoding
            (m.payload.data.view m.buf)) with user := (srv.hooks.onSignal (registered w c).user c m).1 }
        simp only [bind, Except.bind] at hfin ⊢
        have h2' := h2
        simp only [World.log] at h2 ⊢
        rw [h2]
        exact hfin w2 ((Back.hook _ _ _).trans (Quiet.runApis h2').back)
      · unfold handleRequest answerRequest
        have hreq := hw.request (registered w c).user c m
        generalize hq : srv.hooks.onRequest (registered w c).user c m = q
        rw [hq] at hreq
        have hq' : srv.hooks.onRequest ((registered w c).log (.onRequest c m.ident (m.name.view m.buf)
          m.payload.encoding (m.payload.data.view m.buf))).user c m = q := hq
        simp only [hq', pure, Except.pure]
        obtain ⟨user, out⟩ := q
        obtain ⟨w2, h2⟩ := runApis_returns hw out.calls
          { (registered w c).log (.onRequest c m.ident (m.name.view m.buf) m.payload.encoding
            (m.payload.data.view m.buf)) with user := user }
        have hb : Back (registered w c) w2 :=
          (Back.hook _ _ _).trans (Quiet.runApis h2).back
        simp only at hreq ⊢
        rw [h2]
        simp only [bind, Except.bind] at hfin ⊢
        cases he : out.err with
        | nil =>
          obtain ⟨w3, h3⟩ := fulfillMsg_returns hw w2 c (if out.closesMsg = true then m.close.1 else m) out.enc
            out.payload
          simp only [h3]
          exact hfin w3 (hb.trans (Quiet.fulfillMsg h3).back)
        | request code text =>
          obtain ⟨w3, h3⟩ := failMsg_returns hw w2 c (if out.closesMsg = true then m.close.1 else m)
            (.request code text) (by simp)
          simp only [h3]
          exact hfin w3 (hb.trans (Quiet.failMsg h3).back)
        | requestPtr p =>
          obtain ⟨w3, h3⟩ := failMsg_returns hw w2 c (if out.closesMsg = true then m.close.1 else m)
            (.requestPtr p) (by rw [← he]; exact hreq)
          simp only [h3]
          exact hfin w3 (hb.trans (Quiet.failMsg h3).back)
        | maxSessConnsReached | sessionNotFound | sessionsDisabled | other =>
          obtain ⟨w3, h3⟩ := failMsg_returns hw w2 c (if out.closesMsg = true then m.close.1 else m) .nil (by simp)
          simp only [h3]
          exact hfin w3 (hb.trans (Quiet.failMsg h3).back)
      · unfold handleSessionRestore
        simp only [pure, Except.pure, bind, Except.bind] at hfin ⊢
        split_ifs with h1 h2
        · obtain ⟨w3, h3⟩ := failMsg_returns hw (registered w c) c m .sessionsDisabled (by simp)
          rw [h3]
          exact hfin w3 (Quiet.failMsg h3).back
        · obtain ⟨w3, h3⟩ := failMsg_returns hw (registered w c) c m .maxSessConnsReached (by simp)
          rw [h3]
          exact hfin w3 (Quiet.failMsg h3).back
        · have hlb := Back.lookedUp srv (registered w c) (m.payload.data.view m.buf)
          cases hl : (srv.hooks.onSessionLookup (registered w c).user (m.payload.data.view m.buf)).2 with
          | error e =>
            simp only
            obtain ⟨w3, h3⟩ := failMsg_returns hw (lookedUp srv (registered w c) (m.payload.data.view m.buf)) c m
              .nil (by simp)
            have h3' := h3
            unfold lookedUp at h3
            rw [h3]
            exact hfin w3 (hlb.trans (Quiet.failMsg h3').back)
          | ok o =>
            cases o with
            | none =>
              simp only
              obtain ⟨w3, h3⟩ := failMsg_returns hw (lookedUp srv (registered w c) (m.payload.data.view m.buf)) c m
                .sessionNotFound (by simp)
              have h3' := h3
              unfold lookedUp at h3
              rw [h3]
              exact hfin w3 (hlb.trans (Quiet.failMsg h3').back)
            | some r =>
              simp only
              cases hm : srv.hooks.marshal { key := m.payload.data.view m.buf, creation := r.creation,
                                             lastLookup := r.lastLookup, info := r.info } with
              | error e =>
                simp only
                obtain ⟨w3, h3⟩ := failMsg_returns hw
                  (lookedUp srv (registered w c) (m.payload.data.view m.buf)) c m .nil (by simp)
                have h3' := h3
                unfold lookedUp at h3
                rw [h3]
                exact hfin w3 (hlb.trans (Quiet.failMsg h3').back)
              | ok encoded =>
                simp only
                have hreg := register_returns (srv := srv) (setSession
                  (lookedUp srv (registered w c) (m.payload.data.view m.buf)) c
                  (some (restored srv.hooks (m.payload.data.view m.buf) r))) c _ (setSession_session _ _ _)
                have hreg' := hreg
                unfold lookedUp restored at hreg
                rw [hreg]
                have hnone : (registryAdd srv.maxConns (setSession
                    (lookedUp srv (registered w c) (m.payload.data.view m.buf)) c
                    (some (restored srv.hooks (m.payload.data.view m.buf) r))).registry
                    (m.payload.data.view m.buf) c).2 = none :=
                  registryAdd_of_not_tooMany (w := registered w c) h2 c
                unfold lookedUp restored at hnone
                simp only [hnone]
                obtain ⟨w3, h3⟩ := fulfillMsg_returns hw { setSession
                  (lookedUp srv (registered w c) (m.payload.data.view m.buf)) c
                  (some (restored srv.hooks (m.payload.data.view m.buf) r)) with
                  registry := (registryAdd srv.maxConns (setSession
                    (lookedUp srv (registered w c) (m.payload.data.view m.buf)) c
                    (some (restored srv.hooks (m.payload.data.view m.buf) r))).registry
                    (m.payload.data.view m.buf) c).1 } c m encUtf8 encoded
                have h3' := h3
                unfold lookedUp restored at h3
                rw [h3]
                exact hfin w3 (hlb.trans (((Quiet.setSession _ _ _).trans (Quiet.mk_registry _ _)).trans
                  (Quiet.fulfillMsg h3')).back)
      · unfold handleSessionClosure
        simp only [pure, Except.pure, bind, Except.bind] at hfin ⊢
        split_ifs
        · obtain ⟨w3, h3⟩ := failMsg_returns hw (registered w c) c m .sessionsDisabled (by simp)
          rw [h3]
          exact hfin w3 (Quiet.failMsg h3).back
        · obtain ⟨w3, h3⟩ := fulfillMsg_returns hw (registered w c) c m 0 []
          rw [h3]
          exact hfin w3 (Quiet.fulfillMsg h3).back
        · obtain ⟨⟨w2, n⟩, h2⟩ := deregister_returns hw (registered w c) c true
          rw [h2]
          simp only
          obtain ⟨w3, h3⟩ := fulfillMsg_returns hw (setSession w2 c none) c m 0 []
          rw [h3]
          exact hfin w3 (((Quiet.deregister h2).trans (Quiet.setSession _ _ _)).trans (Quiet.fulfillMsg h3)).back
      · exact hfin _ (Back.refl _)

theorem disconnect_returns (hw : WellBehaved srv) (w : World ν υ) (c : ConnId) :
    ∃ w', disconnect srv w c = .ok w' := by
  unfold disconnect
  obtain ⟨w1, h1⟩ := connClose_returns hw (releaseMsg w) c
  simp only [bind, Except.bind]
  rw [h1]
  exact runApis_returns hw _ _

theorem serve_returns (hw : WellBehaved srv) {c : ConnId} (input : List Incoming) : ∀ {w : World ν υ},
    Ready w c → ∃ w', serve srv w c input = .ok w' := by
  induction input with
  | nil => exact fun _ => ⟨_, rfl⟩
  | cons i rest ih =>
    intro w hr
    cases i with
    | failed b => exact disconnect_returns hw w c
    | data bs =>
      unfold serve
      obtain ⟨m, tp, e, h1⟩ := readBytes_returns (newMessage srv.bufferSize.toNat) bs
      rw [h1]
      simp only [bind, Except.bind]
      split_ifs
      · exact disconnect_returns hw w c
      · obtain ⟨w1, h2⟩ := handleMessage_returns hw hr m
        rw [h2]
        have hb := handleMessage_back hr.shutdown h2
        exact ih ⟨by rw [hb.shutdown]; exact hr.shutdown, by rw [hb.limit, hb.slots]; exact hr.slots⟩

end Webwire
