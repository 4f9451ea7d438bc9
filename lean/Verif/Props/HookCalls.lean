import Verif.Props.Session2

/-!
User code is called exactly as the recorded events say (C20, C38), what a client gets that closes its session
(C38), and the limit of a connection is the one it was accepted with (C25).
-/

set_option autoImplicit false

namespace Webwire
open Spec

variable {ν υ : Type}

/-! ## C20, C38: hooks are called as recorded -/

private theorem Explains.append {hooks : Hooks υ} {u u' u'' : υ} {l l' : List Ev} (h : Explains hooks u l u')
    (h' : Explains hooks u' l' u'') : Explains hooks u (l ++ l') u'' := by
  induction h' with
  | nil => simpa using h
  | generate _ ih => exact .generate ih
  | event _ hc ih =>
    rw [← List.append_assoc]
    exact .event ih hc

/-- What happened from `w` to `w'` is explained by the new events. -/
private def Told (srv : Server ν υ) (w w' : World ν υ) : Prop :=
  ∃ l, w'.trace = w.trace ++ l ∧ Explains srv.hooks w.user l w'.user

private theorem Told.quiet {srv : Server ν υ} {w w' : World ν υ} (ht : w'.trace = w.trace) (hu : w'.user = w.user) :
    Told srv w w' := ⟨[], by simp [ht], by rw [hu]; exact .nil _⟩

private theorem toldFrame (srv : Server ν υ) (ow : Bool) : Frame srv (Told srv) ow where
  refl w := .quiet rfl rfl
  trans := by
    rintro w w' w'' ⟨l, e, h⟩ ⟨l', e', h'⟩
    exact ⟨l ++ l', by rw [e', e, List.append_assoc], Explains.append h h'⟩
  getWriter _ _ _ _ _ := .quiet rfl rfl
  write _ _ _ _ _ _ := .quiet rfl rfl
  flush _ _ _ _ _ := .quiet rfl rfl
  close _ _ _ _ _ _ := .quiet rfl rfl
  generate w := ⟨[], by simp, .generate (.nil _)⟩
  event w e u _ h := ⟨[e], rfl, Explains.event (l := []) (.nil _) h⟩
  conn _ _ _ _ := .quiet rfl rfl
  ops _ _ _ := .quiet rfl rfl
  leave w c d w1 n _ hd := by
    rcases deregister_ok hd with ⟨_, rfl, _⟩ | ⟨s, _, _, ⟨_, rfl⟩ | ⟨_, _, _, rfl⟩⟩
    · exact .quiet rfl rfl
    · exact .quiet rfl rfl
    · exact ⟨[.onSessionClosed s.key], rfl, Explains.event (l := []) (.nil _) rfl⟩
  create w w1 c s w2 e _ _ _ h _ _ _ hr := by
    obtain ⟨_, _, rfl, _⟩ := register_ok hr; exact h
  restore w c s w1 _ _ _ _ hr := by
    obtain ⟨_, _, rfl, _⟩ := register_ok hr; exact .quiet rfl rfl

/-- C20, C38: whatever happens to a server, the user's code runs exactly as the new events say: each hook once per
event, with the connection, the message, the session or the key of the event, in the order of the events. Besides
that only the key generator runs. -/
theorem C20_user_code (srv : Server ν υ) (ow : Bool) (w w' : World ν υ) (h : Step srv ow w w') :
    ∃ l, w'.trace = w.trace ++ l ∧ Explains srv.hooks w.user l w'.user :=
  (toldFrame srv ow).step (R := Told srv) (fun _ _ _ _ => .quiet rfl rfl) (fun _ => .quiet rfl rfl) h

/-- C20, C38, likewise for any number of messages on a connection. -/
theorem C20_user_code_serve (srv : Server ν υ) (w w' : World ν υ) (c : ConnId) (input : List Incoming)
    (h : serve srv w c input = .ok w') :
    ∃ l, w'.trace = w.trace ++ l ∧ Explains srv.hooks w.user l w'.user :=
  (toldFrame srv true).serve h

/-! ## C38: the reply to a closure request -/

/-- C38: with sessions enabled, a client's request to close its session is answered by one empty reply with its
identifier, whether or not there is a session, and the connection has none afterwards. If there was none, nothing
happens to any session and no user code runs. -/
theorem C38_closure_answered (srv : Server Net υ) (w w' : World Net υ) (c : ConnId) (bs : Bytes) (v : View)
    (ha : Asked srv w c bs v) (ht : v.msgType = 31) (hsd : w.shutdown = false) (hse : srv.sessionsEnabled = true)
    (h : serve srv w c [.data bs] = .ok w') :
    replies (w'.net.out c) = replies (w.net.out c) ++ [191 :: v.ident] ∧ (w'.conns c).session = none ∧
    ((w.conns c).session = none → w'.registry = w.registry ∧ w'.user = w.user ∧
      ∀ i, (w'.conns i).session = (w.conns i).session) := by
  obtain ⟨m, l, h1, h2, h3, hpos, r1, r2⟩ := asked_replied ha h
  have et : m.msgType = 31 := by rw [← ht, ← h1]; rfl
  constructor
  · rw [r2.here]
    cases r1 with
    | silent hs =>
      rcases hs with hs | hs
      · rw [ha.active] at hs; cases hs
      · rw [et] at hs; exact absurd (by decide) hs
    | shutdown _ _ hs => rw [hsd] at hs; cases hs
    | request call _ hm => rw [et] at hm; exact absurd hm (by decide)
    | unwritable call _ hm => rw [et] at hm; exact absurd hm (by decide)
    | restoreFailed t _ hm => rw [et] at hm; cases hm
    | restored s _ hm => rw [et] at hm; cases hm
    | closure => simp [hse, h3]
  · obtain ⟨m, h1, _, _, _, h4⟩ := serve_grammar (srv := srv) (w := w) (c := c) (rest := []) ha.grammar ha.fits
    have et : m.msgType = 31 := by rw [← ht, ← h1]; rfl
    rw [h4] at h
    obtain ⟨w1, h5, h⟩ := bind_ok h
    simp only [serve, Except.ok.injEq] at h
    subst h
    have h6 := (handleMessage_session ha.active hsd h5).2 et
    have hsm := Same.registered w c
    obtain ⟨w2, w3, hk, hd, rfl⟩ := handleSessionClosure_ok h6
    rcases hk with ⟨hx, _⟩ | ⟨_, hx, hf⟩ | ⟨_, hx, w1, n, hdr, hf⟩
    · rw [hse] at hx; cases hx
    · have hact : (w2.conns c).isActive = true := by
        rw [(Same.fulfillMsg hf).active, hsm.active]; exact ha.active
      have hfin := (Same.fulfillMsg hf).trans ((Same.deregisterHandler hact hd).trans (Same.release w3))
      refine ⟨by rw [hfin.session]; exact hx, fun _ => ⟨hfin.registry, hfin.user, fun i => by rw [hfin.session, hsm.session]⟩⟩
    · have hact : (w2.conns c).isActive = true := by
        rw [(Same.fulfillMsg hf).active]
        have : ((setSession w1 c none).conns c).isActive = (w1.conns c).isActive := by
          simp [setSession, World.upd]
        rw [this, deregister_conns hdr, hsm.active]; exact ha.active
      have hfin := (Same.fulfillMsg hf).trans ((Same.deregisterHandler hact hd).trans (Same.release w3))
      refine ⟨by rw [hfin.session]; simp [setSession, World.upd], fun hn => ?_⟩
      rw [hsm.session] at hx
      exact absurd hn hx

/-- C38, non-vacuity: a client without and then with a session asks to close it. -/
example : ∃ w1 w2, handleConnection (sessServer 0) sessStart 1 0
      [.data [31, 0,0,0,0,0,0,0,1], .data [32, 0,0,0,0,0,0,0,2, 7]] = .ok w1 ∧
    (w1.conns 1).session.map (·.key) = some [7] ∧ serve (sessServer 0) w1 1 [.data [31, 0,0,0,0,0,0,0,3]] = .ok w2 ∧
    replies (w2.net.out 1) = [[191, 0,0,0,0,0,0,0,1], [192, 0,0,0,0,0,0,0,2, 123, 7], [191, 0,0,0,0,0,0,0,3]] ∧
    (w2.conns 1).session = none ∧ closedKeys w2.trace = [[7]] :=
  ⟨_, _, rfl, rfl, rfl, rfl, rfl, rfl⟩

/-! ## C25: the limit -/

private theorem limitFrame (srv : Server ν υ) (ow : Bool) (c : ConnId) :
    Frame srv (fun w w' => (w'.conns c).limit = (w.conns c).limit) ow where
  refl _ := rfl
  trans h h' := h'.trans h
  getWriter _ _ _ _ _ := rfl
  write _ _ _ _ _ _ := rfl
  flush _ _ _ _ _ := rfl
  close _ _ _ _ _ _ := rfl
  generate _ := rfl
  event _ _ _ _ _ := rfl
  conn w i f hf := by
    simp only [World.upd]
    split_ifs with h
    · subst h; exact (hf _).2.2
    · rfl
  ops _ _ _ := rfl
  leave w i d w1 n _ hd := by
    rw [(Quiet.setSession w1 i none).limit, deregister_conns hd]
  create w w1 i s w2 e _ _ _ h _ _ _ hr := by
    rw [(Quiet.register hr).limit, (Quiet.setSession w1 i (some s)).limit]; exact h
  restore w i s w1 _ _ _ _ hr := by
    rw [(Quiet.register hr).limit, (Quiet.setSession w i (some s)).limit]

/-- C25: once `OnClientConnected` was called, the limit of the connection is the `ConcurrencyLimit` of the options
it was accepted with, whatever was received since. -/
theorem C25_limit_given (srv : Server ν υ) (w w' : World ν υ) (c : ConnId) (limit : Int) (input : List Incoming)
    (hc : .onClientConnected c ∈ w'.trace.drop w.trace.length)
    (h : handleConnection srv w c limit input = .ok w') : (w'.conns c).limit = limit := by
  rcases handleConnection_ok h with ⟨w1, e, net, ce, h1, h2, rfl⟩ | ⟨w1, w2, h1, h2, h3⟩
  · exfalso
    rcases withWriter_ok h1 with ⟨net, er, _, rfl, _⟩ | ⟨net, net', _, _, rfl⟩ <;> simp [World.log] at hc
  · rw [(limitFrame srv true c).serve h3, (limitFrame srv true c).runApis h2]
    simp [accepted, World.log, World.upd]

/-- C25: nothing that happens to a server changes the limit of a connection it has. -/
theorem C25_limit_kept (srv : Server ν υ) (ow : Bool) (w w' : World ν υ) (c : ConnId) (hc : w.conns c ≠ {})
    (h : Step srv ow w w') : (w'.conns c).limit = (w.conns c).limit := by
  cases h with
  | accept _ i limit hf h =>
    have hi : c ≠ i := by rintro rfl; exact hc hf
    rcases handleConnection_ok h with ⟨w1, e, net, ce, h1, h2, rfl⟩ | ⟨w1, w2, h1, h2, h3⟩
    · rcases withWriter_ok h1 with ⟨net, er, _, rfl, _⟩ | ⟨net, net', _, _, rfl⟩ <;> rfl
    · rw [(limitFrame srv true c).serve h3, (limitFrame srv true c).runApis h2]
      rcases withWriter_ok h1 with ⟨net, er, _, rfl, _⟩ | ⟨net, net', _, _, rfl⟩ <;>
        simp [accepted, World.log, World.upd, hi]
  | receive _ i j hj h => exact (limitFrame srv true c).serve h
  | api _ a h => exact (limitFrame srv true c).runApi h
  | shutdown => rfl

/-- C25, non-vacuity. -/
example : ∃ w', handleConnection (sessServer 0) sessStart 1 5 [.data [32, 0,0,0,0,0,0,0,2, 7]] = .ok w' ∧
    .onClientConnected 1 ∈ w'.trace.drop sessStart.trace.length ∧ (w'.conns 1).limit = 5 ∧ w'.conns 1 ≠ {} :=
  ⟨_, rfl, by decide, rfl, by decide⟩

/-- C20, non-vacuity: a session is restored and closed, and the hooks change the user's state. -/
example : ∃ w1 w2, handleConnection (sessServer 0) sessStart 1 0 [.data [32, 0,0,0,0,0,0,0,2, 7]] = .ok w1 ∧
    serve (sessServer 0) w1 1 [.data [31, 0,0,0,0,0,0,0,3]] = .ok w2 ∧
    w2.trace.drop w1.trace.length = [.onSessionClosed [7], .sent 1, .msgClose] :=
  ⟨_, _, rfl, rfl, rfl⟩

end Webwire
