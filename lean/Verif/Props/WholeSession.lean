import Verif.Props.Whole
import Verif.Proofs.Connection

/-!
# C97 for session requests

What the callers of session requests are told, end to end; and that the handlers reply as `Model/Whole` has it.
-/

set_option autoImplicit false

namespace Webwire.Whole
open _root_.Webwire.Spec

variable {cfg : Cfg} {s : State} {ν υ : Type} {srv : Server ν υ}

/-- C97: a caller who asked to close the session is told that this was done, by an empty reply, unless sessions are
disabled or the server is being shut down, and is then told so. -/
theorem C97_close_answer (hs : ideal cfg.srv) (h : Reachable cfg s) (c : ConnId)
    (hcl : ∀ d ∈ s.results, d.c = c → d.out.closesMsg = false)
    (hn : (Req.draws (s.clients c).g.log).length < 2 ^ 64) (n : Nat) (x : Sent) (r : Nat) (hx : (s.sent c)[n]? = some x)
    (hk : x.req = some ⟨r, .close⟩) (rep : Rep) (hg : Spec.Has (s.clients c) r rep) :
    (outcomeOf rep = .reply 0 [] ∧ cfg.srv.sessionsEnabled = true) ∨
    (rep = .error (.other 5) ∧ cfg.srv.sessionsEnabled = false) ∨ (rep = .error .shutdown ∧ .stop ∈ s.srv.g.log) := by
  obtain ⟨n', x', k, hx', hk', hr, hra, hu⟩ := C97_own_answer hs h c hcl hn r rep hg
  obtain rfl := hu n x _ hx hk rfl
  rw [hx] at hx'
  cases hx'
  rw [hk] at hk'
  cases hk'
  rcases hra with ⟨d, q, _, _, _, _, _, hp, hm⟩ | ⟨h1, _, h2⟩
  · cases ho : d.out with
    | hook => rw [ho] at hp; exact hp.elim
    | session o =>
      rw [ho] at hp hm
      cases o with
      | disabled => exact .inr (.inl ⟨hm, hp⟩)
      | closed => exact .inl ⟨hm, hp⟩
      | _ => exact hp.elim
  · exact .inr (.inr ⟨h1, h2⟩)

/-- C97: a caller who asked to restore a session is told the session as JSON text, or that there is none with this key, that it
has as many connections as it may have, or that looking it up failed; unless sessions are disabled or the server is being
shut down, and is then told so. -/
theorem C97_restore_answer (hs : ideal cfg.srv) (h : Reachable cfg s) (c : ConnId)
    (hcl : ∀ d ∈ s.results, d.c = c → d.out.closesMsg = false)
    (hn : (Req.draws (s.clients c).g.log).length < 2 ^ 64) (n : Nat) (x : Sent) (r : Nat) (key : Bytes)
    (hx : (s.sent c)[n]? = some x) (hk : x.req = some ⟨r, .restore key⟩) (rep : Rep) (hg : Spec.Has (s.clients c) r rep) :
    (cfg.srv.sessionsEnabled = true ∧ (∃ (d : Done) (q : Req.Request Rep), d ∈ s.results ∧ d.c = c ∧ d.n = n ∧
      (s.clients c).g.reqs[r]? = some q ∧ Shows d.msg 32 q.ident [] 0 key ∧
      ((∃ json, d.out = .session (.restored json) ∧ outcomeOf rep = .reply 1 json) ∨
        (d.out = .session .missing ∧ rep = .error (.other 3)) ∨ (d.out = .session .full ∧ rep = .error (.other 4)) ∨
        (d.out = .session .failed ∧ outcomeOf rep = .internalError)))) ∨
    (rep = .error (.other 5) ∧ cfg.srv.sessionsEnabled = false) ∨ (rep = .error .shutdown ∧ .stop ∈ s.srv.g.log) := by
  obtain ⟨n', x', k, hx', hk', hr, hra, hu⟩ := C97_own_answer hs h c hcl hn r rep hg
  obtain rfl := hu n x _ hx hk rfl
  rw [hx] at hx'
  cases hx'
  rw [hk] at hk'
  cases hk'
  rcases hra with ⟨d, q, hd, hdc, hdn, hq, ha, hp, hm⟩ | ⟨h1, _, h2⟩
  · cases ho : d.out with
    | hook => rw [ho] at hp; exact hp.elim
    | session o =>
      rw [ho] at hp hm
      cases o with
      | disabled => exact .inr (.inl ⟨hm, hp⟩)
      | closed => exact hp.elim
      | full => exact .inl ⟨hp, d, q, hd, hdc, hdn, hq, ha, .inr (.inr (.inl ⟨ho, hm⟩))⟩
      | failed => exact .inl ⟨hp, d, q, hd, hdc, hdn, hq, ha, .inr (.inr (.inr ⟨ho, hm⟩))⟩
      | missing => exact .inl ⟨hp, d, q, hd, hdc, hdn, hq, ha, .inr (.inl ⟨ho, hm⟩)⟩
      | restored json => exact .inl ⟨hp, d, q, hd, hdc, hdn, hq, ha, .inl ⟨json, ho, hm⟩⟩
  · exact .inr (.inr ⟨h1, h2⟩)

/-- What a handler does about a session request: nothing is sent before the reply, the reply is one of those in
`Model/Whole`, and then the handler ends. -/
def Spec.Replies (srv : Server ν υ) (w : World ν υ) (c : ConnId) (m : Msg) (out : SessOut) (w' : World ν υ) : Prop :=
  ∃ w1 w2 w3, w1.net = w.net ∧ answerSession srv w1 c m out = .ok w2 ∧ deregisterHandler srv w2 c = .ok w3 ∧ w' = releaseMsg w3

/-- C97: `handleSessionClosure` replies as `Model/Whole` has it. -/
theorem C97_close_handler (srv : Server ν υ) (w w' : World ν υ) (c : ConnId) (m : Msg) (hm : m.msgType = MsgRequestCloseSession)
    (h : handleSessionClosure srv w c m = .ok w') :
    ∃ out : SessOut, out.fits srv.sessionsEnabled m.msgType = true ∧ Spec.Replies srv w c m out w' := by
  have fin : ∀ w2 : World ν υ, (do let w ← deregisterHandler srv w2 c; return releaseMsg w : Go (World ν υ)) = .ok w' →
      ∃ w3, deregisterHandler srv w2 c = .ok w3 ∧ w' = releaseMsg w3 := by
    intro w2 h
    obtain ⟨w3, h3, h⟩ := Webwire.bind_ok h
    cases h
    exact ⟨w3, h3, rfl⟩
  unfold handleSessionClosure at h
  simp only at h
  split at h
  · rename_i he
    obtain ⟨w2, h2, h⟩ := Webwire.bind_ok h
    obtain ⟨w3, h3, hw⟩ := fin w2 h
    exact ⟨.disabled, by simpa [SessOut.fits] using he, w, w2, w3, rfl, h2, h3, hw⟩
  · rename_i he
    have hfit : SessOut.closed.fits srv.sessionsEnabled m.msgType = true := by
      simp only [Bool.not_eq_true', Bool.not_eq_false] at he
      simp [SessOut.fits, he, hm]
    split at h
    · obtain ⟨w2, h2, h⟩ := Webwire.bind_ok h
      obtain ⟨w3, h3, hw⟩ := fin w2 h
      exact ⟨.closed, hfit, w, w2, w3, rfl, h2, h3, hw⟩
    · obtain ⟨⟨w1, n⟩, h1, h⟩ := Webwire.bind_ok h
      obtain ⟨w2, h2, h⟩ := Webwire.bind_ok h
      obtain ⟨w3, h3, hw⟩ := fin w2 h
      exact ⟨.closed, hfit, setSession w1 c none, w2, w3, (deregister_net h1 :), h2, h3, hw⟩

/-- C97: `handleSessionRestore` replies as `Model/Whole` has it, and with the session `OnSessionLookup` returned, if any. -/
theorem C97_restore_handler (srv : Server ν υ) (w w' : World ν υ) (c : ConnId) (m : Msg)
    (hm : m.msgType = MsgRequestRestoreSession) (h : handleSessionRestore srv w c m = .ok w') :
    ∃ out : SessOut, out.fits srv.sessionsEnabled m.msgType = true ∧ Spec.Replies srv w c m out w' ∧
      (∀ json, out = .restored json → ∃ r, (srv.hooks.onSessionLookup w.user (m.payload.data.view m.buf)).2 = .ok (some r) ∧
        srv.hooks.marshal { key := m.payload.data.view m.buf, creation := r.creation, lastLookup := r.lastLookup, info := r.info } =
          .ok json) ∧
      (out = .missing → (srv.hooks.onSessionLookup w.user (m.payload.data.view m.buf)).2 = .ok none) ∧
      (out = .failed → (∃ e, (srv.hooks.onSessionLookup w.user (m.payload.data.view m.buf)).2 = .error e) ∨
        ∃ r e, (srv.hooks.onSessionLookup w.user (m.payload.data.view m.buf)).2 = .ok (some r) ∧
          srv.hooks.marshal { key := m.payload.data.view m.buf, creation := r.creation, lastLookup := r.lastLookup, info := r.info } =
            .error e) ∧
      (out = .full → 0 < srv.maxConns ∧ (srv.maxConns : Int) ≤ sessionConnectionsNum w (m.payload.data.view m.buf)) := by
  have fin : ∀ w2 : World ν υ, (do let w ← deregisterHandler srv w2 c; return releaseMsg w : Go (World ν υ)) = .ok w' →
      ∃ w3, deregisterHandler srv w2 c = .ok w3 ∧ w' = releaseMsg w3 := by
    intro w2 h
    obtain ⟨w3, h3, h⟩ := Webwire.bind_ok h
    cases h
    exact ⟨w3, h3, rfl⟩
  unfold handleSessionRestore at h
  simp only at h
  split at h
  · rename_i he
    obtain ⟨w2, h2, h⟩ := Webwire.bind_ok h
    obtain ⟨w3, h3, hw⟩ := fin w2 h
    exact ⟨.disabled, by simpa [SessOut.fits] using he, ⟨w, w2, w3, rfl, h2, h3, hw⟩, by simp, by simp, by simp, by simp⟩
  · rename_i he
    simp only [Bool.not_eq_true', Bool.not_eq_false] at he
    split at h
    · rename_i hfull
      obtain ⟨w2, h2, h⟩ := Webwire.bind_ok h
      obtain ⟨w3, h3, hw⟩ := fin w2 h
      exact ⟨.full, by simp [SessOut.fits, he, hm], ⟨w, w2, w3, rfl, h2, h3, hw⟩, by simp, by simp, by simp, fun _ => ⟨hfull.2.1, by omega⟩⟩
    · split at h
      · rename_i e hl
        obtain ⟨w2, h2, h⟩ := Webwire.bind_ok h
        obtain ⟨w3, h3, hw⟩ := fin w2 h
        exact ⟨.failed, by simp [SessOut.fits, he, hm], ⟨_, w2, w3, by rfl, h2, h3, hw⟩, by simp, by simp, fun _ => .inl ⟨e, hl⟩, by simp⟩
      · rename_i hl
        obtain ⟨w2, h2, h⟩ := Webwire.bind_ok h
        obtain ⟨w3, h3, hw⟩ := fin w2 h
        exact ⟨.missing, by simp [SessOut.fits, he, hm], ⟨_, w2, w3, by rfl, h2, h3, hw⟩, by simp, fun _ => hl, by simp, by simp⟩
      · rename_i r hl
        split at h
        · rename_i e hj
          obtain ⟨w2, h2, h⟩ := Webwire.bind_ok h
          obtain ⟨w3, h3, hw⟩ := fin w2 h
          exact ⟨.failed, by simp [SessOut.fits, he, hm], ⟨_, w2, w3, by rfl, h2, h3, hw⟩, by simp, by simp, fun _ => .inr ⟨r, e, hl, hj⟩, by simp⟩
        · rename_i json hj
          obtain ⟨⟨w1, e⟩, h1, h⟩ := Webwire.bind_ok h
          simp only at h
          split at h
          · cases h
          · obtain ⟨w2, h2, h⟩ := Webwire.bind_ok h
            obtain ⟨w3, h3, hw⟩ := fin w2 h
            exact ⟨.restored json, by simp [SessOut.fits, he, hm], ⟨_, w2, w3, (register_net h1 :), h2, h3, hw⟩,
              fun j hj' => by cases hj'; exact ⟨r, hl, hj⟩, by simp, by simp, by simp⟩

/-! A client restores a session, asks for one that does not exist, and closes its session, without waiting in between. Then
the server is shut down, and closing the session again is refused. -/

/-- Sessions are enabled. -/
def exSessCfg : Cfg := ⟨{ exServer {} with sessionsEnabled := true }, 64⟩

/-- Sessions are disabled. -/
def exNoSessCfg : Cfg := ⟨{ exServer {} with sessionsEnabled := false }, 64⟩

/-- A session request is handled. -/
def exHandle (out : SessOut) : List Cmd := [.recv 0] ++ exGo 0 6 ++ [.ends 0 (.session out)] ++ exGo 0 3

/-- Session requests and their answers. -/
def exSess : List Cmd :=
  [.sv (.connect 1 0), .cl 1 .create, .cl 1 (.go 0), .cl 1 .create, .cl 1 (.go 0), .cl 1 .create, .cl 1 (.go 0),
    .ask 1 0 (.restore [107]), .ask 1 1 (.restore [108]), .ask 1 2 .close] ++
    exHandle (.restored [123, 125]) ++ exHandle .missing ++ exHandle .closed ++
    [.read 1] ++ exCl 3 ++ [.read 1] ++ exCl 3 ++ [.read 1] ++ exCl 3

/-- ... and a fourth request, refused. -/
def exSessStop : List Cmd :=
  exSess ++ [.cl 1 .create, .cl 1 (.go 0), .sv .shutdown, .sv (.go 0), .ask 1 3 .close, .recv 1] ++ exGo 1 3 ++ [.refuse 1] ++
    [.read 1] ++ exCl 3

/-- What is in the requests' channels. -/
def exChans (cl : Req.State Rep) : List (Option Outcome) := cl.g.reqs.map fun q => q.chan.map outcomeOf

theorem exChans_has {cl : Req.State Rep} {r : Nat} {o : Outcome} (h : (exChans cl)[r]? = some (some o)) :
    ∃ rep, Spec.Has cl r rep ∧ outcomeOf rep = o := by
  simp only [exChans, List.getElem?_map, Option.map_eq_some_iff] at h
  obtain ⟨q, hq, rep, hc, ho⟩ := h
  exact ⟨rep, .inr ⟨q, hq, hc⟩, ho⟩

theorem exAsked {l : List Sent} {n r : Nat} {ask : Ask} (h : (l.map (·.req))[n]? = some (some ⟨r, ask⟩)) :
    ∃ x, l[n]? = some x ∧ x.req = some ⟨r, ask⟩ := by
  simpa only [List.getElem?_map, Option.map_eq_some_iff] using h

/-- Three answers; all conditions of the theorems above, and of those in `Props/Whole`, hold. -/
example : ∃ s, Reachable exSessCfg s ∧ ideal exSessCfg.srv ∧ (Req.draws (s.clients 1).g.log).length < 2 ^ 64 ∧
    (∀ d ∈ s.results, d.c = 1 → d.up = true ∧ d.out.closesMsg = false ∧ Spec.Sendable d.out) ∧
    (∃ x, (s.sent 1)[0]? = some x ∧ x.req = some ⟨0, .restore [107]⟩) ∧
    (∃ x, (s.sent 1)[1]? = some x ∧ x.req = some ⟨1, .restore [108]⟩) ∧
    (∃ x, (s.sent 1)[2]? = some x ∧ x.req = some ⟨2, .close⟩) ∧
    (∃ rep, Spec.Has (s.clients 1) 0 rep ∧ outcomeOf rep = .reply 1 [123, 125]) ∧
    (∃ rep, Spec.Has (s.clients 1) 1 rep ∧ outcomeOf rep = .otherError) ∧
    ∃ rep, Spec.Has (s.clients 1) 2 rep ∧ outcomeOf rep = .reply 0 [] := by
  have hrun : ∃ s, play exSessCfg {} exSess = some s ∧ (Req.draws (s.clients 1).g.log).length = 3 ∧
      (s.sent 1).map (·.req) = [some ⟨0, .restore [107]⟩, some ⟨1, .restore [108]⟩, some ⟨2, .close⟩] ∧
      exChans (s.clients 1) = [some (.reply 1 [123, 125]), some .otherError, some (.reply 0 [])] ∧
      s.results.map (fun d => (d.up, d.out)) =
        [(true, .session (.restored [123, 125])), (true, .session .missing), (true, .session .closed)] :=
    ⟨_, rfl, rfl, rfl, rfl, rfl⟩
  obtain ⟨s, hp, h1, h2, h3, h4⟩ := hrun
  refine ⟨s, play_reachable _ .start hp, rfl, by omega, ?_, exAsked (by rw [h2]; rfl), exAsked (by rw [h2]; rfl),
    exAsked (by rw [h2]; rfl), exChans_has (by rw [h3]; rfl), exChans_has (by rw [h3]; rfl), exChans_has (by rw [h3]; rfl)⟩
  intro d hd _
  have := List.mem_map_of_mem (f := fun d : Done => (d.up, d.out)) hd
  rw [h4] at this
  simp only [List.mem_cons, Prod.mk.injEq, List.not_mem_nil, or_false] at this
  rcases this with ⟨h1, h2⟩ | ⟨h1, h2⟩ | ⟨h1, h2⟩ <;> rw [h1, h2] <;> exact ⟨rfl, rfl, trivial⟩

/-- A session request is refused, and the client is told so. -/
example : ∃ s, Reachable exSessCfg s ∧ .refused 1 ⟨.session, 3⟩ ∈ s.srv.g.log ∧
    ∃ q : Req.Request Rep, (s.clients 1).g.reqs[3]? = some q ∧ q.chan = some (.error .shutdown) := by
  have hrun : ∃ s, play exSessCfg {} exSessStop = some s ∧
      (s.srv.g.log.any (fun e => decide (e = .refused 1 ⟨.session, 3⟩))) = true ∧
      (s.clients 1).g.reqs[3]?.map (fun q => match q.chan with | some (.error .shutdown) => true | _ => false) = some true :=
    ⟨_, rfl, rfl, rfl⟩
  obtain ⟨s, hp, h1, h2⟩ := hrun
  refine ⟨s, play_reachable _ .start hp, ?_, ?_⟩
  · obtain ⟨e, he, h⟩ := List.any_eq_true.mp h1
    simp only [decide_eq_true_eq] at h
    rw [← h]; exact he
  · obtain ⟨q, hq, h⟩ := Option.map_eq_some_iff.mp h2
    refine ⟨q, hq, ?_⟩
    split at h
    · assumption
    · cases h

/-- Sessions are disabled, and the client is told so. -/
example : ∃ s, Reachable exNoSessCfg s ∧ ∃ q : Req.Request Rep, (s.clients 1).g.reqs[0]? = some q ∧ q.chan = some (.error (.other 5)) := by
  have hrun : ∃ s, play exNoSessCfg {} ([.sv (.connect 1 0), .cl 1 .create, .cl 1 (.go 0), .ask 1 0 .close] ++ exHandle .disabled ++
        [.read 1] ++ exCl 3) = some s ∧
      (s.clients 1).g.reqs[0]?.map (fun q => match q.chan with | some (.error (.other t)) => some t | _ => none) = some (some 5) :=
    ⟨_, rfl, rfl⟩
  obtain ⟨s, hp, h2⟩ := hrun
  obtain ⟨q, hq, h⟩ := Option.map_eq_some_iff.mp h2
  refine ⟨s, play_reachable _ .start hp, q, hq, ?_⟩
  split at h
  · rename_i hc
    cases h
    exact hc
  · cases h

/-- The messages of the examples below: a request to restore the session with this key, and one to close the session. -/
def exSessMsg (t : UInt8) (key : Bytes) : Option Msg := readMsg 64 (t :: ([1, 0, 0, 0, 0, 0, 0, 0] ++ key))

/-- Both handlers return. -/
example : ∃ m m', exSessMsg 32 [107] = some m ∧ m.msgType = MsgRequestRestoreSession ∧ exSessMsg 31 [] = some m' ∧
    m'.msgType = MsgRequestCloseSession ∧
    (handleSessionRestore exSessCfg.srv (registerTask { exWorld with currentOps := 1 } 1) 1 m).toOption.isSome = true ∧
    (handleSessionClosure exSessCfg.srv (registerTask { exWorld with currentOps := 1 } 1) 1 m').toOption.isSome = true :=
  ⟨_, _, rfl, rfl, rfl, rfl, rfl, rfl⟩

end Webwire.Whole
