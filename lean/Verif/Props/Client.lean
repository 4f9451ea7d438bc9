import Verif.Proofs.Talk
import Verif.Props.Dispatch
import Verif.Props.Wire2

/-!
# Properties C93 and C94: what clients receive and what they conclude

Over all executions of `Spec.Talk`: any number of clients that send anything, any user code, API calls between
messages; hooks and API calls run one after the other.
-/

set_option autoImplicit false

namespace Webwire
open Spec

variable {υ : Type}

theorem setup_config {mk : Go Unit} {a b : Bool} {opts : ServerOptions} {s : ServerSetup}
    (h : newServer mk a b opts = .ok (.ok s)) : ∃ v, Grammar s.configMsg v ∧ v.msgType = 23 := by
  have hl : s.configMsg.length ≤ (newMessage s.configMsg.length).buf.length := by simp [newMessage_buf]
  obtain ⟨m', r1, r2, _⟩ := C19_configuration_content mk a b opts s h _ (clean_new s.configMsg.length) hl
  have hne : s.configMsg ≠ [] := by
    intro he
    rw [he] at r1
    simp [Msg.readBytes] at r1
  obtain ⟨m'', tp, e, r3, r4, r5, _⟩ := C09_accepts_exactly_the_grammar _ (clean_new s.configMsg.length) s.configMsg hne hl
  rw [r1] at r3
  simp only [Except.ok.injEq, Prod.mk.injEq] at r3
  obtain ⟨rfl, _, rfl⟩ := r3
  obtain ⟨v, hv⟩ := r4.mp rfl
  have := (r5 v hv).1
  exact ⟨v, hv, by rw [← this]; exact r2⟩

theorem setup_room {mk : Go Unit} {a b : Bool} {opts : ServerOptions} {s : ServerSetup}
    (h : newServer mk a b opts = .ok (.ok s)) : 32 ≤ s.options.messageBufferSize.toNat := by
  unfold newServer at h
  split_ifs at h
  · simp [pure, Except.pure] at h
  · simp [pure, Except.pure, bind, Except.bind] at h
  · simp only [pure, Except.pure, bind, Except.bind] at h
    cases hp : opts.prepare mk with
    | error e => rw [hp] at h; simp at h
    | ok r =>
      obtain ⟨o, err⟩ := r
      rw [hp] at h
      simp only at h
      cases err with
      | some e => simp at h
      | none =>
        simp only at h
        split at h
        · simp at h
        · simp only [Except.ok.injEq] at h
          subst h
          obtain ⟨o', err', h1, _, h2, _⟩ := C18_prepare opts (.ok ()) (.inl rfl)
          rw [prepare_ok hp] at h1
          simp only [Except.ok.injEq, Prod.mk.injEq] at h1
          obtain ⟨rfl, rfl⟩ := h1
          exact (h2 rfl).bufferSize

/-! ## An example server -/

/-- Hooks that find one session, and answer requests after creating a session. -/
def clHooks (size : Nat) : Hooks Unit :=
  { exHooks { payload := [7], calls := [.createSession 1 none] } with
    onSessionLookup := fun u key =>
      (u, .ok (if key = [107] then some { creation := 0, lastLookup := 0, info := none } else none))
    marshal := fun s => .ok (s.key ++ List.replicate size 32) }

/-- A server with 64 byte buffers. -/
def clServer (size : Nat) (sessions : Bool) : Server Net Unit :=
  { sock := netSockets (some 64), hooks := clHooks size, bufferSize := 64, sessionsEnabled := sessions,
    configMsg := [23,2,0,96,234,0,0,64,0,0,0] }

theorem clServer_made (size : Nat) (sessions : Bool) (hn : 0 < size) : Made (clServer size sessions) where
  setup := by
    cases sessions with
    | true => exact ⟨.ok (), true, true, { messageBufferSize := 64 }, _, rfl, rfl, rfl, rfl⟩
    | false => exact ⟨.ok (), true, true, { messageBufferSize := 64, sessions := Disabled }, _, rfl, rfl, rfl, rfl⟩
  sock := rfl
  open_ _ _ _ := rfl
  encodes s b h := by
    simp only [clServer, clHooks, Except.ok.injEq] at h
    rw [← h]
    intro he
    have := (List.append_eq_nil_iff.mp he).2
    simp at this
    omega

theorem clServer_hooks (size : Nat) (sessions : Bool) : HooksOnly (clServer size sessions).hooks Readable where
  connected _ _ a h := by simp [clServer, clHooks, exHooks] at h
  disconnected _ _ a h := by simp [clServer, clHooks, exHooks] at h
  signal _ _ _ a h := by simp [clServer, clHooks, exHooks] at h
  request _ _ _ a h := by
    simp [clServer, clHooks, exHooks] at h
    subst h
    trivial

/-- The server before the first client. -/
def clWorld : World Net Unit := { net := { connected := fun _ => false }, user := () }

/-- One client connects and sends the message `bs`, which is handled, and receives `outs`. -/
theorem clTalk {size : Nat} {sessions : Bool} {bs : Bytes} {v : View} {outs : List Bytes} {P : World Net Unit → Prop}
    (hg : Grammar bs v)
    (h : ∃ w1 w2, handleConnection (clServer size sessions) (plugged clWorld 1) 1 0 [] = .ok w1 ∧
      serve (clServer size sessions) w1 1 [.data bs] = .ok w2 ∧
      heard clWorld w1 (fun _ => []) 1 = [.got [23,2,0,96,234,0,0,64,0,0,0]] ∧
      (w2.net.out 1).drop (w1.net.out 1).length = outs ∧ P w2) :
    ∃ w conv q, Talk (clServer size sessions) Readable w conv q ∧
      conv 1 = [.got [23,2,0,96,234,0,0,64,0,0,0], .sent v] ++ outs.map .got ∧ P w := by
  obtain ⟨w1, w2, h1, h2, hne, ho, hp⟩ := h
  have t0 : Talk (clServer size sessions) Readable clWorld (fun _ => []) (fun _ => []) :=
    .start clWorld ⟨rfl, fun _ => rfl, rfl⟩ (fun _ => rfl) (fun _ => rfl) (fun _ => rfl)
  have t1 := Talk.accept clWorld w1 _ _ 1 0 t0 rfl rfl h1
  have t2 := Talk.send w1 _ _ 1 bs v t1 (by rw [hne]; simp) hg (fun _ => by rw [hne]; rfl)
  have t3 := Talk.handle w1 w2 _ _ 1 bs [] t2 (by simp [at_]) h2
  refine ⟨_, _, _, t3, ?_, hp⟩
  rw [heard, at_same, hne, ho]
  rfl

/-! ## C93 -/

/-- C93, in full: every message a client receives is well-formed; the first one is the server configuration; the others
are signals, session notifications, and answers to requests of this client that were not answered yet, of a type that
docs/protocol-sequences.txt lists for such a request. -/
def C93_full : Prop :=
  ∀ (υ : Type) (srv : Server Net υ) (w : World Net υ) (conv : ConnId → List Obs) (q : ConnId → List Bytes),
    Made srv → HooksOnly srv.hooks Readable → Talk srv Readable w conv q → ∀ c, Follows documented (conv c)

/-- C93: it is violated: a successful session restoration is answered by a UTF8 reply, not by a binary one. -/
theorem C93_violated : ¬ C93_full := by
  intro h
  obtain ⟨w, conv, q, ht, hc, _⟩ := clTalk (size := 1) (sessions := true) (P := fun _ => True)
    (outs := [[192, 1,2,3,4,5,6,7,8, 107, 32]])
    (Grammar.restoreSession [1,2,3,4,5,6,7,8] [107] rfl (by simp)) ⟨_, _, rfl, rfl, rfl, rfl, trivial⟩
  have hf := h _ _ _ _ _ (clServer_made 1 true (by decide)) (clServer_hooks 1 true) ht 1
  obtain ⟨v, hg, hv⟩ := hf _ [192, 1,2,3,4,5,6,7,8, 107, 32] [] hc
  have := grammar_unique hg (Grammar.reply 192 [1,2,3,4,5,6,7,8] [107, 32] (by simp) rfl)
  subst this
  rcases hv with ⟨h, _⟩ | ⟨_, h⟩ | ⟨t, h, h'⟩
  · simp at h
  · revert h; decide
  · have : (32 : UInt8) = t := by simpa [mind, Mind.sees, Mind.gets, IsReply, asksReply, List.lookup] using h
    subst this
    revert h'; decide

/-- C93: it is also violated by session closures: they are refused if sessions are disabled (or during a shutdown). -/
theorem C93_closure_violated : ¬ C93_full := by
  intro h
  obtain ⟨w, conv, q, ht, hc, _⟩ := clTalk (size := 1) (sessions := false) (P := fun _ => True)
    (outs := [[5, 1,2,3,4,5,6,7,8]])
    (Grammar.closeSession [1,2,3,4,5,6,7,8] rfl) ⟨_, _, rfl, rfl, rfl, rfl, trivial⟩
  have hf := h _ _ _ _ _ (clServer_made 1 false (by decide)) (clServer_hooks 1 false) ht 1
  obtain ⟨v, hg, hv⟩ := hf _ [5, 1,2,3,4,5,6,7,8] [] hc
  have := grammar_unique hg (Grammar.special 5 [1,2,3,4,5,6,7,8] [] (by simp) rfl)
  subst this
  rcases hv with ⟨h, _⟩ | ⟨_, h⟩ | ⟨t, h, h'⟩
  · simp at h
  · revert h; decide
  · have : (31 : UInt8) = t := by simpa [mind, Mind.sees, Mind.gets, IsReply, asksReply, List.lookup] using h
    subst this
    revert h'; decide

/-- C93, what holds: the same with UTF8 replies to session restorations and refusals of session closures. Missing: those two
kinds of replies, for which it is false. -/
theorem C93_partial (srv : Server Net υ) (w : World Net υ) (conv : ConnId → List Obs) (q : ConnId → List Bytes)
    (hm : Made srv) (ho : HooksOnly srv.hooks Readable) (h : Talk srv Readable w conv q) (c : ConnId) :
    Follows documentedButSessions (conv c) := by
  obtain ⟨mk, a, b, opts, s, hn, h1, _⟩ := hm.setup
  exact (talk_inv hm.sock ho hm.open_ (by rw [h1]; exact setup_config hn) h).2 rfl hm.encodes c

/-- C93, non-vacuity: a client that sends a request whose handler creates a session receives the configuration, the
notification, and the reply. -/
example : ∃ w conv q, Talk (clServer 1 true) Readable w conv q ∧ Made (clServer 1 true) ∧
    HooksOnly (clServer 1 true).hooks Readable ∧
    conv 1 = [.got [23,2,0,96,234,0,0,64,0,0,0],
      .sent { msgType := 127, ident := [1,2,3,4,5,6,7,8], name := [97], payload := [] },
      .got [21, 107, 32], .got [191, 1,2,3,4,5,6,7,8, 7]] := by
  obtain ⟨w, conv, q, ht, hc, _⟩ := clTalk (size := 1) (sessions := true) (P := fun _ => True)
    (outs := [[21, 107, 32], [191, 1,2,3,4,5,6,7,8, 7]])
    (Grammar.request 127 1 [1,2,3,4,5,6,7,8] [97] [] (by simp) rfl rfl (by simp)) ⟨_, _, rfl, rfl, rfl, rfl, trivial⟩
  exact ⟨w, conv, q, ht, clServer_made 1 true (by decide), clServer_hooks 1 true, hc⟩

/-! ## C94 -/

/-- C94, in full: whenever the server is done with what it was doing, every connected client that draws the documented
conclusions from what it received believes to have the session the server has for its connection. -/
def C94_full : Prop :=
  ∀ (υ : Type) (srv : Server Net υ) (w : World Net υ) (conv : ConnId → List Obs) (q : ConnId → List Bytes),
    Made srv → HooksOnly srv.hooks Readable → Talk srv Readable w conv q →
    ∀ c, w.net.connected c = true → Told srv (w.conns c).session (mind (conv c)).session

/-- C94: it is violated: if the encoded session does not fit a message the client that restores it gets no answer, but
its connection has the session. -/
theorem C94_violated : ¬ C94_full := by
  intro h
  obtain ⟨w, conv, q, ht, hc, hw, hs⟩ := clTalk (size := 60) (sessions := true) (outs := [])
    (P := fun w => w.net.connected 1 = true ∧ (w.conns 1).session.isSome = true)
    (Grammar.restoreSession [1,2,3,4,5,6,7,8] [107] rfl (by simp)) ⟨_, _, rfl, rfl, rfl, rfl, rfl, rfl⟩
  have hf := h _ _ _ _ _ (clServer_made 60 true (by decide)) (clServer_hooks 60 true) ht 1 hw
  rw [hc] at hf
  cases hk : (w.conns 1).session with
  | none => rw [hk] at hs; cases hs
  | some s => rw [hk] at hf; exact hf

/-- The sessions that can be restored fit the message buffers. -/
def Restorable (srv : Server Net υ) : Prop :=
  ∀ u key r b, (srv.hooks.onSessionLookup u key).2 = .ok (some r) →
    srv.hooks.marshal { key := key, creation := r.creation, lastLookup := r.lastLookup, info := r.info } = .ok b →
    9 + b.length ≤ srv.bufferSize.toNat

/-- C94, what holds: the same if all sessions that can be restored fit the message buffers. Missing: sessions that do not fit,
for which it is false. -/
theorem C94_partial (srv : Server Net υ) (ok : ApiCall → Prop) (w : World Net υ) (conv : ConnId → List Obs)
    (q : ConnId → List Bytes) (hm : Made srv) (hr : Restorable srv) (ho : HooksOnly srv.hooks ok)
    (h : Talk srv ok w conv q) (c : ConnId) (hc : w.net.connected c = true) :
    Told srv (w.conns c).session (mind (conv c)).session := by
  obtain ⟨mk, a, b, opts, s, hn, h1, h2, _⟩ := hm.setup
  refine (talk_inv hm.sock ho hm.open_ (by rw [h1]; exact setup_config hn) h).1.told ⟨?_, ?_⟩ c hc
  · intro k hk
    simp only [Option.some.injEq] at hk
    have := setup_room hn
    rw [← h2] at this
    omega
  · intro u key r b hl hmar k hk
    simp only [Option.some.injEq] at hk
    rw [← hk]
    exact hr u key r b hl hmar

theorem clServer_restorable : Restorable (clServer 1 true) := by
  intro u key r b hl hm
  simp only [clServer, clHooks, Except.ok.injEq] at hl hm
  split_ifs at hl with hk
  subst hk
  rw [← hm]
  decide

/-- C94, non-vacuity: a server all of whose sessions fit, and a client that restored one. -/
example : Restorable (clServer 1 true) ∧ Made (clServer 1 true) ∧ HooksOnly (clServer 1 true).hooks Readable ∧
    ∃ w conv q, Talk (clServer 1 true) Readable w conv q ∧ w.net.connected 1 = true ∧
      (w.conns 1).session = some { key := [107], creation := 0, lastLookup := 0, info := none } ∧
      (mind (conv 1)).session = some [107, 32] := by
  obtain ⟨w, conv, q, ht, hc, hw, hs⟩ := clTalk (size := 1) (sessions := true)
    (outs := [[192, 1,2,3,4,5,6,7,8, 107, 32]])
    (P := fun w => w.net.connected 1 = true ∧
      (w.conns 1).session = some { key := [107], creation := 0, lastLookup := 0, info := none })
    (Grammar.restoreSession [1,2,3,4,5,6,7,8] [107] rfl (by simp)) ⟨_, _, rfl, rfl, rfl, rfl, rfl, rfl⟩
  refine ⟨clServer_restorable, clServer_made 1 true (by decide), clServer_hooks 1 true, w, conv, q, ht, hw, hs, ?_⟩
  rw [hc]
  rfl

end Webwire
