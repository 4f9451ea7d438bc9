import Verif.Proofs.Connection
import Verif.Props.Options

/-!
# Properties C19, C20, C21, C31 and the order part of C26: what happens to received bytes

Over arbitrary sockets (any transport, failing or not) and arbitrary user code unless a network is named.
-/

set_option autoImplicit false

namespace Webwire
open Spec

variable {ν υ : Type}

/-! ## An example server

On the ideal network, with hooks that do nothing; `OnRequest` returns `out`. Used for non-vacuity. -/

/-- Hooks for examples: the user's state is unused, `OnRequest` returns `out`. -/
def exHooks (out : RequestOut) : Hooks Unit where
  onClientConnected u _ := (u, [])
  onClientDisconnected u _ := (u, [])
  onSignal u _ _ := (u, [])
  onRequest u _ _ := (u, out)
  onSessionCreated u _ _ := (u, none)
  onSessionLookup u _ := (u, .ok none)
  onSessionClosed u _ := (u, .returned none)
  generateKey u := (u, [107])
  now _ := 0
  marshal s := .ok (123 :: s.key)
  infoParser n := some n

/-- A server for examples. -/
def exServer (out : RequestOut) : Server Net Unit :=
  { sock := idealSockets, hooks := exHooks out, bufferSize := 64, configMsg := [23,2,0,96,234,0,0,64,0,0,0] }

/-- A world with the open connection 1. -/
def exWorld : World Net Unit :=
  { net := {}, user := (), conns := fun _ => { limit := 0, isActive := true } }

/-! ## C19 -/

/-- C19: `handleConnection` first runs the write of the configuration message. If that succeeded
`OnClientConnected` is called next and everything else comes after; if it failed no hook is called at all and
the socket is closed. -/
theorem C19_configuration_before_hooks (srv : Server ν υ) (w w' : World ν υ) (c : ConnId) (limit : Int)
    (input : List Incoming) (h : handleConnection srv w c limit input = .ok w') :
    ∃ w1 e, writeConfMessage srv w c = .ok (w1, e) ∧
      (e = none → ∃ rest, w'.trace = w.trace ++ .sent c :: .onClientConnected c :: rest) ∧
      (e ≠ none → ∃ l, w'.trace = w.trace ++ l ++ [.sockClose c] ∧ (l = [] ∨ l = [.sent c])) := by
  rcases handleConnection_ok h with ⟨w1, e, net, ce, h1, h2, rfl⟩ | ⟨w1, w2, h1, h2, h3⟩
  · refine ⟨w1, some e, h1, by simp, fun _ => ?_⟩
    rcases withWriter_ok h1 with ⟨_, _, _, rfl, _⟩ | ⟨_, _, _, _, rfl⟩
    · exact ⟨[], by simp [World.log], .inl rfl⟩
    · exact ⟨[.sent c], by simp [World.log], .inr rfl⟩
  · refine ⟨w1, none, h1, fun _ => ?_, by simp⟩
    have e1 : w1.trace = w.trace ++ [.sent c] := by
      rcases withWriter_ok h1 with ⟨_, _, _, _, he⟩ | ⟨_, _, _, _, rfl⟩
      · cases he
      · rfl
    have F := traceFrame srv
    obtain ⟨k, hk⟩ := (F.runApis h2).trans (F.serve h3)
    refine ⟨k, ?_⟩
    rw [← hk]
    simp [accepted, World.log, World.upd, e1]

/-- C19: on the network, the first message the client receives on a new connection is the configuration
message, whatever hooks and handlers do (for any buffer limit `cap`). -/
theorem C19_first_message (srv : Server Net υ) (cap : Option Nat) (hs : srv.sock = netSockets cap)
    (w w' : World Net υ) (c : ConnId) (limit : Int) (input : List Incoming)
    (hnew : w.net.out c = []) (hp : w.net.pending c = []) (b : Bytes)
    (h : handleConnection srv w c limit input = .ok w') (hb : (w'.net.out c).head? = some b) :
    b = srv.configMsg := by
  have G := (outGrows hs).frame
  have key : ∀ {w1 : World Net υ} {e : Option Err}, writeConfMessage srv w c = .ok (w1, e) →
      (e = none → w1.net.out c = [srv.configMsg]) ∧ (e ≠ none → w1.net.out c = []) := by
    intro w1 e h1
    rcases withWriter_ok h1 with ⟨net, er, hg, rfl, he⟩ | ⟨net, net', hg, hf, rfl⟩
    · rw [hs] at hg
      simp only [netSockets] at hg
      split_ifs at hg
      · simp at hg
      · simp only [Except.ok.injEq, Prod.mk.injEq] at hg
        refine ⟨by rw [he]; simp, fun _ => ?_⟩
        rw [← hg.1]; exact hnew
    · rw [hs] at hg hf
      simp only [netSockets] at hg
      split_ifs at hg with hcon
      · simp only [Except.ok.injEq, Prod.mk.injEq, and_true] at hg
        subst hg
        unfold writePart at hf
        obtain ⟨⟨n1, e1⟩, hw, hf⟩ := bind_ok hf
        simp only [netSockets, hp, List.nil_append, List.length_nil, Nat.zero_add] at hw
        split_ifs at hw with hcap
        · simp only [Except.ok.injEq, Prod.mk.injEq] at hw
          obtain ⟨rfl, rfl⟩ := hw
          simp [closeWith, netSockets, bind, Except.bind, pure, Except.pure] at hf
          obtain ⟨rfl, rfl⟩ := hf
          exact ⟨by simp, fun _ => hnew⟩
        · simp only [Except.ok.injEq, Prod.mk.injEq] at hw
          obtain ⟨rfl, rfl⟩ := hw
          simp only [netSockets, if_true] at hf
          split_ifs at hf with hz
          · simp only [Except.ok.injEq, Prod.mk.injEq] at hf
            obtain ⟨rfl, rfl⟩ := hf
            exact ⟨by simp, fun _ => hnew⟩
          · simp only [Except.ok.injEq, Prod.mk.injEq] at hf
            obtain ⟨rfl, rfl⟩ := hf
            refine ⟨fun _ => ?_, by simp⟩
            simp [World.log, hnew]
      · simp at hg
  rcases handleConnection_ok h with ⟨w1, e, net, ce, h1, h2, rfl⟩ | ⟨w1, w2, h1, h2, h3⟩
  · have ho := (key h1).2 (by simp)
    rw [hs] at h2
    simp only [netSockets, Except.ok.injEq, Prod.mk.injEq] at h2
    rw [← h2.1] at hb
    simp only [World.log] at hb
    rw [ho] at hb
    cases hb
  · have ho := (key h1).1 rfl
    have hg : w1.net.out c <+: w'.net.out c :=
      List.IsPrefix.trans (G.runApis (w := { accepted w1 c limit with
        user := (srv.hooks.onClientConnected w1.user c).1 }) h2 c) (G.serve h3 c)
    obtain ⟨k, hk⟩ := hg
    rw [← hk, ho] at hb
    simpa using hb.symm

theorem prepare_ok {op : ServerOptions} {mk : Go Unit} {r : ServerOptions × Option Err}
    (h : op.prepare mk = .ok r) : op.prepare (.ok ()) = .ok r := by
  have key : ∀ s m x, defaultManager mk s m = .ok x → defaultManager (.ok ()) s m = .ok x := by
    intro s m x hx
    unfold defaultManager at hx ⊢
    split_ifs at hx ⊢ with hc
    · cases mk with
      | ok u => exact hx
      | error e => simp [bind, Except.bind] at hx
    · exact hx
  have hh := key (if op.sessions = OptionUnset then Enabled else op.sessions) op.sessionManager
  unfold ServerOptions.prepare at h ⊢
  simp only [bind, Except.bind] at h ⊢
  cases hd : defaultManager mk (if op.sessions = OptionUnset then Enabled else op.sessions) op.sessionManager with
  | error e => rw [hd] at h; simp at h
  | ok x =>
    rw [hh x hd]
    rw [hd] at h
    exact h

/-- C19: the configuration message of a server made by `NewServer` tells the client protocol version 2.0, the
server's buffer size and sub-protocol name, and its read timeout cut to milliseconds. -/
theorem C19_configuration_content (mk : Go Unit) (hasImpl hasTransport : Bool) (opts : ServerOptions)
    (s : ServerSetup) (h : newServer mk hasImpl hasTransport opts = .ok (.ok s))
    (m : Msg) (hm : Clean m) (hfit : s.configMsg.length ≤ m.buf.length) :
    ∃ m', m.readBytes s.configMsg = .ok (m', true, none) ∧ m'.msgType = 23 ∧ m'.conf.major = 2 ∧
      m'.conf.minor = 0 ∧ m'.conf.messageBufferSize = s.options.messageBufferSize.toNat ∧
      m'.conf.subProtocolName.view m'.buf = opts.subProtocolName ∧
      m'.conf.readTimeout ≤ s.options.readTimeout ∧ s.options.readTimeout < m'.conf.readTimeout + 1000000 := by
  unfold newServer at h
  split_ifs at h
  · simp [pure, Except.pure] at h
  · simp [pure, Except.pure, bind, Except.bind] at h
  · simp only [pure, Except.pure, bind, Except.bind] at h
    cases hp : opts.prepare mk with
    | error e => rw [hp] at h; simp at h
    | ok r =>
      obtain ⟨o, err⟩ := r
      rw [hp] at h
      simp only at h
      cases err with
      | some e => simp at h
      | none =>
        simp only at h
        split at h
        · simp at h
        · rename_i msg hmsg
          simp only [Except.ok.injEq] at h
          subst h
          have ho : o.subProtocolName = opts.subProtocolName ∧ 1000000000 ≤ o.readTimeout := by
            have hp := prepare_ok hp
            rw [prepare_eq opts (.ok ()) (.inl rfl)] at hp
            simp only [Except.ok.injEq, Prod.mk.injEq] at hp
            rw [← hp.1]
            refine ⟨rfl, ?_⟩
            simp only [prepared]
            split_ifs <;> omega
          obtain ⟨m', r1, r2, r3, r4, r5, r6, ms, r7, r8, r9, r10⟩ :=
            C06_acceptconf_roundtrip _ msg hmsg m hm hfit
          refine ⟨m', r1, r2, r3, r4, r5, by rw [r6]; exact ho.1, ?_, ?_⟩
          · have := (r9 (by simp only; omega)).1
            simp only at this
            rw [r7]; exact this
          · have := (r9 (by simp only; omega)).2
            simp only at this
            rw [r7]; simp only; omega

/-- C19, non-vacuity: a connection is accepted, its client gets the configuration and a request is answered. -/
example : ∃ w', handleConnection (exServer { payload := [7] }) { net := {}, user := () } 1 0
      [.data [127, 1,2,3,4,5,6,7,8, 1, 97]] = .ok w' ∧
    w'.net.out 1 = [[23,2,0,96,234,0,0,64,0,0,0], [191, 1,2,3,4,5,6,7,8, 7]] := ⟨_, rfl, rfl⟩

/-- C19, non-vacuity: a server with a sub-protocol name. -/
example : ∃ s, newServer (.ok ()) true true { subProtocolName := [120] } = .ok (.ok s) ∧
    s.configMsg = [23, 2, 0, 96, 234, 0, 0, 0, 32, 0, 0, 120] := ⟨_, rfl, rfl⟩

/-! ## C20 -/

/-- C20: a received message that is well-formed and fits the buffer leads to exactly the hook call the protocol
asks for, with exactly its identifier, name, encoding and payload: one `OnSignal` for a signal, one `OnRequest`
for a request (unless the server is shutting down), none for any other message or on a closed connection. -/
theorem C20_dispatch (srv : Server ν υ) (w w' : World ν υ) (c : ConnId) (bs : Bytes) (v : View)
    (hg : Grammar bs v) (hfit : bs.length ≤ srv.bufferSize.toNat)
    (h : serve srv w c [.data bs] = .ok w') :
    hookCalls w'.trace = hookCalls w.trace ++ expectedHooks (w.conns c).isActive w.shutdown c v := by
  obtain ⟨m, h1, h2, h3, _, h4⟩ := serve_grammar (srv := srv) (w := w) (c := c) (rest := []) hg hfit
  rw [h4] at h
  obtain ⟨w1, h5, h⟩ := bind_ok h
  simp only [serve, Except.ok.injEq] at h
  rw [← h]
  exact handleMessage_hooks h1 h2 h5

/-- C20: nothing but requests, session restorations and session closures is answered; in particular heartbeats,
replies and notifications sent by a client, and signals, lead to no reply on any connection. -/
theorem C20_no_reply (srv : Server Net υ) (hs : ideal srv) (w w' : World Net υ) (c : ConnId) (bs : Bytes) (v : View)
    (hg : Grammar bs v) (hfit : bs.length ≤ srv.bufferSize.toNat) (ht : v.msgType ∉ [31, 32, 127, 128, 129])
    (h0 : ∀ i, w.net.pending i = []) (h : serve srv w c [.data bs] = .ok w') (i : ConnId) :
    replies (w'.net.out i) = replies (w.net.out i) := by
  obtain ⟨m, h1, h2, h3, _, h4⟩ := serve_grammar (srv := srv) (w := w) (c := c) (rest := []) hg hfit
  rw [h4] at h
  obtain ⟨w1, h5, h⟩ := bind_ok h
  simp only [serve, Except.ok.injEq] at h
  subst h
  have et : m.msgType = v.msgType := by rw [← h1]; rfl
  have hq : ¬ m.requiresReply = true := by
    rw [requiresReply_iff, et]; exact ht
  have fin : ∀ {w2 w3 : World Net υ}, w2.net = w.net → Replied c [] w2 w3 →
      replies (w3.net.out i) = replies (w.net.out i) := by
    intro w2 w3 hn r
    by_cases hi : i = c
    · subst hi; rw [r.here, List.append_nil, hn]
    · rw [r.elsewhere i hi, hn]
  rcases handleMessage_ok h5 with ⟨_, rfl⟩ | ⟨_, w2, b, hr, hb⟩
  · rfl
  · rcases registerHandler_ok hr with ⟨_, rfl, rfl⟩ | ⟨_, _, ⟨_, hq', _, _⟩ | ⟨_, rfl, rfl⟩⟩
    · rcases hb with ⟨_, rfl⟩ | ⟨hc, _⟩
      · rfl
      · cases hc
    · exact absurd hq' hq
    · rcases hb with ⟨hc, _⟩ | ⟨_, hb⟩
      · cases hc
      · simp only [MsgRequestBinary, MsgRequestUtf8, MsgRequestUtf16, MsgRequestRestoreSession,
          MsgRequestCloseSession, et] at hb
        simp only [List.mem_cons, List.not_mem_nil, or_false, not_or] at ht
        obtain ⟨t1, t2, t3, t4, t5⟩ := ht
        rcases hb with ⟨_, hh⟩ | ⟨ht' | ht' | ht', _⟩ | ⟨ht', _⟩ | ⟨ht', _⟩ | ⟨_, w2, hd, rfl⟩
        · exact fin (w2 := registered w c) rfl (handleSignal_replied hs h0 hh)
        · exact absurd ht' t3
        · exact absurd ht' t4
        · exact absurd ht' t5
        · exact absurd ht' t2
        · exact absurd ht' t1
        · exact fin (w2 := registered w c) (w3 := w2) rfl (deregisterHandler_replied hs h0 hd)

/-- C20, non-vacuity: a UTF8 signal named "ab" with payload "c" reaches `OnSignal`; a reply sent by a client
reaches nothing. -/
example : ∃ w', serve (exServer {}) exWorld 1 [.data [64, 2, 97, 98, 99], .data [191, 1,2,3,4,5,6,7,8, 9]] = .ok w' ∧
    hookCalls w'.trace = [.onSignal 1 [97, 98] 1 [99]] ∧ w'.net.out 1 = [] := ⟨_, rfl, rfl, rfl⟩

/-- C20, non-vacuity: the grammar hypothesis. -/
example : Grammar [64, 2, 97, 98, 99] { msgType := 64, name := [97, 98], payload := [99] } :=
  Grammar.signal 64 2 [97, 98] [99] (by simp) rfl (by simp)

/-! ## C21 -/

/-- C21: bytes that are no well-formed message, or do not fit the buffer, call no request or signal hook: the
buffer is released, the connection is closed, `OnClientDisconnected` is called exactly once, and nothing that
arrives later is read. The socket is closed immediately if the connection was open and no handler is running
(else by the last handler, see C30). -/
theorem C21_malformed (srv : Server ν υ) (w w' : World ν υ) (c : ConnId) (bs : Bytes) (rest : List Incoming)
    (hbad : bs.length ≤ srv.bufferSize.toNat → ¬ ∃ v, Grammar bs v)
    (h : serve srv w c (.data bs :: rest) = .ok w') :
    hookCalls w'.trace = hookCalls w.trace ++ [.onClientDisconnected c] ∧
    (w'.conns c).isActive = false ∧
    (∃ l1 l2, w'.trace = w.trace ++ [.msgClose] ++ l1 ++ [.onClientDisconnected c] ++ l2 ∧
      (l1 = [] ∨ .sockClose c ∈ l1) ∧
      (.sockClose c ∈ l1 ↔ (w.conns c).isActive = true ∧ (w.conns c).tasks < 1)) ∧
    serve srv w c [.data bs] = .ok w' := by
  have h' : serve srv w c [.data bs] = .ok w' := by
    rw [serve_malformed hbad] at h ⊢; exact h
  rw [serve_malformed hbad] at h
  obtain ⟨l1, l2, e, p1, p2, c1, c2, ina⟩ := disconnect_trace h
  refine ⟨?_, ina, ⟨l1, l2, e, ?_, ?_⟩, h'⟩
  · rw [e]
    unfold hookCalls
    simp only [List.filter_append, plain_not_hook p1, plain_not_hook p2]
    simp [isMsgHook]
  · by_cases hc : (w.conns c).isActive = true ∧ (w.conns c).tasks < 1
    · exact .inr (c1 hc.1 hc.2)
    · exact .inl (c2 hc)
  · constructor
    · intro hm
      by_contra hc
      rw [c2 hc] at hm
      cases hm
    · exact fun hc => c1 hc.1 hc.2

/-- C21: the same for a read error of the socket. -/
theorem C21_read_error (srv : Server ν υ) (w w' : World ν υ) (c : ConnId) (b : Bool) (rest : List Incoming)
    (h : serve srv w c (.failed b :: rest) = .ok w') :
    hookCalls w'.trace = hookCalls w.trace ++ [.onClientDisconnected c] ∧ (w'.conns c).isActive = false := by
  obtain ⟨l1, l2, e, p1, p2, c1, c2, ina⟩ := disconnect_trace (show disconnect srv w c = .ok w' from h)
  refine ⟨?_, ina⟩
  rw [e]
  unfold hookCalls
  simp only [List.filter_append, plain_not_hook p1, plain_not_hook p2]
  simp [isMsgHook]

/-- C21, non-vacuity: a truncated request followed by a valid one. -/
example : ∃ w', serve (exServer {}) exWorld 1 [.data [127, 1, 2], .data [127, 1,2,3,4,5,6,7,8, 1, 97]] = .ok w' ∧
    w'.trace = [.msgClose, .sockClose 1, .onClientDisconnected 1] ∧ w'.net.out 1 = [] := ⟨_, rfl, rfl, rfl⟩

/-! ## C26, order -/

/-- C26 (order): the hooks of a connection whose messages are handled one after the other are called in the order
of arrival, each exactly once: the calls are those expected for the first `k` messages, where all messages are
among them unless the connection was closed in between. -/
theorem C26_arrival_order (srv : Server ν υ) (c : ConnId) :
    ∀ (msgs : List (Bytes × View)) (w w' : World ν υ),
    (∀ p ∈ msgs, Grammar p.1 p.2 ∧ p.1.length ≤ srv.bufferSize.toNat) → w.shutdown = false →
    serve srv w c (msgs.map fun p => .data p.1) = .ok w' →
    ∃ k, hookCalls w'.trace = hookCalls w.trace ++ (msgs.take k).flatMap (fun p => expectedHooks true false c p.2) ∧
      ((w'.conns c).isActive = true → k = msgs.length) := by
  intro msgs
  induction msgs with
  | nil =>
    intro w w' _ _ h
    simp only [List.map_nil, serve, Except.ok.injEq] at h
    subst h
    exact ⟨0, by simp, fun _ => rfl⟩
  | cons p msgs ih =>
    intro w w' hall hsd h
    obtain ⟨hg, hfit⟩ := hall p (by simp)
    rw [List.map_cons] at h
    obtain ⟨m, h1, h2, h3, _, h4⟩ := serve_grammar (srv := srv) (w := w) (c := c)
      (rest := msgs.map fun p => .data p.1) hg hfit
    rw [h4] at h
    obtain ⟨w1, h5, h⟩ := bind_ok h
    have hk := handleMessage_hooks h1 h2 h5
    have hback := handleMessage_back hsd h5
    obtain ⟨k, e, hact⟩ := ih w1 w' (fun q hq => hall q (by simp [hq])) (by rw [hback.shutdown]; exact hsd) h
    cases ha : (w.conns c).isActive with
    | false =>
      have hna : ∀ (msgs : List (Bytes × View)) (w w' : World ν υ), (w.conns c).isActive = false → w.shutdown = false →
          (∀ p ∈ msgs, Grammar p.1 p.2 ∧ p.1.length ≤ srv.bufferSize.toNat) →
          serve srv w c (msgs.map fun p => .data p.1) = .ok w' →
          hookCalls w'.trace = hookCalls w.trace ∧ (w'.conns c).isActive = false := by
        intro msgs
        induction msgs with
        | nil =>
          intro w w' ha _ _ h
          simp only [List.map_nil, serve, Except.ok.injEq] at h
          subst h
          exact ⟨rfl, ha⟩
        | cons p msgs ih =>
          intro w w' ha hsd hall h
          obtain ⟨hg, hfit⟩ := hall p (by simp)
          rw [List.map_cons] at h
          obtain ⟨m, h1, h2, h3, _, h4⟩ := serve_grammar (srv := srv) (w := w) (c := c)
            (rest := msgs.map fun p => .data p.1) hg hfit
          rw [h4] at h
          obtain ⟨w1, h5, h⟩ := bind_ok h
          have hk := handleMessage_hooks h1 h2 h5
          have hback := handleMessage_back hsd h5
          have ha1 : (w1.conns c).isActive = false := by
            by_contra hc
            have := hback.active c (by simpa using hc)
            rw [ha] at this; cases this
          obtain ⟨r1, r2⟩ := ih w1 w' ha1 (by rw [hback.shutdown]; exact hsd) (fun q hq => hall q (by simp [hq])) h
          refine ⟨?_, r2⟩
          rw [r1, hk, ha]
          simp [expectedHooks]
      have ha1 : (w1.conns c).isActive = false := by
        by_contra hc
        have := hback.active c (by simpa using hc)
        rw [ha] at this; cases this
      obtain ⟨r1, r2⟩ := hna msgs w1 w' ha1 (by rw [hback.shutdown]; exact hsd) (fun q hq => hall q (by simp [hq])) h
      refine ⟨0, ?_, by rw [r2]; simp⟩
      rw [r1, hk, ha]
      simp [expectedHooks]
    | true =>
      refine ⟨k + 1, ?_, fun h => by rw [hact h]; rfl⟩
      rw [e, hk, ha, hsd]
      simp

/-- C26 (order), non-vacuity: two signals and a request between them. -/
example : ∃ w', serve (exServer {}) exWorld 1
      [.data [63, 1, 97], .data [127, 1,2,3,4,5,6,7,8, 1, 98], .data [63, 1, 99]] = .ok w' ∧
    hookCalls w'.trace = [.onSignal 1 [97] 0 [], .onRequest 1 [1,2,3,4,5,6,7,8] [98] 0 [], .onSignal 1 [99] 0 []] :=
  ⟨_, rfl, rfl⟩

/-! ## C31 -/

/-- C31: handling a message releases its buffer exactly once, as the very last thing: after the hook returned
and after any reply was written. -/
theorem C31_released_once_and_last (srv : Server ν υ) (w w' : World ν υ) (c : ConnId) (m : Msg)
    (h : handleMessage srv w c m = .ok w') :
    ∃ l, w'.trace = w.trace ++ l ++ [.msgClose] ∧ .msgClose ∉ l := by
  obtain ⟨l, e, hl⟩ := handleMessage_trace h
  refine ⟨hooksOf w c m ++ l, by rw [e]; simp, ?_⟩
  intro hm
  rcases List.mem_append.mp hm with hm | hm
  · unfold hooksOf at hm
    split_ifs at hm <;> simp at hm
  · exact hl _ hm

/-- C31: over a whole run of a connection, a buffer is released for each message read: `k` times after `k`
pieces of input were consumed, where only a read error ends the consumption early. -/
theorem C31_every_buffer_released (srv : Server ν υ) (c : ConnId) : ∀ (input : List Incoming) (w w' : World ν υ),
    serve srv w c input = .ok w' →
    ∃ k, k ≤ input.length ∧ w'.trace.count .msgClose = w.trace.count .msgClose + k ∧
      ((∃ l, w'.trace = w.trace ++ l ∧ .onClientDisconnected c ∉ l) → k = input.length) := by
  have dis : ∀ (w w' : World ν υ), disconnect srv w c = .ok w' →
      w'.trace.count .msgClose = w.trace.count .msgClose + 1 ∧
      ¬ ∃ l, w'.trace = w.trace ++ l ∧ .onClientDisconnected c ∉ l := by
    intro w w' h
    obtain ⟨l1, l2, e, p1, p2, c1, c2, ina⟩ := disconnect_trace h
    constructor
    · rw [e]
      simp [List.count_append, plain_not_close p1, plain_not_close p2]
    · rintro ⟨l, e', hn⟩
      rw [e] at e'
      simp only [List.append_assoc] at e'
      have := List.append_cancel_left e'
      rw [← this] at hn
      simp at hn
  intro input
  induction input with
  | nil =>
    intro w w' h
    simp only [serve, Except.ok.injEq] at h
    subst h
    exact ⟨0, by simp, by simp, fun _ => rfl⟩
  | cons i rest ih =>
    intro w w' h
    cases i with
    | failed b =>
      obtain ⟨d1, d2⟩ := dis w w' h
      exact ⟨1, by simp, d1, fun hc => absurd hc d2⟩
    | data bs =>
      unfold serve at h
      obtain ⟨⟨m, tp, e⟩, h1, h⟩ := bind_ok h
      by_cases hc : e ≠ none ∨ tp = false
      · simp only [if_pos hc] at h
        obtain ⟨d1, d2⟩ := dis w w' h
        exact ⟨1, by simp, d1, fun hc => absurd hc d2⟩
      · simp only [if_neg hc] at h
        obtain ⟨w1, h2, h⟩ := bind_ok h
        obtain ⟨l, e1, hl⟩ := C31_released_once_and_last srv w w1 c m h2
        obtain ⟨k, hk, e2, himp⟩ := ih w1 w' h
        refine ⟨k + 1, by simp; omega, ?_, ?_⟩
        · rw [e2, e1]
          simp [List.count_append, List.count_eq_zero.mpr hl]
          omega
        · rintro ⟨l', e', hn⟩
          rw [himp ⟨?_, ?_, ?_⟩]
          · simp
          · exact l'.drop (l ++ [Ev.msgClose]).length
          · have F : w1.trace <+: w'.trace := (traceFrame srv).serve h
            obtain ⟨k2, hk2⟩ := F
            have : l' = l ++ [.msgClose] ++ k2 := by
              have : w.trace ++ l' = w.trace ++ (l ++ [.msgClose] ++ k2) := by
                rw [← e', ← hk2, e1]; simp
              exact List.append_cancel_left this
            rw [this, ← hk2]
            simp
          · exact fun hm => hn (List.mem_of_mem_drop hm)

/-- C31, non-vacuity: three messages, three releases, the request's after the reply was written. -/
example : ∃ w', serve (exServer {}) exWorld 1
      [.data [63, 1, 97], .data [127, 1,2,3,4,5,6,7,8, 1, 98], .data [33]] = .ok w' ∧
    w'.trace = [.onSignal 1 [97] 0 [], .msgClose, .onRequest 1 [1,2,3,4,5,6,7,8] [98] 0 [], .sent 1, .msgClose,
      .msgClose] := ⟨_, rfl, rfl⟩

end Webwire
