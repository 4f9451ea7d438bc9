import Verif.Props.Dispatch

/-!
# Property C61: a server that `NewServer` returned can accept clients
-/

set_option autoImplicit false

namespace Webwire
open Spec

/-- A server as `NewServer` set it up, on a network whose buffers hold `MessageBufferSize` bytes (as those of the
memchan transport do, transport/memchan/transport.go), with arbitrary user code. -/
def setupServer {υ : Type} (s : ServerSetup) (hooks : Hooks υ) : Server Net υ :=
  { sock := netSockets (some s.options.messageBufferSize.toNat), hooks := hooks
    sessionsEnabled := s.sessionsEnabled, maxConns := s.options.maxSessionConnections
    bufferSize := s.options.messageBufferSize, configMsg := s.configMsg }

/-- C61, full statement: if `NewServer` returned a server, then the configuration message it sends to a new,
connected client is sent without an error. -/
def C61_full : Prop :=
  ∀ (opts : ServerOptions) (s : ServerSetup), newServer (.ok ()) true true opts = .ok (.ok s) →
    ∀ (w : World Net Unit) (c : ConnId), w.net.connected c = true → w.net.pending c = [] →
      ∃ w', writeConfMessage (setupServer s (exHooks {})) w c = .ok (w', none)

/-- C61 is violated by the code: nothing relates the length of `SubProtocolName` to `MessageBufferSize`
(serverOptions.go:86-98, newServer.go:57-73); with a name of 22 bytes and the smallest buffer size every client
is refused. -/
theorem C61_accepts_clients_violated : ¬ C61_full := by
  intro h
  have hrun : ∃ s, newServer (.ok ()) true true
      { subProtocolName := List.replicate 22 97, messageBufferSize := 32 } = .ok (.ok s) ∧
      ∃ w2 e, writeConfMessage (setupServer s (exHooks {})) { net := {}, user := () } 1 = .ok (w2, some e) :=
    ⟨_, rfl, _, _, rfl⟩
  obtain ⟨s, hs, w2, e, h2⟩ := hrun
  obtain ⟨w', hw⟩ := h _ s hs { net := {}, user := () } 1 rfl rfl
  rw [h2] at hw
  simp at hw

theorem newServer_configLength {mk : Go Unit} {a b : Bool} {opts : ServerOptions} {s : ServerSetup}
    (h : newServer mk a b opts = .ok (.ok s)) : s.configMsg.length = 11 + opts.subProtocolName.length := by
  unfold newServer at h
  split_ifs at h
  · simp [pure, Except.pure] at h
  · simp [pure, Except.pure, bind, Except.bind] at h
  · simp only [pure, Except.pure, bind, Except.bind] at h
    cases hp : opts.prepare mk with
    | error e => rw [hp] at h; simp at h
    | ok r =>
      obtain ⟨o, err⟩ := r
      rw [hp] at h
      simp only at h
      cases err with
      | some e => simp at h
      | none =>
        simp only at h
        split at h
        · simp at h
        · rename_i msg hmsg
          simp only [Except.ok.injEq] at h
          subst h
          have hp := prepare_ok hp
          rw [prepare_eq opts (.ok ()) (.inl rfl)] at hp
          simp only [Except.ok.injEq, Prod.mk.injEq] at hp
          unfold newAcceptConfMessage at hmsg
          dsimp only at hmsg
          split_ifs at hmsg
          simp only [Except.ok.injEq] at hmsg
          rw [← hmsg, ← hp.1]
          simp [putUint32, prepared]
          omega

/-- C61 for sub-protocol names that fit: the connection is accepted, its client receives the configuration, the
connection is active and `OnClientConnected` is called. Missing compared to `C61_full`: names longer than
`MessageBufferSize` − 11. -/
theorem C61_accepts_clients_partial {υ : Type} (mk : Go Unit) (opts : ServerOptions) (s : ServerSetup)
    (h : newServer mk true true opts = .ok (.ok s))
    (hfit : 11 + opts.subProtocolName.length ≤ s.options.messageBufferSize.toNat) (hooks : Hooks υ)
    (w : World Net υ) (c : ConnId) (hc : w.net.connected c = true) (hp : w.net.pending c = [])
    (hq : (hooks.onClientConnected w.user c).2 = []) (limit : Int) :
    ∃ w', handleConnection (setupServer s hooks) w c limit [] = .ok w' ∧
      w'.net.out c = w.net.out c ++ [s.configMsg] ∧ (w'.conns c).isActive = true ∧ w'.net.connected c = true ∧
      w'.trace = w.trace ++ [.sent c, .onClientConnected c] := by
  have hlen := newServer_configLength h
  have hne : s.configMsg ≠ [] := by intro he; rw [he] at hlen; simp at hlen; omega
  have hcap : ¬ (some s.options.messageBufferSize.toNat).any
      (fun k => decide ((w.net.pending c).length + s.configMsg.length > k)) = true := by
    simp [hp]; omega
  have hconf : writeConfMessage (setupServer s hooks) w c =
      .ok ({ w with net := { w.net with
              pending := fun i => if i = c then [] else if i = c then w.net.pending c ++ s.configMsg else w.net.pending i
              out := fun i => if i = c then w.net.out c ++ [s.configMsg] else w.net.out i } }.log (.sent c), none) := by
    simp only [writeConfMessage, withWriter, setupServer, netSockets, hc, bind, Except.bind, if_true, writePart]
    rw [if_neg hcap]
    simp [hp, hne, pure, Except.pure, World.log]
  have hrun : ∀ w1 : World Net υ, writeConfMessage (setupServer s hooks) w c = .ok (w1, none) → w1.user = w.user →
      handleConnection (setupServer s hooks) w c limit [] =
        .ok { accepted w1 c limit with user := (hooks.onClientConnected w.user c).1 } := by
    intro w1 h1 hu
    unfold handleConnection
    rw [h1]
    have hq' : ((setupServer s hooks).hooks.onClientConnected w1.user c).2 = [] := by rw [hu]; exact hq
    simp only [bind, Except.bind, World.log, World.upd, hq', runApis, serve, pure, Except.pure, accepted]
    rw [hu]
    rfl
  refine ⟨_, hrun _ hconf rfl, ?_, ?_, ?_, ?_⟩
  · simp [accepted, World.log, World.upd]
  · simp [accepted, World.log, World.upd]
  · exact hc
  · simp [accepted, World.log, World.upd]

/-- C61: what is missing in `C61_accepts_clients_partial` is wrong in every case: a server that `NewServer` made of a longer name
refuses every client: it is disconnected, receives nothing, and `OnClientConnected` is not called. -/
theorem C61_refuses_clients {υ : Type} (mk : Go Unit) (opts : ServerOptions) (s : ServerSetup)
    (h : newServer mk true true opts = .ok (.ok s))
    (hfit : s.options.messageBufferSize.toNat < 11 + opts.subProtocolName.length) (hooks : Hooks υ)
    (w : World Net υ) (c : ConnId) (hp : w.net.pending c = []) (limit : Int) (input : List Incoming) :
    ∃ w', handleConnection (setupServer s hooks) w c limit input = .ok w' ∧ w'.net.out = w.net.out ∧
      w'.net.connected c = false ∧ w'.conns = w.conns ∧ ∃ evs, w'.trace = w.trace ++ evs ∧ .onClientConnected c ∉ evs := by
  have hlen := newServer_configLength h
  have hcap : (some s.options.messageBufferSize.toNat).any
      (fun k => decide ((w.net.pending c).length + s.configMsg.length > k)) = true := by
    simp [hp]; omega
  have hconf : ∃ w1 e, writeConfMessage (setupServer s hooks) w c = .ok (w1, some e) ∧ w1.net.out = w.net.out ∧
      w1.conns = w.conns ∧ ∃ evs, w1.trace = w.trace ++ evs ∧ .onClientConnected c ∉ evs := by
    by_cases hc : w.net.connected c = true
    · simp only [writeConfMessage, withWriter, setupServer, netSockets, hc, bind, Except.bind, if_true, writePart]
      rw [if_pos hcap]
      simp [hp, closeWith, pure, Except.pure, bind, Except.bind, World.log]
    · simp only [writeConfMessage, withWriter, setupServer, netSockets, hc, bind, Except.bind]
      simp [pure, Except.pure]
  obtain ⟨w1, e, h1, ho, hcs, evs, ht, hn⟩ := hconf
  refine ⟨_, by unfold handleConnection; rw [h1]; rfl, ?_, ?_, ?_, evs ++ [.sockClose c], ?_, ?_⟩
  · simpa [World.log] using ho
  · simp [World.log]
  · simpa [World.log] using hcs
  · simp [World.log, ht]
  · simpa using hn

/-- C61, non-vacuity of `C61_refuses_clients`: the smallest buffers and a name of 22 bytes. -/
example : ∃ s, newServer (.ok ()) true true
      { subProtocolName := List.replicate 22 97, messageBufferSize := 32 } = .ok (.ok s) ∧
    s.options.messageBufferSize.toNat < 11 + (List.replicate 22 (97 : UInt8)).length := ⟨_, rfl, by decide⟩

/-- C61, non-vacuity: the default options with a sub-protocol name, and an accepted client. -/
example : ∃ s, newServer (.ok ()) true true { subProtocolName := [120, 121] } = .ok (.ok s) ∧
    11 + [120, 121].length ≤ s.options.messageBufferSize.toNat ∧
    ∃ w', handleConnection (setupServer s (exHooks {})) { net := {}, user := () } 1 0 [] = .ok w' ∧
      w'.net.out 1 = [[23, 2, 0, 96, 234, 0, 0, 0, 32, 0, 0, 120, 121]] :=
  ⟨_, rfl, by decide, _, rfl, rfl⟩

/-! ## C18: what `NewServer` makes of the options -/

/-- C18: with a server implementation and a transport, `NewServer` succeeds exactly if the buffer size is unset or at least
32 and the read timeout is less than 2^32 milliseconds; sessions are then enabled exactly if they were not configured or
configured to be, the options are runnable and everything configured validly is kept. -/
theorem C18_newServer (mk : Go Unit) (hasImpl hasTransport : Bool) (opts : ServerOptions)
    (hmk : mk = .ok () ∨ opts.sessionManager ≠ none) :
    ∃ r, newServer mk hasImpl hasTransport opts = .ok r ∧
      ((∃ s, r = .ok s) ↔ hasImpl = true ∧ hasTransport = true ∧
        (opts.messageBufferSize = 0 ∨ 32 ≤ opts.messageBufferSize.toNat) ∧
        opts.readTimeout < 4294967296 * 1000000) ∧
      ∀ s, r = .ok s → (s.sessionsEnabled = true ↔ opts.sessions = OptionUnset ∨ opts.sessions = Enabled) ∧
        Runnable s.options ∧ Keeps opts s.options := by
  obtain ⟨o, err, hp, herr, hrun, hkeep, -⟩ := C18_prepare opts mk hmk
  have hz : opts.messageBufferSize = 0 ↔ opts.messageBufferSize.toNat = 0 := by
    rw [← UInt32.toNat_inj]; rfl
  unfold newServer
  cases hasImpl with
  | false => exact ⟨_, rfl, by simp, by simp⟩
  | true =>
    cases hasTransport with
    | false => exact ⟨_, rfl, by simp, by simp⟩
    | true =>
      simp only [Bool.not_true, Bool.false_eq_true, if_false, pure, Except.pure, bind, Except.bind, hp]
      cases err with
      | some e =>
        have h1 := herr.mp (by simp)
        refine ⟨_, rfl, ?_, by simp⟩
        simp only [reduceCtorEq, exists_false, false_iff, true_and, not_and]
        intro h2
        rcases h2 with h2 | h2
        · rw [hz] at h2; omega
        · omega
      | none =>
        have h1 : ¬ (0 < opts.messageBufferSize.toNat ∧ opts.messageBufferSize.toNat < 32) :=
          fun h => absurd rfl (herr.mpr h)
        have hr := hrun rfl
        have hsize : opts.messageBufferSize = 0 ∨ 32 ≤ opts.messageBufferSize.toNat := by rw [hz]; omega
        have hto : 1000000000 ≤ o.readTimeout := hr.readTimeout
        have hto2 : (o.readTimeout.tdiv 1000000 > 4294967295) ↔ ¬ opts.readTimeout < 4294967296 * 1000000 := by
          rw [Int.tdiv_eq_ediv_of_nonneg (by omega)]
          by_cases h2 : 1000000000 ≤ opts.readTimeout
          · rw [hkeep.readTimeout h2]
            omega
          · have hpo := prepare_eq opts mk hmk
            rw [hp] at hpo
            simp only [Except.ok.injEq, Prod.mk.injEq] at hpo
            have : o.readTimeout = 60000000000 := by
              rw [hpo.1]; simp only [prepared]; rw [if_pos (by omega)]
            omega
        have hneg : ¬ o.readTimeout.tdiv 1000000 < 0 := by
          rw [Int.tdiv_eq_ediv_of_nonneg (by omega)]
          omega
        have hon : decide (o.sessions = Enabled) = true ↔ opts.sessions = OptionUnset ∨ opts.sessions = Enabled := by
          rw [decide_eq_true_eq]
          by_cases hs : opts.sessions = OptionUnset
          · simp [hkeep.sessionsDefault hs, hs]
          · simp [hkeep.sessions hs, hs]
        by_cases hbig : opts.readTimeout < 4294967296 * 1000000
        · have h3 : ¬ o.readTimeout.tdiv 1000000 > 4294967295 := fun h => hto2.mp h hbig
          simp only [newAcceptConfMessage, if_neg h3, if_neg hneg]
          refine ⟨_, rfl, by simp [hsize]; omega, fun s hs => ?_⟩
          simp only [Except.ok.injEq] at hs
          subst hs
          exact ⟨hon, hr, hkeep⟩
        · have h3 : o.readTimeout.tdiv 1000000 > 4294967295 := hto2.mpr hbig
          simp only [newAcceptConfMessage, if_pos h3]
          exact ⟨_, rfl, by simp; omega, by simp⟩

/-- Sessions turned off, and a read timeout that is too long. -/
example : (∃ s, newServer (.ok ()) true true { sessions := Disabled } = .ok (.ok s) ∧ s.sessionsEnabled = false) ∧
    (∃ s, newServer (.ok ()) true true {} = .ok (.ok s) ∧ s.sessionsEnabled = true) ∧
    ∃ e, newServer (.ok ()) true true { readTimeout := 4294967296 * 1000000 } = .ok (.error e) :=
  ⟨⟨_, rfl, rfl⟩, ⟨_, rfl, rfl⟩, _, rfl⟩

end Webwire
