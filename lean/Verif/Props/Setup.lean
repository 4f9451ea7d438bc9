import Verif.Model.Setup
import Verif.Proofs.Calls
import Verif.Props.Wire2
import Verif.Props.Dispatch
import Verif.Props.Accept

/-!
# Property C110: the message size a client is told is the one in use

And C18 for `NewServer` with any transport.
-/

set_option autoImplicit false

namespace Webwire.Setup
open Spec

/-! ## C18 -/

/-- C18: `NewServer` gives the transport the completed options: if it returns a server, `Initialize` succeeded with the options
of that server; if it returns an error, either `Initialize` was not called or it failed, with completed options too. -/
theorem C18_initialize {τ : Type} (init : ServerOptions → τ → τ × Option Err) (mk : Go Unit) (hasImpl : Bool)
    (opts : ServerOptions) (t : τ) (hmk : mk = .ok () ∨ opts.sessionManager ≠ none) :
    ∃ t' r, createServer init mk hasImpl opts (some t) = .ok (some t', r) ∧
      (∀ s, r = .ok s → Runnable s.options ∧ Keeps opts s.options ∧ init s.options t = (t', none)) ∧
      (∀ e, r = .error e → t' = t ∨ ∃ o e', Runnable o ∧ Keeps opts o ∧ init o t = (t', some e')) ∧
      ((∃ s, r = .ok s) → hasImpl = true ∧ (opts.messageBufferSize = 0 ∨ 32 ≤ opts.messageBufferSize.toNat) ∧
        opts.readTimeout < 4294967296 * 1000000) := by
  obtain ⟨r, hr, hiff, hall⟩ := C18_newServer mk hasImpl true opts hmk
  unfold createServer
  rw [show (some t).isSome = true from rfl, hr]
  cases r with
  | error e => exact ⟨t, .error e, rfl, by simp, fun _ _ => .inl rfl, by simp⟩
  | ok s =>
    have ⟨_, h1, h2⟩ := hall s rfl
    have h3 := hiff.mp ⟨s, rfl⟩
    simp only [bind, Except.bind]
    rcases hi : init s.options t with ⟨t', _ | e⟩
    · refine ⟨t', .ok s, by simp [pure, Except.pure], ?_, by simp, fun _ => ⟨h3.1, h3.2.2⟩⟩
      rintro _ ⟨⟩
      exact ⟨h1, h2, hi⟩
    · refine ⟨t', _, by simp [pure, Except.pure]; rfl, by simp, fun _ _ => .inr ⟨_, _, h1, h2, hi⟩, by simp⟩

/-! ## C110 -/

/-- C110: what a client is told by a server of this transport holds for every socket of the transport that was not used yet: a
message can be sent, by either side, exactly if it is valid and not longer than the announced size; and what can be sent (and is
well-formed) can be read into the message objects of the server, and into those of a client of the announced size. -/
def C110_full : Prop :=
  ∀ s : State, Reachable s → ∀ srv ∈ s.servers, ∀ p ∈ s.pairs, ∀ m : Msg, Clean m → srv.configMsg.length ≤ m.buf.length →
    ∃ m', m.readBytes srv.configMsg = .ok (m', true, none) ∧ ∀ b, b = p.client ∨ b = p.server → ∀ call : WriterCall,
      ¬ call.Panics →
      ((∃ b', call.run bufWriter b = .ok (b', none) ∧ b'.flushed = [call.layout]) ↔
        call.Valid ∧ call.layout.length ≤ m'.conf.messageBufferSize) ∧
      (∀ b', call.run bufWriter b = .ok (b', none) → ∀ v, Grammar call.layout v → ∀ size,
        size = srv.options.messageBufferSize.toNat ∨ size = m'.conf.messageBufferSize →
        ∃ m2 tp, (newMessage size).readBytes call.layout = .ok (m2, tp, none) ∧ m2.shown = v)

/-- A signal of 42 bytes. -/
private def exSignal : WriterCall := .signal [] 0 (List.replicate 40 7) true

/-- **C110 is violated** if one transport is given to two servers: clients of the first are told 32 bytes, but sockets take
messages of 42, which the server cannot read. -/
theorem C110_violated : ¬ C110_full := by
  intro hf
  have hrun : ∃ s1 s2 s3 m', step {} (.create (.ok ()) true { messageBufferSize := 32 }) = .ok s1 ∧
      step s1 (.create (.ok ()) true { messageBufferSize := 64 }) = .ok s2 ∧ step s2 .socket = .ok s3 ∧
      ∃ srv p, s3.servers.head? = some srv ∧ s3.pairs = [p] ∧ srv.configMsg.length = 11 ∧
        (newMessage 16).readBytes srv.configMsg = .ok (m', true, none) ∧ m'.conf.messageBufferSize = 32 ∧
        ∃ b', exSignal.run bufWriter p.client = .ok (b', none) ∧ b'.flushed = [exSignal.layout] :=
    ⟨_, _, _, _, rfl, rfl, rfl, _, _, rfl, rfl, rfl, rfl, rfl, _, rfl, rfl⟩
  obtain ⟨s1, s2, s3, m', h1, h2, h3, srv, p, hsrv, hp, hl, hr, hm, hb⟩ := hrun
  have hre : Reachable s3 := .step _ _ _ (.step _ _ _ (.step _ _ _ .start h1) h2) h3
  obtain ⟨m'', hr', hall⟩ := hf s3 hre srv (List.mem_of_mem_head? (by rw [hsrv]; rfl)) p (by rw [hp]; exact List.mem_singleton.mpr rfl)
    (newMessage 16) (clean_new 16) (by rw [hl]; decide)
  rw [hr] at hr'
  cases hr'
  have := ((hall _ (.inl rfl) exSignal (by simp [exSignal, WriterCall.Panics])).1.mp hb).2
  rw [hm] at this
  revert this
  decide

/-- Nothing is in the buffer and nobody uses it. -/
structure Idle (b : Buf) (size : Nat) : Prop where
  size : b.buf.length = size
  len : b.len = 0
  free : b.locked = false

theorem runParts_buf (parts : List Bytes) : ∀ b : Buf, b.locked = false → b.len ≤ b.buf.length →
    (0 < b.len + parts.flatten.length → b.len + parts.flatten.length ≤ b.buf.length →
      ∃ b', runParts bufWriter b parts = .ok (b', none) ∧ b'.flushed = b.flushed ++ [b.buf.take b.len ++ parts.flatten] ∧
        Idle b' b.buf.length) ∧
    (b.buf.length < b.len + parts.flatten.length →
      ∃ b' e, runParts bufWriter b parts = .ok (b', some e) ∧ b'.flushed = b.flushed) := by
  induction parts with
  | nil =>
    rintro ⟨buf, len, locked, fl⟩ rfl hle
    change len ≤ buf.length at hle
    refine ⟨fun h0 _ => ?_, fun h => by simp at h; omega⟩
    simp only [List.flatten_nil, List.length_nil, Nat.add_zero] at h0
    refine ⟨_, by simp only [runParts, bufWriter, Buf.close]; rw [if_neg (by simp), if_neg (by omega)], by simp, ?_⟩
    exact ⟨rfl, rfl, rfl⟩
  | cons p ps ih =>
    intro b hl hle
    obtain ⟨buf, len, locked, fl⟩ := b
    simp only at hl
    subst hl
    change len ≤ buf.length at hle
    simp only [runParts, writePart, bufWriter, Buf.write, bind, Except.bind, Bool.false_eq_true, if_false]
    by_cases hov : p.length > buf.length - len
    · rw [if_pos hov]
      simp only [List.flatten_cons, List.length_append]
      refine ⟨fun _ h => by omega, fun _ => ?_⟩
      simp only [closeWith, Buf.close, bind, Except.bind, pure, Except.pure, Bool.false_eq_true, if_false]
      exact ⟨_, _, rfl, rfl⟩
    · rw [if_neg hov]
      simp only
      have hlen : (buf.take len ++ goCopy (buf.drop len) p).length = buf.length := by
        simp [goCopy]; omega
      have htake : (buf.take len ++ goCopy (buf.drop len) p).take (len + p.length) = buf.take len ++ p := by
        have e1 : (buf.take len).length = len := by simp; omega
        have e2 : p.take (buf.drop len).length = p := List.take_of_length_le (by simp; omega)
        simp only [goCopy, e2]
        rw [← List.append_assoc, List.take_append_of_le_length (by simp; omega), List.take_of_length_le (by simp; omega)]
      obtain ⟨i1, i2⟩ := ih { buf := buf.take len ++ goCopy (buf.drop len) p, len := len + p.length, flushed := fl } rfl
        (by simp only [hlen]; omega)
      simp only [hlen, htake] at i1 i2
      simp only [List.flatten_cons, List.length_append]
      refine ⟨fun h0 h => ?_, fun h => ?_⟩
      · obtain ⟨b', h1, h2, h3⟩ := i1 (by omega) (by omega)
        exact ⟨b', h1, by rw [h2]; simp, h3⟩
      · exact i2 (by omega)

/-- C110: what the outbound buffer of a socket takes: a valid message that is not longer than the buffer is handed over as one
piece, and the buffer can be used again; of anything else nothing is handed over, and there is an error. -/
theorem C110_buffer (b : Buf) (size : Nat) (hb : Idle b size) (call : WriterCall) (hp : ¬ call.Panics) :
    (call.Valid ∧ call.layout.length ≤ size →
      ∃ b', call.run bufWriter b = .ok (b', none) ∧ b'.flushed = b.flushed ++ [call.layout] ∧ Idle b' size) ∧
    (¬ (call.Valid ∧ call.layout.length ≤ size) →
      ∃ b' e, call.run bufWriter b = .ok (b', some e) ∧ b'.flushed = b.flushed) := by
  by_cases hv : call.Valid
  · obtain ⟨parts, h1, h2⟩ := call_valid bufWriter b call hv hp
    have hne : 0 < call.layout.length := by cases call <;> simp [WriterCall.layout]
    obtain ⟨i1, i2⟩ := runParts_buf parts b hb.free (by rw [hb.len]; omega)
    rw [hb.len, hb.size, h2] at i1 i2
    rw [h1]
    refine ⟨fun h => ?_, fun h => ?_⟩
    · simpa using i1 (by omega) (by omega)
    · exact i2 (by simp only [hv, true_and] at h; omega)
  · refine ⟨fun h => absurd h.1 hv, fun _ => ?_⟩
    obtain ⟨e, h⟩ := call_invalid bufWriter b call hv
    rw [h]
    simp only [closeWith, bufWriter, Buf.close, hb.free, hb.len, bind, Except.bind, pure, Except.pure, Bool.false_eq_true, if_false]
    exact ⟨_, _, rfl, rfl⟩

theorem newPair_ok {t : Transport} {p : Pair} (h : newPair t = .ok p) :
    0 < t.bufferSize.toNat ∧ p.server = { buf := List.replicate t.bufferSize.toNat 0 } ∧ p.client = p.server := by
  simp only [newPair, newBuffer, goPanic] at h
  split_ifs at h with hs
  · simp [bind, Except.bind] at h
  · simp only [bind, Except.bind, pure, Except.pure, Except.ok.injEq] at h
    subst h
    exact ⟨by omega, rfl, rfl⟩

theorem createServer_ok {mk : Go Unit} {hasImpl : Bool} {opts : ServerOptions} {t : Transport}
    {r : Option Transport × Except Err ServerSetup} (h : createServer initTransport mk hasImpl opts (some t) = .ok r) :
    (∃ srv, newServer mk hasImpl true opts = .ok (.ok srv) ∧ r = (some (initTransport srv.options t).1, .ok srv)) ∨
    ∃ e, r = (some t, .error e) := by
  unfold createServer at h
  rw [show (some t).isSome = true from rfl] at h
  cases hn : newServer mk hasImpl true opts with
  | error e => rw [hn] at h; cases h
  | ok x =>
    rw [hn] at h
    cases x with
    | error e => simp only [bind, Except.bind, pure, Except.pure, Except.ok.injEq] at h; exact .inr ⟨e, h.symm⟩
    | ok srv =>
      simp only [bind, Except.bind, pure, Except.pure, initTransport, Except.ok.injEq] at h
      exact .inl ⟨srv, rfl, h.symm⟩

/-- What holds after any operations. -/
structure Inv (s : State) : Prop where
  made : ∀ srv ∈ s.servers, ∃ mk i o, newServer mk i true o = .ok (.ok srv)
  none : s.servers = [] → s.t.bufferSize = 0 ∧ s.pairs = []
  one : ∀ srv, s.servers = [srv] → s.t.bufferSize = srv.options.messageBufferSize ∧
    ∀ p ∈ s.pairs, p.server = { buf := List.replicate srv.options.messageBufferSize.toNat 0 } ∧ p.client = p.server

theorem Reachable.inv {s : State} (h : Reachable s) : Inv s := by
  induction h with
  | start => exact ⟨by simp, fun _ => ⟨rfl, rfl⟩, by simp⟩
  | step s op s' _ hs ih =>
    cases op with
    | create mk i o =>
      simp only [Setup.step, bind, Except.bind] at hs
      cases hc : createServer initTransport mk i o (some s.t) with
      | error e => rw [hc] at hs; cases hs
      | ok r =>
        rw [hc] at hs
        rcases createServer_ok hc with ⟨srv, hn, rfl⟩ | ⟨e, rfl⟩
        · simp only [pure, Except.pure, Except.ok.injEq] at hs
          subst hs
          refine ⟨?_, by simp, ?_⟩
          · intro x hx
            simp only [List.mem_append, List.mem_singleton] at hx
            rcases hx with hx | rfl
            · exact ih.made x hx
            · exact ⟨_, _, _, hn⟩
          · intro x hx
            have : s.servers = [] ∧ x = srv := by
              cases hss : s.servers with
              | nil => rw [hss] at hx; simp at hx; exact ⟨rfl, hx.symm⟩
              | cons a l => rw [hss] at hx; simp at hx
            obtain ⟨h0, rfl⟩ := this
            refine ⟨rfl, ?_⟩
            simp [(ih.none h0).2]
        · simp only [pure, Except.pure, Except.ok.injEq, Option.getD_some] at hs
          subst hs
          exact ⟨ih.made, ih.none, ih.one⟩
    | socket =>
      simp only [Setup.step, bind, Except.bind] at hs
      cases hp : newPair s.t with
      | error e => rw [hp] at hs; cases hs
      | ok p =>
        rw [hp] at hs
        simp only [pure, Except.pure, Except.ok.injEq] at hs
        subst hs
        obtain ⟨h0, h1, h2⟩ := newPair_ok hp
        refine ⟨ih.made, ?_, ?_⟩
        · intro he
          rw [(ih.none he).1] at h0
          simp at h0
        · intro srv he
          obtain ⟨e1, e2⟩ := ih.one srv he
          refine ⟨e1, ?_⟩
          intro q hq
          simp only [List.mem_append, List.mem_singleton] at hq
          rcases hq with hq | rfl
          · exact e2 q hq
          · rw [← e1]; exact ⟨h1, h2⟩
    | shutdown =>
      simp only [Setup.step, pure, Except.pure, Except.ok.injEq] at hs
      subst hs
      exact ⟨ih.made, ih.none, ih.one⟩

/-- **C110 for a transport that was given to one server**, whatever calls of `NewServer` failed before or after. Missing compared
to `C110_full`: transports given to several. -/
theorem C110_partial {s : State} (h : Reachable s) (srv : ServerSetup) (hone : s.servers = [srv]) (p : Pair) (hp : p ∈ s.pairs)
    (m : Msg) (hm : Clean m) (hfit : srv.configMsg.length ≤ m.buf.length) :
    ∃ m', m.readBytes srv.configMsg = .ok (m', true, none) ∧ ∀ b, b = p.client ∨ b = p.server → ∀ call : WriterCall,
      ¬ call.Panics →
      ((∃ b', call.run bufWriter b = .ok (b', none) ∧ b'.flushed = [call.layout]) ↔
        call.Valid ∧ call.layout.length ≤ m'.conf.messageBufferSize) ∧
      (∀ b', call.run bufWriter b = .ok (b', none) → ∀ v, Grammar call.layout v → ∀ size,
        size = srv.options.messageBufferSize.toNat ∨ size = m'.conf.messageBufferSize →
        ∃ m2 tp, (newMessage size).readBytes call.layout = .ok (m2, tp, none) ∧ m2.shown = v) := by
  have hi := h.inv
  obtain ⟨mk, i, o, hn⟩ := hi.made srv (by rw [hone]; exact List.mem_singleton.mpr rfl)
  obtain ⟨m', h1, -, -, -, hsz, -⟩ := C19_configuration_content mk i true o srv hn m hm hfit
  refine ⟨m', h1, ?_⟩
  obtain ⟨-, hps⟩ := hi.one srv hone
  obtain ⟨hs, hc⟩ := hps p hp
  intro b hb call hpan
  have hbe : b = { buf := List.replicate srv.options.messageBufferSize.toNat 0 } := by
    rcases hb with rfl | rfl
    · rw [hc, hs]
    · exact hs
  have hidle : Idle b srv.options.messageBufferSize.toNat := by rw [hbe]; exact ⟨by simp, rfl, rfl⟩
  have hfl : b.flushed = [] := by rw [hbe]
  obtain ⟨g, n⟩ := C110_buffer b _ hidle call hpan
  rw [hsz]
  refine ⟨⟨?_, ?_⟩, ?_⟩
  · rintro ⟨b', hr, -⟩
    by_contra hno
    obtain ⟨b2, e, hr2, -⟩ := n hno
    rw [hr] at hr2
    cases hr2
  · intro hv
    obtain ⟨b', hr, hf, -⟩ := g hv
    exact ⟨b', hr, by rw [hf, hfl]; rfl⟩
  · intro b' hr v hv size hsize
    have hl : call.layout.length ≤ srv.options.messageBufferSize.toNat := by
      by_contra hno
      obtain ⟨b2, e, hr2, -⟩ := n (fun hx => hno hx.2)
      rw [hr] at hr2
      cases hr2
    have hse : size = srv.options.messageBufferSize.toNat := by rcases hsize with h | h <;> exact h
    subst hse
    have hne : call.layout ≠ [] := by cases call <;> simp [WriterCall.layout]
    obtain ⟨m2, tp, e, h2, he, hsh, -⟩ := C09_accepts_exactly_the_grammar (newMessage srv.options.messageBufferSize.toNat)
      (clean_new _) call.layout hne (by simpa [newMessage] using hl)
    have : e = none := he.mpr ⟨v, hv⟩
    subst this
    exact ⟨m2, tp, h2, (hsh v hv).1⟩

/-- C110: before `NewServer` was called the transport cannot make sockets: `NewSocket` panics. -/
theorem C110_too_early {s : State} (h : Reachable s) (hn : s.servers = []) : step s .socket = goPanic "empty buffer" := by
  have := (h.inv.none hn).1
  simp [step, newPair, newBuffer, this, goPanic, bind, Except.bind]

/-- C110, non-vacuity: a server with buffers of 64 bytes, a pair of sockets, and a signal of 42 bytes; not one of 65. -/
example : ∃ s1 s2 srv p, step {} (.create (.ok ()) true { messageBufferSize := 64 }) = .ok s1 ∧ step s1 .socket = .ok s2 ∧
    s2.servers = [srv] ∧ s2.pairs = [p] ∧
    (∃ b', exSignal.run bufWriter p.client = .ok (b', none) ∧ b'.flushed = [exSignal.layout]) ∧
    ∃ b' e, (WriterCall.signal [] 0 (List.replicate 63 7) true).run bufWriter p.server = .ok (b', some e) :=
  ⟨_, _, _, _, rfl, rfl, rfl, rfl, ⟨_, rfl, rfl⟩, _, _, rfl⟩

end Webwire.Setup
