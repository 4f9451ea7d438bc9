import Verif.Props.Whole4
import Verif.Props.Lifecycle7
import Verif.Props.Lifecycle14

/-!
# C98, C107: every request is answered in the end, and every signal handled, during a shutdown too

As long as fewer requests of the connection were refused than it has handler slots, and the server has not crashed, a shutdown
changes nothing about it: requests are handled or refused, and their callers are told; signals are handled.
-/

set_option autoImplicit false

namespace Webwire.Whole
open _root_.Webwire.Spec

variable {cfg : Cfg} {s s' : State}

/-- Requests can be refused. -/
theorem refusal_any (hs : ideal cfg.srv) (c : ConnId) (m : Msg) : ∃ bs, refusal cfg c m = .ok bs := by
  unfold ideal at hs
  simp [refusal, failMsgShutdown, writeMsgSpecialRequestReply, writePart, MsgReplyShutdown, MsgReplyInternalError,
    MsgReplyMaxSessConnsReached, MsgReplySessionNotFound, MsgReplySessionsDisabled, world, hs, netSockets, bind, Except.bind, pure,
    Except.pure]

/-- What goroutines of the connection can be doing when all is quiet, shut down or not. -/
theorem Quiet.server' (hs : ideal cfg.srv) (h : Reachable cfg s) {c : ConnId} (hq : Spec.Quiet cfg s c)
    (hc : s.srv.g.crashed = none) {pc : Life.PC} (hp : pc ∈ s.srv.threads) (ho : pc.isOn c = true) :
    pc = .reading c ∨ ∃ m, pc = .acquiring c m ∧ Life.act s.srv.g {} pc = none := by
  by_contra hne
  simp only [not_or, not_exists] at hne
  obtain ⟨h1, h2⟩ := hne
  have hact : Life.act s.srv.g {} pc ≠ none := by
    intro hx
    cases pc <;> simp only [Life.act, reduceCtorEq] at hx
    case acquiring i m =>
      obtain rfl : i = c := by simpa [Life.PC.isOn] using ho
      exact h2 m ⟨rfl, by simpa only [Life.act] using hx⟩
    case waiting => cases ho
  obtain ⟨t, ht⟩ := life_step hc hp hact
  have href : ∀ i m, pc = .refusing i m → False := by
    rintro i m rfl
    obtain rfl : i = c := by simpa [Life.PC.isOn] using ho
    have hk : m.requiresReply = true := ((Life.ReachableIf.refInv h.srv).on i m hp).1
    obtain ⟨x, k, q, m', hx, _, _, hm, _, _, hask, hkind⟩ := h.asked (h.worked (c := i) (lm := m) hp (by simp [Life.Spec.WorksOn]) hk) hk
    obtain ⟨bs, hbs⟩ := refusal_any hs i m'
    exact hq (.refuse i m.id) _ rfl trivial (.refuse i m x m' bs {} t hx hm rfl ht hbs)
  by_cases hi : Internal (.thread pc {})
  · refine hq (.server (.thread pc {})) _ ho ?_ (.server _ t hi ht)
    cases pc <;> try exact trivial
    case reading i =>
      obtain rfl : i = c := by simpa [Life.PC.isOn] using ho
      exact absurd rfl h1
    case refusing i m => exact (href i m rfl).elim
  · cases pc <;> try exact hi trivial
    case reading i =>
      obtain rfl : i = c := by simpa [Life.PC.isOn] using ho
      exact h1 rfl
    case refusing i m => exact href i m rfl
    case running i m inl =>
      have hk : m.requiresReply = true := by simpa [Internal] using hi
      obtain rfl : i = c := by simpa [Life.PC.isOn] using ho
      obtain ⟨x, k, q, m', hx, _, _, hm, _, _, hask, hkind⟩ := h.asked (h.worked (c := i) (lm := m) hp (by simp [Life.Spec.WorksOn]) hk) hk
      obtain ⟨out, hout, hfit, hans⟩ := answers_any hs i m' hask
      obtain ⟨kd, n⟩ := m
      obtain rfl : kd = out.kind := hkind.trans hout.symm
      exact hq (.finish i n) _ rfl trivial (.finish i n inl false {} out x m' [] t hx hm ht hfit hans)

/-- On an open connection the server waits for a message, unless refused requests have all the slots. -/
theorem Quiet.reads' (hs : ideal cfg.srv) (h : Reachable cfg s) {c : ConnId} (hq : Spec.Quiet cfg s c)
    (hc : s.srv.g.crashed = none)
    (href : 1 < (s.srv.g.conns c).limit → (s.srv.g.log.countP (Life.LEv.isRefused c) : Int) < (s.srv.g.conns c).limit)
    (ha : (s.srv.g.conns c).active = true) : .reading c ∈ s.srv.threads ∧ ∀ pc ∈ s.srv.threads, pc.isOn c = true → pc = .reading c := by
  have key : ∀ pc ∈ s.srv.threads, pc.isOn c = true → pc = .reading c := by
    intro pc hp ho
    rcases Quiet.server' hs h hq hc hp ho with rfl | ⟨m, rfl, hno⟩
    · rfl
    · simp only [Life.act] at hno
      have hfull : (s.srv.g.conns c).limit > 1 ∧ ((s.srv.g.conns c).slots : Int) ≥ (s.srv.g.conns c).limit := by
        unfold Life.actAcquiring at hno
        split at hno
        · split at hno
          · exact ⟨by assumption, by assumption⟩
          · cases hno
        · cases hno
      have h1 := (Life.ReachableIf.inv h.srv).slots c hfull.1
      have h2 := href hfull.1
      have hpos : 0 < s.srv.threads.countP (Life.PC.holdsSlot c) := by omega
      obtain ⟨a, hm, hx⟩ := List.countP_pos_iff.mp hpos
      rcases Quiet.server' hs h hq hc hm (Life.PC.holdsSlot_isOn hx) with rfl | ⟨m, rfl, _⟩ <;>
        simp [Life.PC.holdsSlot] at hx
  obtain ⟨pc, hp, hr⟩ := Life.ReachableIf.reader h.srv ha
  have := key pc hp (Life.PC.isReader_isOn hr)
  exact ⟨this ▸ hp, key⟩

/-- Everything sent on such a connection was read. -/
theorem Quiet.taken' (hs : ideal cfg.srv) (h : Reachable cfg s) {c : ConnId} (hq : Spec.Quiet cfg s c)
    (hc : s.srv.g.crashed = none)
    (href : 1 < (s.srv.g.conns c).limit → (s.srv.g.log.countP (Life.LEv.isRefused c) : Int) < (s.srv.g.conns c).limit)
    (ha : (s.srv.g.conns c).active = true) : s.taken c = (s.sent c).length := by
  obtain ⟨hread, -⟩ := Quiet.reads' hs h hq hc href ha
  by_contra hne
  have hlt : s.taken c < (s.sent c).length := Nat.lt_of_le_of_ne (h.arrInv.le c) hne
  have hx := List.getElem?_eq_getElem hlt
  obtain ⟨t, ht⟩ := life_step (ch := ⟨incoming cfg (s.taken c) ((s.sent c)[s.taken c]).bytes, true⟩)
    hc hread (by simp [Life.act])
  exact hq (.receive c) _ rfl trivial (.receive c _ true t hx ht)

/-- C98, what holds, a shutdown included: every request sent has an answer or was given up by its caller, and nobody still waits
for an answer that has come, unless as many requests of the connection were refused as it has handler slots, or the server
has crashed. Missing: connections with that many refused requests, for which it is false, and crashed servers. -/
theorem C98_shutdown_partial (hs : ideal cfg.srv) (h : Reachable cfg s) (c : ConnId) (hq : Spec.Quiet cfg s c)
    (hc : s.srv.g.crashed = none)
    (href : 1 < (s.srv.g.conns c).limit → (s.srv.g.log.countP (Life.LEv.isRefused c) : Int) < (s.srv.g.conns c).limit)
    (ha : (s.srv.g.conns c).active = true)
    (hn : (Req.draws (s.clients c).g.log).length < 2 ^ 64)
    (hout : ∀ d ∈ s.results, d.c = c → d.up = true ∧ d.out.closesMsg = false ∧ Spec.Sendable d.out)
    (hreq : ∀ x ∈ s.sent c, x.bytes.length ≤ cfg.srv.bufferSize.toNat)
    (hrep : ∀ y ∈ s.back c, y.2.length ≤ cfg.clientBuf) (x : Sent) (hx : x ∈ s.sent c) (k : Call) (hk : x.req = some k) :
    ((∃ rep, Spec.Has (s.clients c) k.r rep) ∨ .gaveUp k.r ∈ (s.clients c).g.log) ∧
    (.awaiting k.r ∈ (s.clients c).threads →
      (∃ rep, .got k.r rep ∈ (s.clients c).g.log) ∨ .gaveUp k.r ∈ (s.clients c).g.log) := by
  have hcl : ∀ d ∈ s.results, d.c = c → d.out.closesMsg = false := fun d hd hc => (hout d hd hc).2.1
  obtain ⟨hread, hon⟩ := Quiet.reads' hs h hq hc href ha
  have htaken := Quiet.taken' hs h hq hc href ha
  have hst : Spec.Settled s c := by
    refine ⟨htaken, Quiet.seen h hq, fun pc hp m => ?_, fun pc hp => ?_⟩
    · cases ho : pc.isOn c with
      | true => rw [hon pc hp ho]; rfl
      | false => cases pc <;> simp_all [Life.Spec.WorksOn, Life.PC.isOn]
    · obtain ⟨r, q, rfl, _⟩ := Quiet.client hs h hq hcl hn hp
      rfl
  have hall := C97_all_answered hs h c hn ha hst hout hreq hrep x hx k hk
  refine ⟨hall, fun hw => ?_⟩
  rcases hall with ⟨rep, hg | ⟨q, hq1, hc1⟩⟩ | hg
  · exact .inl ⟨rep, hg⟩
  · obtain ⟨r, q', hr, hq2, hc2⟩ := Quiet.client hs h hq hcl hn hw
    cases hr
    rw [hq1] at hq2
    cases hq2
    rw [hc1] at hc2
    cases hc2
  · exact .inr hg

/-- Where messages that the reader has yet to register for a handler come from. -/
theorem life_holds {t t' : Life.State} {l : Life.Label} (h : Life.Step t l t') {c : ConnId} {m : Life.LMsg}
    (hp : .checking c m ∈ t'.threads ∨ .acquiring c m ∈ t'.threads) :
    (.checking c m ∈ t.threads ∨ .acquiring c m ∈ t.threads) ∨
      ∃ ch, l = .thread (.reading c) ch ∧ ch.msg = some m := by
  cases h with
  | thread g g' pre post pcs pc ch hc hact =>
    have ha := Life.acts_of_act hact
    simp only [List.mem_append, List.mem_cons] at hp ⊢
    have key : (.checking c m ∈ pcs ∨ .acquiring c m ∈ pcs) →
        (pc = .checking c m ∨ pc = .acquiring c m) ∨ (pc = .reading c ∧ ch.msg = some m) := by
      intro hx
      cases ha <;> simp_all [Life.resume, Life.closed] <;> grind
    grind
  | connect g ts i limit hc hu => left; simpa using hp
  | close g ts i hc hu => left; simpa using hp
  | shutdown g ts hc => left; simpa using hp

/-- Such a message is the last one that was read. -/
theorem Reachable.lastRead (h : Reachable cfg s) {c : ConnId} {m : Life.LMsg}
    (hp : .checking c m ∈ s.srv.threads ∨ .acquiring c m ∈ s.srv.threads) : m.id + 1 = s.taken c := by
  induction h with
  | start => simp at hp
  | step s l s' hr hst ih =>
    cases hst with
    | client | send | other | push | told | skip => exact ih hp
    | server l srv hi hs =>
      rcases life_holds hs hp with h1 | ⟨ch, rfl, h2⟩
      · exact ih h1
      · simp only [Internal] at hi
        rw [hi] at h2
        cases h2
    | receive i x ok srv hx hs =>
      rcases life_holds hs hp with h1 | ⟨ch, h2, h3⟩
      · by_cases hic : i = c
        · subst hic
          exfalso
          have h2 := (life_mem hs).1
          have h3 := (Life.ReachableIf.inv hr.srv).reader i
          obtain ⟨pre, post, hts⟩ := List.append_of_mem h2
          rw [hts] at h1 h3
          simp only [List.countP_append, List.countP_cons, Life.PC.isReader, decide_true, if_true] at h3
          simp only [List.mem_append, List.mem_cons, reduceCtorEq, false_or] at h1
          rcases h1 with (h1 | h1) | (h1 | h1)
          all_goals
            have := List.countP_pos_iff.mpr ⟨_, h1, (by simp [Life.PC.isReader] : Life.PC.isReader i _ = true)⟩
            omega
        · have := ih h1
          have hci : c ≠ i := fun e => hic e.symm
          simpa [put, hci] using this
      · cases h2
        simp only [incoming, Option.map_eq_some_iff] at h3
        obtain ⟨m', -, rfl⟩ := h3
        simp [put]
    | finish i n inl up ch out x m' bs srv hx hm hs hfit hbs =>
      rcases life_holds hs hp with h1 | ⟨ch', h2, h3⟩
      · exact ih h1
      · cases h2
    | refuse i lm x m' bs ch srv hx hm hw hs hbs =>
      rcases life_holds hs hp with h1 | ⟨ch', h2, h3⟩
      · exact ih h1
      · cases h2

/-- C98, what a shutdown does at most: once everything has happened on an open connection that can be relied on to happen, and the
server has not crashed, either everything was read and every request has an answer (or was given up by its caller), or exactly as
many requests of the connection were refused as it has handler slots, and of those the server has read all but the last one have an
answer. Missing: the answers to those that are left then. -/
theorem C98_all_but_one_partial (hs : ideal cfg.srv) (h : Reachable cfg s) (c : ConnId) (hq : Spec.Quiet cfg s c)
    (hc : s.srv.g.crashed = none) (ha : (s.srv.g.conns c).active = true)
    (hn : (Req.draws (s.clients c).g.log).length < 2 ^ 64)
    (hout : ∀ d ∈ s.results, d.c = c → d.up = true ∧ d.out.closesMsg = false ∧ Spec.Sendable d.out)
    (hreq : ∀ x ∈ s.sent c, x.bytes.length ≤ cfg.srv.bufferSize.toNat)
    (hrep : ∀ y ∈ s.back c, y.2.length ≤ cfg.clientBuf) :
    (∀ n x k, (s.sent c)[n]? = some x → x.req = some k → n + 1 < s.taken c →
      (∃ rep, Spec.Has (s.clients c) k.r rep) ∨ .gaveUp k.r ∈ (s.clients c).g.log) ∧
    ((s.taken c = (s.sent c).length ∧ ∀ x ∈ s.sent c, ∀ k, x.req = some k →
      (∃ rep, Spec.Has (s.clients c) k.r rep) ∨ .gaveUp k.r ∈ (s.clients c).g.log) ∨
     (1 < (s.srv.g.conns c).limit ∧ (s.srv.g.log.countP (Life.LEv.isRefused c) : Int) = (s.srv.g.conns c).limit)) := by
  have hcl : ∀ d ∈ s.results, d.c = c → d.out.closesMsg = false := fun d hd hc => (hout d hd hc).2.1
  have hclient : ∀ pc ∈ (s.clients c).threads, pc.resolves = false := by
    intro pc hp
    obtain ⟨r, q, rfl, _⟩ := Quiet.client hs h hq hcl hn hp
    rfl
  refine ⟨fun n x k hxn hk ht => ?_, ?_⟩
  · refine C97_answered hs h c hn ha (Quiet.seen h hq) hclient hout hreq hrep n x hxn (by omega) (fun pc hp kd => ?_) k hk
    cases ho : pc.isOn c with
    | true =>
      rcases Quiet.server' hs h hq hc hp ho with rfl | ⟨m, rfl, -⟩
      · rfl
      · have := h.lastRead (.inr hp)
        have hne : m ≠ ⟨kd, n⟩ := by rintro rfl; simp only at this; omega
        simp [Life.Spec.WorksOn, hne]
    | false => cases pc <;> simp_all [Life.Spec.WorksOn, Life.PC.isOn]
  · by_cases href : 1 < (s.srv.g.conns c).limit → (s.srv.g.log.countP (Life.LEv.isRefused c) : Int) < (s.srv.g.conns c).limit
    · exact .inl ⟨Quiet.taken' hs h hq hc href ha, fun x hx k hk =>
        (C98_shutdown_partial hs h c hq hc href ha hn hout hreq hrep x hx k hk).1⟩
    · right
      simp only [Classical.not_imp, Int.not_lt] at href
      have h1 := (Life.ReachableIf.inv h.srv).slots c href.1
      have h2 := (Life.ReachableIf.inv h.srv).slotsLe c href.1
      refine ⟨href.1, ?_⟩
      omega

/-- C107, during a shutdown too: once everything has happened on an open connection that can be relied on to happen, every signal that
fits the buffers of the server was given to `OnSignal` once, as long as fewer requests of the connection were refused than it has
handler slots and the server has not crashed. -/
theorem C107_shutdown_handled (hs : ideal cfg.srv) (h : Reachable cfg s) (c : ConnId) (hq : Spec.Quiet cfg s c)
    (hc : s.srv.g.crashed = none)
    (href : 1 < (s.srv.g.conns c).limit → (s.srv.g.log.countP (Life.LEv.isRefused c) : Int) < (s.srv.g.conns c).limit)
    (ha : (s.srv.g.conns c).active = true) (n : Nat) (x : Sent) (v : View)
    (hx : (s.sent c)[n]? = some x) (hsig : Spec.Signal x.bytes v) (hl : x.bytes.length ≤ cfg.srv.bufferSize.toNat) :
    Spec.HandledOnce s c n := by
  obtain ⟨_, hon⟩ := Quiet.reads' hs h hq hc href ha
  have ht := Quiet.taken' hs h hq hc href ha
  have harr : .arrived c ⟨.signal, n⟩ ∈ s.srv.g.log :=
    (h.arrInv.iff c _).mpr ⟨by rw [ht]; exact (List.getElem?_eq_some_iff.mp hx).1, x, hx, incoming_signal.mpr ⟨rfl, hl, v, hsig⟩⟩
  have a1 := Life.ReachableIf.accounted h.srv c ⟨.signal, n⟩ (.inl rfl)
  have a2 := h.arrInv.once c ⟨.signal, n⟩
  have a3 := (Life.ReachableIf.inv h.srv).runsMsg c ⟨.signal, n⟩
  have a4 := List.count_pos_iff.mpr harr
  have hz : ∀ p : Life.PC → Bool, (∀ pc, p pc = true → pc.isOn c = true) → p (.reading c) = false → s.srv.threads.countP p = 0 := by
    intro p h1 h2
    rw [List.countP_eq_zero]
    intro pc hp hx
    rw [hon pc hp (h1 pc hx), h2] at hx
    cases hx
  have a5 := hz (Life.PC.pends c ⟨.signal, n⟩) (fun _ => Life.PC.pends_isOn) rfl
  have a6 := hz (Life.PC.runsMsg c ⟨.signal, n⟩) (fun _ => Life.PC.runsMsg_isOn) rfl
  have a7 : s.srv.g.log.count (.dropped c ⟨.signal, n⟩) = 0 := by
    rw [List.count_eq_zero]
    intro hd
    rw [((Life.ReachableIf.kindInv h.srv).dropped c _ hd).1] at ha
    cases ha
  have a8 : s.srv.g.log.count (.refused c ⟨.signal, n⟩) = 0 := by
    rw [List.count_eq_zero]
    intro hd
    have := (Life.C28_only_requests_refused s.srv h.srv c _ hd).1
    cases this
  exact ⟨by omega, by omega⟩

/-- C107, whatever a shutdown does: of the signals the server has read, all but the last one were given to `OnSignal` once. -/
theorem C107_all_but_one (hs : ideal cfg.srv) (h : Reachable cfg s) (c : ConnId) (hq : Spec.Quiet cfg s c)
    (hc : s.srv.g.crashed = none) (ha : (s.srv.g.conns c).active = true) (n : Nat) (x : Sent) (v : View)
    (hx : (s.sent c)[n]? = some x) (hsig : Spec.Signal x.bytes v) (hl : x.bytes.length ≤ cfg.srv.bufferSize.toNat)
    (ht : n + 1 < s.taken c) : Spec.HandledOnce s c n := by
  have harr : .arrived c ⟨.signal, n⟩ ∈ s.srv.g.log :=
    (h.arrInv.iff c _).mpr ⟨by simp only; omega, x, hx, incoming_signal.mpr ⟨rfl, hl, v, hsig⟩⟩
  have a1 := Life.C106_ready s.srv h.srv c ha ⟨.signal, n⟩ (.inl rfl)
  have a2 := h.arrInv.once c ⟨.signal, n⟩
  have a3 := (Life.ReachableIf.inv h.srv).runsMsg c ⟨.signal, n⟩
  have a4 := List.count_pos_iff.mpr harr
  have hz : ∀ p : Life.PC → Bool, (∀ pc, p pc = true → pc.isOn c = true) → p (.reading c) = false →
      (∀ m, p (.acquiring c m) = true → m = ⟨.signal, n⟩) → s.srv.threads.countP p = 0 := by
    intro p h1 h2 h3
    rw [List.countP_eq_zero]
    intro pc hp hx
    rcases Quiet.server' hs h hq hc hp (h1 pc hx) with rfl | ⟨m, rfl, -⟩
    · rw [h2] at hx
      cases hx
    · have h4 := h.lastRead (.inr hp)
      rw [h3 m hx] at h4
      simp only at h4
      omega
  have a5 := hz (Life.PC.pends c ⟨.signal, n⟩) (fun _ => Life.PC.pends_isOn) rfl (fun m hm => by simpa [Life.PC.pends] using hm)
  have a6 := hz (Life.PC.runsMsg c ⟨.signal, n⟩) (fun _ => Life.PC.runsMsg_isOn) rfl (fun m hm => by simp [Life.PC.runsMsg] at hm)
  have a7 := a1.2 (.inl rfl)
  have a8 := a1.1
  exact ⟨by omega, by omega⟩

/-! Example. -/

/-- Two requests that are answered and a third that is refused during a shutdown, on a connection with two slots: nothing can
happen any more, and the conditions of `C98_shutdown_partial` hold, but not those of `C98_partial`. -/
example : ∃ s, Reachable exCfg s ∧ Spec.Quiet exCfg s 1 ∧ .stop ∈ s.srv.g.log ∧ s.srv.g.crashed = none ∧
    (s.srv.g.conns 1).limit = 2 ∧ s.srv.g.log.countP (Life.LEv.isRefused 1) = 1 ∧ (s.srv.g.conns 1).active = true ∧
    (Req.draws (s.clients 1).g.log).length < 2 ^ 64 ∧
    (∀ d ∈ s.results, d.c = 1 → d.up = true ∧ d.out.closesMsg = false ∧ Spec.Sendable d.out) ∧
    (∀ x ∈ s.sent 1, x.bytes.length ≤ exCfg.srv.bufferSize.toNat) ∧ (∀ y ∈ s.back 1, y.2.length ≤ exCfg.clientBuf) ∧
    (s.sent 1).map (fun x => x.req.map (·.r)) = [some 0, some 1, some 2] := by
  have hrun : ∃ s, play exCfg {} (exThree ++ exGo 0 1) = some s ∧ (Req.draws (s.clients 1).g.log).length = 3 ∧
      (s.srv.g.conns 1).active = true ∧ s.taken 1 = (s.sent 1).length ∧ s.seen 1 = (s.back 1).length ∧
      s.srv.threads = [.reading 1] ∧ (s.clients 1).threads = [] ∧
      (s.sent 1).map (·.bytes.length) = [12, 12, 11] ∧ (s.back 1).map (·.2.length) = [10, 12, 9] ∧
      s.results.map (fun d => (d.up, d.out)) = [(true, .hook { payload := [8] }), (true, .hook { err := .request [99] [7] })] ∧
      (s.sent 1).map (fun x => x.req.map (·.r)) = [some 0, some 1, some 2] ∧ s.srv.g.log.contains .stop = true ∧
      s.srv.g.crashed = none ∧ (s.srv.g.conns 1).limit = 2 ∧ s.srv.g.log.countP (Life.LEv.isRefused 1) = 1 :=
    ⟨_, rfl, rfl, rfl, rfl, rfl, rfl, rfl, rfl, rfl, rfl, rfl, rfl, rfl, rfl, rfl⟩
  obtain ⟨s, hp, h1, h2, h3, h4, h5, h6, h7, h8, h9, h10, h11, h12, h13, h14⟩ := hrun
  refine ⟨s, play_reachable _ .start hp, quiet_of h6 h4 h5 (.inl ⟨rfl, h3⟩), by simpa using h11, h12, h13, h14, h2, by omega,
    ?_, ?_, ?_, h10⟩
  · intro d hd _
    have := List.mem_map_of_mem (f := fun d : Done => (d.up, d.out)) hd
    rw [h9] at this
    simp only [List.mem_cons, Prod.mk.injEq, List.not_mem_nil, or_false] at this
    rcases this with ⟨h1, h2⟩ | ⟨h1, h2⟩ <;> rw [h1, h2]
    · exact ⟨rfl, rfl, _, .success rfl (by simp)⟩
    · exact ⟨rfl, rfl, _, .error _ _ rfl (by simp [SendableCode, Printable])⟩
  · intro x hx
    have := List.mem_map_of_mem (f := fun x : Sent => x.bytes.length) hx
    rw [h7] at this
    have hb : exCfg.srv.bufferSize.toNat = 64 := rfl
    simp at this; omega
  · intro y hy
    have := List.mem_map_of_mem (f := fun y : Option Nat × Bytes => y.2.length) hy
    rw [h8] at this
    have hb : exCfg.clientBuf = 64 := rfl
    simp at this; omega

/-- ... and then a signal and a heartbeat, with which the conditions of `C107_shutdown_handled` and `C107_all_but_one` hold. -/
example : ∃ s, Reachable exCfg s ∧ Spec.Quiet exCfg s 1 ∧ .stop ∈ s.srv.g.log ∧ s.srv.g.crashed = none ∧
    (s.srv.g.conns 1).limit = 2 ∧ s.srv.g.log.countP (Life.LEv.isRefused 1) = 1 ∧ (s.srv.g.conns 1).active = true ∧
    ∃ x, (s.sent 1)[3]? = some x ∧ Spec.Signal x.bytes { msgType := 63, name := [97], payload := [] } ∧
      x.bytes.length ≤ exCfg.srv.bufferSize.toNat ∧ 3 + 1 < s.taken 1 := by
  have hrun : ∃ s, play exCfg {} (exThree ++ exGo 0 1 ++ [.other 1 [63, 1, 97], .recv 0] ++ exGo 0 10 ++
        [.other 1 [33], .recv 0]) = some s ∧
      (s.srv.g.conns 1).active = true ∧ s.taken 1 = (s.sent 1).length ∧ s.seen 1 = (s.back 1).length ∧
      s.srv.threads = [.reading 1] ∧ (s.clients 1).threads = [] ∧ s.srv.g.log.contains .stop = true ∧
      s.srv.g.crashed = none ∧ (s.srv.g.conns 1).limit = 2 ∧ s.srv.g.log.countP (Life.LEv.isRefused 1) = 1 ∧
      (s.sent 1)[3]?.map (·.bytes) = some [63, 1, 97] ∧ s.taken 1 = 5 :=
    ⟨_, rfl, rfl, rfl, rfl, rfl, rfl, rfl, rfl, rfl, rfl, rfl, rfl⟩
  obtain ⟨s, hp, h1, h2, h3, h4, h5, h6, h7, h8, h9, h10, h11⟩ := hrun
  obtain ⟨x, hx, hb⟩ := Option.map_eq_some_iff.mp h10
  refine ⟨s, play_reachable _ .start hp, quiet_of h5 h3 h4 (.inl ⟨rfl, h2⟩), by simpa using h6, h7, h8, h9, h1, x, hx, ?_, ?_, by omega⟩
  · rw [hb]
    exact ⟨Grammar.signal 63 1 [97] [] (by simp) rfl (by simp), by simp⟩
  · rw [hb]
    have : exCfg.srv.bufferSize.toNat = 64 := rfl
    simp [this]

/-- Three requests on a connection with two slots, of which two were refused (as for `C98_violated`): the conditions of
`C98_all_but_one_partial` hold, with the second alternative. -/
example : ∃ s, Reachable exCfg s ∧ Spec.Quiet exCfg s 1 ∧ s.srv.g.crashed = none ∧ (s.srv.g.conns 1).active = true ∧
    (Req.draws (s.clients 1).g.log).length < 2 ^ 64 ∧ s.results = [] ∧
    (∀ x ∈ s.sent 1, x.bytes.length ≤ exCfg.srv.bufferSize.toNat) ∧ (∀ y ∈ s.back 1, y.2.length ≤ exCfg.clientBuf) ∧
    (s.srv.g.conns 1).limit = 2 ∧ s.srv.g.log.countP (Life.LEv.isRefused 1) = 2 ∧ s.taken 1 = 3 := by
  have hrun : ∃ s, play exCfg {} exStuck = some s ∧ (Req.draws (s.clients 1).g.log).length = 3 ∧
      (s.srv.g.conns 1).active = true ∧ s.seen 1 = (s.back 1).length ∧ s.srv.threads = [.acquiring 1 ⟨.request, 2⟩] ∧
      (s.clients 1).threads = [] ∧ (s.srv.g.conns 1).limit = 2 ∧ (s.srv.g.conns 1).slots = 2 ∧
      (s.sent 1).map (·.bytes.length) = [12, 12, 12] ∧ (s.back 1).map (·.2.length) = [9, 9] ∧ s.results.length = 0 ∧
      s.srv.g.crashed = none ∧ s.srv.g.log.countP (Life.LEv.isRefused 1) = 2 ∧ s.taken 1 = 3 :=
    ⟨_, rfl, rfl, rfl, rfl, rfl, rfl, rfl, rfl, rfl, rfl, rfl, rfl, rfl, rfl⟩
  obtain ⟨s, hp, h1, h2, h3, h4, h5, h6, h7, h8, h9, h10, h11, h12, h13⟩ := hrun
  refine ⟨s, play_reachable _ .start hp, ?_, h11, h2, by omega, List.length_eq_zero_iff.mp h10, ?_, ?_, h6, h12, h13⟩
  · refine quiet_of h5 h3 h4 (.inr ⟨⟨_, rfl⟩, fun ch => ?_⟩)
    simp [Life.act, Life.actAcquiring, h6, h7]
  · intro x hx
    have := List.mem_map_of_mem (f := fun x : Sent => x.bytes.length) hx
    rw [h8] at this
    have hb : exCfg.srv.bufferSize.toNat = 64 := rfl
    simp at this; omega
  · intro y hy
    have := List.mem_map_of_mem (f := fun y : Option Nat × Bytes => y.2.length) hy
    rw [h9] at this
    have hb : exCfg.clientBuf = 64 := rfl
    simp at this; omega

end Webwire.Whole
