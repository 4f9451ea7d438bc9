import Verif.Proofs.Whole7

/-!
# C98: every request is answered in the end

Clients and the server together, under all schedules. Nothing waits for ever: neither for a handler slot, nor for a lock of
the request manager, nor for anything that happens on other connections.
-/

set_option autoImplicit false

namespace Webwire.Whole
open _root_.Webwire.Spec

variable {cfg : Cfg} {s s' : State}

/-- What C98 asks for: once everything has happened on an open connection that can be relied on to happen, every request sent
has an answer or was given up by its caller; provided messages fit the buffers, the results of the handlers could be sent,
and handlers do not close their messages. -/
def C98_full : Prop :=
  ∀ (cfg : Cfg) (s : State) (c : ConnId), ideal cfg.srv → Reachable cfg s → Spec.Quiet cfg s c →
    (s.srv.g.conns c).active = true → (Req.draws (s.clients c).g.log).length < 2 ^ 64 →
    (∀ d ∈ s.results, d.c = c → d.up = true ∧ d.out.closesMsg = false ∧ Spec.Sendable d.out) →
    (∀ x ∈ s.sent c, x.bytes.length ≤ cfg.srv.bufferSize.toNat) → (∀ y ∈ s.back c, y.2.length ≤ cfg.clientBuf) →
    ∀ x ∈ s.sent c, ∀ k : Call, x.req = some k →
      (∃ rep, Spec.Has (s.clients c) k.r rep) ∨ .gaveUp k.r ∈ (s.clients c).g.log

/-- C98: whatever state has been reached, there is a number of steps after which nothing happens any more on a connection,
whatever happens elsewhere, unless somebody asks for something new there. -/
theorem C98_ends (hs : ideal cfg.srv) (_ : Reachable cfg s) (c : ConnId) :
    ∃ N, ∀ n s', Spec.Run cfg c s n s' → n ≤ N :=
  ⟨s.left c, fun n s' h => by have := Run.left hs h; omega⟩

/-- C98: so everything that can be relied on to happen does happen. -/
theorem C98_reached (hs : ideal cfg.srv) (h : Reachable cfg s) (c : ConnId) :
    ∃ n s', Spec.Run cfg c s n s' ∧ Spec.Quiet cfg s' c := by
  have due : ∀ {l : Label}, Spec.Due l → ¬ Spec.New l := by
    intro l hd hn
    cases l with
    | client c l => cases l <;> simp_all [Spec.Due, Spec.New]
    | server l => cases l <;> simp_all [Spec.Due, Spec.New]
    | _ => simp_all [Spec.Due, Spec.New]
  have key : ∀ k n s', Spec.Run cfg c s n s' → s.left c ≤ n + k → ∃ n s', Spec.Run cfg c s n s' ∧ Spec.Quiet cfg s' c := by
    intro k
    induction k with
    | zero =>
      intro n s' hr hk
      refine ⟨n, s', hr, fun l s'' ho hd hst => ?_⟩
      have := Run.left hs (.own n s' l s'' hr ho (due hd) hst)
      omega
    | succ k ih =>
      intro n s' hr hk
      by_cases hq : Spec.Quiet cfg s' c
      · exact ⟨n, s', hr, hq⟩
      · simp only [Spec.Quiet, not_forall, not_not] at hq
        obtain ⟨l, s'', ho, hd, hst⟩ := hq
        exact ih (n + 1) s'' (.own n s' l s'' hr ho (due hd) hst) (by omega)
  exact key (s.left c) 0 s .start (by omega)

/-- C98, what holds: the same as long as `Shutdown` was not called. Nobody still waits for an answer that has come. Missing:
requests received during a shutdown, for which it is false. -/
theorem C98_partial (hs : ideal cfg.srv) (h : Reachable cfg s) (c : ConnId) (hq : Spec.Quiet cfg s c)
    (hstop : .stop ∉ s.srv.g.log) (ha : (s.srv.g.conns c).active = true)
    (hn : (Req.draws (s.clients c).g.log).length < 2 ^ 64)
    (hout : ∀ d ∈ s.results, d.c = c → d.up = true ∧ d.out.closesMsg = false ∧ Spec.Sendable d.out)
    (hreq : ∀ x ∈ s.sent c, x.bytes.length ≤ cfg.srv.bufferSize.toNat)
    (hrep : ∀ y ∈ s.back c, y.2.length ≤ cfg.clientBuf) (x : Sent) (hx : x ∈ s.sent c) (k : Call) (hk : x.req = some k) :
    ((∃ rep, Spec.Has (s.clients c) k.r rep) ∨ .gaveUp k.r ∈ (s.clients c).g.log) ∧
    (.awaiting k.r ∈ (s.clients c).threads →
      (∃ rep, .got k.r rep ∈ (s.clients c).g.log) ∨ .gaveUp k.r ∈ (s.clients c).g.log) := by
  have hcl : ∀ d ∈ s.results, d.c = c → d.out.closesMsg = false := fun d hd hc => (hout d hd hc).2.1
  obtain ⟨hread, hon⟩ := Quiet.reads hs h hq hstop ha
  have hst : Spec.Settled s c := by
    refine ⟨Quiet.taken hs h hq hstop ha, Quiet.seen h hq, fun pc hp m => ?_, fun pc hp => ?_⟩
    · cases ho : pc.isOn c with
      | true => rw [hon pc hp ho]; rfl
      | false => cases pc <;> simp_all [Life.Spec.WorksOn, Life.PC.isOn]
    · obtain ⟨r, q, rfl, _⟩ := Quiet.client hs h hq hcl hn hp
      rfl
  have hall := C97_all_answered hs h c hn ha hst hout hreq hrep x hx k hk
  refine ⟨hall, fun hw => ?_⟩
  rcases hall with ⟨rep, hg | ⟨q, hq1, hc1⟩⟩ | hg
  · exact .inl ⟨rep, hg⟩
  · obtain ⟨r, q', hr, hq2, hc2⟩ := Quiet.client hs h hq hcl hn hw
    cases hr
    rw [hq1] at hq2
    cases hq2
    rw [hc1] at hc2
    cases hc2
  · exact .inr hg

/-! Examples. -/

theorem life_mem {t t' : Life.State} {pc : Life.PC} {ch : Life.Choice} (h : Life.Step t (.thread pc ch) t') :
    pc ∈ t.threads ∧ Life.act t.g ch pc ≠ none := by
  cases h with
  | thread g g' pre post pcs pc ch hc hact => exact ⟨by simp, by rw [hact]; simp⟩

/-- How to see that nothing can happen any more. -/
theorem quiet_of {c : ConnId} (hcl : (s.clients c).threads = []) (hb : s.seen c = (s.back c).length) {pc : Life.PC}
    (hth : s.srv.threads = [pc])
    (hpc : (pc = .reading c ∧ s.taken c = (s.sent c).length) ∨
      (∃ m, pc = .acquiring c m) ∧ ∀ ch, Life.act s.srv.g ch pc = none) : Spec.Quiet cfg s c := by
  intro l s' ho hd hst
  cases hst with
  | client i l cl _ hs =>
    obtain rfl : i = c := ho
    generalize s.clients i = t at *
    cases hs with
    | thread g g' pre post pcs pc b hact => simp at hcl
    | _ => exact hd
  | send => exact hd
  | other => exact hd
  | push => exact hd
  | server l srv hi hs =>
    cases l with
    | thread pc' ch =>
      obtain ⟨h1, h2⟩ := life_mem hs
      rw [hth, List.mem_singleton] at h1
      subst h1
      rcases hpc with ⟨rfl, _⟩ | ⟨_, hno⟩
      · exact hd
      · exact h2 (hno ch)
    | _ => exact hd
  | receive i x ok srv hx hs =>
    obtain rfl : i = c := ho
    obtain ⟨h1, -⟩ := life_mem hs
    rw [hth, List.mem_singleton] at h1
    subst h1
    rcases hpc with ⟨_, ht⟩ | ⟨⟨m, hm⟩, _⟩
    · rw [ht] at hx; simp at hx
    · cases hm
  | finish i n inl up ch out x m bs srv hx hm hs hfit hbs =>
    obtain ⟨h1, -⟩ := life_mem hs
    rw [hth, List.mem_singleton] at h1
    subst h1
    rcases hpc with ⟨h, _⟩ | ⟨⟨m, hm⟩, _⟩
    · cases h
    · cases hm
  | refuse i lm x m bs ch srv hx hm hw hs hbs =>
    obtain ⟨h1, -⟩ := life_mem hs
    rw [hth, List.mem_singleton] at h1
    subst h1
    rcases hpc with ⟨h, _⟩ | ⟨⟨m, hm⟩, _⟩
    · cases h
    · cases hm
  | told i y k rep cl hy =>
    obtain rfl : i = c := ho
    rw [hb] at hy; simp at hy
  | skip i y hy =>
    obtain rfl : i = c := ho
    rw [hb] at hy; simp at hy

/-- Two requests that are answered (as for C97): nothing can happen any more, and the conditions of `C98_partial` hold. -/
example : ∃ s, Reachable exCfg s ∧ Spec.Quiet exCfg s 1 ∧ .stop ∉ s.srv.g.log ∧ (s.srv.g.conns 1).active = true ∧
    (Req.draws (s.clients 1).g.log).length < 2 ^ 64 ∧
    (∀ d ∈ s.results, d.c = 1 → d.up = true ∧ d.out.closesMsg = false ∧ Spec.Sendable d.out) ∧
    (∀ x ∈ s.sent 1, x.bytes.length ≤ exCfg.srv.bufferSize.toNat) ∧ (∀ y ∈ s.back 1, y.2.length ≤ exCfg.clientBuf) ∧
    (s.sent 1).map (fun x => x.req.map (·.r)) = [some 0, some 1] := by
  have hrun : ∃ s, play exCfg {} exTwo = some s ∧ (Req.draws (s.clients 1).g.log).length = 2 ∧
      (s.srv.g.conns 1).active = true ∧ s.taken 1 = (s.sent 1).length ∧ s.seen 1 = (s.back 1).length ∧
      s.srv.threads = [.reading 1] ∧ (s.clients 1).threads = [] ∧
      (s.sent 1).map (·.bytes.length) = [12, 12] ∧ (s.back 1).map (·.2.length) = [10, 12] ∧
      s.results.map (fun d => (d.up, d.out)) = [(true, .hook { payload := [8] }), (true, .hook { err := .request [99] [7] })] ∧
      (s.sent 1).map (fun x => x.req.map (·.r)) = [some 0, some 1] ∧ s.srv.g.log.contains .stop = false :=
    ⟨_, rfl, rfl, rfl, rfl, rfl, rfl, rfl, rfl, rfl, rfl, rfl, rfl⟩
  obtain ⟨s, hp, h1, h2, h3, h4, h5, h6, h7, h8, h9, h10, h11⟩ := hrun
  refine ⟨s, play_reachable _ .start hp, quiet_of h6 h4 h5 (.inl ⟨rfl, h3⟩), by simpa using h11, h2, by omega, ?_, ?_, ?_, h10⟩
  · intro d hd _
    have := List.mem_map_of_mem (f := fun d : Done => (d.up, d.out)) hd
    rw [h9] at this
    simp only [List.mem_cons, Prod.mk.injEq, List.not_mem_nil, or_false] at this
    rcases this with ⟨h1, h2⟩ | ⟨h1, h2⟩ <;> rw [h1, h2]
    · exact ⟨rfl, rfl, _, .success rfl (by simp)⟩
    · exact ⟨rfl, rfl, _, .error _ _ rfl (by simp [SendableCode, Printable])⟩
  · intro x hx
    have := List.mem_map_of_mem (f := fun x : Sent => x.bytes.length) hx
    rw [h7] at this
    have hb : exCfg.srv.bufferSize.toNat = 64 := rfl
    simp at this; omega
  · intro y hy
    have := List.mem_map_of_mem (f := fun y : Option Nat × Bytes => y.2.length) hy
    rw [h8] at this
    have hb : exCfg.clientBuf = 64 := rfl
    simp at this; omega

/-- A client creates three requests and sends them; the server is shut down. Two requests are refused, but their handler slots
are not released, and the reader waits for ever to handle the third one. -/
def exStuck : List Cmd :=
  [.sv (.connect 1 2), .cl 1 .create, .cl 1 (.go 0), .cl 1 .create, .cl 1 (.go 0), .cl 1 .create, .cl 1 (.go 0),
    .send 1 0 [97] 0 [1], .send 1 1 [98] 0 [2], .send 1 2 [99] 0 [3], .sv .shutdown] ++ exGo 0 2 ++
    [.recv 0] ++ exGo 0 3 ++ [.refuse 0, .recv 0] ++ exGo 0 3 ++ [.refuse 0, .recv 0] ++ exGo 0 1 ++
    [.read 1] ++ exCl 3 ++ [.read 1] ++ exCl 3

/-- **C98 is violated** during a shutdown: the third request on a connection with two handler slots is neither answered nor
refused, though nothing is going on any more (cf. C29). -/
theorem C98_violated : ¬ C98_full := by
  intro hfull
  have hrun : ∃ s, play exCfg {} exStuck = some s ∧ (Req.draws (s.clients 1).g.log).length = 3 ∧
      (s.srv.g.conns 1).active = true ∧ s.seen 1 = (s.back 1).length ∧ s.srv.threads = [.acquiring 1 ⟨.request, 2⟩] ∧
      (s.clients 1).threads = [] ∧ (s.srv.g.conns 1).limit = 2 ∧ (s.srv.g.conns 1).slots = 2 ∧
      (s.sent 1).map (·.bytes.length) = [12, 12, 12] ∧ (s.back 1).map (·.2.length) = [9, 9] ∧ s.results.length = 0 ∧
      (s.sent 1)[2]?.map (fun x => x.req.map (·.r)) = some (some 2) ∧
      (s.clients 1).g.log.any (fun | .got r _ => r == 2 | .gaveUp r => r == 2 | _ => false) = false ∧
      (s.clients 1).g.reqs[2]?.map (·.chan.isSome) = some false :=
    ⟨_, rfl, rfl, rfl, rfl, rfl, rfl, rfl, rfl, rfl, rfl, rfl, rfl, rfl, rfl⟩
  obtain ⟨s, hp, h1, h2, h3, h4, h5, h6, h7, h8, h9, h10, h11, h12, h13⟩ := hrun
  have hq : Spec.Quiet exCfg s 1 := by
    refine quiet_of h5 h3 h4 (.inr ⟨⟨_, rfl⟩, fun ch => ?_⟩)
    simp [Life.act, Life.actAcquiring, h6, h7]
  obtain ⟨x, hx, hk⟩ := Option.map_eq_some_iff.mp h11
  obtain ⟨k, hk, hr⟩ := Option.map_eq_some_iff.mp hk
  have := hfull exCfg s 1 rfl (play_reachable _ .start hp) hq h2 (by omega)
    (by rw [List.length_eq_zero_iff.mp h10]; simp)
    (by
      intro x hx
      have := List.mem_map_of_mem (f := fun x : Sent => x.bytes.length) hx
      rw [h8] at this
      have hb : exCfg.srv.bufferSize.toNat = 64 := rfl
      simp at this; omega)
    (by
      intro y hy
      have := List.mem_map_of_mem (f := fun y : Option Nat × Bytes => y.2.length) hy
      rw [h9] at this
      have hb : exCfg.clientBuf = 64 := rfl
      simp at this; omega)
    x (List.mem_of_getElem? hx) k hk
  rw [hr] at this
  rw [List.any_eq_false] at h12
  rcases this with ⟨rep, hg | ⟨q, hq1, hc1⟩⟩ | hg
  · exact h12 _ hg (by simp)
  · rw [hq1] at h13
    simp [hc1] at h13
  · exact h12 _ hg (by simp)

end Webwire.Whole
