import Mathlib.Data.Finset.Card
import Mathlib.Data.Finset.Range
import Verif.Props.Whole5

/-!
# C98, C107: clients with few requests

A client that sends no more requests on a connection than its limit allows to be handled at the same time need not care about
shutdowns: all of them are answered.
-/

set_option autoImplicit false

namespace Webwire.Whole
open _root_.Webwire.Spec

variable {cfg : Cfg} {s s' : State}

/-- The requests the client has sent on the connection. -/
def Spec.requests (s : State) (c : ConnId) : Nat := (s.sent c).countP fun x => x.req.isSome

/-- Which of the messages are requests. -/
def reqIndices (l : List Sent) : Finset Nat := (Finset.range l.length).filter fun n => (l[n]?.any fun x => x.req.isSome) = true

theorem card_reqIndices (l : List Sent) : (reqIndices l).card = l.countP fun x => x.req.isSome := by
  induction l using List.reverseRecOn with
  | nil => rfl
  | append_singleton l a ih =>
    have hlt : ∀ n ∈ Finset.range l.length,
        (((l ++ [a])[n]?.any fun x => x.req.isSome) = true ↔ (l[n]?.any fun x => x.req.isSome) = true) := by
      intro n hn
      rw [List.getElem?_append_left (Finset.mem_range.mp hn)]
    unfold reqIndices at ih ⊢
    rw [List.length_append, List.length_singleton, Finset.range_add_one, Finset.filter_insert, List.countP_append, ← ih,
      Finset.filter_congr hlt]
    cases h : a.req.isSome <;> simp [h]

/-- The messages refused. -/
def refusedIds (s : State) (c : ConnId) : List Nat :=
  s.srv.g.log.filterMap fun | .refused c' m => if c' = c then some m.id else none | _ => none

theorem refusedIds_length (s : State) (c : ConnId) : (refusedIds s c).length = s.srv.g.log.countP (Life.LEv.isRefused c) := by
  unfold refusedIds
  induction s.srv.g.log with
  | nil => rfl
  | cons e l ih =>
    rw [List.filterMap_cons, List.countP_cons]
    cases e <;> simp only [Life.LEv.isRefused] <;> try simpa using ih
    rename_i c' m
    by_cases hc : c' = c
    · simp [hc, ih]
    · simp [hc, ih]

theorem mem_refusedIds {c : ConnId} {n : Nat} : n ∈ refusedIds s c ↔ ∃ m : Life.LMsg, .refused c m ∈ s.srv.g.log ∧ m.id = n := by
  simp only [refusedIds, List.mem_filterMap]
  constructor
  · rintro ⟨e, he, h⟩
    cases e <;> simp at h
    obtain ⟨rfl, rfl⟩ := h
    exact ⟨_, he, rfl⟩
  · rintro ⟨m, hm, rfl⟩
    exact ⟨_, hm, by simp⟩

theorem Reachable.refusedArrived (h : Reachable cfg s) {c : ConnId} {m : Life.LMsg} (hm : .refused c m ∈ s.srv.g.log) :
    m.requiresReply = true ∧ .arrived c m ∈ s.srv.g.log := by
  have hr := (Life.C28_only_requests_refused s.srv h.srv c m hm).1
  have h1 := (Life.C22_interleaved s.srv h.srv c m hr).1
  have h2 := List.count_pos_iff.mpr hm
  exact ⟨hr, List.count_pos_iff.mp (by omega)⟩

/-- A message is refused once at most. -/
theorem Reachable.refusedIds_nodup (h : Reachable cfg s) (c : ConnId) : (refusedIds s c).Nodup := by
  have key : ∀ log : List Life.LEv, (∀ e ∈ log, e ∈ s.srv.g.log) → (∀ m, log.count (.refused c m) ≤ 1) →
      (log.filterMap fun | .refused c' m => if c' = c then some m.id else none | _ => none).Nodup := by
    intro log
    induction log with
    | nil => intro _ _; exact List.nodup_nil
    | cons e l ih =>
      intro hsub hone
      have hl := ih (fun e he => hsub e (List.mem_cons_of_mem _ he)) fun m => by
        have := hone m
        rw [List.count_cons] at this
        omega
      rw [List.filterMap_cons]
      cases e <;> try exact hl
      rename_i c' m
      by_cases hc : c' = c
      · subst hc
        simp only [if_true]
        refine List.nodup_cons.mpr ⟨fun hx => ?_, hl⟩
        obtain ⟨e, he, hx⟩ := List.mem_filterMap.mp hx
        cases e <;> simp at hx
        rename_i c'' m'
        obtain ⟨rfl, hid⟩ := hx
        have a1 := (h.arrInv.iff _ _).mp (h.refusedArrived (hsub _ (List.mem_cons_self ..))).2
        have a2 := (h.arrInv.iff _ _).mp (h.refusedArrived (hsub _ (List.mem_cons_of_mem _ he))).2
        obtain ⟨-, x, hx1, hx2⟩ := a1
        obtain ⟨-, y, hy1, hy2⟩ := a2
        rw [hid, hx1] at hy1
        cases hy1
        rw [hid, hx2] at hy2
        cases hy2
        have := hone m
        rw [List.count_cons_self] at this
        have := List.count_pos_iff.mpr he
        omega
      · simpa [hc] using hl
  refine key _ (fun e he => he) fun m => ?_
  by_cases hm : .refused c m ∈ s.srv.g.log
  · have hr := (h.refusedArrived hm).1
    have h1 := (Life.C22_interleaved s.srv h.srv c m hr).1
    have h2 := h.arrInv.once c m
    omega
  · rw [List.count_eq_zero.mpr hm]; omega

theorem Reachable.refused_sub (h : Reachable cfg s) (c : ConnId) : (refusedIds s c).toFinset ⊆ reqIndices (s.sent c) := by
  intro n hn
  obtain ⟨m, hm, rfl⟩ := mem_refusedIds.mp (List.mem_toFinset.mp hn)
  obtain ⟨hr, ha⟩ := h.refusedArrived hm
  obtain ⟨x, k, q, m', hx, hk, _⟩ := h.asked ha hr
  simp only [reqIndices, Finset.mem_filter, Finset.mem_range]
  exact ⟨(List.getElem?_eq_some_iff.mp hx).1, by simp [hx, hk]⟩

/-- C98: no more requests are refused than were sent. -/
theorem C98_refused_le (h : Reachable cfg s) (c : ConnId) : s.srv.g.log.countP (Life.LEv.isRefused c) ≤ Spec.requests s c := by
  rw [← refusedIds_length, ← List.toFinset_card_of_nodup (h.refusedIds_nodup c), Spec.requests, ← card_reqIndices]
  exact Finset.card_le_card (h.refused_sub c)

/-- C98, what holds, for clients that send no more requests on a connection than it has handler slots: every request has an answer or was
given up by its caller once everything has happened that can be relied on to happen, shutdown or not, unless the server has crashed.
`C98_violated` is about one request more. Missing: more requests, for which it is false, and crashed servers. -/
theorem C98_few_requests_partial (hs : ideal cfg.srv) (h : Reachable cfg s) (c : ConnId) (hq : Spec.Quiet cfg s c)
    (hc : s.srv.g.crashed = none) (ha : (s.srv.g.conns c).active = true)
    (hfew : 1 < (s.srv.g.conns c).limit → (Spec.requests s c : Int) ≤ (s.srv.g.conns c).limit)
    (hn : (Req.draws (s.clients c).g.log).length < 2 ^ 64)
    (hout : ∀ d ∈ s.results, d.c = c → d.up = true ∧ d.out.closesMsg = false ∧ Spec.Sendable d.out)
    (hreq : ∀ x ∈ s.sent c, x.bytes.length ≤ cfg.srv.bufferSize.toNat)
    (hrep : ∀ y ∈ s.back c, y.2.length ≤ cfg.clientBuf) (x : Sent) (hx : x ∈ s.sent c) (k : Call) (hk : x.req = some k) :
    (∃ rep, Spec.Has (s.clients c) k.r rep) ∨ .gaveUp k.r ∈ (s.clients c).g.log := by
  rcases (C98_all_but_one_partial hs h c hq hc ha hn hout hreq hrep).2 with ⟨-, hall⟩ | ⟨hl, hfull⟩
  · exact hall x hx k hk
  · have hcl : ∀ d ∈ s.results, d.c = c → d.out.closesMsg = false := fun d hd hc => (hout d hd hc).2.1
    obtain ⟨n, hxn⟩ := List.getElem?_of_mem hx
    have heq : (refusedIds s c).toFinset = reqIndices (s.sent c) := by
      refine Finset.eq_of_subset_of_card_le (h.refused_sub c) ?_
      rw [List.toFinset_card_of_nodup (h.refusedIds_nodup c), refusedIds_length, card_reqIndices]
      have := hfew hl
      unfold Spec.requests at this
      omega
    have hmem : n ∈ reqIndices (s.sent c) := by
      simp only [reqIndices, Finset.mem_filter, Finset.mem_range]
      exact ⟨(List.getElem?_eq_some_iff.mp hxn).1, by simp [hxn, hk]⟩
    rw [← heq, List.mem_toFinset, mem_refusedIds] at hmem
    obtain ⟨m, hm, rfl⟩ := hmem
    obtain ⟨hr, harr⟩ := h.refusedArrived hm
    refine C97_answered hs h c hn ha (Quiet.seen h hq) (fun pc hp => ?_) hout hreq hrep m.id x hxn ((h.arrInv.iff c m).mp harr).1
      (fun pc hp kd => ?_) k hk
    · obtain ⟨r, q, rfl, _⟩ := Quiet.client hs h hq hcl hn hp
      rfl
    · cases ho : pc.isOn c with
      | true =>
        rcases Quiet.server' hs h hq hc hp ho with rfl | ⟨m', rfl, -⟩
        · rfl
        · have h1 := (Life.C22_interleaved s.srv h.srv c m hr).1
          have h2 := h.arrInv.once c m
          have h3 := List.count_pos_iff.mpr hm
          have h4 : s.srv.threads.countP (Life.Spec.WorksOn c m) = 0 := by omega
          by_contra hw
          obtain rfl : m' = ⟨kd, m.id⟩ := by simpa [Life.Spec.WorksOn] using hw
          have harr' : .arrived c ⟨kd, m.id⟩ ∈ s.srv.g.log :=
            (Life.ReachableIf.accInv h.srv).arrived _ hp c _ (by simp [Life.PC.pends])
          obtain ⟨-, y, hy1, hy2⟩ := (h.arrInv.iff _ _).mp harr'
          obtain ⟨-, z, hz1, hz2⟩ := (h.arrInv.iff _ _).mp harr
          simp only at hy1 hy2
          rw [hy1] at hz1
          cases hz1
          rw [hy2] at hz2
          rw [List.countP_eq_zero] at h4
          exact h4 _ hp (by rw [Option.some.inj hz2]; simp [Life.Spec.WorksOn])
      | false => cases pc <;> simp_all [Life.Spec.WorksOn, Life.PC.isOn]

/-- C98, what holds, about a connection nobody breaks or closes: a client that sends no more requests than it has handler slots has all
of them answered in the end, shutdown or not. Missing: as for `C98_few_requests_partial`. -/
theorem C98_unbroken_few_partial {c : ConnId} (hs : ideal cfg.srv) (h : Spec.Unbroken cfg c s) (hp : Spec.Polite cfg s c)
    (hq : Spec.Quiet cfg s c) (hu : (s.srv.g.conns c).used = true) (hc : s.srv.g.crashed = none)
    (hfew : 1 < (s.srv.g.conns c).limit → (Spec.requests s c : Int) ≤ (s.srv.g.conns c).limit)
    (hn : (Req.draws (s.clients c).g.log).length < 2 ^ 64)
    (hout : ∀ d ∈ s.results, d.c = c → d.up = true ∧ d.out.closesMsg = false ∧ Spec.Sendable d.out)
    (hrep : ∀ y ∈ s.back c, y.2.length ≤ cfg.clientBuf) (x : Sent) (hx : x ∈ s.sent c) (k : Call) (hk : x.req = some k) :
    (∃ rep, Spec.Has (s.clients c) k.r rep) ∨ .gaveUp k.r ∈ (s.clients c).g.log :=
  C98_few_requests_partial hs (Unbroken.reachable h) c hq hc ((C98_stays_open h hp).1 hu).1 hfew hn hout (fun x hx => (hp x hx).1) hrep
    x hx k hk

/-- C107, for clients that send fewer requests on a connection than it has handler slots: every signal that fits the buffers of the
server is given to `OnSignal` once, shutdown or not, unless the server has crashed. With as many requests as slots this is false, see
`exFew`. -/
theorem C107_few_requests (hs : ideal cfg.srv) (h : Reachable cfg s) (c : ConnId) (hq : Spec.Quiet cfg s c)
    (hc : s.srv.g.crashed = none) (ha : (s.srv.g.conns c).active = true)
    (hfew : 1 < (s.srv.g.conns c).limit → (Spec.requests s c : Int) < (s.srv.g.conns c).limit) (n : Nat) (x : Sent) (v : View)
    (hx : (s.sent c)[n]? = some x) (hsig : Spec.Signal x.bytes v) (hl : x.bytes.length ≤ cfg.srv.bufferSize.toNat) :
    Spec.HandledOnce s c n :=
  C107_shutdown_handled hs h c hq hc (fun hlim => by have := hfew hlim; have := C98_refused_le h c; omega) ha n x v hx hsig hl

/-! Examples. -/

/-- A client sends two requests and a signal; the server is shut down. Both requests are refused, and the reader waits for ever to
handle the signal. -/
def exFew : List Cmd :=
  [.sv (.connect 1 2), .cl 1 .create, .cl 1 (.go 0), .cl 1 .create, .cl 1 (.go 0),
    .send 1 0 [97] 0 [1], .send 1 1 [98] 0 [2], .other 1 [63, 1, 97], .sv .shutdown] ++ exGo 0 2 ++
    [.recv 0] ++ exGo 0 3 ++ [.refuse 0, .recv 0] ++ exGo 0 3 ++ [.refuse 0, .recv 0] ++ exGo 0 1 ++
    [.read 1] ++ exCl 3 ++ [.read 1] ++ exCl 3

/-- The conditions of `C98_few_requests_partial` hold, though those of `C98_shutdown_partial` do not. -/
example : ∃ s, Reachable exCfg s ∧ Spec.Quiet exCfg s 1 ∧ s.srv.g.crashed = none ∧ (s.srv.g.conns 1).active = true ∧
    (s.srv.g.conns 1).limit = 2 ∧ Spec.requests s 1 = 2 ∧ s.srv.g.log.countP (Life.LEv.isRefused 1) = 2 ∧
    (Req.draws (s.clients 1).g.log).length < 2 ^ 64 ∧ s.results = [] ∧
    (∀ x ∈ s.sent 1, x.bytes.length ≤ exCfg.srv.bufferSize.toNat) ∧ (∀ y ∈ s.back 1, y.2.length ≤ exCfg.clientBuf) := by
  have hrun : ∃ s, play exCfg {} exFew = some s ∧ (Req.draws (s.clients 1).g.log).length = 2 ∧
      (s.srv.g.conns 1).active = true ∧ s.seen 1 = (s.back 1).length ∧ s.srv.threads = [.acquiring 1 ⟨.signal, 2⟩] ∧
      (s.clients 1).threads = [] ∧ (s.srv.g.conns 1).limit = 2 ∧ (s.srv.g.conns 1).slots = 2 ∧
      (s.sent 1).map (·.bytes.length) = [12, 12, 3] ∧ (s.back 1).map (·.2.length) = [9, 9] ∧ s.results.length = 0 ∧
      s.srv.g.crashed = none ∧ s.srv.g.log.countP (Life.LEv.isRefused 1) = 2 ∧ Spec.requests s 1 = 2 :=
    ⟨_, rfl, rfl, rfl, rfl, rfl, rfl, rfl, rfl, rfl, rfl, rfl, rfl, rfl, rfl⟩
  obtain ⟨s, hp, h1, h2, h3, h4, h5, h6, h7, h8, h9, h10, h11, h12, h13⟩ := hrun
  refine ⟨s, play_reachable _ .start hp, ?_, h11, h2, h6, h13, h12, by omega, List.length_eq_zero_iff.mp h10, ?_, ?_⟩
  · refine quiet_of h5 h3 h4 (.inr ⟨⟨_, rfl⟩, fun ch => ?_⟩)
    simp [Life.act, Life.actAcquiring, h6, h7]
  · intro x hx
    have := List.mem_map_of_mem (f := fun x : Sent => x.bytes.length) hx
    rw [h8] at this
    have hb : exCfg.srv.bufferSize.toNat = 64 := rfl
    simp at this; omega
  · intro y hy
    have := List.mem_map_of_mem (f := fun y : Option Nat × Bytes => y.2.length) hy
    rw [h9] at this
    have hb : exCfg.clientBuf = 64 := rfl
    simp at this; omega

/-- Two requests that are refused, on a connection that nobody breaks: the conditions of `C98_unbroken_few_partial` hold. -/
example : ∃ s, Spec.Unbroken exCfg 1 s ∧ Spec.Polite exCfg s 1 ∧ Spec.Quiet exCfg s 1 ∧ (s.srv.g.conns 1).used = true ∧
    s.srv.g.crashed = none ∧ (s.srv.g.conns 1).limit = 2 ∧ Spec.requests s 1 = 2 ∧ .stop ∈ s.srv.g.log ∧ s.results = [] ∧
    (∀ y ∈ s.back 1, y.2.length ≤ exCfg.clientBuf) := by
  have hrun : ∃ s, playUnbroken exCfg 1 {} ([.sv (.connect 1 2), .cl 1 .create, .cl 1 (.go 0), .cl 1 .create, .cl 1 (.go 0),
        .send 1 0 [97] 0 [1], .send 1 1 [98] 0 [2], .sv .shutdown] ++ exGo 0 2 ++ [.recv 0] ++ exGo 0 3 ++ [.refuse 0, .recv 0] ++
        exGo 0 3 ++ [.refuse 0, .read 1] ++ exCl 3 ++ [.read 1] ++ exCl 3) = some s ∧ (s.srv.g.conns 1).used = true ∧
      s.taken 1 = (s.sent 1).length ∧ s.seen 1 = (s.back 1).length ∧ s.srv.threads = [.reading 1] ∧ (s.clients 1).threads = [] ∧
      (s.sent 1).map (·.bytes.length) = [12, 12] ∧ (s.sent 1).map (fun x => x.req.map (·.r)) = [some 0, some 1] ∧
      s.results.length = 0 ∧ s.srv.g.crashed = none ∧ (s.srv.g.conns 1).limit = 2 ∧ Spec.requests s 1 = 2 ∧
      s.srv.g.log.contains .stop = true ∧ (s.back 1).map (·.2.length) = [9, 9] :=
    ⟨_, rfl, rfl, rfl, rfl, rfl, rfl, rfl, rfl, rfl, rfl, rfl, rfl, rfl, rfl⟩
  obtain ⟨s, hp, h1, h2, h3, h4, h5, h6, h7, h8, h9, h10, h11, h12, h13⟩ := hrun
  refine ⟨s, playUnbroken_ok _ .start hp, fun x hx => ⟨?_, fun hn => ?_⟩, quiet_of h5 h3 h4 (.inl ⟨rfl, h2⟩), h1, h9, h10, h11,
    by simpa using h12, List.length_eq_zero_iff.mp h8, fun y hy => ?_⟩
  · have := List.mem_map_of_mem (f := fun x : Sent => x.bytes.length) hx
    rw [h6] at this
    have hb : exCfg.srv.bufferSize.toNat = 64 := rfl
    simp at this; omega
  · have := List.mem_map_of_mem (f := fun x : Sent => x.req.map (·.r)) hx
    rw [h7, hn] at this
    simp at this
  · have := List.mem_map_of_mem (f := fun y : Option Nat × Bytes => y.2.length) hy
    rw [h13] at this
    have hb : exCfg.clientBuf = 64 := rfl
    simp at this; omega

/-- A request that is refused and a signal that is handled: the conditions of `C107_few_requests` hold. -/
example : ∃ s, Reachable exCfg s ∧ Spec.Quiet exCfg s 1 ∧ s.srv.g.crashed = none ∧ (s.srv.g.conns 1).active = true ∧
    (s.srv.g.conns 1).limit = 2 ∧ Spec.requests s 1 = 1 ∧ s.srv.g.log.countP (Life.LEv.isRefused 1) = 1 ∧
    ∃ x, (s.sent 1)[1]? = some x ∧ Spec.Signal x.bytes { msgType := 63, name := [97], payload := [] } ∧
      x.bytes.length ≤ exCfg.srv.bufferSize.toNat := by
  have hrun : ∃ s, play exCfg {} ([.sv (.connect 1 2), .cl 1 .create, .cl 1 (.go 0), .send 1 0 [97] 0 [1], .other 1 [63, 1, 97],
        .sv .shutdown] ++ exGo 0 2 ++ [.recv 0] ++ exGo 0 3 ++ [.refuse 0, .read 1] ++ exCl 3 ++ [.recv 0] ++ exGo 0 10) = some s ∧
      (s.srv.g.conns 1).active = true ∧ s.taken 1 = (s.sent 1).length ∧ s.seen 1 = (s.back 1).length ∧
      s.srv.threads = [.reading 1] ∧ (s.clients 1).threads = [] ∧ s.srv.g.crashed = none ∧ (s.srv.g.conns 1).limit = 2 ∧
      s.srv.g.log.countP (Life.LEv.isRefused 1) = 1 ∧ Spec.requests s 1 = 1 ∧
      (s.sent 1)[1]?.map (·.bytes) = some [63, 1, 97] :=
    ⟨_, rfl, rfl, rfl, rfl, rfl, rfl, rfl, rfl, rfl, rfl, rfl⟩
  obtain ⟨s, hp, h1, h2, h3, h4, h5, h6, h7, h8, h9, h10⟩ := hrun
  obtain ⟨x, hx, hb⟩ := Option.map_eq_some_iff.mp h10
  refine ⟨s, play_reachable _ .start hp, quiet_of h5 h3 h4 (.inl ⟨rfl, h2⟩), h6, h1, h7, h9, h8, x, hx, ?_, ?_⟩
  · rw [hb]
    exact ⟨Grammar.signal 63 1 [97] [] (by simp) rfl (by simp), by simp⟩
  · rw [hb]
    have : exCfg.srv.bufferSize.toNat = 64 := rfl
    simp [this]

/-- In `exFew` there are as many requests as slots, and the signal is not handled. -/
example : ∃ s, Reachable exCfg s ∧ Spec.requests s 1 = 2 ∧ (s.srv.g.conns 1).limit = 2 ∧ ¬ Spec.HandledOnce s 1 2 := by
  have hrun : ∃ s, play exCfg {} exFew = some s ∧ Spec.requests s 1 = 2 ∧ (s.srv.g.conns 1).limit = 2 ∧
      s.srv.g.log.count (.start 1 ⟨.signal, 2⟩) = 0 := ⟨_, rfl, rfl, rfl, by decide⟩
  obtain ⟨s, hp, h1, h2, h3⟩ := hrun
  exact ⟨s, play_reachable _ .start hp, h1, h2, fun hh => by simp [Spec.HandledOnce, h3] at hh⟩

end Webwire.Whole
