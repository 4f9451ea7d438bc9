import Verif.Proofs.WholeExec
import Verif.Props.Lifecycle

/-!
# C97: concurrent requests, end to end

Clients and the server together, under all schedules: any number of connections, of requests in flight on each, and
of goroutines on either side. Replies may overtake each other.
-/

set_option autoImplicit false

namespace Webwire.Whole
open _root_.Webwire.Spec

variable {cfg : Cfg} {s : State}

namespace Spec

/-- The client has the answer `rep` to its request `r`: `AwaitReply` returned it, or it is in the request's channel, from
which the next `AwaitReply` takes it. -/
def Has (cl : Req.State Rep) (r : Nat) (rep : Rep) : Prop :=
  .got r rep ∈ cl.g.log ∨ ∃ q : Req.Request Rep, cl.g.reqs[r]? = some q ∧ q.chan = some rep

/-- `rep` is a right answer to the `n`-th message of the client, the request `k`: it tells what `OnRequest` returned for a
message with the identifier, name, payload and encoding of this request; or, for a session request, what became of restoring
the session with the key, or of closing the session; or that the server is being shut down, if so. -/
def RightAnswer (cfg : Cfg) (s : State) (c : ConnId) (n : Nat) (k : Call) (rep : Rep) : Prop :=
  (∃ (d : Done) (q : Req.Request Rep), d ∈ s.results ∧ d.c = c ∧ d.n = n ∧ (s.clients c).g.reqs[k.r]? = some q ∧
    AsksFor d.msg q.ident k.ask ∧ Possible cfg.srv.sessionsEnabled k.ask d.out ∧ Means d.out rep) ∨
  (rep = .error .shutdown ∧ (∃ kind, .refused c ⟨kind, n⟩ ∈ s.srv.g.log) ∧ .stop ∈ s.srv.g.log)

/-- Nothing is under way on the connection: all messages were read on either side, and no goroutine works on one. -/
structure Settled (s : State) (c : ConnId) : Prop where
  taken : s.taken c = (s.sent c).length
  seen : s.seen c = (s.back c).length
  server : ∀ pc ∈ s.srv.threads, ∀ m, Life.Spec.WorksOn c m pc = false
  client : ∀ pc ∈ (s.clients c).threads, pc.resolves = false

end Spec

/-- C97: whatever a client has as the answer to one of its requests is a right answer to a message by which the client sent
this request, and which no other request shares. -/
theorem C97_own_answer (hs : ideal cfg.srv) (h : Reachable cfg s) (c : ConnId)
    (hcl : ∀ d ∈ s.results, d.c = c → d.out.closesMsg = false)
    (hn : (Req.draws (s.clients c).g.log).length < 2 ^ 64) (r : Nat) (rep : Rep) (hg : Spec.Has (s.clients c) r rep) :
    ∃ (n : Nat) (x : Sent) (k : Call), (s.sent c)[n]? = some x ∧ x.req = some k ∧ k.r = r ∧ Spec.RightAnswer cfg s c n k rep ∧
      ∀ (n' : Nat) (x' : Sent) (k' : Call), (s.sent c)[n']? = some x' → x'.req = some k' → k'.r = r → n' = n := by
  have hcalled : ∃ (q : Req.Request Rep) (call : Nat), (s.clients c).g.reqs[r]? = some q ∧ .called call q.ident rep ∈ (s.clients c).g.log := by
    rcases hg with hg | ⟨q, hq, hc⟩
    · obtain ⟨q, call, hq, _, hc⟩ := (h.client c).inv.got r rep hg
      exact ⟨q, call, hq, hc⟩
    · obtain ⟨call, _, h2⟩ := (h.client c).inv.chan r q rep hq hc
      exact ⟨q, call, hq, h2⟩
  obtain ⟨q, call, hq, hc⟩ := hcalled
  obtain ⟨j, y, _, hy, ht⟩ := h.read.mp ⟨call, hc⟩
  obtain ⟨n, x, k, q', _, hx, hxr, hq', hid, hor⟩ := h.origin hs hcl (List.mem_of_getElem? hy) ht
  have hr : k.r = r := (h.client c).idInv.distinct hn _ _ _ _ hq' hq hid
  refine ⟨n, x, k, hx, hxr, hr, ?_, ?_⟩
  · rcases hor with ⟨d, hd, h1, h2, h3, h4⟩ | ⟨h1, h2⟩
    · exact .inl ⟨d, q', hd, h1, h2, hq', h3, h4⟩
    · exact .inr ⟨h1, ⟨_, h2⟩, (Life.C28_only_requests_refused s.srv h.srv c _ h2).2⟩
  · intro n' x' k' hx' hxr' hr'
    exact h.sentInv.once c n' n x' x k' k hx' hx hxr' hxr (hr'.trans hr.symm)

/-- C97: the handler is started at most once for each request, and not for those refused; at most one reply is sent for it. -/
theorem C97_handled_once (hs : ideal cfg.srv) (h : Reachable cfg s) (c : ConnId) (lm : Life.LMsg) (hr : lm.requiresReply = true) :
    s.srv.g.log.count (.start c lm) + s.srv.g.log.count (.refused c lm) ≤ 1 ∧
    s.results.countP (fun d => decide (d.c = c ∧ d.n = lm.id ∧ d.out.kind = lm.kind)) ≤ s.srv.g.log.count (.start c lm) ∧
    s.results.countP (fun d => decide (d.c = c ∧ d.n = lm.id)) ≤ 1 ∧
    (s.back c).countP (fun y => decide (y.1 = some lm.id)) ≤ 1 := by
  have h1 := (Life.C20_interleaved s.srv h.srv c lm).1 (by rcases kind_of_reply hr with e | e <;> rw [e] <;> simp)
  have h2 := (h.counts c lm hr).2
  have h3 := (h.backInv hs).fin c lm hr
  have h4 := (Life.ReachableIf.inv h.srv).runsMsg c lm
  refine ⟨by omega, by omega, ?_, h.oneReply hs c lm.id⟩
  have h5 := h.ends c lm.id
  unfold State.ends at h5
  rw [← (h.backInv hs).fin c ⟨.request, lm.id⟩ rfl, ← (h.backInv hs).fin c ⟨.session, lm.id⟩ rfl] at h5
  refine Nat.le_trans (Nat.le_trans ?_ (Nat.le_add_right _ _)) h5
  clear h1 h2 h3 h4 h5
  induction s.results with
  | nil => simp
  | cons d l ih =>
    simp only [List.countP_cons]
    by_cases he : d.c = c ∧ d.n = lm.id
    · cases d.out.kind_cases with
      | inl hk => simp [he, hk] at ih ⊢; omega
      | inr hk => simp [he, hk] at ih ⊢; omega
    · simp [he] at ih ⊢
      rw [if_neg (fun h => he ⟨h.1, h.2.1⟩), if_neg (fun h => he ⟨h.1, h.2.1⟩)]
      omega

/-- C97: at most one answer is delivered to each request, and `AwaitReply` returns at most one. -/
theorem C97_answered_once (hs : ideal cfg.srv) (h : Reachable cfg s) (c : ConnId)
    (hcl : ∀ d ∈ s.results, d.c = c → d.out.closesMsg = false)
    (hn : (Req.draws (s.clients c).g.log).length < 2 ^ 64) (r : Nat) :
    Req.deliveries r (s.clients c).g.log ≤ 1 ∧ Req.gets r (s.clients c).g.log ≤ 1 := by
  have h1 := Req.C50_once_partial (h.fresh hs hcl hn).oneAtATime r
  have h2 := Req.C69_none_lost (h.client c) r
  omega

/-- C97: the client is never held up when it tells its request manager about a reply. -/
theorem C97_never_blocks (hs : ideal cfg.srv) (h : Reachable cfg s) (c : ConnId)
    (hcl : ∀ d ∈ s.results, d.c = c → d.out.closesMsg = false)
    (hn : (Req.draws (s.clients c).g.log).length < 2 ^ 64) (pc : Req.PC Rep) (hpc : pc ∈ (s.clients c).threads)
    (hr : pc.resolves = true) (b : Bool) : ∃ g' pcs, Req.act (s.clients c).g b pc = some (g', pcs) :=
  Req.C50_returns_partial (h.fresh hs hcl hn).oneAtATime pc hpc hr b

/-- C97: on a connection that is still open, every request that the server has read, and no goroutine of the server works on any
more, has an answer or was given up by its caller once the client has read everything; provided messages fit the buffers, the
results of the handlers could be sent, and handlers do not close their messages. -/
theorem C97_answered (hs : ideal cfg.srv) (h : Reachable cfg s) (c : ConnId)
    (hn : (Req.draws (s.clients c).g.log).length < 2 ^ 64) (ha : (s.srv.g.conns c).active = true)
    (hseen : s.seen c = (s.back c).length) (hclient : ∀ pc ∈ (s.clients c).threads, pc.resolves = false)
    (hout : ∀ d ∈ s.results, d.c = c → d.up = true ∧ d.out.closesMsg = false ∧ Spec.Sendable d.out)
    (hreq : ∀ x ∈ s.sent c, x.bytes.length ≤ cfg.srv.bufferSize.toNat)
    (hrep : ∀ y ∈ s.back c, y.2.length ≤ cfg.clientBuf) (n : Nat) (x : Sent) (hxn : (s.sent c)[n]? = some x) (ht : n < s.taken c)
    (hw : ∀ pc ∈ s.srv.threads, ∀ kd, Life.Spec.WorksOn c ⟨kd, n⟩ pc = false) (k : Call) (hk : x.req = some k) :
    (∃ rep, Spec.Has (s.clients c) k.r rep) ∨ .gaveUp k.r ∈ (s.clients c).g.log := by
  have hcl : ∀ d ∈ s.results, d.c = c → d.out.closesMsg = false := fun d hd hc => (hout d hd hc).2.1
  have hx := List.mem_of_getElem? hxn
  obtain ⟨q, hq, hgr⟩ := h.sentInv.req c n x k hxn hk
  obtain ⟨m, hm, hv, -, -, -⟩ := readMsg_grammar hgr (hreq x hx)
  have hrr := k.ask.kind_reply n
  have hin : incoming cfg n x.bytes = some ⟨k.ask.kind, n⟩ := by
    simp only [incoming, hm, Option.map_some, Option.some.injEq, Life.LMsg.mk.injEq, and_true]
    exact (congrArg kindOf (congrArg View.msgType hv : m.msgType = _)).trans (k.ask.kindOf _)
  have harr : .arrived c ⟨k.ask.kind, n⟩ ∈ s.srv.g.log := by
    refine (h.arrInv.iff c ⟨k.ask.kind, n⟩).mpr ⟨?_, x, hxn, hin⟩
    exact ht
  obtain ⟨x', k', q', m', hx', hk', hq', hm', hid, hreply, _⟩ := h.asked harr hrr
  simp only at hx'
  rw [hxn] at hx'
  cases hx'
  rw [hk] at hk'
  cases hk'
  rw [hq] at hq'
  cases hq'
  have hb := h.backInv hs
  have h8 := req_ident_length (h.client c) hq
  have hc22 := Life.C22_interleaved s.srv h.srv c ⟨k.ask.kind, n⟩ hrr
  have hw0 : s.srv.threads.countP (Life.Spec.WorksOn c ⟨k.ask.kind, n⟩) = 0 := by
    rw [List.countP_eq_zero]; intro pc hpc; simp [hw pc hpc]
  have hd : s.srv.g.log.count (.dropped c ⟨k.ask.kind, n⟩) = 0 := by
    refine List.count_eq_zero_of_not_mem fun hm => ?_
    rw [hc22.2 hm] at ha; cases ha
  have hpos := List.count_pos_iff.mpr harr
  -- a message that tells the answer was sent
  have htold : ∃ y ∈ s.back c, ∃ rep, tells cfg y.2 = some (q.ident, rep) := by
    rcases Nat.eq_zero_or_pos (s.srv.g.log.count (.refused c ⟨k.ask.kind, n⟩)) with h0 | h0
    · have hf : 0 < s.srv.g.log.count (.finish c ⟨k.ask.kind, n⟩) := by omega
      rw [← hb.fin c _ hrr, List.countP_pos_iff] at hf
      obtain ⟨d, hdm, hdc⟩ := hf
      simp only [decide_eq_true_eq] at hdc
      obtain ⟨hup, hclose, hans⟩ := hout d hdm hdc.1
      obtain ⟨x', bs, hx', hm'', _, hans', hbk⟩ := hb.done d hdm
      rw [hdc.1, hdc.2.1, hxn] at hx'
      cases hx'
      rw [hm'] at hm''
      cases hm''
      have hah : d.out.after d.msg = d.msg := by simp [Out.after, hclose]
      obtain ⟨wc, hwc, hvalid⟩ := call_of_sendable h8 hans
      have hbs := (answers_ok hs hans').2 wc hup (by rw [hah]; exact hreply) (by rw [hah, hid]; exact hwc) hvalid
      have hmem := hbk wc.layout (by rw [hbs]; simp)
      rw [hdc.1] at hmem
      obtain ⟨rep, hrp⟩ := (tells_out (cfg := cfg) h8 hwc hvalid).1 (hrep _ hmem)
      exact ⟨_, hmem, rep, hrp⟩
    · obtain ⟨x', m'', hx', hm'', hmem⟩ := hb.ref c ⟨k.ask.kind, n⟩ (List.count_pos_iff.mp h0)
      simp only at hx'
      rw [hxn] at hx'
      cases hx'
      rw [hm'] at hm''
      cases hm''
      rw [hid] at hmem
      refine ⟨_, hmem, _, (tells_shutdown (cfg := cfg) h8).1 ?_⟩
      have := hrep _ hmem
      simpa [h8] using this
  obtain ⟨y, hy, rep, hty⟩ := htold
  obtain ⟨j, hj⟩ := List.getElem?_of_mem hy
  obtain ⟨call, hcall⟩ := h.read.mpr ⟨j, y, by rw [hseen]; exact (List.getElem?_eq_some_iff.mp hj).1, hj, hty⟩
  have hfr := h.fresh hs hcl hn
  obtain ⟨r, q2, hq2, hid2, hor⟩ := Req.served hfr hn call _ _ hcall
  obtain rfl : r = k.r := (h.client c).idInv.distinct hn _ _ _ _ hq2 hq hid2
  rcases hor with ⟨e, he, hcl⟩ | ⟨pc, hpc, hsv⟩
  · cases e with
    | delivered c' r' =>
      obtain rfl : r' = k.r := by simpa [Req.Ev.closes] using hcl
      left
      have h1 := Req.C69_none_lost (h.client c) k.r
      have h2 : 0 < Req.deliveries k.r (s.clients c).g.log := List.countP_pos_iff.mpr ⟨_, he, by simp⟩
      rcases Nat.eq_zero_or_pos (Req.gets k.r (s.clients c).g.log) with h0 | h0
      · have h3 : 0 < Req.unread (s.clients c).g k.r := by omega
        unfold Req.unread at h3
        rw [hq] at h3
        simp only at h3
        split at h3
        · rename_i hs
          obtain ⟨rep, hrp⟩ := Option.isSome_iff_exists.mp hs
          exact ⟨rep, .inr ⟨q, hq, hrp⟩⟩
        · cases h3
      · obtain ⟨e, he, h4⟩ := List.countP_pos_iff.mp h0
        cases e with
        | got r' rep =>
          obtain rfl : r' = k.r := by simpa using h4
          exact ⟨rep, .inl he⟩
        | _ => simp at h4
    | gaveUp r' =>
      obtain rfl : r' = k.r := by simpa [Req.Ev.closes] using hcl
      exact .inr he
    | _ => simp [Req.Ev.closes] at hcl
  · have := hclient pc hpc
    cases pc <;> simp [Req.PC.serves, Req.PC.resolves] at hsv this

/-- C97: once nothing is under way any more on a connection that is still open, every request sent has an answer or was given
up by its caller, provided messages fit the buffers, the results of the handlers could be sent, and handlers do
not close their messages. -/
theorem C97_all_answered (hs : ideal cfg.srv) (h : Reachable cfg s) (c : ConnId)
    (hn : (Req.draws (s.clients c).g.log).length < 2 ^ 64) (ha : (s.srv.g.conns c).active = true) (hst : Spec.Settled s c)
    (hout : ∀ d ∈ s.results, d.c = c → d.up = true ∧ d.out.closesMsg = false ∧ Spec.Sendable d.out)
    (hreq : ∀ x ∈ s.sent c, x.bytes.length ≤ cfg.srv.bufferSize.toNat)
    (hrep : ∀ y ∈ s.back c, y.2.length ≤ cfg.clientBuf) (x : Sent) (hx : x ∈ s.sent c) (k : Call) (hk : x.req = some k) :
    (∃ rep, Spec.Has (s.clients c) k.r rep) ∨ .gaveUp k.r ∈ (s.clients c).g.log := by
  obtain ⟨n, hxn⟩ := List.getElem?_of_mem hx
  exact C97_answered hs h c hn ha hst.seen hst.client hout hreq hrep n x hxn
    (by rw [hst.taken]; exact (List.getElem?_eq_some_iff.mp hxn).1) (fun pc hp kd => hst.server pc hp _) k hk

/-! An execution: a client sends two requests. They are handled at the same time and the second is answered first. Then
the server is shut down, and a third request is refused. -/

/-- The configuration for examples. -/
def exCfg : Cfg := ⟨exServer {}, 64⟩

/-- n steps of the i-th goroutine of the server. -/
def exGo (i n : Nat) : List Cmd := List.replicate n (.sv (.go i))

/-- n steps of the latest goroutine of the client. -/
def exCl (n : Nat) : List Cmd := List.replicate n (.cl 1 (.go 0))

/-- Two requests, up to their handlers and the replies. -/
def exAsk : List Cmd :=
  [.sv (.connect 1 2), .cl 1 .create, .cl 1 (.go 0), .cl 1 .create, .cl 1 (.go 0), .send 1 0 [97] 0 [1], .send 1 1 [98] 1 [2],
    .cl 1 (.await 0), .cl 1 (.await 1), .recv 0] ++ exGo 0 6 ++ [.recv 1] ++ exGo 1 6 ++
    [.fin 1 { payload := [8] }, .fin 0 { err := .request [99] [7] }] ++ exGo 1 3 ++ exGo 0 3

/-- ... up to the client. -/
def exTwo : List Cmd := exAsk ++ [.read 1] ++ exCl 3 ++ [.read 1] ++ exCl 5

/-- ... and a third, refused. -/
def exThree : List Cmd :=
  exTwo ++ [.cl 1 .create, .cl 1 (.go 0), .sv .shutdown, .sv (.go 0), .send 1 2 [99] 0 [], .recv 1] ++ exGo 1 3 ++ [.refuse 1] ++
    [.read 1] ++ exCl 3

/-- What the callers of `AwaitReply` saw, in order. -/
def exGot (log : List (Req.Ev Rep)) : List (Nat × Outcome) :=
  log.filterMap fun | .got r rep => some (r, outcomeOf rep) | _ => none

theorem exGot_has {cl : Req.State Rep} {r : Nat} {o : Outcome} (h : (r, o) ∈ exGot cl.g.log) :
    ∃ rep, Spec.Has cl r rep ∧ outcomeOf rep = o := by
  simp only [exGot, List.mem_filterMap] at h
  obtain ⟨e, he, h⟩ := h
  cases e with
  | got r' rep =>
    simp only [Option.some.injEq, Prod.mk.injEq] at h
    obtain ⟨rfl, rfl⟩ := h
    exact ⟨rep, .inl he, rfl⟩
  | _ => simp at h

/-- Two answers, in the opposite order; all conditions of the theorems above hold. -/
example : ∃ s, Reachable exCfg s ∧ ideal exCfg.srv ∧ (Req.draws (s.clients 1).g.log).length < 2 ^ 64 ∧
    (s.srv.g.conns 1).active = true ∧ Spec.Settled s 1 ∧ (s.back 1).map (·.1) = [some 1, some 0] ∧ (s.sent 1).length = 2 ∧
    (∃ rep, Spec.Has (s.clients 1) 1 rep ∧ outcomeOf rep = .reply 0 [8]) ∧
    (∃ rep, Spec.Has (s.clients 1) 0 rep ∧ outcomeOf rep = .failed [99] [7]) ∧
    (∀ d ∈ s.results, d.c = 1 → d.up = true ∧ d.out.closesMsg = false ∧ Spec.Sendable d.out) ∧
    (∀ x ∈ s.sent 1, x.bytes.length ≤ exCfg.srv.bufferSize.toNat) ∧ ∀ y ∈ s.back 1, y.2.length ≤ exCfg.clientBuf := by
  have hrun : ∃ s, play exCfg {} exTwo = some s ∧ (Req.draws (s.clients 1).g.log).length = 2 ∧
      (s.srv.g.conns 1).active = true ∧ s.taken 1 = (s.sent 1).length ∧ s.seen 1 = (s.back 1).length ∧
      s.srv.threads = [.reading 1] ∧ (s.clients 1).threads = [] ∧
      (s.back 1).map (·.1) = [some 1, some 0] ∧ (s.sent 1).length = 2 ∧
      exGot (s.clients 1).g.log = [(1, .reply 0 [8]), (0, .failed [99] [7])] ∧
      (s.sent 1).map (·.bytes.length) = [12, 12] ∧ (s.back 1).map (·.2.length) = [10, 12] ∧
      s.results.map (fun d => (d.up, d.out)) = [(true, .hook { payload := [8] }), (true, .hook { err := .request [99] [7] })] :=
    ⟨_, rfl, rfl, rfl, rfl, rfl, rfl, rfl, rfl, rfl, rfl, rfl, rfl, rfl⟩
  obtain ⟨s, hp, h1, h2, h3, h4, h5, h6, h7, h8, h9, h10, h11, h12⟩ := hrun
  refine ⟨s, play_reachable _ .start hp, rfl, by omega, h2, ⟨h3, h4, ?_, ?_⟩, h7, h8, ?_, ?_, ?_, ?_, ?_⟩
  · intro pc hpc m; rw [h5] at hpc; simp at hpc; subst hpc; rfl
  · intro pc hpc; rw [h6] at hpc; cases hpc
  · exact exGot_has (by rw [h9]; simp)
  · exact exGot_has (by rw [h9]; simp)
  · intro d hd _
    have := List.mem_map_of_mem (f := fun d : Done => (d.up, d.out)) hd
    rw [h12] at this
    simp only [List.mem_cons, Prod.mk.injEq, List.not_mem_nil, or_false] at this
    rcases this with ⟨h1, h2⟩ | ⟨h1, h2⟩ <;> rw [h1, h2]
    · exact ⟨rfl, rfl, _, .success rfl (by simp)⟩
    · exact ⟨rfl, rfl, _, .error _ _ rfl (by simp [SendableCode, Printable])⟩
  · intro x hx
    have := List.mem_map_of_mem (f := fun x : Sent => x.bytes.length) hx
    rw [h10] at this
    have hb : exCfg.srv.bufferSize.toNat = 64 := rfl
    simp at this; omega
  · intro y hy
    have := List.mem_map_of_mem (f := fun y : Option Nat × Bytes => y.2.length) hy
    rw [h11] at this
    have hb : exCfg.clientBuf = 64 := rfl
    simp at this; omega

/-- A request is refused, and the client is told so. -/
example : ∃ s, Reachable exCfg s ∧ .refused 1 ⟨.request, 2⟩ ∈ s.srv.g.log ∧
    Spec.Has (s.clients 1) 2 (.error .shutdown) := by
  have hrun : ∃ s, play exCfg {} exThree = some s ∧ (s.srv.g.log.any (fun e => decide (e = .refused 1 ⟨.request, 2⟩))) = true ∧
      (s.clients 1).g.reqs[2]?.map (fun q => match q.chan with | some (.error .shutdown) => true | _ => false) = some true :=
    ⟨_, rfl, rfl, rfl⟩
  obtain ⟨s, hp, h1, h2⟩ := hrun
  refine ⟨s, play_reachable _ .start hp, ?_, .inr ?_⟩
  · obtain ⟨e, he, h⟩ := List.any_eq_true.mp h1
    simp only [decide_eq_true_eq] at h
    rw [← h]; exact he
  · obtain ⟨q, hq, h⟩ := Option.map_eq_some_iff.mp h2
    refine ⟨q, hq, ?_⟩
    split at h
    · assumption
    · cases h

end Webwire.Whole
