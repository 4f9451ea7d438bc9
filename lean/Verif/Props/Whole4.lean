import Verif.Props.Whole3
import Verif.Props.Lifecycle8

/-!
# C107: signals, end to end

Clients and the server together, under all schedules. Signals get lost without anybody being told, so here it matters that they
do not: each signal of a client is given to `OnSignal` once, as it was sent, and on connections that handle one message after
the other in the order of sending.
-/

set_option autoImplicit false

namespace Webwire.Whole
open _root_.Webwire.Spec

variable {cfg : Cfg} {s s' : State}

namespace Spec

/-- The bytes are a signal; `v` is what it says. -/
def Signal (bs : Bytes) (v : View) : Prop := Grammar bs v ∧ v.msgType ∈ [63, 64, 65]

/-- The numbers of the messages of a client whose handlers were started, in this order. -/
def started (c : ConnId) (log : List Life.LEv) : List Nat :=
  log.filterMap fun | .start c' m => if c' = c then some m.id else none | _ => none

/-- The handler of the client's `n`-th message, a signal, was called once and has returned. -/
def HandledOnce (s : State) (c : ConnId) (n : Nat) : Prop :=
  s.srv.g.log.count (.start c ⟨.signal, n⟩) = 1 ∧ s.srv.g.log.count (.finish c ⟨.signal, n⟩) = 1

end Spec

theorem kindOf_signal (t : UInt8) : kindOf t = .signal ↔ t ∈ [63, 64, 65] := by
  constructor
  · intro h
    unfold kindOf at h
    repeat' split at h
    all_goals first | cases h; done | skip
    rename_i ht
    simpa [MsgSignalBinary, MsgSignalUtf8, MsgSignalUtf16] using ht
  · intro h
    simp only [List.mem_cons, List.not_mem_nil, or_false] at h
    rcases h with rfl | rfl | rfl <;> rfl

theorem readMsg_some {size : Nat} {bs : Bytes} {m : Msg} (h : readMsg size bs = some m) :
    ∃ v, Grammar bs v ∧ bs.length ≤ size ∧ m.shown = v ∧ m.payload.encoding = parserEncoding v.msgType := by
  by_cases hl : bs.length ≤ size
  · by_cases hne : bs = []
    · subst hne
      simp [readMsg, Msg.readBytes] at h
    · obtain ⟨m', tp, e, h1, _, _, _, _, h6⟩ := readBytes_clean (clean_new size) hne (by rw [newMessage_buf]; exact hl)
      cases hd : decode bs with
      | none =>
        rw [hd] at h6
        simp only [readMsg, h1] at h
        split at h
        · rename_i heq; simp only [Except.ok.injEq, Prod.mk.injEq] at heq; exact absurd heq.2.2 h6
        · cases h
      | some v =>
        have hg := grammar_of_decode hd hne
        obtain ⟨m2, k1, k2, k3, _⟩ := readMsg_grammar hg hl
        rw [h] at k1
        cases k1
        exact ⟨v, hg, hl, k2, k3⟩
  · obtain ⟨e, he⟩ := C09_rejects_oversized (newMessage size) bs (by rw [newMessage_buf]; omega)
    simp [readMsg, he] at h

theorem incoming_signal {n i : Nat} {bs : Bytes} : incoming cfg n bs = some ⟨.signal, i⟩ ↔
    i = n ∧ bs.length ≤ cfg.srv.bufferSize.toNat ∧ ∃ v, Spec.Signal bs v := by
  constructor
  · intro h
    simp only [incoming, Option.map_eq_some_iff, Life.LMsg.mk.injEq] at h
    obtain ⟨m, hm, hk, rfl⟩ := h
    obtain ⟨v, hg, hl, hv, _⟩ := readMsg_some hm
    refine ⟨rfl, hl, v, hg, ?_⟩
    rw [kindOf_signal] at hk
    rw [← hv]
    exact hk
  · rintro ⟨rfl, hl, v, hg, ht⟩
    obtain ⟨m, hm, hv, _⟩ := readMsg_grammar hg hl
    simp only [incoming, hm, Option.map_some, Option.some.injEq, Life.LMsg.mk.injEq, and_true]
    rw [kindOf_signal]
    have : m.msgType = v.msgType := congrArg View.msgType hv
    rwa [this]

/-- C107: `OnSignal` is called for signals only, with what the client sent, and at most once for each. The message is the only one
the handler is called for: nothing the client sent otherwise, nothing of other clients. -/
theorem C107_as_sent (h : Reachable cfg s) (c : ConnId) (n : Nat) :
    s.srv.g.log.count (.start c ⟨.signal, n⟩) ≤ 1 ∧
    (.start c ⟨.signal, n⟩ ∈ s.srv.g.log → ∃ (x : Sent) (v : View) (m : Msg), (s.sent c)[n]? = some x ∧ x.req = none ∧ Spec.Signal x.bytes v ∧
      readMsg cfg.srv.bufferSize.toNat x.bytes = some m ∧ m.shown = v ∧ m.payload.encoding = documentedEncoding v.msgType) := by
  have h1 := Life.ReachableIf.accounted h.srv c ⟨.signal, n⟩ (.inl rfl)
  have h2 := h.arrInv.once c ⟨.signal, n⟩
  refine ⟨by omega, fun hm => ?_⟩
  have hpos := List.count_pos_iff.mpr hm
  have harr : .arrived c ⟨.signal, n⟩ ∈ s.srv.g.log := List.count_pos_iff.mp (by omega)
  obtain ⟨_, x, hx, hin⟩ := (h.arrInv.iff c _).mp harr
  obtain ⟨_, hl, v, hg, ht⟩ := incoming_signal.mp hin
  obtain ⟨m, hm, hv, he, _⟩ := readMsg_grammar hg hl
  refine ⟨x, v, m, hx, ?_, ⟨hg, ht⟩, hm, hv, ?_⟩
  · cases hr : x.req with
    | none => rfl
    | some k =>
      obtain ⟨q, _, hg'⟩ := h.sentInv.req c n x k hx hr
      have := C09_grammar_unambiguous _ _ _ hg hg'
      rw [this] at ht
      have hk := k.ask.kindOf q.ident
      rw [(kindOf_signal _).mpr ht] at hk
      cases ha : k.ask <;> rw [ha] at hk <;> cases hk
  · rw [he]
    simp only [List.mem_cons, List.not_mem_nil, or_false] at ht
    rcases ht with h | h | h <;> rw [h] <;> rfl

/-- C107: a signal is not answered, and not taken for a request. -/
theorem C107_not_answered (hs : ideal cfg.srv) (h : Reachable cfg s) (c : ConnId) (n : Nat) (x : Sent) (v : View)
    (hx : (s.sent c)[n]? = some x) (hsig : Spec.Signal x.bytes v) :
    (∀ y ∈ s.back c, y.1 ≠ some n) ∧ .start c ⟨.request, n⟩ ∉ s.srv.g.log ∧ .start c ⟨.session, n⟩ ∉ s.srv.g.log ∧
    .refused c ⟨.request, n⟩ ∉ s.srv.g.log ∧ .refused c ⟨.session, n⟩ ∉ s.srv.g.log := by
  have hno : ∀ k, k = .request ∨ k = .session → s.srv.g.log.count (.arrived c ⟨k, n⟩) = 0 := by
    intro k hk
    rw [List.count_eq_zero]
    intro harr
    obtain ⟨_, x', hx', hin⟩ := (h.arrInv.iff c _).mp harr
    simp only at hx'
    rw [hx] at hx'
    cases hx'
    have hl : x.bytes.length ≤ cfg.srv.bufferSize.toNat := by
      simp only [incoming, Option.map_eq_some_iff] at hin
      obtain ⟨m, hm, _⟩ := hin
      exact (readMsg_some hm).choose_spec.2.1
    have := (incoming_signal (cfg := cfg) (n := n) (i := n)).mpr ⟨rfl, hl, v, hsig⟩
    simp only at hin
    rw [this] at hin
    simp only [Option.some.injEq, Life.LMsg.mk.injEq, and_true] at hin
    rcases hk with rfl | rfl <;> cases hin
  have a1 := Life.ReachableIf.accounted h.srv c ⟨.request, n⟩ (.inr (.inl rfl))
  have a2 := Life.ReachableIf.accounted h.srv c ⟨.session, n⟩ (.inr (.inr rfl))
  have a3 := (Life.ReachableIf.inv h.srv).runsMsg c ⟨.request, n⟩
  have a4 := (Life.ReachableIf.inv h.srv).runsMsg c ⟨.session, n⟩
  have n1 := hno .request (.inl rfl)
  have n2 := hno .session (.inr rfl)
  have hb := (h.backInv hs).count c n
  unfold State.ends at hb
  refine ⟨fun y hy e => ?_, ?_, ?_, ?_, ?_⟩
  · have : 0 < (s.back c).countP fun y => decide (y.1 = some n) := List.countP_pos_iff.mpr ⟨y, hy, by simpa using e⟩
    omega
  all_goals
    intro hm
    have := List.count_pos_iff.mpr hm
    omega

/-- C107: once everything has happened on an open connection that can be relied on to happen (which it does: `C98_reached`), every signal
that fits the buffers of the server was given to `OnSignal` once, as long as `Shutdown` was not called. -/
theorem C107_all_handled (hs : ideal cfg.srv) (h : Reachable cfg s) (c : ConnId) (hq : Spec.Quiet cfg s c)
    (hstop : .stop ∉ s.srv.g.log) (ha : (s.srv.g.conns c).active = true) (n : Nat) (x : Sent) (v : View)
    (hx : (s.sent c)[n]? = some x) (hsig : Spec.Signal x.bytes v) (hl : x.bytes.length ≤ cfg.srv.bufferSize.toNat) :
    Spec.HandledOnce s c n := by
  obtain ⟨_, hon⟩ := Quiet.reads hs h hq hstop ha
  have ht := Quiet.taken hs h hq hstop ha
  have harr : .arrived c ⟨.signal, n⟩ ∈ s.srv.g.log :=
    (h.arrInv.iff c _).mpr ⟨by rw [ht]; exact (List.getElem?_eq_some_iff.mp hx).1, x, hx, incoming_signal.mpr ⟨rfl, hl, v, hsig⟩⟩
  have a1 := Life.ReachableIf.accounted h.srv c ⟨.signal, n⟩ (.inl rfl)
  have a2 := h.arrInv.once c ⟨.signal, n⟩
  have a3 := (Life.ReachableIf.inv h.srv).runsMsg c ⟨.signal, n⟩
  have a4 := List.count_pos_iff.mpr harr
  have hz : ∀ p : Life.PC → Bool, (∀ pc, p pc = true → pc.isOn c = true) → p (.reading c) = false → s.srv.threads.countP p = 0 := by
    intro p h1 h2
    rw [List.countP_eq_zero]
    intro pc hp hx
    rw [hon pc hp (h1 pc hx), h2] at hx
    cases hx
  have a5 := hz (Life.PC.pends c ⟨.signal, n⟩) (fun _ => Life.PC.pends_isOn) rfl
  have a6 := hz (Life.PC.runsMsg c ⟨.signal, n⟩) (fun _ => Life.PC.runsMsg_isOn) rfl
  have a7 : s.srv.g.log.count (.dropped c ⟨.signal, n⟩) = 0 := by
    rw [List.count_eq_zero]
    intro hd
    rw [((Life.ReachableIf.kindInv h.srv).dropped c _ hd).1] at ha
    cases ha
  have a8 : s.srv.g.log.count (.refused c ⟨.signal, n⟩) = 0 := by
    rw [List.count_eq_zero]
    intro hd
    have := (Life.C28_only_requests_refused s.srv h.srv c _ hd).1
    cases this
  exact ⟨by omega, by omega⟩

/-- C107, about a connection that nobody broke, of a client that sends messages only: there is no condition on what the server does with
the connection. -/
theorem C107_unbroken (hs : ideal cfg.srv) (c : ConnId) (h : Spec.Unbroken cfg c s) (hp : Spec.Polite cfg s c) (hq : Spec.Quiet cfg s c)
    (hu : (s.srv.g.conns c).used = true) (hstop : .stop ∉ s.srv.g.log) (n : Nat) (x : Sent) (v : View)
    (hx : (s.sent c)[n]? = some x) (hsig : Spec.Signal x.bytes v) : Spec.HandledOnce s c n :=
  C107_all_handled hs (Unbroken.reachable h) c hq hstop ((C98_stays_open h hp).1 hu).1 n x v hx hsig (hp x (List.mem_of_getElem? hx)).1

/-! ## Order -/

/-- The numbers of the messages that arrived, in this order. -/
def arrivals (c : ConnId) (log : List Life.LEv) : List Nat :=
  log.filterMap fun | .arrived c' m => if c' = c then some m.id else none | _ => none

theorem arrivals_wire (c : ConnId) (log : List Life.LEv) : arrivals c (log.filter Life.LEv.wire) = arrivals c log := by
  induction log with
  | nil => rfl
  | cons e l ih =>
    rw [List.filter_cons]
    split
    · simp only [arrivals, List.filterMap_cons] at ih ⊢
      rw [ih]
    · rename_i hno
      rw [ih]
      cases e <;> simp_all [arrivals, Life.LEv.wire]

theorem arrivals_step {t t' : Life.State} {l : Life.Label} (h : Life.Step t l t') (c : ConnId) :
    arrivals c t'.g.log = arrivals c t.g.log ++ arrivals c (Life.wireEvs l) := by
  rw [← arrivals_wire, h.wire, ← arrivals_wire c t.g.log]
  simp [arrivals]

/-- Messages arrive in the order in which they were sent. -/
theorem Reachable.arrivals (h : Reachable cfg s) (c : ConnId) :
    (arrivals c s.srv.g.log).Pairwise (· < ·) ∧ ∀ n ∈ arrivals c s.srv.g.log, n < s.taken c := by
  induction h with
  | start => simp [Whole.arrivals]
  | step s l s' hr hs ih =>
    cases hs.served with
    | quiet hsrv ht _ _ =>
      rw [ht]
      rcases hsrv with e | ⟨l, hl, hq⟩
      · rw [e]; exact ih
      · have : Whole.arrivals c (Life.wireEvs l) = [] := by
          rw [Whole.arrivals, List.filterMap_eq_nil_iff]
          intro e he
          obtain ⟨_, _, rfl, _⟩ := hq e he
          rfl
        rw [arrivals_step hl, this, List.append_nil]
        exact ih
    | finish c' n inl up ch out x m bs hx hm hl hfit hb ht =>
      rw [ht, arrivals_step hl]
      simpa [Life.wireEvs, Whole.arrivals] using ih
    | refuse c' lm x m bs ch hx hm ho hl hb ht =>
      rw [ht, arrivals_step hl]
      simpa [Life.wireEvs, Whole.arrivals, ho] using ih
    | receive c' x ok hx hl ht hsent =>
      rw [ht, arrivals_step hl]
      have hle : ∀ k, k < s.taken c → k < put s.taken c' (s.taken c' + 1) c := by
        intro k hk
        unfold put
        split
        · rename_i e; subst e; omega
        · exact hk
      cases hin : incoming cfg (s.taken c') x.bytes with
      | none =>
        simp only [Life.wireEvs, Whole.arrivals, List.filterMap_nil, List.append_nil]
        exact ⟨ih.1, fun k hk => hle k (ih.2 k hk)⟩
      | some m =>
        have hid := incoming_id hin
        by_cases hc : c' = c
        · subst hc
          have e : Whole.arrivals c' (Life.wireEvs (.thread (.reading c') ⟨some m, ok⟩)) = [s.taken c'] := by
            simp [Life.wireEvs, Whole.arrivals, hid]
          rw [e]
          refine ⟨List.pairwise_append.mpr ⟨ih.1, by simp, fun a ha b hb => ?_⟩, fun k hk => ?_⟩
          · rw [List.mem_singleton.mp hb]; exact ih.2 a ha
          · rcases List.mem_append.mp hk with hk | hk
            · exact hle k (ih.2 k hk)
            · rw [List.mem_singleton.mp hk]; simp [put]
        · have e : Whole.arrivals c (Life.wireEvs (.thread (.reading c') ⟨some m, ok⟩)) = [] := by
            simp [Life.wireEvs, Whole.arrivals, hc]
          rw [e, List.append_nil]
          exact ⟨ih.1, fun k hk => hle k (ih.2 k hk)⟩

theorem started_sublist (c : ConnId) : ∀ (k : Nat) (l : List Life.LEv), l.length ≤ k →
    (∀ l1 l2 m, l = l1 ++ .start c m :: l2 → ∃ l0, l1 = l0 ++ [.arrived c m]) →
    (Spec.started c l).Sublist (arrivals c l) := by
  intro k
  induction k with
  | zero =>
    intro l hl _
    obtain rfl := List.length_eq_zero_iff.mp (by omega : l.length = 0)
    exact .refl _
  | succ k ih =>
    intro l hl h
    rcases List.eq_nil_or_concat l with rfl | ⟨l', e, rfl⟩
    · exact .refl _
    · rw [List.concat_eq_append] at *
      have hl' : l'.length ≤ k := by simp at hl; omega
      have h' : ∀ l1 l2 m, l' = l1 ++ .start c m :: l2 → ∃ l0, l1 = l0 ++ [.arrived c m] := by
        intro l1 l2 m e'
        exact h l1 (l2 ++ [e]) m (by rw [e']; simp)
      have plain : (∀ m, e ≠ .start c m) → (Spec.started c (l' ++ [e])).Sublist (arrivals c (l' ++ [e])) := by
        intro hne
        have : Spec.started c (l' ++ [e]) = Spec.started c l' := by
          unfold Spec.started
          rw [List.filterMap_append]
          cases e <;> simp
          rintro rfl
          exact hne _ rfl
        rw [this]
        refine (ih l' hl' h').trans ?_
        simp only [arrivals, List.filterMap_append]
        exact List.sublist_append_left _ _
      cases e with
      | start c' m =>
        by_cases hc : c' = c
        · subst hc
          obtain ⟨l0, rfl⟩ := h l' [] m rfl
          have h0 : (Spec.started c' l0).Sublist (arrivals c' l0) := by
            refine ih l0 (by simp at hl'; omega) fun l1 l2 m' e' => ?_
            exact h' l1 (l2 ++ [.arrived c' m]) m' (by rw [e']; simp)
          have e1 : Spec.started c' (l0 ++ [.arrived c' m] ++ [.start c' m]) = Spec.started c' l0 ++ [m.id] := by
            simp [Spec.started]
          have e2 : arrivals c' (l0 ++ [.arrived c' m] ++ [.start c' m]) = arrivals c' l0 ++ [m.id] := by
            simp [arrivals]
          rw [e1, e2]
          exact h0.append (.refl _)
        · exact plain (by intro m' e; cases e; exact hc rfl)
      | _ => exact plain (by simp)

theorem started_isOf (c : ConnId) (log : List Life.LEv) : Spec.started c (log.filter (Life.LEv.isOf c)) = Spec.started c log ∧
    arrivals c (log.filter (Life.LEv.isOf c)) = arrivals c log := by
  induction log with
  | nil => exact ⟨rfl, rfl⟩
  | cons e l ih =>
    obtain ⟨h1, h2⟩ := ih
    unfold Spec.started at h1 ⊢
    unfold arrivals at h2 ⊢
    rw [List.filter_cons]
    split
    · simp only [List.filterMap_cons, h1, h2, and_self]
    · rename_i hno
      rw [h1, h2]
      cases e <;> simp_all [Life.LEv.isOf]

/-- C107: on a connection with limit 0 or 1 the handlers of signals and requests are called in the order in which the client sent
these. -/
theorem C107_in_order (h : Reachable cfg s) (c : ConnId) (h0 : 0 ≤ (s.srv.g.conns c).limit) (h1 : (s.srv.g.conns c).limit ≤ 1) :
    (Spec.started c s.srv.g.log).Pairwise (· < ·) := by
  have hsub := started_sublist c _ (s.srv.g.log.filter (Life.LEv.isOf c)) (Nat.le_refl _) fun l1 l2 m e =>
    (Life.C26_one_after_the_other s.srv h.srv c h0 h1 l1 l2 m e).1
  rw [(started_isOf c s.srv.g.log).1, (started_isOf c s.srv.g.log).2] at hsub
  exact (h.arrivals c).1.sublist hsub

/-! Example. -/

/-- A signal, a heartbeat, a request and another signal, on a connection that handles one message after the other. -/
def exSignals : List Cmd :=
  [.sv (.connect 1 0), .cl 1 .create, .cl 1 (.go 0), .other 1 [63, 1, 97], .other 1 [33], .send 1 0 [98] 0 [1],
    .other 1 [65, 1, 99, 0, 1, 2], .recv 0] ++ exGo 0 10 ++ [.recv 0, .recv 0] ++ exGo 0 6 ++ [.fin 0 {}] ++ exGo 0 3 ++ [.recv 0] ++ exGo 0 10 ++ [.read 1] ++ exCl 3

/-- C107, non-vacuity: `OnSignal` is called for the messages 0 and 3, in this order, and message 2 is answered; all conditions hold. -/
example : ∃ s, Spec.Unbroken exCfg 1 s ∧ ideal exCfg.srv ∧ Spec.Polite exCfg s 1 ∧ (s.srv.g.conns 1).used = true ∧ (s.srv.g.conns 1).active = true ∧
    .stop ∉ s.srv.g.log ∧ (s.srv.g.conns 1).limit = 0 ∧ Spec.started 1 s.srv.g.log = [0, 2, 3] ∧
    (∃ x, (s.sent 1)[3]? = some x ∧ Spec.Signal x.bytes { msgType := 65, name := [99], payload := [1, 2] }) ∧
    Spec.HandledOnce s 1 0 ∧ Spec.HandledOnce s 1 3 ∧ (s.back 1).map (·.1) = [some 2] ∧ Spec.Quiet exCfg s 1 := by
  obtain ⟨s, hp, h1, h2, h3, h4, h5, h6, h7, h8, h9, h10, h11, h12, h13, h14, h15⟩ : ∃ s, playUnbroken exCfg 1 {} exSignals = some s ∧
      (s.srv.g.conns 1).used = true ∧ (s.srv.g.conns 1).active = true ∧ s.srv.g.log.contains .stop = false ∧ (s.srv.g.conns 1).limit = 0 ∧
      Spec.started 1 s.srv.g.log = [0, 2, 3] ∧ (s.sent 1).map (fun x => (x.req.isSome, x.bytes)) =
        [(false, [63, 1, 97]), (false, [33]), (true, [127, 1,0,0,0,0,0,0,0, 1, 98, 1]), (false, [65, 1, 99, 0, 1, 2])] ∧
      s.srv.g.log.count (.start 1 ⟨.signal, 0⟩) = 1 ∧ s.srv.g.log.count (.finish 1 ⟨.signal, 0⟩) = 1 ∧
      s.srv.g.log.count (.start 1 ⟨.signal, 3⟩) = 1 ∧ s.srv.g.log.count (.finish 1 ⟨.signal, 3⟩) = 1 ∧
      (s.back 1).map (·.1) = [some 2] ∧ s.srv.threads = [.reading 1] ∧ (s.clients 1).threads = [] ∧
      s.taken 1 = (s.sent 1).length ∧ s.seen 1 = (s.back 1).length :=
    ⟨_, rfl, rfl, rfl, rfl, rfl, rfl, rfl, rfl, rfl, rfl, rfl, rfl, rfl, rfl, rfl, rfl⟩
  have hall : ∀ x ∈ s.sent 1, (x.req.isSome, x.bytes) ∈ [(false, [63, 1, 97]), (false, [33]), (true, [127, 1,0,0,0,0,0,0,0, 1, 98, 1]),
      (false, [65, 1, 99, 0, 1, 2])] := fun x hx => h6 ▸ List.mem_map_of_mem (f := fun x : Sent => (x.req.isSome, x.bytes)) hx
  refine ⟨s, playUnbroken_ok _ .start hp, rfl, fun x hx => ⟨?_, fun hn => ?_⟩, h1, h2, ?_, h4, h5, ?_, ⟨h7, h8⟩, ⟨h9, h10⟩, h11,
    quiet_of h13 h15 h12 (.inl ⟨rfl, h14⟩)⟩
  · have hb : exCfg.srv.bufferSize.toNat = 64 := rfl
    have := hall x hx
    simp only [List.mem_cons, Prod.mk.injEq, List.not_mem_nil, or_false] at this
    rcases this with ⟨_, h⟩ | ⟨_, h⟩ | ⟨_, h⟩ | ⟨_, h⟩ <;> rw [h, hb] <;> decide
  · have := hall x hx
    simp only [hn, List.mem_cons, Prod.mk.injEq, List.not_mem_nil, or_false, Option.isSome_none, Bool.false_eq_true, false_and, false_or, true_and] at this
    rcases this with h | h | h <;> rw [h] <;> exact ⟨_, rfl⟩
  · intro hm
    rw [← List.contains_iff_mem, h3] at hm
    cases hm
  · have : ((s.sent 1).map fun x => (x.req.isSome, x.bytes))[3]? = some (false, [65, 1, 99, 0, 1, 2]) := by rw [h6]; rfl
    rw [List.getElem?_map, Option.map_eq_some_iff] at this
    obtain ⟨x, hx, he⟩ := this
    refine ⟨x, hx, ?_, by simp⟩
    rw [(Prod.mk.inj he).2]
    exact Grammar.signal16 1 [99] [0] [1, 2] rfl rfl (by simp) rfl

end Webwire.Whole
