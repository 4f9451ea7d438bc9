import Verif.Proofs.Whole3

/-! Helper lemmas about clients and the server together: where replies come from, and where they go. -/

set_option autoImplicit false

namespace Webwire.Whole
open _root_.Webwire.Spec

variable {cfg : Cfg} {s s' : State}

theorem kindOf_requestType (enc : Encoding) : kindOf (requestType enc) = .request := by
  unfold requestType
  split_ifs <;> rfl

theorem requestType_ident (enc : Encoding) : requestType enc ∉ noIdentTypes := by
  unfold requestType
  split_ifs <;> decide

/-- The handler the request is for. -/
def Ask.kind : Ask → Life.Kind
  | .request .. => .request
  | _ => .session

theorem Ask.kindOf (ask : Ask) (ident : Bytes) : kindOf (ask.view ident).msgType = ask.kind := by
  cases ask with
  | request => exact kindOf_requestType _
  | _ => rfl

theorem Ask.hasIdent (ask : Ask) (ident : Bytes) : (ask.view ident).msgType ∉ noIdentTypes ∧ (ask.view ident).ident = ident := by
  cases ask with
  | request => exact ⟨requestType_ident _, rfl⟩
  | _ => exact ⟨by simp [Ask.view, noIdentTypes], rfl⟩

theorem kind_of_reply {lm : Life.LMsg} (h : lm.requiresReply = true) : lm = ⟨.request, lm.id⟩ ∨ lm = ⟨.session, lm.id⟩ := by
  obtain ⟨k, n⟩ := lm
  cases k <;> simp_all [Life.LMsg.requiresReply]

/-- A message that arrived and asks for a reply is a request of the client's request manager. -/
theorem Reachable.asked (h : Reachable cfg s) {c : ConnId} {lm : Life.LMsg} (ha : .arrived c lm ∈ s.srv.g.log)
    (hr : lm.requiresReply = true) :
    ∃ (x : Sent) (k : Call) (q : Req.Request Rep) (m : Msg), (s.sent c)[lm.id]? = some x ∧ x.req = some k ∧
      (s.clients c).g.reqs[k.r]? = some q ∧ readMsg cfg.srv.bufferSize.toNat x.bytes = some m ∧
      m.identifierBytes = q.ident ∧ m.requiresReply = true ∧ Whole.Spec.AsksFor m q.ident k.ask ∧ lm.kind = k.ask.kind := by
  obtain ⟨_, x, hx, hin⟩ := (h.arrInv.iff c lm).mp ha
  simp only [incoming, Option.map_eq_some_iff] at hin
  obtain ⟨m, hm, hlm⟩ := hin
  have hq : m.requiresReply = true := by
    rw [kindOf_reply]
    rw [← hlm] at hr
    simpa [Life.LMsg.requiresReply] using hr
  cases hk : x.req with
  | none =>
    have := h.sentInv.quiet c _ x m hx hk hm
    rw [hq] at this; cases this
  | some k =>
    obtain ⟨q, hq', hg⟩ := h.sentInv.req c _ x k hx hk
    obtain ⟨m', h1, h2, h3, h4, h5⟩ := readMsg_grammar hg (readMsg_ok hm).1
    rw [hm] at h1
    cases h1
    have ht : m.msgType = (k.ask.view q.ident).msgType := congrArg View.msgType h2
    have hpos : m.len ≠ 0 := by
      rw [h4]
      have := grammar_ne_nil hg
      simpa using this
    refine ⟨x, k, q, m, hx, hk, hq', hm, (h5 (k.ask.hasIdent _).1).trans (k.ask.hasIdent _).2, hq, ?_, ?_⟩
    · have hsh := Shows.of_shown h2 (by omega)
      rw [h3] at hsh
      generalize k.ask = a at hsh
      cases a with
      | request name enc payload =>
        have henc : parserEncoding (requestType enc) = canonEnc enc := by
          unfold requestType canonEnc; split_ifs <;> rfl
        simp only [Ask.view] at hsh
        rw [henc, requestType_eq] at hsh
        exact hsh
      | restore key => exact hsh
      | close => exact hsh
    · rw [← hlm]; exact (congrArg kindOf ht).trans (k.ask.kindOf _)

/-- What a goroutine of the server works on has arrived. -/
theorem Reachable.worked (h : Reachable cfg s) {c : ConnId} {lm : Life.LMsg} {pc : Life.PC} (hp : pc ∈ s.srv.threads)
    (hw : Life.Spec.WorksOn c lm pc = true) (hr : lm.requiresReply = true) : .arrived c lm ∈ s.srv.g.log := by
  have h1 := (Life.C22_interleaved s.srv h.srv c lm hr).1
  have h2 : 0 < s.srv.threads.countP (Life.Spec.WorksOn c lm) := List.countP_pos_iff.mpr ⟨pc, hp, hw⟩
  exact List.count_pos_iff.mp (by omega)

/-- How often a handler of the client's `n`-th message ended, or the message was refused. -/
def State.ends (s : State) (c : ConnId) (n : Nat) : Nat :=
  s.srv.g.log.count (.finish c ⟨.request, n⟩) + s.srv.g.log.count (.finish c ⟨.session, n⟩) +
    (s.srv.g.log.count (.refused c ⟨.request, n⟩) + s.srv.g.log.count (.refused c ⟨.session, n⟩))

/-- Where the messages of the server come from, and that nothing of what it sends is lost. -/
structure BackInv (cfg : Cfg) (s : State) : Prop where
  pushed : ∀ c b, (none, b) ∈ s.back c → ¬ IsReply b
  source : ∀ c n b, (some n, b) ∈ s.back c →
    (∃ d ∈ s.results, d.c = c ∧ d.n = n ∧ ∃ bs, answers cfg c d.msg d.out d.up = .ok bs ∧ b ∈ bs) ∨
    (∃ lm : Life.LMsg, .refused c lm ∈ s.srv.g.log ∧ lm.id = n ∧ ∃ (x : Sent) (m : Msg), (s.sent c)[n]? = some x ∧
      readMsg cfg.srv.bufferSize.toNat x.bytes = some m ∧ b = 1 :: m.identifierBytes)
  count : ∀ c n, (s.back c).countP (fun y => decide (y.1 = some n)) ≤ s.ends c n
  done : ∀ d ∈ s.results, ∃ (x : Sent) (bs : List Bytes), (s.sent d.c)[d.n]? = some x ∧
    readMsg cfg.srv.bufferSize.toNat x.bytes = some d.msg ∧ d.out.fits cfg.srv.sessionsEnabled d.msg.msgType = true ∧
    answers cfg d.c d.msg d.out d.up = .ok bs ∧ ∀ b ∈ bs, (some d.n, b) ∈ s.back d.c
  fin : ∀ c (lm : Life.LMsg), lm.requiresReply = true →
    s.results.countP (fun d => decide (d.c = c ∧ d.n = lm.id ∧ d.out.kind = lm.kind)) = s.srv.g.log.count (.finish c lm)
  ref : ∀ c lm, .refused c lm ∈ s.srv.g.log → ∃ (x : Sent) (m : Msg), (s.sent c)[lm.id]? = some x ∧
    readMsg cfg.srv.bufferSize.toNat x.bytes = some m ∧ (some lm.id, 1 :: m.identifierBytes) ∈ s.back c

theorem countP_tag (n n' : Nat) (bs : List Bytes) : (bs.map fun b => (some n', b)).countP (fun y => decide (y.1 = some n)) =
    if n' = n then bs.length else 0 := by
  rw [List.countP_map]
  split_ifs with h
  · subst h
    rw [List.countP_eq_length.mpr (by simp)]
  · rw [List.countP_eq_zero]
    simp [h]

theorem Reachable.backInv (hs : ideal cfg.srv) (h : Reachable cfg s) : BackInv cfg s := by
  induction h with
  | start => exact ⟨by simp, by simp, by simp, by simp, by simp, by simp⟩
  | step s l s' hr hst ih =>
    have hsent := fun c n x => hst.sent_mono (c := c) (n := n) (x := x)
    have hr' : Reachable cfg s' := .step _ _ _ hr hst
    cases hst.served with
    | quiet hsrv ht hres hback =>
      have hf : ∀ c (lm : Life.LMsg), lm.requiresReply = true → s'.srv.g.log.count (.finish c lm) = s.srv.g.log.count (.finish c lm) := by
        intro c lm hlm
        rcases hsrv with e | ⟨l, hl, hq⟩
        · rw [e]
        · rw [hl.wire_count _ rfl]
          refine Nat.add_eq_left.mpr (List.count_eq_zero_of_not_mem fun hm => ?_)
          obtain ⟨_, _, h, hne⟩ := hq _ hm
          cases h
          rw [hlm] at hne
          cases hne
      have hrf : ∀ c lm, s'.srv.g.log.count (.refused c lm) = s.srv.g.log.count (.refused c lm) := by
        intro c lm
        rcases hsrv with e | ⟨l, hl, hq⟩
        · rw [e]
        · rw [hl.wire_count _ rfl]
          refine Nat.add_eq_left.mpr (List.count_eq_zero_of_not_mem fun hm => ?_)
          obtain ⟨_, _, h, hne⟩ := hq _ hm
          cases h
      have hrm : ∀ c lm, .refused c lm ∈ s'.srv.g.log ↔ .refused c lm ∈ s.srv.g.log := by
        intro c lm
        rw [← List.count_pos_iff, hrf, List.count_pos_iff]
      have hmem : ∀ c y, y ∈ s.back c → y ∈ s'.back c := by
        intro c y hy
        rcases hback c with e | ⟨b, e, _⟩ <;> rw [e]
        · exact hy
        · simp [hy]
      have hmem' : ∀ c n b, (some n, b) ∈ s'.back c → (some n, b) ∈ s.back c := by
        intro c n b hy
        rcases hback c with e | ⟨b', e, _⟩ <;> rw [e] at hy
        · exact hy
        · simpa using hy
      refine ⟨fun c b hb => ?_, fun c n b hb => ?_, fun c n => ?_, fun d hd => ?_, fun c lm hlm => ?_, fun c lm hl => ?_⟩
      · rcases hback c with e | ⟨b', e, hb'⟩ <;> rw [e] at hb
        · exact ih.pushed c b hb
        · simp only [List.mem_append, List.mem_singleton, Prod.mk.injEq, true_and] at hb
          rcases hb with hb | rfl
          · exact ih.pushed c b hb
          · exact hb'
      · rcases ih.source c n b (hmem' c n b hb) with ⟨d, hd, h⟩ | ⟨lm, h1, h0, x, m, hx, h2⟩
        · exact .inl ⟨d, by rw [hres]; exact hd, h⟩
        · exact .inr ⟨lm, (hrm c _).mpr h1, h0, x, m, hsent _ _ _ hx, h2⟩
      · unfold State.ends
        rw [hf _ _ rfl, hf _ _ rfl, hrf, hrf]
        refine Nat.le_trans (Nat.le_of_eq ?_) (ih.count c n)
        rcases hback c with e | ⟨b', e, _⟩ <;> rw [e]
        simp
      · rw [hres] at hd
        obtain ⟨x, bs, h1, h2, h3, h3', h4⟩ := ih.done d hd
        exact ⟨x, bs, hsent _ _ _ h1, h2, h3, h3', fun b hb => hmem _ _ (h4 b hb)⟩
      · rw [hres, hf _ _ hlm]; exact ih.fin c lm hlm
      · obtain ⟨x, m, h1, h2, h3⟩ := ih.ref c lm ((hrm c lm).mp hl)
        exact ⟨x, m, hsent _ _ _ h1, h2, hmem _ _ h3⟩
    | receive c x ok hx hl ht hse hres hback =>
      have hev : ∀ e : Life.LEv, e.wire = true → (∀ c m, e ≠ .arrived c m) → s'.srv.g.log.count e = s.srv.g.log.count e := by
        intro e he hn
        rw [hl.wire_count e he]
        refine Nat.add_eq_left.mpr (List.count_eq_zero_of_not_mem fun hm => ?_)
        simp only [Life.wireEvs] at hm
        split at hm
        · simp only [List.mem_singleton] at hm; exact hn _ _ hm
        · cases hm
      have hrm : ∀ c lm, .refused c lm ∈ s'.srv.g.log ↔ .refused c lm ∈ s.srv.g.log := by
        intro c lm
        rw [← List.count_pos_iff, hev _ rfl (by simp), List.count_pos_iff]
      refine ⟨?_, fun i n b hb => ?_, fun i n => ?_, fun d hd => ?_, fun i lm hlm => ?_, fun i lm hl => ?_⟩
      · rw [hback]; exact ih.pushed
      · rw [hback] at hb
        rcases ih.source i n b hb with ⟨d, hd, h⟩ | ⟨lm, h1, h2⟩
        · exact .inl ⟨d, by rw [hres]; exact hd, h⟩
        · exact .inr ⟨lm, (hrm i _).mpr h1, by rw [hse]; exact h2⟩
      · unfold State.ends
        rw [hev _ rfl (by simp), hev _ rfl (by simp), hev _ rfl (by simp), hev _ rfl (by simp), hback]; exact ih.count i n
      · rw [hres] at hd
        rw [hse, hback]; exact ih.done d hd
      · rw [hres, hev _ rfl (by simp)]; exact ih.fin i lm hlm
      · rw [hse, hback]; exact ih.ref i lm ((hrm i lm).mp hl)
    | finish c n inl up ch out x m bs hx hm hl hfit hb ht hse hres hback =>
      have hw : Life.wireEvs (.thread (.running c ⟨out.kind, n⟩ inl) ch) = [.finish c ⟨out.kind, n⟩] := rfl
      have hrc : ∀ c lm, s'.srv.g.log.count (.refused c lm) = s.srv.g.log.count (.refused c lm) := by
        intro i lm
        rw [hl.wire_count _ rfl, hw]
        exact Nat.add_eq_left.mpr (List.count_eq_zero_of_not_mem (by simp))
      have hrm : ∀ c lm, .refused c lm ∈ s'.srv.g.log ↔ .refused c lm ∈ s.srv.g.log := by
        intro c lm
        rw [← List.count_pos_iff, hrc, List.count_pos_iff]
      have hmem : ∀ i y, y ∈ s.back i → y ∈ s'.back i := by
        intro i y hy
        rw [hback]
        by_cases hi : i = c
        · subst hi; simp [hy]
        · rw [put_ne _ _ hi]; exact hy
      have hmem' : ∀ i y, y ∈ s'.back i → y ∈ s.back i ∨ (i = c ∧ ∃ b ∈ bs, y = (some n, b)) := by
        intro i y hy
        rw [hback] at hy
        by_cases hi : i = c
        · subst hi
          simp only [put_self, List.mem_append, List.mem_map] at hy
          rcases hy with hy | ⟨b, hb, rfl⟩
          · exact .inl hy
          · exact .inr ⟨rfl, b, hb, rfl⟩
        · rw [put_ne _ _ hi] at hy; exact .inl hy
      have hlen : bs.length ≤ 1 := by
        rcases (answers_ok hs hb).1 with rfl | ⟨call, _, _, rfl⟩ <;> simp
      refine ⟨fun i b hb => ?_, fun i n' b hb' => ?_, fun i n' => ?_, fun d hd => ?_, fun i lm hlm => ?_, fun i lm hl => ?_⟩
      · rcases hmem' i _ hb with h | ⟨_, b', _, h⟩
        · exact ih.pushed i b h
        · cases h
      · rcases hmem' i _ hb' with h | ⟨rfl, b', hb2, h⟩
        · rcases ih.source i n' b h with ⟨d, hd, h⟩ | ⟨lm, h1, h2⟩
          · exact .inl ⟨d, by rw [hres]; simp [hd], h⟩
          · exact .inr ⟨lm, (hrm i _).mpr h1, by rw [hse]; exact h2⟩
        · cases h
          exact .inl ⟨⟨i, n, m, out, up⟩, by rw [hres]; simp, rfl, rfl, bs, hb, hb2⟩
      · have := ih.count i n'
        unfold State.ends at this ⊢
        rw [hrc, hrc, hl.wire_count _ rfl, hl.wire_count (.finish i ⟨.session, n'⟩) rfl, hw, hback]
        by_cases hi : i = c
        · subst hi
          rw [put_self, List.countP_append, countP_tag]
          by_cases hn : n = n'
          · subst hn
            rw [if_pos rfl]
            cases out <;> simp only [Out.kind, List.count_singleton_self] <;> omega
          · rw [if_neg hn]; omega
        · rw [put_ne _ _ hi]
          omega
      · rw [hres, List.mem_append, List.mem_singleton] at hd
        rcases hd with hd | rfl
        · obtain ⟨x, bs, h1, h2, h3, h3', h4⟩ := ih.done d hd
          exact ⟨x, bs, hsent _ _ _ h1, h2, h3, h3', fun b hb => hmem _ _ (h4 b hb)⟩
        · refine ⟨x, bs, hsent _ _ _ hx, hm, hfit, hb, fun b hb => ?_⟩
          rw [hback, put_self]
          simp [hb]
      · rw [hres, List.countP_append, ih.fin _ _ hlm, hl.wire_count _ rfl, hw]
        congr 1
        obtain ⟨k, n'⟩ := lm
        by_cases he : c = i ∧ n = n' ∧ out.kind = k
        · obtain ⟨rfl, rfl, rfl⟩ := he; simp
        · rw [List.count_eq_zero_of_not_mem (by simp; intro h h' h''; exact he ⟨h.symm, h''.symm, h'.symm⟩)]
          simp [he]
      · obtain ⟨x, m, h1, h2, h3⟩ := ih.ref i lm ((hrm i lm).mp hl)
        exact ⟨x, m, hsent _ _ _ h1, h2, hmem _ _ h3⟩
    | refuse c lm x m bs ch hx hm ho hl hb ht hse hres hback =>
      have hw : Life.wireEvs (.thread (.refusing c lm) ch) = [.refused c lm] := by simp [Life.wireEvs, ho]
      have hin : .refused c lm ∈ s'.srv.g.log := by rw [hl.wire_mem _ rfl, hw]; simp
      have hrr := (Life.C28_only_requests_refused s'.srv hr'.srv c lm hin).1
      rw [refusal_ok hs hb] at hback
      have hfc : ∀ c lm, s'.srv.g.log.count (.finish c lm) = s.srv.g.log.count (.finish c lm) := by
        intro i lm
        rw [hl.wire_count _ rfl, hw]
        exact Nat.add_eq_left.mpr (List.count_eq_zero_of_not_mem (by simp))
      have hmem : ∀ i y, y ∈ s.back i → y ∈ s'.back i := by
        intro i y hy
        rw [hback]
        by_cases hi : i = c
        · subst hi; simp [hy]
        · rw [put_ne _ _ hi]; exact hy
      have hmem' : ∀ i y, y ∈ s'.back i → y ∈ s.back i ∨ (i = c ∧ y = (some lm.id, 1 :: m.identifierBytes)) := by
        intro i y hy
        rw [hback] at hy
        by_cases hi : i = c
        · subst hi
          simp only [put_self, List.mem_append, List.map_cons, List.map_nil, List.mem_singleton] at hy
          exact hy.imp id fun h => ⟨rfl, h⟩
        · rw [put_ne _ _ hi] at hy; exact .inl hy
      refine ⟨fun i b hb => ?_, fun i n' b hb' => ?_, fun i n' => ?_, fun d hd => ?_, fun i lm' hlm' => ?_, fun i lm' hl' => ?_⟩
      · rcases hmem' i _ hb with h | ⟨_, h⟩
        · exact ih.pushed i b h
        · cases h
      · rcases hmem' i _ hb' with h | ⟨rfl, h⟩
        · rcases ih.source i n' b h with ⟨d, hd, h⟩ | ⟨lm, h1, h2⟩
          · exact .inl ⟨d, by rw [hres]; exact hd, h⟩
          · exact .inr ⟨lm, (hl.wire_mem _ rfl).mpr (.inl h1), by rw [hse]; exact h2⟩
        · cases h
          exact .inr ⟨lm, hin, rfl, x, m, hsent _ _ _ hx, hm, rfl⟩
      · have := ih.count i n'
        unfold State.ends at this ⊢
        rw [hfc, hfc, hl.wire_count _ rfl, hl.wire_count (.refused i ⟨.session, n'⟩) rfl, hw, hback]
        by_cases hi : i = c
        · subst hi
          rw [put_self, List.countP_append, countP_tag]
          by_cases hn : lm.id = n'
          · subst hn
            rw [if_pos rfl]
            simp only [List.length_singleton]
            rcases kind_of_reply hrr with e | e <;> rw [e] <;> simp only [List.count_singleton_self] <;> omega
          · rw [if_neg hn]; omega
        · rw [put_ne _ _ hi]
          omega
      · rw [hres] at hd
        obtain ⟨x, bs, h1, h2, h3, h3', h4⟩ := ih.done d hd
        exact ⟨x, bs, hsent _ _ _ h1, h2, h3, h3', fun b hb => hmem _ _ (h4 b hb)⟩
      · rw [hres, hfc]; exact ih.fin i lm' hlm'
      · rw [hl.wire_mem _ rfl, hw, List.mem_singleton] at hl'
        rcases hl' with h | h
        · obtain ⟨x, m, h1, h2, h3⟩ := ih.ref i lm' h
          exact ⟨x, m, hsent _ _ _ h1, h2, hmem _ _ h3⟩
        · cases h
          refine ⟨x, m, hsent _ _ _ hx, hm, ?_⟩
          rw [hback, put_self]
          simp

/-- What the client's request manager was told is what the client read. -/
structure ToldInv (cfg : Cfg) (s : State) : Prop where
  le : ∀ c, s.seen c ≤ (s.back c).length
  told : ∀ c, Req.toldOf (s.clients c).g.log = ((s.back c).take (s.seen c)).filterMap fun y => tells cfg y.2

theorem Step.back {l : Label} (h : Step cfg s l s') (c : ConnId) : ∃ l, s'.back c = s.back c ++ l := by
  cases h.served with
  | quiet _ _ _ hb =>
    rcases hb c with e | ⟨b, e, _⟩
    · exact ⟨[], by simpa using e⟩
    · exact ⟨_, e⟩
  | receive _ _ _ _ _ _ _ _ e => exact ⟨[], by rw [e]; simp⟩
  | finish i n inl up ch out x m bs _ _ _ _ _ _ _ _ e =>
    rw [e]
    by_cases hi : c = i
    · subst hi; exact ⟨_, by rw [put_self]⟩
    · exact ⟨[], by rw [put_ne _ _ hi]; simp⟩
  | refuse i lm x m bs ch _ _ _ _ _ _ _ _ e =>
    rw [e]
    by_cases hi : c = i
    · subst hi; exact ⟨_, by rw [put_self]⟩
    · exact ⟨[], by rw [put_ne _ _ hi]; simp⟩

/-- What the step does to the client: it reads nothing or the next message. -/
theorem Step.reads {l : Label} (h : Step cfg s l s') (c : ConnId) :
    (s'.seen c = s.seen c ∧ Req.toldOf (s'.clients c).g.log = Req.toldOf (s.clients c).g.log) ∨
    ∃ y, (s.back c)[s.seen c]? = some y ∧ s'.seen c = s.seen c + 1 ∧ s'.back c = s.back c ∧
      Req.toldOf (s'.clients c).g.log = Req.toldOf (s.clients c).g.log ++ (tells cfg y.2).toList := by
  cases h with
  | client i l cl hn hs =>
    left
    by_cases hi : c = i
    · subst hi
      refine ⟨rfl, ?_⟩
      simp only [put_self]
      rw [hs.told]
      cases l <;> simp_all
    · exact ⟨rfl, by simp only [put_ne _ _ hi]⟩
  | told i y k rep cl hy ht hs =>
    by_cases hi : c = i
    · subst hi
      refine .inr ⟨y, hy, put_self _ _ _, rfl, ?_⟩
      simp only [put_self]
      rw [hs.told, ht]
      rfl
    · exact .inl ⟨put_ne _ _ hi, by simp only [put_ne _ _ hi]⟩
  | skip i y hy ht =>
    by_cases hi : c = i
    · subst hi
      exact .inr ⟨y, hy, put_self _ _ _, rfl, by rw [ht]; simp⟩
    · exact .inl ⟨put_ne _ _ hi, rfl⟩
  | _ => exact .inl ⟨rfl, rfl⟩

theorem Reachable.toldInv (h : Reachable cfg s) : ToldInv cfg s := by
  induction h with
  | start => exact ⟨by simp, by simp [Req.toldOf]⟩
  | step s l s' hr hs ih =>
    obtain ⟨ih1, ih2⟩ := ih
    refine ⟨fun c => ?_, fun c => ?_⟩
    · obtain ⟨l, hl⟩ := hs.back c
      rcases hs.reads c with ⟨e, _⟩ | ⟨y, hy, e, _⟩
      · rw [e, hl, List.length_append]; have := ih1 c; omega
      · have := (List.getElem?_eq_some_iff.mp hy).1
        rw [e, hl, List.length_append]; omega
    · obtain ⟨l, hl⟩ := hs.back c
      rcases hs.reads c with ⟨e, ht⟩ | ⟨y, hy, e, hb, ht⟩
      · rw [ht, e, hl, List.take_append_of_le_length (ih1 c), ih2]
      · rw [ht, e, hb, ih2, List.take_add_one, hy, List.filterMap_append]
        simp [List.filterMap_cons]
        cases tells cfg y.2 <;> rfl

end Webwire.Whole
