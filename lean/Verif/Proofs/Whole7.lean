import Verif.Proofs.Whole6
import Verif.Props.Whole
import Verif.Props.Lifecycle6

/-! Helper lemmas about clients and the server together: what is still going on once everything has happened that can be
relied on to happen. -/

set_option autoImplicit false

namespace Webwire.Life

/-- The reader is done with the connection only when it is closed. -/
structure GoneInv (s : State) : Prop where
  log : ∀ c, .disconnected c ∈ s.g.log → (s.g.conns c).active = false
  on : ∀ c, .disconnecting c ∈ s.threads → (s.g.conns c).active = false
  unlink : ∀ c rd, .closeUnlinking c rd ∈ s.threads → (s.g.conns c).active = false

theorem Acts.gone {g g' : G} {ch : Choice} {pc : PC} {pcs : List PC} (h : Acts g ch pc g' pcs) (c : ConnId) :
    ((g.conns c).active = false → (g'.conns c).active = false) ∧
    (.disconnected c ∈ g'.log → .disconnected c ∈ g.log ∨ pc = .disconnecting c) ∧
    (.disconnecting c ∈ pcs → (g'.conns c).active = false ∨ ∃ rd, pc = .closeUnlinking c rd) ∧
    (∀ rd, .closeUnlinking c rd ∈ pcs → (g'.conns c).active = false) := by
  cases h <;> simp_all [G.ev, G.upd, G.crash, unlinked, resume, closed] <;> grind

theorem ReachableIf.goneInv {ok : State → Label → Prop} {s : State} (h : ReachableIf ok s) : GoneInv s := by
  induction h with
  | start => exact ⟨by simp, by simp, by simp⟩
  | step s l s' hr _ hs ih =>
    have hi := hr.inv
    have he := hr.endInv
    cases hs with
    | thread g g' pre post pcs pc ch hc hact =>
      obtain ⟨h1, h2, h3⟩ := ih
      have ha := fun c => (acts_of_act hact).gone c
      simp only [List.mem_append, List.mem_cons] at h1 h2 h3
      refine ⟨fun c hm => ?_, fun c hm => ?_, fun c rd hm => ?_⟩ <;> obtain ⟨a1, a2, a3, a4⟩ := ha c
      · rcases a2 hm with h | h
        · exact a1 (h1 c h)
        · exact a1 (h2 c (.inr (.inl h.symm)))
      · simp only [List.mem_append] at hm
        rcases hm with h | h | h
        · exact a1 (h2 c (.inl h))
        · rcases a3 h with h | ⟨rd, h⟩
          · exact h
          · exact a1 (h3 c rd (.inr (.inl h.symm)))
        · exact a1 (h2 c (.inr (.inr h)))
      · simp only [List.mem_append] at hm
        rcases hm with h | h | h
        · exact a1 (h3 c rd (.inl h))
        · exact a4 rd h
        · exact a1 (h3 c rd (.inr (.inr h)))
    | connect g ts c limit hc hu =>
      obtain ⟨h1, h2, h3⟩ := ih
      have hlog : ∀ i, .disconnected i ∈ g.log → i ≠ c := by
        rintro i hm rfl
        have h1 := he.ends i
        have h2 := List.count_pos_iff.mpr hm
        simp only [hu, Bool.false_eq_true, if_false] at h1
        omega
      have hon : ∀ pc ∈ ts, pc.isOn c = false := by
        have := (hi.unused c hu).2
        rw [List.countP_eq_zero] at this
        intro pc hp
        simpa using this pc hp
      refine ⟨fun i hm => ?_, fun i hm => ?_, fun i rd hm => ?_⟩
      · have := hlog i hm
        simp only [connected, this, if_false]
        exact h1 i hm
      · simp only [List.mem_cons, reduceCtorEq, false_or] at hm
        have : i ≠ c := by rintro rfl; simpa [PC.isOn] using hon _ hm
        simp only [connected, this, if_false]
        exact h2 i hm
      · simp only [List.mem_cons, reduceCtorEq, false_or] at hm
        have : i ≠ c := by rintro rfl; simpa [PC.isOn] using hon _ hm
        simp only [connected, this, if_false]
        exact h3 i rd hm
    | close g ts c hc hu =>
      obtain ⟨h1, h2, h3⟩ := ih
      refine ⟨h1, fun c hm => h2 c (by simpa using hm), fun c rd hm => h3 c rd (by simpa using hm)⟩
    | shutdown g ts hc =>
      obtain ⟨h1, h2, h3⟩ := ih
      refine ⟨h1, fun c hm => h2 c (by simpa using hm), fun c rd hm => h3 c rd (by simpa using hm)⟩

/-- An open connection has a reader. -/
theorem ReachableIf.reader {ok : State → Label → Prop} {s : State} (h : ReachableIf ok s) {c : ConnId}
    (ha : (s.g.conns c).active = true) : ∃ pc ∈ s.threads, pc.isReader c = true := by
  have hu : (s.g.conns c).used = true := by
    by_contra hu
    rw [(h.inv.unused c (by simpa using hu)).1] at ha
    cases ha
  have hd : .disconnected c ∉ s.g.log := fun hm => by
    rw [h.goneInv.log c hm] at ha; cases ha
  have := h.endInv.ends c
  rw [List.count_eq_zero.mpr hd, if_pos hu] at this
  exact List.countP_pos_iff.mp (by omega)

/-- Without `Shutdown` the server does not crash by an operation of its own. -/
theorem ReachableIf.noCrash {ok : State → Label → Prop} {s : State} (h : ReachableIf ok s) (hs : .stop ∉ s.g.log) :
    s.g.crashed = none := by
  induction h with
  | start => rfl
  | step s l s' hr ho hst ih =>
    clear ho
    have hi := hr.inv
    have hrf := hr.refInv
    cases hst with
    | thread g g' pre post pcs pc ch hc hact =>
      have ha := acts_of_act hact
      have hlog : .stop ∉ g.log := fun hm => hs (ha.refuses.1 _ hm)
      have hf : g.shutdown = false := by
        cases hsd : g.shutdown
        · rfl
        · exact absurd (hrf.flag hsd) hlog
      cases ha <;> simp [G.ev, G.upd, unlinked, G.crash] at * <;> try assumption
      case nilWriter c m h => exact absurd (hrf.on c m (by simp)).2 hlog
      case closeTwice => simp_all
      case badRelease c inl hl hsl =>
        have := hi.slots c hl
        simp [List.countP_append, PC.holdsSlot, hsl] at this
        omega
    | connect => exact ih hs
    | close => exact ih hs
    | shutdown => exact ih hs

end Webwire.Life

namespace Webwire.Whole
open _root_.Webwire.Spec

variable {cfg : Cfg} {s s' : State}

theorem life_step {t : Life.State} {pc : Life.PC} {ch : Life.Choice} (hc : t.g.crashed = none) (hp : pc ∈ t.threads)
    (ha : Life.act t.g ch pc ≠ none) : ∃ t', Life.Step t (.thread pc ch) t' := by
  obtain ⟨pre, post, hts⟩ := List.append_of_mem hp
  obtain ⟨⟨g', pcs⟩, h⟩ := Option.ne_none_iff_exists'.mp ha
  obtain ⟨g, ts⟩ := t
  simp only at hts
  subst hts
  exact ⟨_, .thread g g' pre post pcs pc ch hc h⟩

theorem req_step {t : Req.State Rep} {pc : Req.PC Rep} {b : Bool} (hp : pc ∈ t.threads)
    (ha : Req.act t.g b pc ≠ none) : ∃ t', Req.Step t (.thread pc b) t' := by
  obtain ⟨pre, post, hts⟩ := List.append_of_mem hp
  obtain ⟨⟨g', pcs⟩, h⟩ := Option.ne_none_iff_exists'.mp ha
  obtain ⟨g, ts⟩ := t
  simp only at hts
  subst hts
  exact ⟨_, .thread g g' pre post pcs pc b h⟩

/-- Handlers can return. -/
theorem answers_any (hs : ideal cfg.srv) (c : ConnId) (m : Msg) {ident : Bytes} {ask : Ask} (ha : Whole.Spec.AsksFor m ident ask) :
    ∃ out : Out, out.kind = ask.kind ∧ out.fits cfg.srv.sessionsEnabled m.msgType = true ∧ answers cfg c m out false = .ok [] := by
  unfold ideal at hs
  cases ask with
  | request =>
    refine ⟨.hook {}, rfl, rfl, ?_⟩
    simp [answers, answer, answerRequest, fulfillMsg, withWriter, world, hs, netSockets, bind, Except.bind, pure, Except.pure]
  | restore key =>
    have ht : m.msgType = 32 := ha.msgType
    rw [ht]
    cases he : cfg.srv.sessionsEnabled with
    | false =>
      refine ⟨.session .disabled, rfl, rfl, ?_⟩
      simp [answers, answer, answerSession, failMsg, withWriter, world, hs, netSockets, bind, Except.bind, pure, Except.pure]
    | true =>
      refine ⟨.session .missing, rfl, rfl, ?_⟩
      simp [answers, answer, answerSession, failMsg, withWriter, world, hs, netSockets, bind, Except.bind, pure, Except.pure]
  | close =>
    have ht : m.msgType = 31 := ha.msgType
    rw [ht]
    cases he : cfg.srv.sessionsEnabled with
    | false =>
      refine ⟨.session .disabled, rfl, rfl, ?_⟩
      simp [answers, answer, answerSession, failMsg, withWriter, world, hs, netSockets, bind, Except.bind, pure, Except.pure]
    | true =>
      refine ⟨.session .closed, rfl, rfl, ?_⟩
      simp [answers, answer, answerSession, fulfillMsg, withWriter, world, hs, netSockets, bind, Except.bind, pure, Except.pure]

/-- What goroutines of the connection can be doing when all is quiet. -/
theorem Quiet.server (hs : ideal cfg.srv) (h : Reachable cfg s) {c : ConnId} (hq : Spec.Quiet cfg s c) (hn : .stop ∉ s.srv.g.log)
    {pc : Life.PC} (hp : pc ∈ s.srv.threads) (ho : pc.isOn c = true) :
    pc = .reading c ∨ ∃ m, pc = .acquiring c m ∧ Life.act s.srv.g {} pc = none := by
  have hc := Life.ReachableIf.noCrash h.srv hn
  by_contra hne
  simp only [not_or, not_exists] at hne
  obtain ⟨h1, h2⟩ := hne
  have hact : Life.act s.srv.g {} pc ≠ none := by
    intro hx
    cases pc <;> simp only [Life.act, reduceCtorEq] at hx
    case acquiring i m =>
      obtain rfl : i = c := by simpa [Life.PC.isOn] using ho
      exact h2 m ⟨rfl, by simpa only [Life.act] using hx⟩
    case waiting => cases ho
  obtain ⟨t, ht⟩ := life_step hc hp hact
  by_cases hi : Internal (.thread pc {})
  · refine hq (.server (.thread pc {})) _ ho ?_ (.server _ t hi ht)
    cases pc <;> try exact trivial
    case reading i =>
      obtain rfl : i = c := by simpa [Life.PC.isOn] using ho
      exact absurd rfl h1
    case refusing i m => exact absurd ((Life.ReachableIf.refInv h.srv).on i m hp).2 hn
  · cases pc <;> try exact hi trivial
    case reading i =>
      obtain rfl : i = c := by simpa [Life.PC.isOn] using ho
      exact h1 rfl
    case refusing i m => exact absurd ((Life.ReachableIf.refInv h.srv).on i m hp).2 hn
    case running i m inl =>
      have hk : m.requiresReply = true := by simpa [Internal] using hi
      obtain rfl : i = c := by simpa [Life.PC.isOn] using ho
      obtain ⟨x, k, q, m', hx, _, _, hm, _, _, hask, hkind⟩ := h.asked (h.worked (c := i) (lm := m) hp (by simp [Life.Spec.WorksOn]) hk) hk
      obtain ⟨out, hout, hfit, hans⟩ := answers_any hs i m' hask
      obtain ⟨kd, n⟩ := m
      obtain rfl : kd = out.kind := hkind.trans hout.symm
      exact hq (.finish i n) _ rfl trivial (.finish i n inl false {} out x m' [] t hx hm ht hfit hans)

/-- On an open connection the server waits for a message. -/
theorem Quiet.reads (hs : ideal cfg.srv) (h : Reachable cfg s) {c : ConnId} (hq : Spec.Quiet cfg s c) (hn : .stop ∉ s.srv.g.log)
    (ha : (s.srv.g.conns c).active = true) : .reading c ∈ s.srv.threads ∧ ∀ pc ∈ s.srv.threads, pc.isOn c = true → pc = .reading c := by
  have key : ∀ pc ∈ s.srv.threads, pc.isOn c = true → pc = .reading c := by
    intro pc hp ho
    rcases Quiet.server hs h hq hn hp ho with rfl | ⟨m, rfl, hw⟩
    · rfl
    · obtain ⟨h1, h2⟩ := Life.C92_waits h.srv hn hp ho hw
      have hpos : 0 < s.srv.threads.countP fun a => Life.Spec.handling c a || a.returned c := by omega
      obtain ⟨a, hm, hx⟩ := List.countP_pos_iff.mp hpos
      have hon : a.isOn c = true := by cases a <;> simp_all [Life.Spec.handling, Life.PC.returned, Life.PC.isOn]
      rcases Quiet.server hs h hq hn hm hon with rfl | ⟨m, rfl, _⟩ <;>
        simp [Life.Spec.handling, Life.PC.returned] at hx
  obtain ⟨pc, hp, hr⟩ := Life.ReachableIf.reader h.srv ha
  have := key pc hp (Life.PC.isReader_isOn hr)
  exact ⟨this ▸ hp, key⟩

/-- Everything sent on an open connection was read. -/
theorem Quiet.taken (hs : ideal cfg.srv) (h : Reachable cfg s) {c : ConnId} (hq : Spec.Quiet cfg s c) (hn : .stop ∉ s.srv.g.log)
    (ha : (s.srv.g.conns c).active = true) : s.taken c = (s.sent c).length := by
  by_contra hne
  have hlt : s.taken c < (s.sent c).length := Nat.lt_of_le_of_ne (h.arrInv.le c) hne
  obtain ⟨hr, -⟩ := Quiet.reads hs h hq hn ha
  have hx := List.getElem?_eq_getElem hlt
  obtain ⟨t, ht⟩ := life_step (ch := ⟨incoming cfg (s.taken c) ((s.sent c)[s.taken c]).bytes, true⟩)
    (Life.ReachableIf.noCrash h.srv hn) hr (by simp [Life.act])
  exact hq (.receive c) _ rfl trivial (.receive c _ true t hx ht)

/-- The client has read everything. -/
theorem Quiet.seen (h : Reachable cfg s) {c : ConnId} (hq : Spec.Quiet cfg s c) : s.seen c = (s.back c).length := by
  by_contra hne
  have hlt : s.seen c < (s.back c).length := Nat.lt_of_le_of_ne (h.toldInv.le c) hne
  have hy := List.getElem?_eq_getElem hlt
  cases ht : tells cfg ((s.back c)[s.seen c]).2 with
  | none => exact hq (.skip c) _ rfl trivial (.skip c _ hy ht)
  | some p => exact hq (.told c) _ rfl trivial (.told c _ p.1 p.2 _ hy ht (.call (s.clients c).g (s.clients c).threads p.1 p.2))

/-- What goroutines of the client can be doing when all is quiet: wait for replies there are none of. -/
theorem Quiet.client (hs : ideal cfg.srv) (h : Reachable cfg s) {c : ConnId} (hq : Spec.Quiet cfg s c)
    (hcl : ∀ d ∈ s.results, d.c = c → d.out.closesMsg = false)
    (hn : (Req.draws (s.clients c).g.log).length < 2 ^ 64) {pc : Req.PC Rep} (hp : pc ∈ (s.clients c).threads) :
    ∃ (r : Nat) (q : Req.Request Rep), pc = .awaiting r ∧ (s.clients c).g.reqs[r]? = some q ∧ q.chan = none := by
  have hno : Req.act (s.clients c).g false pc = none := by
    by_contra hx
    obtain ⟨t, ht⟩ := req_step hp hx
    exact hq (.client c (.thread pc false)) _ rfl rfl (.client c _ t (by simp) ht)
  have hi := (h.client c).inv
  by_cases hr : pc.resolves = true
  · obtain ⟨g', pcs, ha⟩ := C97_never_blocks hs h c hcl hn pc hp hr false
    rw [hno] at ha; cases ha
  · cases pc with
    | creating id => simp [Req.act] at hno
    | looking => simp [Req.PC.resolves] at hr
    | removing => simp [Req.PC.resolves] at hr
    | sending => simp [Req.PC.resolves] at hr
    | awaiting r =>
      have hlt := hi.refs _ hp r (by simp [Req.PC.refs])
      refine ⟨r, _, rfl, List.getElem?_eq_getElem hlt, ?_⟩
      simp only [Req.act, Bool.false_eq_true, if_false, List.getElem?_eq_getElem hlt] at hno
      split at hno
      · assumption
      · cases hno
    | forgetting r =>
      have hlt := hi.refs _ hp r (by simp [Req.PC.refs])
      simp [Req.act, List.getElem?_eq_getElem hlt] at hno

end Webwire.Whole
