import Verif.Proofs.Whole4
import Verif.Props.RequestManager2

/-! Helper lemmas about clients and the server together: each request is told one answer. -/

set_option autoImplicit false

namespace Webwire

namespace Req

variable {R : Type}

/-- `Fulfill` and `Fail` are called for requests that exist, at most once for each. -/
def Fresh (s : State R) : Label R → Prop
  | .call k _ => (∀ c p, .called c k p ∉ s.g.log) ∧ ∃ (r : Nat) (q : Request R), s.g.reqs[r]? = some q ∧ q.ident = k
  | _ => True

theorem ReachableIf.mono {ok ok' : State R → Label R → Prop} {s : State R} (h : ReachableIf ok s) (hi : ∀ s l, ok s l → ok' s l) :
    ReachableIf ok' s := by
  induction h with
  | start => exact .start
  | step s l s' _ ho hs ih => exact .step _ l _ ih (hi _ _ ho) hs

theorem ReachableIf.oneAtATime {s : State R} (h : ReachableIf Fresh s) : ReachableIf OneAtATime s := by
  refine h.mono fun s l hf => ?_
  cases l with
  | call k p => exact fun c p hc => absurd hc (hf.1 c p)
  | _ => trivial

/-- The goroutine is in the call, and it is about this request. -/
def PC.serves (c r : Nat) : PC R → Bool
  | .looking c' _ _ => decide (c' = c)
  | .removing c' r' _ _ => decide (c' = c ∧ r' = r)
  | .sending c' r' _ => decide (c' = c ∧ r' = r)
  | _ => false

/-- Each call of `Fulfill` or `Fail` is under way, or it has resolved its request. -/
def Served (s : State R) : Prop := ∀ c k p, .called c k p ∈ s.g.log → ∃ (r : Nat) (q : Request R), s.g.reqs[r]? = some q ∧
  q.ident = k ∧ ((∃ e ∈ s.g.log, e.closes r = true) ∨ ∃ pc ∈ s.threads, pc.serves c r = true)

theorem served {s : State R} (h : ReachableIf Fresh s) (hn : (draws s.g.log).length < 2 ^ 64) : Served s := by
  induction h with
  | start => intro c k p hc; simp at hc
  | step s l s' hr ho hs ih =>
    have hn0 := Nat.lt_of_le_of_lt hs.draws_le hn
    have hv := seqInv hr.oneAtATime
    have hi := hr.inv
    have hl := hr.live hn0
    have hk := fun (r : Nat) (q : Request R) (hq : s.g.reqs[r]? = some q) => hs.keeps hq
    specialize ih hn0
    cases hs with
    | thread g g' pre post pcs pc b hact =>
      have ha := acts_of_act hact
      obtain ⟨es, he, hes⟩ := ha.log
      simp only at *
      intro c k p hc
      simp only [he, List.mem_append] at hc
      rcases hc with hc | hc
      swap
      · have := hes _ hc c; simp [Ev.calls] at this
      obtain ⟨r, q, hq, hqk, hor⟩ := ih c k p hc
      obtain ⟨q', hq', hid⟩ := hk r q hq
      rcases hor with ⟨e, hel, hcl⟩ | ⟨x, hx, hsv⟩
      · exact ⟨r, q', hq', hid.trans hqk, .inl ⟨e, by simp only [he, List.mem_append]; exact .inl hel, hcl⟩⟩
      · have hx' : x = pc ∨ x ∈ pre ++ post := by
          simp only [List.mem_append, List.mem_cons] at hx ⊢; tauto
        rcases hx' with rfl | hx'
        swap
        · exact ⟨r, q', hq', hid.trans hqk, .inr ⟨x, by
            simp only [List.mem_append] at hx' ⊢; tauto, hsv⟩⟩
        cases ha with
        | notFound call ident rep hp =>
          obtain rfl : call = c := by simpa [PC.serves] using hsv
          have hcd := hi.look call ident rep (by simp)
          obtain ⟨rfl, _⟩ := hr.callInv.unique hcd hc
          rcases hl r q hq with hpd | ⟨e, hel, hcl⟩ | ⟨c2, p2, hs2⟩
          · simp only at hpd; rw [hqk] at hpd; rw [hpd] at hp; cases hp
          · exact ⟨r, q', hq', hid.trans hqk, .inl ⟨e, by simp only [he, List.mem_append]; exact .inl hel, hcl⟩⟩
          · obtain ⟨q2, hq2, hc2, _⟩ := hi.send c2 r p2 hs2
            simp only at hq2
            rw [hq] at hq2
            cases hq2
            rw [hqk] at hc2
            refine (hv.apart (x := .sending c2 r p2) (c := call) (c' := c2) rfl ?_ rfl hc hc2).elim
            simp only [List.mem_append, List.mem_cons, reduceCtorEq, false_or] at hs2 ⊢
            exact hs2
        | found call r2 ident rep hp =>
          obtain rfl : call = c := by simpa [PC.serves] using hsv
          have hcd := hi.look call ident rep (by simp)
          obtain ⟨rfl, _⟩ := hr.callInv.unique hcd hc
          obtain ⟨q2, hq2, hid2, _⟩ := hi.pend ident r2 hp
          exact ⟨r2, q2, hq2, hid2, .inr ⟨.removing call r2 ident rep, by simp, by simp [PC.serves]⟩⟩
        | remove call r2 ident rep =>
          obtain ⟨rfl, rfl⟩ : call = c ∧ r2 = r := by simpa [PC.serves] using hsv
          exact ⟨r2, q', hq', hid.trans hqk, .inr ⟨.sending call r2 rep, by simp, by simp [PC.serves]⟩⟩
        | send call r2 rep q2 hq2 hc2 =>
          obtain ⟨rfl, rfl⟩ : call = c ∧ r2 = r := by simpa [PC.serves] using hsv
          exact ⟨r2, q', hq', hid.trans hqk, .inl ⟨.delivered call r2, by simp [G.ev], by simp [Ev.closes]⟩⟩
        | _ => simp [PC.serves] at hsv
    | create g ts =>
      intro c k p hc
      simp only [G.ev, List.mem_append, List.mem_singleton, reduceCtorEq, or_false] at hc
      obtain ⟨r, q, hq, hqk, hor⟩ := ih c k p hc
      refine ⟨r, q, hq, hqk, ?_⟩
      rcases hor with ⟨e, hel, hcl⟩ | ⟨x, hx, hsv⟩
      · exact .inl ⟨e, by simp only at hel; simp [G.ev, hel], hcl⟩
      · exact .inr ⟨x, by simp only at hx; simp [hx], hsv⟩
    | call g ts ident rep =>
      intro c k p hc
      simp only [G.ev, List.mem_append, List.mem_singleton, Ev.called.injEq] at hc
      rcases hc with hc | ⟨rfl, rfl, rfl⟩
      · obtain ⟨r, q, hq, hqk, hor⟩ := ih c k p hc
        refine ⟨r, q, hq, hqk, ?_⟩
        rcases hor with ⟨e, hel, hcl⟩ | ⟨x, hx, hsv⟩
        · exact .inl ⟨e, by simp only at hel; simp [G.ev, hel], hcl⟩
        · exact .inr ⟨x, by simp only at hx; simp [hx], hsv⟩
      · obtain ⟨r, q, hq, hqk⟩ := ho.2
        exact ⟨r, q, hq, hqk, .inr ⟨_, List.mem_cons_self, by simp [PC.serves]⟩⟩
    | await g ts r0 hr0 =>
      intro c k p hc
      obtain ⟨r, q, hq, hqk, hor⟩ := ih c k p hc
      refine ⟨r, q, hq, hqk, ?_⟩
      rcases hor with h | ⟨x, hx, hsv⟩
      · exact .inl h
      · exact .inr ⟨x, by simp only at hx; simp [hx], hsv⟩

end Req

namespace Whole
open _root_.Webwire.Spec

variable {cfg : Cfg} {s s' : State}

theorem two_le_countP {α : Type} {p : α → Bool} {l : List α} {i j : Nat} {a b : α} (hij : i < j) (ha : l[i]? = some a)
    (hb : l[j]? = some b) (pa : p a = true) (pb : p b = true) : 2 ≤ l.countP p := by
  have h1 : a ∈ l.take j := by
    refine List.mem_of_getElem? (i := i) ?_
    rw [List.getElem?_take]; simp [hij, ha]
  have h2 : b ∈ l.drop j := by
    refine List.mem_of_getElem? (i := 0) ?_
    rw [List.getElem?_drop]; simpa using hb
  have h3 : l.countP p = (l.take j).countP p + (l.drop j).countP p := by
    rw [← List.countP_append, List.take_append_drop]
  have h4 := List.countP_pos_iff.mpr ⟨a, h1, pa⟩
  have h5 := List.countP_pos_iff.mpr ⟨b, h2, pb⟩
  omega

theorem Reachable.counts (h : Reachable cfg s) (c : ConnId) (lm : Life.LMsg) (hr : lm.requiresReply = true) :
    s.srv.g.log.count (.finish c lm) + s.srv.g.log.count (.refused c lm) ≤
      s.srv.g.log.count (.arrived c lm) ∧ s.srv.g.log.count (.arrived c lm) ≤ 1 := by
  have h1 := (Life.C22_interleaved s.srv h.srv c lm hr).1
  exact ⟨by omega, h.arrInv.once c _⟩

/-- A message has one type. -/
theorem Reachable.oneKind (h : Reachable cfg s) {c : ConnId} {k k' : Life.Kind} {n : Nat} (h1 : .arrived c ⟨k, n⟩ ∈ s.srv.g.log)
    (h2 : .arrived c ⟨k', n⟩ ∈ s.srv.g.log) : k = k' := by
  obtain ⟨_, x, hx, hin⟩ := (h.arrInv.iff c _).mp h1
  obtain ⟨_, x', hx', hin'⟩ := (h.arrInv.iff c _).mp h2
  simp only at hx hx' hin hin'
  rw [hx] at hx'
  cases hx'
  rw [hin] at hin'
  cases hin'
  rfl

theorem Reachable.ends (h : Reachable cfg s) (c : ConnId) (n : Nat) : s.ends c n ≤ 1 := by
  have h1 := h.counts c ⟨.request, n⟩ rfl
  have h2 := h.counts c ⟨.session, n⟩ rfl
  unfold State.ends
  rcases Nat.eq_zero_or_pos (s.srv.g.log.count (.arrived c ⟨.request, n⟩)) with h0 | h0
  · omega
  rcases Nat.eq_zero_or_pos (s.srv.g.log.count (.arrived c ⟨.session, n⟩)) with h0' | h0'
  · omega
  cases h.oneKind (List.count_pos_iff.mp h0) (List.count_pos_iff.mp h0')

theorem Reachable.oneReply (hs : ideal cfg.srv) (h : Reachable cfg s) (c : ConnId) (n : Nat) :
    (s.back c).countP (fun y => decide (y.1 = some n)) ≤ 1 :=
  ((h.backInv hs).count c n).trans (h.ends c n)

/-- A result is one the request can have. -/
theorem possible_of {enabled : Bool} {ask : Ask} {out : Out} {m : Msg} {ident : Bytes} (hk : out.kind = ask.kind)
    (ha : Whole.Spec.AsksFor m ident ask) (hf : out.fits enabled m.msgType = true) : Whole.Spec.Possible enabled ask out := by
  cases ask with
  | request => cases out <;> simp_all [Ask.kind, Out.kind, Whole.Spec.Possible]
  | restore key =>
    have ht : m.msgType = 32 := ha.msgType
    rw [ht] at hf
    cases out with
    | hook => simp [Ask.kind, Out.kind] at hk
    | session o => cases o <;> simpa [Out.fits, SessOut.fits, Whole.Spec.Possible, MsgRequestRestoreSession, MsgRequestCloseSession] using hf
  | close =>
    have ht : m.msgType = 31 := ha.msgType
    rw [ht] at hf
    cases out with
    | hook => simp [Ask.kind, Out.kind] at hk
    | session o => cases o <;> simpa [Out.fits, SessOut.fits, Whole.Spec.Possible, MsgRequestRestoreSession, MsgRequestCloseSession] using hf

theorem Out.kind_reply (out : Out) (n : Nat) : (⟨out.kind, n⟩ : Life.LMsg).requiresReply = true := by
  cases out <;> rfl

theorem Out.kind_cases (out : Out) : out.kind = .request ∨ out.kind = .session := by
  cases out <;> simp [Out.kind]

theorem Ask.kind_reply (ask : Ask) (n : Nat) : (⟨ask.kind, n⟩ : Life.LMsg).requiresReply = true := by
  cases ask <;> rfl

/-- Where an answer comes from. -/
theorem Reachable.origin (hs : ideal cfg.srv) (h : Reachable cfg s) {c : ConnId}
    (hcl : ∀ d ∈ s.results, d.c = c → d.out.closesMsg = false) {y : Option Nat × Bytes} (hy : y ∈ s.back c) {k : Bytes} {rep : Rep}
    (ht : tells cfg y.2 = some (k, rep)) :
    ∃ (n : Nat) (x : Sent) (call : Call) (q : Req.Request Rep), y.1 = some n ∧ (s.sent c)[n]? = some x ∧ x.req = some call ∧
      (s.clients c).g.reqs[call.r]? = some q ∧ q.ident = k ∧
      ((∃ d ∈ s.results, d.c = c ∧ d.n = n ∧ Whole.Spec.AsksFor d.msg q.ident call.ask ∧
          Whole.Spec.Possible cfg.srv.sessionsEnabled call.ask d.out ∧ Whole.Spec.Means d.out rep) ∨
        (rep = .error .shutdown ∧ .refused c ⟨call.ask.kind, n⟩ ∈ s.srv.g.log)) := by
  have hb := h.backInv hs
  obtain ⟨o, b⟩ := y
  cases o with
  | none => rw [tells_other (hb.pushed c b hy)] at ht; cases ht
  | some n =>
    have hask : ∀ lm : Life.LMsg, lm.requiresReply = true → ∀ e : Life.LEv, e = .finish c lm ∨ e = .refused c lm → e ∈ s.srv.g.log →
        .arrived c lm ∈ s.srv.g.log := by
      intro lm hlm e he hm
      have hcn := h.counts c lm hlm
      have := List.count_pos_iff.mpr hm
      refine List.count_pos_iff.mp ?_
      rcases he with rfl | rfl <;> omega
    rcases hb.source c n b hy with ⟨d, hd, hdc, hdn, bs, hbs, hbb⟩ | ⟨lm, hrf, rfl, x, m, hx, hm, rfl⟩
    · have hkr := d.out.kind_reply n
      have hfin : .finish c ⟨d.out.kind, n⟩ ∈ s.srv.g.log := by
        rw [← List.count_pos_iff, ← hb.fin c _ hkr, List.countP_pos_iff]
        exact ⟨d, hd, by simp [hdc, hdn]⟩
      obtain ⟨x, call, q, m, hx, hxr, hq, hm, hid, _, hsh, hkind⟩ := h.asked (hask _ hkr _ (.inl rfl) hfin) hkr
      obtain ⟨x', _, hx', hm', hfit, _⟩ := hb.done d hd
      rw [hdc, hdn] at hx'
      simp only at hx
      rw [hx] at hx'
      cases hx'
      rw [hm] at hm'
      cases hm'
      have hah : d.out.after d.msg = d.msg := by simp [Out.after, hcl d hd hdc]
      rcases (answers_ok hs hbs).1 with rfl | ⟨wc, hwc, hv, rfl⟩
      · cases hbb
      · rw [List.mem_singleton] at hbb
        subst hbb
        rw [hah, hid] at hwc
        obtain ⟨rfl, hres⟩ := (tells_out (cfg := cfg) (req_ident_length (h.client c) hq) hwc hv).2 k rep ht
        exact ⟨n, x, call, q, rfl, hx, hxr, hq, rfl, .inl ⟨d, hd, hdc, hdn, hsh, possible_of hkind hsh hfit, hres⟩⟩
    · have hkr := (Life.C28_only_requests_refused s.srv h.srv c _ hrf).1
      obtain ⟨x', call, q, m', hx', hxr, hq, hm', hid, _, hsh, hkind⟩ := h.asked (hask _ hkr _ (.inr rfl) hrf) hkr
      rw [hx] at hx'
      cases hx'
      rw [hm] at hm'
      cases hm'
      rw [hid] at ht
      obtain ⟨rfl, hres⟩ := (tells_shutdown (cfg := cfg) (req_ident_length (h.client c) hq)).2 k rep ht
      exact ⟨lm.id, x, call, q, rfl, hx, hxr, hq, rfl, .inr ⟨hres, by rw [← hkind]; exact hrf⟩⟩

theorem mem_toldOf {R : Type} {log : List (Req.Ev R)} {k : Bytes} {p : R} : (k, p) ∈ Req.toldOf log ↔ ∃ c, .called c k p ∈ log := by
  unfold Req.toldOf
  rw [List.mem_filterMap]
  constructor
  · rintro ⟨e, he, h⟩
    cases e <;> simp at h
    obtain ⟨rfl, rfl⟩ := h
    exact ⟨_, he⟩
  · rintro ⟨c, hc⟩
    exact ⟨_, hc, rfl⟩

/-- What the client told its request manager stands in a message it read. -/
theorem Reachable.read (h : Reachable cfg s) {c : ConnId} {k : Bytes} {p : Rep} :
    (∃ call, .called call k p ∈ (s.clients c).g.log) ↔ ∃ j y, j < s.seen c ∧ (s.back c)[j]? = some y ∧ tells cfg y.2 = some (k, p) := by
  rw [← mem_toldOf, h.toldInv.told c, List.mem_filterMap]
  constructor
  · rintro ⟨y, hy, ht⟩
    obtain ⟨j, hj⟩ := List.getElem?_of_mem hy
    rw [List.getElem?_take] at hj
    split at hj
    · exact ⟨j, y, by assumption, hj, ht⟩
    · cases hj
  · rintro ⟨j, y, hj, hy, ht⟩
    exact ⟨y, List.mem_of_getElem? (i := j) (by rw [List.getElem?_take, if_pos hj]; exact hy), ht⟩

theorem Step.results {l : Label} (h : Step cfg s l s') : ∃ l, s'.results = s.results ++ l := by
  cases h.served with
  | quiet _ _ hr _ => exact ⟨[], by rw [hr]; simp⟩
  | receive c x ok hx hl ht hse hres hback => exact ⟨[], by rw [hres]; simp⟩
  | finish c n inl up ch out x m bs hx hm hl hfit hb ht hse hres hback => exact ⟨_, hres⟩
  | refuse c lm x m bs ch hx hm ho hl hb ht hse hres hback => exact ⟨[], by rw [hres]; simp⟩

/-- The client's request manager is told at most one answer for each request. -/
theorem Reachable.fresh (hs : ideal cfg.srv) (h : Reachable cfg s) {c : ConnId}
    (hcl : ∀ d ∈ s.results, d.c = c → d.out.closesMsg = false)
    (hn : (Req.draws (s.clients c).g.log).length < 2 ^ 64) : Req.ReachableIf Req.Fresh (s.clients c) := by
  induction h with
  | start => exact .start
  | step s l s' hr hst ih =>
    obtain ⟨l, hl⟩ := hst.results
    have hcl' : ∀ d ∈ s.results, d.c = c → d.out.closesMsg = false := fun d hd => hcl d (by rw [hl]; simp [hd])
    have hn' : (Req.draws (s.clients c).g.log).length < 2 ^ 64 := by
      rcases hst.evolves.cl c with e | ⟨l, hl⟩
      · rw [← e]; exact hn
      · exact Nat.lt_of_le_of_lt hl.draws_le hn
    specialize ih hcl' hn'
    cases hst with
    | client i l cl hnc hq =>
      by_cases hi : c = i
      · subst hi
        simp only [put_self]
        refine .step _ l _ ih ?_ hq
        cases l with
        | call k p => exact absurd rfl (hnc k p)
        | _ => trivial
      · simp only [put_ne _ _ hi]; exact ih
    | told i y k rep cl hy ht hq =>
      by_cases hi : c = i
      · subst hi
        simp only [put_self]
        refine .step _ _ _ ih ?_ hq
        obtain ⟨n, x, call, q, hyn, hx, hxr, hqr, hqk, _⟩ := hr.origin hs hcl' (List.mem_of_getElem? hy) ht
        refine ⟨fun c2 p2 hc2 => ?_, call.r, q, hqr, hqk⟩
        obtain ⟨j, y2, hj, hy2, ht2⟩ := hr.read.mp ⟨c2, hc2⟩
        obtain ⟨n2, x2, call2, q2, hyn2, hx2, hxr2, hqr2, hqk2, _⟩ := hr.origin hs hcl' (List.mem_of_getElem? hy2) ht2
        have hrr : call2.r = call.r := (hr.client c).idInv.distinct hn' _ _ _ _ hqr2 hqr (hqk2.trans hqk.symm)
        have hnn := hr.sentInv.once c n2 n x2 x call2 call hx2 hx hxr2 hxr hrr
        subst hnn
        have h1 := two_le_countP (p := fun y : Option Nat × Bytes => decide (y.1 = some n2)) hj hy2 hy (by simp [hyn2]) (by simp [hyn])
        have h2 := hr.oneReply hs c n2
        omega
      · simp only [put_ne _ _ hi]; exact ih
    | _ => exact ih

end Whole

end Webwire
