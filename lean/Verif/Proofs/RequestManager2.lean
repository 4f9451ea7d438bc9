import Verif.Proofs.RequestManager

/-!
# Lemmas on the request manager: calls, and calls one at a time
-/

set_option autoImplicit false

set_option linter.unusedSimpArgs false

namespace Webwire.Req

variable {R : Type}

theorem Inv.step {s s' : State R} {l : Label R} (hi : Inv s) (h : Step s l s') : Inv s' := by
  cases h with
  | thread g g' pre post pcs pc b hact => exact hi.acts (acts_of_act hact)
  | create g ts =>
    obtain ⟨h1, h2, h3, h4, h5, h6, h7, h8, h9, h10, h11, h12⟩ := hi
    have hE := @Early.append R g.log
    simp only [List.mem_append, List.mem_cons] at *
    constructor <;> simp only [G.ev, List.mem_append, List.mem_cons, List.nil_append] <;>
      grind [Ev.closes, PC.refs, Ev.refs]
  | call g ts ident rep =>
    obtain ⟨h1, h2, h3, h4, h5, h6, h7, h8, h9, h10, h11, h12⟩ := hi
    have hE := @Early.append R g.log
    simp only [List.mem_append, List.mem_cons] at *
    constructor <;> simp only [G.ev, List.mem_append, List.mem_cons, List.nil_append] <;>
      grind [Ev.closes, PC.refs, Ev.refs]
  | await g ts r hr =>
    obtain ⟨h1, h2, h3, h4, h5, h6, h7, h8, h9, h10, h11, h12⟩ := hi
    simp only [List.mem_append, List.mem_cons] at *
    constructor <;> simp only [G.ev, List.mem_append, List.mem_cons, List.nil_append] <;>
      grind [Ev.closes, PC.refs, Ev.refs]

theorem ReachableIf.inv {ok : State R → Label R → Prop} {s : State R} (h : ReachableIf ok s) : Inv s := by
  induction h with
  | start => constructor <;> simp
  | step s l s' hr ho hs ih => exact ih.step hs

/-! ## Calls -/

structure CallInv (s : State R) : Prop where
  lt : ∀ c k p, .called c k p ∈ s.g.log → c < s.g.calls
  once : ∀ c, s.g.log.countP (Ev.calls c) ≤ 1

theorem Acts.log {g g' : G R} {pc : PC R} {pcs : List (PC R)} (h : Acts g pc g' pcs) :
    ∃ es, g'.log = g.log ++ es ∧ (∀ e ∈ es, ∀ c, Ev.calls c e = false) := by
  cases h
  case create => exact ⟨[_], rfl, by simp [Ev.calls]⟩
  case notFound => exact ⟨[_], rfl, by simp [Ev.calls]⟩
  case found => exact ⟨[], by simp, by simp⟩
  case remove => exact ⟨[], by simp [G.deregister], by simp⟩
  case send => exact ⟨[_, _], rfl, by simp [Ev.calls]⟩
  case ctxDone => exact ⟨[], by simp, by simp⟩
  case receive => exact ⟨[_], rfl, by simp [Ev.calls]⟩
  case forget => exact ⟨[_], rfl, by simp [Ev.calls]⟩

theorem CallInv.step {s s' : State R} {l : Label R} (hi : CallInv s) (h : Step s l s') : CallInv s' := by
  obtain ⟨h1, h2⟩ := hi
  cases h with
  | thread g g' pre post pcs pc b hact =>
    obtain ⟨es, he, hc⟩ := (acts_of_act hact).log
    refine ⟨?_, ?_⟩
    · intro c k p hm
      simp only [G.calls, he, List.countP_append] at *
      rcases List.mem_append.mp hm with hm | hm
      · exact Nat.lt_of_lt_of_le (h1 c k p hm) (Nat.le_add_right _ _)
      · have := hc _ hm c
        simp [Ev.calls] at this
    · intro c
      simp only [he, List.countP_append]
      have : es.countP (Ev.calls c) = 0 := by
        rw [List.countP_eq_zero]; intro e hm; simp [hc e hm c]
      have h2c := h2 c
      simp only at h2c
      omega
  | create g ts =>
    refine ⟨?_, ?_⟩
    · intro c k p hm
      have := h1 c k p (by simpa [G.ev] using hm)
      simpa [G.calls, G.ev, List.countP_append] using this
    · intro c; have := h2 c; simpa [G.ev, List.countP_append, Ev.calls] using this
  | call g ts ident rep =>
    refine ⟨?_, ?_⟩
    · intro c k p hm
      simp only [G.ev, List.mem_append, List.mem_singleton] at hm
      simp only [G.calls, G.ev, List.countP_append, List.countP_singleton, if_true]
      rcases hm with hm | hm
      · have := h1 c k p hm; simp only [G.calls] at this; omega
      · cases hm; simp only [G.calls]; omega
    · intro c
      have hc := h2 c
      simp only [G.ev, List.countP_append, List.countP_singleton]
      by_cases hcc : g.calls = c
      · subst hcc
        have : g.log.countP (Ev.calls g.calls) = 0 := by
          rw [List.countP_eq_zero]
          intro e hm he
          cases e <;> simp [Ev.calls] at he
          rename_i c' k p
          have := h1 c' k p hm
          simp only at this
          omega
        rw [this]; simp [Ev.calls]
      · simpa [Ev.calls, hcc] using hc
  | await g ts r hr => exact ⟨h1, h2⟩

theorem ReachableIf.callInv {ok : State R → Label R → Prop} {s : State R} (h : ReachableIf ok s) : CallInv s := by
  induction h with
  | start => constructor <;> simp
  | step s l s' hr ho hs ih => exact ih.step hs

theorem CallInv.unique {s : State R} (h : CallInv s) {c : Nat} {k1 k2 : Bytes} {p1 p2 : R}
    (h1 : .called c k1 p1 ∈ s.g.log) (h2 : .called c k2 p2 ∈ s.g.log) : k1 = k2 ∧ p1 = p2 := by
  by_contra hne
  have ho := h.once c
  rw [List.countP_eq_length_filter] at ho
  have m1 : Ev.called c k1 p1 ∈ s.g.log.filter (Ev.calls c) := by simp [h1, Ev.calls]
  have m2 : Ev.called c k2 p2 ∈ s.g.log.filter (Ev.calls c) := by simp [h2, Ev.calls]
  match hl : s.g.log.filter (Ev.calls c) with
  | [] => rw [hl] at m1; cases m1
  | [x] =>
    rw [hl, List.mem_singleton] at m1 m2
    rw [← m2] at m1
    cases m1
    exact hne ⟨rfl, rfl⟩
  | x :: y :: t => rw [hl] at ho; simp at ho

/-- A call after the request was done does not return true, while identifiers are not reused. -/
theorem late_call {s : State R} {ok : State R → Label R → Prop} (h : ReachableIf ok s)
    (hn : (draws s.g.log).length < 2 ^ 64) {r : Nat} {q : Request R} (hq : s.g.reqs[r]? = some q)
    {l1 l2 : List (Ev R)} {x : Ev R} (hl : s.g.log = l1 ++ x :: l2) (hx : x.closes r = true) {c : Nat} {p : R}
    (hc : .called c q.ident p ∈ l2) : .returned c true ∉ s.g.log := by
  intro hr
  have hi := h.inv
  have hci := h.callInv
  obtain ⟨r', hd⟩ := hi.returned c hr
  obtain ⟨q', p', hq', hcall, _, hearly⟩ := hi.delivered c r' hd
  have hmem : Ev.called c q.ident p ∈ s.g.log := by rw [hl]; simp [hc]
  have hid := (hci.unique hcall hmem).1
  have hrr : r' = r := by
    have hnd := h.idInv.nodup hn
    rw [List.nodup_iff_getElem?_ne_getElem?] at hnd
    have e1 : (s.g.reqs.map (·.ident))[r']? = some q.ident := by rw [List.getElem?_map, hq']; simp [hid]
    have e2 : (s.g.reqs.map (·.ident))[r]? = some q.ident := by rw [List.getElem?_map, hq]; rfl
    have l1' := (List.getElem?_eq_some_iff.mp e1).1
    have l2' := (List.getElem?_eq_some_iff.mp e2).1
    rcases Nat.lt_trichotomy r' r with hlt | heq | hgt
    · exact absurd (e1.trans e2.symm) (hnd r' r hlt l2')
    · exact heq
    · exact absurd (e2.trans e1.symm) (hnd r r' hgt l1')
  subst hrr
  obtain ⟨e, he, hec⟩ := hearly l1 x l2 hl hx
  have := hci.once c
  rw [hl, List.countP_append, List.countP_cons] at this
  have h1 : 0 < l1.countP (Ev.calls c) := List.countP_pos_iff.mpr ⟨e, he, hec⟩
  have h2 : 0 < l2.countP (Ev.calls c) := List.countP_pos_iff.mpr ⟨_, hc, by simp [Ev.calls]⟩
  omega

/-! ## Requests are pending until they are done -/

theorem Acts.draws {g g' : G R} {pc : PC R} {pcs : List (PC R)} (h : Acts g pc g' pcs) :
    Req.draws g'.log = Req.draws g.log := (h.keys []).1

theorem Step.draws_le {s s' : State R} {l : Label R} (h : Step s l s') :
    (draws s.g.log).length ≤ (draws s'.g.log).length := by
  cases h with
  | thread g g' pre post pcs pc b hact =>
    exact Nat.le_of_eq (congrArg List.length (acts_of_act hact).draws.symm)
  | create g ts => simp [G.ev, draws]
  | call g ts ident rep => simp [G.ev, draws]
  | await g ts r hr => exact Nat.le_refl _

/-- Different requests have different identifiers. -/
def Distinct (g : G R) : Prop := ∀ (i j : Nat) (q q' : Request R), g.reqs[i]? = some q → g.reqs[j]? = some q' →
  q.ident = q'.ident → i = j

theorem IdInv.distinct {s : State R} (h : IdInv s) (hn : (draws s.g.log).length < 2 ^ 64) : Distinct s.g := by
  intro i j q q' hq hq' hid
  have hnd := h.nodup hn
  rw [List.nodup_iff_getElem?_ne_getElem?] at hnd
  have e1 : (s.g.reqs.map (·.ident))[i]? = some q.ident := by rw [List.getElem?_map, hq]; rfl
  have e2 : (s.g.reqs.map (·.ident))[j]? = some q.ident := by rw [List.getElem?_map, hq', hid]; rfl
  have l1' := (List.getElem?_eq_some_iff.mp e1).1
  have l2' := (List.getElem?_eq_some_iff.mp e2).1
  rcases Nat.lt_trichotomy i j with hlt | heq | hgt
  · exact absurd (e1.trans e2.symm) (hnd i j hlt l2')
  · exact heq
  · exact absurd (e2.trans e1.symm) (hnd j i hgt l1')

def Live (s : State R) : Prop := ∀ (r : Nat) (q : Request R), s.g.reqs[r]? = some q →
  s.g.pending q.ident = some r ∨ (∃ e ∈ s.g.log, e.closes r = true) ∨ ∃ c p, .sending c r p ∈ s.threads

theorem Live.acts {g g' : G R} {pre post pcs : List (PC R)} {pc : PC R} (hi : Inv ⟨g, pre ++ pc :: post⟩)
    (hv : Live ⟨g, pre ++ pc :: post⟩) (ha : Acts g pc g' pcs) (hd : Distinct g') :
    Live ⟨g', pre ++ (pcs ++ post)⟩ := by
  simp only [Live] at *
  cases ha with
  | create id =>
    intro r q hq
    simp only [G.ev, Distinct] at hq hd ⊢
    have hlast : (g.reqs ++ [{ ident := le64 id }])[g.reqs.length]? = some { ident := le64 id } :=
      List.getElem?_concat_length
    by_cases hk : q.ident = le64 id
    · left
      have := hd r g.reqs.length q _ hq hlast hk
      subst this
      rw [if_pos hk]
    · rw [if_neg hk]
      have hlt : r < g.reqs.length := by
        rcases Nat.lt_trichotomy r g.reqs.length with h | h | h
        · exact h
        · subst h; rw [hlast] at hq; cases hq; exact absurd rfl hk
        · have := (List.getElem?_eq_some_iff.mp hq).1; simp at this; omega
      rw [List.getElem?_append_left hlt] at hq
      rcases hv r q hq with h | ⟨e, he, hc⟩ | ⟨c, p, h⟩
      · exact .inl h
      · exact .inr (.inl ⟨e, by simp [he], hc⟩)
      · exact .inr (.inr ⟨c, p, by simpa using h⟩)
  | notFound call ident rep hp =>
    intro r q hq
    rcases hv r q hq with h | ⟨e, he, hc⟩ | ⟨c, p, h⟩
    · exact .inl h
    · exact .inr (.inl ⟨e, by simp [G.ev, he], hc⟩)
    · exact .inr (.inr ⟨c, p, by simpa using h⟩)
  | found call r ident rep hp =>
    intro r q hq
    rcases hv r q hq with h | ⟨e, he, hc⟩ | ⟨c, p, h⟩
    · exact .inl h
    · exact .inr (.inl ⟨e, by simp [he], hc⟩)
    · exact .inr (.inr ⟨c, p, by simpa using h⟩)
  | remove call r ident rep =>
    intro r' q hq
    simp only [G.deregister, Distinct] at hq hd ⊢
    obtain ⟨_, ⟨q2, hq2, hid2⟩, _⟩ := hi.rem call r ident rep (by simp)
    simp only at hq2
    by_cases hk : q.ident = ident
    · have := hd r' r q q2 hq hq2 (hk.trans hid2.symm)
      subst this
      exact .inr (.inr ⟨call, rep, by simp⟩)
    · rw [if_neg hk]
      rcases hv r' q hq with h | ⟨e, he, hc⟩ | ⟨c, p, h⟩
      · exact .inl h
      · exact .inr (.inl ⟨e, by simp [he], hc⟩)
      · refine .inr (.inr ⟨c, p, ?_⟩)
        simp only [List.mem_append, List.mem_cons] at h ⊢
        rcases h with h | h | h
        · exact .inl h
        · cases h
        · exact .inr (.inr h)
  | send call r rep q0 hq0 hc0 =>
    intro r' q hq
    simp only [G.ev] at hq ⊢
    by_cases hr : r = r'
    · subst hr
      exact .inr (.inl ⟨.delivered call r, by simp, by simp [Ev.closes]⟩)
    · rw [List.getElem?_set_ne hr] at hq
      rcases hv r' q hq with h | ⟨e, he, hc⟩ | ⟨c, p, h⟩
      · exact .inl h
      · exact .inr (.inl ⟨e, by simp [he], hc⟩)
      · refine .inr (.inr ⟨c, p, ?_⟩)
        simp only [List.mem_append, List.mem_cons, List.not_mem_nil, false_or] at h ⊢
        rcases h with h | h | h
        · exact .inl h
        · cases h; exact absurd rfl hr
        · exact .inr h
  | ctxDone r =>
    intro r q hq
    rcases hv r q hq with h | ⟨e, he, hc⟩ | ⟨c, p, h⟩
    · exact .inl h
    · exact .inr (.inl ⟨e, by simp [he], hc⟩)
    · exact .inr (.inr ⟨c, p, by simpa using h⟩)
  | receive r rep q0 hq0 hc0 =>
    intro r' q hq
    simp only [G.ev] at hq ⊢
    have : ∃ q', g.reqs[r']? = some q' ∧ q'.ident = q.ident := by
      by_cases hr : r = r'
      · subst hr
        refine ⟨q0, hq0, ?_⟩
        have := (List.getElem?_eq_some_iff.mp hq0).1
        rw [List.getElem?_set_self this] at hq
        cases hq; rfl
      · rw [List.getElem?_set_ne hr] at hq; exact ⟨q, hq, rfl⟩
    obtain ⟨q', hq', hid⟩ := this
    rcases hv r' q' hq' with h | ⟨e, he, hc⟩ | ⟨c, p, h⟩
    · rw [hid] at h; exact .inl h
    · exact .inr (.inl ⟨e, by simp [he], hc⟩)
    · exact .inr (.inr ⟨c, p, by simpa using h⟩)
  | forget r q0 hq0 =>
    intro r' q hq
    simp only [G.ev, G.deregister, Distinct] at hq hd ⊢
    by_cases hk : q.ident = q0.ident
    · have := hd r' r q q0 hq hq0 hk
      subst this
      exact .inr (.inl ⟨.gaveUp r', by simp, by simp [Ev.closes]⟩)
    · rw [if_neg hk]
      rcases hv r' q hq with h | ⟨e, he, hc⟩ | ⟨c, p, h⟩
      · exact .inl h
      · exact .inr (.inl ⟨e, by simp [he], hc⟩)
      · exact .inr (.inr ⟨c, p, by simpa using h⟩)

theorem ReachableIf.live {ok : State R → Label R → Prop} {s : State R} (h : ReachableIf ok s)
    (hn : (draws s.g.log).length < 2 ^ 64) : Live s := by
  induction h with
  | start => intro r q hq; cases hq
  | step s l s' hr ho hs ih =>
    have hv := ih (Nat.lt_of_le_of_lt hs.draws_le hn)
    have hd' := (hr.idInv.step hs).distinct hn
    have hi := hr.inv
    cases hs with
    | thread g g' pre post pcs pc b hact => exact hv.acts hi (acts_of_act hact) hd'
    | create g ts =>
      intro r q hq
      rcases hv r q hq with h | ⟨e, he, hc⟩ | ⟨c, p, h⟩
      · exact .inl h
      · exact .inr (.inl ⟨e, by simp only [G.ev, List.mem_append]; exact .inl he, hc⟩)
      · exact .inr (.inr ⟨c, p, by simpa using h⟩)
    | call g ts ident rep =>
      intro r q hq
      rcases hv r q hq with h | ⟨e, he, hc⟩ | ⟨c, p, h⟩
      · exact .inl h
      · exact .inr (.inl ⟨e, by simp only [G.ev, List.mem_append]; exact .inl he, hc⟩)
      · exact .inr (.inr ⟨c, p, by simpa using h⟩)
    | await g ts r hr =>
      intro r q hq
      rcases hv r q hq with h | ⟨e, he, hc⟩ | ⟨c, p, h⟩
      · exact .inl h
      · exact .inr (.inl ⟨e, he, hc⟩)
      · exact .inr (.inr ⟨c, p, by simpa using h⟩)

/-! ## Calls one at a time -/

/-- The call of `Fulfill` or `Fail` the goroutine is in. -/
def PC.call? : PC R → Option Nat
  | .looking c .. | .removing c .. | .sending c .. => some c
  | _ => none

structure SeqInv (s : State R) : Prop where
  opn : ∀ pc ∈ s.threads, ∀ c, pc.call? = some c → ∀ b, .returned c b ∉ s.g.log
  one : (s.threads.filterMap PC.call?).Nodup
  same : ∀ c k p c' p', .called c k p ∈ s.g.log → .called c' k p' ∈ s.g.log →
    (∀ b, .returned c b ∉ s.g.log) → (∀ b, .returned c' b ∉ s.g.log) → c = c'
  ret : ∀ c b, .returned c b ∈ s.g.log → c < s.g.calls
  rem : ∀ c r k p, .removing c r k p ∈ s.threads → deliveries r s.g.log = 0
  send : ∀ c r p, .sending c r p ∈ s.threads → deliveries r s.g.log = 0
  once : ∀ r, deliveries r s.g.log ≤ 1

theorem deliveries_append (r : Nat) (l1 l2 : List (Ev R)) :
    deliveries r (l1 ++ l2) = deliveries r l1 + deliveries r l2 := by simp [deliveries, List.countP_append]

theorem deliveries_zero {r : Nat} {l : List (Ev R)} (h : ∀ e ∈ l, e.closes r = false) : deliveries r l = 0 := by
  simp only [deliveries, List.countP_eq_zero]
  intro e he
  have := h e he
  cases e <;> simp_all [Ev.closes]

theorem deliveries_cons (r : Nat) (e : Ev R) (l : List (Ev R)) :
    deliveries r (e :: l) = deliveries r [e] + deliveries r l := deliveries_append r [e] l

theorem Inv.called {s : State R} (hi : Inv s) {pc : PC R} (hpc : pc ∈ s.threads) {c : Nat} (hc : pc.call? = some c) :
    ∃ k p, .called c k p ∈ s.g.log := by
  cases pc <;> simp only [PC.call?, Option.some.injEq, reduceCtorEq] at hc <;> subst hc
  · exact ⟨_, _, hi.look _ _ _ hpc⟩
  · exact ⟨_, _, (hi.rem _ _ _ _ hpc).1⟩
  · obtain ⟨q, _, h, _⟩ := hi.send _ _ _ hpc; exact ⟨_, _, h⟩

theorem calls_ev (g : G R) (es : List (Ev R)) : g.calls ≤ (g.ev es).calls := by
  simp only [G.ev, G.calls, List.countP_append]; omega

/-- What a goroutine does neither begins a call nor leaves two goroutines in one. -/
theorem SeqInv.keep {g g' : G R} {pre post pcs : List (PC R)} {pc : PC R}
    (hv : SeqInv ⟨g, pre ++ pc :: post⟩) {es : List (Ev R)} (hl : g'.log = g.log ++ es)
    (hes : ∀ e ∈ es, (∀ c k p, e ≠ .called c k p) ∧ (∀ c r, e ≠ .delivered c r) ∧ ∀ c b, e = .returned c b → pc.call? = some c ∧ pcs = [])
    (hpcs : (pcs.filterMap PC.call?).Sublist (pc.call?.toList))
    (hrem : ∀ c r k p, .removing c r k p ∈ pcs → deliveries r g.log = 0)
    (hsend : ∀ c r p, .sending c r p ∈ pcs → deliveries r g.log = 0)
    (hlt : ∀ c, pc.call? = some c → c < g.calls) :
    SeqInv ⟨g', pre ++ (pcs ++ post)⟩ := by
  obtain ⟨h1, h2, h3, h4, h5, h6, h7⟩ := hv
  have hd : ∀ r, deliveries r g'.log = deliveries r g.log := by
    intro r
    rw [hl, deliveries_append]
    have : deliveries r es = 0 := by
      simp only [deliveries, List.countP_eq_zero]
      intro e he
      have hnd := (hes e he).2.1
      cases e with
      | delivered c r' => exact absurd rfl (hnd c r')
      | _ => simp
    omega
  have hcalls : g.calls ≤ g'.calls := by simp only [G.calls, hl, List.countP_append]; omega
  have hsplit : ((pre ++ pc :: post).filterMap PC.call?) =
      pre.filterMap PC.call? ++ (pc.call?.toList ++ post.filterMap PC.call?) := by
    rw [List.filterMap_append, List.filterMap_cons]
    cases pc.call? <;> simp
  have hmem : ∀ x ∈ pcs, ∀ c, x.call? = some c → pc.call? = some c := by
    intro x hx c hc
    have := hpcs.subset (List.mem_filterMap.mpr ⟨x, hx, hc⟩)
    simpa using this
  have hdis : ∀ c, pc.call? = some c → ∀ x ∈ pre ++ post, x.call? ≠ some c := by
    intro c hc x hx hxc
    simp only [hsplit, hc, Option.toList_some, List.singleton_append] at h2
    have h2' : (c :: (pre.filterMap PC.call? ++ post.filterMap PC.call?)).Nodup :=
      (List.perm_middle.nodup_iff).mp h2
    rw [← List.filterMap_append] at h2'
    exact (List.nodup_cons.mp h2').1 (List.mem_filterMap.mpr ⟨x, hx, hxc⟩)
  refine ⟨?_, ?_, ?_, ?_, ?_, ?_, ?_⟩
  · intro x hx c hc b hb
    simp only [hl, List.mem_append] at hb hx
    rcases hx with hx | hx | hx
    · rcases hb with hb | hb
      · exact h1 x (by simp [hx]) c hc b hb
      · exact hdis c ((hes _ hb).2.2 c b rfl).1 x (by simp [hx]) hc
    · rcases hb with hb | hb
      · exact h1 pc (by simp) c (hmem x hx c hc) b hb
      · rw [((hes _ hb).2.2 c b rfl).2] at hx; cases hx
    · rcases hb with hb | hb
      · exact h1 x (by simp [hx]) c hc b hb
      · exact hdis c ((hes _ hb).2.2 c b rfl).1 x (by simp [hx]) hc
  · simp only [hsplit] at h2
    simp only [List.filterMap_append]
    refine List.Nodup.sublist ?_ h2
    exact List.Sublist.append (List.Sublist.refl _) (List.Sublist.append hpcs (List.Sublist.refl _))
  · intro c k p c' p' hc hc' hr hr'
    simp only [hl, List.mem_append, not_or] at hc hc' hr hr'
    have ho : ∀ c k p, Ev.called c k p ∉ es := fun c k p h => (hes _ h).1 c k p rfl
    exact h3 c k p c' p' (hc.resolve_right (ho c k p)) (hc'.resolve_right (ho c' k p')) (fun b => (hr b).1) (fun b => (hr' b).1)
  · intro c b hb
    simp only [hl, List.mem_append] at hb
    rcases hb with hb | hb
    · exact Nat.lt_of_lt_of_le (h4 c b hb) hcalls
    · exact Nat.lt_of_lt_of_le (hlt c ((hes _ hb).2.2 c b rfl).1) hcalls
  · intro c r k p hx
    simp only [hd]
    simp only [List.mem_append] at hx
    rcases hx with hx | hx | hx
    · exact h5 c r k p (by simp [hx])
    · exact hrem c r k p hx
    · exact h5 c r k p (by simp [hx])
  · intro c r p hx
    simp only [hd]
    simp only [List.mem_append] at hx
    rcases hx with hx | hx | hx
    · exact h6 c r p (by simp [hx])
    · exact hsend c r p hx
    · exact h6 c r p (by simp [hx])
  · intro r; simp only [hd]; exact h7 r

/-- Two goroutines in calls for the same identifier are in the same call, so they are the same goroutine. -/
theorem SeqInv.apart {g : G R} {pre post : List (PC R)} {pc : PC R} (hv : SeqInv ⟨g, pre ++ pc :: post⟩) {c c' : Nat}
    {k : Bytes} {p p' : R} {x : PC R} (hpc : pc.call? = some c) (hx : x ∈ pre ++ post) (hxc : x.call? = some c')
    (hk : .called c k p ∈ g.log) (hk' : .called c' k p' ∈ g.log) : False := by
  have hx' : x ∈ pre ++ pc :: post := by
    simp only [List.mem_append, List.mem_cons] at hx ⊢; tauto
  obtain rfl := hv.same c k p c' p' hk hk' (hv.opn pc (by simp) c hpc) (hv.opn x hx' c' hxc)
  have h2 := hv.one
  simp only [List.filterMap_append, List.filterMap_cons, hpc] at h2
  have h2' : (c :: (pre.filterMap PC.call? ++ post.filterMap PC.call?)).Nodup :=
    (List.perm_middle.nodup_iff).mp h2
  rw [← List.filterMap_append] at h2'
  exact (List.nodup_cons.mp h2').1 (List.mem_filterMap.mpr ⟨x, hx, hxc⟩)

theorem SeqInv.acts {g g' : G R} {pre post pcs : List (PC R)} {pc : PC R} (hi : Inv ⟨g, pre ++ pc :: post⟩)
    (hci : CallInv ⟨g, pre ++ pc :: post⟩)
    (hv : SeqInv ⟨g, pre ++ pc :: post⟩) (ha : Acts g pc g' pcs) : SeqInv ⟨g', pre ++ (pcs ++ post)⟩ := by
  have hpo := hi.pendOpen
  have hlt : ∀ c, pc.call? = some c → c < g.calls := by
    intro c hc
    obtain ⟨k, p, h⟩ := hi.called (pc := pc) (by simp) hc
    exact hci.lt c k p h
  cases ha with
  | create id => exact hv.keep (es := [.created g.reqs.length]) rfl (by simp) (by simp [PC.call?]) (by simp) (by simp) hlt
  | notFound call ident rep hp =>
    exact hv.keep (es := [.returned call false]) rfl (by simp [PC.call?]) (by simp [PC.call?]) (by simp) (by simp) hlt
  | found call r ident rep hp =>
    have hz := deliveries_zero (hpo ident r hp)
    exact hv.keep (es := []) (by simp) (by simp) (by simp [PC.call?]) 
      (by rintro c r' k p h; simp only [List.mem_singleton, PC.removing.injEq] at h; obtain ⟨-, rfl, -, -⟩ := h; exact hz)
      (by simp) hlt
  | remove call r ident rep =>
    have hz := hv.rem call r ident rep (by simp)
    exact hv.keep (es := []) (by simp [G.deregister]) (by simp) (by simp [PC.call?]) (by simp)
      (by rintro c r' p h; simp only [List.mem_singleton, PC.sending.injEq] at h; obtain ⟨-, rfl, -⟩ := h; exact hz) hlt
  | send call r rep q hq hc =>
    have d : ∀ r', deliveries (R := R) r' [.delivered call r, .returned call true] = if r = r' then 1 else 0 :=
      fun r' => by by_cases h : r = r' <;> simp [deliveries, h]
    have hz := hv.send call r rep (by simp)
    have hnd := hv.keep (g' := g.ev [.returned call true]) (pcs := []) (es := [.returned call true]) rfl (by simp [PC.call?])
      (by simp) (by simp) (by simp) hlt
    have hme : .called call q.ident rep ∈ g.log := by
      obtain ⟨q', hq', h, _⟩ := hi.send call r rep (by simp)
      simp only at hq' h
      rw [hq] at hq'; cases hq'; exact h
    have hev : ∀ e : Ev R, e ∈ g.log ++ [.delivered call r, .returned call true] ↔
        e ∈ g.log ++ [.returned call true] ∨ e = .delivered call r := by
      intro e; simp only [List.mem_append, List.mem_cons, List.not_mem_nil, or_false]; tauto
    obtain ⟨h1, h2, h3, h4, h5, h6, h7⟩ := hnd
    simp only [G.ev] at h1 h2 h3 h4
    refine ⟨?_, h2, ?_, ?_, ?_, ?_, ?_⟩
    · intro x hx c hc' b; simp only [G.ev, hev, reduceCtorEq, or_false]; exact h1 x hx c hc' b
    · intro c k p c' p'; simp only [G.ev, hev, reduceCtorEq, or_false]; exact h3 c k p c' p'
    · intro c b
      simp only [G.ev, hev, reduceCtorEq, or_false]
      intro h
      have := h4 c b h
      simp only [G.calls, List.countP_append, List.countP_cons, List.countP_nil] at this ⊢
      simpa using this
    · intro c' r' k' p' hx
      simp only [G.ev, deliveries_append, d]
      have hx' : PC.removing c' r' k' p' ∈ pre ++ post := by simpa using hx
      have hmem : PC.removing c' r' k' p' ∈ pre ++ PC.sending call r rep :: post := by
        simp only [List.mem_append, List.mem_cons] at hx' ⊢; tauto
      rw [hv.rem c' r' k' p' hmem]
      split
      · rename_i hrr; subst hrr
        obtain ⟨hk', ⟨q', hq', hid⟩, _⟩ := hi.rem c' r k' p' hmem
        simp only at hk' hq'
        rw [hq] at hq'; cases hq'; subst hid
        exact (hv.apart rfl hx' rfl hme hk').elim
      · rfl
    · intro c' r' p' hx
      simp only [G.ev, deliveries_append, d]
      have hx' : PC.sending c' r' p' ∈ pre ++ post := by simpa using hx
      have hmem : PC.sending c' r' p' ∈ pre ++ PC.sending call r rep :: post := by
        simp only [List.mem_append, List.mem_cons] at hx' ⊢; tauto
      rw [hv.send c' r' p' hmem]
      split
      · rename_i hrr; subst hrr
        obtain ⟨q', hq', hk', _⟩ := hi.send c' r p' hmem
        simp only at hk' hq'
        rw [hq] at hq'; cases hq'
        exact (hv.apart rfl hx' rfl hme hk').elim
      · rfl
    · intro r'
      simp only [G.ev, deliveries_append, d]
      have := hv.once r'
      simp only at this hz
      split
      · rename_i h; subst h; omega
      · omega
  | ctxDone r => exact hv.keep (es := []) (by simp) (by simp) (by simp [PC.call?]) (by simp) (by simp) hlt
  | receive r rep q hq hc => exact hv.keep (es := [.got r rep]) rfl (by simp) (by simp [PC.call?]) (by simp) (by simp) hlt
  | forget r q hq => exact hv.keep (es := [.gaveUp r]) rfl (by simp) (by simp [PC.call?]) (by simp) (by simp) hlt

theorem SeqInv.step {s s' : State R} {l : Label R} (hi : Inv s) (hci : CallInv s) (hv : SeqInv s) (ho : OneAtATime s l)
    (h : Step s l s') : SeqInv s' := by
  cases h with
  | thread g g' pre post pcs pc b hact => exact hv.acts hi hci (acts_of_act hact)
  | create g ts =>
    have d : ∀ r n, deliveries (R := R) r [.drew n] = 0 := fun r n => by simp [deliveries]
    obtain ⟨h1, h2, h3, h4, h5, h6, h7⟩ := hv
    have hmem1 : ∀ c b, (Ev.returned c b : Ev R) ∈ g.log ++ [.drew (g.lastID + 1)] ↔ .returned c b ∈ g.log := by simp
    have hmem2 : ∀ c k p, (Ev.called c k p : Ev R) ∈ g.log ++ [.drew (g.lastID + 1)] ↔ .called c k p ∈ g.log := by simp
    refine ⟨?_, ?_, ?_, ?_, ?_, ?_, ?_⟩
    · intro x hx c hc b
      simp only [G.ev, hmem1, hmem2]
      rcases List.mem_cons.mp hx with rfl | hx
      · simp [PC.call?] at hc
      · exact h1 x hx c hc b
    · simpa [List.filterMap_cons, PC.call?] using h2
    · intro c k p c' p'
      simp only [G.ev, hmem1, hmem2]
      exact h3 c k p c' p'
    · intro c b
      simp only [G.ev, hmem1, hmem2]
      intro hb
      exact Nat.lt_of_lt_of_le (h4 c b hb) (calls_ev g _)
    · simp only [G.ev, deliveries_append, d, List.mem_cons, reduceCtorEq, false_or]; exact h5
    · simp only [G.ev, deliveries_append, d, List.mem_cons, reduceCtorEq, false_or]; exact h6
    · simp only [G.ev, deliveries_append, d]; exact h7
  | call g ts ident rep =>
    have d : ∀ r n k p, deliveries (R := R) r [.called n k p] = 0 := fun r n k p => by simp [deliveries]
    have hlt := hci.lt
    have hcalled := fun pc (h : pc ∈ ts) c (hc : PC.call? pc = some c) => hi.called (pc := pc) h hc
    obtain ⟨h1, h2, h3, h4, h5, h6, h7⟩ := hv
    simp only [OneAtATime] at ho
    simp only at h1 h2 h3 h4 h5 h6 h7 hcalled hlt
    refine ⟨?_, ?_, ?_, ?_, ?_, ?_, ?_⟩
    · intro x hx c hc b hb
      simp only [G.ev, List.mem_append, List.mem_singleton, reduceCtorEq, or_false] at hb
      simp only [List.mem_cons] at hx
      rcases hx with rfl | hx
      · simp only [PC.call?, Option.some.injEq] at hc
        subst hc
        exact Nat.lt_irrefl _ (h4 _ _ hb)
      · exact h1 x hx c hc b hb
    · simp only [List.filterMap_cons, PC.call?]
      refine List.nodup_cons.mpr ⟨?_, h2⟩
      intro hm
      obtain ⟨x, hx, hxc⟩ := List.mem_filterMap.mp hm
      obtain ⟨k, p, h⟩ := hcalled x hx _ hxc
      exact Nat.lt_irrefl _ (hlt _ _ _ h)
    · intro c k p c' p' hc hc' hr hr'
      simp only [G.ev, List.mem_append, List.mem_singleton, reduceCtorEq, or_false, Ev.called.injEq] at hc hc' hr hr'
      rcases hc with hc | ⟨rfl, rfl, rfl⟩ <;> rcases hc' with hc' | ⟨rfl, hk, rfl⟩
      · exact h3 c k p c' p' hc hc' hr hr'
      · subst hk; obtain ⟨b, hb⟩ := ho c p hc; exact absurd hb (hr b)
      · obtain ⟨b, hb⟩ := ho c' p' hc'; exact absurd hb (hr' b)
      · rfl
    · intro c b hb
      simp only [G.ev, List.mem_append, List.mem_singleton, reduceCtorEq, or_false] at hb
      exact Nat.lt_of_lt_of_le (h4 c b hb) (calls_ev g _)
    · simp only [G.ev, deliveries_append, d, List.mem_cons, reduceCtorEq, false_or]; exact h5
    · simp only [G.ev, deliveries_append, d, List.mem_cons, reduceCtorEq, false_or]; exact h6
    · simp only [G.ev, deliveries_append, d]; exact h7
  | await g ts r hr =>
    obtain ⟨h1, h2, h3, h4, h5, h6, h7⟩ := hv
    refine ⟨?_, ?_, h3, h4, ?_, ?_, h7⟩
    · intro x hx c hc b
      rcases List.mem_cons.mp hx with rfl | hx
      · simp [PC.call?] at hc
      · exact h1 x hx c hc b
    · simpa [List.filterMap_cons, PC.call?] using h2
    · simp only [List.mem_cons, reduceCtorEq, false_or]; exact h5
    · simp only [List.mem_cons, reduceCtorEq, false_or]; exact h6

theorem seqInv {s : State R} (h : ReachableIf OneAtATime s) : SeqInv s := by
  induction h with
  | start => constructor <;> simp [deliveries]
  | step s l s' hr ho hs ih => exact ih.step hr.inv hr.callInv ho hs

theorem split_old {α : Type} {log es l1 l2 : List α} {x : α} (h : log ++ es = l1 ++ x :: l2) (hx : x ∉ es) :
    ∃ l3, log = l1 ++ x :: l3 := by
  rcases List.append_eq_append_iff.mp h with ⟨a, ha, hb⟩ | ⟨a, ha, hb⟩
  · exact absurd (by rw [hb]; simp) hx
  · cases a with
    | nil => simp only [List.nil_append] at hb; exact absurd (by rw [← hb]; simp) hx
    | cons y a =>
      simp only [List.cons_append, List.cons.injEq] at hb
      exact ⟨a, by rw [ha, hb.1]⟩

theorem Acts.idents {g g' : G R} {pc : PC R} {pcs : List (PC R)} (h : Acts g pc g' pcs) {r : Nat} {q' : Request R}
    (hr : r < g.reqs.length) (hq : g'.reqs[r]? = some q') : ∃ q, g.reqs[r]? = some q ∧ q.ident = q'.ident := by
  cases h with
  | create id =>
    simp only [G.ev] at hq
    rw [List.getElem?_append_left hr] at hq
    exact ⟨q', hq, rfl⟩
  | send call r0 rep q0 hq0 hc0 =>
    simp only [G.ev] at hq
    by_cases hrr : r0 = r
    · subst hrr; rw [List.getElem?_set_self hr] at hq; cases hq; exact ⟨q0, hq0, rfl⟩
    · rw [List.getElem?_set_ne hrr] at hq; exact ⟨q', hq, rfl⟩
  | receive r0 rep q0 hq0 hc0 =>
    simp only [G.ev] at hq
    by_cases hrr : r0 = r
    · subst hrr; rw [List.getElem?_set_self hr] at hq; cases hq; exact ⟨q0, hq0, rfl⟩
    · rw [List.getElem?_set_ne hrr] at hq; exact ⟨q', hq, rfl⟩
  | _ => exact ⟨q', hq, rfl⟩

/-- A call that returned false had nothing to resolve. -/
def Missed (s : State R) : Prop := ∀ l1 c l2, s.g.log = l1 ++ .returned c false :: l2 → ∀ k p, .called c k p ∈ l1 →
  ∀ (r : Nat) q, .created r ∈ l1 → s.g.reqs[r]? = some q → q.ident = k → ∃ e ∈ l1, e.closes r = true

theorem Missed.old {s s' : State R} (hm : Missed s) (hi : Inv s) {es : List (Ev R)} (he : s'.g.log = s.g.log ++ es)
    (hes : ∀ c, .returned c false ∉ es)
    (hid : ∀ (r : Nat) (q' : Request R), r < s.g.reqs.length → s'.g.reqs[r]? = some q' →
      ∃ q, s.g.reqs[r]? = some q ∧ q.ident = q'.ident) : Missed s' := by
  intro l1 c l2 hl k p hc r q hcr hq hk
  rw [he] at hl
  obtain ⟨l3, h3⟩ := split_old hl (hes c)
  have hlt := hi.evRefs (.created r) (by rw [h3]; simp [hcr]) r (by simp [Ev.refs])
  obtain ⟨q0, hq0, hid0⟩ := hid r q hlt hq
  exact hm l1 c l3 h3 k p hc r q0 hcr hq0 (hid0.trans hk)

theorem missed {s : State R} (h : ReachableIf OneAtATime s) (hn : (draws s.g.log).length < 2 ^ 64) : Missed s := by
  induction h with
  | start => intro l1 c l2 hl; simp at hl
  | step s l s' hr ho hs ih =>
    have hn0 := Nat.lt_of_le_of_lt hs.draws_le hn
    have hm := ih hn0
    have hi := hr.inv
    have hv := hr.live hn0
    have hone := seqInv hr
    have hci := hr.callInv
    cases hs with
    | thread g g' pre post pcs pc b hact =>
      have ha := acts_of_act hact
      have hids := fun r q' => @Acts.idents R g g' pc pcs ha r q'
      cases ha with
      | notFound call ident rep hp =>
        intro l1 c l2 hl k p hc r q hcr hq hk
        simp only [G.ev] at hl hq
        rcases append_eq_split hl with ⟨h1, h2, -⟩ | ⟨l3, -, h3⟩
        · cases h2
          subst h1
          have hlook := hi.look call ident rep (by simp)
          have hkk := (hci.unique hc hlook).1
          rcases hv r q hq with h | ⟨e, he, hcl⟩ | ⟨c', p', h⟩
          · simp only at h; rw [hk, hkk, hp] at h; cases h
          · exact ⟨e, he, hcl⟩
          · exfalso
            obtain ⟨q', hq', hk', _⟩ := hi.send c' r p' h
            simp only at hq' hk' h
            rw [hq] at hq'; cases hq'
            rw [hk, hkk] at hk'
            have h' : PC.sending c' r p' ∈ pre ++ post := by
              simp only [List.mem_append, List.mem_cons, reduceCtorEq, false_or] at h ⊢; exact h
            exact hone.apart rfl h' rfl hlook hk'
        · exact hm l1 c l3 h3 k p hc r q hcr hq hk
      | create id => exact hm.old hi (es := [.created g.reqs.length]) rfl (by simp) hids
      | found call r ident rep hp => exact hm.old hi (es := []) (by simp) (by simp) hids
      | remove call r ident rep => exact hm.old hi (es := []) (by simp [G.deregister]) (by simp) hids
      | send call r rep q hq hc =>
        exact hm.old hi (es := [.delivered call r, .returned call true]) rfl (by simp) hids
      | ctxDone r => exact hm.old hi (es := []) (by simp) (by simp) hids
      | receive r rep q hq hc => exact hm.old hi (es := [.got r rep]) rfl (by simp) hids
      | forget r q hq => exact hm.old hi (es := [.gaveUp r]) rfl (by simp) hids
    | create g ts => exact hm.old hi (es := [.drew (g.lastID + 1)]) rfl (by simp) (fun r q' _ h => ⟨q', h, rfl⟩)
    | call g ts ident rep =>
      exact hm.old hi (es := [.called g.calls ident rep]) rfl (by simp) (fun r q' _ h => ⟨q', h, rfl⟩)
    | await g ts r hr => exact hm.old hi (es := []) (by simp) (by simp) (fun r q' _ h => ⟨q', h, rfl⟩)

end Webwire.Req
