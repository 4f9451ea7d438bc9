import Verif.Props.RequestManager

/-!
# Counting pending requests, and where replies go (C68, C69)
-/

set_option autoImplicit false

namespace Webwire.Req

variable {R : Type}

/-- The request was created, nothing has been delivered to it, and nobody has stopped waiting for it. -/
def Open (log : List (Ev R)) (r : Nat) : Prop := .created r ∈ log ∧ ∀ e ∈ log, e.closes r = false

/-- A goroutine is about to deliver something to the request. -/
def Resolving (ts : List (PC R)) (r : Nat) : Prop := ∃ c p, .sending c r p ∈ ts

theorem ReachableIf.created {ok : State R → Label R → Prop} {s : State R} (h : ReachableIf ok s) (r : Nat) :
    .created r ∈ s.g.log ↔ r < s.g.reqs.length := by
  induction h with
  | start => simp
  | step s l s' _ _ hs ih =>
    cases hs with
    | thread g g' pre post pcs pc b hact =>
      have ha := acts_of_act hact
      simp only at ih ⊢
      cases ha <;> simp_all [G.ev, G.deregister]
      omega
    | create g ts => simpa [G.ev] using ih
    | call g ts ident rep => simpa [G.ev] using ih
    | await g ts r hr => exact ih

/-- Which identifiers lead to a request. -/
theorem pending_iff {s : State R} (h : Reachable s) (hn : (draws s.g.log).length < 2 ^ 64) (r : Nat) (q : Request R)
    (hq : s.g.reqs[r]? = some q) : s.g.pending q.ident = some r ↔ Open s.g.log r ∧ ¬ Resolving s.threads r := by
  constructor
  · intro hp
    exact ⟨⟨(h.created r).mpr (List.getElem?_eq_some_iff.mp hq).1, h.inv.pendOpen _ r hp⟩,
      fun ⟨c, p, hs⟩ => h.inv.pendSend _ r c p hp hs⟩
  · rintro ⟨⟨_, ho⟩, hns⟩
    rcases h.live hn r q hq with hp | ⟨e, he, hc⟩ | ⟨c, p, hs⟩
    · exact hp
    · rw [ho e he] at hc; cases hc
    · exact absurd ⟨c, p, hs⟩ hns

/-- C68: `IsPending` of an identifier is true exactly if there is a request with this identifier that was neither answered
nor given up, and which is not being answered at the moment. -/
theorem C68_is_pending {s : State R} (h : Reachable s) (hn : (draws s.g.log).length < 2 ^ 64) (k : Bytes) :
    isPending s.g k = true ↔ ∃ r q, s.g.reqs[r]? = some q ∧ q.ident = k ∧ Open s.g.log r ∧ ¬ Resolving s.threads r := by
  unfold isPending
  constructor
  · intro hp
    obtain ⟨r, hr⟩ := Option.isSome_iff_exists.mp hp
    obtain ⟨q, hq, hk, _⟩ := h.inv.pend k r hr
    exact ⟨r, q, hq, hk, (pending_iff h hn r q hq).mp (hk ▸ hr)⟩
  · rintro ⟨r, q, hq, rfl, ho⟩
    rw [(pending_iff h hn r q hq).mpr ho]
    rfl

/-- C68: `PendingRequests` is the number of requests that were neither answered nor given up, and which are not being
answered at the moment. -/
theorem C68_count {s : State R} (h : Reachable s) (hn : (draws s.g.log).length < 2 ^ 64) :
    pendingRequests s.g = Set.ncard {r | Open s.g.log r ∧ ¬ Resolving s.threads r} := by
  unfold pendingRequests
  have hd := h.idInv.distinct hn
  refine Set.ncard_congr (fun k hk => (s.g.pending k).get (by simpa [isPending] using hk)) ?_ ?_ ?_
  · intro k hk
    have hr : s.g.pending k = some ((s.g.pending k).get (by simpa [isPending] using hk)) := (Option.some_get _).symm
    obtain ⟨q, hq, e, _⟩ := h.inv.pend k _ hr
    exact (pending_iff h hn _ q hq).mp (e ▸ hr)
  · intro k k' hk hk' he
    have h1 : s.g.pending k = some ((s.g.pending k).get (by simpa [isPending] using hk)) := (Option.some_get _).symm
    have h2 : s.g.pending k' = some ((s.g.pending k').get (by simpa [isPending] using hk')) := (Option.some_get _).symm
    rw [← he] at h2
    obtain ⟨q, hq, e, _⟩ := h.inv.pend k _ h1
    obtain ⟨q', hq', e', _⟩ := h.inv.pend k' _ h2
    rw [hq] at hq'
    cases hq'
    exact e.symm.trans e'
  · rintro r ⟨ho, hns⟩
    have hr := (h.created r).mp ho.1
    have hp := (pending_iff h hn r _ (List.getElem?_eq_getElem hr)).mpr ⟨ho, hns⟩
    exact ⟨s.g.reqs[r].ident, by simp [isPending, hp], by simp [hp]⟩

/-- C68: nothing is left over: once everything was answered or given up and no call is running, the table is empty. -/
theorem C68_no_leak {s : State R} (h : Reachable s) (hn : (draws s.g.log).length < 2 ^ 64)
    (hc : ∀ r, .created r ∈ s.g.log → ∃ e ∈ s.g.log, e.closes r = true) : pendingRequests s.g = 0 := by
  rw [C68_count h hn, Set.ncard_eq_zero (Set.Finite.subset (Set.finite_lt_nat s.g.reqs.length)
    (fun r hr => (h.created r).mp hr.1.1))]
  ext r
  simp only [Set.mem_ofPred_eq, Set.mem_empty_iff_false, iff_false, not_and]
  rintro ⟨hr, ho⟩
  obtain ⟨e, he, h1⟩ := hc r hr
  rw [ho e he] at h1
  cases h1

/-- Three requests: one is answered, one given up, one is pending. -/
example : ∃ s : State Nat, Reachable s ∧ (draws s.g.log).length = 3 ∧ Open s.g.log 2 ∧ ¬ Open s.g.log 0 ∧
    ¬ Resolving s.threads 2 ∧ isPending s.g (le64 3) = true ∧ isPending s.g (le64 2) = false := by
  have hrun : ∃ s, play (fun _ _ => true) {} (exCmds ++ [.create, .go 0]) = some s ∧
      (draws s.g.log).length = 3 ∧ s.threads = [] ∧ (s.g.log.any fun | .created 2 => true | _ => false) = true ∧ (s.g.log.all fun e => !e.closes 2) = true ∧
      (s.g.log.any fun e => e.closes 0) = true ∧ isPending s.g (le64 3) = true ∧ isPending s.g (le64 2) = false :=
    ⟨_, rfl, rfl, rfl, rfl, rfl, rfl, rfl, rfl⟩
  obtain ⟨s, hp, h1, h2, h3, h4, h5, h6, h7⟩ := hrun
  refine ⟨s, play_reachable (fun _ _ _ => trivial) _ .start hp, h1, ⟨?_, by simpa using h4⟩, ?_, ?_, h6, h7⟩
  · obtain ⟨e, he, hc⟩ := List.any_eq_true.mp h3
    split at hc
    · exact he
    · cases hc
  · rintro ⟨_, ho⟩
    obtain ⟨e, he, hc⟩ := List.any_eq_true.mp h5
    rw [ho e he] at hc
    cases hc
  · rintro ⟨c, p, hm⟩
    rw [h2] at hm
    cases hm

/-! ## Where replies go -/

/-- How often `AwaitReply` returned something for the request. -/
def gets (r : Nat) (log : List (Ev R)) : Nat := log.countP fun | .got r' _ => decide (r' = r) | _ => false

/-- How many replies are in the channel of the request. -/
def unread (g : G R) (r : Nat) : Nat :=
  match g.reqs[r]? with
  | some q => if q.chan.isSome then 1 else 0
  | none => 0

/-- C69: every reply that was delivered is returned by `AwaitReply` or still in the channel of the request: none is
lost, and none is returned twice. -/
theorem C69_none_lost {s : State R} (h : Reachable s) (r : Nat) :
    deliveries r s.g.log = gets r s.g.log + unread s.g r := by
  induction h with
  | start => rfl
  | step s l s' hr _ hs ih =>
    cases hs with
    | thread g g' pre post pcs pc b hact =>
      have ha := acts_of_act hact
      simp only at ih ⊢
      cases ha with
      | create id =>
        have hl : (g.reqs ++ [({ ident := le64 id } : Request R)])[r]?.map (·.chan.isSome) = g.reqs[r]?.map (·.chan.isSome) ∨
            r = g.reqs.length := by
          by_cases hlt : r < g.reqs.length
          · left; rw [List.getElem?_append_left hlt]
          · by_cases he : r = g.reqs.length
            · exact .inr he
            · left
              rw [List.getElem?_eq_none (by simp; omega), List.getElem?_eq_none (by omega)]
        simp only [deliveries, gets, unread, G.ev, List.countP_append] at ih ⊢
        rcases hl with hl | rfl
        · simp only [List.countP_cons, List.countP_nil] at ih ⊢
          cases h1 : (g.reqs ++ [({ ident := le64 id } : Request R)])[r]? <;> cases h2 : g.reqs[r]? <;>
            simp_all
        · simp at ih ⊢
          exact ih
      | notFound call ident rep hp => simpa [deliveries, gets, unread, G.ev] using ih
      | found call r' ident rep hp => exact ih
      | remove call r' ident rep => exact ih
      | send call r' rep q hq hc =>
        by_cases e : r' = r
        · subst e
          have hlt := (List.getElem?_eq_some_iff.mp hq).1
          simp [deliveries, gets, unread, G.ev, hq, hc, List.countP_cons, List.getElem?_set_self hlt] at ih ⊢
          omega
        · simp [deliveries, gets, unread, G.ev, List.countP_cons, e, List.getElem?_set_ne e] at ih ⊢
          exact ih
      | ctxDone r' => exact ih
      | receive r' rep q hq hc =>
        by_cases e : r' = r
        · subst e
          have hlt := (List.getElem?_eq_some_iff.mp hq).1
          simp [deliveries, gets, unread, G.ev, hq, hc, List.countP_cons, List.getElem?_set_self hlt] at ih ⊢
          omega
        · simp [deliveries, gets, unread, G.ev, List.countP_cons, e, List.getElem?_set_ne e] at ih ⊢
          exact ih
      | forget r' q hq => simpa [deliveries, gets, unread, G.ev, G.deregister] using ih
    | create g ts => simpa [deliveries, gets, unread, G.ev] using ih
    | call g ts ident rep => simpa [deliveries, gets, unread, G.ev] using ih
    | await g ts r hr => exact ih

/-- C69: the result of `Fulfill` or `Fail` agrees with that of `AwaitReply`: it is not true for a request of which
`AwaitReply` gave up. -/
def C69_full : Prop := ∀ s : State Nat, Reachable s → ∀ c r, .returned c true ∈ s.g.log → .delivered c r ∈ s.g.log →
  .gaveUp r ∉ s.g.log

/-- C69 does not hold: `AwaitReply` gives up after the call found the request; the call returns true, and its reply stays in
the channel unread, its message never closed. -/
theorem C69_violated : ¬ C69_full := by
  intro hf
  have hrun : ∃ s, play oneAtATime {} [.create, .go 0, .await 0, .call (le64 1) 7, .go 0, .go 1 true, .go 1, .go 0, .go 0] = some s ∧
      s.threads = [] ∧ s.g.reqs = [⟨le64 1, some 7⟩] ∧
      s.g.log = [.drew 1, .created 0, .called 0 (le64 1) 7, .gaveUp 0, .delivered 0 0, .returned 0 true] := ⟨_, rfl, rfl, rfl, rfl⟩
  obtain ⟨s, hp, _, _, hl⟩ := hrun
  exact hf s (play_reachable (fun _ _ _ => trivial) _ .start hp) 0 0 (by rw [hl]; simp) (by rw [hl]; simp) (by rw [hl]; simp)

/-- C69 for calls that do not overlap with others for the same identifier, and requests not given up: what was delivered is what `AwaitReply` returned, or it
is in the channel, and the next `AwaitReply` returns it at once. -/
theorem C69_partial {s : State R} (h : ReachableIf OneAtATime s) (c r : Nat) (k : Bytes) (p : R)
    (hd : .delivered c r ∈ s.g.log) (hc : .called c k p ∈ s.g.log) :
    (∀ p', .got r p' ∈ s.g.log → p' = p) ∧
    ((.got r p ∈ s.g.log ∧ ∀ q, s.g.reqs[r]? = some q → q.chan = none) ∨
      gets r s.g.log = 0 ∧ ∃ g', act s.g false (.awaiting r) = some (g', []) ∧ g'.log = s.g.log ++ [.got r p]) := by
  have hw := h.weaken
  have hone : ∀ c', .delivered c' r ∈ s.g.log → c' = c := by
    intro c' hd'
    by_contra hne
    have h1 := C50_once_partial h r
    obtain ⟨l1, l2, hl⟩ := List.append_of_mem hd
    rw [hl] at hd'
    have hm : Ev.delivered c' r ∈ l1 ++ l2 := by
      simp only [List.mem_append, List.mem_cons, Ev.delivered.injEq] at hd' ⊢
      tauto
    have hp : 0 < deliveries r (l1 ++ l2) := List.countP_pos_iff.mpr ⟨_, hm, by simp⟩
    have hx : deliveries r s.g.log = deliveries r (l1 ++ l2) + 1 := by
      rw [hl]
      simp only [deliveries, List.countP_append, List.countP_cons, decide_true, if_true]
      omega
    omega
  have hval : ∀ p', .got r p' ∈ s.g.log → p' = p := by
    intro p' hg
    obtain ⟨q, c', hq, hd', hc'⟩ := hw.inv.got r p' hg
    rw [hone c' hd'] at hc'
    exact (hw.callInv.unique hc' hc).2
  refine ⟨hval, ?_⟩
  have hpos : 0 < deliveries r s.g.log := List.countP_pos_iff.mpr ⟨_, hd, by simp⟩
  have hle := C50_once_partial h r
  have hcons := C69_none_lost hw r
  have hr := hw.inv.evRefs _ hd r (by simp [Ev.refs])
  have hq := List.getElem?_eq_getElem hr
  cases hch : s.g.reqs[r].chan with
  | none =>
    have hu : unread s.g r = 0 := by simp [unread, hq, hch]
    have hg : 0 < gets r s.g.log := by omega
    obtain ⟨e, he, hb⟩ := List.countP_pos_iff.mp hg
    left
    cases e <;> simp at hb
    subst hb
    refine ⟨?_, fun q hq' => ?_⟩
    · rw [← hval _ he]; exact he
    · rw [hq] at hq'; cases hq'; exact hch
  | some p' =>
    have hu : unread s.g r = 1 := by simp [unread, hq, hch]
    right
    refine ⟨by omega, ?_⟩
    obtain ⟨c', hd', hc'⟩ := hw.inv.chan r _ p' hq hch
    rw [hone c' hd'] at hc'
    obtain rfl := (hw.callInv.unique hc' hc).2
    refine ⟨({ s.g with reqs := s.g.reqs.set r { s.g.reqs[r] with chan := none } } : G R).ev [.got r p'], ?_, rfl⟩
    simp [act, hq, hch]

example : ∃ s : State Nat, ReachableIf OneAtATime s ∧ .delivered 0 0 ∈ s.g.log ∧ .called 0 (le64 1) 7 ∈ s.g.log ∧
    .got 0 7 ∈ s.g.log := by
  obtain ⟨s, h, hl, hr⟩ := ex_reachable
  exact ⟨s, h, by rw [hl]; simp, by rw [hl]; simp, by rw [hl]; simp⟩

end Webwire.Req
