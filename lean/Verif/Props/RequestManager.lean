import Verif.Proofs.RequestManager3

/-!
# The request manager (C49-C51)

All theorems are about all interleavings of any number of goroutines calling `Create`, `Fulfill`, `Fail` and
`AwaitReply`, with replies of any type.
-/

set_option autoImplicit false

namespace Webwire.Req

variable {R : Type}

/-- One request is answered; then a second one is given up and answered too late. -/
def exCmds : List (Cmd Nat) :=
  [.create, .go 0, .await 0, .call (le64 1) 7, .go 0, .go 0, .go 0, .go 0,
    .create, .go 0, .await 1, .go 0 true, .go 0, .call (le64 2) 8, .go 0]

theorem ex_reachable : ∃ s : State Nat, ReachableIf OneAtATime s ∧ s.g.log =
    [.drew 1, .created 0, .called 0 (le64 1) 7, .delivered 0 0, .returned 0 true, .got 0 7,
      .drew 2, .created 1, .gaveUp 1, .called 1 (le64 2) 8, .returned 1 false] ∧
    s.g.reqs = [⟨le64 1, none⟩, ⟨le64 2, none⟩] := by
  have h : ∃ s, play oneAtATime {} exCmds = some s ∧ s.g.log =
      [.drew 1, .created 0, .called 0 (le64 1) 7, .delivered 0 0, .returned 0 true, .got 0 7,
        .drew 2, .created 1, .gaveUp 1, .called 1 (le64 2) 8, .returned 1 false] ∧
      s.g.reqs = [⟨le64 1, none⟩, ⟨le64 2, none⟩] := ⟨_, rfl, rfl, rfl⟩
  obtain ⟨s, hp, hl⟩ := h
  exact ⟨s, play_reachable oneAtATime_ok _ .start hp, hl⟩

/-- C49: the i-th request gets number i, modulo 2^64, so numbers are not reused within 2^64 requests. -/
theorem C49_numbers {s : State R} (h : Reachable s) (i : Nat) (hi : i < (draws s.g.log).length) :
    (draws s.g.log)[i].toNat = (i + 1) % 2 ^ 64 := by
  have := h.idInv.drawn
  have he : (draws s.g.log)[i]? = some (UInt64.ofNat (i + 1)) := by
    rw [this, List.getElem?_map, List.getElem?_range hi]; rfl
  rw [List.getElem?_eq_getElem hi, Option.some.injEq] at he
  rw [he, UInt64.toNat_ofNat']

/-- C49: requests with different numbers have different identifiers on the wire. -/
theorem C49_encoding (a b : UInt64) (h : le64 a = le64 b) : a = b := le64_injective h

/-- C49: all requests ever created, fewer than 2^64, have different identifiers of eight bytes. -/
theorem C49_distinct {s : State R} (h : Reachable s) (hn : (draws s.g.log).length < 2 ^ 64) :
    (s.g.reqs.map (·.ident)).Nodup := h.idInv.nodup hn

/-- C49: an identifier leads to a request that has that identifier, even when numbers have wrapped around; so no two
pending requests share one. -/
theorem C49_pending {s : State R} (h : Reachable s) (k : Bytes) (r : Nat) (hp : s.g.pending k = some r) :
    ∃ q, s.g.reqs[r]? = some q ∧ q.ident = k := by
  obtain ⟨q, hq, hk, _⟩ := h.inv.pend k r hp
  exact ⟨q, hq, hk⟩

/-- C49: a request stays pending until something is delivered to it (or is about to be) or nobody waits for it. -/
theorem C49_stays {s : State R} (h : Reachable s) (hn : (draws s.g.log).length < 2 ^ 64) (r : Nat) (q : Request R)
    (hq : s.g.reqs[r]? = some q) : s.g.pending q.ident = some r ∨ (∃ c, .delivered c r ∈ s.g.log) ∨
      .gaveUp r ∈ s.g.log ∨ ∃ c p, .sending c r p ∈ s.threads := by
  rcases h.live hn r q hq with h | ⟨e, he, hc⟩ | h
  · exact .inl h
  · cases e <;> simp [Ev.closes] at hc
    · subst hc; exact .inr (.inl ⟨_, he⟩)
    · subst hc; exact .inr (.inr (.inl he))
  · exact .inr (.inr (.inr h))

theorem ReachableIf.weaken {ok : State R → Label R → Prop} {s : State R} (h : ReachableIf ok s) : Reachable s := by
  induction h with
  | start => exact .start
  | step s l s' hr ho hs ih => exact .step s l s' ih trivial hs

example : ∃ s : State Nat, Reachable s ∧ (draws s.g.log).length = 2 ∧ s.g.reqs.length = 2 := by
  obtain ⟨s, h, hl, hr⟩ := ex_reachable
  exact ⟨s, h.weaken, by rw [hl]; rfl, by rw [hr]; rfl⟩

/-- C50: what `AwaitReply` returns was passed to `Fulfill` or `Fail` with the identifier of the request. -/
theorem C50_right_reply {s : State R} (h : Reachable s) (r : Nat) (rep : R) (hg : .got r rep ∈ s.g.log) :
    ∃ q c, s.g.reqs[r]? = some q ∧ .called c q.ident rep ∈ s.g.log ∧ .delivered c r ∈ s.g.log := by
  obtain ⟨q, c, hq, hd, hc⟩ := h.inv.got r rep hg
  exact ⟨q, c, hq, hc, hd⟩

/-- C50: a call delivers only to the request with its identifier. -/
theorem C50_right_request {s : State R} (h : Reachable s) (c r : Nat) (k : Bytes) (p : R)
    (hd : .delivered c r ∈ s.g.log) (hc : .called c k p ∈ s.g.log) : ∃ q, s.g.reqs[r]? = some q ∧ q.ident = k := by
  obtain ⟨q, p', hq, hc', _⟩ := h.inv.delivered c r hd
  exact ⟨q, hq, (h.callInv.unique hc' hc).1⟩

/-- C50: a call returns true only if it delivered. -/
theorem C50_true_delivers {s : State R} (h : Reachable s) (c : Nat) (hr : .returned c true ∈ s.g.log) :
    ∃ r, .delivered c r ∈ s.g.log := h.inv.returned c hr

/-- C50: a call that returned has returned true if and only if it delivered. -/
theorem C50_true_iff {s : State R} (h : Reachable s) (c : Nat) (b : Bool) (hr : .returned c b ∈ s.g.log) :
    b = true ↔ ∃ r, .delivered c r ∈ s.g.log := by
  constructor
  · rintro rfl; exact h.inv.returned c hr
  · rintro ⟨r, hd⟩; exact h.retInv.same c b true hr (h.retInv.del c r hd)

/-- C50: calls made after something was delivered to the request return false (if they return). -/
theorem C50_later_false {s : State R} (h : Reachable s) (hn : (draws s.g.log).length < 2 ^ 64) (r c c' : Nat)
    (q : Request R) (hq : s.g.reqs[r]? = some q) (l1 l2 : List (Ev R)) (hl : s.g.log = l1 ++ .delivered c r :: l2)
    (p : R) (hc : .called c' q.ident p ∈ l2) : .returned c' true ∉ s.g.log :=
  late_call h hn hq hl (by simp [Ev.closes]) hc

example : ∃ s : State Nat, Reachable s ∧ .got 0 7 ∈ s.g.log ∧ .returned 0 true ∈ s.g.log := by
  obtain ⟨s, h, hl, hr⟩ := ex_reachable
  exact ⟨s, h.weaken, by rw [hl]; simp, by rw [hl]; simp⟩

/-- C50: something is delivered to each request at most once. -/
def C50_once_full : Prop := ∀ s : State Nat, Reachable s → ∀ r, deliveries r s.g.log ≤ 1

/-- Two calls look the request up before either removes it. -/
def raceCmds : List (Cmd Nat) :=
  [.create, .go 0, .await 0, .call (le64 1) 7, .call (le64 1) 8, .go 0, .go 1, .go 0, .go 1, .go 0]

/-- C50 does not hold: two overlapping calls for one request both deliver and both return true. -/
theorem C50_once_violated : ¬ C50_once_full := by
  intro hfull
  have h : ∃ s, play (fun _ _ => true) {} (raceCmds ++ [.go 1, .go 0]) = some s ∧ deliveries 0 s.g.log = 2 ∧
      s.g.log.countP (fun | .returned _ true => true | _ => false) = 2 := ⟨_, rfl, rfl, rfl⟩
  obtain ⟨s, hp, hd, _⟩ := h
  have := hfull s (play_reachable (fun _ _ _ => trivial) _ .start hp) 0
  omega

/-- C50: a call can always go on. -/
def C50_returns_full : Prop := ∀ s : State Nat, Reachable s → ∀ pc ∈ s.threads, pc.resolves = true →
  ∃ b g' pcs, act s.g b pc = some (g', pcs)

/-- C50 does not hold: the second of two overlapping calls waits for ever if nobody reads the reply. -/
theorem C50_returns_violated : ¬ C50_returns_full := by
  intro hfull
  have h : ∃ s, play (fun _ _ => true) {} raceCmds = some s ∧ s.threads = [.sending 0 0 7, .awaiting 0] ∧
      s.g.reqs = [⟨le64 1, some 8⟩] := ⟨_, rfl, rfl, rfl⟩
  obtain ⟨s, hp, hd, hq⟩ := h
  obtain ⟨b, g', pcs, ha⟩ := hfull s (play_reachable (fun _ _ _ => trivial) _ .start hp) (.sending 0 0 7) (by rw [hd]; simp) rfl
  simp [act, hq] at ha

/-- C50 if calls of `Fulfill` and `Fail` for the same identifier do not overlap: something is delivered to each request
at most once. Missing: overlapping calls for one identifier, for which it is false. -/
theorem C50_once_partial {s : State R} (h : ReachableIf OneAtATime s) (r : Nat) : deliveries r s.g.log ≤ 1 :=
  (seqInv h).once r

/-- C50 if calls for the same identifier do not overlap: calls never wait. -/
theorem C50_returns_partial {s : State R} (h : ReachableIf OneAtATime s) (pc : PC R) (hpc : pc ∈ s.threads)
    (hr : pc.resolves = true) (b : Bool) : ∃ g' pcs, act s.g b pc = some (g', pcs) := by
  cases pc with
  | looking c k p => simp only [act]; split <;> exact ⟨_, _, rfl⟩
  | removing c r k p => exact ⟨_, _, rfl⟩
  | sending c r p =>
    obtain ⟨q, hq, _⟩ := h.inv.send c r p hpc
    have hz := (seqInv h).send c r p hpc
    simp only [act, hq]
    split
    · rename_i rep hc
      obtain ⟨c', hd, _⟩ := h.inv.chan r q rep hq hc
      simp only [deliveries, List.countP_eq_zero] at hz
      have := hz _ hd
      simp at this
    · exact ⟨_, _, rfl⟩
  | _ => simp [PC.resolves] at hr

/-- C50 if calls for the same identifier do not overlap: a call returns false only if every request with its identifier created before was
answered or given up before. -/
theorem C50_false_partial {s : State R} (h : ReachableIf OneAtATime s) (hn : (draws s.g.log).length < 2 ^ 64)
    (l1 l2 : List (Ev R)) (c r : Nat) (k : Bytes) (p : R) (q : Request R)
    (hl : s.g.log = l1 ++ .returned c false :: l2) (hc : .called c k p ∈ l1) (hr : .created r ∈ l1)
    (hq : s.g.reqs[r]? = some q) (hk : q.ident = k) : (∃ c', .delivered c' r ∈ l1) ∨ .gaveUp r ∈ l1 := by
  obtain ⟨e, he, hcl⟩ := missed h hn l1 c l2 hl k p hc r q hr hq hk
  cases e <;> simp [Ev.closes] at hcl
  · subst hcl; exact .inl ⟨_, he⟩
  · subst hcl; exact .inr he

/-- Calls for two requests overlap: the second looks its request up before the first delivers, and the first sends last. -/
example : ∃ s : State Nat, ReachableIf OneAtATime s ∧ s.g.log = [.drew 1, .drew 2, .created 0, .created 1,
    .called 0 (le64 1) 7, .called 1 (le64 2) 8, .delivered 1 1, .returned 1 true, .delivered 0 0, .returned 0 true] := by
  have h : ∃ s, play oneAtATime {} [.create, .create, .go 1, .go 0, .call (le64 1) 7, .call (le64 2) 8,
      .go 1, .go 0, .go 1, .go 0, .go 0, .go 0] = some s ∧ s.g.log = [.drew 1, .drew 2, .created 0, .created 1,
    .called 0 (le64 1) 7, .called 1 (le64 2) 8, .delivered 1 1, .returned 1 true, .delivered 0 0, .returned 0 true] :=
    ⟨_, rfl, rfl⟩
  obtain ⟨s, hp, hl⟩ := h
  exact ⟨s, play_reachable oneAtATime_ok _ .start hp, hl⟩

example : ∃ s : State Nat, ReachableIf OneAtATime s ∧ deliveries 0 s.g.log = 1 ∧ .returned 1 false ∈ s.g.log := by
  obtain ⟨s, h, hl, hr⟩ := ex_reachable
  exact ⟨s, h, by rw [hl]; rfl, by rw [hl]; simp⟩

/-- C51: a request given up is not pending. -/
theorem C51_forgotten {s : State R} (h : Reachable s) (r : Nat) (hg : .gaveUp r ∈ s.g.log) (k : Bytes) :
    s.g.pending k ≠ some r := by
  intro hp
  have := h.inv.pendOpen k r hp _ hg
  simp [Ev.closes] at this

/-- C51: calls for a request made after it was given up return false (if they return). -/
theorem C51_later_false {s : State R} (h : Reachable s) (hn : (draws s.g.log).length < 2 ^ 64) (r c : Nat)
    (q : Request R) (hq : s.g.reqs[r]? = some q) (l1 l2 : List (Ev R)) (hl : s.g.log = l1 ++ .gaveUp r :: l2)
    (p : R) (hc : .called c q.ident p ∈ l2) : .returned c true ∉ s.g.log :=
  late_call h hn hq hl (by simp [Ev.closes]) hc

example : ∃ s : State Nat, Reachable s ∧ ∃ l1 l2, s.g.log = l1 ++ .gaveUp 1 :: l2 ∧ .called 1 (le64 2) 8 ∈ l2 := by
  obtain ⟨s, h, hl, hr⟩ := ex_reachable
  exact ⟨s, h.weaken, [.drew 1, .created 0, .called 0 (le64 1) 7, .delivered 0 0, .returned 0 true, .got 0 7,
      .drew 2, .created 1], [.called 1 (le64 2) 8, .returned 1 false], by rw [hl]; rfl, by simp⟩

/-- C51: an error of a context is reported as `ErrDeadlineExceeded` exactly if the deadline passed, as `ErrCanceled`
exactly if it was cancelled, and the cause is kept. -/
theorem C51_errors (e : CtxErr) (text : CtxErr → String) :
    (isErrTimeout (translateContextError e text) = true ↔ e = .deadlineExceeded) ∧
    (isErrCanceled (translateContextError e text) = true ↔ e = .canceled) ∧
    (e = .deadlineExceeded → translateContextError e text = .deadlineExceeded e) ∧
    (e = .canceled → translateContextError e text = .canceled e) := by
  cases e <;> simp [translateContextError, isErrTimeout, isErrCanceled]

end Webwire.Req
