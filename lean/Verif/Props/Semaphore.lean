import Verif.Proofs.Semaphore

/-!
# C57: the semaphore behind the handler slots
-/

set_option autoImplicit false

namespace Webwire.Sem

/-- Three calls of weight 2, 1, 1 on a semaphore of size 2 of which the last is cancelled. -/
def exOps : List Op := [.acquire 1 2, .acquire 2 1, .acquire 3 1, .tryAcquire 4 1, .cancel 3, .release 2]

/-- C57: in every history of calls of any weights, cancellations and releases, the weight acquired and not yet
released never exceeds the size. -/
theorem C57_within_size (size : Int) (hs : 0 ≤ size) (ops : List Op) (hr : ∀ n, .release n ∈ ops → 0 ≤ n) (s : S)
    (h : run (new size) ops = .ok s) : acquired s.log - released s.log ≤ size := by
  have hi := run_inv ops _ _ (new_inv hs) hr h
  have := hi.le
  rw [hi.size, hi.cur] at this
  exact this

example : ∃ s, run (new 2) exOps = .ok s ∧ acquired s.log = 3 ∧ released s.log = 2 := ⟨_, rfl, rfl, rfl⟩

/-- C57: calls succeed in the order they were made. -/
theorem C57_fifo (size : Int) (hs : 0 ≤ size) (ops : List Op) (hr : ∀ n, .release n ∈ ops → 0 ≤ n) (s : S)
    (h : run (new size) ops = .ok s) : (grants s.log).Sublist (calls s.log) :=
  (List.sublist_append_left _ _).trans (run_inv ops _ _ (new_inv hs) hr h).fifo

example : ∃ s, run (new 2) exOps = .ok s ∧ calls s.log = [1, 2, 3, 4] ∧ grants s.log = [1, 2] := ⟨_, rfl, rfl, rfl⟩

/-- C57: releasing what was acquired does not panic; releasing more does. -/
theorem C57_release_ok (size : Int) (hs : 0 ≤ size) (ops : List Op) (hr : ∀ n, .release n ∈ ops → 0 ≤ n) (s : S)
    (h : run (new size) ops = .ok s) (n : Int) :
    (∃ s', step s (.release n) = .ok s') ↔ n ≤ acquired s.log - released s.log := by
  have hi := run_inv ops _ _ (new_inv hs) hr h
  have hc := hi.cur
  constructor
  · rintro ⟨s', h'⟩
    simp only [step] at h'
    split at h'
    · cases h'
    · omega
  · intro hn
    have : ¬ s.sem.cur - n < 0 := by omega
    exact ⟨_, by simp only [step]; rw [if_neg this]⟩

/-- C57: nobody is forgotten: the calls that neither succeeded nor failed (because their context was done) are in the queue
from which `Release` wakes them, in the order they were made, whatever other calls were cancelled; the numbers of the
calls are different. -/
theorem C57_nobody_forgotten (size : Int) (hs : 0 ≤ size) (ops : List Op) (hr : ∀ n, .release n ∈ ops → 0 ≤ n)
    (hd : (ids ops).Nodup) (s : S) (h : run (new size) ops = .ok s) : s.sem.waiters = waiting size s.log := by
  have hw : Waits (new size) := ⟨by simp [new, waiting, weights], by simp [new, calls], by simp [new, ended]⟩
  have hi := run_inv ops _ _ (new_inv hs) hr h
  rw [(run_waits ops _ _ (new_inv hs) hw hr (by simpa [new, calls] using hd) h).waiters, hi.size]

example : ∃ s, run (new 2) [.acquire 1 2, .acquire 2 1, .acquire 3 1, .acquire 4 2, .cancel 2, .release 1] = .ok s ∧
    (ids [.acquire 1 2, .acquire 2 1, .acquire 3 1, .acquire 4 2, .cancel 2, .release 1]).Nodup ∧
    waiting 2 s.log = [(4, 2)] ∧ grants s.log = [1, 3] := ⟨_, rfl, by decide, by decide, by decide⟩

/-- C57, last part: the first waiter is woken as soon as its weight is free. -/
def C57_prompt_full : Prop :=
  ∀ (size : Int) (ops : List Op) (s : S), 0 ≤ size → (∀ n, .release n ∈ ops → 0 ≤ n) →
    (∀ id n, .acquire id n ∈ ops → 0 ≤ n) → run (new size) ops = .ok s → NoneFits s

/-- C57 does not hold with cancellations: when a heavy first waiter gives up, a light one behind it that would fit
keeps waiting. -/
theorem C57_prompt_violated : ¬ C57_prompt_full := by
  intro hfull
  have hrun : ∃ s, run (new 3) [.acquire 1 2, .acquire 2 3, .acquire 3 1, .cancel 2] = .ok s ∧
      s.sem.waiters = [(3, 1)] ∧ s.sem.size - s.sem.cur = 1 := ⟨_, rfl, rfl, rfl⟩
  obtain ⟨s, h, hw, hc⟩ := hrun
  have := hfull 3 _ s (by decide) (by simp) (by intro id n hm; simp at hm; omega) h (3, 1) (by simp [hw])
  simp only at this
  omega

/-- C57 (partial): without cancellations nobody waits without need, whatever the weights. (The server calls
`Acquire` with `context.Background()`, which is never cancelled.)

Missing: cancellations, see `C57_prompt_violated`. -/
theorem C57_prompt_partial (size : Int) (hs : 0 ≤ size) (ops : List Op) (s : S)
    (hr : ∀ n, .release n ∈ ops → 0 ≤ n) (hnc : ∀ id, .cancel id ∉ ops) (h : run (new size) ops = .ok s) :
    NoneFits s := by
  have key : ∀ (ops : List Op) (s s' : S), Inv size s → NoneFits s → (∀ n, .release n ∈ ops → 0 ≤ n) →
      (∀ id, .cancel id ∉ ops) → run s ops = .ok s' → NoneFits s' := by
    intro ops
    induction ops with
    | nil => intro s s' _ hi _ _ h; cases h; exact hi
    | cons op ops ih =>
      intro s s' hv hi hr hnc h
      simp only [run, bind, Except.bind] at h
      split at h
      · cases h
      · rename_i s1 h1
        exact ih s1 s' (hv.step (fun n hn => hr n (by simp [hn])) h1)
          (hi.step hv.le (fun n hn => hr n (by simp [hn])) (fun id hid => hnc id (by simp [hid])) h1)
          (fun n hn => hr n (by simp [hn])) (fun id hid => hnc id (by simp [hid])) h
  exact key ops _ _ (new_inv hs) (by simp [NoneFits, new]) hr hnc h

example : ∃ s, run (new 3) [.acquire 1 2, .acquire 2 3, .acquire 3 1] = .ok s ∧ s.sem.waiters = [(2, 3), (3, 1)] :=
  ⟨_, rfl, rfl⟩

/-- C57 (partial): with equal weights nobody waits without need, even with cancellations. Missing: different weights with
cancellations, for which it is false. -/
theorem C57_prompt_equal_weights_partial (size w : Int) (hs : 0 ≤ size) (ops : List Op) (s : S)
    (hr : ∀ n, .release n ∈ ops → 0 ≤ n) (hw : ∀ id n, .acquire id n ∈ ops → n = w)
    (h : run (new size) ops = .ok s) : NoneFits s := by
  have key : ∀ (ops : List Op) (s s' : S), Inv size s → NoneFits s → (∀ x ∈ s.sem.waiters, x.2 = w) →
      (∀ n, .release n ∈ ops → 0 ≤ n) → (∀ id n, .acquire id n ∈ ops → n = w) → run s ops = .ok s' →
      NoneFits s' := by
    intro ops
    induction ops with
    | nil => intro s s' _ hi _ _ _ h; cases h; exact hi
    | cons op ops ih =>
      intro s s' hv hi hq hr hw h
      simp only [run, bind, Except.bind] at h
      split at h
      · cases h
      · rename_i s1 h1
        have hall : ∀ x ∈ s1.sem.waiters, x.2 = w := by
          cases op with
          | acquire id n =>
            have hn := hw id n (by simp)
            simp only [step] at h1
            split at h1
            · cases h1; exact hq
            · split at h1 <;> cases h1
              · exact hq
              · intro x hx
                rcases List.mem_append.mp hx with hx | hx
                · exact hq x hx
                · simp only [List.mem_singleton] at hx; subst hx; exact hn
          | tryAcquire id n =>
            simp only [step] at h1
            split at h1 <;> cases h1 <;> exact hq
          | cancel id =>
            simp only [step] at h1
            split at h1 <;> cases h1
            · exact fun x hx => hq x (List.eraseP_sublist.subset hx)
            · exact hq
          | release n =>
            simp only [step] at h1
            split at h1
            · cases h1
            · have hn := hr n (by simp)
              obtain ⟨_, _, w3, _⟩ := wake_spec s.sem.size s.sem.waiters (s.sem.cur - n) (by have := hv.le; omega)
              cases h1
              intro x hx
              exact hq x (by rw [← w3]; simp only at hx; simp [hx])
        have hi1 : NoneFits s1 := by
          by_cases hc : ∃ id, op = .cancel id
          · obtain ⟨id, rfl⟩ := hc
            simp only [step] at h1
            split at h1 <;> cases h1
            · rename_i hany
              intro x hx
              have hx2 := hall x (List.mem_of_mem_head? hx)
              cases hws : s.sem.waiters with
              | nil => simp [hws] at hany
              | cons y ys =>
                have h1 := hi y (by simp [hws])
                have h2 := hq y (by simp [hws])
                simp only at hx2 ⊢
                omega
            · exact hi
          · exact hi.step hv.le (fun n hn => hr n (by simp [hn])) (fun id hid => hc ⟨id, hid⟩) h1
        exact ih s1 s' (hv.step (fun n hn => hr n (by simp [hn])) h1) hi1 hall
          (fun n hn => hr n (by simp [hn])) (fun id n hn => hw id n (by simp [hn])) h
  exact key ops _ _ (new_inv hs) (by simp [NoneFits, new]) (by simp [new]) hr hw h

example : ∃ s, run (new 2) [.acquire 1 1, .acquire 2 1, .acquire 3 1, .acquire 4 1, .cancel 3] = .ok s ∧
    s.sem.waiters = [(4, 1)] := ⟨_, rfl, rfl⟩

/-- C57: `TryAcquire` succeeds, and `Acquire` succeeds at once, exactly if nobody is waiting and the weight is free; otherwise
`TryAcquire` fails, and `Acquire` is not granted by this call. -/
theorem C57_at_once (size : Int) (hs : 0 ≤ size) (ops : List Op) (hr : ∀ n, .release n ∈ ops → 0 ≤ n)
    (hd : (ids ops).Nodup) (s : S) (h : run (new size) ops = .ok s) (id : Nat) (n : Int) :
    (∃ t, step s (.tryAcquire id n) = .ok t ∧
      t.log = s.log ++ [.called id n,
        if waiting size s.log = [] ∧ n ≤ size - (acquired s.log - released s.log) then .granted id n else .failed id]) ∧
    ∃ t, step s (.acquire id n) = .ok t ∧
      t.log = s.log ++ .called id n ::
        if waiting size s.log = [] ∧ n ≤ size - (acquired s.log - released s.log) then [.granted id n] else [] := by
  have hw := C57_nobody_forgotten size hs ops hr hd s h
  have hi := run_inv ops _ _ (new_inv hs) hr h
  have h1 := hi.size
  have h2 := hi.cur
  rw [← hw, ← h1, ← h2]
  simp only [step, List.length_eq_zero_iff]
  constructor
  · by_cases hc : s.sem.waiters = [] ∧ n ≤ s.sem.size - s.sem.cur
    · rw [if_pos (by constructor <;> simp_all <;> omega), if_pos hc]; exact ⟨_, rfl, rfl⟩
    · rw [if_neg (by rintro ⟨ha, hb⟩; exact hc ⟨by simp_all, by omega⟩), if_neg hc]; exact ⟨_, rfl, rfl⟩
  · by_cases hc : s.sem.waiters = [] ∧ n ≤ s.sem.size - s.sem.cur
    · rw [if_pos (by constructor <;> simp_all <;> omega), if_pos hc]; exact ⟨_, rfl, rfl⟩
    · rw [if_neg (by rintro ⟨ha, hb⟩; exact hc ⟨by simp_all, by omega⟩), if_neg hc]
      split <;> exact ⟨_, rfl, by simp⟩

/-- C57, non-vacuity: all of the weight is free for the third caller exactly when nobody waits. -/
example : (∃ s t, run (new 2) [.acquire 1 2, .release 2] = .ok s ∧ step s (.tryAcquire 2 2) = .ok t ∧
      t.log = s.log ++ [.called 2 2, .granted 2 2]) ∧
    ∃ s t, run (new 2) [.acquire 1 1, .acquire 2 2] = .ok s ∧ step s (.tryAcquire 3 1) = .ok t ∧
      t.log = s.log ++ [.called 3 1, .failed 3] := ⟨⟨_, _, rfl, rfl, rfl⟩, _, _, rfl, rfl, rfl⟩

end Webwire.Sem
