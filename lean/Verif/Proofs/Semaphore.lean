import Verif.Spec.Semaphore

/-!
# Lemmas on the semaphore
-/

set_option autoImplicit false

namespace Webwire.Sem

theorem acquired_append (l1 l2 : List Ev) : acquired (l1 ++ l2) = acquired l1 + acquired l2 := by
  induction l1 with
  | nil => simp [acquired]
  | cons e l ih => cases e <;> simp [acquired, ih]; omega

theorem released_append (l1 l2 : List Ev) : released (l1 ++ l2) = released l1 + released l2 := by
  induction l1 with
  | nil => simp [released]
  | cons e l ih => cases e <;> simp [released, ih]; omega

theorem wake_spec (size : Int) (ws : List (Nat × Int)) : ∀ cur, cur ≤ size →
    let r := wake size cur ws
    r.1 ≤ size ∧ r.1 = cur + acquired (r.2.2.map fun w => .granted w.1 w.2) ∧ r.2.2 ++ r.2.1 = ws ∧
      (∀ w ∈ r.2.1.head?, size - r.1 < w.2) := by
  induction ws with
  | nil => intro cur h; simp [wake, acquired, h]
  | cons w ws ih =>
    intro cur h
    simp only [wake]
    split
    · rename_i hlt
      simp [acquired, h]; omega
    · rename_i hge
      obtain ⟨h1, h2, h3, h4⟩ := ih (cur + w.2) (by omega)
      refine ⟨h1, ?_, by simp [h3], h4⟩
      simp only [List.map_cons, acquired]
      omega

theorem released_grants (ws : List (Nat × Int)) : released (ws.map fun w => .granted w.1 w.2) = 0 := by
  induction ws with
  | nil => rfl
  | cons w ws ih => simpa [released] using ih

theorem grants_grants (ws : List (Nat × Int)) : grants (ws.map fun w => .granted w.1 w.2) = ws.map (·.1) := by
  induction ws with
  | nil => rfl
  | cons w ws ih => simpa [grants] using ih

theorem calls_grants (ws : List (Nat × Int)) : calls (ws.map fun w => .granted w.1 w.2) = [] := by
  induction ws with
  | nil => rfl
  | cons w ws ih => simpa [calls] using ih

theorem released_cons (n : Int) (ws : List (Nat × Int)) :
    released (.released n :: ws.map fun w => .granted w.1 w.2) = n := by
  simp [released, released_grants]

/-- What holds at any time. -/
structure Inv (size : Int) (s : S) : Prop where
  size : s.sem.size = size
  le : s.sem.cur ≤ s.sem.size
  cur : s.sem.cur = acquired s.log - released s.log
  fifo : (grants s.log ++ s.sem.waiters.map (·.1)).Sublist (calls s.log)

theorem Inv.step {size : Int} {s s' : S} {op : Op} (hi : Inv size s) (hr : ∀ n, op = .release n → 0 ≤ n)
    (h : Sem.step s op = .ok s') : Inv size s' := by
  obtain ⟨h1, h2, h3, h4⟩ := hi
  cases op with
  | acquire id n =>
    simp only [Sem.step] at h
    split at h
    · rename_i hc
      cases h
      have hw : s.sem.waiters = [] := List.length_eq_zero_iff.mp hc.2
      rw [hw] at h4
      refine ⟨h1, by simp only; omega, ?_, ?_⟩
      · simp [acquired_append, released_append, acquired, released]; omega
      · simpa [grants, calls, hw] using h4
    · split at h <;> cases h
      · refine ⟨h1, h2, ?_, ?_⟩
        · simp [acquired_append, released_append, acquired, released]; omega
        · have := h4.trans (List.sublist_append_left (calls s.log) [id])
          simpa [grants, calls] using this
      · refine ⟨h1, h2, ?_, ?_⟩
        · simp [acquired_append, released_append, acquired, released]; omega
        · have := h4.append (List.Sublist.refl [id])
          simpa [grants, calls] using this
  | tryAcquire id n =>
    simp only [Sem.step] at h
    split at h
    · rename_i hc
      cases h
      have hw : s.sem.waiters = [] := List.length_eq_zero_iff.mp hc.2
      rw [hw] at h4
      refine ⟨h1, by simp only; omega, ?_, ?_⟩
      · simp [acquired_append, released_append, acquired, released]; omega
      · simpa [grants, calls, hw] using h4
    · cases h
      refine ⟨h1, h2, ?_, ?_⟩
      · simp [acquired_append, released_append, acquired, released]; omega
      · have := h4.trans (List.sublist_append_left (calls s.log) [id])
        simpa [grants, calls] using this
  | cancel id =>
    simp only [Sem.step] at h
    split at h <;> cases h
    · refine ⟨h1, h2, ?_, ?_⟩
      · simp [acquired_append, released_append, acquired, released]; omega
      · have hsub : (s.sem.waiters.eraseP fun w => w.1 = id).Sublist s.sem.waiters := List.eraseP_sublist
        have := ((List.Sublist.refl (grants s.log)).append (hsub.map (·.1))).trans h4
        simpa [grants, calls] using this
    · exact ⟨h1, h2, h3, h4⟩
  | release n =>
    simp only [Sem.step] at h
    split at h
    · cases h
    · have hn := hr n rfl
      obtain ⟨w1, w2, w3, w4⟩ := wake_spec s.sem.size s.sem.waiters (s.sem.cur - n) (by omega)
      cases h
      refine ⟨h1, w1, ?_, ?_⟩
      · simp only [acquired_append, released_append, released_cons, acquired]
        rw [w2]; omega
      · have e1 : grants (s.log ++ .released n :: (wake s.sem.size (s.sem.cur - n) s.sem.waiters).2.2.map fun w =>
            .granted w.1 w.2) = grants s.log ++ (wake s.sem.size (s.sem.cur - n) s.sem.waiters).2.2.map (·.1) := by
          rw [← grants_grants]; simp [grants]
        have e2 : calls (s.log ++ .released n :: (wake s.sem.size (s.sem.cur - n) s.sem.waiters).2.2.map fun w =>
            .granted w.1 w.2) = calls s.log := by
          simp [calls]
        simp only [e1, e2]
        rw [List.append_assoc, ← List.map_append, w3]
        exact h4

theorem run_inv {size : Int} : ∀ (ops : List Op) (s s' : S), Inv size s → (∀ n, .release n ∈ ops → 0 ≤ n) →
    run s ops = .ok s' → Inv size s' := by
  intro ops
  induction ops with
  | nil => intro s s' hi _ h; cases h; exact hi
  | cons op ops ih =>
    intro s s' hi hr h
    simp only [run, bind, Except.bind] at h
    split at h
    · cases h
    · rename_i s1 h1
      exact ih s1 s' (hi.step (fun n hn => hr n (by simp [hn])) h1) (fun n hn => hr n (by simp [hn])) h

theorem new_inv {size : Int} (h : 0 ≤ size) : Inv size (new size) :=
  ⟨rfl, h, rfl, by simp [new, grants, calls]⟩

/-! ## Who waits -/

theorem weights_map (l : List Ev) : (weights l).map (·.1) = calls l := by
  induction l with
  | nil => rfl
  | cons e l ih => cases e <;> simp [weights, calls] at ih ⊢ <;> exact ih

theorem ended_append (l1 l2 : List Ev) (id : Nat) : ended (l1 ++ l2) id = (ended l1 id || ended l2 id) := by
  simp [ended]

/-- What holds at any time if no number is used twice. -/
structure Waits (s : S) : Prop where
  waiters : s.sem.waiters = waiting s.sem.size s.log
  nodup : (calls s.log).Nodup
  known : ∀ id, ended s.log id = true → id ∈ calls s.log

theorem waiting_called {size : Int} {l : List Ev} {id : Nat} {n : Int} (hn : id ∉ calls l) (he : ended l id = false) :
    waiting size (l ++ [.called id n]) = waiting size l ++ if n ≤ size then [(id, n)] else [] := by
  have h1 : weights (l ++ [.called id n]) = weights l ++ [(id, n)] := by simp [weights]
  have h2 : ∀ i, ended (l ++ [.called id n]) i = ended l i := by intro i; simp [ended]
  simp only [waiting, h1, h2, List.filter_append]
  congr 1
  by_cases h : n ≤ size <;> simp [h, he]

theorem waiting_ends {size : Int} {l evs : List Ev} (h : weights evs = []) :
    waiting size (l ++ evs) = (waiting size l).filter fun w => !ended evs w.1 := by
  have h1 : weights (l ++ evs) = weights l := by simp [weights] at h ⊢; exact h
  simp only [waiting, h1, ended_append, List.filter_filter]
  congr 1
  funext w
  cases ended l w.1 <;> cases ended evs w.1 <;> simp

theorem calls_append (l1 l2 : List Ev) : calls (l1 ++ l2) = calls l1 ++ calls l2 := by simp [calls]

theorem ended_grants (ws : List (Nat × Int)) (n : Int) (id : Nat) :
    ended (.released n :: ws.map fun w => .granted w.1 w.2) id = true ↔ id ∈ ws.map (·.1) := by
  simp only [ended, List.any_cons, List.any_map, Bool.false_or, List.any_eq_true, List.mem_map]
  refine exists_congr fun w => and_congr_right fun _ => ?_
  simp

theorem weights_grants (ws : List (Nat × Int)) (n : Int) :
    weights (.released n :: ws.map fun w => .granted w.1 w.2) = [] := by
  simp [weights]

theorem waiting_sub (size : Int) (l : List Ev) : (waiting size l).Sublist (weights l) := List.filter_sublist

theorem Waits.step {s s' : S} {op : Op} (hi : Waits s) (hle : s.sem.cur ≤ s.sem.size)
    (hr : ∀ n, op = .release n → 0 ≤ n) (hf : ∀ id ∈ ids [op], id ∉ calls s.log)
    (h : Sem.step s op = .ok s') : Waits s' := by
  obtain ⟨h1, h2, h3⟩ := hi
  have hwn : (s.sem.waiters.map (·.1)).Nodup := by
    rw [h1]
    exact ((waiting_sub _ _).map (·.1)).nodup (weights_map s.log ▸ h2)
  cases op with
  | acquire id n =>
    have hid : id ∉ calls s.log := hf id (by simp [ids])
    have he : ended s.log id = false := by
      cases hh : ended s.log id
      · rfl
      · exact absurd (h3 id hh) hid
    have hnd : (calls s.log ++ [id]).Nodup := by
      rw [List.nodup_append]; exact ⟨h2, by simp, by rintro a ha b hb rfl; exact hid (by simp at hb; exact hb ▸ ha)⟩
    simp only [Sem.step] at h
    split at h
    · rename_i hc
      cases h
      have hw : s.sem.waiters = [] := List.length_eq_zero_iff.mp hc.2
      refine ⟨?_, ?_, ?_⟩
      · simp only
        rw [show [Ev.called id n, .granted id n] = [.called id n] ++ [.granted id n] from rfl, ← List.append_assoc,
          waiting_ends (by rfl), waiting_called hid he, ← h1, hw]
        split <;> simp [ended]
      · simpa [calls] using hnd
      · intro i hh
        simp only [ended_append, Bool.or_eq_true] at hh
        rcases hh with hh | hh
        · simp only [calls_append, List.mem_append]; exact .inl (h3 i hh)
        · simp [ended] at hh; simp [calls, hh]
    · split at h <;> cases h
      · rename_i hgt
        refine ⟨?_, by simpa [calls] using hnd, ?_⟩
        · simp only
          rw [waiting_called hid he, if_neg (by omega), List.append_nil]; exact h1
        · intro i hh
          simp only [ended_append, Bool.or_eq_true] at hh
          rcases hh with hh | hh
          · simp only [calls_append, List.mem_append]; exact .inl (h3 i hh)
          · simp [ended] at hh
      · rename_i hgt
        refine ⟨?_, by simpa [calls] using hnd, ?_⟩
        · simp only
          rw [waiting_called hid he, if_pos (by omega), h1]
        · intro i hh
          simp only [ended_append, Bool.or_eq_true] at hh
          rcases hh with hh | hh
          · simp only [calls_append, List.mem_append]; exact .inl (h3 i hh)
          · simp [ended] at hh
  | tryAcquire id n =>
    have hid : id ∉ calls s.log := hf id (by simp [ids])
    have he : ended s.log id = false := by
      cases hh : ended s.log id
      · rfl
      · exact absurd (h3 id hh) hid
    have hnd : (calls s.log ++ [id]).Nodup := by
      rw [List.nodup_append]; exact ⟨h2, by simp, by rintro a ha b hb rfl; exact hid (by simp at hb; exact hb ▸ ha)⟩
    simp only [Sem.step] at h
    split at h
    · rename_i hc
      cases h
      have hw : s.sem.waiters = [] := List.length_eq_zero_iff.mp hc.2
      refine ⟨?_, ?_, ?_⟩
      · simp only
        rw [show [Ev.called id n, .granted id n] = [.called id n] ++ [.granted id n] from rfl, ← List.append_assoc,
          waiting_ends (by rfl), waiting_called hid he, ← h1, hw]
        split <;> simp [ended]
      · simpa [calls] using hnd
      · intro i hh
        simp only [ended_append, Bool.or_eq_true] at hh
        rcases hh with hh | hh
        · simp only [calls_append, List.mem_append]; exact .inl (h3 i hh)
        · simp [ended] at hh; simp [calls, hh]
    · cases h
      refine ⟨?_, by simpa [calls] using hnd, ?_⟩
      · simp only
        rw [show [Ev.called id n, .failed id] = [.called id n] ++ [.failed id] from rfl, ← List.append_assoc,
          waiting_ends (by rfl), waiting_called hid he, ← h1, List.filter_append]
        have e1 : s.sem.waiters.filter (fun w => !ended [.failed id] w.1) = s.sem.waiters := by
          rw [List.filter_eq_self]
          intro w hw
          have : w.1 ∈ calls s.log := by
            rw [← weights_map]; rw [h1] at hw
            exact List.mem_map_of_mem ((waiting_sub _ _).subset hw)
          have hne : id ≠ w.1 := fun hh => hid (hh ▸ this)
          simp [ended, hne]
        rw [e1]
        split <;> simp [ended]
      · intro i hh
        simp only [ended_append, Bool.or_eq_true] at hh
        rcases hh with hh | hh
        · simp only [calls_append, List.mem_append]; exact .inl (h3 i hh)
        · simp [ended] at hh; simp [calls, hh]
  | cancel id =>
    simp only [Sem.step] at h
    split at h <;> cases h
    · rename_i hany
      refine ⟨?_, by simpa [calls] using h2, ?_⟩
      · simp only
        rw [waiting_ends (by rfl), ← h1]
        generalize s.sem.waiters = ws at hwn
        induction ws with
        | nil => rfl
        | cons w ws ih =>
          simp only [List.map_cons, List.nodup_cons] at hwn
          by_cases hw : w.1 = id
          · subst hw
            rw [List.eraseP_cons_of_pos (by simp), List.filter_cons_of_neg (by simp [ended]), eq_comm,
              List.filter_eq_self]
            intro x hx
            have : w.1 ≠ x.1 := fun hh => hwn.1 (by rw [hh]; exact List.mem_map_of_mem hx)
            simp [ended, this]
          · rw [List.eraseP_cons_of_neg (by simpa using hw),
              List.filter_cons_of_pos (by simpa [ended] using fun hh => hw hh.symm), ih hwn.2]
      · intro i hh
        simp only [ended_append, Bool.or_eq_true] at hh
        simp only [calls_append, List.mem_append]
        rcases hh with hh | hh
        · exact .inl (h3 i hh)
        · simp [ended] at hh
          subst hh
          left
          simp only [List.any_eq_true, decide_eq_true_eq] at hany
          obtain ⟨w, hw, hw'⟩ := hany
          rw [← weights_map]; rw [h1] at hw
          exact hw' ▸ List.mem_map_of_mem ((waiting_sub _ _).subset hw)
    · exact ⟨h1, h2, h3⟩
  | release n =>
    simp only [Sem.step] at h
    split at h
    · cases h
    · have hn := hr n rfl
      obtain ⟨-, -, w3, -⟩ := wake_spec s.sem.size s.sem.waiters (s.sem.cur - n) (by omega)
      cases h
      generalize hwk : wake s.sem.size (s.sem.cur - n) s.sem.waiters = r at *
      obtain ⟨c, rest, woken⟩ := r
      simp only at w3 ⊢
      refine ⟨?_, ?_, ?_⟩
      · simp only
        rw [waiting_ends (weights_grants _ _), ← h1, ← w3, List.filter_append]
        rw [← w3, List.map_append, List.nodup_append] at hwn
        have e1 : woken.filter (fun w => !ended (.released n :: woken.map fun w => .granted w.1 w.2) w.1) = [] := by
          rw [List.filter_eq_nil_iff]
          intro w hw
          simp [(ended_grants woken n w.1).2 (List.mem_map_of_mem hw)]
        have e2 : rest.filter (fun w => !ended (.released n :: woken.map fun w => .granted w.1 w.2) w.1) = rest := by
          rw [List.filter_eq_self]
          intro w hw
          rw [Bool.not_eq_true', Bool.eq_false_iff]
          intro hh
          exact hwn.2.2 _ ((ended_grants _ _ _).1 hh) _ (List.mem_map_of_mem hw) rfl
        rw [e1, e2, List.nil_append]
      · rw [calls_append, ← weights_map (.released n :: _), weights_grants]
        simpa using h2
      · intro i hh
        simp only [ended_append, Bool.or_eq_true] at hh
        simp only [calls_append, List.mem_append]
        left
        rcases hh with hh | hh
        · exact h3 i hh
        · rw [ended_grants] at hh
          rw [← weights_map]
          refine ((waiting_sub _ _).map _).subset (?_ : i ∈ (waiting s.sem.size s.log).map (·.1))
          rw [← h1, ← w3, List.map_append]
          exact List.mem_append_left _ hh

theorem step_calls {s s' : S} {op : Op} (h : Sem.step s op = .ok s') : calls s'.log = calls s.log ++ ids [op] := by
  cases op <;> simp only [Sem.step] at h
  · split at h
    · cases h; simp [calls, ids]
    · split at h <;> cases h <;> simp [calls, ids]
  · split at h <;> cases h <;> simp [calls, ids]
  · split at h <;> cases h <;> simp [calls, ids]
  · split at h <;> cases h
    simp [calls, ids]

theorem run_waits {size : Int} : ∀ (ops : List Op) (s s' : S), Inv size s → Waits s →
    (∀ n, .release n ∈ ops → 0 ≤ n) → (calls s.log ++ ids ops).Nodup → run s ops = .ok s' → Waits s' := by
  intro ops
  induction ops with
  | nil => intro s s' _ hi _ _ h; cases h; exact hi
  | cons op ops ih =>
    intro s s' hv hi hr hn h
    have e : ids (op :: ops) = ids [op] ++ ids ops := by
      simp only [ids, ← List.filterMap_append, List.singleton_append]
    rw [e] at hn
    simp only [run, bind, Except.bind] at h
    split at h
    · cases h
    · rename_i s1 h1
      refine ih s1 s' (hv.step (fun n hn => hr n (by simp [hn])) h1)
        (hi.step hv.le (fun n hn => hr n (by simp [hn])) ?_ h1) (fun n hn => hr n (by simp [hn]))
        (by rw [step_calls h1, List.append_assoc]; exact hn) h
      intro id hid hc
      rw [List.nodup_append] at hn
      exact hn.2.2 id hc id (List.mem_append_left _ hid) rfl

theorem NoneFits.step {s s' : S} {op : Op} (hi : NoneFits s) (hle : s.sem.cur ≤ s.sem.size)
    (hr : ∀ n, op = .release n → 0 ≤ n) (hnc : ∀ id, op ≠ .cancel id) (h : Sem.step s op = .ok s') : NoneFits s' := by
  cases op with
  | acquire id n =>
    simp only [Sem.step] at h
    split at h
    · rename_i hc
      cases h
      have hw : s.sem.waiters = [] := List.length_eq_zero_iff.mp hc.2
      simp [NoneFits, hw]
    · rename_i hc
      split at h <;> cases h
      · exact hi
      · intro w hw
        simp only at hw ⊢
        cases hws : s.sem.waiters with
        | nil =>
          simp only [hws, List.nil_append, List.head?_cons, Option.mem_def, Option.some.injEq] at hw
          subst hw
          simp [hws] at hc
          exact hc
        | cons x xs =>
          apply hi
          rw [hws] at hw ⊢
          simpa using hw
  | tryAcquire id n =>
    simp only [Sem.step] at h
    split at h
    · rename_i hc
      cases h
      have hw : s.sem.waiters = [] := List.length_eq_zero_iff.mp hc.2
      simp [NoneFits, hw]
    · cases h; exact hi
  | cancel id => exact absurd rfl (hnc id)
  | release n =>
    simp only [Sem.step] at h
    split at h
    · cases h
    · have hn := hr n rfl
      obtain ⟨w1, w2, w3, w4⟩ := wake_spec s.sem.size s.sem.waiters (s.sem.cur - n) (by omega)
      cases h
      exact w4

end Webwire.Sem
