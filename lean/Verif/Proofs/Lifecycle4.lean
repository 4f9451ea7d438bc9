import Verif.Proofs.Lifecycle3

/-!
# Invariants of executions: the end of a connection
-/

set_option autoImplicit false

namespace Webwire.Life

/-- Events that come from the goroutine reading from the connection. -/
def LEv.ofReader (c : ConnId) : LEv → Bool
  | .arrived c' _ | .dropped c' _ | .refused c' _ | .disconnected c' => decide (c' = c)
  | _ => false

section
variable {g g' : G} {ch : Choice} {pc : PC} {pcs : List PC}

theorem Acts.readerEnds (h : Acts g ch pc g' pcs) (c : ConnId) :
    g'.log.count (.disconnected c) + pcs.countP (PC.isReader c) =
      g.log.count (.disconnected c) + [pc].countP (PC.isReader c) := by
  cases h <;> simp [PC.isReader, resume, closed, G.ev, G.upd, G.crash, unlinked, List.countP_cons, List.count_cons] <;>
    grind [PC.isReader]

theorem Acts.readerEv (h : Acts g ch pc g' pcs) (c : ConnId) {e : LEv} (hl : g'.log = g.log ++ [e])
    (he : e.ofReader c = true) : pc.isReader c = true := by
  cases h <;> simp_all [G.ev, G.upd, G.crash, unlinked, LEv.ofReader, PC.isReader] <;> (subst hl; simp_all [LEv.ofReader])

theorem Acts.handlerEv (h : Acts g ch pc g' pcs) (c : ConnId) {e : LEv} (hl : g'.log = g.log ++ [e])
    (he : e.isStart c = true ∨ e.isFinish c = true) : pc.isReader c = true ∨ pc.detached c = true := by
  cases h <;> simp_all [G.ev, G.upd, G.crash, unlinked] <;>
    (subst hl; simp_all [LEv.isStart, LEv.isFinish, PC.isReader, PC.detached]) <;> grind

end

/-- What holds of the end of connections. -/
structure EndInv (s : State) : Prop where
  ends : ∀ c, s.g.log.count (.disconnected c) + s.threads.countP (PC.isReader c) =
    if (s.g.conns c).used then 1 else 0
  silent : ∀ c l1 l2, s.g.log = l1 ++ .disconnected c :: l2 → ∀ e ∈ l2, e.ofReader c = false
  serial : ∀ c, 0 ≤ (s.g.conns c).limit → (s.g.conns c).limit ≤ 1 →
    ∀ l1 l2, s.g.log = l1 ++ .disconnected c :: l2 → ∀ e ∈ l2, e.isStart c = false ∧ e.isFinish c = false

theorem EndInv.step {s s' : State} {l : Label} (hi : EndInv s) (hv : Inv s) (h : Step s l s') : EndInv s' := by
  obtain ⟨h1, h2, h3⟩ := hi
  cases h with
  | thread g g' pre post pcs pc ch hc hact =>
    have ha := acts_of_act hact
    simp only at h1 h2 h3
    have hcp : ∀ c, ∀ l : List PC, (pre ++ (l ++ post)).countP (PC.isReader c) =
        (pre.countP (PC.isReader c) + post.countP (PC.isReader c)) + l.countP (PC.isReader c) := by
      intro c l; simp only [List.countP_append]; omega
    have hzero : ∀ c l1 l2, g.log = l1 ++ .disconnected c :: l2 → (pre ++ pc :: post).countP (PC.isReader c) = 0 := by
      intro c l1 l2 hl
      have := h1 c
      rw [hl, List.count_append, List.count_cons_self] at this
      split at this <;> omega
    have hpc : ∀ c, (pre ++ pc :: post).countP (PC.isReader c) = 0 → pc.isReader c = false := by
      intro c hz
      rw [List.countP_eq_zero] at hz
      simpa using hz pc (by simp)
    refine ⟨?_, ?_, ?_⟩
    · intro c
      have e1 := h1 c
      have e2 := ha.readerEnds c
      have e3 := hcp c pcs
      have e4 := hcp c [pc]
      rw [(ha.static c).1]
      simp only [List.singleton_append] at e4
      simp only at e1 ⊢
      rw [e4] at e1
      rw [e3]
      omega
    · intro c l1 l2 hl
      rcases ha.log with he | ⟨e, he⟩
      · exact h2 c l1 l2 (he ▸ hl)
      · simp only [he] at hl
        rcases append_eq_split hl with ⟨-, -, rfl⟩ | ⟨l3, rfl, hl3⟩
        · simp
        · intro e' he'
          rcases List.mem_append.mp he' with hm | hm
          · exact h2 c l1 l3 hl3 e' hm
          · rw [List.mem_singleton] at hm
            subst hm
            by_contra hne
            have := ha.readerEv c he (by simpa using hne)
            rw [hpc c (hzero c l1 l3 hl3)] at this
            cases this
    · intro c hl0 hl1 l1 l2 hl
      simp only at hl0 hl1
      rw [(ha.static c).2] at hl0 hl1
      rcases ha.log with he | ⟨e, he⟩
      · exact h3 c hl0 hl1 l1 l2 (he ▸ hl)
      · simp only [he] at hl
        rcases append_eq_split hl with ⟨-, -, rfl⟩ | ⟨l3, rfl, hl3⟩
        · simp
        · intro e' he'
          rcases List.mem_append.mp he' with hm | hm
          · exact h3 c hl0 hl1 l1 l3 hl3 e' hm
          · rw [List.mem_singleton] at hm
            subst hm
            have hd := hv.detached c hl0 hl1
            rw [List.countP_eq_zero] at hd
            have hd := hd pc (by simp)
            by_contra hne
            have hne : e'.isStart c = true ∨ e'.isFinish c = true := by
              cases h1 : e'.isStart c <;> cases h2 : e'.isFinish c <;> simp_all
            rcases ha.handlerEv c he hne with hx | hx
            · rw [hpc c (hzero c l1 l3 hl3)] at hx; cases hx
            · exact hd hx
  | connect g ts c limit hc hu =>
    refine ⟨?_, h2, ?_⟩
    · intro c'
      have := h1 c'
      simp only [connected] at this ⊢
      by_cases he : c' = c
      · subst he
        rw [if_neg (by simp [hu])] at this
        simp only [List.countP_cons, PC.isReader, decide_true, if_true]
        omega
      · simpa [he, PC.isReader, List.countP_cons, Ne.symm he] using this
    · intro c' hl0 hl1 l1 l2 hl
      by_cases he : c' = c
      · subst he
        have := h1 c'
        simp only at this hl
        rw [show g.log = _ from hl, List.count_append, List.count_cons_self] at this
        simp [hu] at this
      · exact h3 c' (by simpa [G.upd, he] using hl0) (by simpa [G.upd, he] using hl1) l1 l2 hl
  | close g ts c hc hu =>
    exact ⟨fun c' => by simpa [PC.isReader, List.countP_cons] using h1 c', h2, h3⟩
  | shutdown g ts hc =>
    exact ⟨fun c' => by simpa [PC.isReader, List.countP_cons] using h1 c', h2, h3⟩

theorem ReachableIf.endInv {ok : State → Label → Prop} {s : State} (h : ReachableIf ok s) : EndInv s := by
  induction h with
  | start => exact ⟨by simp, by simp, by simp⟩
  | step s l s' hr _ hs ih => exact ih.step hr.inv hs

end Webwire.Life
