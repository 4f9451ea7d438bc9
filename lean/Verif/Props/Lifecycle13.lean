import Verif.Props.Lifecycle2
import Verif.Props.Lifecycle12

/-!
# C66: how many handlers outlast `OnClientDisconnected`
-/

set_option autoImplicit false

namespace Webwire.Life

open Spec (awaits)

private theorem countP_two (p q r : PC → Bool) (h : ∀ x, (p x = true → r x = true ∧ q x = false) ∧ (q x = true → r x = true))
    (l : List PC) : l.countP p + l.countP q ≤ l.countP r := by
  induction l with
  | nil => simp
  | cons x l ih =>
    have := h x
    simp only [List.countP_cons]
    cases hp : p x <;> cases hq : q x <;> simp_all <;> omega

private theorem Acts.lateStarts {g g' : G} {ch : Choice} {pc : PC} {pcs : List PC} (h : Acts g ch pc g' pcs) (c : ConnId)
    (hp : pc.isReader c = false) :
    g'.log.countP (LEv.isStart c) + pcs.countP (awaits c) ≤ g.log.countP (LEv.isStart c) + [pc].countP (awaits c) := by
  cases h <;> simp [PC.isReader, awaits, resume, closed, G.ev, G.upd, G.crash, unlinked, List.countP_cons,
    List.countP_append, LEv.isStart] at * <;>
    grind [awaits]

private theorem bounded (s : State) (h : Reachable s) (c : ConnId) : ∀ l1 l2, (s.g.conns c).limit > 1 →
    s.g.log = l1 ++ .disconnected c :: l2 →
    handlersRunning l1 c + l2.countP (LEv.isStart c) + s.threads.countP (awaits c) ≤
      (s.g.conns c).limit - l1.countP (LEv.isRefused c) := by
  induction h with
  | start => intro l1 l2 _ h; simp at h
  | step s l s' hr _ hst ih =>
    intro l1 l2 hl hs
    have hv' := hr.inv.step hst
    by_cases hn : l2 = []
    · subst hn
      have h1 := hv'.runs c
      have h2 := hv'.slots c hl
      have h3 := hv'.slotsLe c hl
      have h4 := countP_two (awaits c) (PC.runs c) (PC.holdsSlot c)
        (by intro x; cases x <;> simp [awaits, PC.runs, PC.holdsSlot]) s'.threads
      rw [hs] at h1 h2
      simp [List.countP_append, LEv.isStart, LEv.isFinish, LEv.isRefused] at h1 h2
      simp only [handlersRunning, List.countP_nil]
      omega
    · cases hst with
      | thread g g' pre post pcs pc ch hc hact =>
        have ha := acts_of_act hact
        have hli : (g'.conns c).limit = (g.conns c).limit := (ha.static c).2
        simp only at hl hs ih
        rw [hli] at hl ⊢
        have key : ∀ l3, g.log = l1 ++ .disconnected c :: l3 → pc.isReader c = false := by
          intro l3 hl3
          have := hr.endInv.ends c
          simp only at this
          rw [hl3, List.count_append, List.count_cons_self] at this
          have hz : (pre ++ pc :: post).countP (PC.isReader c) = 0 := by split at this <;> omega
          rw [List.countP_eq_zero] at hz
          simpa using hz pc (by simp)
        have hcons : ∀ p : PC → Bool, (pc :: post).countP p = post.countP p + [pc].countP p := by
          intro p; simp [List.countP_cons]
        have done : ∀ l3, g.log = l1 ++ .disconnected c :: l3 →
            handlersRunning l1 c + l2.countP (LEv.isStart c) + (pre ++ (pcs ++ post)).countP (awaits c) ≤
              (g.conns c).limit - l1.countP (LEv.isRefused c) := by
          intro l3 hl3
          have h1 := ih l1 l3 hl hl3
          have h2 := ha.lateStarts c (key l3 hl3)
          rw [hs, hl3] at h2
          simp only [List.countP_append, hcons, List.countP_cons] at h1 h2 ⊢
          push_cast at h1 ⊢
          omega
        rcases ha.log with he | ⟨e, he⟩
        · exact done l2 (he ▸ hs)
        · rw [he] at hs
          rcases append_eq_split hs with ⟨-, -, rfl⟩ | ⟨l3, rfl, hl3⟩
          · exact absurd rfl hn
          · exact done l3 hl3
      | connect g ts c' limit hc hu =>
        by_cases hcc : c = c'
        · subst hcc
          have := hr.endInv.ends c
          simp only [connected] at this hs
          rw [hs, List.count_append, List.count_cons_self] at this
          simp [hu] at this
        · have hg : (connected g c' limit).conns c = g.conns c := if_neg hcc
          simp only [hg] at hl ⊢
          exact ih l1 l2 hl hs
      | close g ts c' hc hu => exact ih l1 l2 hl hs
      | shutdown g ts hc => exact ih l1 l2 hl hs

/-- C66 (partial): on a connection with limit n > 1 no more than n handlers are running when `OnClientDisconnected` is
called or start afterwards, less the requests that were refused. Missing: that there are none, which is false. -/
theorem C66_handlers_bounded_partial (s : State) (h : Reachable s) (c : ConnId) (hl : (s.g.conns c).limit > 1)
    (l1 l2 : List LEv) (hs : s.g.log = l1 ++ .disconnected c :: l2) :
    handlersRunning l1 c + l2.countP (LEv.isStart c) + l1.countP (LEv.isRefused c) ≤ (s.g.conns c).limit := by
  have := bounded s h c l1 l2 hl hs
  omega

/-- C66, non-vacuity: the bound is met. One handler is running when `OnClientDisconnected` is called, one starts
afterwards. -/
example : ∃ s, play anyStep {} ([.connect 1 2, recv 0 (exReq 1)] ++ steps 0 6 ++ [recv 1 (exReq 2)] ++ steps 1 5 ++
    steps 2 3 ++ [.go 1]) = some s ∧ (s.g.conns 1).limit = 2 ∧
    s.g.log = [.arrived 1 (exReq 1), .start 1 (exReq 1), .arrived 1 (exReq 2)] ++ .disconnected 1 ::
      [.start 1 (exReq 2)] := ⟨_, rfl, rfl, rfl⟩

end Webwire.Life
