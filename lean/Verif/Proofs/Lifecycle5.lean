import Verif.Props.Lifecycle4

/-!
# Handlers that do not wait: proofs
-/

set_option autoImplicit false

namespace Webwire.Life

open Spec

theorem Spec.Then.trans {ok : State → Label → Prop} {s s' s'' : State} (h : Then ok s s') (h' : Then ok s' s'') : Then ok s s'' := by
  induction h' with
  | start => exact h
  | step a l b _ ho hs ih => exact .step a l b ih ho hs

theorem Spec.Then.reachable {ok : State → Label → Prop} {s s' : State} (h : Then ok s s') (hr : Reachable s) : Reachable s' := by
  induction h with
  | start => exact hr
  | step a l b _ _ hs ih => exact .step a l b ih trivial hs

/-- Open for messages: not closed, `Shutdown` not called, no crash, the reader waits for a message. -/
structure Open (c : ConnId) (s : State) : Prop where
  reach : Reachable s
  crash : s.g.crashed = none
  run : .stop ∉ s.g.log
  active : (s.g.conns c).active = true
  reader : .reading c ∈ s.threads

theorem Open.flag {c : ConnId} {s : State} (h : Open c s) : s.g.shutdown = false := by
  cases hs : s.g.shutdown
  · rfl
  · exact absurd ((ReachableIf.refInv h.reach).flag hs) h.run

theorem Open.refused {c : ConnId} {s : State} (h : Open c s) : s.g.log.countP (LEv.isRefused c) = 0 := by
  rw [List.countP_eq_zero]
  intro e he hx
  cases e <;> simp [LEv.isRefused] at hx
  exact h.run ((ReachableIf.refInv h.reach).log _ _ he).2

/-- On its way out: the handler has returned. -/
def PC.leaving (c : ConnId) : PC → Nat
  | .uncounting c' _ => if c' = c then 4 else 0
  | .untasking c' _ => if c' = c then 3 else 0
  | .unlinking c' _ => if c' = c then 2 else 0
  | .releasing c' _ => if c' = c then 1 else 0
  | _ => 0

def State.leaving (c : ConnId) (s : State) : Nat := (s.threads.map (PC.leaving c)).sum

/-- A goroutine whose handler has returned can go on. -/
theorem Open.leave {c : ConnId} {s : State} (h : Open c s) (m : LMsg) (hn : s.leaving c ≠ 0) :
    ∃ s', Then (Only c m) s s' ∧ Open c s' ∧ s'.leaving c < s.leaving c ∧ s'.g.log = s.g.log ∧
      s'.threads.countP (handling c) = s.threads.countP (handling c) ∧ (s'.g.conns c).limit = (s.g.conns c).limit := by
  have hex : ∃ pc ∈ s.threads, pc.leaving c ≠ 0 := by
    apply Classical.byContradiction
    intro hx
    apply hn
    unfold State.leaving
    rw [List.sum_eq_zero_iff_forall_eq_nat]
    intro x hx'
    obtain ⟨pc, hm, rfl⟩ := List.mem_map.mp hx'
    exact Classical.byContradiction fun h0 => hx ⟨pc, hm, h0⟩
  obtain ⟨pc, hm, hp⟩ := hex
  obtain ⟨pre, post, hts⟩ := List.append_of_mem hm
  obtain ⟨g, ts⟩ := s
  simp only at hts
  subst hts
  have hi := h.reach.inv
  have hf := h.flag
  have hcr := h.crash
  have hac := h.active
  simp only at hf hcr hac
  have hrd : ∀ pcs : List PC, .reading c ∈ pre ++ (pcs ++ post) := by
    intro pcs
    have := h.reader
    simp only [List.mem_append, List.mem_cons] at this ⊢
    rcases this with h | h | h
    · exact .inl h
    · subst h; simp [PC.leaving] at hp
    · exact .inr (.inr h)
  have go : ∀ (g' : G) (pcs : List PC), act g {} pc = some (g', pcs) → (∀ c m b, pc ≠ .running c m b) → (∀ c, pc ≠ .reading c) →
      g'.crashed = none → g'.log = g.log → (g'.conns c).active = true → (g'.conns c).limit = (g.conns c).limit →
      (pcs.map (PC.leaving c)).sum < pc.leaving c → pcs.countP (handling c) = 0 → handling c pc = false →
      ∃ s', Then (Only c m) ⟨g, pre ++ pc :: post⟩ s' ∧ Open c s' ∧ s'.leaving c < State.leaving c ⟨g, pre ++ pc :: post⟩ ∧
        s'.g.log = g.log ∧ s'.threads.countP (handling c) = (pre ++ pc :: post).countP (handling c) ∧
        (s'.g.conns c).limit = (g.conns c).limit := by
    intro g' pcs ha h1 h2 h3 h4 h5 h6 h7 h8 h9
    have hst : Step ⟨g, pre ++ pc :: post⟩ (.thread pc {}) ⟨g', pre ++ (pcs ++ post)⟩ := .thread g g' pre post pcs pc {} hcr ha
    have hok : Only c m ⟨g, pre ++ pc :: post⟩ (.thread pc {}) := by
      cases pc with
      | running => exact absurd rfl (h1 _ _ _)
      | reading => exact absurd rfl (h2 _)
      | _ => trivial
    refine ⟨_, .step _ _ _ .start hok hst, ⟨.step _ _ _ h.reach trivial hst, h3, ?_, h5, hrd pcs⟩, ?_, h4, ?_, h6⟩
    · simp only [h4]; exact h.run
    · simp only [State.leaving, List.map_append, List.map_cons, List.sum_append, List.sum_cons]; omega
    · simp only [List.countP_append, List.countP_cons, h8, h9]; simp
  cases pc with
  | uncounting c' b =>
    have : c' = c := by simp [PC.leaving] at hp; exact hp
    subst this
    refine go { g with currentOps := g.currentOps - 1 } [.untasking c' b] ?_ (by simp) (by simp) hcr rfl hac rfl
      (by simp [PC.leaving]) (by simp [handling]) rfl
    simp [act, actUncounting, hf]
  | untasking c' b =>
    have : c' = c := by simp [PC.leaving] at hp; exact hp
    subst this
    refine go (g.upd c' fun x => { x with tasks := x.tasks - 1 }) [.releasing c' b] ?_ (by simp) (by simp) hcr rfl
      (by simpa [G.upd] using hac) (by simp [G.upd]) (by simp [PC.leaving]) (by simp [handling]) rfl
    simp [act, actUntasking, G.upd, hac]
  | unlinking c' b =>
    have : c' = c := by simp [PC.leaving] at hp; exact hp
    subst this
    exact go (unlinked g c') [.releasing c' b] rfl (by simp) (by simp) hcr rfl
      (by simpa [unlinked, G.upd] using hac) (by simp [unlinked, G.upd]) (by simp [PC.leaving]) (by simp [handling]) rfl
  | releasing c' b =>
    have : c' = c := by simp [PC.leaving] at hp; exact hp
    subst this
    have hres : ((resume c' b).map (PC.leaving c')).sum < PC.leaving c' (.releasing c' b) ∧
        (resume c' b).countP (handling c') = 0 := by
      cases b <;> simp [resume, PC.leaving, handling]
    by_cases hl : (g.conns c').limit > 1
    · have hs : 1 ≤ (g.conns c').slots := by
        have := hi.slots c' hl
        simp only [List.countP_append, List.countP_cons, PC.holdsSlot, decide_true, if_true] at this
        omega
      refine go (g.upd c' fun x => { x with slots := x.slots - 1 }) (resume c' b) ?_ (by simp) (by simp) hcr rfl
        (by simpa [G.upd] using hac) (by simp [G.upd]) hres.1 hres.2 rfl
      simp only [act, actReleasing, hl, if_true]
      rw [if_neg (by omega)]
    · refine go g (resume c' b) ?_ (by simp) (by simp) hcr rfl hac rfl hres.1 hres.2 rfl
      simp only [act, actReleasing, hl, if_false]
  | _ => simp [PC.leaving] at hp

theorem Open.drain {c : ConnId} (m : LMsg) (n : Nat) : ∀ {s : State}, Open c s → s.leaving c = n →
    ∃ s', Then (Only c m) s s' ∧ Open c s' ∧ s'.leaving c = 0 ∧ s'.g.log = s.g.log ∧
      s'.threads.countP (handling c) = s.threads.countP (handling c) ∧ (s'.g.conns c).limit = (s.g.conns c).limit := by
  induction n using Nat.strongRecOn with
  | ind n ih =>
    intro s h hn
    by_cases h0 : s.leaving c = 0
    · exact ⟨s, .start, h, h0, rfl, rfl, rfl⟩
    · obtain ⟨s1, h1, h2, h3, h4, h5, h6⟩ := h.leave m h0
      obtain ⟨s2, k1, k2, k3, k4, k5, k6⟩ := ih _ (hn ▸ h3) h2 rfl
      exact ⟨s2, h1.trans k1, k2, k3, k4.trans h4, k5.trans h5, k6.trans h6⟩

/-- If nobody is on the way out, the slots taken are those of the handlers. -/
theorem Open.slots {c : ConnId} {s : State} (h : Open c s) (h0 : s.leaving c = 0) (hl : (s.g.conns c).limit > 1) :
    (s.g.conns c).slots = s.threads.countP (handling c) := by
  have hi := h.reach.inv
  rw [hi.slots c hl, h.refused, Nat.add_zero]
  refine List.countP_congr fun pc hm => ?_
  have hlv : pc.leaving c = 0 := by
    unfold State.leaving at h0
    rw [List.sum_eq_zero_iff_forall_eq_nat] at h0
    exact h0 _ (List.mem_map_of_mem hm)
  have hone : pc.isReader c = true → pc = .reading c := by
    intro hr
    apply Classical.byContradiction
    intro hne
    have h2 := hi.reader c
    obtain ⟨pre, post, hts⟩ := List.append_of_mem h.reader
    rw [hts] at h2 hm
    simp only [List.countP_append, List.countP_cons, PC.isReader, decide_true, if_true] at h2
    simp only [List.mem_append, List.mem_cons, hne, false_or] at hm
    rcases hm with hm | hm
    · have := List.countP_pos_iff.mpr ⟨pc, hm, hr⟩; omega
    · have := List.countP_pos_iff.mpr ⟨pc, hm, hr⟩; omega
  cases pc <;> simp_all [PC.holdsSlot, handling, PC.isReader, PC.leaving]

/-- The message is received, and its handler is called. -/
theorem Open.starts {c : ConnId} {s : State} (h : Open c s) (h0 : s.leaving c = 0) (hf : ¬ Full s c) (m : LMsg)
    (hm : m.kind = .request ∨ m.kind = .signal) :
    ∃ s', Then (Only c m) s s' ∧ s'.g.log = s.g.log ++ [.arrived c m, .start c m] ∧ Reachable s' ∧
      s'.threads.countP (handling c) = s.threads.countP (handling c) + 1 ∧ (s'.g.conns c).limit = (s.g.conns c).limit ∧
      ((s.g.conns c).limit < 0 ∨ 1 < (s.g.conns c).limit → Open c s') := by
  have hsl := h.slots h0
  have hsd := h.flag
  have hcr := h.crash
  have hac := h.active
  have hrun := h.run
  have hreach := h.reach
  obtain ⟨pre, post, hts⟩ := List.append_of_mem h.reader
  obtain ⟨g, ts⟩ := s
  simp only [Full] at hts hsl hsd hcr hac hrun hf
  subst hts
  have hk : m.kind ≠ .heartbeat := by rcases hm with h | h <;> simp [h]
  -- up to the slot
  have t1 : Then (Only c m) ⟨g, pre ++ .reading c :: post⟩ ⟨g.ev (.arrived c m), pre ++ (([.acquiring c m] : List PC) ++ post)⟩ := by
    refine .step _ (.thread (.checking c m) {}) _ (.step _ (.thread (.reading c) { msg := some m }) _ .start ⟨rfl, rfl⟩
      (.thread g (g.ev (.arrived c m)) pre post [.checking c m] (.reading c) { msg := some m } hcr ?_)) trivial
      (.thread (g.ev (.arrived c m)) (g.ev (.arrived c m)) pre post [.acquiring c m] (.checking c m) {} hcr ?_)
    · simp [act, actReading, hk]
    · simp [act, actChecking, G.ev, hac]
  have t2 : ∃ g2, Then (Only c m) ⟨g.ev (.arrived c m), pre ++ (([.acquiring c m] : List PC) ++ post)⟩
      ⟨g2, pre ++ (([.counting c m] : List PC) ++ post)⟩ ∧ g2.log = g.log ++ [.arrived c m] ∧ g2.crashed = none ∧
      g2.shutdown = false ∧ (g2.conns c).active = true ∧ (g2.conns c).limit = (g.conns c).limit := by
    by_cases hl : (g.conns c).limit > 1
    · refine ⟨(g.ev (.arrived c m)).upd c fun x => { x with slots := x.slots + 1 }, ?_, rfl, hcr, hsd,
        by simpa [G.upd, G.ev] using hac, by simp [G.upd, G.ev]⟩
      refine .step _ (.thread (.acquiring c m) {}) _ .start trivial (.thread _ _ pre post _ _ {} hcr ?_)
      have h1 := hsl hl
      have h2 : ¬ (g.conns c).limit ≤ ((g.conns c).slots : Int) := by
        rw [h1]; exact fun hle => hf ⟨hl, hle⟩
      simp only [act, actAcquiring, G.ev]
      simp only [hl, if_true, ge_iff_le, h2, if_false]
    · refine ⟨g.ev (.arrived c m), ?_, rfl, hcr, hsd, hac, rfl⟩
      refine .step _ (.thread (.acquiring c m) {}) _ .start trivial (.thread _ _ pre post _ _ {} hcr ?_)
      simp only [act, actAcquiring, G.ev, hl, if_false]
  obtain ⟨g2, t2, e1, e2, e3, e4, e5⟩ := t2
  -- up to the dispatch
  have t3 : Then (Only c m) ⟨g2, pre ++ (([.counting c m] : List PC) ++ post)⟩
      ⟨({ g2 with currentOps := g2.currentOps + 1 } : G).upd c fun x => { x with tasks := x.tasks + 1 },
        pre ++ (([.dispatching c m] : List PC) ++ post)⟩ := by
    refine .step _ (.thread (.tasking c m) {}) _ (.step _ (.thread (.counting c m) {}) _ .start trivial
      (.thread g2 { g2 with currentOps := g2.currentOps + 1 } pre post [.tasking c m] _ {} e2 ?_)) trivial
      (.thread _ _ pre post [.dispatching c m] _ {} e2 rfl)
    simp [act, actCounting, e3]
  generalize hg3 : ({ g2 with currentOps := g2.currentOps + 1 } : G).upd c (fun x => { x with tasks := x.tasks + 1 }) = g3 at t3
  have f1 : g3.log = g.log ++ [.arrived c m] := by rw [← hg3]; exact e1
  have f2 : g3.crashed = none := by rw [← hg3]; exact e2
  have f4 : (g3.conns c).active = true := by rw [← hg3]; simpa [G.upd] using e4
  have f5 : (g3.conns c).limit = (g.conns c).limit := by rw [← hg3]; simpa [G.upd] using e5
  have t := (t1.trans t2).trans t3
  by_cases hl : (g.conns c).limit < 0 ∨ 1 < (g.conns c).limit
  · have t4 : Then (Only c m) ⟨g3, pre ++ (([.dispatching c m] : List PC) ++ post)⟩
        ⟨g3.ev (.start c m), pre ++ (([.running c m false] : List PC) ++ (.reading c :: post))⟩ := by
      refine .step _ (.thread (.starting c m false) {}) _ (.step _ (.thread (.dispatching c m) {}) _ .start trivial
        (.thread g3 g3 pre post [.starting c m false, .reading c] _ {} f2 ?_)) trivial
        (.thread g3 _ pre (.reading c :: post) [.running c m false] _ {} f2 rfl)
      have hl' : (g3.conns c).limit < 0 ∨ (g3.conns c).limit > 1 := by rw [f5]; exact hl
      rcases hm with hm | hm <;> simp [act, actDispatching, hm, hl']
    have tt := t.trans t4
    refine ⟨_, tt, by simp [G.ev, f1], tt.reachable hreach, ?_, f5, fun _ => ⟨tt.reachable hreach, f2, ?_, f4, by simp⟩⟩
    · simp [List.countP_append, List.countP_cons, handling]; omega
    · simp [G.ev, f1]; exact hrun
  · have t4 : Then (Only c m) ⟨g3, pre ++ (([.dispatching c m] : List PC) ++ post)⟩
        ⟨g3.ev (.start c m), pre ++ (([.running c m true] : List PC) ++ post)⟩ := by
      refine .step _ (.thread (.starting c m true) {}) _ (.step _ (.thread (.dispatching c m) {}) _ .start trivial
        (.thread g3 g3 pre post [.starting c m true] _ {} f2 ?_)) trivial
        (.thread g3 _ pre post [.running c m true] _ {} f2 rfl)
      have hl' : ¬ ((g3.conns c).limit < 0 ∨ (g3.conns c).limit > 1) := by rw [f5]; exact hl
      rcases hm with hm | hm <;> simp only [act, actDispatching, hm, hl', if_false]
    have tt := t.trans t4
    refine ⟨_, tt, by simp [G.ev, f1], tt.reachable hreach, ?_, f5, fun hx => absurd hx hl⟩
    simp [List.countP_append, List.countP_cons, handling]; omega

end Webwire.Life
