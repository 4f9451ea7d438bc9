import Verif.Props.Lifecycle14

/-!
# C28, C92: what happens at once during a shutdown

As long as a connection has free handler slots, its requests are refused and its signals handled during a shutdown without anybody
else having to do anything.
-/

set_option autoImplicit false

namespace Webwire.Life

open Spec

/-- While the reader reads, slots are held by handlers, by goroutines that clean up after one, and by refused requests. -/
theorem reading_slots {s : State} (h : Reachable s) {c : ConnId} (hr : .reading c ∈ s.threads) (hl : (s.g.conns c).limit > 1) :
    (s.g.conns c).slots = (s.threads.countP fun a => handling c a || a.returned c) + s.g.log.countP (LEv.isRefused c) := by
  have hi := h.inv
  rw [hi.slots c hl]
  congr 1
  refine List.countP_congr fun a ha => ?_
  have hone : a.isReader c = true → a = .reading c := by
    intro hx
    apply Classical.byContradiction
    intro hne
    have h2 := hi.reader c
    obtain ⟨pre, post, hts⟩ := List.append_of_mem hr
    rw [hts] at h2 ha
    simp only [List.countP_append, List.countP_cons, PC.isReader, decide_true, if_true] at h2
    simp only [List.mem_append, List.mem_cons, hne, false_or] at ha
    rcases ha with ha | ha
    · have := List.countP_pos_iff.mpr ⟨a, ha, hx⟩; omega
    · have := List.countP_pos_iff.mpr ⟨a, ha, hx⟩; omega
  cases a <;> simp_all [PC.holdsSlot, handling, PC.isReader, PC.returned]

/-- Up to the check whether the server is being shut down. -/
theorem reading_counts {g : G} {pre post : List PC} {c : ConnId} {m : LMsg} (hcr : g.crashed = none) (hsd : g.shutdown = true)
    (hac : (g.conns c).active = true) (hf : 1 < (g.conns c).limit → ((g.conns c).slots : Int) < (g.conns c).limit)
    (hk : m.kind ≠ .heartbeat) :
    ∃ g2, Then (Only c m) ⟨g, pre ++ .reading c :: post⟩ ⟨g2, pre ++ (([.counting c m] : List PC) ++ post)⟩ ∧
      g2.log = g.log ++ [.arrived c m] ∧ g2.crashed = none ∧ g2.shutdown = true ∧ (g2.conns c).limit = (g.conns c).limit := by
  have t1 : Then (Only c m) ⟨g, pre ++ .reading c :: post⟩ ⟨g.ev (.arrived c m), pre ++ (([.acquiring c m] : List PC) ++ post)⟩ := by
    refine .step _ (.thread (.checking c m) {}) _ (.step _ (.thread (.reading c) { msg := some m }) _ .start ⟨rfl, rfl⟩
      (.thread g (g.ev (.arrived c m)) pre post [.checking c m] (.reading c) { msg := some m } hcr ?_)) trivial
      (.thread (g.ev (.arrived c m)) (g.ev (.arrived c m)) pre post [.acquiring c m] (.checking c m) {} hcr ?_)
    · simp [act, actReading, hk]
    · simp [act, actChecking, G.ev, hac]
  by_cases hl : (g.conns c).limit > 1
  · refine ⟨(g.ev (.arrived c m)).upd c fun x => { x with slots := x.slots + 1 },
      t1.trans (.step _ (.thread (.acquiring c m) {}) _ .start trivial (.thread _ _ pre post _ _ {} hcr ?_)), rfl, hcr, hsd,
      by simp [G.upd, G.ev]⟩
    have h2 : ¬ (g.conns c).limit ≤ ((g.conns c).slots : Int) := by have := hf hl; omega
    simp only [act, actAcquiring, G.ev]
    simp only [hl, if_true, ge_iff_le, h2, if_false]
  · refine ⟨g.ev (.arrived c m),
      t1.trans (.step _ (.thread (.acquiring c m) {}) _ .start trivial (.thread _ _ pre post _ _ {} hcr ?_)), rfl, hcr, hsd, rfl⟩
    simp only [act, actAcquiring, G.ev, hl, if_false]

/-- C28: on an open connection with a free slot, a request that arrives during a shutdown is refused without any handler having to
return, on this or on other connections, and the reader reads on. -/
theorem C28_refused_at_once {s : State} (h : Reachable s) (hc : s.g.crashed = none) (hs : .stop ∈ s.g.log) {c : ConnId}
    (ha : (s.g.conns c).active = true) (hr : .reading c ∈ s.threads)
    (hf : 1 < (s.g.conns c).limit →
      ((s.threads.countP fun a => handling c a || a.returned c) + s.g.log.countP (LEv.isRefused c) : Int) < (s.g.conns c).limit)
    (m : LMsg) (hm : m.requiresReply = true) :
    ∃ s', Then (Only c m) s s' ∧ s'.g.log = s.g.log ++ [.arrived c m, .refused c m] ∧ .reading c ∈ s'.threads := by
  have hsl := reading_slots h hr
  have hsd : s.g.shutdown = true := (ReachableIf.accInv h).stop hs
  obtain ⟨pre, post, hts⟩ := List.append_of_mem hr
  obtain ⟨g, ts⟩ := s
  simp only at hts hsl hc ha hf hsd
  subst hts
  obtain ⟨g2, t, e1, e2, e3, -⟩ := reading_counts (pre := pre) (post := post) (m := m) hc hsd ha
    (fun hl => by rw [hsl hl]; exact_mod_cast hf hl) (by intro hk; simp [LMsg.requiresReply, hk] at hm)
  have t2 : Then (Only c m) ⟨g2, pre ++ (([.counting c m] : List PC) ++ post)⟩
      ⟨g2.ev (.refused c m), pre ++ (([.reading c] : List PC) ++ post)⟩ := by
    refine .step _ (.thread (.refusing c m) {}) _ (.step _ (.thread (.counting c m) {}) _ .start trivial
      (.thread g2 g2 pre post [.refusing c m] _ {} e2 ?_)) trivial (.thread _ _ pre post [.reading c] _ {} e2 rfl)
    simp [act, actCounting, e3, hm]
  exact ⟨_, t.trans t2, by simp [G.ev, e1], by simp⟩

/-- C92: on an open connection with a free slot, the handler of a signal that arrives during a shutdown is called without any handler
having to return, on this or on other connections. -/
theorem C92_signal_starts_shutdown {s : State} (h : Reachable s) (hc : s.g.crashed = none) (hs : .stop ∈ s.g.log) {c : ConnId}
    (ha : (s.g.conns c).active = true) (hr : .reading c ∈ s.threads)
    (hf : 1 < (s.g.conns c).limit →
      ((s.threads.countP fun a => handling c a || a.returned c) + s.g.log.countP (LEv.isRefused c) : Int) < (s.g.conns c).limit)
    (m : LMsg) (hm : m.kind = .signal) :
    ∃ s', Then (Only c m) s s' ∧ s'.g.log = s.g.log ++ [.arrived c m, .start c m] := by
  have hsl := reading_slots h hr
  have hsd : s.g.shutdown = true := (ReachableIf.accInv h).stop hs
  obtain ⟨pre, post, hts⟩ := List.append_of_mem hr
  obtain ⟨g, ts⟩ := s
  simp only at hts hsl hc ha hf hsd
  subst hts
  obtain ⟨g2, t, e1, e2, e3, e5⟩ := reading_counts (pre := pre) (post := post) (m := m) hc hsd ha
    (fun hl => by rw [hsl hl]; exact_mod_cast hf hl) (by simp [hm])
  have hq : m.requiresReply = false := by simp [LMsg.requiresReply, hm]
  have t3 : Then (Only c m) ⟨g2, pre ++ (([.counting c m] : List PC) ++ post)⟩
      ⟨g2.upd c fun x => { x with tasks := x.tasks + 1 }, pre ++ (([.dispatching c m] : List PC) ++ post)⟩ := by
    refine .step _ (.thread (.tasking c m) {}) _ (.step _ (.thread (.counting c m) {}) _ .start trivial
      (.thread g2 g2 pre post [.tasking c m] _ {} e2 ?_)) trivial (.thread _ _ pre post [.dispatching c m] _ {} e2 rfl)
    simp [act, actCounting, e3, hq]
  generalize hg3 : g2.upd c (fun x => { x with tasks := x.tasks + 1 }) = g3 at t3
  have f1 : g3.log = g.log ++ [.arrived c m] := by rw [← hg3]; exact e1
  have f2 : g3.crashed = none := by rw [← hg3]; exact e2
  by_cases hl : (g3.conns c).limit < 0 ∨ (g3.conns c).limit > 1
  · refine ⟨_, (t.trans t3).trans (.step _ (.thread (.starting c m false) {}) _ (.step _ (.thread (.dispatching c m) {}) _ .start trivial
        (.thread g3 g3 pre post [.starting c m false, .reading c] _ {} f2 ?_)) trivial
        (.thread g3 _ pre (.reading c :: post) [.running c m false] _ {} f2 rfl)), by simp [G.ev, f1]⟩
    simp [act, actDispatching, hm, hl]
  · refine ⟨_, (t.trans t3).trans (.step _ (.thread (.starting c m true) {}) _ (.step _ (.thread (.dispatching c m) {}) _ .start trivial
        (.thread g3 g3 pre post [.starting c m true] _ {} f2 ?_)) trivial
        (.thread g3 _ pre post [.running c m true] _ {} f2 rfl)), by simp [G.ev, f1]⟩
    simp only [act, actDispatching, hm, hl, if_false]

/-- A connection with three slots of which one is held by a handler and one by a refused request. -/
example : ∃ s, play anyStep {} ([.connect 1 3, recv 0 (exReq 1)] ++ steps 0 5 ++ [.go 0, .shutdown, .go 0, recv 2 (exReq 2)] ++
    steps 2 4) = some s ∧ s.g.crashed = none ∧ .stop ∈ s.g.log ∧ (s.g.conns 1).active = true ∧ .reading 1 ∈ s.threads ∧
    (s.g.conns 1).limit = 3 ∧ s.threads.countP (fun a => handling 1 a || a.returned 1) = 1 ∧
    s.g.log.countP (LEv.isRefused 1) = 1 := ⟨_, rfl, rfl, by decide, rfl, by decide, rfl, by decide, by decide⟩

end Webwire.Life
