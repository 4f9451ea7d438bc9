import Verif.Proofs.RequestManager2

/-! Helper lemmas on the results of `Fulfill` and `Fail`. -/

set_option autoImplicit false

namespace Webwire.Req

variable {R : Type}

/-- Each call is in one goroutine until it returns, which it does once, with true if it delivered. -/
structure RetInv (s : State R) : Prop where
  opn : ∀ pc ∈ s.threads, ∀ c, pc.call? = some c → c < s.g.calls ∧ ∀ b, .returned c b ∉ s.g.log
  one : (s.threads.filterMap PC.call?).Nodup
  ret : ∀ c b, .returned c b ∈ s.g.log → c < s.g.calls
  same : ∀ c b b', .returned c b ∈ s.g.log → .returned c b' ∈ s.g.log → b = b'
  del : ∀ c r, .delivered c r ∈ s.g.log → .returned c true ∈ s.g.log

/-- What the goroutine in a call does: it goes on, or returns. -/
theorem Acts.rets {g g' : G R} {pc : PC R} {pcs : List (PC R)} (h : Acts g pc g' pcs) :
    ∃ es, g'.log = g.log ++ es ∧ (∀ c k p, .called c k p ∉ es) ∧
      ((pcs.filterMap PC.call? = pc.call?.toList ∧ (∀ c b, .returned c b ∉ es) ∧ ∀ c r, .delivered c r ∉ es) ∨
       ∃ c b, pc.call? = some c ∧ pcs = [] ∧ (∀ c' b', .returned c' b' ∈ es ↔ c' = c ∧ b' = b) ∧
         ∀ c' r, .delivered c' r ∈ es → c' = c ∧ b = true) := by
  cases h with
  | create id => exact ⟨_, rfl, by simp, .inl (by simp [PC.call?])⟩
  | notFound call ident rep hp => exact ⟨_, rfl, by simp, .inr ⟨call, false, rfl, rfl, by simp, by simp⟩⟩
  | found call r ident rep hp => exact ⟨[], by simp, by simp, .inl (by simp [PC.call?])⟩
  | remove call r ident rep => exact ⟨[], by simp [G.deregister], by simp, .inl (by simp [PC.call?])⟩
  | send call r rep q hq hc => exact ⟨_, rfl, by simp, .inr ⟨call, true, rfl, rfl, by simp, by simp⟩⟩
  | ctxDone r => exact ⟨[], by simp, by simp, .inl (by simp [PC.call?])⟩
  | receive r rep q hq hc => exact ⟨_, rfl, by simp, .inl (by simp [PC.call?])⟩
  | forget r q hq => exact ⟨_, rfl, by simp, .inl (by simp [PC.call?])⟩

theorem RetInv.step {s s' : State R} {l : Label R} (hi : RetInv s) (h : Step s l s') : RetInv s' := by
  obtain ⟨h1, h2, h3, h4, h5⟩ := hi
  cases h with
  | thread g g' pre post pcs pc b hact =>
    obtain ⟨es, he, hnc, hor⟩ := (acts_of_act hact).rets
    have hcalls : g'.calls = g.calls := by
      simp only [G.calls, he, List.countP_append]
      refine Nat.add_eq_left.mpr ?_
      · rw [List.countP_eq_zero]
        intro e hm
        cases e with
        | called c k p => exact absurd hm (hnc c k p)
        | _ => simp
    have hsplit : ∀ xs : List (PC R), ((pre ++ (xs ++ post)).filterMap PC.call?) =
        pre.filterMap PC.call? ++ (xs.filterMap PC.call? ++ post.filterMap PC.call?) := by simp
    have hpc1 : ((pre ++ pc :: post).filterMap PC.call?) =
        pre.filterMap PC.call? ++ (pc.call?.toList ++ post.filterMap PC.call?) := by
      simp [List.filterMap_cons]; cases pc.call? <;> simp
    simp only at h1 h2 h3 h4 h5
    rw [hpc1] at h2
    rcases hor with ⟨e1, e2, e3⟩ | ⟨c, b, e1, rfl, e3, e4⟩
    · refine ⟨?_, ?_, ?_, ?_, ?_⟩
      · intro x hx c hc
        simp only [hcalls]
        have hx' : ∃ y ∈ pre ++ pc :: post, y.call? = some c := by
          simp only [List.mem_append, List.mem_cons] at hx ⊢
          rcases hx with hx | hx | hx
          · exact ⟨x, .inl hx, hc⟩
          · have : c ∈ pcs.filterMap PC.call? := List.mem_filterMap.mpr ⟨x, hx, hc⟩
            rw [e1] at this
            exact ⟨pc, .inr (.inl rfl), by simpa using this⟩
          · exact ⟨x, .inr (.inr hx), hc⟩
        obtain ⟨y, hy, hyc⟩ := hx'
        refine ⟨(h1 y hy c hyc).1, fun b hb => ?_⟩
        rw [he, List.mem_append] at hb
        exact hb.elim ((h1 y hy c hyc).2 b) (e2 c b)
      · simp only [hsplit, e1]; exact h2
      · intro c b hb
        simp only [he, hcalls, List.mem_append] at hb ⊢
        exact hb.elim (h3 c b) (fun h => absurd h (e2 c b))
      · intro c b b' hb hb'
        simp only [he, List.mem_append] at hb hb'
        exact h4 c b b' (hb.resolve_right (e2 c b)) (hb'.resolve_right (e2 c b'))
      · intro c r hd
        simp only [he, List.mem_append] at hd ⊢
        exact .inl (h5 c r (hd.resolve_right (e3 c r)))
    · have hc := h1 pc (by simp) c e1
      rw [e1] at h2
      have h2' : (c :: (pre.filterMap PC.call? ++ post.filterMap PC.call?)).Nodup := (List.perm_middle.nodup_iff).mp h2
      refine ⟨?_, ?_, ?_, ?_, ?_⟩
      · intro x hx c' hc'
        simp only [List.nil_append] at hx
        simp only [hcalls]
        have hx' : x ∈ pre ++ pc :: post := by
          simp only [List.mem_append, List.mem_cons] at hx ⊢; tauto
        refine ⟨(h1 x hx' c' hc').1, fun b' hb => ?_⟩
        rw [he, List.mem_append] at hb
        rcases hb with hb | hb
        · exact (h1 x hx' c' hc').2 b' hb
        · obtain ⟨rfl, _⟩ := (e3 c' b').mp hb
          rw [← List.filterMap_append] at h2'
          exact (List.nodup_cons.mp h2').1 (List.mem_filterMap.mpr ⟨x, hx, hc'⟩)
      · simp only [List.nil_append, List.filterMap_append]
        exact (List.nodup_cons.mp h2').2
      · intro c' b' hb
        simp only [he, hcalls, List.mem_append] at hb ⊢
        rcases hb with hb | hb
        · exact h3 c' b' hb
        · obtain ⟨rfl, _⟩ := (e3 c' b').mp hb; exact hc.1
      · intro c' b1 b2 hb1 hb2
        simp only [he, List.mem_append, e3] at hb1 hb2
        rcases hb1 with hb1 | ⟨rfl, rfl⟩ <;> rcases hb2 with hb2 | ⟨h, rfl⟩
        · exact h4 c' b1 b2 hb1 hb2
        · subst h; exact absurd hb1 (hc.2 b1)
        · exact absurd hb2 (hc.2 b2)
        · rfl
      · intro c' r hd
        simp only [he, List.mem_append] at hd ⊢
        rcases hd with hd | hd
        · exact .inl (h5 c' r hd)
        · obtain ⟨rfl, rfl⟩ := e4 c' r hd
          exact .inr ((e3 _ _).mpr ⟨rfl, rfl⟩)
  | create g ts =>
    refine ⟨?_, by simpa [List.filterMap_cons, PC.call?] using h2, ?_, ?_, ?_⟩
    · intro x hx c hc
      rcases List.mem_cons.mp hx with rfl | hx
      · simp [PC.call?] at hc
      · simpa [G.ev, G.calls] using h1 x hx c hc
    · simpa [G.ev, G.calls] using h3
    · simpa [G.ev] using h4
    · simpa [G.ev] using h5
  | call g ts ident rep =>
    have hcalls : (g.ev [.called g.calls ident rep]).calls = g.calls + 1 := by simp [G.ev, G.calls]
    refine ⟨?_, ?_, ?_, ?_, ?_⟩
    · intro x hx c hc
      simp only [hcalls]
      rcases List.mem_cons.mp hx with rfl | hx
      · simp only [PC.call?, Option.some.injEq] at hc
        subst hc
        refine ⟨by omega, fun b hb => ?_⟩
        have : .returned g.calls b ∈ g.log := by simpa [G.ev] using hb
        exact absurd (h3 _ b this) (Nat.lt_irrefl _)
      · have := h1 x hx c hc
        exact ⟨by simp only at this; omega, by simpa [G.ev] using this.2⟩
    · simp only [List.filterMap_cons, PC.call?]
      refine List.nodup_cons.mpr ⟨fun hm => ?_, h2⟩
      obtain ⟨x, hx, hc⟩ := List.mem_filterMap.mp hm
      exact absurd (h1 x hx _ hc).1 (Nat.lt_irrefl _)
    · intro c b hb
      simp only [hcalls]
      have := h3 c b (by simpa [G.ev] using hb)
      simp only at this
      omega
    · simpa [G.ev] using h4
    · simpa [G.ev] using h5
  | await g ts r hr =>
    refine ⟨?_, by simpa [List.filterMap_cons, PC.call?] using h2, h3, h4, h5⟩
    intro x hx c hc
    rcases List.mem_cons.mp hx with rfl | hx
    · simp [PC.call?] at hc
    · exact h1 x hx c hc

theorem ReachableIf.retInv {ok : State R → Label R → Prop} {s : State R} (h : ReachableIf ok s) : RetInv s := by
  induction h with
  | start => exact ⟨by simp, by simp, by simp, by simp, by simp⟩
  | step s l s' _ _ hs ih => exact ih.step hs

end Webwire.Req
