import Verif.Proofs.SessionRaces4

/-!
# C32 and C39 while session operations overlap
-/

set_option autoImplicit false

namespace Webwire.Races

/-! ## C32 -/

/-- `CreateSession` of session `k` on connection `c`, after telling the client. -/
def PC.telling (c : ConnId) (k : Bytes) : PC → Bool
  | .n4 c' k' | .n5 c' k' | .n6 c' k' | .n7 c' k' => decide (c' = c ∧ k' = k)
  | _ => false

theorem Acts.telling {g g' : G} {pc : PC} {pcs rest : List PC} (ha : Acts g pc g' pcs) (hg : g'.crashed = none)
    (hcr : g.crashed = none) (c : ConnId) (k : Bytes)
    (hi : g.log.count (.told c k) = g.log.count (.createEnd c k true) + (pc :: rest).countP (PC.telling c k)) :
    g'.log.count (.told c k) = g'.log.count (.createEnd c k true) + (pcs ++ rest).countP (PC.telling c k) := by
  cases ha
  case d1_end c' κ _ | d2 c' κ _ _ _ | d3 c' κ _ _ =>
    cases κ <;> simp [Cont.next, PC.telling, List.countP_cons, G.emit, List.count_append] at hi ⊢ <;> exact hi
  case n3 c' k' | n7 c' k' =>
    simp only [List.countP_cons, G.emit, G.setSession, List.count_append, List.cons_append, List.nil_append, PC.telling,
      List.count_cons, List.count_nil, decide_eq_true_eq, Bool.false_eq_true, if_false] at hi ⊢
    by_cases e : c' = c ∧ k' = k
    · obtain ⟨rfl, rfl⟩ := e
      simp at hi ⊢
      omega
    · have h1 : ¬ (Ev.told c' k' = Ev.told c k) := by rintro ⟨⟩; exact e ⟨rfl, rfl⟩
      have h2 : ¬ (Ev.createEnd c' k' true = Ev.createEnd c k true) := by rintro ⟨⟩; exact e ⟨rfl, rfl⟩
      simp [h1, h2, e] at hi ⊢
      exact hi
  all_goals simp_all [PC.telling, List.countP_cons, G.emit, G.crash, G.setSession, G.setLock, List.count_append]

/-- C32, whatever runs at the same time: `CreateSession` succeeds exactly when the client was told about the session, and
once each time. -/
theorem C32_succeeds_iff_told {n : Nat} {s : State} (h : Reachable n s) (hc : s.g.crashed = none) (c : ConnId) (k : Bytes) :
    s.g.log.count (.told c k) = s.g.log.count (.createEnd c k true) + s.threads.countP (PC.telling c k) := by
  refine From.inv (I := fun g ts => g.crashed = none →
    g.log.count (.told c k) = g.log.count (.createEnd c k true) + ts.countP (PC.telling c k)) ?_ ?_ ?_ (s := init n) ?_ h hc
  · intro g ts ts' h hp hg
    rw [← hp.countP_eq]
    exact h hg
  · intro g pc rest ts ch g' pcs hi _ hcr _ ha hg
    exact ha.telling hg hcr c k (hi hcr)
  · intro g ts pc hi hen _ hg
    rw [List.countP_cons, hi hg]
    cases pc <;> simp_all [PC.entry, PC.telling]
  · intro _; rfl

/-- The client of connection 0 was told, `CreateSession` has not returned yet. -/
example : ∃ s, Reachable 0 s ∧ s.g.crashed = none ∧ s.g.log.count (.told 0 [1]) = 1 ∧
    s.g.log.count (.createEnd 0 [1] true) = 0 ∧ s.threads = [.n5 0 [1]] := by
  obtain ⟨s, hs, h⟩ : ∃ s, play (fun _ _ => true) (init 0) [.call (.n1 0 [1]), .go 0, .go 0, .go 0] = some s ∧
    s.g.crashed = none ∧ s.g.log.count (.told 0 [1]) = 1 ∧ s.g.log.count (.createEnd 0 [1] true) = 0 ∧
    s.threads = [.n5 0 [1]] := ⟨_, rfl, rfl, rfl, rfl, rfl⟩
  exact ⟨s, play_from (ok := fun _ _ => True) (fun _ _ _ => trivial) _ .start hs, h⟩

/-! ## C39 -/

/-- Nobody begins to restore or to create the session. -/
def NoGiving (k : Bytes) (_ : State) : Label → Prop
  | .call pc => pc.admits ≠ some k
  | .thread .. => True

/-- Is a `CloseSession`, of a connection or of the server. -/
def PC.closing : PC → Bool
  | .z1 _ | .x1 .. | .x2 .. | .d1 _ (.close _) | .d2 _ (.close _) | .d3 _ (.close _) => true
  | _ => false

/-- Is going to close the session of the connection. -/
def PC.covers (c : ConnId) : PC → Bool
  | .x1 c' rest | .d1 c' (.close rest) | .d2 c' (.close rest) => decide (c = c' ∨ c ∈ rest)
  | .d3 _ (.close rest) | .x2 _ rest => decide (c ∈ rest)
  | _ => false

/-- Who still has the session is going to lose it. -/
def Closes (k : Bytes) (g : G) (ts : List PC) : Prop :=
  (∀ a ∈ ts, a.pending k = false ∧ a.admits ≠ some k) ∧ (.z1 k ∈ ts ∨ ∀ c ∈ g.members k, ∃ a ∈ ts, a.covers c = true)

section
variable {g g' : G} {pc : PC} {pcs rest : List PC} {k : Bytes}

theorem Acts.admits (ha : Acts g pc g' pcs) {a : PC} (h : a ∈ pcs) : a.admits = none := by
  cases ha
  case d1_end c' κ _ | d2 c' κ _ _ _ | d3 c' κ _ _ => cases κ <;> simp_all [Cont.next, PC.admits]
  all_goals simp_all [PC.admits]

/-- Nobody gets the session. -/
theorem Inv.members_sub (hi : Inv g (pc :: rest)) (ha : Acts g pc g' pcs) (hp : pc.pending k = false) {c : ConnId}
    (hm : c ∈ g'.members k) : c ∈ g.members k := by
  cases ha
  case d2 c' κ key hs _ | d2_destroy c' κ key hs _ _ =>
    have := hi.here c'
    rw [the_cons] at this
    simp only [PC.inside, decide_true, if_true, Here] at this
    exact ((members_remove k ((this.1 key).mp hs)).mp hm).1
  case r4 c' k' key h h' =>
    have := (hi.registers c' k' (.inr rfl)).symm.trans h; cases this
    have : k' ≠ k := by simpa [PC.pending] using hp
    simpa [G.emit, G.members, registryAdd_get, this] using hm
  case n4 c' k' key h =>
    have := (hi.registers c' k' (.inl rfl)).symm.trans h; cases this
    have : k' ≠ k := by simpa [PC.pending] using hp
    simpa [G.emit, G.setLock, G.members, registryAdd_get, this] using hm
  all_goals exact hm

/-- What a goroutine was going to close is closed or still going to be closed. -/
theorem Inv.covers (hi : Inv g (pc :: rest)) (ha : Acts g pc g' pcs)
    (hap : ∀ c, pc.before c = true → ∀ a ∈ rest, a.inside c = false) (hz : ∀ k, pc ≠ .z1 k) {c : ConnId}
    (hc : pc.covers c = true) (hm : c ∈ g'.members k) (hm0 : c ∈ g.members k) : ∃ a ∈ pcs, a.covers c = true := by
  have hin : pc.inside c = true → Here g c (some pc) := by
    intro h
    have := hi.here c
    rw [the_cons, h, if_pos rfl] at this
    exact this
  cases ha <;> simp only [PC.covers, Bool.false_eq_true, decide_eq_true_eq] at hc
  case d1_end c' κ hs =>
    cases κ <;> simp only [PC.covers, Bool.false_eq_true, decide_eq_true_eq] at hc
    rcases hc with rfl | hc
    · exact absurd hs (hin (by simp [PC.inside])).2
    · exact ⟨_, List.mem_singleton.mpr rfl, by simpa [Cont.next, PC.covers] using hc⟩
  case d1 c' κ hs =>
    cases κ <;> simp only [PC.covers, Bool.false_eq_true, decide_eq_true_eq] at hc
    exact ⟨_, List.mem_singleton.mpr rfl, by simpa [PC.covers] using hc⟩
  case d2_destroy c' κ key hs _ _ =>
    cases κ <;> simp only [PC.covers, Bool.false_eq_true, decide_eq_true_eq] at hc
    rcases hc with rfl | hc
    · have hr := (hin (by simp [PC.inside])).1
      have := (members_remove k ((hr key).mp hs)).mp hm
      have h2 := (hr k).mpr hm0
      rw [hs] at h2
      cases h2
      exact absurd ⟨rfl, rfl⟩ this.2
    · exact ⟨_, List.mem_singleton.mpr rfl, by simpa [PC.covers] using hc⟩
  case d2 c' κ key hs _ =>
    cases κ <;> simp only [PC.covers, Bool.false_eq_true, decide_eq_true_eq] at hc
    rcases hc with rfl | hc
    · have hr := (hin (by simp [PC.inside])).1
      have := (members_remove k ((hr key).mp hs)).mp hm
      have h2 := (hr k).mpr hm0
      rw [hs] at h2
      cases h2
      exact absurd ⟨rfl, rfl⟩ this.2
    · exact ⟨_, List.mem_singleton.mpr rfl, by simpa [Cont.next, PC.covers] using hc⟩
  case d3 c' κ key hs =>
    cases κ <;> simp only [PC.covers, Bool.false_eq_true, decide_eq_true_eq] at hc
    exact ⟨_, List.mem_singleton.mpr rfl, by simpa [Cont.next, PC.covers] using hc⟩
  case d2_nil c' κ w hs | d3_nil c' κ w hs =>
    have := hi.here c'
    rw [the_cons] at this
    simp only [PC.inside, decide_true, if_true, Here] at this
    exact absurd hs this.2
  case x1_end c' hl hs =>
    simp only [List.not_mem_nil, or_false] at hc
    subst hc
    have := hi.here c
    rw [the_cons, if_neg (by simp [PC.inside]), the_none.mpr (hap c (by simp [PC.before]))] at this
    rw [(this k).mpr hm0] at hs
    cases hs
  case x1_next c' c'' rest' hl hs =>
    rcases hc with rfl | hc
    · have := hi.here c
      rw [the_cons, if_neg (by simp [PC.inside]), the_none.mpr (hap c (by simp [PC.before]))] at this
      rw [(this k).mpr hm0] at hs
      cases hs
    · exact ⟨_, List.mem_singleton.mpr rfl, by simpa [PC.covers] using hc⟩
  case x1 c' rest' hl hs => exact ⟨_, List.mem_singleton.mpr rfl, by simpa [PC.covers] using hc⟩
  case x2_end => cases hc
  case x2_next c' c'' rest' => exact ⟨_, List.mem_singleton.mpr rfl, by simpa [PC.covers] using hc⟩

end

theorem closes_step {n : Nat} {k : Bytes} {s s' : State} {l : Label} (hr : ReachableIf n Calm s) (hcalm : Calm s l)
    (hng : NoGiving k s l) (hst : Step s l s') (hi : Closes k s.g s.threads) : Closes k s'.g s'.threads := by
  obtain ⟨hinv, hheld⟩ := inv_held hr
  cases hst with
  | call g ts pc hcr hen _ =>
    obtain ⟨h1, h2⟩ := hi
    refine ⟨fun a ha => ?_, ?_⟩
    · rcases List.mem_cons.mp ha with rfl | ha
      · exact ⟨by cases a <;> simp_all [PC.entry, PC.pending], hng⟩
      · exact h1 a ha
    · rcases h2 with h2 | h2
      · exact .inl (List.mem_cons_of_mem _ h2)
      · exact .inr fun c hc => let ⟨a, ha, hcov⟩ := h2 c hc; ⟨a, List.mem_cons_of_mem _ ha, hcov⟩
  | thread g g' pre post pcs pc ch hcr hsn hact =>
    obtain ⟨h1, h2⟩ := hi
    simp only at h1 h2 hinv hheld
    have ha := acts_of_act hact
    have hperm : (pre ++ pc :: post).Perm (pc :: (pre ++ post)) := List.perm_middle
    have hi := hinv.perm hperm
    have hap := calm_steps (fun a ha => hheld a (hperm.symm.subset ha)) ha hperm hcalm
    have hpc := h1 pc (by simp)
    have hmem : ∀ a, a ∈ pre ++ post → a ∈ pre ++ (pcs ++ post) := by
      intro a h
      simp only [List.mem_append] at h ⊢
      rcases h with h | h
      · exact .inl h
      · exact .inr (.inr h)
    have hnew : ∀ a, a ∈ pcs → a ∈ pre ++ (pcs ++ post) := by
      intro a h
      simp [h]
    refine ⟨fun a hm => ?_, ?_⟩
    · simp only [List.mem_append] at hm
      have old : a ∈ pre ∨ a ∈ post → a.pending k = false ∧ a.admits ≠ some k := fun h => h1 a (by
        simp only [List.mem_append, List.mem_cons]
        rcases h with h | h
        · exact .inl h
        · exact .inr (.inr h))
      rcases hm with hm | hm | hm
      · exact old (.inl hm)
      · refine ⟨?_, by rw [ha.admits hm]; simp⟩
        cases hp : a.pending k
        · rfl
        · rcases ha.pending k a hm hp with h | h
          · rw [hpc.1] at h; cases h
          · exact absurd h hpc.2
      · exact old (.inr hm)
    · by_cases hz : ∃ k', pc = .z1 k'
      · obtain ⟨k', rfl⟩ := hz
        have hg : g'.members k = g.members k := by cases ha <;> rfl
        by_cases hk : k' = k
        · subst hk
          right
          rw [hg]
          intro c hc
          simp only [act] at hact
          split at hact
          · rename_i hn
            simp [G.members, hn] at hc
          · rename_i set hset
            have hs := (hsn set hset).2 c
            simp only [G.members, hset, Option.getD_some] at hc
            have hord := hs.mpr hc
            cases ho : ch.order with
            | nil => rw [ho] at hord; cases hord
            | cons c1 r1 =>
              rw [ho] at hord
              simp only [ho, G.closeNext, Option.some.injEq, Prod.mk.injEq] at hact
              obtain ⟨-, rfl⟩ := hact
              exact ⟨.x1 c1 r1, hnew _ (by simp), by simpa [PC.covers] using hord⟩
        · rcases h2 with h2 | h2
          · left
            refine hmem _ ?_
            simp only [List.mem_append, List.mem_cons] at h2 ⊢
            rcases h2 with h2 | h2 | h2
            · exact .inl h2
            · cases h2; exact absurd rfl hk
            · exact .inr h2
          · right
            rw [hg]
            intro c hc
            obtain ⟨a, ham, hcov⟩ := h2 c hc
            refine ⟨a, hmem a ?_, hcov⟩
            simp only [List.mem_append, List.mem_cons] at ham ⊢
            rcases ham with h | h | h
            · exact .inl h
            · subst h; simp [PC.covers] at hcov
            · exact .inr h
      · rcases h2 with h2 | h2
        · left
          refine hmem _ ?_
          simp only [List.mem_append, List.mem_cons] at h2 ⊢
          rcases h2 with h2 | h2 | h2
          · exact .inl h2
          · exact absurd ⟨k, h2.symm⟩ hz
          · exact .inr h2
        · right
          intro c hc
          have hc0 := hi.members_sub ha hpc.1 hc
          obtain ⟨a, ham, hcov⟩ := h2 c hc0
          simp only [List.mem_append, List.mem_cons] at ham
          rcases ham with h | h | h
          · exact ⟨a, hmem a (by simp [h]), hcov⟩
          · subst h
            obtain ⟨b, hb, hb'⟩ := hi.covers ha hap (fun k' e => hz ⟨k', e⟩) hcov hc hc0
            exact ⟨b, hnew b hb, hb'⟩
          · exact ⟨a, hmem a (by simp [h]), hcov⟩

/-- C39 while other session operations run at the same time: when `Server.CloseSession`, begun in `s0`, has ended (and no
other `CloseSession` is running), no connection is registered for the session any more, and none has it unless its session is
just being changed; as long as nobody is restoring or creating the session, and no two operations work on the session of the
same connection without its lock. Missing: sessions restored or created meanwhile. -/
theorem C39_concurrent_partial {n : Nat} {s0 s : State} (h0 : ReachableIf n Calm s0) (k : Bytes) (hz : .z1 k ∈ s0.threads)
    (hno : ∀ a ∈ s0.threads, a.pending k = false ∧ a.admits ≠ some k)
    (h : From (fun s l => Calm s l ∧ NoGiving k s l) s0 s) (hend : ∀ a ∈ s.threads, a.closing = false) :
    s.g.members k = [] ∧ ∀ c, (∀ a ∈ s.threads, a.inside c = false) → s.g.session c ≠ some k := by
  have key : Closes k s.g s.threads ∧ ReachableIf n Calm s := by
    clear hend
    induction h with
    | start => exact ⟨⟨hno, .inl hz⟩, h0⟩
    | step s1 l s2 _ hok hst ih => exact ⟨closes_step ih.2 hok.1 hok.2 hst ih.1, .step s1 l s2 ih.2 hok.1 hst⟩
  obtain ⟨⟨-, hc⟩, hr⟩ := key
  have hm : s.g.members k = [] := by
    refine List.eq_nil_iff_forall_not_mem.mpr fun c hm => ?_
    rcases hc with hc | hc
    · exact absurd (hend _ hc) (by simp [PC.closing])
    · obtain ⟨a, ha, hcov⟩ := hc c hm
      have := hend a ha
      cases a with
      | d1 c' κ | d2 c' κ | d3 c' κ => cases κ <;> simp_all [PC.closing, PC.covers]
      | _ => simp_all [PC.closing, PC.covers]
  refine ⟨hm, fun c hin hs => ?_⟩
  have := (inv_reachable hr).here c
  rw [the_none.mpr hin] at this
  have := (this k).mp hs
  rw [hm] at this
  cases this

/-- Connections 0 and 1 have the session, connection 2 another one; then `Server.CloseSession` of the first begins. -/
def closeBoth : List Cmd :=
  [.call (.n1 0 [1]), .go 0, .go 0, .go 0, .go 0, .go 0, .go 0, .call (.r1 1 [1]), .go 0, .go 0, .go 0, .go 0,
   .call (.r1 2 [2]), .go 0, .go 0, .go 0, .go 0, .call (.z1 [1])]

/-- `NoGiving`, computed. -/
def noGiving (k : Bytes) (_ : State) : Label → Bool
  | .call pc => decide (pc.admits ≠ some k)
  | .thread .. => true

/-- The hypotheses of `C39_concurrent_partial` can be met, with a session created on another connection meanwhile. -/
example : ∃ s0 s, ReachableIf 0 Calm s0 ∧ .z1 [1] ∈ s0.threads ∧ s0.g.members [1] = [1, 0] ∧
    From (fun s l => Calm s l ∧ NoGiving [1] s l) s0 s ∧ s.threads = [] ∧ s.g.session 2 = some [2] ∧ .destroyed [1] ∈ s.g.log := by
  obtain ⟨s0, h0, e⟩ : ∃ s0, play calm (init 0) closeBoth = some s0 ∧ s0 = s0 := ⟨_, rfl, rfl⟩
  obtain ⟨s, h1, h2⟩ : ∃ s, play (fun s l => calm s l && noGiving [1] s l) s0
      [.go 0 { order := [1, 0] }, .go 0, .call (.n1 3 [3]), .go 1, .go 1, .go 0, .go 0, .go 1, .go 1, .go 1, .go 1, .go 1, .go 1,
        .go 0, .go 0, .go 0, .go 0] = some s ∧ s.threads = [] ∧ s.g.session 2 = some [2] ∧ .destroyed [1] ∈ s.g.log := by
    cases h0
    exact ⟨_, rfl, rfl, rfl, by decide⟩
  refine ⟨s0, s, play_from calm_ok _ .start h0, ?_, ?_, play_from (fun s l h => ?_) _ .start h1, h2⟩
  · cases h0; decide
  · cases h0; rfl
  · rw [Bool.and_eq_true] at h
    refine ⟨calm_ok s l h.1, ?_⟩
    cases l with
    | call pc => simpa [noGiving, NoGiving] using h.2
    | thread => trivial

end Webwire.Races
