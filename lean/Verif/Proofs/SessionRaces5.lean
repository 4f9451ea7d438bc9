import Verif.Proofs.SessionRaces4

/-!
# What `OnSessionCreated` finds, and what is saved, while operations overlap
-/

set_option autoImplicit false

namespace Webwire.Races

/-- Everything needed for the saved sessions to be those created and not closed. -/
def Orderly (s : State) (l : Label) : Prop := Calm s l ∧ Undisturbed s l

/-- A connection for which `OnSessionCreated` runs has the session, and nobody is changing it. -/
def Hooked (g : G) (ts : List PC) : Prop :=
  ∀ c k, (.n5 c k ∈ ts ∨ .n6 c k ∈ ts) →
    g.session c = some k ∧ ∀ b ∈ ts, b.inside c = true → ∃ k', b = .n2 c k'

theorem Hooked.perm {g : G} {ts ts' : List PC} (h : Hooked g ts) (hp : ts.Perm ts') : Hooked g ts' := by
  intro c k hm
  obtain ⟨h1, h2⟩ := h c k (hm.imp (hp.symm.subset ·) (hp.symm.subset ·))
  exact ⟨h1, fun b hb => h2 b (hp.symm.subset hb)⟩

section
variable {g g' : G} {pc : PC} {pcs rest : List PC}

/-- How goroutines get into `OnSessionCreated`. -/
theorem Acts.hooked (ha : Acts g pc g' pcs) {c : ConnId} {k : Bytes} (h : .n5 c k ∈ pcs ∨ .n6 c k ∈ pcs) :
    g'.session = g.session ∧ (pcs = [.n5 c k] ∧ pc = .n4 c k ∨ pcs = [.n6 c k] ∧ pc = .n5 c k) := by
  cases ha
  case d1_end c' κ _ | d2 c' κ _ _ _ | d3 c' κ _ _ => cases κ <;> simp [Cont.next] at h
  all_goals (simp at h)
  case n4 => obtain ⟨rfl, rfl⟩ := h; exact ⟨rfl, .inl ⟨rfl, rfl⟩⟩
  case n5 => obtain ⟨rfl, rfl⟩ := h; exact ⟨rfl, .inr ⟨rfl, rfl⟩⟩

theorem Hooked.step (hh : Hooked g (pc :: rest)) (hi : Inv g (pc :: rest)) (ha : Acts g pc g' pcs)
    (hun : ∀ c, pc.before c = true → (∀ k, pc ≠ .n1 c k) → ∀ a ∈ rest, a.hooked c = false) :
    Hooked g' (pcs ++ rest) := by
  intro c k hm
  have hm' : (.n5 c k ∈ pcs ∨ .n6 c k ∈ pcs) ∨ (.n5 c k ∈ rest ∨ .n6 c k ∈ rest) := by
    simp only [List.mem_append] at hm; tauto
  rcases hm' with hm | hm
  · obtain ⟨hs, ⟨rfl, rfl⟩ | ⟨rfl, rfl⟩⟩ := ha.hooked hm
    · refine ⟨by rw [hs]; exact hi.registers c k (.inl rfl), fun b hb hin => ?_⟩
      rcases List.mem_append.mp hb with hb | hb
      · simp at hb; subst hb; simp [PC.inside] at hin
      · have := (Excl.cons.mp (hi.excl c)).1 (by simp [PC.inside]) b hb
        rw [hin] at this; cases this
    · obtain ⟨h1, h2⟩ := hh c k (.inl List.mem_cons_self)
      refine ⟨by rw [hs]; exact h1, fun b hb hin => ?_⟩
      rcases List.mem_append.mp hb with hb | hb
      · simp at hb; subst hb; simp [PC.inside] at hin
      · exact h2 b (List.mem_cons_of_mem _ hb) hin
  · obtain ⟨h1, h2⟩ := hh c k (hm.imp (List.mem_cons_of_mem _ ·) (List.mem_cons_of_mem _ ·))
    have hk : ∃ a ∈ rest, a.hooked c = true := by
      rcases hm with hm | hm <;> exact ⟨_, hm, by simp [PC.hooked]⟩
    have hb : pc.before c = true → ∃ k', pc = .n1 c k' := by
      intro hb
      by_contra hn
      obtain ⟨a, ha, hc⟩ := hk
      have := hun c hb (fun k' e => hn ⟨k', e⟩) a ha
      rw [hc] at this; cases this
    have hin : pc.inside c = true → ∃ k', pc = .n2 c k' := h2 pc List.mem_cons_self
    by_cases hcc : pc.conn = some c
    · have key : g'.session c = g.session c ∧ ∀ b ∈ pcs, b.inside c = true → ∃ k', b = .n2 c k' := by
        by_cases hbb : pc.before c = true
        · obtain ⟨k', rfl⟩ := hb hbb
          cases ha
          · rename_i hs; rw [hs] at h1; cases h1
          · exact ⟨rfl, fun b hb _ => ⟨k', by simpa using hb⟩⟩
        · by_cases hii : pc.inside c = true
          · obtain ⟨k', rfl⟩ := hin hii
            cases ha
            · exact ⟨rfl, by simp⟩
            · exact ⟨rfl, by simp⟩
          · cases ha
            all_goals first
              | (simp [PC.conn] at hcc; done)
              | (simp only [PC.conn, Option.some.injEq] at hcc; subst hcc; simp [PC.before] at hbb; done)
              | (simp only [PC.conn, Option.some.injEq] at hcc; subst hcc; simp [PC.inside] at hii; done)
              | exact ⟨rfl, by simp [PC.inside]⟩
      refine ⟨key.1.trans h1, fun b hb hx => ?_⟩
      rcases List.mem_append.mp hb with hb | hb
      · exact key.2 b hb hx
      · exact h2 b (List.mem_cons_of_mem _ hb) hx
    · refine ⟨(ha.frame hi.here hcc).1.trans h1, fun b hb hx => ?_⟩
      rcases List.mem_append.mp hb with hb | hb
      · exact absurd ((ha.conn c).1 b hb hx) hcc
      · exact h2 b (List.mem_cons_of_mem _ hb) hx

theorem Hooked.call (hh : Hooked g rest) (hen : pc.entry = true)
    (hun : ∀ c, pc = .d1 c .unlink → ∀ a ∈ rest, a.hooked c = false) : Hooked g (pc :: rest) := by
  intro c k hm
  have hm' : .n5 c k ∈ rest ∨ .n6 c k ∈ rest := by
    simp only [List.mem_cons] at hm
    rcases hm with (rfl | h) | (rfl | h)
    · simp [PC.entry] at hen
    · exact .inl h
    · simp [PC.entry] at hen
    · exact .inr h
  obtain ⟨h1, h2⟩ := hh c k hm'
  refine ⟨h1, fun b hb hx => ?_⟩
  rcases List.mem_cons.mp hb with rfl | hb
  · have : b = .d1 c .unlink := by
      unfold PC.entry at hen
      split at hen <;> simp_all [PC.inside]
    have h3 := hun c this
    rcases hm' with h | h
    · simpa [PC.hooked] using h3 _ h
    · simpa [PC.hooked] using h3 _ h
  · exact h2 b hb hx

end

theorem From.mono {p q : State → Label → Prop} (hpq : ∀ s l, p s l → q s l) {s s' : State} (h : From p s s') : From q s s' := by
  induction h with
  | start => exact .start
  | step s1 l s2 _ ho hs ih => exact .step s1 l s2 ih (hpq _ _ ho) hs

/-- `Hooked` on top of `calm_inv`. -/
theorem orderly_inv {n : Nat} {ok : State → Label → Prop} (hok : ∀ s l, ok s l → Orderly s l) {I : G → List PC → Prop}
    (hp : ∀ g ts ts', I g ts → ts.Perm ts' → I g ts')
    (ha : ∀ g pc rest ts ch g' pcs, I g (pc :: rest) → Inv g (pc :: rest) → Hooked g (pc :: rest) →
      ts.Perm (pc :: rest) → ok ⟨g, ts⟩ (.thread pc ch) → act g ch pc = some (g', pcs) →
      (∀ c, pc.before c = true → ∀ a ∈ rest, a.inside c = false) → I g' (pcs ++ rest))
    (hc : ∀ g ts pc, I g ts → pc.entry = true → ok ⟨g, ts⟩ (.call pc) → I g (pc :: ts))
    (h0 : I (init n).g (init n).threads) {s : State} (h : ReachableIf n ok s) :
    I s.g s.threads ∧ Hooked s.g s.threads ∧ Inv s.g s.threads := by
  have hinv : ∀ {s : State}, ReachableIf n ok s → Inv s.g s.threads ∧ Held s.g s.threads := by
    intro s h
    refine inv_held (n := n) ?_
    induction h with
    | start => exact .start
    | step s l s' _ ho hs ih => exact .step s l s' ih (hok s l ho).1 hs
  suffices hs : I s.g s.threads ∧ Hooked s.g s.threads from ⟨hs.1, hs.2, (hinv h).1⟩
  induction h with
  | start => exact ⟨h0, fun c k hm => by simp [init] at hm⟩
  | step s1 l s2 hr ho hst ih =>
    obtain ⟨hi, hh⟩ := hinv hr
    obtain ⟨ihI, ihH⟩ := ih
    cases hst with
    | thread g g' pre post pcs pc ch hcr hsn hact =>
      have hperm : (pre ++ pc :: post).Perm (pc :: (pre ++ post)) := List.perm_middle
      have hback : (pcs ++ (pre ++ post)).Perm (pre ++ (pcs ++ post)) := by
        rw [← List.append_assoc, ← List.append_assoc]
        exact List.perm_append_comm.append_right post
      have h1 := ha g pc (pre ++ post) _ ch g' pcs (hp _ _ _ ihI hperm) (hi.perm hperm) (ihH.perm hperm) hperm ho hact
        (calm_steps (fun a ha => hh a (hperm.symm.subset ha)) (acts_of_act hact) hperm (hok _ _ ho).1)
      have h2 := (ihH.perm hperm).step (hi.perm hperm) (acts_of_act hact) fun c hb hn a hm => by
        refine (hok _ _ ho).2 c ?_ ?_ a (hperm.symm.subset (List.mem_cons_of_mem _ hm))
        · cases pc <;> simp_all [PC.before, Label.enters]
        · intro k ch' e; cases e; exact hn k rfl
      exact ⟨hp _ _ _ h1 hback, h2.perm hback⟩
    | call g ts pc hcr he _ =>
      refine ⟨hc _ _ _ ihI he ho, ihH.call he fun c e => ?_⟩
      subst e
      exact (hok _ _ ho).2 c rfl (by intro k ch e; cases e)

theorem stored_append (log : List Ev) (e : Ev) : stored (log ++ [e]) = storeStep (stored log) e := by
  simp [stored, List.foldl_append]

/-- What is appended to the log. -/
theorem Acts.log {g g' : G} {pc : PC} {pcs : List PC} (ha : Acts g pc g' pcs) :
    g'.log = g.log ∨ ∃ e, g'.log = g.log ++ [e] := by
  cases ha <;> first | exact .inl rfl | exact .inr ⟨_, rfl⟩

theorem mem_log {g g' : G} {pc : PC} {pcs : List PC} (ha : Acts g pc g' pcs) {e : Ev} (h : e ∈ g.log) : e ∈ g'.log := by
  rcases ha.log with h' | ⟨_, h'⟩ <;> rw [h'] <;> simp [h]

/-- The steps that change what is saved. -/
theorem Acts.store {g g' : G} {pc : PC} {pcs rest : List PC} (ha : Acts g pc g' pcs) (hh : Hooked g (pc :: rest)) :
    stored g'.log = stored g.log ∨
    (∃ c k, pc = .n6 c k ∧ pcs = [.n7 c k] ∧ stored g'.log = k :: stored g.log) ∨
    ∃ c κ k, pc = .d3 c κ ∧ g.session c = some k ∧ g'.log = g.log ++ [.destroyed k] ∧
      stored g'.log = (stored g.log).filter (· ≠ k) := by
  cases ha
  case n6 c k hl =>
    right; left
    have := (hh c k (.inr List.mem_cons_self)).1
    exact ⟨c, k, rfl, rfl, by simp [G.emit, stored_append, storeStep, this]⟩
  case d3 c κ key hs =>
    right; right
    exact ⟨c, κ, key, rfl, hs, rfl, by simp [G.emit, stored_append, storeStep]⟩
  all_goals (left; first | rfl | (simp [G.emit, G.setSession, G.setLock, stored_append, storeStep]; done))

/-- Who has told a client about a session goes on to save it; only what clients were told is saved. -/
structure Told (k : Bytes) (g : G) (ts : List PC) : Prop where
  told : (∃ c, .told c k ∈ g.log) → .destroyed k ∈ g.log ∨ k ∈ stored g.log ∨ ∃ a ∈ ts, a.saving k = true
  back : (k ∈ stored g.log ∨ ∃ a ∈ ts, a.saving k = true) → ∃ c, .told c k ∈ g.log

theorem Told.perm {k : Bytes} {g : G} {ts ts' : List PC} (h : Told k g ts) (hp : ts.Perm ts') : Told k g ts' where
  told ht := (h.told ht).imp id (.imp id fun ⟨a, ha, hs⟩ => ⟨a, hp.subset ha, hs⟩)
  back ht := h.back (ht.imp id fun ⟨a, ha, hs⟩ => ⟨a, hp.symm.subset ha, hs⟩)

theorem Told.step {k : Bytes} {g g' : G} {pc : PC} {pcs rest : List PC} (h : Told k g (pc :: rest))
    (hi : Inv g (pc :: rest)) (hh : Hooked g (pc :: rest)) (ha : Acts g pc g' pcs)
    (hf : ∀ c k, pc = .n6 c k → ∃ key, g'.log = g.log ++ [.saved c k key]) : Told k g' (pcs ++ rest) where
  told := by
    rintro ⟨c, ht⟩
    by_cases hold : .told c k ∈ g.log
    · rcases h.told ⟨c, hold⟩ with h1 | h1 | ⟨a, hm, hs⟩
      · exact .inl (mem_log ha h1)
      · rcases ha.store hh with h2 | ⟨c', k', _, _, h2⟩ | ⟨c', κ, k', _, _, h2, h3⟩
        · right; left; rw [h2]; exact h1
        · right; left; rw [h2]; exact List.mem_cons_of_mem _ h1
        · by_cases e : k = k'
          · subst e; left; rw [h2]; simp
          · right; left; rw [h3]; simp [h1, e]
      · rcases List.mem_cons.mp hm with rfl | hm
        · have hcr := hi.no_crash ha
          cases a <;> simp only [PC.saving, Bool.false_eq_true, decide_eq_true_eq] at hs <;> subst hs
          case n4 c' k' =>
            cases ha
            · simp [G.crash] at hcr
            · right; right; exact ⟨_, List.mem_cons_self, by simp [PC.saving]⟩
          case n5 c' k' =>
            cases ha
            right; right; exact ⟨_, List.mem_cons_self, by simp [PC.saving]⟩
          case n6 c' k' =>
            right; left
            obtain ⟨key, hlog⟩ := hf c' k' rfl
            rcases ha.store hh with h2 | ⟨c2, k2, e, _, h2⟩ | ⟨c2, κ, k2, e, _⟩
            · cases ha
              · simp at hlog
              · have := (hh c' k' (.inr List.mem_cons_self)).1
                simp [G.emit, stored_append, storeStep, this]
            · cases e; rw [h2]; simp
            · cases e
        · exact .inr (.inr ⟨a, List.mem_append_right _ hm, hs⟩)
    · right; right
      have : ∃ a ∈ pcs, a.saving k = true := by
        clear hf h hh hi
        cases ha
        case r2_end _ _ r hr => rcases hr with rfl | rfl <;> simp [G.emit, hold] at ht
        case n3 c' k' =>
          simp [G.emit, G.setSession, hold] at ht
          exact ⟨_, List.mem_cons_self, by simp [PC.saving, ht.2]⟩
        all_goals (exfalso; simp_all [G.emit, G.setSession, G.setLock, G.crash])
      obtain ⟨a, hm, hs⟩ := this
      exact ⟨a, List.mem_append_left _ hm, hs⟩
  back := by
    have hold : (k ∈ stored g.log ∨ ∃ a ∈ pc :: rest, a.saving k = true) → ∃ c, .told c k ∈ g'.log := by
      intro h1
      obtain ⟨c, h2⟩ := h.back h1
      exact ⟨c, mem_log ha h2⟩
    rintro (h1 | ⟨a, hm, hs⟩)
    · rcases ha.store hh with h2 | ⟨c', k', rfl, _, h2⟩ | ⟨c', κ, k', _, _, _, h2⟩
      · rw [h2] at h1; exact hold (.inl h1)
      · rw [h2] at h1
        rcases List.mem_cons.mp h1 with rfl | h1
        · exact hold (.inr ⟨_, List.mem_cons_self, by simp [PC.saving]⟩)
        · exact hold (.inl h1)
      · rw [h2] at h1; exact hold (.inl (List.mem_filter.mp h1).1)
    · replace hm := List.mem_append.mp hm
      rcases hm with hm | hm
      · have key : pc.saving k = true ∨ ∃ c, .told c k ∈ g'.log := by
          clear hold hf h hh hi
          cases ha
          case d1_end c' κ _ | d2 c' κ _ _ _ | d3 c' κ _ _ => simp at hm; subst hm; cases κ <;> simp [Cont.next, PC.saving] at hs
          case n3 c' k' =>
            right; simp at hm; subst hm
            simp [PC.saving] at hs
            subst hs
            exact ⟨c', by simp [G.emit]⟩
          all_goals (simp at hm; try (subst hm; simp [PC.saving] at hs))
          all_goals (left; simp [PC.saving, hs])
        rcases key with h1 | h1
        · exact hold (.inr ⟨pc, List.mem_cons_self, h1⟩)
        · exact h1
      · exact hold (.inr ⟨a, List.mem_cons_of_mem _ hm, hs⟩)

/-- Could give the session to a connection, or save it. -/
def PC.reviving (k : Bytes) : PC → Bool
  | .r3 _ k' | .r4 _ k' | .n3 _ k' | .n4 _ k' | .n5 _ k' | .n6 _ k' => decide (k' = k)
  | _ => false

/-- A session that was closed is not saved and nobody gives it to a connection. -/
def Dead (k : Bytes) (g : G) (ts : List PC) : Prop :=
  .destroyed k ∈ g.log → k ∉ stored g.log ∧ ∀ a ∈ ts, a.reviving k = false

theorem Dead.step {k : Bytes} {g g' : G} {pc : PC} {pcs rest : List PC} {ch : Choice} (h : Dead k g (pc :: rest))
    (hi : Inv g (pc :: rest)) (hh : Hooked g (pc :: rest)) (hg : Gone g (pc :: rest))
    (hact : act g ch pc = some (g', pcs))
    (hf : ∀ c k, pc = .r2 c k → ch.lookup = some true → k ∈ stored g.log)
    (hn : ∀ c, pc = .n1 c k → .destroyed k ∉ g.log) : Dead k g' (pcs ++ rest) := by
  have ha := acts_of_act hact
  intro hd
  by_cases hold : .destroyed k ∈ g.log
  · obtain ⟨h1, h2⟩ := h hold
    have hpc := h2 pc List.mem_cons_self
    refine ⟨?_, fun a hm => ?_⟩
    · rcases ha.store hh with h3 | ⟨c', k', rfl, _, h3⟩ | ⟨c', κ, k', _, _, _, h3⟩
      · rw [h3]; exact h1
      · rw [h3]
        simp only [PC.reviving, decide_eq_false_iff_not] at hpc
        simp [Ne.symm hpc, h1]
      · rw [h3]; simp [h1]
    · replace hm := List.mem_append.mp hm
      rcases hm with hm | hm
      · cases hx : a.reviving k
        · rfl
        · exfalso
          by_cases hr2 : ∃ c k', pc = .r2 c k'
          · obtain ⟨c, k', rfl⟩ := hr2
            simp only [act] at hact
            split at hact <;> simp only [Option.some.injEq, Prod.mk.injEq] at hact <;> obtain ⟨rfl, rfl⟩ := hact
            · cases hm
            · cases hm
            · rename_i hl
              simp at hm; subst hm
              simp only [PC.reviving, decide_eq_true_eq] at hx
              subst hx
              exact h1 (hf c k' rfl hl)
          · clear hact hf h hh hg hi hd h2
            cases ha
            case d1_end c' κ _ | d2 c' κ _ _ _ | d3 c' κ _ _ => simp at hm; subst hm; cases κ <;> simp [Cont.next, PC.reviving] at hx
            case n1 c' k' _ _ =>
              simp at hm; subst hm
              simp only [PC.reviving, decide_eq_true_eq] at hx
              subst hx
              exact hn c' rfl hold
            all_goals (simp at hm; try (subst hm; simp [PC.reviving] at hx))
            all_goals first
              | exact hr2 ⟨_, _, rfl⟩
              | (simp [PC.reviving] at hpc; exact hpc hx)
      · exact h2 a (List.mem_cons_of_mem _ hm)
  · -- the step destroys it
    have : ∃ c κ, pc = .d3 c κ ∧ g.session c = some k := by
      clear hact hf h hh hg hi
      cases ha
      case d3 c κ key hs =>
        simp [G.emit, hold] at hd
        exact ⟨c, κ, rfl, hd ▸ hs⟩
      all_goals (exfalso; simp_all [G.emit, G.setSession, G.setLock, G.crash])
    obtain ⟨c, κ, rfl, hs⟩ := this
    obtain ⟨g1, g2⟩ := hg (.d3 c κ) List.mem_cons_self k (by simp [PC.destroys, hs])
    have hmem := g2 ⟨c, κ, rfl⟩
    refine ⟨?_, fun a hm => ?_⟩
    · rcases ha.store hh with h3 | ⟨c', k', e, _⟩ | ⟨c', κ', k', e, hs', _, h3⟩
      · cases ha
        · simp_all
        · rename_i key hk
          rw [hs] at hk; cases hk
          simp [G.emit, stored_append, storeStep]
      · cases e
      · cases e
        rw [hs] at hs'; cases hs'
        rw [h3]; simp
    · rcases List.mem_append.mp hm with hm | hm
      · cases ha
        · cases hm
        · simp at hm; subst hm; cases κ <;> rfl
      · cases hx : a.reviving k
        · rfl
        · exfalso
          have hp := g1 a (List.mem_cons_of_mem _ hm)
          have hin : ∀ c', (.n5 c' k ∈ rest ∨ .n6 c' k ∈ rest) → False := by
            intro c' hm
            obtain ⟨e1, e2⟩ := hh c' k (hm.imp (List.mem_cons_of_mem _ ·) (List.mem_cons_of_mem _ ·))
            have h4 := hi.here c'
            have hR : Rest g c' := by
              cases hT : the (PC.inside c') (.d3 c κ :: rest) with
              | none => rw [hT] at h4; exact h4
              | some b =>
                have hb := List.find?_some hT
                obtain ⟨k2, rfl⟩ := e2 b (List.mem_of_find?_eq_some hT) hb
                rw [hT] at h4; exact h4.1
            have := (hR k).mp e1
            rw [hmem] at this; cases this
          cases a <;> simp only [PC.reviving, Bool.false_eq_true, decide_eq_true_eq] at hx <;> subst hx
          all_goals first
            | exact hin _ (.inl hm)
            | exact hin _ (.inr hm)
            | simp [PC.pending] at hp

end Webwire.Races
