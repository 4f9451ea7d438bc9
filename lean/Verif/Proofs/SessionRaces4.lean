import Verif.Proofs.SessionRaces3

/-!
# When sessions are destroyed, while operations overlap
-/

set_option autoImplicit false

namespace Webwire.Races

/-! ## Without closing -/

/-- May run if nobody closes a session. -/
def PC.spares : PC → Bool
  | .k1 _ | .k2 _ | .x1 .. | .x2 .. | .z1 _ | .d3 .. => false
  | .d1 _ κ | .d2 _ κ => decide (κ = .unlink)
  | _ => true

theorem spares_acts {g g' : G} {pc : PC} {pcs : List PC} (h : Acts g pc g' pcs) (hp : pc.spares = true) :
    (∀ a ∈ pcs, a.spares = true) ∧ ∀ k, .destroyed k ∈ g'.log → .destroyed k ∈ g.log := by
  cases h <;> simp_all [PC.spares, G.emit, G.crash, G.setSession, G.setLock, Cont.next]

/-! ## One destruction per life -/

/-- About to destroy the session. -/
def PC.dooms (g : G) (k : Bytes) : PC → Bool
  | .d3 c _ => decide (g.session c = some k)
  | _ => false

section
variable {g g' : G} {pc : PC} {pcs rest : List PC}

/-- The session of a connection in the hands of another goroutine does not change. -/
theorem Inv.session_rest (hi : Inv g (pc :: rest)) (ha : Acts g pc g' pcs)
    (hap : ∀ c, pc.before c = true → ∀ a ∈ rest, a.inside c = false) {a : PC} (hm : a ∈ rest) {c : ConnId}
    (hin : a.inside c = true) : g'.session c = g.session c := by
  by_cases hcc : pc.conn = some c
  · have h1 : pc.inside c = false := by
      cases h : pc.inside c
      · rfl
      · have := (Excl.cons.mp (hi.excl c)).1 h a hm
        rw [hin] at this; cases this
    have h2 : pc.before c = false := by
      cases h : pc.before c
      · rfl
      · have := hap c h a hm
        rw [hin] at this; cases this
    cases ha <;> first | rfl | simp_all [PC.inside, PC.before, PC.conn]
  · exact (ha.frame hi.here hcc).1

theorem Inv.dooms_rest (hi : Inv g (pc :: rest)) (ha : Acts g pc g' pcs)
    (hap : ∀ c, pc.before c = true → ∀ a ∈ rest, a.inside c = false) (k : Bytes) :
    rest.countP (PC.dooms g' k) = rest.countP (PC.dooms g k) := by
  refine List.countP_congr fun a hm => ?_
  cases a <;> simp only [PC.dooms]
  rename_i c κ
  rw [hi.session_rest ha hap hm (c := c) (by simp [PC.inside])]

/-- What registering goroutines register. -/
theorem Inv.registers (hi : Inv g (pc :: rest)) (c : ConnId) (k : Bytes) (h : pc = .n4 c k ∨ pc = .r4 c k) :
    g.session c = some k := by
  rcases h with rfl | rfl <;>
  · have := hi.here c
    rw [the_cons] at this
    simp only [PC.inside, decide_true, if_true, Here] at this
    exact this.1

/-- Empty stays empty unless a connection is registered. -/
theorem Inv.members_nil (hi : Inv g (pc :: rest)) (ha : Acts g pc g' pcs) {k : Bytes} (hm : g.members k = [])
    (hp : pc.pending k = false) : g'.members k = [] := by
  have := ha.members_le k (by rintro c rfl; simp [PC.pending] at hp) (by rintro c rfl; simp [PC.pending] at hp)
    (fun c k' h => hi.registers c k' h)
  rw [hm] at this
  exact List.length_eq_zero_iff.mp (Nat.le_zero.mp this)

theorem registryRemove_removed {r : GoMap Bytes (List ConnId)} {key : Bytes} {c : ConnId}
    (h : (registryRemove r key c).2.2 = true) : (registryRemove r key c).1.get key = none := by
  rw [registryRemove_get, if_pos rfl]
  unfold registryRemove at h
  split at h
  · split at h
    · simp_all
    · cases h
  · cases h

/-- A session is destroyed no more often than it was given to a connection. -/
def Lives (k : Bytes) (g : G) (ts : List PC) : Prop :=
  g.log.count (.destroyed k) + ts.countP (PC.dooms g k) + min (g.members k).length 1 ≤ given k g.log

theorem Lives.step {k : Bytes} (hl : Lives k g (pc :: rest)) (hi : Inv g (pc :: rest)) (ha : Acts g pc g' pcs)
    (hap : ∀ c, pc.before c = true → ∀ a ∈ rest, a.inside c = false) : Lives k g' (pcs ++ rest) := by
  have hd := hi.dooms_rest ha hap k
  unfold Lives at *
  rw [List.countP_append, hd]
  rw [List.countP_cons] at hl
  have hreg := fun c k' h => hi.registers c k' h
  have hle := fun h1 h2 => ha.members_le k h1 h2 hreg
  have hmc : (∀ c, pc ≠ .n4 c k) → (∀ c, pc ≠ .r4 c k) →
      min (g'.members k).length 1 ≤ min (g.members k).length 1 := by
    intro h1 h2
    have := hle h1 h2
    omega
  have main : g'.log.count (.destroyed k) + pcs.countP (PC.dooms g' k) + min (g'.members k).length 1 +
      given k g.log ≤ g.log.count (.destroyed k) + (if PC.dooms g k pc = true then 1 else 0) +
      min (g.members k).length 1 + given k g'.log := by
    cases ha
    case d2_destroy c κ key hs hr hu =>
      have hh := hi.here c
      rw [the_cons] at hh
      simp only [PC.inside, decide_true, if_true, Here] at hh
      have hc := (hh.1 key).mp hs
      by_cases hk : key = k
      · subst hk
        have h1 : g.members key ≠ [] := List.ne_nil_of_mem hc
        have h2 : ({ g with registry := (registryRemove g.registry key c).1 } : G).members key = [] := by
          simp [G.members, registryRemove_removed hr]
        have h3 := List.length_pos_iff.mpr h1
        simp only [PC.dooms, hs, h2, List.countP_cons, List.countP_nil, List.length_nil, decide_true, if_true,
          Bool.false_eq_true, if_false]
        omega
      · have h2 : ({ g with registry := (registryRemove g.registry key c).1 } : G).members k = g.members k := by
          simp [G.members, registryRemove_get, hk]
        simp [PC.dooms, hs, hk, h2]
    case d2 c κ key hs hr =>
      have e1 : [κ.next c].countP (PC.dooms { g with registry := (registryRemove g.registry key c).1 } k) = 0 := by
        cases κ <;> simp [Cont.next, PC.dooms]
      rw [e1]
      have := hmc (by simp) (by simp)
      simp only [PC.dooms, Bool.false_eq_true, if_false]
      omega
    case r4 c k' key hs hx =>
      cases (hs.symm.trans (hreg c k' (.inr rfl)))
      have e1 : given k (g.log ++ [Ev.restoreEnd c k' .restored]) = given k g.log + if k' = k then 1 else 0 := by
        simp [given, gives, List.countP_append, List.countP_cons]
      have e2 : (g.log ++ [Ev.restoreEnd c k' .restored]).count (.destroyed k) = g.log.count (.destroyed k) := by
        simp
      simp only [G.emit, PC.dooms, List.countP_nil, Bool.false_eq_true, if_false] at hmc ⊢
      rw [e1, e2]
      by_cases hk : k' = k
      · rw [if_pos hk]; omega
      · have := hmc (by simp) (by simpa using hk)
        omega
    case n4 c k' key hs =>
      cases (hs.symm.trans (hreg c k' (.inl rfl)))
      have e1 : given k (g.log ++ [Ev.registered c k']) = given k g.log + if k' = k then 1 else 0 := by
        simp [given, gives, List.countP_append, List.countP_cons]
      have e2 : (g.log ++ [Ev.registered c k']).count (.destroyed k) = g.log.count (.destroyed k) := by
        simp
      simp only [G.emit, G.setLock, PC.dooms, List.countP_cons, List.countP_nil, Bool.false_eq_true, if_false] at hmc ⊢
      rw [e1, e2]
      by_cases hk : k' = k
      · rw [if_pos hk]; omega
      · have := hmc (by simpa using hk) (by simp)
        omega
    case d3 c κ key hs =>
      have e1 : [κ.next c].countP (PC.dooms (g.emit (.destroyed key)) k) = 0 := by
        cases κ <;> simp [Cont.next, PC.dooms]
      rw [e1]
      by_cases hk : key = k
      · subst hk
        simp [PC.dooms, hs, G.emit, given, gives, G.members]
      · simp [PC.dooms, hs, hk, G.emit, given, gives, G.members]
    case r2_end c k' r hr =>
      rcases hr with rfl | rfl <;> simp [PC.dooms, G.emit, given, gives, G.members]
    case d1_end c κ hs =>
      cases κ <;> simp [Cont.next, PC.dooms]
    all_goals simp [PC.dooms, G.emit, G.crash, G.setSession, G.setLock, given, gives, G.members]
  omega

end

theorem Lives.perm {k : Bytes} {g : G} {ts ts' : List PC} (h : Lives k g ts) (hp : ts.Perm ts') : Lives k g ts' := by
  unfold Lives at *
  rwa [← hp.countP_eq]

/-- The steps of `Calm` executions, as `Inv.step` has them. -/
theorem calm_steps {g g' : G} {ts rest pcs : List PC} {pc : PC} {ch : Choice} (hh : Held g (pc :: rest))
    (ha : Acts g pc g' pcs) (hp : ts.Perm (pc :: rest))
    (hok : Calm ⟨g, ts⟩ (.thread pc ch)) : ∀ c, pc.before c = true → ∀ a ∈ rest, a.inside c = false := by
  intro c hb
  refine held_apart hh ha hb fun a hm => hok.1.1 c ?_ a (hp.symm.subset (List.mem_cons_of_mem _ hm))
  cases pc <;> simp_all [PC.before, Label.enters]

/-- Invariants of `Calm` executions, on top of `Inv`. -/
theorem calm_inv {n : Nat} {ok : State → Label → Prop} (hok : ∀ s l, ok s l → Calm s l) {I : G → List PC → Prop}
    (hp : ∀ g ts ts', I g ts → ts.Perm ts' → I g ts')
    (ha : ∀ g pc rest ts ch g' pcs, I g (pc :: rest) → Inv g (pc :: rest) → ts.Perm (pc :: rest) →
      ok ⟨g, ts⟩ (.thread pc ch) → Acts g pc g' pcs →
      (∀ c, pc.before c = true → ∀ a ∈ rest, a.inside c = false) → I g' (pcs ++ rest))
    (hc : ∀ g ts pc, I g ts → Inv g ts → pc.entry = true → ok ⟨g, ts⟩ (.call pc) → I g (pc :: ts))
    (h0 : I (init n).g (init n).threads) {s : State} (h : ReachableIf n ok s) : I s.g s.threads := by
  have hinv : ∀ {s : State}, ReachableIf n ok s → Inv s.g s.threads ∧ Held s.g s.threads := by
    intro s h
    refine inv_held (n := n) ?_
    induction h with
    | start => exact .start
    | step s l s' _ ho hs ih => exact .step s l s' ih (hok s l ho) hs
  induction h with
  | start => exact h0
  | step s1 l s2 hr ho hst ih =>
    obtain ⟨hi, hh⟩ := hinv hr
    cases hst with
    | thread g g' pre post pcs pc ch hcr hsn hact =>
      have hperm : (pre ++ pc :: post).Perm (pc :: (pre ++ post)) := List.perm_middle
      have h1 := ha g pc (pre ++ post) _ ch g' pcs (hp _ _ _ ih hperm) (hi.perm hperm) hperm ho
        (acts_of_act hact) (calm_steps (fun a ha => hh a (hperm.symm.subset ha)) (acts_of_act hact) hperm (hok _ _ ho))
      refine hp _ _ _ h1 ?_
      rw [← List.append_assoc, ← List.append_assoc]
      exact List.perm_append_comm.append_right post
    | call g ts pc hcr he _ => exact hc _ _ _ ih hi he ho

/-! ## Destroyed by the last one to leave -/

theorem registryRemove_kept {g : G} {key : Bytes} {c : ConnId} (hreg : RegOk g.maxConns g.registry)
    (h : (registryRemove g.registry key c).2.2 = false) (k : Bytes) (hne : g.members k ≠ []) :
    ({ g with registry := (registryRemove g.registry key c).1 } : G).members k ≠ [] := by
  by_cases hk : key = k
  · subst hk
    simp only [G.members, registryRemove_get, if_true] at hne ⊢
    unfold registryRemove at h
    cases hg : g.registry.get key with
    | none => simp [hg] at hne
    | some l =>
      simp only [hg] at h ⊢
      split at h
      · cases h
      · rename_i hl
        simp only [hl, if_false, Option.getD_some]
        have hnd := (hreg.ok key l hg).2.1
        intro he
        have : ∀ a ∈ l, a = c := by
          intro a ha
          by_contra hac
          have : a ∈ setDelete l c := by simp [setDelete, ha, hac]
          rw [he] at this
          cases this
        have h2 : l.length ≤ 1 := by
          rcases l with _ | ⟨a, _ | ⟨b, l⟩⟩
          · simp
          · simp
          · have e1 := this a (by simp)
            have e2 := this b (by simp)
            subst e1; subst e2
            simp at hnd
        omega
  · simpa [G.members, registryRemove_get, hk] using hne

theorem registryAdd_kept {g : G} {key : Bytes} {c : ConnId} (hreg : RegOk g.maxConns g.registry) (k : Bytes)
    (hne : g.members k ≠ [] ∨ k = key) :
    ({ g with registry := (registryAdd g.maxConns g.registry key c).1 } : G).members k ≠ [] := by
  by_cases hx : (registryAdd g.maxConns g.registry key c).2 = none
  · have := fun c' => members_add (c' := c') k hx
    rcases hne with hne | rfl
    · obtain ⟨a, ha⟩ := List.exists_mem_of_ne_nil _ hne
      exact List.ne_nil_of_mem ((this a).mpr (.inr ha))
    · exact List.ne_nil_of_mem ((this c).mpr (.inl ⟨rfl, rfl⟩))
  · rw [members_add_fail k hx]
    rcases hne with hne | rfl
    · exact hne
    · unfold registryAdd at hx
      cases hg : g.registry.get k with
      | none => simp [hg] at hx
      | some l => simpa [G.members, hg] using (hreg.ok k l hg).1

theorem Inv.kept {g g' : G} {pc : PC} {pcs rest : List PC} (hi : Inv g (pc :: rest)) (ha : Acts g pc g' pcs)
    (hu : ∀ c, pc ≠ .d2 c .unlink) {k : Bytes} (hne : g.members k ≠ []) :
    g'.members k ≠ [] ∨ ∃ c κ, pcs = [.d3 c κ] ∧ g'.session c = some k := by
  have hreg := hi.reg
  cases ha
  case d2_destroy c κ key hs hr hk =>
    by_cases h : key = k
    · subst h; exact .inr ⟨c, κ, rfl, hs⟩
    · left; simpa [G.members, registryRemove_get, h] using hne
  case d2 c κ key hs hr =>
    left
    refine registryRemove_kept hreg ?_ k hne
    cases hx : (registryRemove g.registry key c).2.2
    · rfl
    · have := hr hx
      subst this
      exact absurd rfl (hu c)
  case r4 c k' key hs hx => left; exact registryAdd_kept hreg k (.inl hne)
  case n4 c k' key hs => left; exact registryAdd_kept hreg k (.inl hne)
  all_goals (left; exact hne)

/-- Connections do not end. -/
def PC.stays : PC → Bool
  | .d1 _ .unlink | .d2 _ .unlink | .d3 _ .unlink | .u2 _ => false
  | _ => true

theorem Acts.stays {g g' : G} {pc : PC} {pcs : List PC} (ha : Acts g pc g' pcs) (h : pc.stays = true) :
    ∀ a ∈ pcs, a.stays = true := by
  cases ha
  case d1_end c κ _ => cases κ <;> simp_all [PC.stays, Cont.next]
  case d1 c κ _ => cases κ <;> simp_all [PC.stays]
  case d2 c κ _ _ _ => cases κ <;> simp_all [PC.stays, Cont.next]
  case d3 c κ _ _ => cases κ <;> simp_all [PC.stays, Cont.next]
  case d2_destroy c κ _ _ _ _ => cases κ <;> simp_all [PC.stays]
  all_goals simp_all [PC.stays]

/-- A session given to a connection is in use, or destroyed, or about to be. -/
def Owned (k : Bytes) (g : G) (ts : List PC) : Prop :=
  (∀ a ∈ ts, a.stays = true) ∧
  (0 < given k g.log → g.members k ≠ [] ∨ (∃ a ∈ ts, a.dooms g k = true) ∨ .destroyed k ∈ g.log)

theorem Owned.step {g g' : G} {pc : PC} {pcs rest : List PC} {k : Bytes} (ho : Owned k g (pc :: rest))
    (hi : Inv g (pc :: rest)) (ha : Acts g pc g' pcs)
    (hap : ∀ c, pc.before c = true → ∀ a ∈ rest, a.inside c = false) : Owned k g' (pcs ++ rest) := by
  obtain ⟨h1, h2⟩ := ho
  have hst := h1 pc List.mem_cons_self
  refine ⟨fun a hm => ?_, fun hgiv => ?_⟩
  · rcases List.mem_append.mp hm with hm | hm
    · exact ha.stays hst a hm
    · exact h1 a (List.mem_cons_of_mem _ hm)
  · have hreg := hi.reg
    have hlog : ∀ e, e ∈ g.log → e ∈ g'.log := by
      intro e he
      cases ha <;> simp_all [G.emit, G.crash, G.setSession, G.setLock]
    have hold : 0 < given k g.log → g'.members k ≠ [] ∨ (∃ a ∈ pcs ++ rest, a.dooms g' k = true) ∨ .destroyed k ∈ g'.log := by
      intro h
      rcases h2 h with h | ⟨a, hm, hd⟩ | h
      · rcases hi.kept ha (by rintro c rfl; simp [PC.stays] at hst) h with h | ⟨c, κ, rfl, hs⟩
        · exact .inl h
        · exact .inr (.inl ⟨.d3 c κ, by simp, by simp [PC.dooms, hs]⟩)
      · rcases List.mem_cons.mp hm with rfl | hm
        · right; right
          cases a <;> simp only [PC.dooms, Bool.false_eq_true, decide_eq_true_eq] at hd
          cases ha
          · simp_all
          · rename_i key hs
            rw [hs] at hd; cases hd
            simp [G.emit]
        · right; left
          refine ⟨a, List.mem_append_right _ hm, ?_⟩
          cases a <;> simp only [PC.dooms, Bool.false_eq_true, decide_eq_true_eq] at hd ⊢
          rw [hi.session_rest ha hap hm (by simp [PC.inside]), hd]
      · exact .inr (.inr (hlog _ h))
    have hnew : given k g'.log = given k g.log ∨ g'.members k ≠ [] := by
      have hg := hi.registers
      cases ha
      case r4 c k' key hs hx =>
        cases (hs.symm.trans (hg c k' (.inr rfl)))
        by_cases hk : k = k'
        · right; exact registryAdd_kept hreg k (.inr hk)
        · left; simp [G.emit, given, gives, List.countP_append, Ne.symm hk]
      case n4 c k' key hs =>
        cases (hs.symm.trans (hg c k' (.inl rfl)))
        by_cases hk : k = k'
        · right; exact registryAdd_kept hreg k (.inr hk)
        · left; simp [G.emit, G.setLock, given, gives, List.countP_append, Ne.symm hk]
      case r2_end c k' r hr => left; rcases hr with rfl | rfl <;> simp [G.emit, given, gives, List.countP_append]
      all_goals (left; simp [G.emit, G.crash, G.setSession, G.setLock, given, gives, List.countP_append])
    rcases hnew with h | h
    · exact hold (h ▸ hgiv)
    · exact .inl h

/-! ## No admission while a session is being destroyed -/

/-- A session being destroyed is nobody's and is not given to anybody. -/
def Gone (g : G) (ts : List PC) : Prop :=
  ∀ a ∈ ts, ∀ k, a.destroys g k = true → (∀ b ∈ ts, b.pending k = false) ∧
    ((∃ c κ, a = .d3 c κ) → g.members k = [])

theorem destroys_inside {g : G} {k : Bytes} {a : PC} (h : a.destroys g k = true) :
    ∃ c, a.inside c = true ∧ g.session c = some k ∧ ∀ g' : G, g'.session c = g.session c → a.destroys g' k = true := by
  cases a <;> simp only [PC.destroys, Bool.false_eq_true, decide_eq_true_eq] at h
  case d2 c κ => exact ⟨c, by simp [PC.inside], h.1, fun g' e => by simp [PC.destroys, e, h]⟩
  case d3 c κ => exact ⟨c, by simp [PC.inside], h, fun g' e => by simp [PC.destroys, e, h]⟩

theorem destroys_new {g g' : G} {pc : PC} {pcs : List PC} (ha : Acts g pc g' pcs) {a : PC} {k : Bytes} :
    a ∈ pcs → a.destroys g' k = true →
    (∃ c κ, pc = .d1 c κ ∧ pcs = [.d2 c κ] ∧ a = .d2 c κ ∧ g' = g) ∨
      ∃ c κ key, pc = .d2 c κ ∧ pcs = [.d3 c κ] ∧ a = .d3 c κ ∧ κ ≠ .unlink ∧ g.session c = some key ∧
        (registryRemove g.registry key c).2.2 = true ∧
        g' = { g with registry := (registryRemove g.registry key c).1 } := by
  cases ha
  case d1 c κ hs => intro hm hd; simp at hm; exact .inl ⟨c, κ, rfl, rfl, hm, rfl⟩
  case d2_destroy c κ key hs hr hu => intro hm hd; simp at hm; exact .inr ⟨c, κ, key, rfl, rfl, hm, hu, hs, hr, rfl⟩
  case d1_end c κ hs => intro hm hd; simp at hm; subst hm; cases κ <;> simp [Cont.next, PC.destroys] at hd
  case d2 c κ key hs hr => intro hm hd; simp at hm; subst hm; cases κ <;> simp [Cont.next, PC.destroys] at hd
  case d3 c κ key hs => intro hm hd; simp at hm; subst hm; cases κ <;> simp [Cont.next, PC.destroys] at hd
  all_goals (intro hm hd; simp at hm; try (subst hm; simp [PC.destroys] at hd))

theorem Gone.step {g g' : G} {pc : PC} {pcs rest : List PC} (hg : Gone g (pc :: rest)) (hi : Inv g (pc :: rest))
    (ha : Acts g pc g' pcs) (hap : ∀ c, pc.before c = true → ∀ a ∈ rest, a.inside c = false)
    (h1 : ∀ k, pc.admits = some k → ∀ a ∈ rest, a.destroys g k = false)
    (h2 : ∀ c κ k, pc = .d1 c κ → κ ≠ .unlink → g.session c = some k → ∀ a ∈ rest, a.pending k = false) :
    Gone g' (pcs ++ rest) := by
  intro a hm k hd
  rcases List.mem_append.mp hm with hm | hm
  · -- the goroutine itself is destroying
    have hcase := destroys_new ha hm hd
    rcases hcase with ⟨c, κ, rfl, rfl, rfl, rfl⟩ | ⟨c, κ, key, rfl, rfl, rfl, hu, hs, hr, rfl⟩
    · simp only [PC.destroys, decide_eq_true_eq] at hd
      refine ⟨?_, by simp⟩
      intro b hb
      rcases List.mem_append.mp hb with hb | hb
      · simp at hb; subst hb; rfl
      · exact h2 c κ k rfl hd.2 hd.1 b hb
    · simp only [PC.destroys, decide_eq_true_eq] at hd
      have hkey : key = k := by have := hs.symm.trans hd; cases this; rfl
      subst hkey
      have := hg (.d2 c κ) List.mem_cons_self key (by simp [PC.destroys, hs, hu])
      refine ⟨?_, fun _ => by simp [G.members, registryRemove_removed hr]⟩
      intro b hb
      rcases List.mem_append.mp hb with hb | hb
      · simp at hb; subst hb; rfl
      · exact this.1 b (List.mem_cons_of_mem _ hb)
  · -- another one is
    obtain ⟨c, hin, hs, hback⟩ := destroys_inside hd
    have hsess := hi.session_rest ha hap hm hin
    have hd0 : a.destroys g k = true := hback g (by rw [hsess])
    obtain ⟨g1, g2⟩ := hg a (List.mem_cons_of_mem _ hm) k hd0
    have hpc : pc.pending k = false := g1 pc List.mem_cons_self
    refine ⟨?_, fun h3 => hi.members_nil ha (g2 h3) hpc⟩
    intro b hb
    rcases List.mem_append.mp hb with hb | hb
    · cases hx : b.pending k
      · rfl
      · rcases ha.pending k b hb hx with h | h
        · rw [hpc] at h; cases h
        · have := h1 k h a hm
          rw [hd0] at this; cases this
    · exact g1 b (List.mem_cons_of_mem _ hb)

end Webwire.Races
