import Verif.Spec.SessionOrder
import Verif.Proofs.SessionRaces4

/-!
# Session operations take effect one after the other: proofs
-/

set_option autoImplicit false

namespace Webwire.Races

open Atomic

/-! ## Tables -/

theorem of_some {t : Table} (hn : (t.map Prod.fst).Nodup) {c : ConnId} {k : Bytes} : of t c = some k ↔ (c, k) ∈ t := by
  induction t with
  | nil => simp [of]
  | cons e t ih =>
    obtain ⟨c', k'⟩ := e
    simp only [List.map_cons, List.nodup_cons] at hn
    have ih := ih hn.2
    by_cases h : c' = c
    · subst h
      have : (c', k) ∉ t := fun hm => hn.1 (List.mem_map.mpr ⟨_, hm, rfl⟩)
      simp [of, this, eq_comm]
    · simp only [of] at ih ⊢
      simp [h, ih, Ne.symm h]

/-- The table has what the registry has. -/
structure Same (g : G) (t : Table) : Prop where
  nodup : (t.map Prod.fst).Nodup
  mem : ∀ c k, (c, k) ∈ t ↔ c ∈ g.members k

theorem Same.count {g : G} {t : Table} (h : Same g t) (hr : RegOk g.maxConns g.registry) (k : Bytes) :
    on t k = (g.members k).length := by
  have hnd : (g.members k).Nodup := by
    unfold G.members
    cases hk : g.registry.get k with
    | none => simp
    | some set => exact (hr.ok k set hk).2.1
  have h1 : ((t.filter fun e => decide (e.2 = k)).map Prod.fst).Nodup :=
    h.nodup.sublist (List.filter_sublist.map _)
  have : ((t.filter fun e => decide (e.2 = k)).map Prod.fst).Perm (g.members k) := by
    rw [List.perm_ext_iff_of_nodup h1 hnd]
    intro c
    rw [← h.mem]
    simp
  rw [← this.length_eq, List.length_map]
  exact List.countP_eq_length_filter

theorem Same.of {g : G} {t : Table} {c : ConnId} (h : Same g t) (hR : Rest g c) : Atomic.of t c = g.session c := by
  cases hs : g.session c with
  | some k => rw [of_some h.nodup, h.mem]; exact (hR k).mp hs
  | none =>
    cases ho : Atomic.of t c with
    | none => rfl
    | some k =>
      rw [of_some h.nodup, h.mem] at ho
      have := (hR k).mpr ho
      rw [hs] at this; cases this

theorem Same.of_out {g : G} {t : Table} {c : ConnId} (h : Same g t) (hO : Out g c) : Atomic.of t c = none := by
  cases ho : Atomic.of t c with
  | none => rfl
  | some k =>
    rw [of_some h.nodup, h.mem] at ho
    exact absurd ho (hO k)

theorem Same.out {g : G} {t : Table} {c : ConnId} (h : Same g t) (hO : Out g c) : c ∉ t.map Prod.fst := by
  rintro hm
  obtain ⟨⟨c', k⟩, hm', rfl⟩ := List.mem_map.mp hm
  exact hO k ((h.mem _ _).mp hm')

theorem Same.congr {g g' : G} {t : Table} (h : Same g t) (e : g'.registry = g.registry) : Same g' t :=
  ⟨h.nodup, fun c k => by rw [h.mem]; simp [G.members, e]⟩

theorem Same.add {g : G} {t : Table} {n : Nat} {key : Bytes} {c : ConnId} (h : Same g t) (hO : Out g c)
    (hx : (registryAdd n g.registry key c).2 = none) :
    Same { g with registry := (registryAdd n g.registry key c).1 } ((c, key) :: t) := by
  refine ⟨List.nodup_cons.mpr ⟨h.out hO, h.nodup⟩, fun c' k => ?_⟩
  rw [members_add k hx, ← h.mem]
  simp

theorem Same.drop {g : G} {t : Table} {key : Bytes} {c : ConnId} (h : Same g t) (hR : Rest g c)
    (hs : g.session c = some key) :
    Same { g with registry := (registryRemove g.registry key c).1 } (Atomic.drop t c) := by
  refine ⟨h.nodup.sublist (List.filter_sublist.map _), fun c' k => ?_⟩
  rw [members_remove k ((hR key).mp hs), ← h.mem]
  simp only [Atomic.drop, List.mem_filter, decide_eq_true_eq, not_and]
  refine and_congr_right fun hm => ⟨fun hne e => absurd e hne, fun hk e => ?_⟩
  subst e
  have := (hR k).mpr ((h.mem _ _).mp hm)
  rw [hs] at this
  cases this
  exact hk rfl rfl

theorem drop_out {g : G} {t : Table} {c : ConnId} (h : Same g t) (hO : Out g c) : Atomic.drop t c = t := by
  unfold Atomic.drop
  rw [List.filter_eq_self]
  rintro ⟨c', k⟩ hm
  have : c' ≠ c := by rintro rfl; exact hO k ((h.mem _ _).mp hm)
  simpa using this

/-! ## One step -/

theorem Hist.reachable {ok : State → Label → Prop} {n : Nat} {s : State} {H : List (Op × Ans)} (h : Hist ok n s H) :
    ReachableIf n ok s := by
  induction h with
  | start => exact .start
  | step s H l s' _ ho hs ih => exact .step s l s' ih ho hs

theorem hist_of_reachable {ok : State → Label → Prop} {n : Nat} {s : State} (h : ReachableIf n ok s) :
    ∃ H, Hist ok n s H := by
  induction h with
  | start => exact ⟨[], .start⟩
  | step s l s' _ ho hs ih => obtain ⟨H, hH⟩ := ih; exact ⟨_, .step s H l s' hH ho hs⟩

theorem effect_none {g g' : G} {ts pcs : List PC} {pc : PC} {ch : Choice}
    (h1 : ∀ c k, pc = .r1 c k → pcs ≠ []) (h2 : ∀ c k, pc ≠ .r4 c k) (h3 : ∀ c k, pc ≠ .n2 c k)
    (h4 : ∀ c k, pc ≠ .n4 c k) (h5 : ∀ c κ, pc ≠ .d2 c κ) (ha : act g ch pc = some (g', pcs)) :
    effect ⟨g, ts⟩ (.thread pc ch) = [] := by
  unfold effect
  simp only [ha]
  split
  case h_1 c k g'' he => cases he; exact absurd rfl (h1 _ _ rfl)
  case h_2 => exact absurd rfl (h2 _ _)
  case h_3 => exact absurd rfl (h3 _ _)
  case h_4 => exact absurd rfl (h4 _ _)
  case h_5 => exact absurd rfl (h5 _ _)
  case h_6 => rfl

/-- What a step adds to the history is what the operations, executed at once, do and answer. -/
theorem Same.step {g g' : G} {ts rest pcs : List PC} {pc : PC} {ch : Choice} {H : List (Op × Ans)} {t : Table}
    (hi : Inv g (pc :: rest)) (ha : act g ch pc = some (g', pcs)) (h : Same g t) (hr : Run g.maxConns H t) :
    ∃ t', Same g' t' ∧ Run g.maxConns (H ++ effect ⟨g, ts⟩ (.thread pc ch)) t' := by
  have hA := acts_of_act ha
  have hh : ∀ c, pc.inside c = true → Here g c (some pc) := by
    intro c hc
    have := hi.here c
    rw [the_cons, if_pos hc] at this
    exact this
  have one : ∀ op a t', Same g' t' → perform g.maxConns t op = (t', a) →
      effect ⟨g, ts⟩ (.thread pc ch) = [(op, a)] →
      ∃ t', Same g' t' ∧ Run g.maxConns (H ++ effect ⟨g, ts⟩ (.thread pc ch)) t' := by
    intro op a t' hs hp he
    refine ⟨t', hs, ?_⟩
    have := Run.step H t op hr
    rw [hp] at this
    rw [he]; exact this
  have none : g'.registry = g.registry → effect ⟨g, ts⟩ (.thread pc ch) = [] →
      ∃ t', Same g' t' ∧ Run g.maxConns (H ++ effect ⟨g, ts⟩ (.thread pc ch)) t' := by
    intro e he
    rw [he, List.append_nil]
    exact ⟨t, h.congr e, hr⟩
  cases hA
  case r1_max c k set h1 h2 h3 =>
    refine one (.restore c k) .refused t (h.congr rfl) ?_ (by simp [effect, ha])
    have : g.maxConns ≤ on t k := by
      rw [h.count hi.reg]; simp only [G.members, h1, Option.getD_some]; omega
    simp [perform, h2, this]
  case r4_nil c k w hs =>
    have := hh c (by simp [PC.inside]); simp [Here, hs] at this
  case r4_max c k key w hs hx =>
    have hc := hh c (by simp [PC.inside])
    simp only [Here] at hc
    have : key = k := by have := hs.symm.trans hc.1; cases this; rfl
    subst this
    exact absurd (registryAdd_none fun hm => hi.pend hm _ List.mem_cons_self key (decide_eq_true rfl)) hx
  case r4 c k key hs hx =>
    have hc := hh c (by simp [PC.inside])
    simp only [Here] at hc
    have : key = k := by have := hs.symm.trans hc.1; cases this; rfl
    subst this
    refine one (.restore c key) .done ((c, key) :: t) ((h.add hc.2 hx).congr rfl) ?_ (by simp [effect, ha])
    have hlim : ¬ (0 < g.maxConns ∧ g.maxConns ≤ on t key) := by
      rintro ⟨hm, hle⟩
      have := hi.pend hm _ List.mem_cons_self key (decide_eq_true rfl)
      rw [h.count hi.reg] at hle
      omega
    simp only [perform, hlim, if_false, drop_out h hc.2]
  case n2_nil c k w hs =>
    have := hh c (by simp [PC.inside]); simp [Here, hs] at this
  case n2 c k hs =>
    have hc := hh c (by simp [PC.inside])
    simp only [Here] at hc
    refine one (.create c k) .refused t (h.congr rfl) ?_ (by simp [effect, ha])
    simp [perform, h.of hc.1, hs]
  case n4_nil c k w hs =>
    have := hh c (by simp [PC.inside]); simp [Here, hs] at this
  case n4 c k key hs =>
    have hc := hh c (by simp [PC.inside])
    simp only [Here] at hc
    have : key = k := by have := hs.symm.trans hc.1; cases this; rfl
    subst this
    have hx : (registryAdd g.maxConns g.registry key c).2 = .none :=
      registryAdd_none fun hm => hi.pend hm _ List.mem_cons_self key (decide_eq_true rfl)
    refine one (.create c key) .done ((c, key) :: t) ((h.add hc.2 hx).congr rfl) ?_ (by simp [effect, ha])
    simp [perform, h.of_out hc.2]
  case d2_nil c κ w hs =>
    have := hh c (by simp [PC.inside]); simp [Here, hs] at this
  case d2_destroy c κ key hs hx hk =>
    have hc := hh c (by simp [PC.inside])
    simp only [Here] at hc
    refine one (.close c) (.destroys key) (Atomic.drop t c) (h.drop hc.1 hs) ?_ (by simp [effect, ha, hk, hs])
    have hm := (hc.1 key).mp hs
    have : on t key = 1 := by
      rw [h.count hi.reg]
      unfold registryRemove at hx
      unfold G.members at hm ⊢
      cases hg : g.registry.get key with
      | none => simp [hg] at hm
      | some set =>
        simp only [hg, Option.getD_some] at hm hx ⊢
        have := List.length_pos_of_mem hm
        split at hx
        · omega
        · cases hx
    simp [perform, h.of hc.1, hs, this]
  case d2 c κ key hs hx =>
    have hc := hh c (by simp [PC.inside])
    simp only [Here] at hc
    have hm := (hc.1 key).mp hs
    have he : effect ⟨g, ts⟩ (.thread (.d2 c κ) ch) = [(if κ = .unlink then .leave c else .close c, .done)] := by
      simp only [effect, ha]
      cases κ <;> simp [Cont.next]
    by_cases hk : κ = .unlink
    · subst hk
      exact one (.leave c) .done (Atomic.drop t c) (h.drop hc.1 hs) (by simp [perform]) (by simpa using he)
    · refine one (.close c) .done (Atomic.drop t c) (h.drop hc.1 hs) ?_ (by simpa [hk] using he)
      have : on t key ≠ 1 := by
        rw [h.count hi.reg]
        intro h1
        refine hk (hx ?_)
        unfold registryRemove
        unfold G.members at hm h1
        cases hg : g.registry.get key with
        | none => simp [hg] at hm
        | some set =>
          simp only [hg, Option.getD_some] at h1 ⊢
          rw [if_pos (by omega)]
      simp [perform, h.of hc.1, hs, this]
  all_goals
    refine none rfl (effect_none ?_ ?_ ?_ ?_ ?_ ha) <;> simp

theorem calm_hist {n : Nat} {s : State} {H : List (Op × Ans)} (h : Hist Calm n s H) :
    ∃ t, Same s.g t ∧ Run n H t := by
  induction h with
  | start => exact ⟨[], ⟨List.nodup_nil, fun c k => by simp [init, G.members, GoMap.get]⟩, .nil⟩
  | step s H l s' hh ho hs ih =>
    obtain ⟨t, hS, hR⟩ := ih
    have hi := inv_reachable hh.reachable
    have hn := (regOk_from hh.reachable).1
    cases hs with
    | call => simpa [effect] using ⟨t, hS, hR⟩
    | thread g g' pre post pcs pc ch hcr hsn hact =>
      simp only at hn hi hS ⊢
      subst hn
      exact hS.step (hi.perm List.perm_middle) hact hR

/-! ## The history is what was answered -/

theorem hist_told {ok : State → Label → Prop} {n : Nat} {s : State} {H : List (Op × Ans)} (h : Hist ok n s H)
    (hc : s.g.crashed = none) : H.filter tells = told s.g.log := by
  induction h with
  | start => rfl
  | step s H l s' hh ho hs ih =>
    cases hs with
    | call g ts pc hcr => simpa [effect] using ih hcr
    | thread g g' pre post pcs pc ch hcr hsn hact =>
      replace ih := ih hcr
      simp only at ih hc ⊢
      rw [List.filter_append, ih]
      clear ih
      cases acts_of_act hact
      case r4_nil | r4_max | d2_nil | d3_nil | n2_nil | n4_nil => cases hc
      case r1_max c k set h1 h2 h3 => simp [effect, hact, tells, told, G.emit]
      case r2_end c k r hr =>
        rw [effect_none _ _ _ _ _ hact] <;> rcases hr with rfl | rfl <;> simp [told, G.emit]
      case r4 | n2 | n4 => simp [effect, hact, tells, told, G.emit, G.setLock]
      case d2_destroy c κ key _ _ _ =>
        simp only [effect, hact]
        cases κ <;> simp [tells, told]
      case d2 c κ key _ _ =>
        simp only [effect, hact]
        cases κ <;> simp [tells, told]
      all_goals
        rw [effect_none _ _ _ _ _ hact] <;> simp [told, G.emit, G.setLock, G.setSession]

/-! ## The sessions destroyed -/

theorem hist_destroyed {n : Nat} {s : State} {H : List (Op × Ans)} (h : Hist Calm n s H) (k : Bytes) :
    H.countP (fun e => e.2 = .destroys k) =
      s.g.log.count (.destroyed k) + s.threads.countP (PC.announces s.g k) := by
  induction h with
  | start => rfl
  | step s H l s' hh ho hs ih =>
    obtain ⟨hi, hd⟩ := inv_held hh.reachable
    cases hs with
    | call g ts pc hcr he =>
      simp only at ih
      have : pc.announces g k = false := by cases pc <;> simp_all [PC.entry, PC.announces]
      simpa [effect, List.countP_cons, this] using ih
    | thread g g' pre post pcs pc ch hcr hsn hact =>
      have hperm : (pre ++ pc :: post).Perm (pc :: (pre ++ post)) := List.perm_middle
      have hperm' : (pre ++ (pcs ++ post)).Perm (pcs ++ (pre ++ post)) := by
        rw [← List.append_assoc, ← List.append_assoc]
        exact List.perm_append_comm.append_right post
      simp only at ih hi hd ⊢
      have hA := acts_of_act hact
      replace hi := hi.perm hperm
      have hap := calm_steps (fun a ha => hd a (hperm.symm.subset ha)) hA hperm ho
      rw [hperm.countP_eq, List.countP_cons] at ih
      rw [hperm'.countP_eq, List.countP_append, List.countP_append]
      have hrest : (pre ++ post).countP (PC.announces g' k) = (pre ++ post).countP (PC.announces g k) := by
        refine List.countP_congr fun a ha => ?_
        cases a <;> simp only [PC.announces]
        case d3 c κ => rw [hi.session_rest hA hap ha (c := c) (by simp [PC.inside])]
      rw [hrest]
      generalize (pre ++ post).countP (PC.announces g k) = m at ih ⊢
      have hcrash := hi.no_crash hA
      clear hrest hap hd hperm hperm' ho
      cases hA
      case r4_nil | r4_max | d2_nil | d3_nil | n2_nil | n4_nil => cases hcrash
      case d2_destroy c κ key hs hx hk =>
        simp only [effect, hact, hs]
        by_cases e : key = k
        · subst e; simp [PC.announces, hs] at ih ⊢; omega
        · simp [PC.announces, hs, e] at ih ⊢; omega
      case d2 c κ key hs hx =>
        simp only [effect, hact, hs]
        cases κ <;> simp [PC.announces, Cont.next] at ih ⊢ <;> omega
      case d3 c κ key hs =>
        rw [effect_none _ _ _ _ _ hact] <;> try simp
        by_cases e : key = k
        · subst e; cases κ <;> simp [PC.announces, hs, G.emit, Cont.next] at ih ⊢ <;> omega
        · cases κ <;> simp [PC.announces, hs, G.emit, Cont.next, e] at ih ⊢ <;> omega
      case r1_max | r4 | n2 | n4 =>
        simp [effect, hact, PC.announces, G.emit, G.setLock] at ih ⊢; omega
      case d1_end c κ hs =>
        rw [effect_none _ _ _ _ _ hact] <;> try simp
        cases κ <;> simp [PC.announces, Cont.next] at ih ⊢ <;> omega
      all_goals
        rw [effect_none _ _ _ _ _ hact] <;> try simp
        simp [PC.announces, G.emit, G.setLock, G.setSession] at ih ⊢; omega

end Webwire.Races
