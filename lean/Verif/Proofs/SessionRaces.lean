import Verif.Spec.SessionRaces
import Verif.Proofs.Session

/-!
# Session operations at the same time: invariants
-/

set_option autoImplicit false

namespace Webwire.Races

/-- `act`, branch by branch. -/
inductive Acts (g : G) : PC → G → List PC → Prop
  | r1_max (c : ConnId) (k : Bytes) (set : List ConnId) : g.registry.get k = some set → 0 < g.maxConns →
      set.length + 1 > g.maxConns → Acts g (.r1 c k) (g.emit (.restoreEnd c k .maxConns)) []
  | r1 (c : ConnId) (k : Bytes) : (0 < g.maxConns → (g.members k).length + 1 ≤ g.maxConns) →
      Acts g (.r1 c k) g [.r2 c k]
  | r2_end (c : ConnId) (k : Bytes) (r : Reply) : r = .failed ∨ r = .notFound → Acts g (.r2 c k) (g.emit (.restoreEnd c k r)) []
  | r2 (c : ConnId) (k : Bytes) : Acts g (.r2 c k) g [.r3 c k]
  | r3 (c : ConnId) (k : Bytes) : g.locked c = false → Acts g (.r3 c k) (g.setSession c (some k)) [.r4 c k]
  | r4_nil (c : ConnId) (k : Bytes) (w : String) : g.session c = none → Acts g (.r4 c k) (g.crash w) []
  | r4_max (c : ConnId) (k key : Bytes) (w : String) : g.session c = some key →
      (registryAdd g.maxConns g.registry key c).2 ≠ none → Acts g (.r4 c k) (g.crash w) []
  | r4 (c : ConnId) (k key : Bytes) : g.session c = some key → (registryAdd g.maxConns g.registry key c).2 = none →
      Acts g (.r4 c k)
        ({ g with registry := (registryAdd g.maxConns g.registry key c).1 }.emit (.restoreEnd c k .restored)) []
  | k1_end (c : ConnId) : g.locked c = false → g.session c = none → Acts g (.k1 c) (g.emit (.closureEnd c)) []
  | k1 (c : ConnId) : g.locked c = false → g.session c ≠ none → Acts g (.k1 c) g [.d1 c .closure]
  | k2 (c : ConnId) : g.locked c = false → Acts g (.k2 c) ((g.setSession c none).emit (.closureEnd c)) []
  | d1_end (c : ConnId) (κ : Cont) : g.session c = none → Acts g (.d1 c κ) g [κ.next c]
  | d1 (c : ConnId) (κ : Cont) : g.session c ≠ none → Acts g (.d1 c κ) g [.d2 c κ]
  | d2_nil (c : ConnId) (κ : Cont) (w : String) : g.session c = none → Acts g (.d2 c κ) (g.crash w) []
  | d2_destroy (c : ConnId) (κ : Cont) (key : Bytes) : g.session c = some key →
      (registryRemove g.registry key c).2.2 = true → κ ≠ .unlink →
      Acts g (.d2 c κ) { g with registry := (registryRemove g.registry key c).1 } [.d3 c κ]
  | d2 (c : ConnId) (κ : Cont) (key : Bytes) : g.session c = some key →
      ((registryRemove g.registry key c).2.2 = true → κ = .unlink) →
      Acts g (.d2 c κ) { g with registry := (registryRemove g.registry key c).1 } [κ.next c]
  | d3_nil (c : ConnId) (κ : Cont) (w : String) : g.session c = none → Acts g (.d3 c κ) (g.crash w) []
  | d3 (c : ConnId) (κ : Cont) (key : Bytes) : g.session c = some key →
      Acts g (.d3 c κ) (g.emit (.destroyed key)) [κ.next c]
  | x1_end (c : ConnId) : g.locked c = false → g.session c = none → Acts g (.x1 c []) (g.emit .closeEnd) []
  | x1_next (c c' : ConnId) (rest : List ConnId) : g.locked c = false → g.session c = none →
      Acts g (.x1 c (c' :: rest)) g [.x1 c' rest]
  | x1 (c : ConnId) (rest : List ConnId) : g.locked c = false → g.session c ≠ none →
      Acts g (.x1 c rest) (g.setLock c true) [.d1 c (.close rest)]
  | x2_end (c : ConnId) : Acts g (.x2 c []) (((g.setSession c none).setLock c false).emit .closeEnd) []
  | x2_next (c c' : ConnId) (rest : List ConnId) :
      Acts g (.x2 c (c' :: rest)) ((g.setSession c none).setLock c false) [.x1 c' rest]
  | z1_end (k : Bytes) : Acts g (.z1 k) (g.emit .closeEnd) []
  | z1 (k : Bytes) (c : ConnId) (rest : List ConnId) : Acts g (.z1 k) g [.x1 c rest]
  | n1 (c : ConnId) (k : Bytes) : g.locked c = false → g.session c = none →
      Acts g (.n1 c k) (g.setLock c true) [.n3 c k]
  | n1_other (c : ConnId) (k : Bytes) : g.locked c = false → g.session c ≠ none → Acts g (.n1 c k) g [.n2 c k]
  | n2_nil (c : ConnId) (k : Bytes) (w : String) : g.session c = none → Acts g (.n2 c k) (g.crash w) []
  | n2 (c : ConnId) (k : Bytes) : g.session c ≠ none → Acts g (.n2 c k) (g.emit (.createEnd c k false)) []
  | n3_fail (c : ConnId) (k : Bytes) : Acts g (.n3 c k) ((g.setLock c false).emit (.createEnd c k false)) []
  | n3 (c : ConnId) (k : Bytes) : Acts g (.n3 c k) ((g.setSession c (some k)).emit (.told c k)) [.n4 c k]
  | n4_nil (c : ConnId) (k : Bytes) (w : String) : g.session c = none → Acts g (.n4 c k) (g.crash w) []
  | n4 (c : ConnId) (k key : Bytes) : g.session c = some key →
      Acts g (.n4 c k) (({ g with registry := (registryAdd g.maxConns g.registry key c).1 }.setLock c false).emit
        (.registered c k)) [.n5 c k]
  | n5 (c : ConnId) (k : Bytes) : g.locked c = false →
      Acts g (.n5 c k) (g.emit (.hookSession c k (g.session c))) [.n6 c k]
  | n6_fail (c : ConnId) (k : Bytes) : g.locked c = false → Acts g (.n6 c k) g [.n7 c k]
  | n6 (c : ConnId) (k : Bytes) : g.locked c = false →
      Acts g (.n6 c k) (g.emit (.saved c k ((g.session c).getD []))) [.n7 c k]
  | n7 (c : ConnId) (k : Bytes) : Acts g (.n7 c k) (g.emit (.createEnd c k true)) []
  | u2 (c : ConnId) : g.locked c = false → Acts g (.u2 c) ((g.setSession c none).emit (.unlinkEnd c)) []

theorem acts_of_act {g g' : G} {ch : Choice} {pc : PC} {pcs : List PC} (h : act g ch pc = some (g', pcs)) :
    Acts g pc g' pcs := by
  cases pc <;> simp only [act] at h
  case r1 c k =>
    cases hr : g.registry.get k with
    | none =>
      simp only [hr, Option.some.injEq, Prod.mk.injEq] at h
      obtain ⟨rfl, rfl⟩ := h
      exact .r1 _ _ (fun h => by simp [G.members, hr]; omega)
    | some set =>
      simp only [hr] at h
      split at h <;> simp only [Option.some.injEq, Prod.mk.injEq] at h <;> obtain ⟨rfl, rfl⟩ := h
      · rename_i hm; exact .r1_max _ _ _ hr hm.1 hm.2
      · rename_i hm
        exact .r1 _ _ (fun h => by simp only [G.members, hr, Option.getD_some]; omega)
  case r2 c k =>
    split at h <;> simp only [Option.some.injEq, Prod.mk.injEq] at h <;> obtain ⟨rfl, rfl⟩ := h
    · exact .r2_end _ _ _ (by simp)
    · exact .r2_end _ _ _ (by simp)
    · exact .r2 _ _
  case r3 c k =>
    split at h <;> simp only [Option.some.injEq, Prod.mk.injEq, reduceCtorEq] at h; obtain ⟨rfl, rfl⟩ := h
    exact .r3 _ _ (by simp_all)
  case r4 c k =>
    split at h
    · simp only [Option.some.injEq, Prod.mk.injEq] at h; obtain ⟨rfl, rfl⟩ := h
      exact .r4_nil _ _ _ (by assumption)
    · rename_i key hk
      split at h <;> simp only [Option.some.injEq, Prod.mk.injEq] at h <;> obtain ⟨rfl, rfl⟩ := h
      · rename_i e he; exact .r4_max _ _ _ _ hk (by simp [he])
      · rename_i r he
        have := Acts.r4 (g := g) c k key hk (by simp [he])
        rw [he] at this; exact this
  case k1 c =>
    split at h
    · cases h
    · split at h <;> simp only [Option.some.injEq, Prod.mk.injEq] at h <;> obtain ⟨rfl, rfl⟩ := h
      · exact .k1_end _ (by simp_all) (by assumption)
      · exact .k1 _ (by simp_all) (by assumption)
  case k2 c =>
    split at h <;> simp only [Option.some.injEq, Prod.mk.injEq, reduceCtorEq] at h; obtain ⟨rfl, rfl⟩ := h
    exact .k2 _ (by simp_all)
  case d1 c κ =>
    split at h <;> simp only [Option.some.injEq, Prod.mk.injEq] at h <;> obtain ⟨rfl, rfl⟩ := h
    · exact .d1_end _ _ (by assumption)
    · exact .d1 _ _ (by assumption)
  case d2 c κ =>
    split at h
    · simp only [Option.some.injEq, Prod.mk.injEq] at h; obtain ⟨rfl, rfl⟩ := h
      exact .d2_nil _ _ _ (by assumption)
    · rename_i key hk
      split at h <;> simp only [Option.some.injEq, Prod.mk.injEq] at h <;> obtain ⟨rfl, rfl⟩ := h
      · rename_i hd
        exact .d2_destroy _ _ _ hk hd.1 (by rintro rfl; exact absurd hd.2 (by simp [Cont.destroys]))
      · rename_i hd
        refine .d2 _ _ _ hk fun hr => ?_
        cases κ <;> simp_all [Cont.destroys]
  case d3 c κ =>
    split at h <;> simp only [Option.some.injEq, Prod.mk.injEq] at h <;> obtain ⟨rfl, rfl⟩ := h
    · exact .d3_nil _ _ _ (by assumption)
    · exact .d3 _ _ _ (by assumption)
  case x1 c rest =>
    split at h
    · cases h
    · split at h
      · cases rest <;> simp only [G.closeNext, Option.some.injEq, Prod.mk.injEq] at h <;> obtain ⟨rfl, rfl⟩ := h
        · exact .x1_end _ (by simp_all) (by assumption)
        · exact .x1_next _ _ _ (by simp_all) (by assumption)
      · simp only [Option.some.injEq, Prod.mk.injEq] at h; obtain ⟨rfl, rfl⟩ := h
        exact .x1 _ _ (by simp_all) (by assumption)
  case x2 c rest =>
    cases rest <;> simp only [G.closeNext, Option.some.injEq, Prod.mk.injEq] at h <;> obtain ⟨rfl, rfl⟩ := h
    · exact .x2_end _
    · exact .x2_next _ _ _
  case z1 k =>
    split at h
    · simp only [G.closeNext, Option.some.injEq, Prod.mk.injEq] at h; obtain ⟨rfl, rfl⟩ := h
      exact .z1_end _
    · cases ho : ch.order <;> simp only [ho, G.closeNext, Option.some.injEq, Prod.mk.injEq] at h <;> obtain ⟨rfl, rfl⟩ := h
      · exact .z1_end _
      · exact .z1 _ _ _
  case n1 c k =>
    split at h
    · cases h
    · split at h <;> simp only [Option.some.injEq, Prod.mk.injEq] at h <;> obtain ⟨rfl, rfl⟩ := h
      · exact .n1 _ _ (by simp_all) (by assumption)
      · exact .n1_other _ _ (by simp_all) (by assumption)
  case n2 c k =>
    split at h <;> simp only [Option.some.injEq, Prod.mk.injEq] at h <;> obtain ⟨rfl, rfl⟩ := h
    · exact .n2_nil _ _ _ (by assumption)
    · exact .n2 _ _ (by simp_all)
  case n3 c k =>
    split at h <;> simp only [Option.some.injEq, Prod.mk.injEq] at h <;> obtain ⟨rfl, rfl⟩ := h
    · exact .n3_fail _ _
    · exact .n3 _ _
  case n4 c k =>
    split at h <;> simp only [Option.some.injEq, Prod.mk.injEq] at h <;> obtain ⟨rfl, rfl⟩ := h
    · exact .n4_nil _ _ _ (by assumption)
    · exact .n4 _ _ _ (by assumption)
  case n5 c k =>
    split at h <;> simp only [Option.some.injEq, Prod.mk.injEq, reduceCtorEq] at h; obtain ⟨rfl, rfl⟩ := h
    exact .n5 _ _ (by simp_all)
  case n6 c k =>
    split at h
    · cases h
    · split at h <;> simp only [Option.some.injEq, Prod.mk.injEq] at h <;> obtain ⟨rfl, rfl⟩ := h
      · exact .n6_fail _ _ (by simp_all)
      · exact .n6 _ _ (by simp_all)
  case n7 c k =>
    simp only [Option.some.injEq, Prod.mk.injEq] at h; obtain ⟨rfl, rfl⟩ := h
    exact .n7 _ _
  case u2 c =>
    split at h <;> simp only [Option.some.injEq, Prod.mk.injEq, reduceCtorEq] at h; obtain ⟨rfl, rfl⟩ := h
    exact .u2 _ (by simp_all)

/-- An invariant that does not depend on the order of the goroutines holds after any execution, if the steps and the
calls keep it. -/
theorem From.inv {ok : State → Label → Prop} {I : G → List PC → Prop}
    (hp : ∀ g ts ts', I g ts → ts.Perm ts' → I g ts')
    (ha : ∀ g pc rest ts ch g' pcs, I g (pc :: rest) → ts.Perm (pc :: rest) → g.crashed = none →
      ok ⟨g, ts⟩ (.thread pc ch) → Acts g pc g' pcs → I g' (pcs ++ rest))
    (hc : ∀ g ts pc, I g ts → pc.entry = true → ok ⟨g, ts⟩ (.call pc) → I g (pc :: ts))
    {s s' : State} (h0 : I s.g s.threads) (h : From ok s s') : I s'.g s'.threads := by
  induction h with
  | start => exact h0
  | step s1 l s2 _ hok hst ih =>
    cases hst with
    | thread g g' pre post pcs pc ch hcr hsn hact =>
      have hperm : (pre ++ pc :: post).Perm (pc :: (pre ++ post)) := List.perm_middle
      have h1 := ha g pc (pre ++ post) _ ch g' pcs (hp _ _ _ ih hperm) hperm hcr hok (acts_of_act hact)
      refine hp _ _ _ h1 ?_
      rw [← List.append_assoc, ← List.append_assoc]
      exact List.perm_append_comm.append_right post
    | call g ts pc hcr he _ => exact hc _ _ _ ih he hok

/-- At most one goroutine of that kind. -/
def Excl (P : PC → Bool) (ts : List PC) : Prop := ts.Pairwise fun a b => P a = false ∨ P b = false

theorem Excl.perm {P : PC → Bool} {ts ts' : List PC} (h : Excl P ts) (hp : ts.Perm ts') : Excl P ts' :=
  (hp.pairwise_iff (fun h => h.symm)).mp h

theorem Excl.cons {P : PC → Bool} {a : PC} {ts : List PC} :
    Excl P (a :: ts) ↔ (P a = true → ∀ b ∈ ts, P b = false) ∧ Excl P ts := by
  simp only [Excl, List.pairwise_cons]
  cases P a <;> simp

/-! ## The limit, whatever runs at the same time -/

theorem Acts.regOk {g g' : G} {pc : PC} {pcs : List PC} (h : Acts g pc g' pcs) (hr : RegOk g.maxConns g.registry) :
    RegOk g'.maxConns g'.registry := by
  cases h <;> first | exact hr | exact hr.add _ _ | exact hr.remove _ _

theorem Acts.max {g g' : G} {pc : PC} {pcs : List PC} (h : Acts g pc g' pcs) : g'.maxConns = g.maxConns := by
  cases h <;> rfl

theorem regOk_from {ok : State → Label → Prop} {n : Nat} {s : State} (h : ReachableIf n ok s) :
    s.g.maxConns = n ∧ RegOk n s.g.registry := by
  have := From.inv (I := fun g _ => g.maxConns = n ∧ RegOk g.maxConns g.registry) (fun _ _ _ h _ => h)
    (fun g pc rest ts ch g' pcs h _ _ _ ha => ⟨ha.max.trans h.1, ha.regOk h.2⟩) (fun _ _ _ h _ _ => h)
    (s := init n) ⟨rfl, RegOk.nil _⟩ h
  exact ⟨this.1, this.1 ▸ this.2⟩

end Webwire.Races
