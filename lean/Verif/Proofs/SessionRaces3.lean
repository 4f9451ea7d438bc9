import Verif.Proofs.SessionRaces2

/-!
# Session operations at the same time: they end
-/

set_option autoImplicit false

namespace Webwire.Races

/-- Steps left for closing the sessions of the connections. -/
def Cont.weight : Cont → Nat
  | .close rest => 1 + 7 * rest.length
  | _ => 1

/-- At least the number of steps left. -/
def PC.weight : PC → Nat
  | .r1 .. => 4 | .r2 .. => 3 | .r3 .. => 2 | .r4 .. => 1
  | .k1 _ => 5 | .k2 _ => 1
  | .d1 _ κ => 3 + κ.weight | .d2 _ κ => 2 + κ.weight | .d3 _ κ => 1 + κ.weight
  | .x1 _ rest => 5 + 7 * rest.length | .x2 _ rest => 1 + 7 * rest.length
  | .z1 _ => 0
  | .n1 .. => 6 | .n2 .. => 1 | .n3 .. => 5 | .n4 .. => 4 | .n5 .. => 3 | .n6 .. => 2 | .n7 .. => 1
  | .u2 _ => 1

/-- Snapshots still to be taken. -/
def PC.snaps : PC → Nat
  | .z1 _ => 1
  | _ => 0

theorem Cont.next_weight (c : ConnId) (κ : Cont) : (κ.next c).weight = κ.weight := by cases κ <;> rfl
theorem Cont.next_snaps (c : ConnId) (κ : Cont) : (κ.next c).snaps = 0 := by cases κ <;> rfl

theorem Acts.weight {g g' : G} {pc : PC} {pcs : List PC} (h : Acts g pc g' pcs) :
    (pcs.map PC.snaps).sum < pc.snaps ∨
      (pcs.map PC.snaps).sum = pc.snaps ∧ (pcs.map PC.weight).sum < pc.weight := by
  cases h
  case d1_end | d2 | d3 => 
    right
    simp only [List.map_cons, List.map_nil, List.sum_cons, List.sum_nil, Cont.next_weight, Cont.next_snaps]
    simp [PC.weight, PC.snaps]; try omega
  case z1 | z1_end => left; simp [PC.snaps]
  all_goals (right; simp [PC.weight, PC.snaps, Cont.weight]; try omega)

/-- A step of a goroutine already there. -/
def Goes (s' s : State) : Prop := ∃ pc ch, Step s (.thread pc ch) s'

theorem goes_wf : WellFounded Goes := by
  have hw : WellFounded (Prod.Lex (· < ·) (· < ·) : Nat × Nat → Nat × Nat → Prop) :=
    (Prod.lex Nat.lt_wfRel Nat.lt_wfRel).wf
  refine Subrelation.wf ?_ (InvImage.wf (fun s : State => ((s.threads.map PC.snaps).sum, (s.threads.map PC.weight).sum)) hw)
  rintro s' s ⟨pc, ch, h⟩
  cases h with
  | thread g g' pre post pcs _ _ hc hs ha =>
    simp only [InvImage, Prod.lex_def, List.map_append, List.map_cons, List.sum_append, List.sum_cons]
    rcases (acts_of_act ha).weight with h | h
    · left; omega
    · right; omega

/-- Holders exist in every execution. -/
theorem locks_reachable {ok : State → Label → Prop} {n : Nat} {s : State} (h : ReachableIf n ok s) :
    s.g.crashed = none → ∀ c, s.g.locked c = true → ∃ a ∈ s.threads, a.locks c = true := by
  refine From.inv (I := fun g ts => g.crashed = none → ∀ c, g.locked c = true → ∃ a ∈ ts, a.locks c = true)
    (fun g ts ts' h hp hc c hl => ?_) ?_ ?_ (s := init n) ?_ h
  · obtain ⟨a, h1, h2⟩ := h hc c hl; exact ⟨a, hp.subset h1, h2⟩
  · intro g pc rest ts ch g' pcs hi hp hcr hok ha hcr' c hl
    exact locks_acts (hi hcr) ha hcr' c hl
  · intro g ts pc hi he hok hc c hl
    obtain ⟨a, h1, h2⟩ := hi hc c hl; exact ⟨a, List.mem_cons_of_mem _ h1, h2⟩
  · simp [init]

theorem PC.locks_goes {g : G} {c : ConnId} {a : PC} (h : a.locks c = true) :
    Snapshot g ({} : Choice).order a ∧ act g {} a ≠ none := by
  cases a <;> simp only [PC.locks, reduceCtorEq] at h
  case d1 => simp only [act, Snapshot]; split <;> simp
  case d2 =>
    simp only [act, Snapshot]
    split
    · simp
    · split <;> simp
  case d3 => simp only [act, Snapshot]; split <;> simp
  case x2 => simp [act, Snapshot]
  case n3 => simp [act, Snapshot]
  case n4 => simp only [act, Snapshot]; split <;> simp

theorem PC.goes {g : G} {a : PC} (hw : ∀ k set, g.registry.get k = some set → set.Nodup)
    (h : ∀ ch : Choice, Snapshot g ch.order a → act g ch a = none) : ∃ c, g.locked c = true := by
  cases a
  case z1 k =>
    cases hk : g.registry.get k with
    | none =>
      have := h {} (by intro set hs; rw [hk] at hs; cases hs)
      simp [act, hk] at this
    | some set =>
      have := h { order := set } (by intro set' hs; rw [hk] at hs; cases hs; exact ⟨hw k set hk, fun _ => Iff.rfl⟩)
      simp [act, hk] at this
  all_goals
    have := h {} trivial
    simp only [act] at this
    repeat' split at this
    all_goals first | exact ⟨_, by assumption⟩ | simp at this

/-- As long as there are goroutines one of them can go on. -/
theorem some_goes {ok : State → Label → Prop} {n : Nat} {s : State} (h : ReachableIf n ok s) (hc : s.g.crashed = none)
    (hne : s.threads ≠ []) : ∃ s', Goes s' s := by
  obtain ⟨g, ts⟩ := s
  have hmem : ∀ a ∈ ts, (∃ ch : Choice, Snapshot g ch.order a ∧ act g ch a ≠ none) → ∃ s', Goes s' ⟨g, ts⟩ := by
    rintro a ha ⟨ch, h1, h2⟩
    obtain ⟨⟨g', pcs⟩, h3⟩ := Option.ne_none_iff_exists'.mp h2
    obtain ⟨pre, post, rfl⟩ := List.append_of_mem ha
    exact ⟨_, a, ch, .thread g g' pre post pcs a ch hc h1 h3⟩
  obtain ⟨a, rest, rfl⟩ := List.exists_cons_of_ne_nil hne
  by_cases hg : ∃ ch : Choice, Snapshot g ch.order a ∧ act g ch a ≠ none
  · exact hmem a (by simp) hg
  · obtain ⟨c, hl⟩ := PC.goes (fun k set hk => ((regOk_from h).2.ok k set hk).2.1)
      (fun ch h1 => by by_contra h2; exact hg ⟨ch, h1, h2⟩)
    obtain ⟨b, hb, hbl⟩ := locks_reachable h hc c hl
    exact hmem b hb ⟨{}, PC.locks_goes hbl⟩

end Webwire.Races
