import Verif.Model.SessionSync
import Mathlib.Tactic.ByContra
import Mathlib.Tactic.Tauto

/-!
# Property C95: the client knows its session although operations overlap
-/

set_option autoImplicit false

namespace Webwire.Sync

namespace Spec

/-- The session a client believes to have after a message. -/
def believes (b : Option Bytes) : Note → Option Bytes
  | .created k | .restored k => some k
  | .closed | .closureDone => none

/-- The session a client believes to have. -/
def belief (l : List Note) : Option Bytes := l.foldl believes none

/-- Belongs to an operation that gives the connection a session: restoration, `CreateSession`. -/
def Gives : PC → Prop
  | .r1 _ | .r2 _ | .n1 _ | .n2 _ | .n3 _ => True
  | _ => False

/-- Operations that give the connection a session and operations that take it away do not overlap: none of one kind begins
while one of the other kind is in progress. -/
def Apart (s : State) : Label → Prop
  | .call pc => ∀ a ∈ s.threads, (Gives a ↔ Gives pc)
  | _ => True

/-- Is over: no operation is in progress. -/
def AtRest (s : State) : Prop := s.threads = []

end Spec

open Spec

/-! ## C95 -/

/-- C95, in full: whenever no session operation is in progress on a connection, its client believes to have the session
it has, if it is still connected. -/
def C95_full : Prop :=
  ∀ s, Reachable (fun _ _ => True) s → AtRest s → s.g.connected = true → belief s.g.sent = s.g.session

/-- What a thread tells the client, or does to the connection, when the session is already gone. -/
def PC.announces : PC → Bool
  | .k3 | .x3 | .u2 => true
  | _ => false

/-- Holds the lock, in `CreateSession`. -/
def PC.creating : PC → Bool
  | .n2 _ | .n3 _ => true
  | _ => false

/-- While sessions are given. -/
structure Giving (g : G) (ts : List PC) : Prop where
  gives : ∀ a ∈ ts, Gives a
  count : ts.countP PC.creating = if g.locked then 1 else 0
  loop : ts.countP PC.inLoop ≤ 1
  idle : g.locked = false → (∀ k, .r2 k ∉ ts) → belief g.sent = g.session
  replies : ∀ k, .r2 k ∈ ts → g.session = some k
  notifies : ∀ k, .n2 k ∈ ts → g.session = none ∧ belief g.sent = none
  notified : ∀ k, .n3 k ∈ ts → g.session = none ∧ belief g.sent = some k

/-- While sessions are taken away. -/
structure Taking (g : G) (ts : List PC) : Prop where
  takes : ∀ a ∈ ts, ¬ Gives a
  count : ts.count .x2 = if g.locked then 1 else 0
  loop : ts.countP PC.inLoop ≤ 1
  late : ∀ a ∈ ts, a.announces = true → g.session = none
  has : g.session ≠ none → belief g.sent = g.session
  gone : g.session = none → belief g.sent = none ∨ ∃ a ∈ ts, a.announces = true

/-- The invariant. -/
def Inv (s : State) : Prop := s.g.connected = true → Giving s.g s.threads ∨ Taking s.g s.threads

theorem Giving.perm {g : G} {l l' : List PC} (p : l.Perm l') (h : Giving g l) : Giving g l' :=
  ⟨fun a ha => h.gives a (p.mem_iff.mpr ha), by rw [← p.countP_eq]; exact h.count, by rw [← p.countP_eq]; exact h.loop,
    fun hl hn => h.idle hl (fun k hk => hn k (p.mem_iff.mp hk)), fun k hk => h.replies k (p.mem_iff.mpr hk),
    fun k hk => h.notifies k (p.mem_iff.mpr hk), fun k hk => h.notified k (p.mem_iff.mpr hk)⟩

theorem Taking.perm {g : G} {l l' : List PC} (p : l.Perm l') (h : Taking g l) : Taking g l' :=
  ⟨fun a ha => h.takes a (p.mem_iff.mpr ha), by rw [← p.count_eq]; exact h.count, by rw [← p.countP_eq]; exact h.loop,
    fun a ha => h.late a (p.mem_iff.mpr ha), h.has,
    fun hs => (h.gone hs).imp id (fun ⟨a, ha, hb⟩ => ⟨a, p.mem_iff.mp ha, hb⟩)⟩

theorem belief_send {g : G} {m : Note} (h : g.connected = true) : belief (g.send m).sent = believes (belief g.sent) m := by
  simp [G.send, h, belief]

theorem send_same (g : G) (m : Note) : (g.send m).session = g.session ∧ (g.send m).locked = g.locked ∧
    (g.send m).connected = g.connected := by
  unfold G.send; split_ifs <;> simp

theorem act_connected {g g' : G} {f : Bool} {pc : PC} {pcs : List PC} (h : act g f pc = some (g', pcs))
    (hc : g'.connected = true) : g.connected = true := by
  cases pc <;> simp only [act] at h <;> (try split_ifs at h) <;>
    simp only [Option.some.injEq, Prod.mk.injEq] at h <;> obtain ⟨rfl, _⟩ := h <;>
    first
    | exact hc
    | (rw [(send_same g _).2.2] at hc; exact hc)
    | (simp at hc)

theorem Giving.step {g g' : G} {f : Bool} {pc : PC} {pcs rest : List PC} (hc : g'.connected = true)
    (h : Giving g (pc :: rest)) (ha : act g f pc = some (g', pcs)) : Giving g' (pcs ++ rest) := by
  have hc0 := act_connected ha hc
  have hg := h.gives pc (by simp)
  have free : g.locked = false → ∀ a ∈ pc :: rest, a.creating = false := by
    intro hl a haa
    have := h.count
    rw [hl] at this
    have := List.countP_eq_zero.mp this a haa
    simpa using this
  have alone : pc.inLoop = true → ∀ a ∈ rest, a.inLoop = false := by
    intro hp a haa
    have := h.loop
    rw [List.countP_cons, hp] at this
    simp only [if_true] at this
    have := List.countP_eq_zero.mp (show rest.countP PC.inLoop = 0 by omega) a haa
    simpa using this
  have onlyone : pc.creating = true → g.locked = true ∧ ∀ a ∈ rest, a.creating = false := by
    intro hp
    have := h.count
    rw [List.countP_cons, hp] at this
    simp only [if_true] at this
    split_ifs at this with hl
    · refine ⟨hl, fun a haa => ?_⟩
      have := List.countP_eq_zero.mp (show rest.countP PC.creating = 0 by omega) a haa
      simpa using this
  have cnt : rest.countP PC.creating = (if g.locked then 1 else 0) - (if pc.creating then 1 else 0) := by
    have := h.count
    rw [List.countP_cons] at this
    omega
  have lp : rest.countP PC.inLoop + (if pc.inLoop then 1 else 0) ≤ 1 := by
    have := h.loop
    rwa [List.countP_cons] at this
  have rgives : ∀ a ∈ rest, Gives a := fun a haa => h.gives a (by simp [haa])
  have idle : g.locked = false → (∀ k, .r2 k ∉ pc :: rest) → belief g.sent = g.session := h.idle
  have rr : ∀ k, .r2 k ∈ rest → g.session = some k := fun k hk => h.replies k (by simp [hk])
  have rn2 : ∀ k, .n2 k ∈ rest → g.session = none ∧ belief g.sent = none := fun k hk => h.notifies k (by simp [hk])
  have rn3 : ∀ k, .n3 k ∈ rest → g.session = none ∧ belief g.sent = some k := fun k hk => h.notified k (by simp [hk])
  cases pc with
  | k1 => exact hg.elim
  | k2 => exact hg.elim
  | k3 => exact hg.elim
  | x1 => exact hg.elim
  | x2 => exact hg.elim
  | x3 => exact hg.elim
  | u1 => exact hg.elim
  | u2 => exact hg.elim
  | r1 k =>
    simp only [act] at ha
    split_ifs at ha with hl
    simp only [Option.some.injEq, Prod.mk.injEq] at ha
    obtain ⟨rfl, rfl⟩ := ha
    have hl' : g.locked = false := by simpa using hl
    refine ⟨?_, ?_, ?_, ?_, ?_, ?_, ?_⟩
    · intro a haa
      rcases List.mem_append.mp haa with hm | hm
      · simp only [List.mem_singleton] at hm
        subst hm; trivial
      · exact rgives a hm
    · simpa [PC.creating, hl'] using cnt
    · rw [List.singleton_append, List.countP_cons]; exact lp
    · intro _ hn
      exact absurd (List.mem_append.mpr (.inl (by simp))) (hn k)
    · intro k' hk'
      rcases List.mem_append.mp hk' with hm | hm
      · simp only [List.mem_singleton, PC.r2.injEq] at hm
        subst hm; rfl
      · have := alone rfl _ hm
        simp [PC.inLoop] at this
    · intro k' hk'
      rcases List.mem_append.mp hk' with hm | hm
      · simp at hm
      · have := free hl' _ (List.mem_cons_of_mem _ hm)
        simp [PC.creating] at this
    · intro k' hk'
      rcases List.mem_append.mp hk' with hm | hm
      · simp at hm
      · have := free hl' _ (List.mem_cons_of_mem _ hm)
        simp [PC.creating] at this
  | r2 k =>
    simp only [act, Option.some.injEq, Prod.mk.injEq] at ha
    obtain ⟨rfl, rfl⟩ := ha
    obtain ⟨e1, e2, e3⟩ := send_same g (.restored k)
    have hs := h.replies k (by simp)
    have nocreate : ∀ a ∈ rest, a.creating = false := by
      intro a haa
      cases a <;> first | rfl | skip
      · have := (rn2 _ haa).1
        rw [hs] at this; exact absurd this (by simp)
      · have := (rn3 _ haa).1
        rw [hs] at this; exact absurd this (by simp)
    refine ⟨by simpa using rgives, by simpa [e2, PC.creating] using cnt, Nat.le_trans (Nat.le_add_right _ _) lp, ?_, ?_, ?_, ?_⟩
    · intro _ _
      rw [belief_send hc0, e1, hs]; rfl
    · intro k' hk'
      rw [e1]
      exact rr k' (by simpa using hk')
    · intro k' hk'
      have := nocreate _ (by simpa using hk')
      simp [PC.creating] at this
    · intro k' hk'
      have := nocreate _ (by simpa using hk')
      simp [PC.creating] at this
  | n1 k =>
    simp only [act] at ha
    split_ifs at ha with hl hs
    · simp only [Option.some.injEq, Prod.mk.injEq] at ha
      obtain ⟨rfl, rfl⟩ := ha
      have hl' : g.locked = false := by simpa using hl
      have nor : ∀ k, .r2 k ∉ rest := by
        intro k' hk'
        have := rr k' hk'
        rw [hs] at this; exact absurd this (by simp)
      have hb : belief g.sent = none := by
        rw [idle hl' (by intro k' hk'; simp only [List.mem_cons, reduceCtorEq, false_or] at hk'; exact nor k' hk'), hs]
      refine ⟨?_, ?_, ?_, ?_, ?_, ?_, ?_⟩
      · intro a haa
        rcases List.mem_append.mp haa with hm | hm
        · simp only [List.mem_singleton] at hm
          subst hm; trivial
        · exact rgives a hm
      · have : rest.countP PC.creating = 0 := by simpa [PC.creating, hl'] using cnt
        rw [List.singleton_append, List.countP_cons, this]; rfl
      · simpa [PC.inLoop] using lp
      · intro hl2; exact absurd hl2 (by simp)
      · intro k' hk'
        rcases List.mem_append.mp hk' with hm | hm
        · simp at hm
        · exact absurd hm (nor k')
      · intro k' _
        exact ⟨hs, hb⟩
      · intro k' hk'
        rcases List.mem_append.mp hk' with hm | hm
        · simp at hm
        · have := free hl' _ (List.mem_cons_of_mem _ hm)
          simp [PC.creating] at this
    · simp only [Option.some.injEq, Prod.mk.injEq] at ha
      obtain ⟨rfl, rfl⟩ := ha
      refine ⟨by simpa using rgives, by simpa [PC.creating] using cnt, by simpa [PC.inLoop] using lp, ?_, by simpa using rr,
        by simpa using rn2, by simpa using rn3⟩
      intro hl2 hn
      exact idle hl2 (by intro k' hk'; simp only [List.mem_cons, reduceCtorEq, false_or] at hk'; exact hn k' (by simpa using hk'))
  | n2 k =>
    obtain ⟨hl, hno⟩ := onlyone rfl
    obtain ⟨hs, hb⟩ := h.notifies k (by simp)
    have nor : ∀ k, .r2 k ∉ rest := by
      intro k' hk'
      have := rr k' hk'
      rw [hs] at this; exact absurd this (by simp)
    have c0 : rest.countP PC.creating = 0 := by simpa [PC.creating, hl] using cnt
    simp only [act] at ha
    split_ifs at ha with hf
    · simp only [Option.some.injEq, Prod.mk.injEq] at ha
      obtain ⟨rfl, rfl⟩ := ha
      refine ⟨by simpa using rgives, by simpa using c0, by simpa [PC.inLoop] using lp, fun _ _ => by rw [hs, hb],
        by simpa using rr, by simpa using rn2, by simpa using rn3⟩
    · simp only [Option.some.injEq, Prod.mk.injEq] at ha
      obtain ⟨rfl, rfl⟩ := ha
      obtain ⟨e1, e2, e3⟩ := send_same g (.created k)
      refine ⟨?_, ?_, by simpa [PC.inLoop] using lp, ?_, ?_, ?_, ?_⟩
      · intro a haa
        rcases List.mem_append.mp haa with hm | hm
        · simp only [List.mem_singleton] at hm
          subst hm; trivial
        · exact rgives a hm
      · rw [e2, hl]
        rw [List.singleton_append, List.countP_cons, c0]; rfl
      · intro hl2
        rw [e2, hl] at hl2
        exact absurd hl2 (by simp)
      · intro k' hk'
        rcases List.mem_append.mp hk' with hm | hm
        · simp at hm
        · exact absurd hm (nor k')
      · intro k' hk'
        rcases List.mem_append.mp hk' with hm | hm
        · simp at hm
        · have := hno _ hm
          simp [PC.creating] at this
      · intro k' hk'
        rcases List.mem_append.mp hk' with hm | hm
        · simp only [List.mem_singleton, PC.n3.injEq] at hm
          subst hm
          rw [e1, belief_send hc0]
          exact ⟨hs, rfl⟩
        · have := hno _ hm
          simp [PC.creating] at this
  | n3 k =>
    obtain ⟨hl, hno⟩ := onlyone rfl
    obtain ⟨hs, hb⟩ := h.notified k (by simp)
    have nor : ∀ k, .r2 k ∉ rest := by
      intro k' hk'
      have := rr k' hk'
      rw [hs] at this; exact absurd this (by simp)
    have c0 : rest.countP PC.creating = 0 := by simpa [PC.creating, hl] using cnt
    simp only [act, Option.some.injEq, Prod.mk.injEq] at ha
    obtain ⟨rfl, rfl⟩ := ha
    refine ⟨by simpa using rgives, by simpa using c0, by simpa [PC.inLoop] using lp, fun _ _ => hb, ?_, ?_, ?_⟩
    · intro k' hk'
      exact absurd (by simpa using hk') (nor k')
    · intro k' hk'
      have := hno _ (show _ ∈ rest by simpa using hk')
      simp [PC.creating] at this
    · intro k' hk'
      have := hno _ (show _ ∈ rest by simpa using hk')
      simp [PC.creating] at this

theorem Taking.step {g g' : G} {f : Bool} {pc : PC} {pcs rest : List PC} (hc : g'.connected = true)
    (h : Taking g (pc :: rest)) (ha : act g f pc = some (g', pcs)) : Taking g' (pcs ++ rest) := by
  have hc0 := act_connected ha hc
  have hg := h.takes pc (by simp)
  have rtakes : ∀ a ∈ rest, ¬ Gives a := fun a haa => h.takes a (by simp [haa])
  have cnt : rest.count .x2 = (if g.locked then 1 else 0) - (if pc = .x2 then 1 else 0) := by
    have := h.count
    rw [List.count_cons] at this
    simp only [beq_iff_eq] at this
    omega
  have lp : rest.countP PC.inLoop + (if pc.inLoop then 1 else 0) ≤ 1 := by
    have := h.loop
    rwa [List.countP_cons] at this
  have rlate : ∀ a ∈ rest, a.announces = true → g.session = none := fun a haa => h.late a (by simp [haa])
  have gone : g.session = none → pc.announces = false → belief g.sent = none ∨ ∃ a ∈ rest, a.announces = true := by
    intro hs hp
    rcases h.gone hs with hb | ⟨a, ha1, ha2⟩
    · exact .inl hb
    · rcases List.mem_cons.mp ha1 with rfl | hm
      · rw [hp] at ha2; exact absurd ha2 (by simp)
      · exact .inr ⟨a, hm, ha2⟩
  -- a step that resets the session
  have reset : ∀ (lk : Bool) (n : PC), ¬ Gives n → n ≠ .x2 → n.announces = true →
      (rest.count .x2 = if lk then 1 else 0) → (n.inLoop = true → pc.inLoop = true) →
      Taking { g with session := none, locked := lk } ([n] ++ rest) := by
    intro lk n h1 h2 h3 h4 h5
    refine ⟨?_, ?_, ?_, fun _ _ _ => rfl, fun hn => absurd rfl hn, fun _ => .inr ⟨n, by simp, h3⟩⟩
    · intro a haa
      rcases List.mem_append.mp haa with hm | hm
      · simp only [List.mem_singleton] at hm
        subst hm; exact h1
      · exact rtakes a hm
    · rw [List.singleton_append, List.count_cons]
      simp [h2, h4]
    · rw [List.singleton_append, List.countP_cons]
      by_cases hn : n.inLoop = true
      · simp only [h5 hn, hn, if_true] at lp ⊢
        omega
      · simp only [hn] at lp ⊢
        have : rest.countP PC.inLoop ≤ 1 := by omega
        simpa using this
  -- a step that tells the client
  have tell : ∀ m, believes (belief g.sent) m = none → pc ≠ .x2 → pc.announces = true → Taking (g.send m) ([] ++ rest) := by
    intro m hm hp hn
    obtain ⟨e1, e2, e3⟩ := send_same g m
    have hs := h.late pc (by simp) hn
    refine ⟨by simpa using rtakes, by rw [e2]; simpa [hp] using cnt, Nat.le_trans (Nat.le_add_right _ _) lp, ?_, ?_, ?_⟩
    · intro a haa hb
      rw [e1]; exact hs
    · intro hne
      rw [e1, hs] at hne
      exact absurd rfl hne
    · intro _
      left
      rw [belief_send hc0, hm]
  cases pc with
  | r1 k => exact absurd trivial hg
  | r2 k => exact absurd trivial hg
  | n1 k => exact absurd trivial hg
  | n2 k => exact absurd trivial hg
  | n3 k => exact absurd trivial hg
  | k1 =>
    simp only [act] at ha
    split_ifs at ha with hl hs <;> simp only [Option.some.injEq, Prod.mk.injEq] at ha <;> obtain ⟨rfl, rfl⟩ := ha
    · have := reset g.locked .k3 id (by simp) rfl (by simpa using cnt) (by simp [PC.inLoop])
      rwa [show ({ g with session := none, locked := g.locked } : G) = g by cases g; simp_all] at this
    · refine ⟨?_, ?_, ?_, ?_, h.has, fun hn => absurd hn hs⟩
      · intro a haa
        rcases List.mem_append.mp haa with hm | hm
        · simp only [List.mem_singleton] at hm
          subst hm; exact id
        · exact rtakes a hm
      · simpa using cnt
      · rw [List.singleton_append, List.countP_cons]; exact lp
      · intro a haa hb
        rcases List.mem_append.mp haa with hm | hm
        · simp only [List.mem_singleton] at hm
          subst hm; simp [PC.announces] at hb
        · exact rlate a hm hb
  | k2 =>
    simp only [act] at ha
    split_ifs at ha with hl
    simp only [Option.some.injEq, Prod.mk.injEq] at ha
    obtain ⟨rfl, rfl⟩ := ha
    exact reset g.locked .k3 id (by simp) rfl (by simpa using cnt) (by simp [PC.inLoop])
  | k3 =>
    simp only [act, Option.some.injEq, Prod.mk.injEq] at ha
    obtain ⟨rfl, rfl⟩ := ha
    exact tell _ rfl (by simp) rfl
  | x1 =>
    simp only [act] at ha
    split_ifs at ha with hl hs <;> simp only [Option.some.injEq, Prod.mk.injEq] at ha <;> obtain ⟨rfl, rfl⟩ := ha
    · exact ⟨by simpa using rtakes, by simpa using cnt, Nat.le_trans (Nat.le_add_right _ _) lp, by simpa using rlate, h.has,
        fun hn => by simpa using gone hn rfl⟩
    · have hl' : g.locked = false := by simpa using hl
      refine ⟨?_, ?_, ?_, ?_, h.has, fun hn => absurd hn hs⟩
      · intro a haa
        rcases List.mem_append.mp haa with hm | hm
        · simp only [List.mem_singleton] at hm
          subst hm; exact id
        · exact rtakes a hm
      · have : rest.count .x2 = 0 := by simpa [hl'] using cnt
        simp [this]
      · rw [List.singleton_append, List.countP_cons]; exact lp
      · intro a haa hb
        rcases List.mem_append.mp haa with hm | hm
        · simp only [List.mem_singleton] at hm
          subst hm; simp [PC.announces] at hb
        · exact rlate a hm hb
  | x2 =>
    simp only [act, Option.some.injEq, Prod.mk.injEq] at ha
    obtain ⟨rfl, rfl⟩ := ha
    refine reset false .x3 id (by simp) rfl ?_ (by simp [PC.inLoop])
    rw [cnt]
    cases g.locked <;> simp
  | x3 =>
    simp only [act, Option.some.injEq, Prod.mk.injEq] at ha
    obtain ⟨rfl, rfl⟩ := ha
    exact tell _ rfl (by simp) rfl
  | u1 =>
    simp only [act] at ha
    split_ifs at ha with hl
    simp only [Option.some.injEq, Prod.mk.injEq] at ha
    obtain ⟨rfl, rfl⟩ := ha
    exact reset g.locked .u2 id (by simp) rfl (by simpa using cnt) (by simp [PC.inLoop])
  | u2 =>
    simp only [act, Option.some.injEq, Prod.mk.injEq] at ha
    obtain ⟨rfl, rfl⟩ := ha
    exact absurd hc (by simp)

/-- Without operations in progress both modes are the same. -/
theorem rest_iff {g : G} : Giving g [] ↔ g.locked = false ∧ belief g.sent = g.session := by
  constructor
  · intro h
    have hl : g.locked = false := by
      have := h.count
      cases hlk : g.locked <;> simp [hlk] at this ⊢
    exact ⟨hl, h.idle hl (by simp)⟩
  · rintro ⟨hl, hb⟩
    exact ⟨by simp, by simp [hl], by simp, fun _ _ => hb, by simp, by simp, by simp⟩

theorem taking_rest_iff {g : G} : Taking g [] ↔ g.locked = false ∧ belief g.sent = g.session := by
  constructor
  · intro h
    refine ⟨?_, ?_⟩
    · have := h.count
      cases hlk : g.locked <;> simp [hlk] at this ⊢
    · by_cases hs : g.session = none
      · rcases h.gone hs with hb | ⟨a, ha, _⟩
        · rw [hb, hs]
        · simp at ha
      · exact h.has hs
  · rintro ⟨hl, hb⟩
    exact ⟨by simp, by simp [hl], by simp, by simp, fun _ => hb, fun hs => .inl (by rw [hb, hs])⟩

theorem Giving.call {g : G} {ts : List PC} {pc : PC} (h : Giving g ts) (he : pc.entry = true) (hg : Gives pc)
    (hl : pc.inLoop = true ∨ pc = .u1 → ∀ a ∈ ts, a.inLoop = false) : Giving g (pc :: ts) := by
  have hcr : pc.creating = false := by cases pc <;> simp [PC.entry] at he <;> rfl
  have hr : ∀ k, pc ≠ .r2 k := by rintro k rfl; simp [PC.entry] at he
  have hn2 : ∀ k, pc ≠ .n2 k := by rintro k rfl; simp [PC.entry] at he
  have hn3 : ∀ k, pc ≠ .n3 k := by rintro k rfl; simp [PC.entry] at he
  refine ⟨?_, ?_, ?_, ?_, ?_, ?_, ?_⟩
  · intro a ha
    rcases List.mem_cons.mp ha with rfl | hm
    · exact hg
    · exact h.gives a hm
  · rw [List.countP_cons, hcr]; simpa using h.count
  · rw [List.countP_cons]
    by_cases hp : pc.inLoop = true
    · have := List.countP_eq_zero.mpr (fun a ha => by simpa using hl (.inl hp) a ha : ∀ a ∈ ts, ¬ a.inLoop = true)
      simp [this, hp]
    · simpa [hp] using h.loop
  · intro hlk hn
    exact h.idle hlk (fun k hk => hn k (List.mem_cons_of_mem _ hk))
  · intro k hk
    rcases List.mem_cons.mp hk with he | hm
    · exact absurd he.symm (hr k)
    · exact h.replies k hm
  · intro k hk
    rcases List.mem_cons.mp hk with he | hm
    · exact absurd he.symm (hn2 k)
    · exact h.notifies k hm
  · intro k hk
    rcases List.mem_cons.mp hk with he | hm
    · exact absurd he.symm (hn3 k)
    · exact h.notified k hm

theorem Taking.call {g : G} {ts : List PC} {pc : PC} (h : Taking g ts) (he : pc.entry = true) (hg : ¬ Gives pc)
    (hl : pc.inLoop = true ∨ pc = .u1 → ∀ a ∈ ts, a.inLoop = false) : Taking g (pc :: ts) := by
  have hx : pc ≠ .x2 := by rintro rfl; simp [PC.entry] at he
  have hn : pc.announces = false := by cases pc <;> simp [PC.entry] at he <;> rfl
  refine ⟨?_, ?_, ?_, ?_, h.has, ?_⟩
  · intro a ha
    rcases List.mem_cons.mp ha with rfl | hm
    · exact hg
    · exact h.takes a hm
  · rw [List.count_cons]; simpa [hx] using h.count
  · rw [List.countP_cons]
    by_cases hp : pc.inLoop = true
    · have := List.countP_eq_zero.mpr (fun a ha => by simpa using hl (.inl hp) a ha : ∀ a ∈ ts, ¬ a.inLoop = true)
      simp [this, hp]
    · simpa [hp] using h.loop
  · intro a ha hb
    rcases List.mem_cons.mp ha with rfl | hm
    · rw [hn] at hb; exact absurd hb (by simp)
    · exact h.late a hm hb
  · intro hs
    exact (h.gone hs).imp id (fun ⟨a, h1, h2⟩ => ⟨a, List.mem_cons_of_mem _ h1, h2⟩)

theorem Reachable.inv {s : State} (h : Reachable Apart s) : Inv s := by
  induction h with
  | start => intro _; exact .inl (rest_iff.mpr ⟨rfl, rfl⟩)
  | step s l s' _ hok hst ih =>
    intro hc
    cases hst with
    | thread g g' pre post pcs pc fails ha =>
      have h1 : (pre ++ pc :: post).Perm (pc :: (pre ++ post)) := List.perm_middle
      have h2 : (pcs ++ (pre ++ post)).Perm (pre ++ (pcs ++ post)) := by
        rw [← List.append_assoc, ← List.append_assoc]
        exact List.perm_append_comm.append_right post
      rcases ih (act_connected ha hc) with hi | hi
      · exact .inl (((hi.perm h1).step hc ha).perm h2)
      · exact .inr (((hi.perm h1).step hc ha).perm h2)
    | call g ts pc he hl =>
      by_cases hg : Gives pc
      · left
        refine Giving.call ?_ he hg hl
        rcases ih hc with hi | hi
        · exact hi
        · have : ts = [] := by
            cases ts with
            | nil => rfl
            | cons a t => exact absurd ((hok a (by simp)).mpr hg) (hi.takes a (by simp))
          subst this
          exact rest_iff.mpr (taking_rest_iff.mp hi)
      · right
        refine Taking.call ?_ he hg hl
        rcases ih hc with hi | hi
        · have : ts = [] := by
            cases ts with
            | nil => rfl
            | cons a t => exact absurd ((hok a (by simp)).mp (hi.gives a (by simp))) hg
          subst this
          exact taking_rest_iff.mpr (rest_iff.mp hi)
        · exact hi
    | hangup g ts => exact absurd hc (by simp)

/-- C95, as far as it holds: if no operation that gives a session begins while one that takes it away is in progress or the
other way round, then whenever no session operation is in progress on a connection, its client believes to have the session
it has, if it is still connected. (`C95_full` is wrong: `C95_violated` and the theorems after it show that every such pair
of operations that can overlap may go wrong.) -/
theorem C95_partial (s : State) (h : Reachable Apart s) (hr : AtRest s) (hc : s.g.connected = true) :
    belief s.g.sent = s.g.session := by
  have hi := h.inv hc
  rw [show s.threads = [] from hr] at hi
  rcases hi with hi | hi
  · exact (rest_iff.mp hi).2
  · exact (taking_rest_iff.mp hi).2

/-! ## Executions -/

/-- A step of an execution written down: of the `i`th goroutine, or a call. -/
inductive Cmd
  | go (i : Nat)
  | call (pc : PC)

/-- Execute one step; calls have to satisfy `check`. -/
def playOne (check : State → PC → Bool) (s : State) : Cmd → Option State
  | .go i =>
    match s.threads[i]? with
    | none => none
    | some pc =>
      match act s.g false pc with
      | none => none
      | some (g', pcs) => some ⟨g', s.threads.take i ++ (pcs ++ s.threads.drop (i + 1))⟩
  | .call pc =>
    if pc.entry && ((!pc.inLoop && pc != .u1) || s.threads.all (fun a => !a.inLoop)) && check s pc
    then some ⟨s.g, pc :: s.threads⟩ else none

/-- Execute steps. -/
def play (check : State → PC → Bool) : List Cmd → State → Option State
  | [], s => some s
  | c :: cs, s => (playOne check s c).bind (play check cs)

theorem playOne_reachable {ok : State → Label → Prop} {check : State → PC → Bool}
    (ht : ∀ s pc f, ok s (.thread pc f)) (hk : ∀ s pc, check s pc = true → ok s (.call pc)) {s s' : State} {c : Cmd}
    (h : Reachable ok s) (hp : playOne check s c = some s') : Reachable ok s' := by
  obtain ⟨g, ts⟩ := s
  cases c with
  | go i =>
    simp only [playOne] at hp
    split at hp
    · exact absurd hp (by simp)
    · rename_i pc hi
      split at hp
      · exact absurd hp (by simp)
      · rename_i g' pcs ha
        simp only [Option.some.injEq] at hp
        subst hp
        obtain ⟨hlt, rfl⟩ := List.getElem?_eq_some_iff.mp hi
        have e : ts = ts.take i ++ ts[i] :: ts.drop (i + 1) := by
          rw [List.getElem_cons_drop, List.take_append_drop]
        refine .step _ (.thread ts[i] false) _ h (ht _ _ _) ?_
        have := Step.thread g g' (ts.take i) (ts.drop (i + 1)) pcs ts[i] false ha
        rwa [← e] at this
  | call pc =>
    simp only [playOne] at hp
    split_ifs at hp with hc
    simp only [Option.some.injEq] at hp
    subst hp
    simp only [Bool.and_eq_true, Bool.or_eq_true, Bool.not_eq_true', bne_iff_ne, ne_eq, List.all_eq_true] at hc
    refine .step _ (.call pc) _ h (hk _ _ hc.2) (.call g ts pc hc.1.1 ?_)
    intro hl
    rcases hc.1.2 with ⟨h1, h2⟩ | h1
    · rcases hl with hl | hl
      · rw [h1] at hl; exact absurd hl (by simp)
      · exact absurd hl h2
    · exact h1

theorem play_reachable {ok : State → Label → Prop} {check : State → PC → Bool}
    (ht : ∀ s pc f, ok s (.thread pc f)) (hk : ∀ s pc, check s pc = true → ok s (.call pc)) (cs : List Cmd) :
    ∀ {s s' : State}, Reachable ok s → play check cs s = some s' → Reachable ok s' := by
  induction cs with
  | nil => intro s s' h hp; simp only [play, Option.some.injEq] at hp; subst hp; exact h
  | cons c cs ih =>
    intro s s' h hp
    simp only [play, Option.bind_eq_some_iff] at hp
    obtain ⟨s1, h1, h2⟩ := hp
    exact ih (playOne_reachable ht hk h h1) h2

/-- `CreateSession`, alone. -/
def creates (k : Bytes) : List Cmd := [.call (.n1 k), .go 0, .go 0, .go 0]

theorem play_any {cs : List Cmd} {s : State} (h : play (fun _ _ => true) cs {} = some s) :
    Reachable (fun _ _ => True) s :=
  play_reachable (fun _ _ _ => trivial) (fun _ _ _ => trivial) cs .start h

/-- `CloseSession` takes the session `[1]` away; before it notifies the client, `CreateSession` gives it the session `[2]` and
notifies the client; at the end the client believes to have no session. -/
theorem C95_violated : ¬ C95_full := by
  intro h
  have := h ⟨{ session := some [2], sent := [.created [1], .created [2], .closed] }, []⟩
    (play_any (cs := creates [1] ++ [.call .x1, .go 0, .go 0] ++ creates [2] ++ [.go 0]) rfl) rfl rfl
  exact absurd this (by decide)

/-- The same with a closure request of the client in place of `CloseSession`. -/
theorem C95_closure_violated : ∃ s, Reachable (fun _ l => l ≠ .call .x1) s ∧ AtRest s ∧ s.g.connected = true ∧
    belief s.g.sent = none ∧ s.g.session = some [2] := by
  refine ⟨⟨{ session := some [2], sent := [.created [1], .created [2], .closureDone] }, []⟩,
    play_reachable (check := fun _ pc => pc != .x1) (fun _ _ _ => by simp) (fun _ pc hp => by simpa using hp)
    (creates [1] ++ [.call .k1, .go 0, .go 0] ++ creates [2] ++ [.go 0]) .start rfl, rfl, rfl, rfl, rfl⟩

/-- A restoration gives the connection the session `[1]`; before it answers, `CloseSession` takes the session away and
notifies the client; at the end the client believes to have the session. No session is created. -/
theorem C95_restore_violated : ∃ s, Reachable (fun _ l => ∀ k, l ≠ .call (.n1 k)) s ∧ AtRest s ∧ s.g.connected = true ∧
    belief s.g.sent = some [1] ∧ s.g.session = none := by
  refine ⟨⟨{ sent := [.closed, .restored [1]] }, []⟩, play_reachable (check := fun _ pc => match pc with | .n1 _ => false | _ => true) (fun _ _ _ k => by simp)
    (fun _ pc hp k he => by simp only [Label.call.injEq] at he; subst he; simp at hp)
    ([.call (.r1 [1]), .go 0] ++ [.call .x1, .go 0, .go 0, .go 0] ++ [.go 0]) .start rfl, rfl, rfl, rfl, rfl⟩

/-- `Apart`, computed. -/
def apart (s : State) (pc : PC) : Bool :=
  s.threads.all fun a =>
    match a, pc with
    | .r1 _, .r1 _ | .r1 _, .n1 _ | .r2 _, .r1 _ | .r2 _, .n1 _ | .n1 _, .r1 _ | .n1 _, .n1 _ | .n2 _, .r1 _ | .n2 _, .n1 _
    | .n3 _, .r1 _ | .n3 _, .n1 _ => true
    | .k1, .x1 | .k2, .x1 | .k3, .x1 | .x1, .k1 | .x1, .x1 | .x2, .k1 | .x2, .x1 | .x3, .k1 | .x3, .x1 => true
    | _, _ => false

theorem apart_ok (s : State) (pc : PC) (h : apart s pc = true) : Apart s (.call pc) := by
  intro a ha
  have := List.all_eq_true.mp h a ha
  cases a <;> cases pc <;> first | exact Iff.rfl | (simp at this)

/-- The hypotheses of `C95_partial` are met by executions with overlapping operations: two calls of `CreateSession` and a
restoration (which waits for the first and replaces its session), then a closure request and two calls of `CloseSession`,
then another `CreateSession`. -/
example : ∃ s, Reachable Apart s ∧ AtRest s ∧ s.g.connected = true ∧ s.g.session = some [4] ∧
    s.g.sent = [.created [1], .restored [3], .closureDone, .closed, .created [4]] :=
  ⟨⟨{ session := some [4], sent := [.created [1], .restored [3], .closureDone, .closed, .created [4]] }, []⟩,
    play_reachable (check := apart) (fun _ _ _ => trivial) apart_ok
    ([.call (.n1 [1]), .call (.n1 [2]), .call (.r1 [3]), .go 2, .go 2, .go 2, .go 1, .go 0, .go 0] ++
     [.call .k1, .go 0, .call .x1, .go 0, .call .x1, .go 1, .go 0, .go 1, .go 1, .go 0] ++ creates [4]) .start rfl,
    rfl, rfl, rfl, rfl⟩

end Webwire.Sync
