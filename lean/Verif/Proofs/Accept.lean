import Verif.Model.Accept
import Verif.Proofs.Lifecycle3
import Mathlib.Tactic.Common

/-!
# Invariants of accepting connections
-/

set_option autoImplicit false

namespace Webwire.Accept

open Life (LEv PC G Acts)

/-- The connection the event is about, if any. -/
def connOf : LEv → Option ConnId
  | .arrived c _ | .dropped c _ | .refused c _ | .start c _ | .finish c _ | .disconnected c => some c
  | .stop | .transportDown => none

/-- The event is about the connection's coming about. -/
def AEv.of (c : ConnId) : AEv → Bool
  | .asked c' | .refused c' | .configured c' | .unconfigured c' | .hello c' | .ready c' => decide (c' = c)
  | .life _ => false

/-- The goroutine is the connection's. -/
def APC.of (c : ConnId) : APC → Bool
  | .asking c' _ | .accepted c' _ | .registering c' _ | .greeting c' | .greeted c' => decide (c' = c)

/-- How far a connection is: whether it was dialed, the events so far, its goroutine, and whether the server has it. -/
inductive Stage (c : ConnId) : Bool → List AEv → List APC → Bool → Prop
  | new : Stage c false [] [] false
  | asking (l : Int) : Stage c true [] [.asking c l] false
  | refused : Stage c true [.refused c] [] false
  | accepted (l : Int) : Stage c true [.asked c] [.accepted c l] false
  | unconfigured : Stage c true [.asked c, .unconfigured c] [] false
  | registering (l : Int) : Stage c true [.asked c, .configured c] [.registering c l] false
  | greeting : Stage c true [.asked c, .configured c] [.greeting c] true
  | greeted : Stage c true [.asked c, .configured c, .hello c] [.greeted c] true
  | ready : Stage c true [.asked c, .configured c, .hello c, .ready c] [] true

/-- The stage of a connection in a state. -/
def State.stage (s : State) (c : ConnId) : Prop :=
  Stage c (decide (c ∈ s.dialed)) (s.log.filter (AEv.of c)) (s.accepting.filter (APC.of c)) (s.life.g.conns c).used

/-- A goroutine that has something to do with the connection and is neither its reader, waiting for a message, nor a call of
`Close` by user code. -/
def busy (c : ConnId) : PC → Bool
  | .reading _ | .closing _ false | .closeUnlinking _ false => false
  | pc => pc.isOn c

theorem acts_quiet {g g' : G} {ch : Life.Choice} {pc : PC} {pcs : List PC} (h : Acts g ch pc g' pcs) (c : ConnId)
    (hb : busy c pc = false) (hr : pc ≠ .reading c) : ∀ q ∈ pcs, busy c q = false := by
  cases h <;> simp_all [busy, PC.isOn, Life.resume, Life.closed]
  all_goals first
    | (rename_i rd _ _; cases rd <;> simp_all [busy, PC.isOn, Life.resume, Life.closed]; done)
    | (rename_i rd _; cases rd <;> simp_all [busy, PC.isOn, Life.resume, Life.closed]; done)
    | (rename_i rd; cases rd <;> simp_all [busy, PC.isOn, Life.resume, Life.closed]; done)
    | skip

theorem acts_event {g g' : G} {ch : Life.Choice} {pc : PC} {pcs : List PC} (h : Acts g ch pc g' pcs) :
    g'.log = g.log ∨ ∃ e, g'.log = g.log ++ [e] ∧ ∀ c, connOf e = some c → busy c pc = true ∨ pc = .reading c := by
  cases h <;> simp [G.ev, G.upd, G.crash, Life.unlinked, connOf, busy, PC.isOn]

theorem life_step {u v : Life.State} {l : Life.Label} (h : Life.Step u l v) (hl : ∀ c limit, l ≠ .connect c limit) :
    (∀ c, (v.g.conns c).used = (u.g.conns c).used) ∧
    (v.g.log = u.g.log ∨ ∃ e pc ch, l = .thread pc ch ∧ pc ∈ u.threads ∧ v.g.log = u.g.log ++ [e] ∧
      ∀ c, connOf e = some c → busy c pc = true ∨ pc = .reading c) ∧
    (∀ c, (∀ pc ∈ u.threads, busy c pc = false) → (∀ ch, l ≠ .thread (.reading c) ch) →
      ∀ pc ∈ v.threads, busy c pc = false) := by
  cases h with
  | thread g g' pre post pcs pc ch _ ha =>
    have ha := Life.acts_of_act ha
    refine ⟨fun c => (ha.static c).1, ?_, ?_⟩
    · rcases acts_event ha with h | ⟨e, h, h'⟩
      · exact .inl h
      · exact .inr ⟨e, pc, ch, rfl, by simp, h, h'⟩
    · intro c hq hr q hq'
      simp only [List.mem_append] at hq'
      have hpc : busy c pc = false := hq pc (by simp)
      rcases hq' with h | h | h
      · exact hq q (by simp [h])
      · exact acts_quiet ha c hpc (fun e => hr ch (by rw [e])) q h
      · exact hq q (by simp [h])
  | connect g ts c limit => exact absurd rfl (hl c limit)
  | close g ts c =>
    refine ⟨fun _ => rfl, .inl rfl, fun c' hq _ q h => ?_⟩
    simp only [List.mem_cons] at h
    rcases h with rfl | h
    · rfl
    · exact hq q h
  | shutdown g ts =>
    refine ⟨fun _ => rfl, .inl rfl, fun c' hq _ q h => ?_⟩
    simp only [List.mem_cons] at h
    rcases h with rfl | h
    · rfl
    · exact hq q h

theorem step_thread {u v : Life.State} {l : Life.Label} (h : Life.Step u l v) {pc : PC} {ch : Life.Choice}
    (hl : l = .thread pc ch) : pc ∈ u.threads := by
  cases h with
  | thread g g' pre post pcs pc' ch' _ _ =>
    simp only [Life.Label.thread.injEq] at hl
    simp [hl.1]
  | connect => cases hl
  | close => cases hl
  | shutdown => cases hl

/-- The event of `Model/Lifecycle`. -/
def AEv.lifeOf : AEv → Option LEv
  | .life e => some e
  | _ => none

/-- What always holds. -/
structure Inv (s : State) : Prop where
  reach : Life.Reachable s.life
  logs : s.log.filterMap AEv.lifeOf = s.life.g.log
  stage : ∀ c, s.stage c
  quiet : ∀ c, AEv.ready c ∉ s.log → ∀ pc ∈ s.life.threads, busy c pc = false
  after : ∀ l1 e l2 c, s.log = l1 ++ .life e :: l2 → connOf e = some c → AEv.ready c ∈ l1
  late : ∀ l1 l2 c, s.log = l1 ++ .life .stop :: l2 → AEv.asked c ∉ l2

theorem Inv.initial : Inv {} := by
  refine ⟨.start, rfl, fun c => ?_, by simp, by simp, by simp⟩
  exact .new

theorem stage_ready {s : State} {c : ConnId} (h : s.stage c) (hu : (s.life.g.conns c).used = true) (hh : ¬ s.held c) :
    AEv.ready c ∈ s.log := by
  unfold State.stage at h
  rw [hu] at h
  generalize hl : s.log.filter (AEv.of c) = l at h
  generalize ha : s.accepting.filter (APC.of c) = a at h
  generalize decide (c ∈ s.dialed) = d at h
  cases h with
  | greeting =>
    have : APC.greeting c ∈ s.accepting.filter (APC.of c) := by rw [ha]; simp
    exact absurd (.inl (List.mem_filter.mp this).1) hh
  | greeted =>
    have : APC.greeted c ∈ s.accepting.filter (APC.of c) := by rw [ha]; simp
    exact absurd (.inr (List.mem_filter.mp this).1) hh
  | ready =>
    have : AEv.ready c ∈ s.log.filter (AEv.of c) := by rw [hl]; simp
    exact (List.mem_filter.mp this).1

/-- Appending events that are not about messages keeps the order of events. -/
theorem after_append {l es : List AEv} (h : ∀ l1 e l2 c, l = l1 ++ .life e :: l2 → connOf e = some c → AEv.ready c ∈ l1)
    (he : ∀ e, AEv.life e ∈ es → ∀ c, connOf e = some c → AEv.ready c ∈ l) :
    ∀ l1 e l2 c, l ++ es = l1 ++ .life e :: l2 → connOf e = some c → AEv.ready c ∈ l1 := by
  intro l1 e l2 c heq hc
  rcases List.append_eq_append_iff.mp heq with ⟨a, h1, h2⟩ | ⟨a, h1, h2⟩
  · have hm : AEv.life e ∈ es := by rw [h2]; simp
    rw [h1]
    exact List.mem_append_left _ (he e hm c hc)
  · cases a with
    | nil =>
      simp only [List.nil_append, List.append_nil] at h1 h2
      have hm : AEv.life e ∈ es := by rw [← h2]; simp
      rw [← h1]
      exact he e hm c hc
    | cons x a =>
      simp only [List.cons_append, List.cons.injEq] at h2
      obtain ⟨rfl, _⟩ := h2
      exact h l1 e a c h1 hc

theorem late_append {l es : List AEv} (h : ∀ l1 l2 c, l = l1 ++ .life .stop :: l2 → AEv.asked c ∉ l2)
    (he : ∀ c, AEv.asked c ∈ es → AEv.life .stop ∉ l ∧ AEv.life .stop ∉ es) :
    ∀ l1 l2 c, l ++ es = l1 ++ .life .stop :: l2 → AEv.asked c ∉ l2 := by
  intro l1 l2 c heq hc
  rcases List.append_eq_append_iff.mp heq with ⟨a, h1, h2⟩ | ⟨a, h1, h2⟩
  · exact (he c (by rw [h2]; simp [hc])).2 (by rw [h2]; simp)
  · cases a with
    | nil =>
      simp only [List.nil_append] at h2
      exact (he c (by rw [← h2]; simp [hc])).2 (by rw [← h2]; simp)
    | cons x a =>
      simp only [List.cons_append, List.cons.injEq] at h2
      obtain ⟨rfl, h2⟩ := h2
      rw [h2, List.mem_append] at hc
      rcases hc with hc | hc
      · exact h l1 a c h1 hc
      · exact (he c hc).1 (by rw [h1]; simp)

theorem mem_lifeOf {l : List AEv} {e : LEv} : AEv.life e ∈ l ↔ e ∈ l.filterMap AEv.lifeOf := by
  simp only [List.mem_filterMap]
  constructor
  · intro h; exact ⟨_, h, rfl⟩
  · rintro ⟨a, ha, he⟩
    cases a <;> simp_all [AEv.lifeOf]

theorem filter_cons_single {α : Type} {p : α → Bool} {pre post : List α} {x y : α} (hx : p x = true)
    (h : (pre ++ x :: post).filter p = [y]) : x = y ∧ pre.filter p = [] ∧ post.filter p = [] := by
  rw [List.filter_append, List.filter_cons_of_pos hx] at h
  cases hp : pre.filter p with
  | nil => simp only [hp, List.nil_append, List.cons.injEq] at h; exact ⟨h.1, rfl, h.2⟩
  | cons a l => simp [hp] at h

/-- The stages of the other connections do not change. -/
theorem act_other {s v : Life.State} {ok : Bool} {pc : APC} {pcs : List APC} {es : List AEv}
    (h : act s ok pc = (v, pcs, es)) (c : ConnId) (hc : pc.of c = false) :
    pcs.filter (APC.of c) = [] ∧ es.filter (AEv.of c) = [] ∧ (v.g.conns c).used = (s.g.conns c).used := by
  cases pc <;> simp only [act] at h <;> (try split at h) <;>
    simp only [Prod.mk.injEq] at h <;> obtain ⟨rfl, rfl, rfl⟩ := h <;>
    simp_all [APC.of, AEv.of, Life.connected]
  rw [if_neg fun h => hc h.symm]

/-- The connection itself goes on to the next stage. -/
theorem act_same {s v : Life.State} {ok : Bool} {pc : APC} {pcs : List APC} {es l : List AEv} {d : Bool}
    (h : act s ok pc = (v, pcs, es)) (c : ConnId) (hc : pc.of c = true) (hs : Stage c d l [pc] (s.g.conns c).used) :
    Stage c d (l ++ es.filter (AEv.of c)) (pcs.filter (APC.of c)) (v.g.conns c).used := by
  generalize hu : (s.g.conns c).used = u at hs
  cases hs <;> simp only [act] at h <;> (try split at h) <;>
    simp only [Prod.mk.injEq] at h <;> obtain ⟨rfl, rfl, rfl⟩ := h <;>
    simp [APC.of, AEv.of, Life.connected, hu] <;> constructor

theorem act_life {s v : Life.State} {ok : Bool} {pc : APC} {pcs : List APC} {es : List AEv}
    (h : act s ok pc = (v, pcs, es)) (hcr : s.g.crashed = none)
    (hu : ∀ c l, pc = .registering c l → (s.g.conns c).used = false) (hr : Life.Reachable s) :
    Life.Reachable v ∧ v.g.log = s.g.log ∧ (∀ e, AEv.life e ∉ es) ∧ es.filterMap AEv.lifeOf = [] ∧
    (∀ c, (∀ q ∈ s.threads, busy c q = false) → ∀ q ∈ v.threads, busy c q = false) ∧
    (∀ c, AEv.asked c ∈ es → s.g.shutdown = false) := by
  cases pc <;> simp only [act] at h <;> (try split at h) <;>
    simp only [Prod.mk.injEq] at h <;> obtain ⟨rfl, rfl, rfl⟩ := h <;>
    simp_all [AEv.lifeOf, Life.connected, busy]
  rename_i c l
  have := Life.ReachableIf.step _ (.connect c l) _ hr trivial (.connect s.g s.threads c l hcr hu)
  simp only [Life.connected, hcr] at this
  exact this

theorem Inv.step {s s' : State} (hi : Inv s) (h : Step s s') : Inv s' := by
  cases h with
  | dial c limit hcr hd =>
    refine ⟨hi.reach, hi.logs, fun c' => ?_, hi.quiet, hi.after, hi.late⟩
    have hs := hi.stage c'
    unfold State.stage at hs ⊢
    by_cases hcc : c = c'
    · subst hcc
      simp only [hd, decide_false] at hs
      generalize hl : s.log.filter (AEv.of c) = l at hs ⊢
      generalize ha : s.accepting.filter (APC.of c) = a at hs
      generalize hu : (s.life.g.conns c).used = u at hs ⊢
      generalize hdd : false = dd at hs
      cases hs with
      | new => simp [APC.of, ha, Stage.asking]
      | _ => cases hdd
    · have : ¬ c' = c := fun e => hcc e.symm
      simpa [APC.of, hcc, this] using hs
  | go pre post pcs pc ok v es hcr hacc ha =>
    have hreg : ∀ c l, pc = .registering c l → (s.life.g.conns c).used = false := by
      rintro c l rfl
      have hs := hi.stage c
      unfold State.stage at hs
      rw [hacc] at hs
      generalize hl : s.log.filter (AEv.of c) = l' at hs
      generalize hf : (pre ++ APC.registering c l :: post).filter (APC.of c) = a at hs
      generalize hu : (s.life.g.conns c).used = u at hs ⊢
      generalize decide (c ∈ s.dialed) = dd at hs
      have hmem : APC.registering c l ∈ a := by rw [← hf]; simp [APC.of]
      cases hs <;> simp_all
    obtain ⟨h1, h2, h3, h4, h5, h6⟩ := act_life ha hcr hreg hi.reach
    refine ⟨h1, ?_, fun c => ?_, ?_, after_append hi.after (fun e he => absurd he (h3 e)), late_append hi.late ?_⟩
    · simp only [List.filterMap_append, h4, List.append_nil, h2, hi.logs]
    · have hs := hi.stage c
      unfold State.stage at hs ⊢
      rw [hacc] at hs
      simp only [List.filter_append]
      by_cases hc : pc.of c = true
      · have hone : ∃ y, (pre ++ pc :: post).filter (APC.of c) = [y] := by
          have hmem : pc ∈ (pre ++ pc :: post).filter (APC.of c) := by simp [hc]
          generalize hf : (pre ++ pc :: post).filter (APC.of c) = a at hs hmem
          generalize s.log.filter (AEv.of c) = l' at hs
          generalize (s.life.g.conns c).used = u at hs
          generalize decide (c ∈ s.dialed) = dd at hs
          cases hs <;> first | exact ⟨_, rfl⟩ | simp at hmem
        obtain ⟨y, hy⟩ := hone
        obtain ⟨rfl, hp, hq⟩ := filter_cons_single hc hy
        rw [hy] at hs
        simp only [hp, hq, List.append_nil, List.nil_append]
        exact act_same ha c hc hs
      · have hc : pc.of c = false := by simpa using hc
        obtain ⟨o1, o2, o3⟩ := act_other ha c hc
        simp only [o1, o2, o3, List.append_nil, List.nil_append]
        simpa [List.filter_append, hc] using hs
    · intro c hn
      exact h5 c (hi.quiet c fun h => hn (by simp [h]))
    · intro c hc
      have hsd := h6 c hc
      refine ⟨fun hm => ?_, h3 _⟩
      rw [mem_lifeOf, hi.logs] at hm
      have := hi.reach.accInv.stop hm
      simp [hsd] at this
  | life l v hst hnc hhold =>
    obtain ⟨hused, hev, hbusy⟩ := life_step hst hnc
    have hnews : (v.g.log = s.life.g.log ∧ news s.life v = []) ∨ ∃ e pc ch, l = .thread pc ch ∧ pc ∈ s.life.threads ∧
        v.g.log = s.life.g.log ++ [e] ∧ news s.life v = [.life e] ∧
        ∀ c, connOf e = some c → busy c pc = true ∨ pc = .reading c := by
      rcases hev with h | ⟨e, pc, ch, h0, h1, h2, h3⟩
      · exact .inl ⟨h, by simp [news, h]⟩
      · exact .inr ⟨e, pc, ch, h0, h1, h2, by simp [news, h2], h3⟩
    have hread : ∀ c ch, l = .thread (.reading c) ch → AEv.ready c ∈ s.log := by
      intro c ch hl
      refine stage_ready (hi.stage c) ?_ (hhold c ch hl)
      by_contra hu
      have := (hi.reach.inv.unused c (by simpa using hu)).2
      rw [List.countP_eq_zero] at this
      exact this (.reading c) (step_thread hst hl) (by simp [PC.isOn])
    refine ⟨.step _ l _ hi.reach trivial hst, ?_, fun c => ?_, ?_, after_append hi.after ?_, late_append hi.late ?_⟩
    · rcases hnews with ⟨h, h'⟩ | ⟨e, pc, ch, _, _, h, h', _⟩
      · simp [h', h, hi.logs]
      · simp [h', h, hi.logs, AEv.lifeOf]
    · have hs := hi.stage c
      unfold State.stage at hs ⊢
      have : (s.log ++ news s.life v).filter (AEv.of c) = s.log.filter (AEv.of c) := by
        rcases hnews with ⟨h, h'⟩ | ⟨e, pc, ch, _, _, h, h', _⟩ <;> simp [h', AEv.of]
      simp only [this, hused]
      exact hs
    · intro c hn
      have hn' : AEv.ready c ∉ s.log := fun h => hn (by simp [h])
      exact hbusy c (hi.quiet c hn') (fun ch hl => hn' (hread c ch hl))
    · intro e he c hc
      rcases hnews with ⟨h, h'⟩ | ⟨e', pc, ch, hl, hm, h, h', hb⟩
      · simp [h'] at he
      · simp only [h', List.mem_singleton, AEv.life.injEq] at he
        subst he
        rcases hb c hc with hb | rfl
        · by_contra hn
          have := hi.quiet c hn pc hm
          simp [hb] at this
        · exact hread c ch hl
    · intro c hc
      rcases hnews with ⟨h, h'⟩ | ⟨e', pc, ch, hl, hm, h, h', hb⟩ <;> simp [h'] at hc

theorem Reachable.inv {s : State} (h : Reachable s) : Inv s := by
  induction h with
  | start => exact Inv.initial
  | step s s' _ hs ih => exact ih.step hs

theorem Stage.order {c : ConnId} {d u : Bool} {l : List AEv} {a : List APC} (h : Stage c d l a u) :
    l.count (.hello c) ≤ 1 ∧ l.count (.ready c) ≤ 1 ∧
    (∀ x y, l = x ++ .configured c :: y → .asked c ∈ x) ∧
    (∀ x y, l = x ++ .hello c :: y → .configured c ∈ x) ∧
    (∀ x y, l = x ++ .ready c :: y → .hello c ∈ x) ∧
    (.refused c ∈ l ∨ .unconfigured c ∈ l → .hello c ∉ l ∧ u = false) := by
  refine ⟨?_, ?_, ?_, ?_, ?_, ?_⟩
  · cases h <;> simp [List.count_cons]
  · cases h <;> simp [List.count_cons]
  · intro x y hx
    cases h <;> rcases x with _ | ⟨_, _ | ⟨_, _ | ⟨_, _ | ⟨_, x⟩⟩⟩⟩ <;> simp_all
  · intro x y hx
    cases h <;> rcases x with _ | ⟨_, _ | ⟨_, _ | ⟨_, _ | ⟨_, x⟩⟩⟩⟩ <;> simp_all
  · intro x y hx
    cases h <;> rcases x with _ | ⟨_, _ | ⟨_, _ | ⟨_, _ | ⟨_, x⟩⟩⟩⟩ <;> simp_all
  · cases h <;> simp

theorem Step.logs {s s' : State} (h : Step s s') : ∃ l, s'.log = s.log ++ l := by
  cases h with
  | dial => exact ⟨[], by simp⟩
  | go pre post pcs pc ok v es => exact ⟨es, rfl⟩
  | life l v => exact ⟨_, rfl⟩

end Webwire.Accept
