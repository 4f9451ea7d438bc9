import Verif.Proofs.SessionRaces

/-!
# Session operations at the same time, none of them interfering: registry and sessions agree
-/

set_option autoImplicit false

namespace Webwire.Races

/-- The goroutine of that kind, if there is one. -/
def the (P : PC → Bool) (ts : List PC) : Option PC := ts.find? P

theorem the_cons (P : PC → Bool) (a : PC) (ts : List PC) : the P (a :: ts) = if P a = true then some a else the P ts := by
  simp only [the, List.find?_cons]; cases P a <;> simp

theorem the_none {P : PC → Bool} {ts : List PC} : the P ts = none ↔ ∀ a ∈ ts, P a = false := by
  simp [the, List.find?_eq_none]

theorem the_append (P : PC → Bool) (xs ts : List PC) (h : ∀ a ∈ ts, P a = false) : the P (xs ++ ts) = the P xs := by
  simp only [the, List.find?_append]
  have : ts.find? P = none := by rw [List.find?_eq_none]; intro a ha; simp [h a ha]
  simp [this]

theorem the_skip (P : PC → Bool) (xs ts : List PC) (h : ∀ a ∈ xs, P a = false) : the P (xs ++ ts) = the P ts := by
  simp only [the, List.find?_append]
  have : xs.find? P = none := by rw [List.find?_eq_none]; intro a ha; simp [h a ha]
  simp [this]

theorem the_perm {P : PC → Bool} {ts ts' : List PC} (h : Excl P ts) (hp : ts.Perm ts') : the P ts = the P ts' := by
  induction hp with
  | nil => rfl
  | cons a _ ih => simp only [the_cons]; rw [ih (Excl.cons.mp h).2]
  | swap a b l =>
    simp only [the_cons]
    have := (Excl.cons.mp h).1
    cases hb : P b
    · simp
    · simp [this hb a (by simp)]
  | trans h1 _ ih1 ih2 => exact (ih1 h).trans (ih2 (h.perm h1))

theorem Excl.append {P : PC → Bool} {xs ts : List PC} (h1 : Excl P xs) (h2 : Excl P ts)
    (h : (∀ a ∈ xs, P a = false) ∨ ∀ a ∈ ts, P a = false) : Excl P (xs ++ ts) := by
  refine List.pairwise_append.mpr ⟨h1, h2, fun a ha b hb => ?_⟩
  rcases h with h | h
  · exact .inl (h a ha)
  · exact .inr (h b hb)

theorem Excl.single {P : PC → Bool} {xs : List PC} (h : xs.length ≤ 1) : Excl P xs := by
  match xs with
  | [] => exact List.Pairwise.nil
  | [a] => exact List.pairwise_singleton _ _

/-- The registry has the connection under its session and nowhere else. -/
def Rest (g : G) (c : ConnId) : Prop := ∀ k, g.session c = some k ↔ c ∈ g.members k

/-- The connection is not registered. -/
def Out (g : G) (c : ConnId) : Prop := ∀ k, c ∉ g.members k

/-- What holds for a connection, depending on the goroutine that is changing its session. -/
def Here (g : G) (c : ConnId) : Option PC → Prop
  | none | some (.d1 _ .unlink) => Rest g c
  | some (.r4 _ k) | some (.n4 _ k) => g.session c = some k ∧ Out g c
  | some (.d1 ..) | some (.d2 ..) | some (.n2 ..) => Rest g c ∧ g.session c ≠ none
  | some (.d3 ..) => Out g c ∧ g.session c ≠ none
  | some (.k2 _) | some (.x2 ..) | some (.u2 _) => Out g c
  | some (.n3 ..) => g.session c = none ∧ Out g c
  | some _ => False

theorem Here.frame {g g' : G} {c : ConnId} {T : Option PC} (h : Here g c T) (hs : g'.session c = g.session c)
    (hm : ∀ k, c ∈ g'.members k ↔ c ∈ g.members k) : Here g' c T := by
  have e1 : Rest g' c ↔ Rest g c := by unfold Rest; simp only [hs, hm]
  have e2 : Out g' c ↔ Out g c := by unfold Out; simp only [hm]
  unfold Here at h ⊢
  split <;> simp_all

/-- Holds the lock of the connection. -/
def PC.locks (c : ConnId) : PC → Bool
  | .d1 c' (.close _) | .d2 c' (.close _) | .d3 c' (.close _) | .x2 c' _ | .n3 c' _ | .n4 c' _ => decide (c' = c)
  | _ => false

theorem members_add {n : Nat} {g : G} {key : Bytes} {c c' : ConnId} (k : Bytes) (h : (registryAdd n g.registry key c).2 = none) :
    c' ∈ ({ g with registry := (registryAdd n g.registry key c).1 } : G).members k ↔
      (c' = c ∧ k = key) ∨ c' ∈ g.members k := by
  simp only [G.members, registryAdd_get, h, and_true]
  by_cases hk : key = k
  · subst hk
    simp only [if_true, Option.getD_some, and_true]
    cases hg : g.registry.get key with
    | none => simp
    | some l => simp [mem_setInsert]
  · simp [hk, Ne.symm hk]

theorem members_add_fail {n : Nat} {g : G} {key : Bytes} {c : ConnId} (k : Bytes)
    (h : (registryAdd n g.registry key c).2 ≠ none) :
    ({ g with registry := (registryAdd n g.registry key c).1 } : G).members k = g.members k := by
  simp only [G.members, registryAdd_get, h, and_false, if_false]

theorem members_remove {g : G} {key : Bytes} {c c' : ConnId} (k : Bytes)
    (h : c ∈ g.members key) :
    c' ∈ ({ g with registry := (registryRemove g.registry key c).1 } : G).members k ↔
      c' ∈ g.members k ∧ ¬ (c' = c ∧ k = key) := by
  simp only [G.members, registryRemove_get]
  by_cases hk : key = k
  · subst hk
    simp only [if_true, and_true]
    cases hg : g.registry.get key with
    | none => simp [G.members, hg] at h
    | some l =>
      simp only [G.members, hg, Option.getD_some] at h ⊢
      split_ifs with hl
      · match l, hl, h with
        | [a], _, h => simp at h; subst h; simp
      · simp [mem_setDelete]
  · simp [hk, Ne.symm hk]

theorem members_length_remove {g : G} {key : Bytes} {c : ConnId} (k : Bytes) :
    (({ g with registry := (registryRemove g.registry key c).1 } : G).members k).length ≤ (g.members k).length := by
  simp only [G.members, registryRemove_get]
  by_cases hk : key = k
  · subst hk
    simp only [if_true]
    cases hg : g.registry.get key with
    | none => simp
    | some l =>
      simp only [Option.getD_some]
      split_ifs
      · simp
      · exact setDelete_length
  · simp [hk]

theorem registryAdd_none {n : Nat} {g : G} {key : Bytes} {c : ConnId}
    (h : 0 < n → (g.members key).length + 1 ≤ n) : (registryAdd n g.registry key c).2 = none := by
  unfold registryAdd
  cases hg : g.registry.get key with
  | none => rfl
  | some l =>
    simp only [G.members, hg, Option.getD_some] at h
    simp only
    split_ifs with hc
    · have := h hc.1; omega
    · rfl

/-- What holds while no operations interfere. -/
structure Inv (g : G) (ts : List PC) : Prop where
  crash : g.crashed = none
  reg : RegOk g.maxConns g.registry
  excl : ∀ c, Excl (PC.inside c) ts
  here : ∀ c, Here g c (the (PC.inside c) ts)
  pexcl : 0 < g.maxConns → ∀ k, Excl (PC.pending k) ts
  pend : 0 < g.maxConns → ∀ a ∈ ts, ∀ k, a.pending k = true → (g.members k).length + 1 ≤ g.maxConns
  locks : ∀ c, g.locked c = true → ∃ a ∈ ts, a.locks c = true

theorem Inv.perm {g : G} {ts ts' : List PC} (h : Inv g ts) (hp : ts.Perm ts') : Inv g ts' where
  crash := h.crash
  reg := h.reg
  excl c := (h.excl c).perm hp
  here c := the_perm (h.excl c) hp ▸ h.here c
  pexcl hm k := (h.pexcl hm k).perm hp
  pend hm a ha := h.pend hm a (hp.symm.subset ha)
  locks c hc := let ⟨a, ha, hl⟩ := h.locks c hc; ⟨a, hp.subset ha, hl⟩

/-- The connection whose session a goroutine works on. -/
def PC.conn : PC → Option ConnId
  | .r1 c _ | .r2 c _ | .r3 c _ | .r4 c _ | .k1 c | .k2 c | .d1 c _ | .d2 c _ | .d3 c _ | .x1 c _ | .x2 c _
  | .n1 c _ | .n2 c _ | .n3 c _ | .n4 c _ | .u2 c => some c
  | .z1 _ | .n5 .. | .n6 .. | .n7 .. => none

theorem PC.inside_conn {c : ConnId} {a : PC} (h : a.inside c = true) : a.conn = some c := by
  cases a <;> simp_all [PC.inside, PC.conn]

theorem Cont.next_inside (c c' : ConnId) (κ : Cont) : (κ.next c).inside c' = decide (c = c') := by
  cases κ <;> rfl

/-- Other connections are not affected. -/
theorem Acts.frame {g g' : G} {pc : PC} {pcs rest : List PC} (h : Acts g pc g' pcs)
    (hh : ∀ c, Here g c (the (PC.inside c) (pc :: rest))) {c : ConnId} (hc : pc.conn ≠ some c) :
    g'.session c = g.session c ∧ ∀ k, c ∈ g'.members k ↔ c ∈ g.members k := by
  cases h
  case r3 | k2 | x2_end | x2_next | n3 | u2 =>
    refine ⟨?_, fun k => Iff.rfl⟩
    simp only [PC.conn, ne_eq, Option.some.injEq] at hc
    simp [G.setSession, G.emit, G.setLock, Function.update, Ne.symm hc]
  case r4 c' k' key hs ha =>
    refine ⟨rfl, fun k => ?_⟩
    have : c ≠ c' := by rintro rfl; exact hc rfl
    refine (members_add k ha).trans ?_
    simp [this]
  case n4 c' k' key hs =>
    refine ⟨rfl, fun k => ?_⟩
    have : c ≠ c' := by rintro rfl; exact hc rfl
    by_cases ha : (registryAdd g.maxConns g.registry key c').2 = none
    · refine (members_add k ha).trans ?_
      simp [this]
    · have := members_add_fail k ha
      exact iff_of_eq (congrArg (c ∈ ·) this)
  case d2 c' κ key hs _ | d2_destroy c' κ key hs _ _ =>
    refine ⟨rfl, fun k => ?_⟩
    have hne : c ≠ c' := by rintro rfl; exact hc rfl
    have := hh c'
    rw [the_cons] at this
    simp only [PC.inside, decide_true, if_true, Here] at this
    refine (members_remove k ((this.1 key).mp hs)).trans ?_
    simp [hne]
  all_goals exact ⟨rfl, fun _ => Iff.rfl⟩

theorem Acts.conn {g g' : G} {pc : PC} {pcs : List PC} (h : Acts g pc g' pcs) (c : ConnId) :
    (∀ a ∈ pcs, a.inside c = true → pc.conn = some c) ∧ pcs.length ≤ 1 := by
  cases h
  case d1_end | d2 | d3 => simp [PC.conn, Cont.next_inside]
  all_goals simp [PC.inside, PC.conn]

/-- Whether the step begins to change a session, or goes on. -/
def PC.before (c : ConnId) : PC → Bool
  | .r3 c' _ | .k1 c' | .x1 c' _ | .n1 c' _ => decide (c' = c)
  | _ => false

section
variable {g g' : G} {pc : PC} {pcs rest : List PC}

theorem Inv.here_step (hi : Inv g (pc :: rest)) (ha : Acts g pc g' pcs)
    (hap : ∀ c, pc.before c = true → ∀ a ∈ rest, a.inside c = false)
    (hr3 : ∀ c k, pc = .r3 c k → g.session c = none) (c : ConnId) :
    Here g' c (the (PC.inside c) (pcs ++ rest)) := by
  have hc := hi.here c
  have hex := Excl.cons.mp (hi.excl c)
  by_cases hcc : pc.conn = some c
  swap
  · have := ha.frame hi.here hcc
    have hpc : pc.inside c = false := by
      cases h : pc.inside c
      · rfl
      · exact absurd (PC.inside_conn h) hcc
    rw [the_cons, hpc] at hc
    simp only [Bool.false_eq_true, if_false] at hc
    rw [the_skip]
    · exact hc.frame this.1 this.2
    · intro a h
      cases hx : a.inside c
      · rfl
      · exact absurd ((ha.conn c).1 a h hx) hcc
  -- a step of the connection
  by_cases hquiet : (∃ k, pc = .r1 c k) ∨ ∃ k, pc = .r2 c k
  · have : (∀ a ∈ pcs, a.inside c = false) ∧ (g'.session = g.session) ∧ (g'.registry = g.registry) := by
      rcases hquiet with ⟨k, rfl⟩ | ⟨k, rfl⟩ <;> cases ha <;> simp [PC.inside, G.emit]
    rw [the_skip _ _ _ this.1]
    have hpc : pc.inside c = false := by rcases hquiet with ⟨k, rfl⟩ | ⟨k, rfl⟩ <;> rfl
    rw [the_cons, hpc] at hc
    simp only [Bool.false_eq_true, if_false] at hc
    exact hc.frame (by rw [this.2.1]) (by simp [G.members, this.2.2])
  have hrest : ∀ a ∈ rest, a.inside c = false := by
    cases hin : pc.inside c
    · refine hap c ?_
      cases pc <;> simp_all [PC.conn, PC.inside, PC.before]
    · exact hex.1 hin
  rw [the_append _ _ _ hrest]
  have hT : the (PC.inside c) (pc :: rest) = if pc.inside c = true then some pc else none := by
    rw [the_cons, the_none.mpr hrest]
  rw [hT] at hc
  clear hT hrest hap hex
  cases ha
  case r1_max => simp [PC.conn] at hcc; simp [hcc] at hquiet
  case r1 => simp [PC.conn] at hcc; simp [hcc] at hquiet
  case r2_end => simp [PC.conn] at hcc; simp [hcc] at hquiet
  case r2 => simp [PC.conn] at hcc; simp [hcc] at hquiet
  case z1 => simp [PC.conn] at hcc
  case z1_end => simp [PC.conn] at hcc
  case n5 | n6_fail | n6 | n7 => simp [PC.conn] at hcc
  all_goals (simp only [PC.conn, Option.some.injEq] at hcc; subst hcc)
  case r3 c k hl =>
    have hs := hr3 c k rfl
    simp only [PC.inside, Bool.false_eq_true, if_false, Here] at hc
    simp only [the, PC.inside, List.find?, decide_true, Here]
    refine ⟨by simp [G.setSession], fun k' hk' => ?_⟩
    have := (hc k').mpr hk'
    rw [hs] at this; cases this
  case r4_nil c k w hs => simp [PC.inside, Here, hs] at hc
  case r4_max c k key w hs hx =>
    simp only [PC.inside, decide_true, if_true, Here] at hc
    have : key = k := by have := hs.symm.trans hc.1; cases this; rfl
    subst this
    refine absurd (registryAdd_none fun hm => hi.pend hm _ List.mem_cons_self key (decide_eq_true rfl)) hx
  case r4 c k key hs hx =>
    simp only [PC.inside, decide_true, if_true, Here] at hc
    show Rest _ c
    intro k'
    refine Iff.trans ?_ (members_add k' hx).symm
    have := hc.2 k'
    simp only [this, or_false, true_and]
    show g.session c = some k' ↔ _
    rw [hs]; simp [eq_comm]
  case k1_end c hl hs => exact hc
  case k1 c hl hs =>
    simp only [the, PC.inside, List.find?, decide_true, Here]
    exact ⟨hc, hs⟩
  case k2 c hl =>
    show Rest _ c
    intro k
    simp only [PC.inside, decide_true, if_true, Here] at hc
    have : c ∉ ((g.setSession c none).emit (.closureEnd c)).members k := hc k
    simp [this]; simp [G.emit, G.setSession]
  case d1_end c κ hs =>
    have hout : Out g c := by
      simp only [PC.inside, decide_true, if_true] at hc
      have hR : Rest g c := by cases κ <;> simp only [Here] at hc <;> first | exact hc | exact hc.1
      intro k hk
      have := (hR k).mpr hk
      rw [hs] at this; cases this
    cases κ <;> simp only [Cont.next, the, PC.inside, List.find?, decide_true, Here] <;> exact hout
  case d1 c κ hs =>
    simp only [PC.inside, decide_true, if_true] at hc
    have hR : Rest g c := by cases κ <;> simp only [Here] at hc <;> first | exact hc | exact hc.1
    simp only [the, PC.inside, List.find?, decide_true, Here]
    exact ⟨hR, hs⟩
  case d2_nil c κ w hs => simp [PC.inside, Here, hs] at hc
  case d2_destroy c κ key hs _ _ =>
    simp only [PC.inside, decide_true, if_true, Here] at hc
    simp only [the, PC.inside, List.find?, decide_true, Here]
    refine ⟨fun k hk => ?_, hc.2⟩
    rw [members_remove k ((hc.1 key).mp hs)] at hk
    have := (hc.1 k).mpr hk.1
    rw [hs] at this; cases this
    exact hk.2 ⟨rfl, rfl⟩
  case d2 c κ key hs _ =>
    simp only [PC.inside, decide_true, if_true, Here] at hc
    have hout : Out { g with registry := (registryRemove g.registry key c).1 } c := by
      intro k hk
      rw [members_remove k ((hc.1 key).mp hs)] at hk
      have := (hc.1 k).mpr hk.1
      rw [hs] at this; cases this
      exact hk.2 ⟨rfl, rfl⟩
    cases κ <;> simp only [Cont.next, the, PC.inside, List.find?, decide_true, Here] <;> exact hout
  case d3_nil c κ w hs => simp [PC.inside, Here, hs] at hc
  case d3 c κ key hs =>
    simp only [PC.inside, decide_true, if_true, Here] at hc
    cases κ <;> simp only [Cont.next, the, PC.inside, List.find?, decide_true, Here] <;> exact hc.1
  case x1_end c hl hs => exact hc
  case x1_next c c' rest' hl hs => exact hc
  case x1 c rest' hl hs =>
    simp only [the, PC.inside, List.find?, decide_true, Here]
    exact ⟨hc, hs⟩
  case x2_end c =>
    show Rest _ c
    intro k
    simp only [PC.inside, decide_true, if_true, Here] at hc
    have : c ∉ (((g.setSession c none).setLock c false).emit .closeEnd).members k := hc k
    simp [this]; simp [G.emit, G.setSession, G.setLock]
  case x2_next c c' rest' =>
    show Rest _ c
    intro k
    simp only [PC.inside, decide_true, if_true, Here] at hc
    have : c ∉ ((g.setSession c none).setLock c false).members k := hc k
    simp [this]; simp [G.setSession, G.setLock]
  case n1 c k hl hs =>
    simp only [the, PC.inside, List.find?, decide_true, Here]
    refine ⟨hs, fun k hk => ?_⟩
    have := (hc k).mpr hk
    rw [hs] at this; cases this
  case n1_other c k hl hs =>
    simp only [the, PC.inside, List.find?, decide_true, Here]
    exact ⟨hc, hs⟩
  case n2_nil c k w hs => simp [PC.inside, Here, hs] at hc
  case n2 c k hs =>
    simp only [PC.inside, decide_true, if_true, Here] at hc
    exact hc.1
  case n3_fail c k =>
    simp only [PC.inside, decide_true, if_true, Here] at hc
    show Rest _ c
    intro k'
    have h1 : c ∉ ((g.setLock c false).emit (.createEnd c k false)).members k' := hc.2 k'
    have h2 : ((g.setLock c false).emit (.createEnd c k false)).session c = none := hc.1
    simp [h1, h2]
  case n3 c k =>
    simp only [PC.inside, decide_true, if_true, Here] at hc
    simp only [the, PC.inside, List.find?, decide_true, Here]
    exact ⟨by simp [G.setSession, G.emit], hc.2⟩
  case n4_nil c k w hs => simp [PC.inside, Here, hs] at hc
  case n4 c k key hs =>
    simp only [PC.inside, decide_true, if_true, Here] at hc
    have : key = k := by have := hs.symm.trans hc.1; cases this; rfl
    subst this
    have hx : (registryAdd g.maxConns g.registry key c).2 = none :=
      registryAdd_none fun hm => hi.pend hm _ List.mem_cons_self key (decide_eq_true rfl)
    show Rest _ c
    intro k'
    refine Iff.trans ?_ (members_add k' hx).symm
    have := hc.2 k'
    simp only [this, or_false, true_and]
    show g.session c = some k' ↔ _
    rw [hs]; simp [eq_comm]
  case u2 c hl =>
    show Rest _ c
    intro k
    simp only [PC.inside, decide_true, if_true, Here] at hc
    have : c ∉ ((g.setSession c none).emit (.unlinkEnd c)).members k := hc k
    simp [this]; simp [G.emit, G.setSession]

theorem Inv.no_crash (hi : Inv g (pc :: rest)) (ha : Acts g pc g' pcs) : g'.crashed = none := by
  cases ha
  case r4_nil c k w hs =>
    have := hi.here c; rw [the_cons] at this; simp [PC.inside, Here, hs] at this
  case r4_max c k key w hs hx =>
    have hc := hi.here c; rw [the_cons] at hc
    simp only [PC.inside, decide_true, if_true, Here] at hc
    have : key = k := by have := hs.symm.trans hc.1; cases this; rfl
    subst this
    exact absurd (registryAdd_none fun hm => hi.pend hm _ List.mem_cons_self key (decide_eq_true rfl)) hx
  case d2_nil c k w hs =>
    have := hi.here c; rw [the_cons] at this; simp [PC.inside, Here, hs] at this
  case d3_nil c k w hs =>
    have := hi.here c; rw [the_cons] at this; simp [PC.inside, Here, hs] at this
  case n2_nil c k w hs =>
    have := hi.here c; rw [the_cons] at this; simp [PC.inside, Here, hs] at this
  case n4_nil c k w hs =>
    have := hi.here c; rw [the_cons] at this; simp [PC.inside, Here, hs] at this
  all_goals exact hi.crash

theorem Inv.excl_step (hi : Inv g (pc :: rest)) (ha : Acts g pc g' pcs)
    (hap : ∀ c, pc.before c = true → ∀ a ∈ rest, a.inside c = false) (c : ConnId) :
    Excl (PC.inside c) (pcs ++ rest) := by
  have hex := Excl.cons.mp (hi.excl c)
  refine Excl.append (.single (ha.conn c).2) hex.2 ?_
  cases hin : pc.inside c
  · cases hb : pc.before c
    · left
      intro a h
      cases hx : a.inside c
      · rfl
      · have := (ha.conn c).1 a h hx
        cases ha <;> simp_all [PC.inside, PC.before, PC.conn]
    · exact .inr (hap c hb)
  · exact .inr (hex.1 hin)

theorem locks_acts (hi : ∀ c, g.locked c = true → ∃ a ∈ pc :: rest, a.locks c = true) (ha : Acts g pc g' pcs)
    (hcr : g'.crashed = none) (c : ConnId) (hl : g'.locked c = true) : ∃ a ∈ pcs ++ rest, a.locks c = true := by
  have h0 : g.locked c = true → pc.locks c = false → ∃ a ∈ pcs ++ rest, a.locks c = true := by
    intro h hp
    obtain ⟨a, ha, hl⟩ := hi c h
    rcases List.mem_cons.mp ha with rfl | ha
    · rw [hp] at hl; cases hl
    · exact ⟨a, by simp [ha], hl⟩
  have h1 : g.locked c = true → (pc.locks c = true → ∃ a ∈ pcs, a.locks c = true) → ∃ a ∈ pcs ++ rest, a.locks c = true := by
    intro h hp
    cases hq : pc.locks c
    · exact h0 h hq
    · obtain ⟨a, ha, hl⟩ := hp hq
      exact ⟨a, by simp [ha], hl⟩
  clear hi
  cases ha
  case x1 c' r hl' hs =>
    by_cases e : c' = c
    · exact ⟨_, List.mem_cons_self, by simp [PC.locks, e]⟩
    · refine h0 ?_ rfl
      simpa [G.setLock, Function.update, Ne.symm e] using hl
  case n1 c' k hl' hs =>
    by_cases e : c' = c
    · exact ⟨_, List.mem_cons_self, by simp [PC.locks, e]⟩
    · refine h0 ?_ rfl
      simpa [G.setLock, Function.update, Ne.symm e] using hl
  case x2_end c' | x2_next c' _ _ | n3_fail c' _ | n4 c' _ _ _ =>
    by_cases e : c' = c
    · simp [G.setLock, G.emit, Function.update, e] at hl
    · refine h0 ?_ (by simp [PC.locks, e])
      simpa [G.setLock, G.emit, G.setSession, Function.update, Ne.symm e] using hl
  case n4_nil | r4_nil | r4_max | d2_nil | d3_nil | n2_nil => simp [G.crash] at hcr
  case d1_end c' κ _ | d2 c' κ _ _ _ | d3 c' κ _ _ =>
    exact h1 hl (by cases κ <;> simp [PC.locks, Cont.next])
  case d1 c' κ _ | d2_destroy c' κ _ _ _ _ =>
    exact h1 hl (by cases κ <;> simp [PC.locks])
  case n3 => exact h1 hl (by simp [PC.locks])
  all_goals exact h0 hl rfl

theorem Acts.members_le (ha : Acts g pc g' pcs) (k : Bytes)
    (hn : ∀ c, pc ≠ .n4 c k) (hr : ∀ c, pc ≠ .r4 c k) (hs : ∀ c k', pc = .n4 c k' ∨ pc = .r4 c k' → g.session c = some k') :
    (g'.members k).length ≤ (g.members k).length := by
  cases ha
  case d2 | d2_destroy => exact members_length_remove k
  case r4 c k' key h h' =>
    have := (hs c k' (.inr rfl)).symm.trans h; cases this
    have : k' ≠ k := by rintro rfl; exact hr c rfl
    simp [G.emit, G.members, registryAdd_get, this]
  case n4 c k' key h =>
    have := (hs c k' (.inl rfl)).symm.trans h; cases this
    have : k' ≠ k := by rintro rfl; exact hn c rfl
    simp [G.emit, G.setLock, G.members, registryAdd_get, this]
  all_goals exact Nat.le_refl _

theorem Acts.pending (ha : Acts g pc g' pcs) (k : Bytes) :
    (∀ a ∈ pcs, a.pending k = true → pc.pending k = true ∨ pc.admits = some k) := by
  cases ha
  case d1_end c' κ _ | d2 c' κ _ _ _ | d3 c' κ _ _ => cases κ <;> simp [Cont.next, PC.pending]
  all_goals simp [PC.pending, PC.admits]

/-- Restorations and creations of sessions are admitted one by one. -/
theorem Inv.step (hi : Inv g (pc :: rest)) (ha : Acts g pc g' pcs)
    (hap : ∀ c, pc.before c = true → ∀ a ∈ rest, a.inside c = false)
    (hr3 : ∀ c k, pc = .r3 c k → g.session c = none)
    (hadm : 0 < g.maxConns → ∀ k, pc.admits = some k → ∀ a ∈ rest, a.pending k = false)
    (hnew : 0 < g.maxConns → ∀ c k, pc = .n1 c k → g.registry.get k = none) : Inv g' (pcs ++ rest) where
  crash := hi.no_crash ha
  reg := ha.regOk hi.reg
  excl := hi.excl_step ha hap
  here := hi.here_step ha hap hr3
  locks := locks_acts hi.locks ha (hi.no_crash ha)
  pexcl hm k := by
    rw [ha.max] at hm
    have hex := Excl.cons.mp (hi.pexcl hm k)
    refine Excl.append (.single (ha.conn 0).2) hex.2 ?_
    by_cases h : pc.pending k = true ∨ pc.admits = some k
    · exact .inr (h.elim hex.1 (hadm hm k))
    · refine .inl fun a h' => ?_
      cases hx : a.pending k
      · rfl
      · exact absurd (ha.pending k a h' hx) h
  pend hm a hmem k hk := by
    rw [ha.max] at hm ⊢
    have hs : ∀ c k', pc = .n4 c k' ∨ pc = .r4 c k' → g.session c = some k' := by
      rintro c k' (rfl | rfl) <;>
      · have := hi.here c
        rw [the_cons] at this
        simp only [PC.inside, decide_true, if_true, Here] at this
        exact this.1
    have hle : (∀ c, pc ≠ .n4 c k) → (∀ c, pc ≠ .r4 c k) → (g'.members k).length ≤ (g.members k).length :=
      fun h1 h2 => ha.members_le k h1 h2 hs
    have hex := Excl.cons.mp (hi.pexcl hm k)
    rcases List.mem_append.mp hmem with h | h
    · -- the goroutine itself
      have hold := ha.pending k a h hk
      rcases hold with hold | hold
      · have h1 := hi.pend hm pc List.mem_cons_self k hold
        have h2 := hle (by rintro c rfl; cases ha <;> simp at h; subst h; simp [PC.pending] at hk) (by rintro c rfl; cases ha <;> simp at h)
        omega
      · have h2 := hle (by rintro c rfl; simp [PC.admits] at hold) (by rintro c rfl; simp [PC.admits] at hold)
        have h3 : (g.members k).length + 1 ≤ g.maxConns := by
          cases ha <;> simp only [PC.admits, Option.some.injEq, reduceCtorEq] at hold
          case r1_max => simp at h
          case r1 c k' hx => subst hold; exact hx hm
          case n1 c k' _ _ => subst hold; simp [G.members, hnew hm c _ rfl]; omega
          case n1_other c k' _ _ => subst hold; simp [G.members, hnew hm c _ rfl]; omega
        omega
    · have hno : pc.pending k = false := by
        cases hx : pc.pending k
        · rfl
        · have := hex.1 hx a h; rw [hk] at this; cases this
      have h1 := hi.pend hm a (List.mem_cons_of_mem _ h) k hk
      have h2 := hle (by rintro c rfl; simp [PC.pending] at hno) (by rintro c rfl; simp [PC.pending] at hno)
      omega

end

/-- Session restoration requests alone, without a limit. -/
structure Only (g : G) (ts : List PC) : Prop where
  crash : g.crashed = none
  max : g.maxConns = 0
  pcs : ∀ a ∈ ts, (∃ c k, a = .r1 c k ∨ a = .r2 c k ∨ a = .r3 c k) ∨ ∃ c k, a = .r4 c k ∧ g.session c ≠ none

theorem only_reachable {s : State} (h : ReachableIf 0 OnlyRestores s) : Only s.g s.threads := by
  refine From.inv (I := Only) (fun _ _ _ h hp => ⟨h.crash, h.max, fun a ha => h.pcs a (hp.symm.subset ha)⟩) ?_ ?_
    (s := init 0) ⟨rfl, rfl, by simp [init]⟩ h
  · intro g pc rest ts ch g' pcs hi hp hcr hok ha
    have hrest : ∀ a ∈ rest, (∃ c k, a = .r1 c k ∨ a = .r2 c k ∨ a = .r3 c k) ∨ ∃ c k, a = .r4 c k ∧ g.session c ≠ none :=
      fun a h => hi.pcs a (List.mem_cons_of_mem _ h)
    rcases hi.pcs pc List.mem_cons_self with ⟨c, k, rfl | rfl | rfl⟩ | ⟨c, k, rfl, hs⟩
    · cases ha
      · exact ⟨hcr, hi.max, hrest⟩
      · exact ⟨hcr, hi.max, by simpa using hrest⟩
    · cases ha
      · exact ⟨hcr, hi.max, hrest⟩
      · exact ⟨hcr, hi.max, by simpa using hrest⟩
    · cases ha
      refine ⟨hcr, hi.max, fun a h => ?_⟩
      rcases List.mem_cons.mp h with rfl | h
      · exact .inr ⟨c, k, rfl, by simp [G.setSession]⟩
      · rcases hrest a h with h' | ⟨c', k', rfl, h'⟩
        · exact .inl h'
        · refine .inr ⟨c', k', rfl, ?_⟩
          by_cases e : c' = c <;> simp [G.setSession, Function.update, e]
          simpa [e] using h'
    · cases ha
      case r4_nil h => exact absurd h hs
      case r4_max key w h1 h2 => exact absurd (registryAdd_none (by simp [hi.max])) h2
      case r4 => exact ⟨hcr, hi.max, hrest⟩
  · intro g ts pc hi he hok
    refine ⟨hi.crash, hi.max, fun a h => ?_⟩
    rcases List.mem_cons.mp h with rfl | h
    · cases a <;> simp_all [OnlyRestores]
    · exact hi.pcs a h

/-- Those who hold the lock of a connection keep it locked. -/
def Held (g : G) (ts : List PC) : Prop := ∀ a ∈ ts, ∀ c, a.locks c = true → g.locked c = true

theorem PC.locks_inside {c : ConnId} {a : PC} (h : a.locks c = true) : a.inside c = true := by
  cases a
  case d1 c' κ | d2 c' κ | d3 c' κ => cases κ <;> simp_all [PC.locks, PC.inside]
  all_goals simp_all [PC.locks, PC.inside]

theorem PC.inside_cases {c : ConnId} {a : PC} (h : a.inside c = true) : a.locks c = true ∨ a.loose c = true := by
  cases a
  case d1 c' κ | d2 c' κ | d3 c' κ => cases κ <;> simp_all [PC.locks, PC.inside, PC.loose]
  all_goals simp_all [PC.locks, PC.inside, PC.loose]

theorem locks_go {c c' : ConnId} {κ : Cont} {p q : PC}
    (h : q.locks c = true) (hp : p = .d1 c' κ ∨ p = .d2 c' κ ∨ p = .d3 c' κ)
    (hq : q = κ.next c' ∨ q = .d2 c' κ ∨ q = .d3 c' κ) : p.locks c = true := by
  rcases hq with rfl | rfl | rfl <;> rcases hp with rfl | rfl | rfl <;> cases κ <;> simp_all [PC.locks, Cont.next]

theorem Held.step {g g' : G} {pc : PC} {pcs rest : List PC} (hh : Held g (pc :: rest)) (hx : ∀ c, Excl (PC.inside c) (pc :: rest))
    (ha : Acts g pc g' pcs) : Held g' (pcs ++ rest) := by
  have hpc := hh pc List.mem_cons_self
  intro a hm c hl
  rcases List.mem_append.mp hm with hm | hm
  · have key : ∀ a ∈ pcs, a.locks c = true → g'.locked c = true := by
      cases ha
      case x1 c' rest' h1 h2 | n1 c' k' h1 h2 =>
        intro a hm hl
        simp only [List.mem_singleton] at hm
        subst hm
        simp only [PC.locks, decide_eq_true_eq] at hl
        subst hl
        simp [G.setLock]
      case d1_end | d2 | d3 | d1 | d2_destroy =>
        intro a hm hl
        simp only [List.mem_singleton] at hm
        subst hm
        first
          | exact hpc c (locks_go hl (.inl rfl) (.inl rfl))
          | exact hpc c (locks_go hl (.inr (.inl rfl)) (.inl rfl))
          | exact hpc c (locks_go hl (.inr (.inr rfl)) (.inl rfl))
          | exact hpc c (locks_go hl (.inl rfl) (.inr (.inl rfl)))
          | exact hpc c (locks_go hl (.inr (.inl rfl)) (.inr (.inr rfl)))
      case n3 c' k' =>
        intro a hm hl
        simp only [List.mem_singleton] at hm
        subst hm
        exact hpc c (by simpa [PC.locks] using hl)
      all_goals (intro a hm hl; simp at hm; try (subst hm; simp [PC.locks] at hl))
    exact key a hm hl
  · have h0 := hh a (List.mem_cons_of_mem _ hm) c hl
    have hin := PC.locks_inside hl
    have hno : pc.inside c = false := by
      cases h : pc.inside c
      · rfl
      · have := (Excl.cons.mp (hx c)).1 h a hm
        rw [hin] at this; cases this
    cases ha
    case x1 c' rest' h1 h2 | n1 c' k' h1 h2 =>
      by_cases e : c = c' <;> simp [G.setLock, Function.update, e]
      simpa [e] using h0
    case x2_end c' | x2_next c' _ _ | n3_fail c' _ | n4 c' _ _ _ =>
      simp only [PC.inside, decide_eq_false_iff_not] at hno
      simpa [G.setLock, G.emit, G.setSession, Function.update, Ne.symm hno] using h0
    all_goals exact h0

/-- Nobody is inside when an operation begins. -/
theorem held_apart {g g' : G} {pc : PC} {pcs rest : List PC} (hh : Held g (pc :: rest)) (ha : Acts g pc g' pcs)
    {c : ConnId} (hb : pc.before c = true) (hl : ∀ a ∈ rest, a.loose c = false) : ∀ a ∈ rest, a.inside c = false := by
  intro a hm
  cases hin : a.inside c
  · rfl
  rcases PC.inside_cases hin with h | h
  · have h1 := hh a (List.mem_cons_of_mem _ hm) c h
    have h2 : g.locked c = false := by
      cases ha <;> simp only [PC.before, Bool.false_eq_true, decide_eq_true_eq] at hb <;> subst hb <;> assumption
    rw [h1] at h2; cases h2
  · rw [hl a hm] at h; cases h

theorem inv_held {n : Nat} {s : State} (h : ReachableIf n Calm s) : Inv s.g s.threads ∧ Held s.g s.threads := by
  refine From.inv (I := fun g ts => Inv g ts ∧ Held g ts)
    (fun _ _ _ h hp => ⟨h.1.perm hp, fun a ha => h.2 a (hp.symm.subset ha)⟩) ?_ ?_ (s := init n) ?_ h
  · rintro g pc rest ts ch g' pcs ⟨hi, hh⟩ hp hcr hok ha
    obtain ⟨⟨h1, _, h2⟩, h3⟩ := hok
    have hsub : ∀ a ∈ rest, a ∈ ts := fun a h => hp.symm.subset (List.mem_cons_of_mem _ h)
    refine ⟨hi.step ha (fun c hb => held_apart hh ha hb fun a hmem => h1 c ?_ a (hsub a hmem)) (fun c k e => ?_)
      (fun hm k hk a hmem => ?_) (fun hm c k e => ?_), hh.step hi.excl ha⟩
    · cases pc <;> simp_all [PC.before, Label.enters]
    · subst e; exact h2 c k ch rfl
    · exact (h3 hm).1 k hk a (hsub a hmem)
    · exact (h3 hm).2 c k e
  · rintro g ts pc ⟨hi, hh⟩ he hok
    have hpend : ∀ k, pc.pending k = false := by cases pc <;> simp_all [PC.entry, PC.pending]
    have hin : ∀ c, pc.inside c = true → pc = .d1 c .unlink := by
      intro c h
      unfold PC.entry at he
      split at he <;> simp_all [PC.inside]
    refine ⟨⟨hi.crash, hi.reg, fun c => Excl.cons.mpr ⟨fun h => ?_, hi.excl c⟩, fun c => ?_,
      fun hm k => Excl.cons.mpr ⟨fun h => ?_, hi.pexcl hm k⟩, fun hm a ha k hk => ?_, fun c hc => ?_⟩, ?_⟩
    · have := hin c h; subst this
      exact hok.1.2.1 c rfl
    · rw [the_cons]
      split
      · rename_i h
        have := hin c h; subst this
        have h2 := hi.here c
        rw [the_none.mpr (hok.1.2.1 c rfl)] at h2
        exact h2
      · exact hi.here c
    · rw [hpend k] at h; cases h
    · rcases List.mem_cons.mp ha with rfl | ha
      · rw [hpend k] at hk; cases hk
      · exact hi.pend hm a ha k hk
    · obtain ⟨a, h1, h2⟩ := hi.locks c hc
      exact ⟨a, List.mem_cons_of_mem _ h1, h2⟩
    · intro a ha c hl
      rcases List.mem_cons.mp ha with rfl | ha
      · have := hin c (PC.locks_inside hl)
        subst this
        simp [PC.locks] at hl
      · exact hh a ha c hl
  · refine ⟨⟨rfl, RegOk.nil _, fun c => List.Pairwise.nil, fun c k => ?_, fun _ k => List.Pairwise.nil, ?_, ?_⟩, ?_⟩
    · simp [init, G.members, GoMap.get]
    · simp [init]
    · simp [init]
    · intro a ha; simp [init] at ha

theorem inv_reachable {n : Nat} {s : State} (h : ReachableIf n Calm s) : Inv s.g s.threads := (inv_held h).1

end Webwire.Races
