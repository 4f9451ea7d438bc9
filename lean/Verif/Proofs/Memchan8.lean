import Verif.Proofs.Memchan7

/-!
# memchan: shutting down the transport, and refused dials
-/

set_option autoImplicit false

namespace Webwire.Mem

/-- Comes from `Shutdown`. -/
def Cont.stops : Cont → Bool
  | .stop _ => true
  | _ => false

/-- Is in `Shutdown`, past the check of the status. -/
def PC.stopping : PC → Bool
  | .s2 => true
  | .c1 _ _ k | .c2 _ _ k | .c3 _ _ k | .c4 _ _ k | .c5 _ _ k | .c6 _ _ k => k.stops
  | _ => false

/-- Is going to close the pair. -/
def PC.willClose (p : Nat) : PC → Bool
  | .s2 => true
  | .c1 q _ k => (decide (q = p) && k.stops) || k.uses p
  | .c2 _ _ k | .c3 _ _ k | .c4 _ _ k | .c5 _ _ k | .c6 _ _ k => k.uses p
  | _ => false

/-- Is in `Dial`. -/
def PC.anyDial : PC → Bool
  | .d1 _ | .d2 _ | .d3 _ | .d4 _ | .d5 _ | .d6 _ | .d7 _ => true
  | _ => false

theorem anyDial_dials {a : PC} (h : ∀ p, a.dials p = false) : a.anyDial = false := by
  cases a <;> simp_all [PC.dials, PC.anyDial]

/-- The state of the transport. -/
structure Stopped (g : G) (ts : List PC) : Prop where
  excl : Excl PC.stopping ts
  off : ∀ a ∈ ts, a.stopping = true → g.active = false
  calm : g.active = false → ∀ a ∈ ts, a.anyDial = false
  over : Ev.stopEnd true ∈ g.log → g.active = false ∧ ∀ a ∈ ts, a.stopping = false
  will : g.active = false → ∀ p, g.listed p = true → g.connected p = true → ∃ a ∈ ts, a.willClose p = true

section
variable {g g' : G} {pc : PC} {pcs rest ts : List PC}

theorem Stopped.perm (h : Stopped g ts) {ts' : List PC} (hp : ts.Perm ts') : Stopped g ts' := by
  have hm : ∀ a, a ∈ ts' ↔ a ∈ ts := fun a => hp.mem_iff.symm
  obtain ⟨h1, h2, h3, h4, h5⟩ := h
  refine ⟨h1.perm hp, ?_, ?_, ?_, ?_⟩ <;> (try simp only [hm]) <;> assumption

theorem Acts.stops (ha : Acts g pc g' pcs) :
    (∀ b ∈ pcs, b.stopping = true → (pc.stopping = true ∧ g'.active = g.active) ∨ (g.active = true ∧ g'.active = false)) ∧
    (∀ b ∈ pcs, b.anyDial = true → pc.anyDial = true) ∧
    (g'.active = g.active ∨ (g'.active = false ∧ pc = .s1)) ∧
    (Ev.stopEnd true ∈ g'.log → Ev.stopEnd true ∈ g.log ∨ (pc.stopping = true ∧ pcs = [])) := by
  refine ⟨?_, ?_, ?_, ?_⟩
  · cases ha <;> simp [PC.stopping, Cont.stops]
    assumption
  · cases ha <;> simp [PC.anyDial]
  · cases ha <;> simp
  · cases ha <;> simp [PC.stopping, Cont.stops] <;> grind

theorem Acts.wills (ha : Acts g pc g' pcs) (p : Nat) (hd : pc.anyDial = false) (hs : pc ≠ .s1)
    (hl : g'.listed p = true) (hc : g'.connected p = true) :
    g.listed p = true ∧ g.connected p = true ∧ (pc.willClose p = true → ∃ b ∈ pcs, b.willClose p = true) := by
  cases ha <;> simp [PC.anyDial, PC.willClose, Cont.stops, Cont.uses] at hd hs hl hc ⊢ <;> grind [Snapshot]

theorem Acts.s1 (ha : Acts g .s1 g' pcs) :
    (g.active = true ∧ g' = g.stop ∧ pcs = [.s2]) ∨ (g.active = false ∧ g' = g.ev (.stopEnd false) ∧ pcs = []) := by
  cases ha <;> simp_all

theorem Stopped.acts (h : Stopped g (pc :: rest)) (ha : Acts g pc g' pcs)
    (hok : pc = .s1 → ∀ a ∈ rest, a.anyDial = false) : Stopped g' (pcs ++ rest) := by
  by_cases hs : pc = .s1
  · subst hs
    have hok := hok rfl
    rcases ha.s1 with ⟨h1, rfl, rfl⟩ | ⟨h1, rfl, rfl⟩
    · have hn : ∀ a ∈ rest, a.stopping = false := by
        intro a ha
        cases hst : a.stopping
        · rfl
        · rw [h.off a (List.mem_cons_of_mem _ ha) hst] at h1; cases h1
      constructor
      · exact Excl.cons.mpr ⟨fun _ => hn, (Excl.cons.mp h.excl).2⟩
      · intro a _ _; rfl
      · intro _ a ha
        rcases List.mem_cons.mp ha with rfl | ha
        · rfl
        · exact hok a ha
      · intro he; rw [(h.over he).1] at h1; cases h1
      · intro _ p _ _; exact ⟨.s2, by simp, rfl⟩
    · constructor
      · exact (Excl.cons.mp h.excl).2
      · intro a ha hst; exact h1
      · intro _ a ha; exact hok a ha
      · intro he
        have := h.over (by simpa using he)
        exact ⟨this.1, fun a ha => this.2 a (List.mem_cons_of_mem _ ha)⟩
      · intro _ p hl hc
        obtain ⟨a, ha, hw⟩ := h.will h1 p hl hc
        rcases List.mem_cons.mp ha with rfl | ha
        · simp [PC.willClose] at hw
        · exact ⟨a, ha, hw⟩
  · obtain ⟨t1, t2, t3, t4⟩ := ha.stops
    have tw := fun p hd => ha.wills p hd hs
    have tlen := ha.length
    have tlog : ∀ e, e ∈ g.log → e ∈ g'.log := fun e h => ha.logs h
    clear ha hok
    have hact : g'.active = g.active := by
      rcases t3 with e | ⟨-, e⟩
      · exact e
      · exact absurd e hs
    have hst : ∀ b ∈ pcs, b.stopping = true → pc.stopping = true := by
      intro b hb hbs
      rcases t1 b hb hbs with h1 | ⟨h1, h2⟩
      · exact h1.1
      · rw [hact, h1] at h2; cases h2
    have hmem : ∀ a ∈ pcs ++ rest, a.stopping = true → ∃ b ∈ pc :: rest, b.stopping = true := by
      intro a ha hsa
      rcases List.mem_append.mp ha with ha | ha
      · exact ⟨pc, List.mem_cons_self, hst a ha hsa⟩
      · exact ⟨a, List.mem_cons_of_mem _ ha, hsa⟩
    constructor
    · rcases tlen with rfl | ⟨b, rfl⟩
      · exact (Excl.cons.mp h.excl).2
      · exact Excl.cons.mpr ⟨fun hb a ha => (Excl.cons.mp h.excl).1 (hst b (by simp) hb) a ha, (Excl.cons.mp h.excl).2⟩
    · intro a ha hsa
      obtain ⟨b, hb, hbs⟩ := hmem a ha hsa
      rw [hact]; exact h.off b hb hbs
    · intro hoff a ha
      rw [hact] at hoff
      rcases List.mem_append.mp ha with ha | ha
      · cases hd : a.anyDial
        · rfl
        · have := h.calm hoff pc List.mem_cons_self
          rw [t2 a ha hd] at this; cases this
      · exact h.calm hoff a (List.mem_cons_of_mem _ ha)
    · intro he
      rcases t4 he with he | ⟨h1, rfl⟩
      · obtain ⟨h2, h3⟩ := h.over he
        refine ⟨by rw [hact]; exact h2, fun a ha => ?_⟩
        cases hsa : a.stopping
        · rfl
        · obtain ⟨b, hb, hbs⟩ := hmem a ha hsa
          rw [h3 b hb] at hbs; cases hbs
      · exact ⟨by rw [hact]; exact h.off pc List.mem_cons_self h1,
          fun a ha => (Excl.cons.mp h.excl).1 h1 a (by simpa using ha)⟩
    · intro hoff p hl hc
      rw [hact] at hoff
      obtain ⟨h1, h2, h3⟩ := tw p (h.calm hoff pc List.mem_cons_self) hl hc
      obtain ⟨a, ha, hw⟩ := h.will hoff p h1 h2
      rcases List.mem_cons.mp ha with rfl | ha
      · obtain ⟨b, hb, hbw⟩ := h3 hw
        exact ⟨b, List.mem_append.mpr (.inl hb), hbw⟩
      · exact ⟨a, List.mem_append.mpr (.inr ha), hw⟩

theorem Stopped.add {a : PC} (h : Stopped g ts) (h1 : a.stopping = false)
    (h2 : g.active = false → a.anyDial = false) : Stopped g (a :: ts) := by
  obtain ⟨g1, g2, g3, g4, g5⟩ := h
  constructor
  · exact Excl.cons.mpr ⟨fun h => (by rw [h1] at h; cases h), g1⟩
  · simpa [h1] using g2
  · intro ho b hb
    rcases List.mem_cons.mp hb with rfl | hb
    · exact h2 ho
    · exact g3 ho b hb
  · simpa [h1] using g4
  · intro ho p hl hc
    obtain ⟨b, hb, hw⟩ := g5 ho p hl hc
    exact ⟨b, List.mem_cons_of_mem _ hb, hw⟩

end

/-- If `Shutdown` does not overlap with `Dial`: whatever is connected is going to be closed. -/
theorem Stopped.reachable {size : Nat} {s : State} (h : ReachableIf size CalmStop s) : Stopped s.g s.threads := by
  refine From.inv (ok := CalmStop) (I := Stopped) ?_ ?_ ?_ ?_ ?_ ?_ ?_ ?_ ?_ ?_ h
  · exact fun g ts ts' h hp => h.perm hp
  · intro g pc rest ts ch conns g' pcs h hp _ ho ha
    refine h.acts ha ?_
    rintro rfl a hm
    exact anyDial_dials fun p => ho p a (hp.mem_iff.mpr (List.mem_cons_of_mem _ hm))
  · exact fun g ts q z c h _ => h.add rfl fun _ => rfl
  · exact fun g ts q z c h _ => h.add rfl fun _ => rfl
  · exact fun g ts q h ho => h.add rfl fun h1 => by simp only [CalmStop] at ho; rw [h1] at ho; cases ho
  · exact fun g ts q z h _ => h.add rfl fun _ => rfl
  · exact fun g ts h _ => h.add rfl fun _ => rfl
  · exact fun g ts h _ => h.add rfl fun _ => rfl
  · intro g ts h _; obtain ⟨h1, h2, h3, h4, h5⟩ := h; exact ⟨h1, h2, h3, h4, h5⟩
  · constructor <;> simp [init, Excl.nil, G.listed]

/-- After `Shutdown` the transport is not active. -/
theorem stopEnd_reachable {ok : State → Label → Prop} {size : Nat} {s : State} (h : ReachableIf size ok s) :
    (∀ b, Ev.stopEnd b ∈ s.g.log → s.g.active = false) ∧ ∀ a ∈ s.threads, a.stopping = true → s.g.active = false := by
  refine From.inv (ok := ok) (I := fun g ts => (∀ b, Ev.stopEnd b ∈ g.log → g.active = false) ∧
    ∀ a ∈ ts, a.stopping = true → g.active = false) ?_ ?_ ?_ ?_ ?_ ?_ ?_ ?_ ?_ (by simp [init]) h
  · exact fun g ts ts' h hp => ⟨h.1, fun a ha => h.2 a (hp.mem_iff.mpr ha)⟩
  · intro g pc rest ts ch conns g' pcs h _ _ _ ha
    have h1 := h.2 pc List.mem_cons_self
    have h2 := h.1
    have h3 : ∀ a ∈ rest, a.stopping = true → g.active = false := fun a ha => h.2 a (List.mem_cons_of_mem _ ha)
    clear h
    have hm : g.active = false → g'.active = false := by cases ha <;> simp
    refine ⟨?_, ?_⟩
    · clear h3
      intro b hb
      replace h2 := h2 b
      cases ha <;> simp [PC.stopping, Cont.stops] at h1 h2 hb hm ⊢ <;> grind
    · intro a ha' hst
      rcases List.mem_append.mp ha' with hp | hr
      · clear h3 h2
        cases ha <;> simp at hp <;> subst hp <;> simp_all [PC.stopping, Cont.stops]
      · exact hm (h3 a hr hst)
  · exact fun g ts q z c h _ => ⟨h.1, by simpa [PC.stopping] using h.2⟩
  · exact fun g ts q z c h _ => ⟨h.1, by simpa [PC.stopping] using h.2⟩
  · exact fun g ts q h _ => ⟨h.1, by simpa [PC.stopping] using h.2⟩
  · exact fun g ts q z h _ => ⟨h.1, by simpa [PC.stopping, Cont.stops] using h.2⟩
  · exact fun g ts h _ => ⟨h.1, by simpa [PC.stopping] using h.2⟩
  · exact fun g ts h _ => ⟨h.1, by simpa [PC.stopping] using h.2⟩
  · exact fun g ts h _ => h

/-- Once the transport is closed and nobody is about to register a connection, no `Dial` succeeds. -/
theorem refuses_for_ever {s s' : State} (h1 : s.g.active = false) (h2 : ∀ p, .d7 p ∉ s.threads)
    (h : From (fun _ _ => True) s s') (p : Nat) (hd : Ev.dialEnd p true ∈ s'.g.log) : Ev.dialEnd p true ∈ s.g.log := by
  have := From.inv (ok := fun _ _ => True)
    (I := fun g ts => g.active = false ∧ (∀ p, .d7 p ∉ ts) ∧ (Ev.dialEnd p true ∈ g.log → Ev.dialEnd p true ∈ s.g.log))
    ?_ ?_ ?_ ?_ ?_ ?_ ?_ ?_ ?_ ⟨h1, h2, id⟩ h
  · exact this.2.2 hd
  · exact fun g ts ts' h hp => ⟨h.1, fun p hm => h.2.1 p (hp.mem_iff.mpr hm), h.2.2⟩
  · intro g pc rest ts ch conns g' pcs h _ _ _ ha
    obtain ⟨h1, h2, h3⟩ := h
    have h4 : ∀ q, pc ≠ .d7 q := fun q e => h2 q (by simp [e])
    have h5 : ∀ q, .d7 q ∉ rest := fun q hm => h2 q (List.mem_cons_of_mem _ hm)
    refine ⟨?_, ?_, ?_⟩
    · clear h2 h3 h5; cases ha <;> simp_all
    · intro q hm
      rcases List.mem_append.mp hm with hm | hm
      · clear h2 h3 h5
        cases ha <;> simp at hm
        simp_all
      · exact h5 q hm
    · intro hd
      rcases ha.dialEnd p hd with hd | ⟨e, -⟩
      · exact h3 hd
      · exact absurd e (h4 p)
  all_goals intros; simp_all

/-- A write that failed because nothing was written has kept the writer lock. -/
theorem noData_reachable {ok : State → Label → Prop} {size : Nat} {s : State} (h : ReachableIf size ok s) (p : Nat)
    (x : Side) (msg : Bytes) (hn : Ev.writeEnd p x msg .noData ∈ s.g.log) :
    (s.g.sock p x).writerLock = true ∧ ∀ a ∈ s.threads, a.wr p x = false := by
  have := From.inv (ok := ok) (I := fun g ts => (Locks g ts p x ∧ (∀ p x m, .w10 p x m .noData ∉ ts)) ∧
    (Ev.writeEnd p x msg .noData ∈ g.log → (g.sock p x).writerLock = true ∧ ∀ a ∈ ts, a.wr p x = false))
    ?_ ?_ ?_ ?_ ?_ ?_ ?_ ?_ ?_ ⟨⟨Locks.initial size p x, by simp [init]⟩, by simp [init]⟩ h
  · exact this.2 hn
  · exact fun g ts ts' h hp => ⟨⟨h.1.1.perm hp, fun p x m hm => h.1.2 p x m (hp.mem_iff.mpr hm)⟩,
      fun hm => ⟨(h.2 hm).1, fun a ha => (h.2 hm).2 a (hp.mem_iff.mpr ha)⟩⟩
  · intro g pc rest ts ch conns g' pcs h _ _ _ ha
    obtain ⟨⟨hl, hno⟩, hi⟩ := h
    refine ⟨⟨hl.acts ha, fun q z m hm => ?_⟩, fun hm => ?_⟩
    · rcases List.mem_append.mp hm with hm | hm
      · clear hl hno hi
        cases ha <;> simp at hm
        split at hm <;> simp at hm
      · exact hno q z m (List.mem_cons_of_mem _ hm)
    have hex := (Excl.cons.mp hl.exclW).1
    have hlw := hl.lockW pc List.mem_cons_self
    have hno' : ∀ p x m, pc ≠ .w10 p x m .noData := fun p x m e => hno p x m (by simp [e])
    have hi2 : Ev.writeEnd p x msg .noData ∈ g.log →
        (g.sock p x).writerLock = true ∧ pc.wr p x = false ∧ ∀ a ∈ rest, a.wr p x = false := fun hm =>
      ⟨(hi hm).1, (hi hm).2 pc List.mem_cons_self, fun a ha => (hi hm).2 a (List.mem_cons_of_mem _ ha)⟩
    clear hl hi hno
    suffices ((g'.sock p x).writerLock = true ∧ ∀ a ∈ pcs, a.wr p x = false) ∧ ∀ a ∈ rest, a.wr p x = false by
      refine ⟨this.1.1, fun a ha => ?_⟩
      rcases List.mem_append.mp ha with ha | ha
      · exact this.1.2 a ha
      · exact this.2 a ha
    have hold : Ev.writeEnd p x msg .noData ∈ g.log ∨ pc = .w4 p x msg := by
      clear hex hlw hi2
      cases ha <;> simp at hm hno' ⊢ <;> grind
    rcases hold with hold | rfl
    · obtain ⟨h1, h2, h3⟩ := hi2 hold
      refine ⟨?_, h3⟩
      clear h3 hi2 hex hm hlw hold hno'
      cases ha <;> simp [PC.wr, Sock.setChan, Sock.reset, Sock.put] at h1 h2 ⊢ <;> grind
    · have hw : PC.wr p x (.w4 p x msg) = true := by simp [PC.wr]
      refine ⟨?_, hex hw⟩
      have hlw := hlw hw
      cases ha with
      | w4a _ _ _ h1 h2 => simpa using hlw
      | w4b _ _ _ h1 h2 =>
        have := (hi2 (by simpa using hm)).2.1
        rw [hw] at this; cases this
  · exact fun g ts q z c h _ => ⟨⟨h.1.1.add rfl rfl rfl, by simpa using h.1.2⟩, by simpa [PC.wr] using h.2⟩
  · exact fun g ts q z c h _ => ⟨⟨h.1.1.add rfl rfl rfl, by simpa using h.1.2⟩, by simpa [PC.wr] using h.2⟩
  · exact fun g ts q h _ => ⟨⟨h.1.1.add rfl rfl rfl, by simpa using h.1.2⟩, by simpa [PC.wr] using h.2⟩
  · exact fun g ts q z h _ => ⟨⟨h.1.1.add rfl rfl rfl, by simpa using h.1.2⟩, by simpa [PC.wr] using h.2⟩
  · exact fun g ts h _ => ⟨⟨h.1.1.add rfl rfl rfl, by simpa using h.1.2⟩, by simpa [PC.wr] using h.2⟩
  · exact fun g ts h _ => ⟨⟨h.1.1.add rfl rfl rfl, by simpa using h.1.2⟩, by simpa [PC.wr] using h.2⟩
  · intro g ts h _
    obtain ⟨⟨⟨h1, h2, h3, h4, h5, h6⟩, h7⟩, h8⟩ := h
    exact ⟨⟨⟨h1, h2, h3, h4, h5, h6⟩, h7⟩, h8⟩

/-- Inside a call on that pair, past the check of the status. -/
def PC.busy (p : Nat) : PC → Bool
  | .w3 q .. | .w4 q .. | .w5 q .. | .w6 q .. | .w7 q .. | .w8 q .. | .r3 q .. | .r4 q .. | .r5 q .. | .r6 q .. | .r7 q ..
  | .c2 q .. | .c3 q .. | .c4 q .. | .c5 q .. | .c6 q .. => decide (q = p)
  | _ => false

/-- A writer that waits for a confirmation after everybody else has left waits for ever. -/
theorem hangs_for_ever {s s' : State} {p : Nat} {m : Bytes} (h1 : .w9 p .srv m ∈ s.threads)
    (h2 : s.g.connected p = false) (h3 : (s.g.sock p .clt).recv = .waiting) (h4 : Ev.dialEnd p true ∈ s.g.log)
    (h5 : ∀ a ∈ s.threads, a.busy p = false ∧ a.dials p = false) (h : From OneLife s s') :
    .w9 p .srv m ∈ s'.threads ∧ (s'.g.sock p .clt).recv = .waiting := by
  have := From.inv (ok := OneLife) (I := fun g ts => .w9 p .srv m ∈ ts ∧ g.connected p = false ∧
    (g.sock p .clt).recv = .waiting ∧ Ev.dialEnd p true ∈ g.log ∧ ∀ a ∈ ts, a.busy p = false ∧ a.dials p = false)
    ?_ ?_ ?_ ?_ ?_ ?_ ?_ ?_ ?_ ⟨h1, h2, h3, h4, h5⟩ h
  · exact ⟨this.1, this.2.2.1⟩
  · exact fun g ts ts' h hp => ⟨hp.mem_iff.mp h.1, h.2.1, h.2.2.1, h.2.2.2.1,
      fun a ha => h.2.2.2.2 a (hp.mem_iff.mpr ha)⟩
  · intro g pc rest ts ch conns g' pcs h _ _ _ ha
    obtain ⟨h1, h2, h3, h4, h5⟩ := h
    have hpc := h5 pc List.mem_cons_self
    have hr : ∀ a ∈ rest, a.busy p = false ∧ a.dials p = false := fun a ha => h5 a (List.mem_cons_of_mem _ ha)
    have hlog := ha.logs h4
    have hne : pc ≠ .w9 p .srv m := by
      rintro rfl
      clear h1 h5 hpc hr hlog
      cases ha
      simp_all [Side.other]
    have hm : .w9 p .srv m ∈ rest := by
      rcases List.mem_cons.mp h1 with e | hm
      · exact absurd e.symm hne
      · exact hm
    have key : g'.connected p = false ∧ (g'.sock p .clt).recv = .waiting ∧
        ∀ a ∈ pcs, a.busy p = false ∧ a.dials p = false := by
      clear h1 h5 hr hlog hm h4
      cases ha <;> simp [PC.busy, PC.dials, Sock.setChan, Sock.reset, Sock.put] at hpc h2 h3 hne ⊢ <;>
        grind [Side.other]
    refine ⟨List.mem_append.mpr (.inr hm), key.1, key.2.1, hlog, fun a ha => ?_⟩
    rcases List.mem_append.mp ha with ha | ha
    · exact key.2.2 a ha
    · exact hr a ha
  · exact fun g ts q z c h _ => ⟨List.mem_cons_of_mem _ h.1, h.2.1, h.2.2.1, h.2.2.2.1,
      by simpa [PC.busy, PC.dials] using h.2.2.2.2⟩
  · exact fun g ts q z c h _ => ⟨List.mem_cons_of_mem _ h.1, h.2.1, h.2.2.1, h.2.2.2.1,
      by simpa [PC.busy, PC.dials] using h.2.2.2.2⟩
  · intro g ts q h ho
    have hq : q ≠ p := by rintro rfl; exact ho.2 h.2.2.2.1
    exact ⟨List.mem_cons_of_mem _ h.1, h.2.1, h.2.2.1, h.2.2.2.1, by simpa [PC.busy, PC.dials, hq] using h.2.2.2.2⟩
  · exact fun g ts q z h _ => ⟨List.mem_cons_of_mem _ h.1, h.2.1, h.2.2.1, h.2.2.2.1,
      by simpa [PC.busy, PC.dials] using h.2.2.2.2⟩
  · exact fun g ts h _ => ⟨List.mem_cons_of_mem _ h.1, h.2.1, h.2.2.1, h.2.2.2.1,
      by simpa [PC.busy, PC.dials] using h.2.2.2.2⟩
  · exact fun g ts h _ => ⟨List.mem_cons_of_mem _ h.1, h.2.1, h.2.2.1, h.2.2.2.1,
      by simpa [PC.busy, PC.dials] using h.2.2.2.2⟩
  · exact fun g ts h _ => h

theorem the_of_mem {P : PC → Bool} {ts : List PC} {a : PC} (h : Excl P ts) (hm : a ∈ ts) (hp : P a = true) :
    the P ts = some a := by
  obtain ⟨l, r, rfl⟩ := List.append_of_mem hm
  have hperm : (l ++ a :: r).Perm (a :: (l ++ r)) := List.perm_middle
  rw [the, find_perm h hperm]
  simp [hp]

/-- The states of a `Dial` with nobody else around. -/
inductive Dialled (g : G) (p : Nat) (g' : G) : List PC → Prop
  | d1 : g' = g → Dialled g p g' [.d1 p]
  | d2 : g' = g → Dialled g p g' [.d2 p]
  | mid (a : PC) : a = .d3 p ∨ a = .d4 p ∨ a = .d5 p ∨ (a = .d6 p ∧ g.shuttingDown = false) ∨
      (a = .d7 p ∧ g.shuttingDown = false ∧ g.active = true) →
      g.connected p = false → g'.connected p = true → g'.log = g.log → g'.listed p = g.listed p →
      g'.active = g.active → g'.shuttingDown = g.shuttingDown → Dialled g p g' [a]
  | fail : g'.log = g.log ++ [.dialEnd p false] → g'.listed p = g.listed p →
      (g'.connected p = g.connected p ∨ (g.connected p = false ∧ (g.shuttingDown = true ∨ g.active = false))) →
      Dialled g p g' []
  | ok : g'.log = g.log ++ [.dialEnd p true] → g.connected p = false → g.shuttingDown = false → g.active = true →
      g'.connected p = true → g'.listed p = true → Dialled g p g' []

/-- A `Dial` with nobody else around: its state after each step. -/
theorem dial_alone {g g' : G} {p : Nat} (h : From NoCall ⟨g, [.d1 p]⟩ ⟨g', []⟩) :
    (g'.log = g.log ++ [.dialEnd p false] ∧ g'.listed p = g.listed p ∧
      (g'.connected p = g.connected p ∨
        (g.connected p = false ∧ (g.shuttingDown = true ∨ g.active = false)))) ∨
    (g'.log = g.log ++ [.dialEnd p true] ∧ g.connected p = false ∧ g.shuttingDown = false ∧ g.active = true ∧
      g'.connected p = true ∧ g'.listed p = true) := by
  have := From.inv (ok := NoCall) (I := fun g' ts => Dialled g p g' ts) ?_ ?_ ?_ ?_ ?_ ?_ ?_ ?_ ?_ (.d1 rfl) h
  · cases this with
    | fail h1 h2 h3 => exact .inl ⟨h1, h2, h3⟩
    | ok h1 h2 h3 h4 h5 h6 => exact .inr ⟨h1, h2, h3, h4, h5, h6⟩
  · intro g' ts ts' h hp
    cases ts with
    | nil => rw [List.nil_perm.mp hp]; exact h
    | cons a t =>
      have : t = [] := by cases h <;> rfl
      subst this
      rw [← List.singleton_perm.mp hp]; exact h
  · intro g1 pc rest ts ch conns g2 pcs h _ _ _ ha
    have hr : rest = [] := by cases h <;> rfl
    subst hr
    rw [List.append_nil]
    cases h with
    | d1 e =>
      subst e
      cases ha with
      | d1a => exact .fail (by simp) (by simp) (by simp)
      | d1b => exact .d2 rfl
    | d2 e =>
      subst e
      cases ha with
      | d2a _ h => exact .fail (by simp) (by simp) (by simp)
      | d2b _ h => exact .mid _ (by simp) h (by simp) (by simp) (by simp) (by simp) (by simp)
    | mid _ h1 h2 h3 h4 h5 h6 h7 =>
      rcases h1 with rfl | rfl | rfl | ⟨rfl, h8⟩ | ⟨rfl, h8, h9⟩
      · cases ha with
        | d3 _ h => exact .mid _ (by simp) h2 (by simpa) (by simpa) (by simpa) (by simpa) (by simpa)
      · cases ha with
        | d4 _ h => exact .mid _ (by simp) h2 (by simpa) (by simpa) (by simpa) (by simpa) (by simpa)
      · cases ha with
        | d5a _ h => exact .fail (by simp [h4]) (by simp [h5]) (.inr ⟨h2, .inl (by rw [← h7]; exact h)⟩)
        | d5b _ h => exact .mid _ (by rw [← h7]; simp [h]) h2 (by simpa) (by simpa) (by simpa) (by simpa) (by simpa)
      · cases ha with
        | d6b _ h => exact .fail (by simp [h4]) (by simp [h5]) (.inr ⟨h2, .inr (by rw [← h6]; exact h)⟩)
        | d6a _ h => exact .mid _ (by rw [← h6]; simp [h, h8]) h2 (by simpa) (by simpa) (by simpa) (by simpa) (by simpa)
      · cases ha with
        | d7 => exact .ok (by simp [h4]) h2 h8 h9 (by simpa) (by simp)
  all_goals intros; simp_all [NoCall]

end Webwire.Mem
