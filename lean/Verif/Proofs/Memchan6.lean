import Verif.Proofs.Memchan5

/-!
# memchan: locks that are kept, closing, and shutting down
-/

set_option autoImplicit false

namespace Webwire.Mem

section
variable {g g' : G} {pc : PC} {pcs rest ts : List PC} {p : Nat} {x : Side} {size : Nat}

/-! ## Locks are released again, if every message can be written -/

/-- The buffer of one side, if only messages that fit are written. -/
structure Fits (size : Nat) (g : G) (ts : List PC) (p : Nat) (x : Side) : Prop where
  arr : (g.sock p x).arr.length = size
  todo1 : ∀ chunks, .w1 p x chunks ∈ ts → 0 < chunks.flatten.length ∧ chunks.flatten.length ≤ size
  todo2 : ∀ chunks, .w2 p x chunks ∈ ts → 0 < chunks.flatten.length ∧ chunks.flatten.length ≤ size
  w3 : ∀ m chunks, .w3 p x m chunks ∈ ts →
    ((g.sock p x).bufLock = true → 0 < chunks.flatten.length ∧ chunks.flatten.length ≤ size) ∧
    ((g.sock p x).bufLock = false → 0 < (g.sock p x).len + chunks.flatten.length ∧
      (g.sock p x).len + chunks.flatten.length ≤ size)
  w4 : ∀ m, .w4 p x m ∈ ts → (g.sock p x).bufLock = false ∧ 0 < (g.sock p x).len
  idle : (g.sock p x).bufLock = false → (∀ a ∈ ts, a.early p x = false) → (g.sock p x).len = 0
  heldW : (g.sock p x).writerLock = true → ∃ a ∈ ts, a.wr p x = true
  heldB : (g.sock p x).bufLock = true → ∃ a ∈ ts, a.bf p x = true

theorem Fits.perm (h : Fits size g ts p x) {ts' : List PC} (hp : ts.Perm ts') : Fits size g ts' p x := by
  have hm : ∀ a, a ∈ ts' ↔ a ∈ ts := fun a => hp.mem_iff.symm
  obtain ⟨h1, h2, h3, h4, h5, h6, h7, h8⟩ := h
  constructor <;> (try simp only [hm]) <;> assumption

/-- A step of somebody else. -/
theorem Fits.other (h : Fits size g (pc :: rest) p x) (h1 : pc.writes p x = false)
    (h2 : ∀ a ∈ pcs, a.writes p x = false)
    (e1 : (g'.sock p x).arr = (g.sock p x).arr) (e2 : (g'.sock p x).len = (g.sock p x).len)
    (e3 : (g'.sock p x).bufLock = (g.sock p x).bufLock) (e4 : (g'.sock p x).writerLock = (g.sock p x).writerLock) :
    Fits size g' (pcs ++ rest) p x := by
  have hw : ∀ a : PC, a.wr p x = true → a.writes p x = true := by
    intro a; cases a <;> simp [PC.wr, PC.writes]
  have hb : ∀ a : PC, a.bf p x = true → a.writes p x = true := by
    intro a; cases a <;> simp [PC.bf, PC.writes]
  have he : ∀ a : PC, a.early p x = true → a.writes p x = true := by
    intro a; cases a <;> simp [PC.early, PC.writes]
  have hmem : ∀ a : PC, a.writes p x = true → (a ∈ pcs ++ rest ↔ a ∈ pc :: rest) := by
    intro a ha
    simp only [List.mem_append, List.mem_cons]
    constructor
    · rintro (h | h)
      · simp [h2 a h] at ha
      · exact .inr h
    · rintro (rfl | h)
      · simp [h1] at ha
      · exact .inr h
  obtain ⟨g1, g2, g3, g4, g5, g6, g7, g8⟩ := h
  constructor
  · rw [e1]; exact g1
  · intro c hc; exact g2 c ((hmem _ (by simp [PC.writes])).mp hc)
  · intro c hc; exact g3 c ((hmem _ (by simp [PC.writes])).mp hc)
  · intro m c hc; rw [e2, e3]; exact g4 m c ((hmem _ (by simp [PC.writes])).mp hc)
  · intro m hc; rw [e2, e3]; exact g5 m ((hmem _ (by simp [PC.writes])).mp hc)
  · rw [e2, e3]; intro hl ha
    refine g6 hl fun a hm => ?_
    cases hea : a.early p x
    · rfl
    · rw [← hea]; exact ha a ((hmem a (he a hea)).mpr hm)
  · rw [e4]; intro hl; obtain ⟨a, ha, hwa⟩ := g7 hl; exact ⟨a, (hmem a (hw a hwa)).mpr ha, hwa⟩
  · rw [e3]; intro hl; obtain ⟨a, ha, hwa⟩ := g8 hl; exact ⟨a, (hmem a (hb a hwa)).mpr ha, hwa⟩

theorem wr_of_early {a : PC} (h : a.early p x = true) : a.wr p x = true := by
  cases a <;> simp_all [PC.wr, PC.early]

theorem wr_early {a : PC} (h : a.wr p x = false) : a.early p x = false := by
  cases he : a.early p x
  · rfl
  · rw [wr_of_early he] at h; cases h

/-- What the others are doing while somebody has the writer lock. -/
structure Alone (rest : List PC) (p : Nat) (x : Side) : Prop where
  noWr : ∀ a ∈ rest, a.wr p x = false
  noEarly : ∀ a ∈ rest, a.early p x = false
  no2 : ∀ c, .w2 p x c ∉ rest
  no3 : ∀ m c, .w3 p x m c ∉ rest
  no4 : ∀ m, .w4 p x m ∉ rest

theorem Alone.of (h : ∀ a ∈ rest, a.wr p x = false) : Alone rest p x := by
  refine ⟨h, fun a ha => wr_early (h a ha), fun c hm => ?_, fun m c hm => ?_, fun m hm => ?_⟩ <;>
    simpa [PC.wr] using h _ hm

theorem Fits.build (al : Alone rest p x) (h1 : (g.sock p x).arr.length = size)
    (h2 : ∀ chunks, .w1 p x chunks ∈ rest → 0 < chunks.flatten.length ∧ chunks.flatten.length ≤ size)
    (h2' : ∀ chunks, .w1 p x chunks ∉ pcs)
    (h3 : ∀ chunks, .w2 p x chunks ∈ pcs → 0 < chunks.flatten.length ∧ chunks.flatten.length ≤ size)
    (h4 : ∀ m chunks, .w3 p x m chunks ∈ pcs →
      ((g.sock p x).bufLock = true → 0 < chunks.flatten.length ∧ chunks.flatten.length ≤ size) ∧
      ((g.sock p x).bufLock = false → 0 < (g.sock p x).len + chunks.flatten.length ∧
        (g.sock p x).len + chunks.flatten.length ≤ size))
    (h5 : ∀ m, .w4 p x m ∈ pcs → (g.sock p x).bufLock = false ∧ 0 < (g.sock p x).len)
    (h6 : (g.sock p x).bufLock = false → (∀ a ∈ pcs, a.early p x = false) → (g.sock p x).len = 0)
    (h7 : (g.sock p x).writerLock = true → ∃ a ∈ pcs, a.wr p x = true)
    (h8 : (g.sock p x).bufLock = true → (∃ a ∈ pcs, a.bf p x = true) ∨ ∃ a ∈ rest, a.bf p x = true) :
    Fits size g (pcs ++ rest) p x := by
  obtain ⟨n1, n2, n3, n4, n5⟩ := al
  constructor <;> (try simp only [List.mem_append])
  · exact h1
  · rintro c (h | h)
    · exact absurd h (h2' c)
    · exact h2 c h
  · rintro c (h | h)
    · exact h3 c h
    · exact absurd h (n3 c)
  · rintro m c (h | h)
    · exact h4 m c h
    · exact absurd h (n4 m c)
  · rintro m (h | h)
    · exact h5 m h
    · exact absurd h (n5 m)
  · exact fun hb h => h6 hb fun a ha => h a (.inl ha)
  · intro h; obtain ⟨a, ha, hw⟩ := h7 h; exact ⟨a, .inl ha, hw⟩
  · intro h
    obtain ⟨a, ha, hw⟩ | ⟨a, ha, hw⟩ := h8 h
    · exact ⟨a, .inl ha, hw⟩
    · exact ⟨a, .inr ha, hw⟩

set_option maxHeartbeats 1000000 in
theorem Fits.acts (hl : Locks g (pc :: rest) p x) (h : Fits size g (pc :: rest) p x) (ha : Acts g pc g' pcs) :
    Fits size g' (pcs ++ rest) p x := by
  by_cases hw : pc.writes p x = true
  case neg =>
    have hw : pc.writes p x = false := by simpa using hw
    refine Fits.other h hw ?_ ?_ ?_ ?_ ?_
    · clear h hl; cases ha <;> simp_all [PC.writes]
    all_goals clear h hl; cases ha <;> simp [Sock.setChan, Sock.reset, Sock.put] <;> simp [PC.writes] at hw <;> grind
  have hW : pc.wr p x = true → Alone rest p x := fun h => .of ((Excl.cons.mp hl.exclW).1 h)
  have hB : pc.bf p x = true → ¬ ∃ a ∈ rest, a.bf p x = true := by
    intro h ⟨a, ha, hb⟩
    rw [(Excl.cons.mp hl.exclB).1 h a ha] at hb; cases hb
  have hN : (g.sock p x).writerLock = false → Alone rest p x := by
    clear hW hB ha
    intro h
    refine .of fun a ha => ?_
    cases hh : a.wr p x
    · rfl
    · have := hl.lockW a (List.mem_cons_of_mem _ ha) hh; rw [h] at this; cases this
  have hBL : pc.bf p x = true → (g.sock p x).bufLock = true := hl.lockB pc (List.mem_cons_self)
  have g6 : Alone rest p x → pc.early p x = false → (g.sock p x).bufLock = false → (g.sock p x).len = 0 := by
    intro al he hb
    refine h.idle hb fun a ha => ?_
    rcases List.mem_cons.mp ha with rfl | ha
    · exact he
    · exact al.noEarly a ha
  have g8 : (g.sock p x).bufLock = true → pc.bf p x = true ∨ ∃ a ∈ rest, a.bf p x = true := by
    intro hb
    obtain ⟨a, ha, hw'⟩ := h.heldB hb
    rcases List.mem_cons.mp ha with rfl | ha
    · exact .inl hw'
    · exact .inr ⟨a, ha, hw'⟩
  obtain ⟨g1, g2, g3, g4, g5, -, g7, -⟩ := h
  have g2' : ∀ chunks, .w1 p x chunks ∈ rest → 0 < chunks.flatten.length ∧ chunks.flatten.length ≤ size :=
    fun c h => g2 c (List.mem_cons_of_mem _ h)
  have g1' : ∀ chunks, pc = .w1 p x chunks → 0 < chunks.flatten.length ∧ chunks.flatten.length ≤ size :=
    fun c h => g2 c (by rw [h]; exact List.mem_cons_self)
  have g3' : ∀ chunks, pc = .w2 p x chunks → 0 < chunks.flatten.length ∧ chunks.flatten.length ≤ size :=
    fun c h => g3 c (by rw [h]; exact List.mem_cons_self)
  have g4' : ∀ m chunks, pc = .w3 p x m chunks → _ := fun m c h => g4 m c (by rw [h]; exact List.mem_cons_self)
  have g5' : ∀ m, pc = .w4 p x m → _ := fun m h => g5 m (by rw [h]; exact List.mem_cons_self)
  have g7' : pc.wr p x = false → (g.sock p x).writerLock = true → ¬ Alone rest p x := by
    intro h1 h2 al
    obtain ⟨a, ha, hw'⟩ := g7 h2
    rcases List.mem_cons.mp ha with rfl | ha
    · simp [h1] at hw'
    · simp [al.noWr a ha] at hw'
  clear hl
  cases ha <;> simp only [PC.writes, decide_eq_true_eq, Bool.false_eq_true] at hw <;>
    obtain ⟨e1, e2⟩ := hw <;> replace e1 := e1.symm <;> replace e2 := e2.symm <;> subst e1 e2
  case w10 =>
    have hb := hB (by simp [PC.bf])
    have hbl := hBL (by simp [PC.bf])
    clear hB hBL g1' g3' g4' g5' g7' g6 g8 hN hW g2'
    constructor <;> simp
    · exact g1
    · simpa using g2
    · simpa using g3
    · intro m c h
      have := (g4 m c (by simp [h])).1 hbl
      simp at this
      omega
    · intro m h
      have := g5 m (by simp [h])
      simp [hbl] at this
    · intro h
      obtain ⟨a, ha, hw⟩ := g7 h
      rcases List.mem_cons.mp ha with rfl | ha
      · simp [PC.wr] at hw
      · exact ⟨a, ha, hw⟩
  case w1 h0 =>
    have al := hN h0
    have g6 := g6 al
    clear hW hB hN hBL g7 g7' g2 g3 g4 g5
    refine Fits.build al ?_ g2' ?_ ?_ ?_ ?_ ?_ ?_ ?_ <;> clear g2' al <;>
      generalize (∃ a ∈ rest, a.bf p x = true) = Q at g8 ⊢ <;>
      simp [PC.early, PC.wr, PC.bf] at g6 g8 g1' ⊢ <;> grind
  all_goals
    have al := hW (by simp [PC.wr])
    have g6 := g6 al
    clear hW hN g7 g7' g2 g3 g4 g5
    refine Fits.build al ?_ g2' ?_ ?_ ?_ ?_ ?_ ?_ ?_ <;> clear g2' al <;>
      generalize (∃ a ∈ rest, a.bf p x = true) = Q at g8 hB ⊢ <;>
      simp [PC.early, PC.wr, PC.bf, Sock.put, Sock.setChan] at g3' g4' g5' g6 g8 hB hBL ⊢ <;> grind

theorem Fits.initial (size p : Nat) (x : Side) : Fits size (init size).g (init size).threads p x := by
  constructor <;> simp [init, G.sock]

theorem Fits.add {a : PC} (h : Fits size g ts p x) (h1 : a.early p x = false)
    (h2 : ∀ chunks, a = .w1 p x chunks → 0 < chunks.flatten.length ∧ chunks.flatten.length ≤ size)
    (h3 : a.wr p x = false) : Fits size g (a :: ts) p x := by
  obtain ⟨g1, g2, g3, g4, g5, g6, g7, g8⟩ := h
  constructor
  · exact g1
  · intro c hm
    rcases List.mem_cons.mp hm with e | hm
    · exact h2 c e.symm
    · exact g2 c hm
  · intro c hm
    rcases List.mem_cons.mp hm with rfl | hm
    · simp [PC.wr] at h3
    · exact g3 c hm
  · intro m c hm
    rcases List.mem_cons.mp hm with rfl | hm
    · simp [PC.wr] at h3
    · exact g4 m c hm
  · intro m hm
    rcases List.mem_cons.mp hm with rfl | hm
    · simp [PC.wr] at h3
    · exact g5 m hm
  · exact fun hb h => g6 hb fun a ha => h a (List.mem_cons_of_mem _ ha)
  · intro h; obtain ⟨a, ha, hw⟩ := g7 h; exact ⟨a, List.mem_cons_of_mem _ ha, hw⟩
  · intro h; obtain ⟨a, ha, hw⟩ := g8 h; exact ⟨a, List.mem_cons_of_mem _ ha, hw⟩

end

theorem Locks.reachable {ok : State → Label → Prop} {size : Nat} {s : State} (h : ReachableIf size ok s) (p : Nat)
    (x : Side) : Locks s.g s.threads p x := by
  refine From.inv (ok := ok) (I := fun g ts => Locks g ts p x) ?_ ?_ ?_ ?_ ?_ ?_ ?_ ?_ ?_ (Locks.initial size p x) h
  · exact fun g ts ts' h hp => h.perm hp
  · exact fun g pc rest ts ch conns g' pcs h _ _ _ ha => h.acts ha
  · exact fun g ts q z c h _ => h.add rfl rfl rfl
  · exact fun g ts q z c h _ => h.add rfl rfl rfl
  · exact fun g ts q h _ => h.add rfl rfl rfl
  · exact fun g ts q z h _ => h.add rfl rfl rfl
  · exact fun g ts h _ => h.add rfl rfl rfl
  · exact fun g ts h _ => h.add rfl rfl rfl
  · exact fun g ts h _ => by obtain ⟨h1, h2, h3, h4, h5, h6⟩ := h; exact ⟨h1, h2, h3, h4, h5, h6⟩

/-- If every message can be written, the locks are held only by goroutines that are going to release them. -/
theorem Fits.reachable {size : Nat} {s : State} (h : ReachableIf size (GoodWrites size) s) (p : Nat) (x : Side) :
    Locks s.g s.threads p x ∧ Fits size s.g s.threads p x := by
  refine From.inv (ok := GoodWrites size) (I := fun g ts => Locks g ts p x ∧ Fits size g ts p x) ?_ ?_ ?_ ?_ ?_ ?_ ?_
    ?_ ?_ ⟨Locks.initial size p x, Fits.initial size p x⟩ h
  · exact fun g ts ts' h hp => ⟨h.1.perm hp, h.2.perm hp⟩
  · exact fun g pc rest ts ch conns g' pcs h _ _ _ ha => ⟨h.1.acts ha, h.2.acts h.1 ha⟩
  · exact fun g ts q z c h ho => ⟨h.1.add rfl rfl rfl, h.2.add rfl (fun c' e => by cases e; exact ho) rfl⟩
  · exact fun g ts q z c h _ => ⟨h.1.add rfl rfl rfl, h.2.add rfl (fun _ e => by cases e) rfl⟩
  · exact fun g ts q h _ => ⟨h.1.add rfl rfl rfl, h.2.add rfl (fun _ e => by cases e) rfl⟩
  · exact fun g ts q z h _ => ⟨h.1.add rfl rfl rfl, h.2.add rfl (fun _ e => by cases e) rfl⟩
  · exact fun g ts h _ => ⟨h.1.add rfl rfl rfl, h.2.add rfl (fun _ e => by cases e) rfl⟩
  · exact fun g ts h _ => ⟨h.1.add rfl rfl rfl, h.2.add rfl (fun _ e => by cases e) rfl⟩
  · intro g ts h _
    obtain ⟨⟨h1, h2, h3, h4, h5, h6⟩, g1, g2, g3, g4, g5, g6, g7, g8⟩ := h
    exact ⟨⟨h1, h2, h3, h4, h5, h6⟩, g1, g2, g3, g4, g5, g6, g7, g8⟩

/-- A writer lock that nobody has, but that is locked, stays locked. -/
theorem stuck_for_ever {s s' : State} {p : Nat} {x : Side} (h1 : (s.g.sock p x).writerLock = true)
    (h2 : ∀ a ∈ s.threads, a.wr p x = false) (h : From (fun _ _ => True) s s') :
    (s'.g.sock p x).writerLock = true ∧ ∀ a ∈ s'.threads, a.wr p x = false := by
  refine From.inv (ok := fun _ _ => True)
    (I := fun g ts => (g.sock p x).writerLock = true ∧ ∀ a ∈ ts, a.wr p x = false) ?_ ?_ ?_ ?_ ?_ ?_ ?_ ?_ ?_ ⟨h1, h2⟩ h
  · exact fun g ts ts' h hp => ⟨h.1, fun a ha => h.2 a (hp.mem_iff.mpr ha)⟩
  · intro g pc rest ts ch conns g' pcs h _ _ _ ha
    have hs := ha.slotW p x
    have hpc := h.2 pc List.mem_cons_self
    have h3 := h.1
    have hr : ∀ a ∈ rest, a.wr p x = false := fun a ha => h.2 a (List.mem_cons_of_mem _ ha)
    clear h
    suffices (g'.sock p x).writerLock = true ∧ ∀ a ∈ pcs, a.wr p x = false by
      refine ⟨this.1, fun a ha => ?_⟩
      rcases List.mem_append.mp ha with h | h
      · exact this.2 a h
      · exact hr a h
    clear hr hs
    cases ha <;> simp [PC.wr, Sock.setChan, Sock.reset, Sock.put] at hpc h3 ⊢ <;> grind
  all_goals intros; simp_all [PC.wr]

end Webwire.Mem
