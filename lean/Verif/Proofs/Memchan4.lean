import Verif.Proofs.Memchan3

/-!
# memchan: the invariant of one direction holds in every execution with one life per pair
-/

set_option autoImplicit false

namespace Webwire.Mem

@[simp] theorem Side.other_inj (x y : Side) : x.other = y.other ↔ x = y := by
  cases x <;> cases y <;> simp [Side.other]
theorem Side.eq_other_iff (x y : Side) : x = y.other ↔ x ≠ y := by
  cases x <;> cases y <;> simp [Side.other]

/-- The goroutine of that kind, if there is one. -/
def the (P : PC → Bool) (ts : List PC) : Option PC := ts.find? P

theorem the_cons (P : PC → Bool) (a : PC) (ts : List PC) : the P (a :: ts) = if P a = true then some a else the P ts := by
  simp only [the, List.find?_cons]; cases P a <;> simp

theorem the_none {P : PC → Bool} {ts : List PC} : the P ts = none ↔ ∀ a ∈ ts, P a = false := by
  simp [the, List.find?_eq_none]

theorem the_mem {P : PC → Bool} {ts : List PC} {a : PC} (h : the P ts = some a) : a ∈ ts ∧ P a = true :=
  ⟨List.mem_of_find?_eq_some h, List.find?_some h⟩

/-- `Core`, of the goroutines. -/
def CoreOf (g : G) (ts : List PC) (p : Nat) (x : Side) : Prop :=
  Core g (the (PC.wr p x) ts) (the (PC.fin p x) ts) (the (PC.rd p x.other) ts) p x

theorem PC.fin_bf {p : Nat} {x : Side} {a : PC} (h : a.fin p x = true) : a.bf p x = true := by
  cases a <;> simp_all [PC.fin, PC.bf]
theorem PC.wr_uses {p : Nat} {x : Side} {a : PC} (h : a.wr p x = true) : a.uses p = true := by
  cases a <;> simp_all [PC.wr, PC.uses]
theorem PC.fin_uses {p : Nat} {x : Side} {a : PC} (h : a.fin p x = true) : a.uses p = true := by
  cases a <;> simp_all [PC.fin, PC.uses]
theorem PC.rd_uses {p : Nat} {x : Side} {a : PC} (h : a.rd p x = true) : a.uses p = true := by
  cases a <;> simp_all [PC.rd, PC.uses]
  all_goals (rename_i k; cases k <;> simp_all [PC.rd])

section
variable {g g' : G} {pc : PC} {pcs rest : List PC} {p : Nat} {x : Side}

/-- A step that does not concern the direction. -/
theorem CoreOf.other (h : CoreOf g (pc :: rest) p x) (s : Same g g' p x)
    (h1 : ∀ a ∈ pc :: pcs, a.wr p x = false) (h2 : ∀ a ∈ pc :: pcs, a.fin p x = false)
    (h3 : ∀ a ∈ pc :: pcs, a.rd p x.other = false) : CoreOf g' (pcs ++ rest) p x := by
  have e : ∀ P : PC → Bool, (∀ a ∈ pc :: pcs, P a = false) → the P (pcs ++ rest) = the P (pc :: rest) := by
    intro P hP
    rw [the_cons, hP pc (by simp)]
    simp only [the, List.find?_append]
    have : pcs.find? P = none := by rw [List.find?_eq_none]; intro a ha; simp [hP a (by simp [ha])]
    simp [this]
  unfold CoreOf
  rw [e _ h1, e _ h2, e _ h3]
  exact Core.same h s

/-- A step of the reader without a message. -/
theorem CoreOf.reader {pc' : Option PC} (h : CoreOf g (pc :: rest) p x) (s : Same g g' p x) (hl : Locks g (pc :: rest) p x.other)
    (h1 : ∀ a ∈ pc :: pc'.toList, a.wr p x = false) (h2 : ∀ a ∈ pc :: pc'.toList, a.fin p x = false)
    (hr : pc.rd p x.other = true ∨ (g.sock p x.other).readLock = false)
    (ht : pc.took p x.other = false)
    (hp : pc = .r7 p x.other → (g.sock p x.other).parked = false)
    (ht' : ∀ a ∈ pc'.toList, a.took p x.other = false ∧ ∀ dl i, a = .r4 p x.other dl i → i = (g.sock p x.other).gen) :
    CoreOf g' (pc'.toList ++ rest) p x := by
  have e : ∀ P : PC → Bool, (∀ a ∈ pc :: pc'.toList, P a = false) → the P (pc'.toList ++ rest) = the P (pc :: rest) := by
    intro P hP
    rw [the_cons, hP pc (by simp)]
    simp only [the, List.find?_append]
    have : pc'.toList.find? P = none := by rw [List.find?_eq_none]; intro a ha; simp [hP a (by simp [ha])]
    simp [this]
  have hn : the (PC.rd p x.other) rest = none := by
    rcases hr with hr | hr
    · exact find_rest hl.exclR hr
    · rw [the_none]; intro a ha
      cases hrd : a.rd p x.other
      · rfl
      · have := hl.lockR a (by simp [ha]) hrd; simp [hr] at this
  unfold CoreOf at h ⊢
  rw [e _ h1, e _ h2]
  refine Core.same ?_ s
  refine Core.swapR h ?_ ?_ ?_ ?_
  · rw [the_cons]; split <;> simp [ht, hn]
  · rw [the_cons]; split
    · simpa using hp
    · simp [hn]
  · cases pc' with
    | none => simp [hn]
    | some a =>
      have := ht' a (by simp)
      simp only [Option.toList, List.cons_append, List.nil_append]
      rw [the_cons]; split <;> simp [this, hn]
  · cases pc' with
    | none => simp [hn]
    | some a =>
      have := ht' a (by simp)
      simp only [Option.toList, List.cons_append, List.nil_append]
      rw [the_cons]; split
      · simpa using this.2
      · simp [hn]

/-- A step of a writer before it has passed the check. -/
theorem CoreOf.writer {pc' : Option PC} (h : CoreOf g (pc :: rest) p x) (s : Same g g' p x) (hl : Locks g (pc :: rest) p x)
    (h1 : ∀ a ∈ pc :: pc'.toList, a.rd p x.other = false) (h2 : ∀ a ∈ pc :: pc'.toList, a.fin p x = false)
    (hr : pc.wr p x = true ∨ (g.sock p x).writerLock = false)
    (ht : ∀ a ∈ pc :: pc'.toList, a.early p x = false ∧ a.sent p x = false) :
    CoreOf g' (pc'.toList ++ rest) p x := by
  have e : ∀ P : PC → Bool, (∀ a ∈ pc :: pc'.toList, P a = false) → the P (pc'.toList ++ rest) = the P (pc :: rest) := by
    intro P hP
    rw [the_cons, hP pc (by simp)]
    simp only [the, List.find?_append]
    have : pc'.toList.find? P = none := by rw [List.find?_eq_none]; intro a ha; simp [hP a (by simp [ha])]
    simp [this]
  have hn : the (PC.wr p x) rest = none := by
    rcases hr with hr | hr
    · exact find_rest hl.exclW hr
    · rw [the_none]; intro a ha
      cases hrd : a.wr p x
      · rfl
      · have := hl.lockW a (by simp [ha]) hrd; simp [hr] at this
  unfold CoreOf at h ⊢
  rw [e _ h1, e _ h2]
  refine Core.same ?_ s
  have hpc := ht pc (by simp)
  refine Core.swapW h ?_ ?_ ?_ ?_
  · rw [the_cons]; split <;> simp [hn, hpc]
  · rw [the_cons]; split <;> simp [hn, hpc]
  · cases pc' with
    | none => simp [hn]
    | some a =>
      have := ht a (by simp)
      simp only [Option.toList, List.cons_append, List.nil_append]
      rw [the_cons]; split <;> simp [this, hn]
  · cases pc' with
    | none => simp [hn]
    | some a =>
      have := ht a (by simp)
      simp only [Option.toList, List.cons_append, List.nil_append]
      rw [the_cons]; split <;> simp [this, hn]

end

/-- Prove `Same`. -/
macro "same" : tactic => `(tactic|
  (constructor <;> simp_all [flushes_ev, copies_ev, oks_ev, Ev.flushOf, Ev.copyOf, Ev.okOf, Sock.chan, Sock.setChan,
    Sock.put] <;> grind))

section
variable {g g' : G} {pc : PC} {pcs rest : List PC} {p : Nat} {x : Side}

theorem Core.reset (h : Core g none none none p x) (hd : Ev.dialEnd p true ∉ g.log) (z : Side) :
    Core (g.upd p z Sock.reset) none none none p x := by
  have hp := h.pre hd
  have ha : (g.sock p x.other).recv = .absent := by
    cases hr : (g.sock p x.other).recv
    · rfl
    all_goals (obtain ⟨m, hm⟩ := h.recvW (by simp [hr]); cases hm)
  have hfc := h.pendNone hp.1 (by simp)
  obtain ⟨g1, g2, g3, g4, g5, g6, g7, g8, g9, g10, g11, g12, g13, g14, g15, g16, g17, g18, g19, g20, g21, g22⟩ := h
  rcases z.eq_or x with rfl | rfl
  all_goals
    constructor <;>
    simp_all [PC.early, PC.sent, PC.took, Sock.chan, Sock.setChan, Sock.reset]

theorem Core.dialled (h : Core g none none none p x) (hd : Ev.dialEnd p true ∉ g.log) :
    Core (g.setConn p true) none none none p x := by
  have hp := h.pre hd
  have ha : (g.sock p x.other).recv = .absent := by
    cases hr : (g.sock p x.other).recv
    · rfl
    all_goals (obtain ⟨m, hm⟩ := h.recvW (by simp [hr]); cases hm)
  have hfc := h.pendNone hp.1 (by simp)
  obtain ⟨g1, g2, g3, g4, g5, g6, g7, g8, g9, g10, g11, g12, g13, g14, g15, g16, g17, g18, g19, g20, g21, g22⟩ := h
  constructor <;> simp_all [PC.early, PC.sent, PC.took]

theorem the_life (hi : Life g (pc :: rest) p) (hd : pc.dials p = true) {P : PC → Bool}
    (hP : ∀ a, P a = true → a.uses p = true) : the P rest = none := by
  rw [the_none]; intro a ha
  cases h : P a
  · rfl
  · exact absurd (hi.uses a (by simp [ha]) (hP a h)) (hi.dials pc (by simp) hd)

set_option maxHeartbeats 4000000 in
set_option linter.unusedSimpArgs false in
theorem CoreOf.acts (hf : Life g (pc :: rest) p) (hl : Locks g (pc :: rest) p x)
    (hl' : Locks g (pc :: rest) p x.other) (h : CoreOf g (pc :: rest) p x) (ha : Acts g pc g' pcs) :
    CoreOf g' (pcs ++ rest) p x := by
  have hW : pc.wr p x = true → the (PC.wr p x) rest = none := find_rest hl.exclW
  have hF : pc.bf p x = true ∨ (g.sock p x).bufLock = false → the (PC.fin p x) rest = none := by
    intro hb
    rw [the_none]
    intro a ha
    cases hfi : a.fin p x
    · rfl
    · rcases hb with hb | hb
      · have := (Excl.cons.mp hl.exclB).1 hb a ha; simp [PC.fin_bf hfi] at this
      · have := hl.lockB a (by simp [ha]) (PC.fin_bf hfi); simp [hb] at this
  have hB : pc.bf p x = true → (the (PC.wr p x) rest).any (PC.bf p x) = false := by
    intro hb
    cases hw : the (PC.wr p x) rest with
    | none => rfl
    | some a => simpa using (Excl.cons.mp hl.exclB).1 hb a (the_mem hw).1
  have hR : pc.rd p x.other = true → the (PC.rd p x.other) rest = none := find_rest hl'.exclR
  have hd : pc.uses p = true → Ev.dialEnd p true ∈ g.log := hf.uses pc (by simp)
  have hcl : pc.closing p = true → g.connected p = false := hf.closing pc (by simp)
  cases ha
  case w1 q z chunks hw =>
    have s : Same g (g.upd q z fun s => { s with writerLock := true }) p x := by same
    by_cases hq : q = p ∧ z = x
    · obtain ⟨rfl, rfl⟩ := hq
      refine CoreOf.writer (pc' := some (.w2 q z chunks)) h s hl ?_ ?_ (.inr hw) ?_ <;>
        simp [PC.rd, PC.fin, PC.early, PC.sent]
    · apply CoreOf.other h s <;> simp [PC.rd, PC.fin, PC.wr] <;> grind
  case w2b q z chunks hw =>
    have s : Same g ((g.upd q z fun s => { s with writerLock := false }).ev (.writeEnd q z chunks.flatten .disconnected))
      p x := by same
    by_cases hq : q = p ∧ z = x
    · obtain ⟨rfl, rfl⟩ := hq
      refine CoreOf.writer (pc' := none) h s hl ?_ ?_ (.inl ?_) ?_ <;>
        simp [PC.rd, PC.fin, PC.early, PC.sent, PC.wr]
    · apply CoreOf.other h s <;> simp [PC.rd, PC.fin, PC.wr] <;> grind
  case w2a q z chunks hc =>
    by_cases hq : q = p ∧ z = x
    · obtain ⟨rfl, rfl⟩ := hq
      have hd := hd (by simp [PC.uses])
      simp only [CoreOf, the_cons, PC.wr, PC.fin, PC.rd, and_self, decide_true, if_true, Bool.false_eq_true, if_false,
        List.cons_append, List.nil_append] at h ⊢
      exact Core.w2 hd h hc
    · refine CoreOf.other h (by same) ?_ ?_ ?_ <;> simp [PC.rd, PC.fin, PC.wr] <;> grind
  case w3a q z m =>
    by_cases hq : q = p ∧ z = x
    · obtain ⟨rfl, rfl⟩ := hq
      have hd := hd (by simp [PC.uses])
      simp only [CoreOf, the_cons, PC.wr, PC.fin, PC.rd, and_self, decide_true, if_true, Bool.false_eq_true, if_false,
        List.cons_append, List.nil_append] at h ⊢
      exact Core.w3a hd h
    · refine CoreOf.other h (by same) ?_ ?_ ?_ <;> simp [PC.rd, PC.fin, PC.wr] <;> grind
  case w3b q z m c cs hb hn =>
    by_cases hq : q = p ∧ z = x
    · obtain ⟨rfl, rfl⟩ := hq
      have hd := hd (by simp [PC.uses])
      have hF := hF (.inr hb)
      simp only [CoreOf, the_cons, PC.wr, PC.fin, PC.rd, and_self, decide_true, if_true, Bool.false_eq_true, if_false,
        List.cons_append, List.nil_append, hF] at h ⊢
      exact Core.w3b h
    · refine CoreOf.other h (by same) ?_ ?_ ?_ <;> simp [PC.rd, PC.fin, PC.wr] <;> grind
  case w3c q z m c cs hb hn =>
    by_cases hq : q = p ∧ z = x
    · obtain ⟨rfl, rfl⟩ := hq
      have hd := hd (by simp [PC.uses])
      have hF := hF (.inr hb)
      simp only [CoreOf, the_cons, PC.wr, PC.fin, PC.rd, and_self, decide_true, if_true, Bool.false_eq_true, if_false,
        List.cons_append, List.nil_append, hF] at h ⊢
      exact Core.w3c h hn
    · refine CoreOf.other h (by same) ?_ ?_ ?_ <;> simp [PC.rd, PC.fin, PC.wr] <;> grind
  case w4a q z m hb hn =>
    by_cases hq : q = p ∧ z = x
    · obtain ⟨rfl, rfl⟩ := hq
      have hd := hd (by simp [PC.uses])
      have hW := hW (by simp [PC.wr])
      have hF := hF (.inr hb)
      simp only [CoreOf, the_cons, PC.wr, PC.fin, PC.rd, and_self, decide_true, if_true, Bool.false_eq_true, if_false,
        List.cons_append, List.nil_append, hW, hF] at h ⊢
      exact Core.w4a hd h hn
    · refine CoreOf.other h (by same) ?_ ?_ ?_ <;> simp [PC.rd, PC.fin, PC.wr] <;> grind
  case w4b q z m hb hn =>
    by_cases hq : q = p ∧ z = x
    · obtain ⟨rfl, rfl⟩ := hq
      have hd := hd (by simp [PC.uses])
      have hF := hF (.inr hb)
      simp only [CoreOf, the_cons, PC.wr, PC.fin, PC.rd, and_self, decide_true, if_true, Bool.false_eq_true, if_false,
        List.cons_append, List.nil_append, hF] at h ⊢
      exact Core.w4b hd h hn
    · refine CoreOf.other h (by same) ?_ ?_ ?_ <;> simp [PC.rd, PC.fin, PC.wr] <;> grind
  case w5a q z m hc =>
    by_cases hq : q = p ∧ z = x
    · obtain ⟨rfl, rfl⟩ := hq
      have hd := hd (by simp [PC.uses])
      have hF := hF (.inl (by simp [PC.bf]))
      simp only [CoreOf, the_cons, PC.wr, PC.fin, PC.rd, and_self, decide_true, if_true, Bool.false_eq_true, if_false,
        List.cons_append, List.nil_append, hF] at h ⊢
      exact Core.w5a hd h
    · refine CoreOf.other h (by same) ?_ ?_ ?_ <;> simp [PC.rd, PC.fin, PC.wr] <;> grind
  case w5b q z m hc =>
    by_cases hq : q = p ∧ z = x
    · obtain ⟨rfl, rfl⟩ := hq
      have hd := hd (by simp [PC.uses])
      have hW := hW (by simp [PC.wr])
      have hF := hF (.inl (by simp [PC.bf]))
      simp only [CoreOf, the_cons, PC.wr, PC.fin, PC.rd, and_self, decide_true, if_true, Bool.false_eq_true, if_false,
        List.cons_append, List.nil_append, hW, hF] at h ⊢
      exact Core.w5b hd h hc
    · refine CoreOf.other h (by same) ?_ ?_ ?_ <;> simp [PC.rd, PC.fin, PC.wr] <;> grind
  case w6 q z m hr =>
    by_cases hq : q = p ∧ z = x
    · obtain ⟨rfl, rfl⟩ := hq
      have hd := hd (by simp [PC.uses])
      have hF := hF (.inl (by simp [PC.bf]))
      simp only [CoreOf, the_cons, PC.wr, PC.fin, PC.rd, and_self, decide_true, if_true, Bool.false_eq_true, if_false,
        List.cons_append, List.nil_append, hF] at h ⊢
      exact Core.w6' hd h
    · refine CoreOf.other h (by same) ?_ ?_ ?_ <;> simp [PC.rd, PC.fin, PC.wr] <;> grind
  case w7a q z m hc => exact Core.same h (by same)
  case w7b q z m hc hn =>
    by_cases hq : q = p ∧ z = x
    · obtain ⟨rfl, rfl⟩ := hq
      have hd := hd (by simp [PC.uses])
      have hF := hF (.inl (by simp [PC.bf]))
      simp only [CoreOf, the_cons, PC.wr, PC.fin, PC.rd, and_self, decide_true, if_true, Bool.false_eq_true, if_false,
        List.cons_append, List.nil_append, hF] at h ⊢
      exact Core.w7' hd h
    · refine CoreOf.other h (by same) ?_ ?_ ?_ <;> simp [PC.rd, PC.fin, PC.wr] <;> grind
  case w8a q z m hr hp =>
    by_cases hq : q = p ∧ z = x
    · obtain ⟨rfl, rfl⟩ := hq
      have hd := hd (by simp [PC.uses])
      have hF := hF (.inl (by simp [PC.bf]))
      simp only [CoreOf, the_cons, PC.wr, PC.fin, PC.rd, and_self, decide_true, if_true, Bool.false_eq_true, if_false,
        List.cons_append, List.nil_append, hF] at h ⊢
      exact Core.w8a hd h hp
    · refine CoreOf.other h (by same) ?_ ?_ ?_ <;> simp [PC.rd, PC.fin, PC.wr] <;> grind
  case w8b q z m hr hp =>
    by_cases hq : q = p ∧ z = x
    · obtain ⟨rfl, rfl⟩ := hq
      have hd := hd (by simp [PC.uses])
      have hF := hF (.inl (by simp [PC.bf]))
      simp only [CoreOf, the_cons, PC.wr, PC.fin, PC.rd, and_self, decide_true, if_true, Bool.false_eq_true, if_false,
        List.cons_append, List.nil_append, hF] at h ⊢
      exact Core.w8b hd h hp
    · refine CoreOf.other h (by same) ?_ ?_ ?_ <;> simp [PC.rd, PC.fin, PC.wr] <;> grind
  case w9 q z m ok hr =>
    by_cases hq : q = p ∧ z = x
    · obtain ⟨rfl, rfl⟩ := hq
      have hd := hd (by simp [PC.uses])
      have hW := hW (by simp [PC.wr])
      have hF := hF (.inl (by simp [PC.bf]))
      simp only [CoreOf, the_cons, PC.wr, PC.fin, PC.rd, and_self, decide_true, if_true, Bool.false_eq_true, if_false,
        List.cons_append, List.nil_append, hW, hF] at h ⊢
      exact Core.w9 hd h hr (fun e => h.gotFalse (e ▸ hr))
    · refine CoreOf.other h (by same) ?_ ?_ ?_ <;> simp [PC.rd, PC.fin, PC.wr] <;> grind
  case w10 q z m res =>
    by_cases hq : q = p ∧ z = x
    · obtain ⟨rfl, rfl⟩ := hq
      have hd := hd (by simp [PC.uses])
      have hF := hF (.inl (by simp [PC.bf]))
      have hB := hB (by simp [PC.bf])
      simp only [CoreOf, the_cons, PC.wr, PC.fin, PC.rd, and_self, decide_true, if_true, Bool.false_eq_true, if_false,
        List.nil_append, hF] at h ⊢
      exact Core.w10 hd h hB
    · refine CoreOf.other h (by cases res <;> same) ?_ ?_ ?_ <;> simp [PC.rd, PC.fin, PC.wr] <;> grind
  case r1 q z dl hr =>
    have s : Same g (g.upd q z fun s => { s with readLock := true }) p x := by same
    by_cases hq : q = p ∧ z = x.other
    · obtain ⟨rfl, rfl⟩ := hq
      refine CoreOf.reader (pc' := some (.r2 q x.other dl)) h s hl' ?_ ?_ (.inr hr) ?_ ?_ ?_ <;>
        simp_all [PC.rd, PC.fin, PC.wr, PC.took]
    · refine CoreOf.other h s ?_ ?_ ?_ <;> simp [PC.rd, PC.fin, PC.wr] <;> grind
  case r2a q z dl hc =>
    have s : Same g g p x := by same
    by_cases hq : q = p ∧ z = x.other
    · obtain ⟨rfl, rfl⟩ := hq
      refine CoreOf.reader (pc' := some (.r3 q x.other dl)) h s hl' ?_ ?_ (.inl (by simp [PC.rd])) ?_ ?_ ?_ <;>
        simp_all [PC.rd, PC.fin, PC.wr, PC.took]
    · refine CoreOf.other h s ?_ ?_ ?_ <;> simp [PC.rd, PC.fin, PC.wr] <;> grind
  case r2b q z dl hc =>
    have s : Same g ((g.upd q z fun s => { s with readLock := false }).ev (.readEnd q z .closed)) p x := by same
    by_cases hq : q = p ∧ z = x.other
    · obtain ⟨rfl, rfl⟩ := hq
      refine CoreOf.reader (pc' := none) h s hl' ?_ ?_ (.inl (by simp [PC.rd])) ?_ ?_ ?_ <;>
        simp_all [PC.rd, PC.fin, PC.wr, PC.took]
    · refine CoreOf.other h s ?_ ?_ ?_ <;> simp [PC.rd, PC.fin, PC.wr] <;> grind
  case r3 q z dl hr =>
    have s : Same g g p x := by same
    by_cases hq : q = p ∧ z = x.other
    · obtain ⟨rfl, rfl⟩ := hq
      refine CoreOf.reader (pc' := some (.r4 q x.other dl (g.sock q x.other).gen)) h s hl' ?_ ?_ (.inl (by simp [PC.rd])) ?_ ?_ ?_ <;>
        simp_all [PC.rd, PC.fin, PC.wr, PC.took]
    · refine CoreOf.other h s ?_ ?_ ?_ <;> simp [PC.rd, PC.fin, PC.wr] <;> grind
  case r4a q z i =>
    have s : Same g g p x := by same
    by_cases hq : q = p ∧ z = x.other
    · obtain ⟨rfl, rfl⟩ := hq
      refine CoreOf.reader (pc' := some (.c1 q x.other (.read .timeout))) h s hl' ?_ ?_ (.inl (by simp [PC.rd])) ?_ ?_ ?_ <;>
        simp_all [PC.rd, PC.fin, PC.wr, PC.took]
    · refine CoreOf.other h s ?_ ?_ ?_ <;> simp [PC.rd, PC.fin, PC.wr] <;> grind
  case r4b q z dl i n hn =>
    by_cases hq : q = p ∧ z = x.other
    · obtain ⟨rfl, rfl⟩ := hq
      have hd := hd (by simp [PC.uses])
      have hR := hR (by simp [PC.rd])
      simp only [CoreOf, the_cons, PC.wr, PC.fin, PC.rd, and_self, decide_true, if_true, Bool.false_eq_true, if_false,
        List.cons_append, List.nil_append, hR, Side.other_other] at h ⊢
      exact Core.r4b hd h hn
    · refine CoreOf.other h (by same) ?_ ?_ ?_ <;> simp [PC.rd, PC.fin, PC.wr] <;> grind
  case r4c q z dl i hn hc =>
    have s : Same g g p x := by same
    by_cases hq : q = p ∧ z = x.other
    · obtain ⟨rfl, rfl⟩ := hq
      refine CoreOf.reader (pc' := some (.c1 q x.other (.read .closed))) h s hl' ?_ ?_ (.inl (by simp [PC.rd])) ?_ ?_ ?_ <;>
        simp_all [PC.rd, PC.fin, PC.wr, PC.took]
    · refine CoreOf.other h s ?_ ?_ ?_ <;> simp [PC.rd, PC.fin, PC.wr] <;> grind
  case r5 q z n =>
    by_cases hq : q = p ∧ z = x.other
    · obtain ⟨rfl, rfl⟩ := hq
      have hd := hd (by simp [PC.uses])
      have hR := hR (by simp [PC.rd])
      simp only [CoreOf, the_cons, PC.wr, PC.fin, PC.rd, and_self, decide_true, if_true, Bool.false_eq_true, if_false,
        List.cons_append, List.nil_append, hR, Side.other_other] at h ⊢
      exact Core.r5 hd h
    · refine CoreOf.other h (by same) ?_ ?_ ?_ <;> simp [PC.rd, PC.fin, PC.wr] <;> grind
  case r6a q z hr =>
    by_cases hq : q = p ∧ z = x.other
    · obtain ⟨rfl, rfl⟩ := hq
      have hd := hd (by simp [PC.uses])
      have hR := hR (by simp [PC.rd])
      simp only [CoreOf, the_cons, PC.wr, PC.fin, PC.rd, and_self, decide_true, if_true, Bool.false_eq_true, if_false,
        List.cons_append, List.nil_append, hR, Side.other_other] at h ⊢
      exact Core.r6a hd h hr
    · refine CoreOf.other h (by same) ?_ ?_ ?_ <;> simp [PC.rd, PC.fin, PC.wr] <;> grind
  case r6b q z hr =>
    by_cases hq : q = p ∧ z = x.other
    · obtain ⟨rfl, rfl⟩ := hq
      have hd := hd (by simp [PC.uses])
      have hR := hR (by simp [PC.rd])
      simp only [CoreOf, the_cons, PC.wr, PC.fin, PC.rd, and_self, decide_true, if_true, Bool.false_eq_true, if_false,
        List.cons_append, List.nil_append, hR, Side.other_other] at h ⊢
      exact Core.r6b hd h
    · refine CoreOf.other h (by same) ?_ ?_ ?_ <;> simp [PC.rd, PC.fin, PC.wr] <;> grind
  case r7 q z hp =>
    have s : Same g ((g.upd q z fun s => { s with readLock := false }).ev (.readEnd q z .ok)) p x := by same
    by_cases hq : q = p ∧ z = x.other
    · obtain ⟨rfl, rfl⟩ := hq
      refine CoreOf.reader (pc' := none) h s hl' ?_ ?_ (.inl (by simp [PC.rd])) ?_ ?_ ?_ <;>
        simp_all [PC.rd, PC.fin, PC.wr, PC.took]
    · refine CoreOf.other h s ?_ ?_ ?_ <;> simp [PC.rd, PC.fin, PC.wr] <;> grind
  case c1a q z k hc =>
    have s : Same g (g.setConn q false) p x := by same
    cases k with
    | read res =>
      by_cases hq : q = p ∧ z = x.other
      · obtain ⟨rfl, rfl⟩ := hq
        refine CoreOf.reader (pc' := some (.c2 q x.other (.read res))) h s hl' ?_ ?_ (.inl (by simp [PC.rd])) ?_ ?_ ?_ <;>
          simp_all [PC.rd, PC.fin, PC.wr, PC.took]
      · refine CoreOf.other h s ?_ ?_ ?_ <;> simp [PC.rd, PC.fin, PC.wr] <;> grind
    | _ => refine CoreOf.other h s ?_ ?_ ?_ <;> simp [PC.rd, PC.fin, PC.wr]
  case c2a q z k hr hc =>
    have s : Same g (g.crash "close of closed channel") p x := by same
    cases k with
    | read res =>
      by_cases hq : q = p ∧ z = x.other
      · obtain ⟨rfl, rfl⟩ := hq
        refine CoreOf.reader (pc' := some (.c2 q x.other (.read res))) h s hl' ?_ ?_ (.inl (by simp [PC.rd])) ?_ ?_ ?_ <;>
          simp_all [PC.rd, PC.fin, PC.wr, PC.took]
      · refine CoreOf.other h s ?_ ?_ ?_ <;> simp [PC.rd, PC.fin, PC.wr] <;> grind
    | _ => refine CoreOf.other h s ?_ ?_ ?_ <;> simp [PC.rd, PC.fin, PC.wr]
  case c2b q z k hr hc =>
    have s : Same g (g.upd q z.other fun s => s.setChan s.gen { s.chan with closed := true }) p x := by same
    cases k with
    | read res =>
      by_cases hq : q = p ∧ z = x.other
      · obtain ⟨rfl, rfl⟩ := hq
        refine CoreOf.reader (pc' := some (.c3 q x.other (.read res))) h s hl' ?_ ?_ (.inl (by simp [PC.rd])) ?_ ?_ ?_ <;>
          simp_all [PC.rd, PC.fin, PC.wr, PC.took]
      · refine CoreOf.other h s ?_ ?_ ?_ <;> simp [PC.rd, PC.fin, PC.wr] <;> grind
    | _ => refine CoreOf.other h s ?_ ?_ ?_ <;> simp [PC.rd, PC.fin, PC.wr]
  case c3a q z k hr =>
    have hcl' : q = p → g.connected p = false := fun e => hcl (by simp [PC.closing, e])
    have s : Same g (g.upd q z.other fun s => { s with recv := .got false }) p x := by same
    cases k with
    | read res =>
      by_cases hq : q = p ∧ z = x.other
      · obtain ⟨rfl, rfl⟩ := hq
        refine CoreOf.reader (pc' := some (.c4 q x.other (.read res))) h s hl' ?_ ?_ (.inl (by simp [PC.rd])) ?_ ?_ ?_ <;>
          simp_all [PC.rd, PC.fin, PC.wr, PC.took]
      · refine CoreOf.other h s ?_ ?_ ?_ <;> simp [PC.rd, PC.fin, PC.wr] <;> grind
    | _ => refine CoreOf.other h s ?_ ?_ ?_ <;> simp [PC.rd, PC.fin, PC.wr]
  case c3b q z k hr =>
    have s : Same g g p x := by same
    cases k with
    | read res =>
      by_cases hq : q = p ∧ z = x.other
      · obtain ⟨rfl, rfl⟩ := hq
        refine CoreOf.reader (pc' := some (.c4 q x.other (.read res))) h s hl' ?_ ?_ (.inl (by simp [PC.rd])) ?_ ?_ ?_ <;>
          simp_all [PC.rd, PC.fin, PC.wr, PC.took]
      · refine CoreOf.other h s ?_ ?_ ?_ <;> simp [PC.rd, PC.fin, PC.wr] <;> grind
    | _ => refine CoreOf.other h s ?_ ?_ ?_ <;> simp [PC.rd, PC.fin, PC.wr]
  case c4a q z k hr =>
    have hcl' : q = p → g.connected p = false := fun e => hcl (by simp [PC.closing, e])
    have s : Same g (g.upd q z fun s => { s with recv := .got false }) p x := by same
    cases k with
    | read res =>
      by_cases hq : q = p ∧ z = x.other
      · obtain ⟨rfl, rfl⟩ := hq
        refine CoreOf.reader (pc' := some (.c5 q x.other (.read res))) h s hl' ?_ ?_ (.inl (by simp [PC.rd])) ?_ ?_ ?_ <;>
          simp_all [PC.rd, PC.fin, PC.wr, PC.took]
      · refine CoreOf.other h s ?_ ?_ ?_ <;> simp [PC.rd, PC.fin, PC.wr] <;> grind
    | _ => refine CoreOf.other h s ?_ ?_ ?_ <;> simp [PC.rd, PC.fin, PC.wr]
  case c4b q z k hr =>
    have s : Same g g p x := by same
    cases k with
    | read res =>
      by_cases hq : q = p ∧ z = x.other
      · obtain ⟨rfl, rfl⟩ := hq
        refine CoreOf.reader (pc' := some (.c5 q x.other (.read res))) h s hl' ?_ ?_ (.inl (by simp [PC.rd])) ?_ ?_ ?_ <;>
          simp_all [PC.rd, PC.fin, PC.wr, PC.took]
      · refine CoreOf.other h s ?_ ?_ ?_ <;> simp [PC.rd, PC.fin, PC.wr] <;> grind
    | _ => refine CoreOf.other h s ?_ ?_ ?_ <;> simp [PC.rd, PC.fin, PC.wr]
  case c5a q z k hr hc =>
    have s : Same g (g.crash "close of closed channel") p x := by same
    cases k with
    | read res =>
      by_cases hq : q = p ∧ z = x.other
      · obtain ⟨rfl, rfl⟩ := hq
        refine CoreOf.reader (pc' := some (.c5 q x.other (.read res))) h s hl' ?_ ?_ (.inl (by simp [PC.rd])) ?_ ?_ ?_ <;>
          simp_all [PC.rd, PC.fin, PC.wr, PC.took]
      · refine CoreOf.other h s ?_ ?_ ?_ <;> simp [PC.rd, PC.fin, PC.wr] <;> grind
    | _ => refine CoreOf.other h s ?_ ?_ ?_ <;> simp [PC.rd, PC.fin, PC.wr]
  case c5b q z k hr hc =>
    have s : Same g (g.upd q z fun s => s.setChan s.gen { s.chan with closed := true }) p x := by same
    cases k with
    | read res =>
      by_cases hq : q = p ∧ z = x.other
      · obtain ⟨rfl, rfl⟩ := hq
        refine CoreOf.reader (pc' := some (.c6 q x.other (.read res))) h s hl' ?_ ?_ (.inl (by simp [PC.rd])) ?_ ?_ ?_ <;>
          simp_all [PC.rd, PC.fin, PC.wr, PC.took]
      · refine CoreOf.other h s ?_ ?_ ?_ <;> simp [PC.rd, PC.fin, PC.wr] <;> grind
    | _ => refine CoreOf.other h s ?_ ?_ ?_ <;> simp [PC.rd, PC.fin, PC.wr]
  case c1r q z res hc =>
    have s : Same g ((g.upd q z fun s => { s with readLock := false }).ev (.readEnd q z res)) p x := by same
    by_cases hq : q = p ∧ z = x.other
    · obtain ⟨rfl, rfl⟩ := hq
      refine CoreOf.reader (pc' := none) h s hl' ?_ ?_ (.inl (by simp [PC.rd])) ?_ ?_ ?_ <;>
        simp_all [PC.rd, PC.fin, PC.wr, PC.took]
    · refine CoreOf.other h s ?_ ?_ ?_ <;> simp [PC.rd, PC.fin, PC.wr] <;> grind
  case c6r q z res =>
    have s : Same g (((g.setListed q false).upd q z fun s => { s with readLock := false }).ev (.readEnd q z res)) p x := by same
    by_cases hq : q = p ∧ z = x.other
    · obtain ⟨rfl, rfl⟩ := hq
      refine CoreOf.reader (pc' := none) h s hl' ?_ ?_ (.inl (by simp [PC.rd])) ?_ ?_ ?_ <;>
        simp_all [PC.rd, PC.fin, PC.wr, PC.took]
    · refine CoreOf.other h s ?_ ?_ ?_ <;> simp [PC.rd, PC.fin, PC.wr] <;> grind
  case d2b q hc =>
    by_cases hq : q = p
    · subst hq
      have e1 := the_life (P := PC.wr q x) hf (by simp [PC.dials]) (fun a => PC.wr_uses)
      have e2 := the_life (P := PC.fin q x) hf (by simp [PC.dials]) (fun a => PC.fin_uses)
      have e3 := the_life (P := PC.rd q x.other) hf (by simp [PC.dials]) (fun a => PC.rd_uses)
      have hn := hf.dials _ (by simp) (show PC.dials q (.d2 q) = true by simp [PC.dials])
      simp only [CoreOf, the_cons, PC.wr, PC.fin, PC.rd, Bool.false_eq_true, if_false, List.cons_append, List.nil_append,
        e1, e2, e3] at h ⊢
      exact Core.dialled h hn
    · refine CoreOf.other h (by same) ?_ ?_ ?_ <;> simp [PC.rd, PC.fin, PC.wr]
  case d3 q hr =>
    by_cases hq : q = p
    · subst hq
      have e1 := the_life (P := PC.wr q x) hf (by simp [PC.dials]) (fun a => PC.wr_uses)
      have e2 := the_life (P := PC.fin q x) hf (by simp [PC.dials]) (fun a => PC.fin_uses)
      have e3 := the_life (P := PC.rd q x.other) hf (by simp [PC.dials]) (fun a => PC.rd_uses)
      have hn := hf.dials _ (by simp) (show PC.dials q (.d3 q) = true by simp [PC.dials])
      simp only [CoreOf, the_cons, PC.wr, PC.fin, PC.rd, Bool.false_eq_true, if_false, List.cons_append, List.nil_append,
        e1, e2, e3] at h ⊢
      exact Core.reset h hn .clt
    · refine CoreOf.other h (by same) ?_ ?_ ?_ <;> simp [PC.rd, PC.fin, PC.wr]
  case d4 q hr =>
    by_cases hq : q = p
    · subst hq
      have e1 := the_life (P := PC.wr q x) hf (by simp [PC.dials]) (fun a => PC.wr_uses)
      have e2 := the_life (P := PC.fin q x) hf (by simp [PC.dials]) (fun a => PC.fin_uses)
      have e3 := the_life (P := PC.rd q x.other) hf (by simp [PC.dials]) (fun a => PC.rd_uses)
      have hn := hf.dials _ (by simp) (show PC.dials q (.d4 q) = true by simp [PC.dials])
      simp only [CoreOf, the_cons, PC.wr, PC.fin, PC.rd, Bool.false_eq_true, if_false, List.cons_append, List.nil_append,
        e1, e2, e3] at h ⊢
      exact Core.reset h hn .srv
    · refine CoreOf.other h (by same) ?_ ?_ ?_ <;> simp [PC.rd, PC.fin, PC.wr]
  all_goals
    refine CoreOf.other h (by same) ?_ ?_ ?_ <;> simp [PC.rd, PC.fin, PC.wr]

end
end Webwire.Mem
