import Verif.Proofs.Memchan8

/-!
# memchan: who still has to go on
-/

set_option autoImplicit false

namespace Webwire.Mem

section
variable {g g' : G} {pc : PC} {pcs rest ts : List PC} {p : Nat} {x : Side}

def PC.is8 (p : Nat) (x : Side) : PC → Bool
  | .w8 q y _ => decide (q = p ∧ y = x)
  | _ => false

def PC.is9 (p : Nat) (x : Side) : PC → Bool
  | .w9 q y _ => decide (q = p ∧ y = x)
  | _ => false

/-- About to take a message. -/
def PC.takes (p : Nat) (x : Side) : PC → Bool
  | .r3 q y _ | .r4 q y .. => decide (q = p ∧ y = x)
  | _ => false

/-- Will tell the writer who waits for the confirmation of that side. -/
def PC.willTell (p : Nat) (x : Side) : PC → Bool
  | .c2 q .. | .c3 q .. => decide (q = p)
  | .c4 q y _ => decide (q = p ∧ y = x)
  | _ => false

/-- What nobody waits for in vain. -/
structure Ends (g : G) (ts : List PC) (p : Nat) (x : Side) : Prop where
  heldR : (g.sock p x.other).readLock = true → ∃ a ∈ ts, a.rd p x.other = true
  recv9 : ∀ a ∈ ts, a.is9 p x = true → (g.sock p x.other).recv ≠ .absent
  wait : (g.sock p x.other).recv = .waiting → (g.sock p x.other).parked = false
  flight : (g.sock p x.other).recv = .waiting ∨ ((g.sock p x.other).parked = false ∧ ∃ a ∈ ts, a.is8 p x = true) →
    (g.sock p x.other).chan.buf ≠ none ∨ ∃ a ∈ ts, a.took p x.other = true
  over8 : ∀ a ∈ ts, a.is8 p x = true → g.connected p = true
  told : g.connected p = false → (g.sock p x.other).recv = .waiting → ∃ a ∈ ts, a.willTell p x.other = true
  parked : g.connected p = false → (g.sock p x.other).parked = false
  held : g.connected p = false → ∀ a ∈ ts, a.took p x.other = false
  full : g.connected p = false → ∀ a ∈ ts, a.takes p x.other = true → (g.sock p x.other).chan.buf = none

theorem Ends.perm (h : Ends g ts p x) {ts' : List PC} (hp : ts.Perm ts') : Ends g ts' p x := by
  have hm : ∀ a, a ∈ ts' ↔ a ∈ ts := fun a => hp.mem_iff.symm
  obtain ⟨h1, h2, h3, h4, h5, h6, h7, h8, h9⟩ := h
  constructor <;> (try simp only [hm]) <;> assumption

theorem Ends.initial (size p : Nat) (x : Side) : Ends (init size).g (init size).threads p x := by
  constructor <;> simp [init, G.sock]

theorem Ends.add {a : PC} (h : Ends g ts p x) (h1 : a.is9 p x = false) (h2 : a.is8 p x = false)
    (h3 : a.took p x.other = false) (h4 : a.takes p x.other = false) : Ends g (a :: ts) p x := by
  obtain ⟨g1, g2, g3, g4, g5, g6, g7, g8, g9⟩ := h
  constructor
  · intro h; obtain ⟨b, hb, e⟩ := g1 h; exact ⟨b, List.mem_cons_of_mem _ hb, e⟩
  · simpa [h1] using g2
  · exact g3
  · simpa [h2, h3] using g4
  · simpa [h2] using g5
  · intro h h'; obtain ⟨b, hb, e⟩ := g6 h h'; exact ⟨b, List.mem_cons_of_mem _ hb, e⟩
  · exact g7
  · simpa [h3] using g8
  · simpa [h4] using g9

/-- How a reader gets the lock and gives it back. -/
theorem Acts.heldR (ha : Acts g pc g' pcs) (p : Nat) (y : Side) (hl : (g'.sock p y).readLock = true) :
    (∃ b ∈ pcs, b.rd p y = true) ∨ ((g.sock p y).readLock = true ∧ pc.rd p y = false) := by
  cases ha <;> simp [PC.rd, Sock.setChan, Sock.reset, Sock.put] at hl ⊢ <;> grind

theorem Acts.recv (ha : Acts g pc g' pcs) (p : Nat) (x : Side) :
    (g'.sock p x.other).recv = (g.sock p x.other).recv ∨
    ((g.sock p x.other).recv = .absent ∧ (g.sock p x.other).parked = true ∧ (g'.sock p x.other).recv = .got true ∧
      pc.is8 p x = true) ∨
    ((g.sock p x.other).recv = .absent ∧ (g.sock p x.other).parked = false ∧ (g'.sock p x.other).recv = .waiting ∧
      pc.is8 p x = true) ∨
    ((g.sock p x.other).recv ≠ .waiting ∧ (g'.sock p x.other).recv = .absent ∧ pc.is9 p x = true) ∨
    ((g.sock p x.other).recv = .waiting ∧ ((g'.sock p x.other).recv ≠ .absent ∧ (g'.sock p x.other).recv ≠ .waiting)) ∨
    (pc.dialling p = true) := by
  cases ha <;> simp [PC.is8, PC.is9, PC.dialling, Sock.setChan, Sock.reset, Sock.put] <;> grind [Side.other_other]

theorem Acts.parked (ha : Acts g pc g' pcs) (p : Nat) (y : Side) :
    (g'.sock p y).parked = (g.sock p y).parked ∨ (g'.sock p y).parked = false ∨
    ((g.sock p y).recv ≠ .waiting ∧ (g'.sock p y).recv = (g.sock p y).recv ∧ pc = .r6 p y) ∨ pc.dialling p = true := by
  cases ha <;> simp [PC.dialling, Sock.setChan, Sock.reset, Sock.put] <;> grind

theorem Acts.buf (ha : Acts g pc g' pcs) (p : Nat) (x : Side)
    (hgen : ∀ dl i, pc = .r4 p x.other dl i → i = (g.sock p x.other).gen) :
    (g'.sock p x.other).chan.buf = (g.sock p x.other).chan.buf ∨
    ((g'.sock p x.other).chan.buf ≠ none ∧ pc.sends p x.other = true ∧ pc.wr p x = true) ∨
    ((g.sock p x.other).chan.buf ≠ none ∧ ∃ b ∈ pcs, b.took p x.other = true) ∨
    (pc.dialling p = true) := by
  cases ha <;> simp [PC.sends, PC.wr, PC.took, PC.dialling, Sock.chan, Sock.setChan, Sock.reset, Sock.put] <;>
    grind [Side.other_other]

theorem Acts.is8 (ha : Acts g pc g' pcs) (p : Nat) (x : Side) :
    ∀ b ∈ pcs, b.is8 p x = true → pc.handsOver p = true ∧ (g'.sock p x.other).chan.buf ≠ none := by
  cases ha <;> simp [PC.is8, PC.handsOver, Sock.chan, Sock.setChan, Sock.reset, Sock.put] <;> grind [Side.other_other]

theorem Acts.is9 (ha : Acts g pc g' pcs) (p : Nat) (x : Side) :
    ∀ b ∈ pcs, b.is9 p x = true → pc.is8 p x = true ∧ (g'.sock p x.other).recv ≠ .absent := by
  cases ha <;> simp [PC.is8, PC.is9, Sock.chan, Sock.setChan, Sock.reset, Sock.put] <;> grind [Side.other_other]

theorem Acts.took (ha : Acts g pc g' pcs) (p : Nat) (y : Side) :
    (∀ b ∈ pcs, b.took p y = true → pc.took p y = true ∨
      ∃ dl i n, pc = .r4 p y dl i ∧ ((g.sock p y).chans i).buf = some n) ∧
    (pc.took p y = true → (∃ b ∈ pcs, b.took p y = true) ∨ (g'.sock p y).parked = true ∨
      (g'.sock p y).recv = .got true) := by
  refine ⟨?_, ?_⟩ <;>
  cases ha <;> simp [PC.took, Sock.chan, Sock.setChan, Sock.reset, Sock.put] <;> grind [Side.other_other]

theorem Acts.takes (ha : Acts g pc g' pcs) (p : Nat) (y : Side) :
    ∀ b ∈ pcs, b.takes p y = true → pc.takes p y = true ∨ g.connected p = true ∧ g' = g := by
  cases ha <;> simp [PC.takes] <;> grind

theorem Acts.willTell (ha : Acts g pc g' pcs) (p : Nat) (y : Side) (h : pc.willTell p y = true) :
    (∃ b ∈ pcs, b.willTell p y = true) ∨ (g'.sock p y).recv ≠ .waiting := by
  have hy : ∀ z, y = z ∨ y = z.other := Side.eq_or y
  cases ha <;> simp [PC.willTell, Sock.chan, Sock.setChan, Sock.reset, Sock.put] at h ⊢ <;> grind

theorem Acts.dialled (ha : Acts g pc g' pcs) (p : Nat) (y : Side) (hd : pc.dialling p = true)
    (n1 : (g.sock p y).recv = .absent) (n2 : (g.sock p y).parked = false) :
    (∀ a ∈ pcs, a.uses p = false) ∧ (g'.sock p y).recv = .absent ∧ (g'.sock p y).parked = false := by
  cases ha <;> simp [PC.dialling, PC.uses, Sock.reset, Sock.setChan] at hd ⊢ <;> grind

/-- A confirmation that is offered is taken only by the writer. -/
theorem Acts.taken (ha : Acts g pc g' pcs) (p : Nat) (x : Side) (hnw : pc.wr p x = false) (hd : pc.dialling p = false)
    (hpk : (g.sock p x.other).parked = true) : (g'.sock p x.other).parked = true := by
  cases ha <;> simp [PC.wr, PC.dialling, Sock.setChan, Sock.reset, Sock.put] at hnw hd ⊢ <;> grind [Side.other_other]

theorem is8_uses {a : PC} (h : a.is8 p x = true) : a.uses p = true := by cases a <;> simp_all [PC.is8, PC.uses]
theorem is9_uses {a : PC} (h : a.is9 p x = true) : a.uses p = true := by cases a <;> simp_all [PC.is9, PC.uses]
theorem is8_handedOver {a : PC} (h : a.handedOver p = false) : a.is8 p x = false := by
  cases a <;> simp_all [PC.is8, PC.handedOver]
theorem sends_handsOver {a : PC} (h : a.sends p x = true) : a.handsOver p = true := by
  cases a <;> simp_all [PC.sends, PC.handsOver]
theorem took_uses {a : PC} (h : a.took p x = true) : a.uses p = true := by cases a <;> simp_all [PC.took, PC.uses]
theorem takes_uses {a : PC} (h : a.takes p x = true) : a.uses p = true := by cases a <;> simp_all [PC.takes, PC.uses]
theorem took_rd {a : PC} (h : a.took p x = true) : a.rd p x = true := by cases a <;> simp_all [PC.took, PC.rd]
theorem took_reading {a : PC} (h : a.took p x = true) : a.reading p x = true := by
  cases a <;> simp_all [PC.took, PC.reading]
theorem takes_reading {a : PC} (h : a.takes p x = true) : a.reading p x = true := by
  cases a <;> simp_all [PC.takes, PC.reading]
theorem is8_wr {a : PC} (h : a.is8 p x = true) : a.wr p x = true := by cases a <;> simp_all [PC.is8, PC.wr]
theorem is9_wr {a : PC} (h : a.is9 p x = true) : a.wr p x = true := by cases a <;> simp_all [PC.is9, PC.wr]
theorem dialling_uses {a : PC} (h : a.dialling p = true) : ∀ q, a.uses q = false := by
  cases a <;> simp_all [PC.dialling, PC.uses]

theorem the_any_false {P Q : PC → Bool} (he : Excl P ts) (hQ : ∀ a, Q a = true → P a = true) :
    (the P ts).any Q = false ↔ ∀ a ∈ ts, Q a = false := by
  constructor
  · intro h a ha
    cases hq : Q a
    · rfl
    · rw [the_of_mem he ha (hQ a hq)] at h
      simp [hq] at h
  · intro h
    cases ht : the P ts with
    | none => rfl
    | some a => simpa using h a (the_mem ht).1

/-- Before the pair has been dialled there is nothing. -/
theorem Core.nothing (hl : Life g ts p) (hc : CoreOf g ts p x) (h : Ev.dialEnd p true ∉ g.log) :
    (g.sock p x.other).recv = .absent ∧ (g.sock p x.other).parked = false ∧ (g.sock p x.other).chan.buf = none ∧
    ∀ a ∈ ts, a.uses p = false := by
  have hu : ∀ a ∈ ts, a.uses p = false := by
    intro a ha
    cases e : a.uses p
    · rfl
    · exact absurd (hl.uses a ha e) h
  refine ⟨?_, (hc.pre h).2.1, (hc.pre h).1, hu⟩
  by_cases e : (g.sock p x.other).recv = .absent
  · exact e
  · obtain ⟨m, hm⟩ := hc.recvW e
    have := hu _ (the_mem hm).1
    simp [PC.uses] at this

/-- `Close` begins. -/
theorem Ends.atClose (hW : Excl (PC.wr p x) ts) (hR : Excl (PC.rd p x.other) ts) (hc : CoreOf g ts p x)
    (h : Ends g ts p x) (hn : g.connected p = true) (h8 : ∀ a ∈ ts, a.is8 p x = false)
    (hq : (g.sock p x.other).recv = .waiting → ∀ a ∈ ts, a.reading p x.other = false) :
    (g.sock p x.other).parked = false ∧ (∀ a ∈ ts, a.took p x.other = false) ∧
    (∀ a ∈ ts, a.takes p x.other = true → (g.sock p x.other).chan.buf = none) := by
  have hsent : (the (PC.wr p x) ts).any (PC.sent p x) = false ↔ ∀ a ∈ ts, a.is9 p x = false := by
    rw [the_any_false hW (fun a => by cases a <;> simp [PC.sent, PC.wr])]
    constructor
    · intro hh a ha; have := hh a ha; cases a <;> simp_all [PC.sent, PC.is9]
    · intro hh a ha; have := hh a ha; have := h8 a ha; cases a <;> simp_all [PC.sent, PC.is9, PC.is8]
  have htook := the_any_false (Q := PC.took p x.other) hR (fun a => took_rd)
  by_cases h9 : ∀ a ∈ ts, a.is9 p x = false
  · have := hc.calm (.inl ⟨hn, hsent.mpr h9⟩)
    exact ⟨this.2.2.1, htook.mp this.2.1, fun _ _ _ => this.1⟩
  · simp only [Classical.not_forall, Bool.not_eq_false] at h9
    obtain ⟨a, ha, e⟩ := h9
    have hne := h.recv9 a ha e
    cases hr : (g.sock p x.other).recv with
    | absent => exact absurd hr hne
    | waiting =>
      refine ⟨h.wait hr, fun b hb => ?_, fun b hb ht => ?_⟩
      · cases ht : b.took p x.other
        · rfl
        · have := hq hr b hb; rw [took_reading ht] at this; cases this
      · have := hq hr b hb; rw [takes_reading ht] at this; cases this
    | got b =>
      cases b with
      | true =>
        have := hc.gotTrue hr
        exact ⟨this.2.2, htook.mp this.2.1, fun _ _ _ => this.1⟩
      | false => have := hc.gotFalse hr; rw [hn] at this; cases this

theorem Ends.acts (hl : Life g (pc :: rest) p) (hk : Locks g (pc :: rest) p x) (hk' : Locks g (pc :: rest) p x.other)
    (hc : CoreOf g (pc :: rest) p x) (hs : Shut g (pc :: rest) p) (h : Ends g (pc :: rest) p x) (ha : Acts g pc g' pcs)
    (hq : ∀ z k, pc = .c1 p z k → (∀ a ∈ rest, a.handedOver p = false) ∧
      ((g.sock p x.other).recv = .waiting → ∀ a ∈ rest, a.reading p x.other = false)) :
    Ends g' (pcs ++ rest) p x := by
  have hgen : ∀ dl i, pc = .r4 p x.other dl i → i = (g.sock p x.other).gen := by
    rintro dl i rfl
    exact hc.gen dl i (the_of_mem hk'.exclR List.mem_cons_self (by simp [PC.rd]))
  have tR := ha.heldR p x.other
  have trecv := ha.recv p x
  have tpark := ha.parked p x.other
  have tbuf := ha.buf p x hgen
  have t8 := ha.is8 p x
  have t9 := ha.is9 p x
  have ttook := ha.took p x.other
  have ttakes := ha.takes p x.other
  have ttell := ha.willTell p x.other
  have tconn := ha.conn p
  have tkeep := ha.taken p x
  have hheldR : (g'.sock p x.other).readLock = true → ∃ a ∈ pcs ++ rest, a.rd p x.other = true := by
    intro hh
    rcases tR hh with ⟨b, hb, e⟩ | ⟨h1, h2⟩
    · exact ⟨b, List.mem_append.mpr (.inl hb), e⟩
    · obtain ⟨a, ha, e⟩ := h.heldR h1
      rcases List.mem_cons.mp ha with rfl | ha
      · rw [h2] at e; cases e
      · exact ⟨a, List.mem_append.mpr (.inr ha), e⟩
  cases hd : pc.dialling p
  case true =>
    have hnd := hl.dials pc List.mem_cons_self (dialling_dials hd)
    obtain ⟨n1, n2, n3, n4⟩ := Core.nothing hl hc hnd
    have hr : ∀ a ∈ rest, a.uses p = false := fun a ha => n4 a (List.mem_cons_of_mem _ ha)
    obtain ⟨hp, hrec⟩ := ha.dialled p x.other hd n1 n2
    have hall : ∀ a ∈ pcs ++ rest, a.uses p = false := by
      intro a ha; rcases List.mem_append.mp ha with h | h
      · exact hp a h
      · exact hr a h
    have no : ∀ {P : PC → Bool}, (∀ a, P a = true → a.uses p = true) → ∀ a ∈ pcs ++ rest, P a = false := by
      intro P hP a ha
      cases e : P a
      · rfl
      · have := hP a e; rw [hall a ha] at this; cases this
    have no8 := no (P := PC.is8 p x) (fun a => is8_uses)
    have no9 := no (P := PC.is9 p x) (fun a => is9_uses)
    have noT := no (P := PC.took p x.other) (fun a => took_uses)
    have noK := no (P := PC.takes p x.other) (fun a => takes_uses)
    refine ⟨hheldR, fun a ha e => by (rw [no9 a ha] at e; cases e), fun _ => hrec.2, ?_, fun a ha e => by
      (rw [no8 a ha] at e; cases e), fun _ e => by (rw [hrec.1] at e; cases e), fun _ => hrec.2, fun _ => noT,
      fun _ a ha e => by (rw [noK a ha] at e; cases e)⟩
    rintro (e | ⟨-, a, ha, e⟩)
    · rw [hrec.1] at e; cases e
    · rw [no8 a ha] at e; cases e
  case false =>
  simp only [hd, Bool.false_eq_true, or_false] at trecv tpark tbuf
  -- closing
  have hcl : g.connected p = true → g'.connected p = false →
      (g'.sock p x.other) = (g.sock p x.other) ∧ (∀ a ∈ pcs, a.willTell p x.other = true ∧ a.took p x.other = false ∧
        a.takes p x.other = false ∧ a.is8 p x = false) ∧ (∃ a, a ∈ pcs) ∧
      (∀ a ∈ rest, a.handedOver p = false) ∧
      ((g.sock p x.other).recv = .waiting → ∀ a ∈ rest, a.reading p x.other = false) ∧ pc.is8 p x = false ∧
      pc.reading p x.other = false := by
    intro h1 h2
    rcases tconn with e | ⟨-, -, z, k, rfl, rfl⟩ | ⟨e, -⟩
    · rw [e, h1] at h2; cases h2
    · have hqq := hq z k rfl
      have : g' = g.setConn p false := by
        cases ha with
        | c1a => rfl
      subst this
      refine ⟨by simp, by simp [PC.willTell, PC.took, PC.takes, PC.is8], by simp, hqq.1, hqq.2, rfl, rfl⟩
    · rw [e] at h1; cases h1
  have hatc : g.connected p = true → g'.connected p = false → (g.sock p x.other).parked = false ∧
      (∀ a ∈ pc :: rest, a.took p x.other = false) ∧
      (∀ a ∈ pc :: rest, a.takes p x.other = true → (g.sock p x.other).chan.buf = none) := by
    intro h1 h2
    obtain ⟨-, -, -, c1, c2, c3, c4⟩ := hcl h1 h2
    refine h.atClose hk.exclW hk'.exclR hc h1 ?_ ?_
    · intro a ha
      rcases List.mem_cons.mp ha with rfl | ha
      · exact c3
      · exact is8_handedOver (c1 a ha)
    · intro hr a ha
      rcases List.mem_cons.mp ha with rfl | ha
      · exact c4
      · exact c2 hr a ha
  have hopen : g'.connected p = true ∨ g.connected p = false ∨ (g.connected p = true ∧ g'.connected p = false) := by
    cases g.connected p <;> cases g'.connected p <;> simp
  have hup : g.connected p = false → g'.connected p = true → pc = .d2 p := by
    intro h1 h2
    rcases tconn with e | ⟨e, -⟩ | ⟨-, -, e, -⟩
    · rw [e, h1] at h2; cases h2
    · rw [h1] at e; cases e
    · exact e
  have hover : pc.handsOver p = true → g.connected p = true := hs.over pc List.mem_cons_self
  have hself := List.mem_cons_self (a := pc) (l := rest)
  have hrest : ∀ a ∈ rest, a ∈ pc :: rest := fun a h => List.mem_cons_of_mem _ h
  have hexW : pc.wr p x = true → ∀ b ∈ rest, b.wr p x = false := (Excl.cons.mp hk.exclW).1
  have ho8 : pc.is8 p x = true → g.connected p = true := h.over8 pc hself
  have hconn' : ∀ {P : Prop}, g'.connected p = false → (g.connected p = false → P) →
      (g.connected p = true → g'.connected p = false → P) → P := by
    intro P h1 h2 h3
    cases e : g.connected p
    · exact h2 e
    · exact h3 e h1
  refine ⟨hheldR, ?_, ?_, ?_, ?_, ?_, ?_, ?_, ?_⟩
  · -- recv9
    intro a ha e
    rcases List.mem_append.mp ha with ha | ha
    · exact (t9 a ha e).2
    · have h0 := h.recv9 a (hrest a ha) e
      rcases trecv with e' | ⟨e', -⟩ | ⟨e', -⟩ | ⟨-, -, e'⟩ | ⟨-, e', -⟩
      · rw [e']; exact h0
      · exact absurd e' h0
      · exact absurd e' h0
      · have := hexW (is9_wr e') a ha; rw [is9_wr e] at this; cases this
      · exact e'
  · -- wait
    intro e
    have hold : (g.sock p x.other).parked = false := by
      rcases trecv with e' | ⟨-, -, e', -⟩ | ⟨-, e', -⟩ | ⟨-, e', -⟩ | ⟨-, -, e'⟩
      · exact h.wait (e' ▸ e)
      · rw [e'] at e; cases e
      · exact e'
      · rw [e'] at e; cases e
      · exact absurd e e'
    rcases tpark with e' | e' | ⟨e1, e2, -⟩
    · rw [e']; exact hold
    · exact e'
    · rw [e2] at e; exact absurd e e1
  · -- flight
    intro hh
    by_cases hnew : ∃ b ∈ pcs, b.is8 p x = true
    · obtain ⟨b, hb, e⟩ := hnew
      exact .inl (t8 b hb e).2
    have hnp : (g'.sock p x.other).parked = false := by
      rcases hh with hh | hh
      · -- as before
        have hold : (g.sock p x.other).parked = false := by
          rcases trecv with e' | ⟨-, -, e', -⟩ | ⟨-, e', -⟩ | ⟨-, e', -⟩ | ⟨-, -, e'⟩
          · exact h.wait (e' ▸ hh)
          · rw [e'] at hh; cases hh
          · exact e'
          · rw [e'] at hh; cases hh
          · exact absurd hh e'
        rcases tpark with e' | e' | ⟨e1, e2, -⟩
        · rw [e']; exact hold
        · exact e'
        · rw [e2] at hh; exact absurd hh e1
      · exact hh.1
    have hng : (g'.sock p x.other).recv ≠ .got true := by
      intro e
      rcases hh with hh | ⟨-, a, ha, e8⟩
      · rw [hh] at e; cases e
      · rcases List.mem_append.mp ha with ha | ha
        · exact hnew ⟨a, ha, e8⟩
        · have hnw : pc.wr p x = false := by
            cases hw : pc.wr p x
            · rfl
            · have := hexW hw a ha; rw [is8_wr e8] at this; cases this
          have habs : (g.sock p x.other).recv = .absent := by
            by_cases he : (g.sock p x.other).recv = .absent
            · exact he
            · obtain ⟨m, hm⟩ := hc.recvW he
              rw [the_of_mem hk.exclW (hrest a ha) (is8_wr e8)] at hm
              cases hm
              simp [PC.is8] at e8
          rcases trecv with e' | ⟨-, -, -, e'⟩ | ⟨-, -, -, e'⟩ | ⟨-, -, e'⟩ | ⟨e', -⟩
          · rw [e', habs] at e; cases e
          · rw [is8_wr e'] at hnw; cases hnw
          · rw [is8_wr e'] at hnw; cases hnw
          · rw [is9_wr e'] at hnw; cases hnw
          · rw [e'] at habs; cases habs
    have hold : (g.sock p x.other).chan.buf ≠ none ∨ ∃ a ∈ pc :: rest, a.took p x.other = true := by
      refine h.flight ?_
      rcases hh with hh | ⟨-, a, ha, e8⟩
      · rcases trecv with e' | ⟨-, -, e', -⟩ | ⟨-, e1, -, e2⟩ | ⟨-, e', -⟩ | ⟨e', -⟩
        · exact .inl (e' ▸ hh)
        · rw [e'] at hh; cases hh
        · exact .inr ⟨e1, pc, hself, e2⟩
        · rw [e'] at hh; cases hh
        · exact .inl e'
      · rcases List.mem_append.mp ha with ha | ha
        · exact absurd ⟨a, ha, e8⟩ hnew
        · -- `parked` was false: it becomes false only by the writer's step
          by_cases hpk : (g.sock p x.other).parked = false
          · exact .inr ⟨hpk, a, hrest a ha, e8⟩
          · exfalso
            have hnw : pc.wr p x = false := by
              cases hw : pc.wr p x
              · rfl
              · have := hexW hw a ha; rw [is8_wr e8] at this; cases this
            simp only [Bool.not_eq_false] at hpk
            rw [tkeep hnw hd hpk] at hnp; cases hnp
    rcases hold with hold | ⟨a, ha, e⟩
    · rcases tbuf with e' | ⟨e', -⟩ | ⟨-, b, hb, e'⟩
      · left; rw [e']; exact hold
      · exact .inl e'
      · exact .inr ⟨b, List.mem_append.mpr (.inl hb), e'⟩
    · rcases List.mem_cons.mp ha with rfl | ha
      · rcases ttook.2 e with ⟨b, hb, e'⟩ | e' | e'
        · exact .inr ⟨b, List.mem_append.mpr (.inl hb), e'⟩
        · rw [hnp] at e'; cases e'
        · exact absurd e' hng
      · exact .inr ⟨a, List.mem_append.mpr (.inr ha), e⟩
  · -- over8
    intro a ha e
    have hold : g.connected p = true := by
      rcases List.mem_append.mp ha with ha | ha
      · exact hover (t8 a ha e).1
      · exact h.over8 a (hrest a ha) e
    cases hg : g'.connected p
    · exfalso
      obtain ⟨-, c1, -, c2, -⟩ := hcl hold hg
      rcases List.mem_append.mp ha with ha | ha
      · rw [(c1 a ha).2.2.2] at e; cases e
      · rw [is8_handedOver (c2 a ha)] at e; cases e
    · rfl
  · -- told
    intro hg hr
    refine hconn' hg (fun h0 => ?_) (fun h0 _ => ?_)
    · have hold : (g.sock p x.other).recv = .waiting := by
        rcases trecv with e' | ⟨-, -, e', -⟩ | ⟨-, -, -, e'⟩ | ⟨-, e', -⟩ | ⟨e', -⟩
        · exact e' ▸ hr
        · rw [e'] at hr; cases hr
        · rw [h0] at ho8; exact absurd (ho8 e') (by simp)
        · rw [e'] at hr; cases hr
        · exact e'
      obtain ⟨a, ha, e⟩ := h.told h0 hold
      rcases List.mem_cons.mp ha with rfl | ha
      · rcases ttell e with ⟨b, hb, e'⟩ | e'
        · exact ⟨b, List.mem_append.mpr (.inl hb), e'⟩
        · exact absurd hr e'
      · exact ⟨a, List.mem_append.mpr (.inr ha), e⟩
    · obtain ⟨-, c1, ⟨b, hb⟩, -⟩ := hcl h0 hg
      exact ⟨b, List.mem_append.mpr (.inl hb), (c1 b hb).1⟩
  · -- parked
    intro hg
    refine hconn' hg (fun h0 => ?_) (fun h0 _ => ?_)
    · rcases tpark with e' | e' | ⟨-, -, rfl⟩
      · rw [e']; exact h.parked h0
      · exact e'
      · have := h.held h0 _ hself; simp [PC.took] at this
    · rw [(hcl h0 hg).1]; exact (hatc h0 hg).1
  · -- held
    intro hg a ha
    refine hconn' hg (fun h0 => ?_) (fun h0 _ => ?_)
    · rcases List.mem_append.mp ha with ha | ha
      · cases e : a.took p x.other
        · rfl
        · rcases ttook.1 a ha e with e' | ⟨dl, i, n, rfl, e'⟩
          · rw [h.held h0 pc hself] at e'; cases e'
          · have := h.full h0 _ hself (by simp [PC.takes])
            rw [hgen dl i rfl] at e'
            rw [Sock.chan, e'] at this; cases this
      · exact h.held h0 a (hrest a ha)
    · rcases List.mem_append.mp ha with ha | ha
      · exact ((hcl h0 hg).2.1 a ha).2.1
      · exact (hatc h0 hg).2.1 a (hrest a ha)
  · -- full
    intro hg a ha e
    refine hconn' hg (fun h0 => ?_) (fun h0 _ => ?_)
    · have hold : (g.sock p x.other).chan.buf = none := by
        rcases List.mem_append.mp ha with ha | ha
        · rcases ttakes a ha e with e' | ⟨e', -⟩
          · exact h.full h0 pc hself e'
          · rw [h0] at e'; cases e'
        · exact h.full h0 a (hrest a ha) e
      rcases tbuf with e' | ⟨-, e', -⟩ | ⟨e', -⟩
      · rw [e']; exact hold
      · have := hover (sends_handsOver e')
        rw [h0] at this; cases this
      · exact absurd hold e'
    · rw [(hcl h0 hg).1]
      rcases List.mem_append.mp ha with ha | ha
      · rw [((hcl h0 hg).2.1 a ha).2.2.1] at e; cases e
      · exact (hatc h0 hg).2.2 a (hrest a ha) e

end

/-- Under `QuietClose`, nobody waits in vain. -/
theorem Ends.reachable {ok : State → Label → Prop} (hok : ∀ s l, ok s l → QuietClose s l) {size : Nat} {s : State}
    (h : ReachableIf size ok s) : ∀ p x, Ends s.g s.threads p x := by
  have hcalm : ∀ s l, ok s l → CalmClose s l := fun s l h => (hok s l h).1
  have hone : ∀ s l, ok s l → OneLife s l := fun s l h => (hok s l h).1.1
  suffices ∀ s, ReachableIf size ok s → ∀ p x, Ends s.g s.threads p x from this s h
  intro s h
  induction h with
  | start => exact fun p x => Ends.initial size p x
  | step s1 l s2 hr ho hst ih =>
    have hinv := From.oneLife hone hr
    have hsh := (Shut.reachable hcalm hr).2.1
    have hqc := hok _ _ ho
    cases hst with
    | thread g g' pre post pcs pc ch conns hcr hsn hact =>
      intro p x
      have hperm : (pre ++ pc :: post).Perm (pc :: (pre ++ post)) := List.perm_middle
      have h1 := Ends.acts ((hinv.life p).perm hperm) ((hinv.locks p x).perm hperm) ((hinv.locks p x.other).perm hperm)
        ((hinv.core p x).perm (hinv.locks p x) (hinv.locks p x.other) hperm) ((hsh p).perm hperm)
        ((ih p x).perm hperm) (acts_of_act hact hsn) ?_
      · refine h1.perm ?_
        rw [← List.append_assoc, ← List.append_assoc]
        exact List.perm_append_comm.append_right post
      · rintro z k rfl
        have := hqc.2
        simp only at this
        exact ⟨fun a ha => this.1 a (hperm.mem_iff.mpr (List.mem_cons_of_mem _ ha)),
          fun e a ha => this.2 x.other e a (hperm.mem_iff.mpr (List.mem_cons_of_mem _ ha))⟩
    | write g ts q z chunks hcr => exact fun p x => (ih p x).add rfl rfl rfl rfl
    | read g ts q z dl hcr => exact fun p x => (ih p x).add rfl rfl rfl rfl
    | dial g ts q hcr => exact fun p x => (ih p x).add rfl rfl rfl rfl
    | close g ts q z hcr => exact fun p x => (ih p x).add rfl rfl rfl rfl
    | shutdown g ts hcr => exact fun p x => (ih p x).add rfl rfl rfl rfl
    | serve g ts hcr => exact fun p x => (ih p x).add rfl rfl rfl rfl
    | refuse g ts hcr =>
      intro p x
      obtain ⟨h1, h2, h3, h4, h5, h6, h7, h8, h9⟩ := ih p x
      exact ⟨h1, h2, h3, h4, h5, h6, h7, h8, h9⟩

end Webwire.Mem
