import Verif.Proofs.Memchan6

/-!
# memchan: closing
-/

set_option autoImplicit false

namespace Webwire.Mem

section
variable {g g' : G} {pc : PC} {pcs rest ts : List PC} {p : Nat} {x : Side}

/-- About to close the channel of the other side. -/
def PC.isC2 (p : Nat) (x : Side) : PC → Bool
  | .c2 q y _ => decide (q = p ∧ y = x)
  | _ => false

/-- Has closed the channel of the other side, not yet its own. -/
def PC.half (p : Nat) (x : Side) : PC → Bool
  | .c3 q y _ | .c4 q y _ | .c5 q y _ => decide (q = p ∧ y = x)
  | _ => false

/-- Has closed both channels. -/
def PC.isC6 (p : Nat) : PC → Bool
  | .c6 q _ _ => decide (q = p)
  | _ => false

/-- In `Dial`, past the check of the status. -/
def PC.dialling (p : Nat) : PC → Bool
  | .d3 q | .d4 q | .d5 q | .d6 q | .d7 q => decide (q = p)
  | _ => false

/-- The state of the channels of a pair. -/
structure Shut (g : G) (ts : List PC) (p : Nat) : Prop where
  excl : Excl (PC.closing p) ts
  live : g.connected p = true ∨ Ev.dialEnd p true ∉ g.log → ∀ x, (g.sock p x).chan.closed = false
  c2 : ∀ a ∈ ts, ∀ x, a.isC2 p x = true → ∀ y, (g.sock p y).chan.closed = false
  half : ∀ a ∈ ts, ∀ x, a.half p x = true →
    (g.sock p x).chan.closed = false ∧ (g.sock p x.other).chan.closed = true
  c6 : ∀ a ∈ ts, a.isC6 p = true → ∀ y, (g.sock p y).chan.closed = true
  over : ∀ a ∈ ts, a.handsOver p = true → g.connected p = true
  dialling : ∀ a ∈ ts, a.dialling p = true → g.connected p = true
  done : Ev.dialEnd p true ∈ g.log → g.connected p = false → (∀ a ∈ ts, a.closing p = false) →
    g.listed p = false ∧ ∀ y, (g.sock p y).chan.closed = true

theorem Shut.perm (h : Shut g ts p) {ts' : List PC} (hp : ts.Perm ts') : Shut g ts' p := by
  have hm : ∀ a, a ∈ ts' ↔ a ∈ ts := fun a => hp.mem_iff.symm
  obtain ⟨h1, h2, h3, h4, h5, h6, h7, h8⟩ := h
  constructor
  · exact h1.perm hp
  all_goals (try simp only [hm]) <;> assumption

/-- How `closed` changes. -/
theorem Acts.closed (ha : Acts g pc g' pcs) (p : Nat) (x : Side) :
    (g'.sock p x).chan.closed = (g.sock p x).chan.closed ∨
    ((g'.sock p x).chan.closed = true ∧ (pc.isC2 p x.other = true ∨ pc.half p x = true)) ∨
    ((g'.sock p x).chan.closed = false ∧ pc.dialling p = true) := by
  cases ha <;> simp [PC.isC2, PC.half, PC.dialling, Sock.chan, Sock.setChan, Sock.reset, Sock.put] <;>
    grind [Sock.chan, Side.other_other]

/-- How the status changes. -/
theorem Acts.conn (ha : Acts g pc g' pcs) (p : Nat) :
    g'.connected p = g.connected p ∨
    (g.connected p = true ∧ g'.connected p = false ∧ ∃ x k, pc = .c1 p x k ∧ pcs = [.c2 p x k]) ∨
    (g.connected p = false ∧ g'.connected p = true ∧ pc = .d2 p ∧ pcs = [.d3 p]) := by
  cases ha <;> simp <;> grind

/-- How the log changes. -/
theorem Acts.logs (ha : Acts g pc g' pcs) {e : Ev} (h : e ∈ g.log) : e ∈ g'.log := by
  cases ha <;> first | exact h | (simp; grind)

theorem Acts.dialEnd (ha : Acts g pc g' pcs) (p : Nat) (h : Ev.dialEnd p true ∈ g'.log) :
    Ev.dialEnd p true ∈ g.log ∨ (pc = .d7 p ∧ pcs = []) := by
  cases ha <;> simp at h ⊢ <;> grind

theorem Acts.listed (ha : Acts g pc g' pcs) (p : Nat) :
    g'.listed p = g.listed p ∨ (g'.listed p = false ∧ pc.isC6 p = true) ∨ (g'.listed p = true ∧ pc = .d7 p) := by
  cases ha <;> simp [PC.isC6] <;> grind

theorem Acts.length (ha : Acts g pc g' pcs) : pcs = [] ∨ ∃ b, pcs = [b] := by
  cases ha <;> simp

theorem Acts.closers (ha : Acts g pc g' pcs) (p : Nat) :
    (∀ b ∈ pcs, b.closing p = true → pc.closing p = true ∨ g.connected p = true) ∧
    (∀ b ∈ pcs, ∀ x, b.isC2 p x = true → (pc.isC2 p x = true ∨ g.connected p = true) ∧
      ∀ y, g'.sock p y = g.sock p y) ∧
    (∀ b ∈ pcs, ∀ x, b.half p x = true → (pc.isC2 p x = true ∧ (g'.sock p x.other).chan.closed = true ∧
      (g'.sock p x).chan.closed = (g.sock p x).chan.closed) ∨
      (pc.half p x = true ∧ ∀ y, (g'.sock p y).chan.closed = (g.sock p y).chan.closed)) ∧
    (∀ b ∈ pcs, b.isC6 p = true → ∃ x, pc.half p x = true ∧ (g'.sock p x).chan.closed = true ∧
      (g'.sock p x.other).chan.closed = (g.sock p x.other).chan.closed) ∧
    (∀ b ∈ pcs, b.handsOver p = true → pc.handsOver p = true ∨ g.connected p = true) ∧
    (∀ b ∈ pcs, b.dialling p = true → pc.dialling p = true ∨ g'.connected p = true) ∧
    (pc.closing p = true → (pc.isC6 p = true ∧ g'.listed p = false ∧
      ∀ y, (g'.sock p y).chan.closed = (g.sock p y).chan.closed) ∨ ∃ b ∈ pcs, b.closing p = true) := by
  refine ⟨?_, ?_, ?_, ?_, ?_, ?_, ?_⟩
  · cases ha <;> simp [PC.closing] <;> grind
  · cases ha <;> simp [PC.isC2] <;> grind
  · cases ha <;> simp [PC.isC2, PC.half, Sock.chan, Sock.setChan, Sock.reset, Sock.put] <;>
      grind [Sock.chan, Side.other_other, Side.other_ne]
  · cases ha <;> simp [PC.isC6, PC.half, Sock.chan, Sock.setChan, Sock.reset, Sock.put] <;>
      grind [Sock.chan, Side.other_other, Side.other_ne]
  · cases ha <;> simp [PC.handsOver] <;> grind
  · cases ha <;> simp [PC.dialling] <;> grind
  · cases ha <;> simp [PC.closing, PC.isC6, Sock.chan, Sock.setChan, Sock.reset, Sock.put] <;> grind [Sock.chan]

theorem half_closing {a : PC} (h : a.half p x = true) : a.closing p = true := by
  cases a <;> simp_all [PC.half, PC.closing]
theorem isC2_closing {a : PC} (h : a.isC2 p x = true) : a.closing p = true := by
  cases a <;> simp_all [PC.isC2, PC.closing]
theorem isC6_closing {a : PC} (h : a.isC6 p = true) : a.closing p = true := by
  cases a <;> simp_all [PC.isC6, PC.closing]
theorem closing_uses {a : PC} (h : a.closing p = true) : a.uses p = true := by
  cases a <;> simp_all [PC.uses, PC.closing]
theorem dialling_dials {a : PC} (h : a.dialling p = true) : a.dials p = true := by
  cases a <;> simp_all [PC.dialling, PC.dials]

/-- When a step panics. -/
theorem Acts.crash (ha : Acts g pc g' pcs) : g'.crashed = g.crashed ∨
    ∃ p x, (g.sock p x).chan.closed = true ∧
      (pc.handsOver p = true ∨ pc.isC2 p x.other = true ∨ pc.half p x = true) := by
  cases ha <;> (try exact .inl rfl)
  case w7a p x _ h => exact .inr ⟨p, x.other, h, by simp [PC.handsOver]⟩
  case c2a p x _ h1 h => exact .inr ⟨p, x.other, h, by simp [PC.isC2]⟩
  case c5a p x _ h1 h => exact .inr ⟨p, x, h, by simp [PC.half]⟩

/-- No step panics, if writers are not in the way of `Close`. -/
theorem Shut.noCrash (h : ∀ p, Shut g (pc :: rest) p) (hc : g.crashed = none)
    (ha : Acts g pc g' pcs) : g'.crashed = none := by
  rcases ha.crash with e | ⟨p, x, hcl, hh | hh | hh⟩
  · rw [e, hc]
  · have := (h p).live (.inl ((h p).over pc List.mem_cons_self hh)) x
    rw [hcl] at this; cases this
  · have := (h p).c2 pc List.mem_cons_self _ hh x
    rw [hcl] at this; cases this
  · have := ((h p).half pc List.mem_cons_self _ hh).1
    rw [hcl] at this; cases this

theorem Shut.acts (hl : Life g (pc :: rest) p) (h : Shut g (pc :: rest) p) (ha : Acts g pc g' pcs)
    (hok : ∀ x k, pc = .c1 p x k → ∀ a ∈ rest, a.handsOver p = false) : Shut g' (pcs ++ rest) p := by
  obtain ⟨t1, t2, t3, t4, t5, t6, t7⟩ := ha.closers p
  have tcl := ha.closed p
  have tcn := ha.conn p
  have tlog : ∀ e, e ∈ g.log → e ∈ g'.log := fun e h => ha.logs h
  have tde := ha.dialEnd p
  have tli := ha.listed p
  have tlen := ha.length
  clear ha
  -- the goroutines that are not the one making a step
  have hex := (Excl.cons.mp h.excl).1
  have alone : ∀ a ∈ rest, a.closing p = true → pc.closing p = false := by
    intro a ha hc
    cases hp : pc.closing p
    · rfl
    · rw [hex hp a ha] at hc; cases hc
  have closingConn : ∀ a ∈ rest, a.closing p = true → g.connected p = false :=
    fun a ha hc => hl.closing a (List.mem_cons_of_mem _ ha) hc
  have pcClosing : pc.closing p = true → g.connected p = false ∧ Ev.dialEnd p true ∈ g.log := fun hc =>
    ⟨hl.closing pc List.mem_cons_self hc, hl.uses pc List.mem_cons_self (closing_uses hc)⟩
  have pcDialling : pc.dialling p = true → Ev.dialEnd p true ∉ g.log := fun hd =>
    hl.dials pc List.mem_cons_self (dialling_dials hd)
  -- closing by others does not change
  have keep : ∀ a ∈ rest, a.closing p = true → ∀ y, (g'.sock p y).chan.closed = (g.sock p y).chan.closed := by
    intro a ha hc y
    have h1 := alone a ha hc
    rcases tcl y with e | ⟨-, e | e⟩ | ⟨-, e⟩
    · exact e
    · rw [isC2_closing e] at h1; cases h1
    · rw [half_closing e] at h1; cases h1
    · exact absurd (hl.uses a (List.mem_cons_of_mem _ ha) (closing_uses hc)) (pcDialling e)
  constructor
  · -- excl
    have hrest := (Excl.cons.mp h.excl).2
    rcases tlen with rfl | ⟨b, rfl⟩
    · simpa using hrest
    · refine Excl.cons.mpr ⟨fun hb a ha => ?_, hrest⟩
      cases hca : a.closing p
      · rfl
      · rcases t1 b (by simp) hb with h1 | h1
        · rw [alone a ha hca] at h1; cases h1
        · rw [closingConn a ha hca] at h1; cases h1
  · -- live
    intro hh y
    have old : g.connected p = true ∨ Ev.dialEnd p true ∉ g.log := by
      rcases hh with hh | hh
      · rcases tcn with e | ⟨e, -⟩ | ⟨-, -, e, -⟩
        · left; rw [← e]; exact hh
        · exact .inl e
        · right; exact hl.dials pc List.mem_cons_self (by rw [e]; simp [PC.dials])
      · exact .inr fun h => hh (tlog _ h)
    have h0 := h.live old y
    have contra : pc.closing p = true → False := by
      intro hc
      have := pcClosing hc
      rcases old with o | o
      · rw [this.1] at o; cases o
      · exact o this.2
    rcases tcl y with e | ⟨-, e | e⟩ | ⟨e, -⟩
    · rw [e]; exact h0
    · exact (contra (isC2_closing e)).elim
    · exact (contra (half_closing e)).elim
    · exact e
  · -- c2
    intro a ha z hz y
    rcases List.mem_append.mp ha with ha | ha
    · obtain ⟨h1, h2⟩ := t2 a ha z hz
      rw [h2]
      rcases h1 with h1 | h1
      · exact h.c2 pc List.mem_cons_self z h1 y
      · exact h.live (.inl h1) y
    · rw [keep a ha (isC2_closing hz)]
      exact h.c2 a (List.mem_cons_of_mem _ ha) z hz y
  · -- half
    intro a ha z hz
    rcases List.mem_append.mp ha with ha | ha
    · rcases t3 a ha z hz with ⟨h1, h2, h3⟩ | ⟨h1, h2⟩
      · exact ⟨by rw [h3]; exact h.c2 pc List.mem_cons_self _ h1 z, h2⟩
      · rw [h2, h2]; exact h.half pc List.mem_cons_self z h1
    · rw [keep a ha (half_closing hz), keep a ha (half_closing hz)]
      exact h.half a (List.mem_cons_of_mem _ ha) z hz
  · -- c6
    intro a ha hz y
    rcases List.mem_append.mp ha with ha | ha
    · obtain ⟨z, h1, h2, h3⟩ := t4 a ha hz
      rcases Side.eq_or y z with rfl | rfl
      · exact h2
      · rw [h3]; exact (h.half pc List.mem_cons_self z h1).2
    · rw [keep a ha (isC6_closing hz)]
      exact h.c6 a (List.mem_cons_of_mem _ ha) hz y
  · -- over
    intro a ha hz
    have old : g.connected p = true := by
      rcases List.mem_append.mp ha with ha | ha
      · rcases t5 a ha hz with h1 | h1
        · exact h.over pc List.mem_cons_self h1
        · exact h1
      · exact h.over a (List.mem_cons_of_mem _ ha) hz
    rcases tcn with e | ⟨-, -, z, k, rfl, rfl⟩ | ⟨-, e, -⟩
    · rw [e]; exact old
    · rcases List.mem_append.mp ha with ha | ha
      · simp at ha; subst ha; simp [PC.handsOver] at hz
      · rw [hok z k rfl a ha] at hz; cases hz
    · exact e
  · -- dialling
    intro a ha hz
    rcases List.mem_append.mp ha with ha | ha
    · rcases t6 a ha hz with h1 | h1
      · have := h.dialling pc List.mem_cons_self h1
        rcases tcn with e | ⟨-, -, z, k, rfl, rfl⟩ | ⟨-, e, -⟩
        · rw [e]; exact this
        · simp [PC.dialling] at h1
        · exact e
      · exact h1
    · have := h.dialling a (List.mem_cons_of_mem _ ha) hz
      have hnd := hl.dials a (List.mem_cons_of_mem _ ha) (dialling_dials hz)
      rcases tcn with e | ⟨-, -, z, k, rfl, rfl⟩ | ⟨-, e, -⟩
      · rw [e]; exact this
      · exact absurd (hl.uses _ List.mem_cons_self (by simp [PC.uses])) hnd
      · exact e
  · -- done
    intro hd hc hn
    cases hpc : pc.closing p
    · have old : g.connected p = false := by
        rcases tcn with e | ⟨-, -, z, k, rfl, rfl⟩ | ⟨e, -⟩
        · rw [← e]; exact hc
        · have := hn (.c2 p z k) (by simp); simp [PC.closing] at this
        · exact e
      have hnd : pc.dialling p = true → False := by
        intro h1; have := h.dialling pc List.mem_cons_self h1; rw [old] at this; cases this
      have hd' : Ev.dialEnd p true ∈ g.log := by
        rcases tde hd with h1 | ⟨rfl, -⟩
        · exact h1
        · exact (hnd (by simp [PC.dialling])).elim
      have := h.done hd' old (by
        intro a ha
        rcases List.mem_cons.mp ha with rfl | ha
        · exact hpc
        · exact hn a (List.mem_append.mpr (.inr ha)))
      refine ⟨?_, fun y => ?_⟩
      · rcases tli with e | ⟨e, -⟩ | ⟨-, rfl⟩
        · rw [e]; exact this.1
        · exact e
        · exact (hnd (by simp [PC.dialling])).elim
      · rcases tcl y with e | ⟨e, -⟩ | ⟨-, e⟩
        · rw [e]; exact this.2 y
        · exact e
        · exact (hnd e).elim
    · rcases t7 hpc with ⟨h1, h2, h3⟩ | ⟨b, hb, hbc⟩
      · refine ⟨h2, fun y => ?_⟩
        rw [h3]; exact h.c6 pc List.mem_cons_self h1 y
      · rw [hn b (List.mem_append.mpr (.inl hb))] at hbc; cases hbc

theorem Shut.initial (size p : Nat) : Shut (init size).g (init size).threads p := by
  constructor <;> simp [init, G.sock, Sock.chan, Excl.nil]

theorem Shut.add {a : PC} (h : Shut g ts p) (h1 : a.closing p = false) (h2 : a.handsOver p = false)
    (h3 : a.dialling p = false) : Shut g (a :: ts) p := by
  obtain ⟨g1, g2, g3, g4, g5, g6, g7, g8⟩ := h
  have hc2 : ∀ x, a.isC2 p x = false := by
    intro x; cases he : a.isC2 p x
    · rfl
    · rw [isC2_closing he] at h1; cases h1
  have hc3 : ∀ x, a.half p x = false := by
    intro x; cases he : a.half p x
    · rfl
    · rw [half_closing he] at h1; cases h1
  have hc6 : a.isC6 p = false := by
    cases he : a.isC6 p
    · rfl
    · rw [isC6_closing he] at h1; cases h1
  constructor
  · exact Excl.cons.mpr ⟨fun h => (by rw [h1] at h; cases h), g1⟩
  · exact g2
  · simpa [hc2] using g3
  · simpa [hc3] using g4
  · simpa [hc6] using g5
  · simpa [h2] using g6
  · simpa [h3] using g7
  · simpa [h1] using g8

end

/-- If no pair is closed while a writer hands over its message, nothing panics. -/
theorem Shut.reachable {ok : State → Label → Prop} (hok : ∀ s l, ok s l → CalmClose s l) {size : Nat} {s : State}
    (h : ReachableIf size ok s) :
    (∀ p, Life s.g s.threads p) ∧ (∀ p, Shut s.g s.threads p) ∧ s.g.crashed = none := by
  refine From.inv (ok := ok)
    (I := fun g ts => (∀ p, Life g ts p) ∧ (∀ p, Shut g ts p) ∧ g.crashed = none) ?_ ?_ ?_ ?_ ?_ ?_ ?_ ?_ ?_
    ⟨(Inv.initial size).life, fun p => Shut.initial size p, rfl⟩ h
  · exact fun g ts ts' h hp => ⟨fun p => (h.1 p).perm hp, fun p => (h.2.1 p).perm hp, h.2.2⟩
  · intro g pc rest ts ch conns g' pcs h hp hcr ho ha
    refine ⟨fun p => (h.1 p).acts ha, fun p => (h.2.1 p).acts (h.1 p) ha ?_, Shut.noCrash h.2.1 h.2.2 ha⟩
    rintro x k rfl a hm
    exact (hok _ _ ho).2 a (hp.mem_iff.mpr (List.mem_cons_of_mem _ hm))
  · intro g ts q z c h ho
    exact ⟨fun p => (h.1 p).add (by simp [PC.uses]; rintro rfl; exact (hok _ _ ho).1) (by simp [PC.dials]) rfl,
      fun p => (h.2.1 p).add rfl rfl rfl, h.2.2⟩
  · intro g ts q z c h ho
    exact ⟨fun p => (h.1 p).add (by simp [PC.uses]; rintro rfl; exact (hok _ _ ho).1) (by simp [PC.dials]) rfl,
      fun p => (h.2.1 p).add rfl rfl rfl, h.2.2⟩
  · intro g ts q h ho
    have ho := (hok _ _ ho).1
    exact ⟨fun p => (h.1 p).add (by simp [PC.uses]) (by simp [PC.dials]; rintro rfl; exact ⟨ho.2, ho.1⟩) rfl,
      fun p => (h.2.1 p).add rfl rfl rfl, h.2.2⟩
  · intro g ts q z h ho
    have ho := (hok _ _ ho).1
    exact ⟨fun p => (h.1 p).add (by simp [PC.uses, Cont.uses]; rintro rfl; exact ho) (by simp [PC.dials]) rfl,
      fun p => (h.2.1 p).add rfl rfl rfl, h.2.2⟩
  · exact fun g ts h _ => ⟨fun p => (h.1 p).add (by simp [PC.uses]) (by simp [PC.dials]) rfl,
      fun p => (h.2.1 p).add rfl rfl rfl, h.2.2⟩
  · exact fun g ts h _ => ⟨fun p => (h.1 p).add (by simp [PC.uses]) (by simp [PC.dials]) rfl,
      fun p => (h.2.1 p).add rfl rfl rfl, h.2.2⟩
  · intro g ts h _
    refine ⟨fun p => ?_, fun p => ?_, h.2.2⟩
    · obtain ⟨h1, h2, h3, h4, h5⟩ := h.1 p; exact ⟨h1, h2, h3, h4, h5⟩
    · obtain ⟨h1, h2, h3, h4, h5, h6, h7, h8⟩ := h.2.1 p; exact ⟨h1, h2, h3, h4, h5, h6, h7, h8⟩

/-- Sends on the channel of that side. -/
def PC.sends (p : Nat) (x : Side) : PC → Bool
  | .w7 q y _ => decide (q = p ∧ y.other = x)
  | _ => false

/-- The reader lock is held only by a writer about to send. -/
theorem readerLock_reachable {ok : State → Label → Prop} {size : Nat} {s : State} (h : ReachableIf size ok s) (p : Nat)
    (x : Side) : (s.g.sock p x).readerLock = true → ∃ a ∈ s.threads, a.sends p x = true := by
  refine From.inv (ok := ok) (I := fun g ts => (g.sock p x).readerLock = true → ∃ a ∈ ts, a.sends p x = true)
    ?_ ?_ ?_ ?_ ?_ ?_ ?_ ?_ ?_ (by simp [init, G.sock]) h
  · intro g ts ts' h hp hl
    obtain ⟨a, ha, hs⟩ := h hl
    exact ⟨a, hp.mem_iff.mp ha, hs⟩
  · intro g pc rest ts ch conns g' pcs h _ _ _ ha hl
    have key : (∃ b ∈ pcs, b.sends p x = true) ∨ ((g.sock p x).readerLock = true ∧ pc.sends p x = false) := by
      clear h
      cases ha <;> simp [PC.sends, Sock.setChan, Sock.reset, Sock.put] at hl ⊢ <;> grind [Side.other_other]
    rcases key with ⟨b, hb, hs⟩ | ⟨h1, h2⟩
    · exact ⟨b, List.mem_append.mpr (.inl hb), hs⟩
    · obtain ⟨a, ha, hs⟩ := h h1
      rcases List.mem_cons.mp ha with rfl | ha
      · rw [h2] at hs; cases hs
      · exact ⟨a, List.mem_append.mpr (.inr ha), hs⟩
  · intro g ts q z c h _ hl; obtain ⟨a, ha, hs⟩ := h hl; exact ⟨a, List.mem_cons_of_mem _ ha, hs⟩
  · intro g ts q z c h _ hl; obtain ⟨a, ha, hs⟩ := h hl; exact ⟨a, List.mem_cons_of_mem _ ha, hs⟩
  · intro g ts q h _ hl; obtain ⟨a, ha, hs⟩ := h hl; exact ⟨a, List.mem_cons_of_mem _ ha, hs⟩
  · intro g ts q z h _ hl; obtain ⟨a, ha, hs⟩ := h hl; exact ⟨a, List.mem_cons_of_mem _ ha, hs⟩
  · intro g ts h _ hl; obtain ⟨a, ha, hs⟩ := h hl; exact ⟨a, List.mem_cons_of_mem _ ha, hs⟩
  · intro g ts h _ hl; obtain ⟨a, ha, hs⟩ := h hl; exact ⟨a, List.mem_cons_of_mem _ ha, hs⟩
  · exact fun g ts h _ hl => h hl

/-- After `Close` returned the pair has been dialled, and is not connected. -/
theorem closeEnd_reachable {ok : State → Label → Prop} (hok : ∀ s l, ok s l → OneLife s l) {size : Nat} {s : State}
    (h : ReachableIf size ok s) (p : Nat) (x : Side) :
    Ev.closeEnd p x ∈ s.g.log → s.g.connected p = false ∧ Ev.dialEnd p true ∈ s.g.log := by
  suffices ∀ s, ReachableIf size ok s → (Ev.closeEnd p x ∈ s.g.log → s.g.connected p = false ∧ Ev.dialEnd p true ∈ s.g.log)
    from this s h
  intro s h
  induction h with
  | start => simp [init]
  | step s1 l s2 hr ho hst ih =>
    have hl := (From.oneLife hok hr).life p
    cases hst with
    | thread g g' pre post pcs pc ch conns hcr hsn hact =>
      have ha := acts_of_act hact hsn
      simp only at ih hl ⊢
      have hm : pc ∈ pre ++ pc :: post := by simp
      have h1 := hl.uses pc hm
      have h2 := hl.dials pc hm
      have h3 := hl.closing pc hm
      clear hl hr ho hact hsn hm
      intro hc
      refine ⟨?_, ?_⟩
      · cases ha <;> simp [PC.uses, PC.dials, PC.closing] at h1 h2 h3 hc ⊢ <;> grind
      · cases ha <;> simp [PC.uses, PC.dials, PC.closing] at h1 h2 h3 hc ⊢ <;> grind
    | _ => exact ih

end Webwire.Mem
